import Verif.Heap.PackageDirModel
import Verif.Heap.PackageProps
import Verif.Abrt.Props
/-!
# Packages of a problem directory in memory
-/
namespace Satyr.Heap
open Satyr.CStr
open Satyr.Rpm (Package)
open Satyr.Abrt (Dir stripNewline)

/-! ## Specification -/

/-- Memory `m'` is memory `m` with `k` messages in addition, and nothing else. Each took the place of the one before as the message
that can be freed: the first was `e`, the last is `e'`. -/
inductive Told : Mem → Ptr → Nat → Mem → Ptr → Prop
  | nil {m e} : Told m e 0 m e
  | more {m e k m' e' q} : Told m e k m' e' → q ≠ 0 → m' q = none → Told m e (k + 1) (m'.set q (some (.text []))) q

/-- 1 if the file cannot be read. -/
def unread (d : Dir) (name : Str) : Nat := if d.contents name = none then 1 else 0

/-! ## Files -/

theorem fileText_spec (A : Allocator) (d : Dir) (name : Str) (m : Mem) (e : Ptr) : fileText A d name m e = .abort ∨
    match d.contents name with
    | some s => ∃ q m', fileText A d name m e = .ok (q, m', e) ∧ Holding m q s m'
    | none => ∃ q m', fileText A d name m e = .ok (0, m', q) ∧ Holding m q [] m' := by
  rw [fileText]
  rcases newText A name m with a | ⟨path, m₁, a, h1⟩
  · rw [a]; exact .inl rfl
  rw [a, bind_ok]
  dsimp only
  have key : ∀ (s : Str) (k : Ptr → Mem → Out (Ptr × Mem × Ptr)),
      ((alloc A (.text s) m₁).bind fun (q, m) => (freeBlock m path).bind fun m => k q m) = .abort ∨
      ∃ q m', ((alloc A (.text s) m₁).bind fun (q, m) => (freeBlock m path).bind fun m => k q m) = k q m' ∧ Holding m q s m' := by
    intro s k
    rcases newText A s m₁ with a | ⟨q, m₂, a, h2⟩
    · rw [a]; exact .inl rfl
    rw [a, bind_ok]
    dsimp only
    obtain ⟨m₃, h3, h4⟩ := h1.below h2
    rw [freeBlock_text h4, bind_ok]
    exact .inr ⟨q, m₃, rfl, h3⟩
  cases d.contents name with
  | none =>
    rcases key [] (fun q m => .ok (0, m, q)) with a | ⟨q, m', a, h⟩
    · exact .inl a
    · exact .inr ⟨q, m', a, h⟩
  | some s =>
    rcases key s (fun q m => .ok (q, m, e)) with a | ⟨q, m', a, h⟩
    · exact .inl a
    · exact .inr ⟨q, m', a, h⟩

theorem fileExist_spec (A : Allocator) (d : Dir) (name : Str) (m : Mem) : fileExist A d name m = .abort ∨ fileExist A d name m = .ok (d.exist name, m) := by
  rw [fileExist]
  rcases newText A name m with a | ⟨path, m₁, a, h1⟩
  · rw [a]; exact .inl rfl
  rw [a, bind_ok]
  dsimp only
  rw [freeBlock_text h1, bind_ok]
  exact .inr rfl

/-! ## The package itself -/

theorem free_before {m₀ m : Mem} {q : Ptr} (h : Ext m₀ m) (hq : m q = none) : m₀ q = none := by
  by_contra c
  rw [h q c] at hq
  exact c hq

theorem set_nothing {α : Type} : ∀ {l : List (Option α)} {i : Nat}, l[i]? = some none → l.set i none = l
  | [], _, h => by simp at h
  | a :: l, 0, h => by simp at h; simp [h]
  | a :: l, i + 1, h => by rw [List.set_cons_succ, set_nothing (by simpa using h)]

theorem fileMember_spec (A : Allocator) (d : Dir) {i : Nat} {name : Str} {b m₀ m : Mem} {p e₀ e : Ptr} {k : Nat} {x : Part} (ht : Told b e₀ k m₀ e)
    (h : Built .package .null m₀ m p x) (hi : x.texts[i]? = some none) : fileMember A d i name p m e = .abort ∨
    ∃ m₁ m' e', fileMember A d i name p m e = .ok (m', e') ∧ Told b e₀ (k + unread d name) m₁ e' ∧
      Built .package .null m₁ m' p { x with texts := x.texts.set i (d.contents name) } := by
  rw [fileMember, unread]
  rcases fileText_spec A d name m e with a | hf
  · rw [a]; exact .inl rfl
  cases hc : d.contents name with
  | some s =>
    rw [hc] at hf
    obtain ⟨q, m', a, hq⟩ := hf
    rw [a, bind_ok]
    dsimp only
    obtain ⟨m₂, a, hb⟩ := setText_spec h (t := some s) hq hi
    rw [a, bind_ok]
    exact .inr ⟨m₀, m₂, e, rfl, by simpa using ht, hb⟩
  | none =>
    rw [hc] at hf
    obtain ⟨q, m', a, hq⟩ := hf
    rw [a, bind_ok]
    dsimp only
    have h0 : m₀ q = none := free_before h.ext hq.2.1
    have hb : Built .package .null (m₀.set q (some (.text []))) m' p x := h.rebase hq.adds (by rw [hq.2.2, set_eq])
    obtain ⟨m₂, a, hb⟩ := setText_spec hb (t := none) (q := 0) ⟨rfl, rfl⟩ hi
    rw [a, bind_ok]
    exact .inr ⟨_, m₂, q, rfl, by simpa using ht.more hq.1 h0, hb⟩

theorem Texts.write {m : Mem} {ss ps f} (h : Texts m ss ps f) (s' : Str) : ∀ {i : Nat} {s : Str}, f.Nodup → ss[i]? = Option.some (Option.some s) →
    ps.getD i 0 ∈ f ∧ m (ps.getD i 0) = Option.some (.text s) ∧
    Texts (m.set (ps.getD i 0) (Option.some (.text s'))) (ss.set i (Option.some s')) ps f := by
  induction h with
  | nil => intro i s _ hi; simp at hi
  | null h ih =>
    intro i s hf hi
    cases i with
    | zero => simp at hi
    | succ i =>
      obtain ⟨h1, h2, h3⟩ := ih hf (by simpa using hi)
      exact ⟨h1, h2, .null h3⟩
  | @some s₀ p ss ps f h0 h1 h ih =>
    intro i s hf hi
    obtain ⟨hp, hf⟩ := List.nodup_cons.1 hf
    cases i with
    | zero =>
      have hi : s₀ = s := by simpa using hi
      subst hi
      refine ⟨by simp, h1, .some h0 (set_eq _ _ _) (h.congr fun x hx => set_ne _ _ fun e => hp ?_)⟩
      have e : x = p := e
      exact e ▸ hx
    | succ i =>
      obtain ⟨k1, k2, k3⟩ := ih hf (by simpa using hi)
      refine ⟨List.mem_cons_of_mem _ k1, k2, .some h0 ?_ k3⟩
      have hne : p ≠ ps.getD i 0 := fun e => hp (e ▸ k1)
      show m.set (ps.getD i 0) _ p = _
      rw [set_ne _ _ hne, h1]

theorem cutMember_spec {m₀ m : Mem} {p : Ptr} {x : Part} (h : Built .package .null m₀ m p x) {i : Nat} {s : Str} (hi : x.texts[i]? = some (some s)) :
    ∃ m', cutMember i p m = .ok m' ∧ Built .package .null m₀ m' p { x with texts := x.texts.set i (some (stripNewline s)) } := by
  obtain ⟨hok, r, fs, fa, fb, fc, fe, h0, h1, h2, h3, h4, ha, hb, hc, he, hn, hw, hadds⟩ := h
  have hnd := hadds.nodup
  rw [List.nodup_cons, List.nodup_append] at hnd
  obtain ⟨hp, hfs, hrest, hdis⟩ := hnd
  obtain ⟨k1, k2, k3⟩ := h4.write (stripNewline s) hfs hi
  have hpne : p ≠ r.texts.getD i 0 := fun e => hp (List.mem_append_left _ (e ▸ k1))
  have keep : ∀ {l : List Ptr}, (∀ y ∈ l, y ∈ fa ++ (fb ++ (fc ++ fe))) → ∀ y ∈ l,
      m.set (r.texts.getD i 0) (some (.text (stripNewline s))) y = m y := fun hl y hy => set_ne _ _ fun e => hdis _ k1 y (hl y hy) e.symm
  refine ⟨m.set (r.texts.getD i 0) (some (.text (stripNewline s))), ?_, ?_⟩
  · rw [cutMember, readRecord, h1]
    dsimp only
    rw [bind_ok, readText, k2]
    rfl
  · have ha' := ha.congr (keep (l := fa) (by simp +contextual))
    refine ⟨⟨by simpa using hok.length, hok.a, hok.b, hok.c, hok.e, hok.sizeA, hok.sizeB, hok.sizeC, hok.sizeE, hok.crash⟩, r, fs, fa, fb, fc, fe, h0,
      by rw [set_ne _ _ hpne, h1], h2, h3, k3, ha', hb.congr (keep (by simp +contextual)), hc.congr (keep (by simp +contextual)),
      he.congr (keep (by simp +contextual)), hn, ?_, adds_same hadds (fun y hy => set_ne _ _ fun e => hy (List.mem_cons_of_mem _ (List.mem_append_left _ (e ▸ k1)))) fun y hy => ?_⟩
    · cases hcr : x.crash with
      | none => rw [hw, hcr]; rfl
      | some c => exact absurd (hok.crash c hcr).2 (by decide)
    · by_cases c : y = r.texts.getD i 0
      · rw [c, set_eq]; simp
      · rw [set_ne _ _ c]; exact hadds.used y hy


theorem Texts.missing {m : Mem} {ss ps f} (h : Texts m ss ps f) : 0 ∈ ps ↔ Option.none ∈ ss := by
  induction h with
  | nil => simp
  | null h ih => simp
  | some h0 h1 h ih => simp [ih, Ne.symm h0]

theorem packageEnd_spec {m₀ m : Mem} {p : Ptr} {x : Part} (h : Built .package .null m₀ m p x) (hx : x.a = .nil ∧ x.b = .nil ∧ x.c = .nil ∧ x.e = .nil) (e : Ptr) :
    (none ∈ x.texts → packageEnd p m e = .ok (0, m₀, e)) ∧
    ∀ a b c d, x.texts = [some a, some b, some c, some d] → ∃ m', packageEnd p m e = .ok (p, m', e) ∧
      Built .package .null m₀ m' p { x with texts := [some (stripNewline a), some (stripNewline b), some (stripNewline c), some (stripNewline d)] } := by
  have hr : ∃ r, readRecord m p = .ok r ∧ (0 ∈ r.texts ↔ none ∈ x.texts) := by
    obtain ⟨hok, r, fs, fa, fb, fc, fe, h0, h1, h2, h3, h4, _⟩ := h
    exact ⟨r, by rw [readRecord, h1], h4.missing⟩
  obtain ⟨r, hr, hz⟩ := hr
  rw [packageEnd, hr, bind_ok]
  constructor
  · intro hn
    rw [if_pos (hz.2 hn), h.release (by decide) (by
      obtain ⟨h1, h2, h3, h4⟩ := hx
      show 1 + x.a.size + x.b.size + x.c.size + x.e.size + 0 < 16
      rw [h1, h2, h3, h4]
      decide), bind_ok]
  · intro a b c d ht
    rw [if_neg (by rw [hz, ht]; simp)]
    obtain ⟨m₁, e1, h⟩ := cutMember_spec h (i := 0) (s := a) (by rw [ht]; rfl)
    rw [e1, bind_ok]
    obtain ⟨m₂, e2, h⟩ := cutMember_spec h (i := 1) (s := b) (by dsimp only; rw [ht]; rfl)
    rw [e2, bind_ok]
    obtain ⟨m₃, e3, h⟩ := cutMember_spec h (i := 2) (s := c) (by dsimp only; rw [ht]; rfl)
    rw [e3, bind_ok]
    obtain ⟨m₄, e4, h⟩ := cutMember_spec h (i := 3) (s := d) (by dsimp only; rw [ht]; rfl)
    rw [e4, bind_ok]
    exact ⟨m₄, rfl, by simp only [ht] at h; exact h⟩

/-- The number of files of the package that cannot be read, without that of the epoch. -/
def unreadMembers (d : Dir) : Nat := unread d c!"pkg_name" + unread d c!"pkg_version" + unread d c!"pkg_release" + unread d c!"pkg_arch"

theorem packageMembers_spec (A : Allocator) (d : Dir) (epoch : Nat) {b m₀ m : Mem} {p e₀ e : Ptr} {k : Nat} (ht : Told b e₀ k m₀ e)
    (h : Built .package .null m₀ m p blank) : packageMembers A d epoch p m e = .abort ∨
    ∃ m₁ e', Told b e₀ (k + unreadMembers d) m₁ e' ∧
      (0 < unreadMembers d → packageMembers A d epoch p m e = .ok (0, m₁, e')) ∧
      ∀ n v r a, d.contents c!"pkg_name" = some n → d.contents c!"pkg_version" = some v → d.contents c!"pkg_release" = some r →
        d.contents c!"pkg_arch" = some a → ∃ m', packageMembers A d epoch p m e = .ok (p, m', e') ∧
        Built .package .null m₁ m' p (packagePart { epoch := epoch % 2 ^ 32, name := some (stripNewline n), version := some (stripNewline v),
                                                    release := some (stripNewline r), architecture := some (stripNewline a), role := .affected }) := by
  rw [packageMembers]
  obtain ⟨m₁, e1, h⟩ := setData_spec h [((epoch % 2 ^ 32 : Nat) : Int), 0, 1]
  rw [e1, bind_ok]
  rcases fileMember_spec A d (i := 0) (name := c!"pkg_name") ht h rfl with a | ⟨b₁, m₁, e₁, a, ht, h⟩
  · rw [a]; exact .inl rfl
  rw [a, bind_ok]
  dsimp only
  rcases fileMember_spec A d (i := 1) (name := c!"pkg_version") ht h rfl with a | ⟨b₂, m₂, e₂, a, ht, h⟩
  · rw [a]; exact .inl rfl
  rw [a, bind_ok]
  dsimp only
  rcases fileMember_spec A d (i := 2) (name := c!"pkg_release") ht h rfl with a | ⟨b₃, m₃, e₃, a, ht, h⟩
  · rw [a]; exact .inl rfl
  rw [a, bind_ok]
  dsimp only
  rcases fileMember_spec A d (i := 3) (name := c!"pkg_arch") ht h rfl with a | ⟨b₄, m₄, e₄, a, ht, h⟩
  · rw [a]; exact .inl rfl
  rw [a, bind_ok]
  dsimp only
  obtain ⟨s1, s2⟩ := packageEnd_spec h ⟨rfl, rfl, rfl, rfl⟩ e₄
  refine .inr ⟨b₄, e₄, by rw [unreadMembers]; simpa only [Nat.add_assoc] using ht, fun hu => s1 ?_, fun n v r a h1 h2 h3 h4 => ?_⟩
  · show none ∈ [d.contents c!"pkg_name", d.contents c!"pkg_version", d.contents c!"pkg_release", d.contents c!"pkg_arch"]
    by_contra c
    simp only [List.mem_cons, not_or] at c
    obtain ⟨c1, c2, c3, c4, _⟩ := c
    rw [unreadMembers, unread, unread, unread, unread, if_neg (Ne.symm c1), if_neg (Ne.symm c2), if_neg (Ne.symm c3), if_neg (Ne.symm c4)] at hu
    omega
  · obtain ⟨m', a, hb⟩ := s2 n v r a (by rw [← h1, ← h2, ← h3, ← h4]; rfl)
    exact ⟨m', a, hb⟩

/-! ## Lists -/

theorem Packages.join {m₀ m m' : Mem} {l l' : List Package} {p q : Ptr} {n : Nat} (h : Packages m₀ m l p) (hb : Packages m m' l' q) (hn : l.length ≤ n) :
    ∃ r m₂, append n p q m' = .ok (r, m₂) ∧ Packages m₀ m₂ (l ++ l') r := by
  obtain ⟨f, h1, h2⟩ := h
  obtain ⟨g, k3, k4⟩ := hb
  have hA := h2.trans k4
  obtain ⟨r', m₂, e1, e2, e3, _⟩ := C101_append_partial n p q f g m' (packageChain l) (packageChain l')
    (by rw [(packageChain_spec l).2]; exact hn) (h1.ext k4.ext) k3 hA.nodup
  have hc : packageChain (l ++ l') = (packageChain l).append (packageChain l') := by
    unfold packageChain
    rw [List.map_append, chainsOf_append]
  refine ⟨r', m₂, e1, f ++ g, by rw [hc]; exact e2, adds_same hA (fun y hy => e3 y fun hf => hy (by simp [hf])) fun y hy => ?_⟩
  exact e2.used y hy

theorem Packages.zero {m₀ m : Mem} {l : List Package} {p : Ptr} (h : Packages m₀ m l p) : p = 0 ↔ l = [] := by
  obtain ⟨f, h, _⟩ := h
  cases l with
  | nil => exact ⟨fun _ => rfl, fun _ => h.1⟩
  | cons x l =>
    obtain ⟨q, fs, fa, fb, fc, fe, fn, h0, _⟩ := h
    simp [h0]

theorem Packages.base {m₀ m m' : Mem} {l : List Package} {p q : Ptr} {s : Str} (h : Packages m₀ m l p) (hq : Holding m q s m') :
    m₀ q = none ∧ Packages (m₀.set q (some (.text s))) m' l p := by
  obtain ⟨f, h1, h2⟩ := h
  refine ⟨free_before h2.ext hq.2.1, f, h1.ext hq.adds.ext, (h2.trans hq.adds).fewer ?_⟩
  rw [hq.2.2, set_eq]

theorem Packages.drop {m₀ m : Mem} {l : List Package} {p q : Ptr} {s : Str} (h0 : q ≠ 0) (hq : m₀ q = none)
    (h : Packages (m₀.set q (some (.text s))) m l p) : freeBlock m q = .ok (erase m [q]) ∧ Packages m₀ (erase m [q]) l p := by
  obtain ⟨f, h1, hA⟩ := h
  have hqf : q ∉ f := fun hx => by
    have := hA.fresh q hx
    rw [set_eq] at this
    cases this
  have hm : m q = some (.text s) := by rw [hA.same q hqf, set_eq]
  have keep : ∀ x, x ≠ q → erase m [q] x = m x := fun x hx => if_neg (by simpa using hx)
  have hne : ∀ x ∈ f, x ≠ q := fun x hx e => hqf (e ▸ hx)
  refine ⟨freeBlock_spec h0 (by rw [hm]; simp), f, h1.congr fun x hx => keep x (hne x hx), hA.nodup, fun x hx => ?_, fun x hx => ?_, fun x hx => ?_⟩
  · have := hA.fresh x hx
    rwa [set_ne _ _ (hne x hx)] at this
  · rw [keep x (hne x hx)]; exact hA.used x hx
  · by_cases c : x = q
    · subst c; rw [hq]; exact if_pos (by simp)
    · rw [keep x c, hA.same x hx, set_ne _ _ c]

/-- The packages of the program and of its libraries: nothing is added if the list of libraries names no package, otherwise all are sorted
and merged. -/
def Joined (own dsos libs : List Package) : Prop :=
  if dsos = [] then libs = own else ∃ s, Rpm.QsortResult Rpm.cmpNevra (own ++ dsos) s ∧ libs = Rpm.uniq s

/-- The packages of the program and of the libraries that the directory names. -/
def Libraries (d : Dir) (own libs : List Package) : Prop :=
  match d.exist c!"dso_list", d.contents c!"dso_list" with
  | true, some t => ∃ dsos, Rpm.parseDsoList t = .ok dsos ∧ Joined own dsos libs
  | _, _ => libs = own

/-- The number of messages about the file: 1 if there is such a file and it cannot be read. -/
def messages (d : Dir) (name : Str) : Nat := if d.exist name then unread d name else 0

theorem uniq_plain {l : List Package} (h : ∀ x ∈ l, x.consistency = []) : (Rpm.uniq l).length ≤ l.length ∧ ∀ x ∈ Rpm.uniq l, x.consistency = [] := by
  cases l with
  | nil => simp [Rpm.uniq]
  | cons x l => exact uniqLoop_plain l x h

theorem addAll_spec (A : Allocator) {qsort} (hq : IsQsort qsort) {n : Nat} {m₀ m m' : Mem} {own dsos : List Package} {p l : Ptr}
    (h1 : Packages m₀ m own p) (h2 : Packages m m' dsos l) (c1 : ∀ x ∈ own, x.consistency = []) (c2 : ∀ x ∈ dsos, x.consistency = [])
    (hn : own.length + dsos.length + 1 < n) : addAll A qsort n p l m' = .abort ∨
    ∃ libs r m₂, addAll A qsort n p l m' = .ok (r, m₂) ∧ Joined own dsos libs ∧ libs.length ≤ own.length + dsos.length ∧ Packages m₀ m₂ libs r := by
  rw [addAll]
  by_cases c : dsos = []
  · rw [if_pos (h2.zero.2 c)]
    refine .inr ⟨own, p, m', rfl, by rw [Joined, if_pos c], by omega, ?_⟩
    subst c
    obtain ⟨f, k1, k2⟩ := h2
    obtain ⟨_, rfl⟩ := k1
    obtain rfl : m = m' := (k2.erase).symm
    exact h1
  · rw [if_neg fun e => c (h2.zero.1 e)]
    obtain ⟨r, m₂, e, f, k1, k2⟩ := h1.join h2 (n := n) (by omega)
    rw [e, bind_ok]
    dsimp only
    have c3 : ∀ x ∈ own ++ dsos, x.consistency = [] := fun x hx => (List.mem_append.1 hx).elim (c1 x) (c2 x)
    rw [← packChain_plain c3] at k1
    rcases C151_sort_partial A hq k1 k2 (by simp [c]) (n := n) (by rw [List.length_append]; omega) with e | ⟨s, p', m₃, f', e, hs, h3, _, h4⟩
    · rw [e]; exact .inl rfl
    rw [e, bind_ok]
    dsimp only
    have c4 : ∀ x ∈ s, x.consistency = [] := fun x hx => c3 x (hs.1.subset hx)
    have n4 : s.length = own.length + dsos.length := by rw [hs.1.length_eq, List.length_append]
    obtain ⟨u1, u2⟩ := uniq_plain c4
    rcases C151_uniq A h3 h4 (n := n) (by rw [packChain_plain c4, (packageChain_spec s).2]; omega) with e | ⟨p'', m₄, f'', e, h5, h6⟩
    · rw [e]; exact .inl rfl
    rw [packChain_plain u2] at h5
    exact .inr ⟨Rpm.uniq s, p'', m₄, e, by rw [Joined, if_neg c]; exact ⟨s, hs, rfl⟩, by omega, f'', h5, h6⟩

theorem libraryFiles_spec (A : Allocator) {qsort} (hq : IsQsort qsort) {n : Nat} {d : Dir} {b m₀ m : Mem} {e₀ e p : Ptr} {k : Nat} {own : List Package}
    (ht : Told b e₀ k m₀ e) (h : Packages m₀ m own p) (c : ∀ x ∈ own, x.consistency = []) (ho : own.length ≤ 1) (hn : 1 ≤ n)
    (hd : ∀ t, d.contents c!"dso_list" = some t → (∃ l, Rpm.parseDsoList t = .ok l) ∧ t.length + 3 ≤ n) :
    libraryFiles A qsort n d p m e = .abort ∨ ∃ libs r m₁ m' e', Libraries d own libs ∧ libs.length ≤ n ∧
      libraryFiles A qsort n d p m e = .ok (decide (libs ≠ [] ∨ d.exist c!"dso_list" = false), r, m', e') ∧
      Told b e₀ (k + messages d c!"dso_list") m₁ e' ∧ Packages m₁ m' libs r := by
  rw [libraryFiles, messages]
  unfold Libraries
  rcases fileExist_spec A d c!"dso_list" m with a | a
  · rw [a]; exact .inl rfl
  rw [a, bind_ok]
  dsimp only
  cases hx : d.exist c!"dso_list" with
  | false =>
    rw [if_neg (by simp), if_neg (by simp)]
    exact .inr ⟨own, p, m₀, m, e, rfl, by omega, by simp, by simpa using ht, h⟩
  | true =>
    rw [if_pos rfl, if_pos rfl, libraryFile, unread]
    rcases fileText_spec A d c!"dso_list" m e with a | hf
    · rw [a]; exact .inl rfl
    cases hc : d.contents c!"dso_list" with
    | none =>
      rw [hc] at hf
      obtain ⟨q, m', a, hh⟩ := hf
      rw [a, bind_ok]
      dsimp only
      rw [if_pos rfl, bind_ok, if_pos rfl]
      obtain ⟨k1, k2⟩ := h.base hh
      refine .inr ⟨own, p, _, m', q, rfl, by omega, ?_, ht.more hh.1 k1, k2⟩
      simp [k2.zero]
    | some t =>
      rw [hc] at hf
      obtain ⟨q, m', a, hh⟩ := hf
      rw [a, bind_ok]
      dsimp only
      rw [if_neg hh.1, readText_spec hh, bind_ok]
      obtain ⟨⟨dsos, hp⟩, hl⟩ := hd t hc
      obtain ⟨d1, d2⟩ := dsoLoop_plain t.length t hp
      rcases C151_dso_partial A t m' hp with a | ⟨l, m₂, f, a, k1, k2⟩
      · rw [a]; exact .inl rfl
      rw [a, bind_ok]
      dsimp only
      obtain ⟨b1, b2⟩ := h.base hh
      rcases addAll_spec A hq b2 ⟨f, k1, k2⟩ c d2 (n := n) (by omega) with a | ⟨libs, r, m₃, a, j1, j2, j3⟩
      · rw [a]; exact .inl rfl
      rw [a, bind_ok]
      dsimp only
      obtain ⟨f1, f2⟩ := j3.drop hh.1 b1
      rw [f1, bind_ok, bind_ok]
      refine .inr ⟨libs, r, m₀, _, e, ⟨dsos, hp, j1⟩, by omega, ?_, by simpa using ht, f2⟩
      simp [f2.zero]

theorem interpreterFiles_spec (A : Allocator) {n : Nat} {d : Dir} {b m₀ m : Mem} {e₀ e p : Ptr} {k : Nat} {libs : List Package}
    (ht : Told b e₀ k m₀ e) (h : Packages m₀ m libs p) (hn : libs.length ≤ n)
    (hd : ∀ t, d.contents c!"interpreter" = some t → Rpm.parseNevra t ≠ .failDangling) :
    interpreterFiles A n d p m e = .abort ∨ ∃ ps r m₁ m' e', Abrt.IsInterpreter d libs ps ∧
      interpreterFiles A n d p m e = .ok (true, r, m', e') ∧ Told b e₀ (k + messages d c!"interpreter") m₁ e' ∧ Packages m₁ m' ps r := by
  rw [interpreterFiles, messages]
  unfold Abrt.IsInterpreter
  rcases fileExist_spec A d c!"interpreter" m with a | a
  · rw [a]; exact .inl rfl
  rw [a, bind_ok]
  dsimp only
  cases hx : d.exist c!"interpreter" with
  | false =>
    rw [if_neg (by simp), if_neg (by simp)]
    exact .inr ⟨libs, p, m₀, m, e, rfl, rfl, by simpa using ht, h⟩
  | true =>
    rw [if_pos rfl, if_pos rfl, interpreterFile, unread]
    rcases fileText_spec A d c!"interpreter" m e with a | hf
    · rw [a]; exact .inl rfl
    cases hc : d.contents c!"interpreter" with
    | none =>
      rw [hc] at hf
      obtain ⟨q, m', a, hh⟩ := hf
      rw [a, bind_ok]
      dsimp only
      rw [if_pos rfl, bind_ok, if_pos rfl]
      obtain ⟨k1, k2⟩ := h.base hh
      exact .inr ⟨libs, p, _, m', q, rfl, rfl, ht.more hh.1 k1, k2⟩
    | some t =>
      rw [hc] at hf
      obtain ⟨q, m', a, hh⟩ := hf
      rw [a, bind_ok]
      dsimp only
      rw [if_neg hh.1]
      rcases new_spec A .package .null m' with a | ⟨x, m₂, a, hb⟩
      · rw [a]; exact .inl rfl
      rw [a, bind_ok]
      dsimp only
      obtain ⟨q0, q1, rfl⟩ := hh
      have text_at : ∀ {m' y}, Built .package .null (m.set q (some (.text t))) m' x y → m' q = some (.text t) := fun hb => by
        rw [hb.ext q (by rw [set_eq]; simp), set_eq]
      rw [show readText m₂ q = .ok t by rw [readText, text_at hb], bind_ok]
      have hfree : ∀ {m' y}, Built .package .null (m.set q (some (.text t))) m' x y → freeBlock m' q = .ok (erase m' [q]) := fun hb =>
        freeBlock_spec q0 (by rw [text_at hb]; simp)
      rcases nevra_spec A t hb with a | hv
      · rw [a]; exact .inl rfl
      cases hp : Rpm.parseNevra t with
      | failDangling => exact absurd hp (hd t hc)
      | fail =>
        rw [hp] at hv
        dsimp only at hv
        rw [hv, bind_ok]
        dsimp only
        rw [hfree hb, bind_ok, (hb.without q1).release (by decide) (by decide), bind_ok, bind_ok]
        exact .inr ⟨libs, p, m₀, m, e, .inl ⟨rfl, rfl⟩, rfl, by simpa using ht, h⟩
      | ok name epoch version release architecture =>
        rw [hp] at hv
        obtain ⟨m₃, hv, hb⟩ := hv
        rw [hv, bind_ok]
        dsimp only
        rw [hfree hb, bind_ok]
        obtain ⟨m₄, a, hb⟩ := setData_spec (hb.without q1) [(epoch : Int), 0, 0]
        rw [a, bind_ok]
        obtain ⟨r, m₅, a, h5⟩ := h.add (x := { name := some name, epoch, version := some version, release := some release,
                                               architecture := some architecture }) (n := n) hb hn
        rw [a, bind_ok, bind_ok]
        exact .inr ⟨_, r, m₀, m₅, e, .inr ⟨name, epoch, version, release, architecture, rfl, rfl⟩, rfl, by simpa using ht, h5⟩

end Satyr.Heap
