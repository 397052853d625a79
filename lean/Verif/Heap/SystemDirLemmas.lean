import Verif.Heap.SystemDirModel
import Verif.Heap.PackageDirLemmas
import Verif.Heap.ReportJson
/-!
# Operating system of a problem directory in memory
-/
namespace Satyr.Heap
open Satyr.CStr
open Satyr.Abrt (Dir)
open Satyr.Os (OperatingSystem)

/-! ## Specification -/

/-- Memory `m'` is memory `m` with texts in addition, and nothing else: `k` messages, each of which took the place of the one before as the
message that can be freed (the first was `e`, the last is `e'`), and the texts `ts`, to which nothing points. -/
inductive Left : Mem → Ptr → Nat → List Str → Mem → Ptr → Prop
  | nil {m e} : Left m e 0 [] m e
  | told {m e k ts m' e' q} : Left m e k ts m' e' → q ≠ 0 → m' q = none → Left m e (k + 1) ts (m'.set q (some (.text []))) q
  | lost {m e k ts m' e' q s} : Left m e k ts m' e' → q ≠ 0 → m' q = none → Left m e k (ts ++ [s]) (m'.set q (some (.text s))) e'

/-- At most one text in addition. -/
def Extra (m₀ : Mem) (o : Option Str) (m₁ : Mem) : Prop :=
  match o with
  | none => m₁ = m₀
  | some t => ∃ q, q ≠ 0 ∧ m₀ q = none ∧ m₁ = m₀.set q (some (.text t))

theorem Left.extra {m e k ts m' e' o m₁} (h : Left m e k ts m' e') (hx : Extra m' o m₁) : Left m e k (ts ++ o.toList) m₁ e' := by
  cases o with
  | none => obtain rfl := hx; simpa using h
  | some t => obtain ⟨q, h0, h1, rfl⟩ := hx; exact h.lost h0 h1

theorem Extra.under {m₀ m₁ : Mem} {k : Ptr} {c : Cell} {o : Option Str} (h : Extra (m₀.set k (some c)) o m₁) (hk : m₀ k = none) :
    ∃ m₂, Extra m₀ o m₂ ∧ m₁ = m₂.set k (some c) ∧ m₂ k = none := by
  cases o with
  | none => exact ⟨m₀, rfl, h, hk⟩
  | some t =>
    obtain ⟨q, h0, h1, rfl⟩ := h
    have hne : k ≠ q := fun e => by rw [← e, set_eq] at h1; cases h1
    rw [set_ne _ _ (Ne.symm hne)] at h1
    exact ⟨_, ⟨q, h0, h1, rfl⟩, set_swap _ _ _ hne, by rw [set_ne _ _ hne, hk]⟩

/-! ## Members -/

theorem Texts.lose {m : Mem} {ss ps f} (h : Texts m ss ps f) : ∀ {i : Nat} {s : Str}, ss[i]? = Option.some (Option.some s) →
    ps.getD i 0 ≠ 0 ∧ m (ps.getD i 0) = Option.some (.text s) ∧
    ∃ f', Texts m (ss.set i Option.none) (ps.set i 0) f' ∧ f.Perm (ps.getD i 0 :: f') := by
  induction h with
  | nil => intro i s hi; simp at hi
  | null h ih =>
    intro i s hi
    cases i with
    | zero => simp at hi
    | succ i =>
      obtain ⟨h1, h2, f', h3, h4⟩ := ih (by simpa using hi)
      exact ⟨h1, h2, f', .null h3, h4⟩
  | @some s₀ p ss ps f h0 h1 h ih =>
    intro i s hi
    cases i with
    | zero =>
      have hi : s₀ = s := by simpa using hi
      subst hi
      exact ⟨h0, h1, f, .null h, .refl _⟩
    | succ i =>
      obtain ⟨k1, k2, f', k3, k4⟩ := ih (by simpa using hi)
      exact ⟨k1, k2, p :: f', .some h0 h1 k3, (k4.cons p).trans (.swap _ _ _)⟩

theorem setTexts_twice {m m' : Mem} {p : Ptr} (i : Nat) (q q' : Ptr) (h : setTexts p (fun l => l.set i q) m = .ok m') :
    setTexts p (fun l => l.set i q') m = setTexts p (fun l => l.set i q') m' := by
  rw [setTexts] at h ⊢
  rw [readRecord] at h ⊢
  split at h
  · rename_i r hr
    rw [bind_ok, writeRecord, hr] at h
    cases h
    rw [setTexts, readRecord, set_eq]
    dsimp only
    rw [bind_ok, bind_ok, writeRecord, writeRecord, hr, set_eq]
    dsimp only
    rw [set_set, List.set_set]
  · cases h

/-- The text is forgotten. -/
theorem forget_spec {k j m₀ m p x} (h : Built k j m₀ m p x) {i : Nat} {t : Str} (hi : x.texts[i]? = some (some t)) :
    ∃ q m', Extra m₀ (some t) (m₀.set q (some (.text t))) ∧ q ≠ 0 ∧ m₀ q = none ∧ m q = some (.text t) ∧
      (∃ r, readRecord m p = .ok r ∧ r.texts.getD i 0 = q) ∧ setTexts p (fun l => l.set i 0) m = .ok m' ∧
      Built k j (m₀.set q (some (.text t))) m' p { x with texts := x.texts.set i none } := by
  obtain ⟨hok, r, fs, fa, fb, fc, fe, h0, h1, h2, h3, h4, ha, hb, hc, he, hn, hw, hadds⟩ := h
  obtain ⟨k1, k2, f', k3, k4⟩ := h4.lose hi
  have hfresh : m₀ (r.texts.getD i 0) = none := hadds.fresh _ (List.mem_cons_of_mem _ (List.mem_append_left _ (k4.symm.subset (by simp))))
  have hp : (p :: (fs ++ (fa ++ (fb ++ (fc ++ fe))))).Perm (p :: (f' ++ (fa ++ (fb ++ (fc ++ fe)))) ++ [r.texts.getD i 0]) := by
    rw [List.cons_append]
    refine .cons p ((k4.append_right _).trans ?_)
    rw [List.cons_append]
    exact (List.perm_append_comm (l₁ := [r.texts.getD i 0]))
  refine ⟨r.texts.getD i 0, m.set p (some (.record { r with texts := r.texts.set i 0 })), ⟨_, k1, hfresh, rfl⟩, k1, hfresh, k2,
    ⟨r, by rw [readRecord, h1], rfl⟩, by rw [setTexts, readRecord, h1]; dsimp only; rw [bind_ok, writeRecord, h1], ?_⟩
  exact Built.rebuild (x := { x with texts := x.texts.set i none }) ⟨by simp [hok.length], hok.a, hok.b, hok.c, hok.e, hok.sizeA, hok.sizeB,
    hok.sizeC, hok.sizeE, hok.crash⟩ h0 h2 h3 k3 ha hb hc he hn hw ((hadds.perm hp).fewer k2)

/-- A new text becomes a member; the old one is lost. -/
theorem assign_spec {k j m₀ m p x} (h : Built k j m₀ m p x) {q m'} {s : Str} (hq : Holding m q s m') {i : Nat} {o : Option Str}
    (hi : x.texts[i]? = some o) :
    ∃ m₁ m₂, assign i q p m' = .ok m₂ ∧ Extra m₀ o m₁ ∧ Built k j m₁ m₂ p { x with texts := x.texts.set i (some s) } := by
  rw [assign]
  cases o with
  | none =>
    obtain ⟨m₂, e, hb⟩ := setText_spec h (t := some s) hq hi
    exact ⟨m₀, m₂, e, rfl, hb⟩
  | some t =>
    have hlt : i < x.texts.length := (List.getElem?_eq_some_iff.1 hi).1
    obtain ⟨z, m₁, h1, h2, h3, h4, ⟨r, h5, h6⟩, h7, h8⟩ := forget_spec h hi
    obtain ⟨q0, q1, rfl⟩ := hq
    have hr : m p = some (.record r) := by
      rw [readRecord] at h5
      split at h5
      · rename_i r' hr; cases h5; exact hr
      · cases h5
    have hpq : p ≠ q := fun e => by rw [← e, hr] at q1; cases q1
    have hm₁ : m₁ = m.set p (some (.record { r with texts := r.texts.set i 0 })) := by
      rw [setTexts, h5, bind_ok, writeRecord, hr] at h7
      cases h7
      rfl
    have hq₁ : Holding m₁ q s (m₁.set q (some (.text s))) := ⟨q0, by rw [hm₁, set_ne _ _ (Ne.symm hpq), q1], rfl⟩
    obtain ⟨m₂, e, hb⟩ := setText_spec h8 (t := some s) hq₁ (i := i) (by simp [hlt])
    refine ⟨_, m₂, ?_, h1, by simpa using hb⟩
    have h7' : setTexts p (fun l => l.set i 0) (m.set q (some (.text s))) = .ok (m₁.set q (some (.text s))) := by
      rw [setTexts, readRecord, set_ne _ _ hpq, hr]
      dsimp only
      rw [bind_ok, writeRecord, set_ne _ _ hpq, hr]
      dsimp only
      rw [hm₁, set_swap _ _ _ hpq]
    rw [setTexts_twice i 0 q h7', e]

/-- The old text is freed, and a new one becomes the member. -/
theorem replace_spec {k j m₀ m p x} (h : Built k j m₀ m p x) {i : Nat} {t : Str} (hi : x.texts[i]? = some (some t)) :
    ∃ z m', (∃ r, readRecord m p = .ok r ∧ r.texts.getD i 0 = z) ∧ z ≠ 0 ∧ freeBlock m z = .ok m' ∧
      ∀ {q s m''}, Holding m' q s m'' → ∃ m₂, assign i q p m'' = .ok m₂ ∧ Built k j m₀ m₂ p { x with texts := x.texts.set i (some s) } := by
  have hlt : i < x.texts.length := (List.getElem?_eq_some_iff.1 hi).1
  obtain ⟨z, m₁, h1, h2, h3, h4, ⟨r, h5, h6⟩, h7, h8⟩ := forget_spec h hi
  have hr : m p = some (.record r) := by
    rw [readRecord] at h5
    split at h5
    · rename_i r' hr; cases h5; exact hr
    · cases h5
  have hpz : p ≠ z := fun e => by rw [← e, hr] at h4; cases h4
  have hm₁ : m₁ = m.set p (some (.record { r with texts := r.texts.set i 0 })) := by
    rw [setTexts, h5, bind_ok, writeRecord, hr] at h7
    cases h7
    rfl
  refine ⟨z, erase m [z], ⟨r, h5, h6⟩, h2, freeBlock_spec h2 (by rw [h4]; simp), fun {q s m''} hq => ?_⟩
  obtain ⟨q0, q1, rfl⟩ := hq
  have hp' : erase m [z] p = some (.record r) := by
    rw [← hr]
    exact if_neg (by simpa using hpz)
  have hpq : p ≠ q := fun e => by rw [← e, hp'] at q1; cases q1
  have he : erase m₁ [z] = (erase m [z]).set p (some (.record { r with texts := r.texts.set i 0 })) := by
    rw [hm₁]
    funext y
    by_cases e1 : y = p
    · subst e1
      rw [set_eq]
      show (if y ∈ [z] then none else _) = _
      rw [if_neg (by simpa using hpz), set_eq]
    · rw [set_ne _ _ e1]
      show (if y ∈ [z] then none else _) = (if y ∈ [z] then none else _)
      rw [set_ne _ _ e1]
  have hb := h8.without h3
  have hq₁ : Holding (erase m₁ [z]) q s ((erase m₁ [z]).set q (some (.text s))) := ⟨q0, by rw [he, set_ne _ _ (Ne.symm hpq), q1], rfl⟩
  obtain ⟨m₂, e, hb⟩ := setText_spec hb (t := some s) hq₁ (i := i) (by simp [hlt])
  refine ⟨m₂, ?_, by simpa using hb⟩
  have h7' : setTexts p (fun l => l.set i 0) ((erase m [z]).set q (some (.text s))) = .ok ((erase m₁ [z]).set q (some (.text s))) := by
    rw [setTexts, readRecord, set_ne _ _ hpq, hp']
    dsimp only
    rw [bind_ok, writeRecord, set_ne _ _ hpq, hp']
    dsimp only
    rw [he, set_swap _ _ _ hpq]
  rw [assign, setTexts_twice i 0 q h7', e]


/-! ## The file /etc/os-release -/

/-- What is lost when a line of the file is read: the member that is written again, or a version if there is one already. -/
def lostText (o : OperatingSystem) (key value : Str) : Option Str :=
  if key = c!"ID" then o.name
  else if key = c!"VERSION_ID" then o.version.map fun _ => value
  else if key = c!"CPE_NAME" then o.cpe
  else if key = c!"VARIANT_ID" then o.variant
  else none

/-- What is lost when the lines are read one after the other. -/
def lostTexts (o : OperatingSystem) : List (Str × Str) → List Str
  | [] => []
  | (k, v) :: l => (lostText o k v).toList ++ lostTexts (Os.callback o k v) l

theorem member_zero {m₀ m p o} (h : Built .system .null m₀ m p (systemPart o)) : ∃ r, readRecord m p = .ok r ∧
    (r.texts.getD 0 0 = 0 ↔ o.name = none) ∧ (r.texts.getD 1 0 = 0 ↔ o.version = none) ∧ (r.texts.getD 2 0 = 0 ↔ o.architecture = none) := by
  obtain ⟨hok, r, fs, fa, fb, fc, fe, h0, h1, h2, h3, h4, _⟩ := h
  have key : ∀ (i : Nat) (a : Option Str), (systemPart o).texts[i]? = some a → (r.texts.getD i 0 = 0 ↔ a = none) := fun i a hi => by
    cases a with
    | none => exact ⟨fun _ => rfl, fun _ => h4.zero hi⟩
    | some t =>
      have := (h4.lose hi).1
      simpa using this
  exact ⟨r, by rw [readRecord, h1], key 0 _ rfl, key 1 _ rfl, key 2 _ rfl⟩

theorem rawhide_spec (A : Allocator) {m₀ m p o} (h : Built .system .null m₀ m p (systemPart o)) {v : Ptr} {s : Str} {m' : Mem} (hv : Holding m v s m') :
    rawhide A v p m' = .abort ∨ ∃ m₂, rawhide A v p m' = .ok m₂ ∧ Built .system .null m₀ m₂ p (systemPart { o with version := some c!"rawhide" }) := by
  have hv0 : m₀ v = none := free_before h.ext hv.2.1
  have hb : Built .system .null (m₀.set v (some (.text s))) m' p (systemPart o) := h.rebase hv.adds (by rw [hv.2.2, set_eq])
  have last : ∀ {m₂ x}, Built .system .null (m₀.set v (some (.text s))) m₂ p x → freeBlock m₂ v = .ok (erase m₂ [v]) ∧
      Built .system .null m₀ (erase m₂ [v]) p x := fun hb => by
    refine ⟨freeBlock_spec hv.1 ?_, hb.without hv0⟩
    rw [hb.ext v (by rw [set_eq]; simp), set_eq]
    simp
  rw [rawhide]
  cases hx : o.version with
  | none =>
    have hi : (systemPart o).texts[1]? = some none := by rw [systemPart, hx]; rfl
    have hr : ∃ r, readRecord m' p = .ok r ∧ r.texts.getD 1 0 = 0 := by
      obtain ⟨hok, r, fs, fa, fb, fc, fe, h0, h1, h2, h3, h4, _⟩ := hb
      exact ⟨r, by rw [readRecord, h1], h4.zero hi⟩
    obtain ⟨r, e1, e2⟩ := hr
    rw [e1, bind_ok, e2, if_neg (by simp), bind_ok]
    rcases newText A c!"rawhide" m' with a | ⟨q, m₁, a, hq⟩
    · rw [a]; exact .inl rfl
    rw [a, bind_ok]
    dsimp only
    obtain ⟨_, m₂, a, rfl, hb⟩ := assign_spec hb hq hi
    obtain ⟨f1, f2⟩ := last hb
    rw [a, bind_ok, f1]
    exact .inr ⟨_, rfl, f2⟩
  | some t =>
    have hi : (systemPart o).texts[1]? = some (some t) := by rw [systemPart, hx]; rfl
    obtain ⟨z, m₁, ⟨r, e1, e2⟩, z0, e3, hk⟩ := replace_spec hb hi
    rw [e1, bind_ok, e2, if_pos z0, e3, bind_ok]
    rcases newText A c!"rawhide" m₁ with a | ⟨q, m₂, a, hq⟩
    · rw [a]; exact .inl rfl
    rw [a, bind_ok]
    dsimp only
    obtain ⟨m₃, a, hb⟩ := hk hq
    obtain ⟨f1, f2⟩ := last hb
    rw [a, bind_ok, f1]
    exact .inr ⟨_, rfl, f2⟩

theorem osBranch_spec (A : Allocator) {m₀ m p o} {key value : Str} {k v : Ptr} {m' : Mem} (hk : m₀ k = some (.text key))
    (h : Built .system .null m₀ m p (systemPart o)) (hv : Holding m v value m') : osBranch A k v p m' = .abort ∨
    ∃ m₁ m₂, osBranch A k v p m' = .ok m₂ ∧ Extra m₀ (lostText o key value) m₁ ∧
      Built .system .null m₁ m₂ p (systemPart (Os.callback o key value)) := by
  have hmk : m k = some (.text key) := by rw [h.ext k (by rw [hk]; simp), hk]
  have hkv : k ≠ v := fun e => by have := hv.2.1; rw [← e, hmk] at this; cases this
  have hk' : readText m' k = .ok key := by rw [readText, hv.2.2, set_ne _ _ hkv, hmk]
  have hv0 : m₀ v = none := free_before h.ext hv.2.1
  have hb : Built .system .null (m₀.set v (some (.text value))) m' p (systemPart o) := h.rebase hv.adds (by rw [hv.2.2, set_eq])
  obtain ⟨r, hr, _, hz, _⟩ := member_zero hb
  rw [osBranch, hk', bind_ok, readText_spec hv, bind_ok, hr, bind_ok]
  have store : ∀ (i : Nat) (a : Option Str) (o' : OperatingSystem), (systemPart o).texts[i]? = some a →
      { systemPart o with texts := (systemPart o).texts.set i (some value) } = systemPart o' →
      ∃ m₁ m₂, assign i v p m' = .ok m₂ ∧ Extra m₀ a m₁ ∧ Built .system .null m₁ m₂ p (systemPart o') := fun i a o' hi ho => by
    rw [← ho]
    exact assign_spec h hv hi
  simp only [strcmp_eq_zero]
  unfold Os.callback lostText
  simp only [strcmp_eq_zero]
  by_cases c1 : key = c!"ID"
  · rw [if_pos c1, if_pos c1, if_pos c1]
    exact .inr (store 0 _ _ rfl rfl)
  rw [if_neg c1, if_neg c1, if_neg c1]
  by_cases c2 : key = c!"VERSION_ID"
  · rw [if_pos c2, if_pos c2, if_pos c2]
    cases hx : o.version with
    | none =>
      rw [if_pos (hz.2 hx), if_pos rfl]
      exact .inr (store 1 none _ (by rw [systemPart, hx]; rfl) rfl)
    | some t =>
      rw [if_neg (fun e => by rw [hz.1 e] at hx; cases hx), if_neg (by simp)]
      exact .inr ⟨_, m', rfl, ⟨v, hv.1, hv0, rfl⟩, hb⟩
  rw [if_neg c2, if_neg c2, if_neg c2]
  by_cases c3 : key = c!"VERSION" ∧ strstrHas value c!"(Rawhide)" = true
  · rw [if_pos c3, if_pos c3, if_neg (by rw [c3.1]; decide), if_neg (by rw [c3.1]; decide)]
    rcases rawhide_spec A h hv with e | ⟨m₂, e, hb⟩
    · exact .inl e
    · exact .inr ⟨m₀, m₂, e, rfl, hb⟩
  rw [if_neg c3, if_neg c3]
  by_cases c4 : key = c!"CPE_NAME"
  · rw [if_pos c4, if_pos c4, if_pos c4]
    exact .inr (store 3 _ _ rfl rfl)
  rw [if_neg c4, if_neg c4, if_neg c4]
  by_cases c5 : key = c!"VARIANT_ID"
  · rw [if_pos c5, if_pos c5, if_pos c5]
    exact .inr (store 5 _ _ rfl rfl)
  rw [if_neg c5, if_neg c5, if_neg c5]
  exact .inr ⟨m₀, m, freeBlock_text hv, rfl, h⟩

theorem osPair_spec (A : Allocator) {m₀ m p o} (key value : Str) (h : Built .system .null m₀ m p (systemPart o)) :
    osPair A p key value m = .abort ∨ ∃ m₁ m₂, osPair A p key value m = .ok m₂ ∧ Extra m₀ (lostText o key value) m₁ ∧
      Built .system .null m₁ m₂ p (systemPart (Os.callback o key value)) := by
  rw [osPair]
  rcases newText A key m with a | ⟨k, m₁, a, hk⟩
  · rw [a]; exact .inl rfl
  rw [a, bind_ok]
  dsimp only
  rcases newText A value m₁ with a | ⟨v, m₂, a, hv⟩
  · rw [a]; exact .inl rfl
  rw [a, bind_ok]
  dsimp only
  have hk0 : m₀ k = none := free_before h.ext hk.2.1
  have hb : Built .system .null (m₀.set k (some (.text key))) m₁ p (systemPart o) := h.rebase hk.adds (by rw [hk.2.2, set_eq])
  rcases osBranch_spec A (set_eq _ _ _) hb hv with a | ⟨m₃, m₄, a, hx, hb⟩
  · rw [a]; exact .inl rfl
  rw [a, bind_ok]
  obtain ⟨m₅, h5, rfl, h6⟩ := hx.under hk0
  refine .inr ⟨m₅, _, freeBlock_spec hk.1 ?_, h5, hb.without h6⟩
  rw [hb.ext k (by rw [set_eq]; simp), set_eq]
  simp

theorem osPairs_spec (A : Allocator) {b e₀ k e p} : ∀ (l : List (Str × Str)) {ts m₀ m o}, Left b e₀ k ts m₀ e →
    Built .system .null m₀ m p (systemPart o) → osPairs A p l m = .abort ∨ ∃ m₁ m₂, osPairs A p l m = .ok m₂ ∧
      Left b e₀ k (ts ++ lostTexts o l) m₁ e ∧ Built .system .null m₁ m₂ p (systemPart (l.foldl (fun o x => Os.callback o x.1 x.2) o))
  | [], ts, m₀, m, o, ht, h => .inr ⟨m₀, m, rfl, by simpa [lostTexts] using ht, h⟩
  | (key, value) :: l, ts, m₀, m, o, ht, h => by
    rw [osPairs]
    rcases osPair_spec A key value h with a | ⟨m₁, m₂, a, hx, hb⟩
    · rw [a]; exact .inl rfl
    rw [a, bind_ok]
    rcases osPairs_spec A l (ht.extra hx) hb with a | ⟨m₃, m₄, a, ht, hb⟩
    · exact .inl a
    · exact .inr ⟨m₃, m₄, a, by simpa [lostTexts] using ht, hb⟩

theorem etcOsRelease_spec (A : Allocator) (text : Str) {b e₀ k e p ts m₀ m o} (ht : Left b e₀ k ts m₀ e)
    (h : Built .system .null m₀ m p (systemPart o)) : etcOsRelease A text p m = .abort ∨ ∃ m₁ m₂,
      etcOsRelease A text p m = .ok ((Os.parseEtcOsRelease text o).1, m₂) ∧
      Left b e₀ k (ts ++ lostTexts o (Os.parseOsRelease text)) m₁ e ∧
      Built .system .null m₁ m₂ p (systemPart (Os.parseEtcOsRelease text o).2) := by
  rw [etcOsRelease]
  rcases osPairs_spec A (Os.parseOsRelease text) ht h with a | ⟨m₁, m₂, a, ht, hb⟩
  · rw [a]; exact .inl rfl
  rw [a, bind_ok]
  obtain ⟨r, e1, e2, e3, _⟩ := member_zero hb
  rw [e1, bind_ok]
  refine .inr ⟨m₁, m₂, ?_, ht, hb⟩
  rw [Os.parseEtcOsRelease]
  congr 2
  simp only [ne_eq, e2, e3]
  generalize (Os.parseOsRelease text).foldl (fun o x => Os.callback o x.1 x.2) o = o'
  cases o'.name <;> cases o'.version <;> rfl

/-! ## The file /etc/system-release -/

/-- What is lost when name and version are read from a line: those that there were. -/
def lostRelease (o : OperatingSystem) (text : Str) : List Str :=
  match strstrI c!" release " text, Os.parseSystemRelease text with
  | none, _ => []
  | some _, none => o.name.toList
  | some _, some _ => o.name.toList ++ o.version.toList

/-- The operating system after the line has been read; an empty name is stored before the function fails. -/
def afterRelease (o : OperatingSystem) (text : Str) : OperatingSystem :=
  match strstrI c!" release " text, Os.parseSystemRelease text with
  | none, _ => o
  | some _, none => { o with name := some [] }
  | some _, some (n, v) => { o with name := some n, version := some v }

theorem etcSystemRelease_spec (A : Allocator) (text : Str) {m₀ m p o} (e : Ptr)
    (h : Built .system .null m₀ m p (systemPart o)) : etcSystemRelease A text p m = .abort ∨ ∃ m₁ m₂,
      etcSystemRelease A text p m = .ok ((Os.parseSystemRelease text).isSome, m₂) ∧
      Left m₀ e 0 (lostRelease o text) m₁ e ∧ Built .system .null m₁ m₂ p (systemPart (afterRelease o text)) := by
  rw [etcSystemRelease, lostRelease, afterRelease]
  cases hs : strstrI c!" release " text with
  | none =>
    have hp : Os.parseSystemRelease text = none := by rw [Os.parseSystemRelease, hs]
    rw [hp]
    exact .inr ⟨m₀, m, rfl, .nil, h⟩
  | some release =>
    dsimp only
    rcases newText A (Os.systemName text release) m with a | ⟨q, m₁, a, hq⟩
    · rw [a]; exact .inl rfl
    rw [a, bind_ok]
    dsimp only
    obtain ⟨b₁, m₂, a, hx, hb⟩ := assign_spec h hq (i := 0) (o := o.name) rfl
    rw [a, bind_ok]
    have h1 := (Left.nil (m := m₀) (e := e)).extra hx
    rw [List.nil_append] at h1
    by_cases c : Os.systemName text release = []
    · have hp : Os.parseSystemRelease text = none := by rw [Os.parseSystemRelease, hs]; exact if_pos c
      rw [if_pos c, hp]
      refine .inr ⟨b₁, m₂, rfl, h1, ?_⟩
      rw [c] at hb
      exact hb
    · have hp : Os.parseSystemRelease text = some (Os.systemName text release, Os.systemVersion (text.drop (release + c!" release ".length))) := by
        rw [Os.parseSystemRelease, hs]; exact if_neg c
      rw [if_neg c, hp]
      rcases newText A (Os.systemVersion (text.drop (release + c!" release ".length))) m₂ with a | ⟨q, m₃, a, hq⟩
      · rw [a]; exact .inl rfl
      rw [a, bind_ok]
      dsimp only
      obtain ⟨b₂, m₄, a, hx, hb⟩ := assign_spec hb hq (i := 1) (o := o.version) rfl
      rw [a, bind_ok]
      exact .inr ⟨b₂, m₄, rfl, h1.extra hx, hb⟩

/-! ## Files -/

theorem Left.trans {a e k ts b e' k' ts' c e''} (h : Left a e k ts b e') (h' : Left b e' k' ts' c e'') : Left a e (k + k') (ts ++ ts') c e'' := by
  induction h' with
  | nil => simpa using h
  | told h1 h2 h3 ih => exact ih.told h2 h3
  | lost h1 h2 h3 ih => rw [← List.append_assoc]; exact ih.lost h2 h3

theorem Left.under {b : Mem} {q : Ptr} {c : Cell} (hq : b q = none) {e k ts m₁ e'} (h : Left (b.set q (some c)) e k ts m₁ e') :
    ∃ m₂, Left b e k ts m₂ e' ∧ m₁ = m₂.set q (some c) ∧ m₂ q = none := by
  induction h with
  | nil => exact ⟨b, .nil, rfl, hq⟩
  | @told k ts m' e' z h1 h2 h3 ih =>
    obtain ⟨m₂, i1, rfl, i3⟩ := ih
    have hne : q ≠ z := fun e => by rw [← e, set_eq] at h3; cases h3
    rw [set_ne _ _ (Ne.symm hne)] at h3
    exact ⟨_, i1.told h2 h3, set_swap _ _ _ hne, by rw [set_ne _ _ hne, i3]⟩
  | @lost k ts m' e' z s h1 h2 h3 ih =>
    obtain ⟨m₂, i1, rfl, i3⟩ := ih
    have hne : q ≠ z := fun e => by rw [← e, set_eq] at h3; cases h3
    rw [set_ne _ _ (Ne.symm hne)] at h3
    exact ⟨_, i1.lost h2 h3, set_swap _ _ _ hne, by rw [set_ne _ _ hne, i3]⟩

theorem osFile_spec (A : Allocator) (d : Dir) (name : Str) {read : Str → Mem → Out (Bool × Mem)} {f : Str → Bool} {L : Str → List Str}
    {g : Str → OperatingSystem} {p o} (hread : ∀ s {m₀ m} (e : Ptr), Built .system .null m₀ m p (systemPart o) → read s m = .abort ∨
      ∃ m₁ m₂, read s m = .ok (f s, m₂) ∧ Left m₀ e 0 (L s) m₁ e ∧ Built .system .null m₁ m₂ p (systemPart (g s)))
    {b e₀ k ts m₀ m e} (ht : Left b e₀ k ts m₀ e) (h : Built .system .null m₀ m p (systemPart o)) :
    osFile A d name read m e = .abort ∨ ∃ m₁ m₂ e', osFile A d name read m e = .ok ((d.contents name).elim false f, m₂, e') ∧
      Left b e₀ (k + unread d name) (ts ++ (d.contents name).elim [] L) m₁ e' ∧
      Built .system .null m₁ m₂ p (systemPart ((d.contents name).elim o g)) := by
  rw [osFile, unread]
  rcases fileText_spec A d name m e with a | hf
  · rw [a]; exact .inl rfl
  cases hc : d.contents name with
  | none =>
    rw [hc] at hf
    obtain ⟨q, m', a, hq⟩ := hf
    rw [a, bind_ok]
    dsimp only
    rw [if_pos rfl, if_pos rfl]
    have hb : Built .system .null (m₀.set q (some (.text []))) m' p (systemPart o) := h.rebase hq.adds (by rw [hq.2.2, set_eq])
    exact .inr ⟨_, m', q, rfl, by simpa using ht.told hq.1 (free_before h.ext hq.2.1), hb⟩
  | some s =>
    rw [hc] at hf
    obtain ⟨q, m', a, hq⟩ := hf
    rw [a, bind_ok]
    dsimp only
    rw [if_neg hq.1, if_neg (by simp), readText_spec hq, bind_ok]
    have hq0 : m₀ q = none := free_before h.ext hq.2.1
    have hb : Built .system .null (m₀.set q (some (.text s))) m' p (systemPart o) := h.rebase hq.adds (by rw [hq.2.2, set_eq])
    rcases hread s e hb with a | ⟨m₁, m₂, a, hl, hb⟩
    · rw [a]; exact .inl rfl
    rw [a, bind_ok]
    dsimp only
    obtain ⟨m₃, hl', rfl, h3⟩ := hl.under hq0
    rw [freeBlock_spec (m := m₂) hq.1 (by rw [hb.ext q (by rw [set_eq]; simp), set_eq]; simp), bind_ok]
    exact .inr ⟨m₃, _, e, rfl, ht.trans hl', hb.without h3⟩

theorem systemMember_spec (A : Allocator) (d : Dir) {i : Nat} {name : Str} {b m₀ m : Mem} {p e₀ e : Ptr} {k : Nat} {ts : List Str} {x : Part}
    (ht : Left b e₀ k ts m₀ e) (h : Built .system .null m₀ m p x) (hi : x.texts[i]? = some none) : fileMember A d i name p m e = .abort ∨
    ∃ m₁ m' e', fileMember A d i name p m e = .ok (m', e') ∧ Left b e₀ (k + unread d name) ts m₁ e' ∧
      Built .system .null m₁ m' p { x with texts := x.texts.set i (d.contents name) } := by
  rw [fileMember, unread]
  rcases fileText_spec A d name m e with a | hf
  · rw [a]; exact .inl rfl
  cases hc : d.contents name with
  | some s =>
    rw [hc] at hf
    obtain ⟨q, m', a, hq⟩ := hf
    rw [a, bind_ok]
    dsimp only
    obtain ⟨m₂, a, hb⟩ := setText_spec h (t := some s) hq hi
    rw [a, bind_ok]
    exact .inr ⟨m₀, m₂, e, rfl, by simpa using ht, hb⟩
  | none =>
    rw [hc] at hf
    obtain ⟨q, m', a, hq⟩ := hf
    rw [a, bind_ok]
    dsimp only
    have hb : Built .system .null (m₀.set q (some (.text []))) m' p x := h.rebase hq.adds (by rw [hq.2.2, set_eq])
    obtain ⟨m₂, a, hb⟩ := setText_spec hb (t := none) (q := 0) ⟨rfl, rfl⟩ hi
    rw [a, bind_ok]
    exact .inr ⟨_, m₂, q, rfl, by simpa using ht.told hq.1 (free_before h.ext hq.2.1), hb⟩

theorem desktopFile_spec (A : Allocator) (d : Dir) {b m₀ m : Mem} {p e₀ e : Ptr} {k : Nat} {ts : List Str} {x : Part}
    (ht : Left b e₀ k ts m₀ e) (h : Built .system .null m₀ m p x) : desktopFile A d m e = .abort ∨
    ∃ q m₁ m₂ m' e', desktopFile A d m e = .ok (q, m', e') ∧ Left b e₀ (k + unread d c!"environ") ts m₁ e' ∧
      Built .system .null m₁ m₂ p x ∧ HoldingOpt m₂ q ((d.contents c!"environ").bind Abrt.desktopOf) m' := by
  rw [desktopFile, unread]
  rcases fileText_spec A d c!"environ" m e with a | hf
  · rw [a]; exact .inl rfl
  cases hc : d.contents c!"environ" with
  | none =>
    rw [hc] at hf
    obtain ⟨q, m', a, hq⟩ := hf
    rw [a, bind_ok]
    dsimp only
    rw [if_pos rfl, if_pos rfl]
    have hb : Built .system .null (m₀.set q (some (.text []))) m' p x := h.rebase hq.adds (by rw [hq.2.2, set_eq])
    exact .inr ⟨0, _, m', m', q, rfl, by simpa using ht.told hq.1 (free_before h.ext hq.2.1), hb, rfl, rfl⟩
  | some s =>
    rw [hc] at hf
    obtain ⟨q, m', a, hq⟩ := hf
    rw [a, bind_ok]
    dsimp only
    rw [if_neg hq.1, if_neg (by simp), readText_spec hq, bind_ok]
    show _ ∨ ∃ q m₁ m₂ m' e', _ ∧ _ ∧ _ ∧ HoldingOpt m₂ q (Abrt.desktopOf s) m'
    cases Abrt.desktopOf s with
    | none =>
      dsimp only
      rw [freeBlock_text hq, bind_ok]
      exact .inr ⟨0, m₀, m, m, e, rfl, ht, h, rfl, rfl⟩
    | some y =>
      dsimp only
      rcases newText A y m' with a | ⟨r, m₁, a, hr⟩
      · rw [a]; exact .inl rfl
      rw [a, bind_ok]
      dsimp only
      obtain ⟨m₂, h3, h4⟩ := hq.below hr
      rw [freeBlock_text h4, bind_ok]
      exact .inr ⟨r, m₀, m, m₂, e, rfl, ht, h, h3⟩

theorem osRest_spec (A : Allocator) (d : Dir) {b m₀ m : Mem} {p e₀ e : Ptr} {k : Nat} {ts : List Str} {o : OperatingSystem}
    (ht : Left b e₀ k ts m₀ e) (h : Built .system .null m₀ m p (systemPart o)) (ha : o.architecture = none) (hd : o.desktop = none) :
    osRest A d p m e = .abort ∨ match d.contents c!"architecture" with
    | none => ∃ m₁ e', osRest A d p m e = .ok (0, m₁, e') ∧ Left b e₀ (k + 1) ts m₁ e'
    | some a => ∃ m₁ m' e', osRest A d p m e = .ok (p, m', e') ∧ Left b e₀ (k + unread d c!"environ") ts m₁ e' ∧
        Built .system .null m₁ m' p (systemPart { o with architecture := some a, desktop := (d.contents c!"environ").bind Abrt.desktopOf }) := by
  rw [osRest]
  rcases systemMember_spec A d (i := 2) (name := c!"architecture") ht h (by rw [systemPart, ha]; rfl) with a | ⟨m₁, m₂, e₁, a, hl, hb⟩
  · rw [a]; exact .inl rfl
  rw [a, bind_ok]
  dsimp only
  have hb : Built .system .null m₁ m₂ p (systemPart { o with architecture := d.contents c!"architecture" }) := hb
  obtain ⟨r, e1, _, _, e2⟩ := member_zero hb
  rw [e1, bind_ok]
  rw [unread] at hl
  cases hc : d.contents c!"architecture" with
  | none =>
    rw [hc] at hl hb
    rw [if_pos (e2.2 hc), hb.release (by decide) (show (1 + 0 + 0 + 0 + 0 + 0 : Nat) < 16 by omega), bind_ok]
    exact .inr ⟨m₁, e₁, rfl, hl⟩
  | some a =>
    rw [hc] at hl hb
    rw [if_neg (fun e => by have := e2.1 e; rw [hc] at this; cases this)]
    rcases desktopFile_spec A d hl hb with x | ⟨q, m₃, m₄, m₅, e₂, x, hl, hb, hq⟩
    · rw [x]; exact .inl rfl
    rw [x, bind_ok]
    dsimp only
    obtain ⟨m₆, x, hb⟩ := setText_spec hb hq (i := 4) (by rw [systemPart, hd]; rfl)
    rw [assign, x, bind_ok]
    exact .inr ⟨m₃, m₆, e₂, rfl, by simpa using hl, hb⟩

end Satyr.Heap
