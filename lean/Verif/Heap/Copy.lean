import Verif.Heap.Model
import Mathlib.Data.List.Nodup
import Mathlib.Data.List.Perm.Basic
import Mathlib.Data.List.Forall2
import Mathlib.Tactic.Tauto
/-!
# Copying structures

C98: a copy has the same contents as the original, and consists of memory that was not in use.
-/
namespace Satyr.Heap
open Satyr.CStr

/-! ## Specification -/

/-- A list of structures, as a value: each has a kind, data, texts (or NULL), a crash thread, and lists of structures (`a`, `b`,
`c`, `e`). -/
inductive Chain
  | nil
  | cons (kind : Kind) (data : List Int) (texts : List (Option Str)) (crash : Ptr) (a b c e next : Chain)
  deriving DecidableEq, Repr

/-- The texts at addresses, with the addresses of the memory they occupy. -/
inductive Texts (m : Mem) : List (Option Str) → List Ptr → List Ptr → Prop
  | nil : Texts m [] [] []
  | null {ss ps f} : Texts m ss ps f → Texts m (none :: ss) (0 :: ps) f
  | some {s p ss ps f} : p ≠ 0 → m p = some (.text s) → Texts m ss ps f → Texts m (some s :: ss) (p :: ps) (p :: f)

/-- At an address `p` in memory there is a list of structures `v`; it occupies the addresses `f`. Without `siblings`, the
structure at `p` is taken alone, without the rest of the list. -/
def Holds (m : Mem) : Chain → (siblings : Bool) → (p : Ptr) → (f : List Ptr) → Prop
  | .nil, _, p, f => p = 0 ∧ f = []
  | .cons k d ts w a b c e next, siblings, p, f => ∃ r fs fa fb fc fe fn,
      p ≠ 0 ∧ m p = some (.record r) ∧ r.kind = k ∧ r.data = d ∧ r.crashThread = w ∧ Texts m ts r.texts fs ∧
      Holds m a true r.a fa ∧ Holds m b true r.b fb ∧ Holds m c true r.c fc ∧ Holds m e true r.e fe ∧
      (if siblings then Holds m next true r.next fn else next = .nil ∧ fn = []) ∧
      f = p :: (fs ++ (fa ++ (fb ++ (fc ++ (fe ++ fn)))))

/-- At most one structure. -/
def Chain.Single : Chain → Prop
  | .nil => True
  | .cons _ _ _ _ _ _ _ _ next => next = .nil

/-- The member number `i` of a structure of kind `k` has what belongs there: nothing if there is no such member; otherwise what
`typed` demands, and only one structure if it is not a list. -/
def MemberOk (k : Kind) (i : Nat) (x : Chain) (typed : List Kind → Prop) : Prop :=
  match (slots k)[i]? with
  | none => x = .nil
  | some (s, l) => typed l ∧ (s.isList = false → x.Single)

/-- The list has structures of the kinds that belong there: each of one of the given kinds, with its texts and members. -/
def Chain.Typed : Chain → List Kind → Prop
  | .nil, _ => True
  | .cons k _ ts _ a b c e next, ks =>
    k ∈ ks ∧ ts.length = (texts k).length ∧ next.Typed ks ∧
    MemberOk k 0 a a.Typed ∧ MemberOk k 1 b b.Typed ∧ MemberOk k 2 c c.Typed ∧ MemberOk k 3 e e.Typed

/-- The number of structures. -/
def Chain.size : Chain → Nat
  | .nil => 0
  | .cons _ _ _ _ a b c e next => 1 + a.size + b.size + c.size + e.size + next.size

/-- Memory `m'` is memory `m` with the blocks at the addresses `f`, which were not in use, in addition. -/
structure Adds (m m' : Mem) (f : List Ptr) : Prop where
  nodup : f.Nodup
  fresh : ∀ x ∈ f, m x = none
  used : ∀ x ∈ f, m' x ≠ none
  same : ∀ x, x ∉ f → m' x = m x

/-! ## Lemmas -/

theorem bind_ok {α β : Type} (a : α) (f : α → Out β) : (Out.ok a).bind f = f a := rfl

theorem set_eq (m : Mem) (p : Ptr) (c : Option Cell) : m.set p c p = c := if_pos rfl
theorem set_ne (m : Mem) {p x : Ptr} (c : Option Cell) (h : x ≠ p) : m.set p c x = m x := if_neg h

theorem Adds.refl (m : Mem) : Adds m m [] := ⟨List.nodup_nil, by simp, by simp, by simp⟩

/-- All blocks of `m` are in `m'`. -/
def Ext (m m' : Mem) : Prop := ∀ x, m x ≠ none → m' x = m x

theorem Ext.trans {a b c : Mem} (h : Ext a b) (h' : Ext b c) : Ext a c := fun x hx => by
  rw [h' x (by rw [h x hx]; exact hx), h x hx]

theorem Adds.ext {m m' : Mem} {f : List Ptr} (h : Adds m m' f) : Ext m m' := fun x hx =>
  h.same x fun hf => hx (h.fresh x hf)

theorem Adds.trans {a b c : Mem} {f g : List Ptr} (h : Adds a b f) (h' : Adds b c g) : Adds a c (f ++ g) := by
  refine ⟨List.nodup_append.2 ⟨h.nodup, h'.nodup, ?_⟩, ?_, ?_, ?_⟩
  · rintro x hx y hy rfl
    exact h.used x hx (h'.fresh x hy)
  · intro x hx
    rcases List.mem_append.1 hx with hx | hx
    · exact h.fresh x hx
    · by_contra hn
      exact hn (by rw [← h.ext x hn]; exact h'.fresh x hx)
  · intro x hx
    rcases List.mem_append.1 hx with hx | hx
    · rw [h'.ext x (h.used x hx)]; exact h.used x hx
    · exact h'.used x hx
  · intro x hx
    rw [List.mem_append, not_or] at hx
    rw [h'.same x hx.2, h.same x hx.1]

theorem Adds.perm {m m' : Mem} {f g : List Ptr} (h : Adds m m' f) (hp : f.Perm g) : Adds m m' g :=
  ⟨hp.nodup_iff.1 h.nodup, fun x hx => h.fresh x (hp.mem_iff.2 hx), fun x hx => h.used x (hp.mem_iff.2 hx),
    fun x hx => h.same x fun hf => hx (hp.mem_iff.1 hf)⟩

theorem Adds.set {m m' : Mem} {f : List Ptr} (h : Adds m m' f) {p : Ptr} (hp : p ∈ f) (c : Cell) :
    Adds m (m'.set p (some c)) f := by
  refine ⟨h.nodup, h.fresh, fun x hx => ?_, fun x hx => ?_⟩
  · by_cases e : x = p
    · rw [e, set_eq]; simp
    · rw [set_ne _ _ e]; exact h.used x hx
  · rw [set_ne _ _ (fun e : x = p => hx (e ▸ hp))]; exact h.same x hx

theorem Texts.congr {m m' : Mem} {ss ps f} (h : Texts m ss ps f) (hm : ∀ x ∈ f, m' x = m x) : Texts m' ss ps f := by
  induction h with
  | nil => exact .nil
  | null _ ih => exact .null (ih hm)
  | some h0 h1 _ ih => exact .some h0 (by rw [hm _ (by simp), h1]) (ih fun x hx => hm x (by simp [hx]))

theorem Texts.used {m : Mem} {ss ps f} (h : Texts m ss ps f) : ∀ x ∈ f, m x ≠ none := by
  induction h with
  | nil => simp
  | null _ ih => exact ih
  | some h0 h1 _ ih =>
    intro x hx
    rcases List.mem_cons.1 hx with rfl | hx
    · rw [h1]; simp
    · exact ih x hx

theorem Texts.length {m : Mem} {ss ps f} (h : Texts m ss ps f) : ps.length = ss.length := by
  induction h with
  | nil => rfl
  | null _ ih => simp [ih]
  | some _ _ _ ih => simp [ih]

theorem Holds.congr {m m' : Mem} {v : Chain} : ∀ {s p f}, Holds m v s p f → (∀ x ∈ f, m' x = m x) → Holds m' v s p f := by
  induction v with
  | nil => exact fun h _ => h
  | cons k d ts w a b c e next iha ihb ihc ihe ihn =>
    rintro s p f ⟨r, fs, fa, fb, fc, fe, fn, h0, h1, h2, h3, h4, h5, ha, hb, hc, he, hn, rfl⟩ hm
    refine ⟨r, fs, fa, fb, fc, fe, fn, h0, by rw [hm p (by simp), h1], h2, h3, h4, h5.congr fun x hx => hm x (by simp [hx]),
      iha ha fun x hx => hm x (by simp [hx]), ihb hb fun x hx => hm x (by simp [hx]), ihc hc fun x hx => hm x (by simp [hx]),
      ihe he fun x hx => hm x (by simp [hx]), ?_, rfl⟩
    cases s with
    | true => exact ihn hn fun x hx => hm x (by simp [hx])
    | false => exact hn

theorem Holds.used {m : Mem} {v : Chain} : ∀ {s p f}, Holds m v s p f → ∀ x ∈ f, m x ≠ none := by
  induction v with
  | nil => rintro s p f ⟨-, rfl⟩; simp
  | cons k d ts w a b c e next iha ihb ihc ihe ihn =>
    rintro s p f ⟨r, fs, fa, fb, fc, fe, fn, h0, h1, h2, h3, h4, h5, ha, hb, hc, he, hn, rfl⟩ x hx
    simp only [List.mem_cons, List.mem_append] at hx
    rcases hx with rfl | hx | hx | hx | hx | hx | hx
    · rw [h1]; simp
    · exact h5.used x hx
    · exact iha ha x hx
    · exact ihb hb x hx
    · exact ihc hc x hx
    · exact ihe he x hx
    · cases s with
      | true => exact ihn hn x hx
      | false => rw [hn.2] at hx; simp at hx

theorem Holds.ext {m m' : Mem} {v : Chain} {s p f} (h : Holds m v s p f) (hm : Ext m m') : Holds m' v s p f :=
  h.congr fun x hx => hm x (h.used x hx)

theorem Texts.ext {m m' : Mem} {ss ps f} (h : Texts m ss ps f) (hm : Ext m m') : Texts m' ss ps f :=
  h.congr fun x hx => hm x (h.used x hx)

/-- A single structure is the same alone. -/
theorem Holds.alone {m : Mem} {v : Chain} {p f} (h : Holds m v true p f) (hs : v.Single) : Holds m v false p f := by
  cases v with
  | nil => exact h
  | cons k d ts w a b c e next =>
    obtain ⟨r, fs, fa, fb, fc, fe, fn, h0, h1, h2, h3, h4, h5, ha, hb, hc, he, hn, rfl⟩ := h
    cases (show next = .nil from hs)
    exact ⟨r, fs, fa, fb, fc, fe, fn, h0, h1, h2, h3, h4, h5, ha, hb, hc, he, ⟨rfl, hn.2⟩, rfl⟩

theorem Holds.ne {m : Mem} {v : Chain} {s p f} (h : Holds m v s p f) (hv : v ≠ .nil) : p ≠ 0 := by
  cases v with
  | nil => exact absurd rfl hv
  | cons k d ts w a b c e next => obtain ⟨r, fs, fa, fb, fc, fe, fn, h0, -⟩ := h; exact h0

theorem Holds.null {m : Mem} {s p f} (h : Holds m .nil s p f) : p = 0 ∧ f = [] := h

theorem alloc_spec (A : Allocator) (c : Cell) (m : Mem) :
    alloc A c m = .abort ∨ ∃ p, alloc A c m = .ok (p, m.set p (some c)) ∧ p ≠ 0 ∧ Adds m (m.set p (some c)) [p] := by
  unfold alloc
  cases h : A.pick m with
  | none => exact .inl rfl
  | some p =>
    obtain ⟨h1, h2⟩ := A.free m p h
    refine .inr ⟨p, rfl, h2, List.nodup_singleton p, by simpa using h1, by simp [set_eq], fun x hx => set_ne _ _ (by simpa using hx)⟩

theorem copyTexts_spec (A : Allocator) (which : List Text) {m₀ : Mem} {ss ps f} (h : Texts m₀ ss ps f) :
    ∀ (ts : List Text) (m : Mem), ts.length = ss.length → (∀ t ∈ ts, t ∈ which) → Ext m₀ m →
      copyTexts A which ts ps m = .abort ∨
      ∃ qs m' g, copyTexts A which ts ps m = .ok (qs, m') ∧ Adds m m' g ∧ Texts m' ss qs g := by
  induction h with
  | nil =>
    intro ts m hl hw hm
    cases ts with
    | nil => exact .inr ⟨[], m, [], rfl, .refl m, .nil⟩
    | cons t ts => simp at hl
  | @null ss ps f h ih =>
    intro ts m hl hw hm
    cases ts with
    | nil => simp at hl
    | cons t ts =>
      rw [copyTexts, if_pos (hw t (by simp)), copyText, if_pos rfl]
      simp only [bind_ok]
      rcases ih ts m (by simpa using hl) (fun t ht => hw t (by simp [ht])) hm with e | ⟨qs, m', g, e, h1, h2⟩
      · rw [e]; exact .inl rfl
      · rw [e]; exact .inr ⟨_, _, g, rfl, h1, .null h2⟩
  | @some s p ss ps f h0 h1 h ih =>
    intro ts m hl hw hm
    cases ts with
    | nil => simp at hl
    | cons t ts =>
      have hp : m p = some (.text s) := by rw [hm p (by rw [h1]; simp), h1]
      rw [copyTexts, if_pos (hw t (by simp)), copyText, if_neg h0, hp]
      dsimp only
      rcases alloc_spec A (.text s) m with e | ⟨q, e, hq, ha⟩
      · rw [e]; exact .inl rfl
      · rw [e]
        simp only [bind_ok]
        rcases ih ts _ (by simpa using hl) (fun t ht => hw t (by simp [ht])) (hm.trans ha.ext) with e | ⟨qs, m', g, e, h3, h4⟩
        · rw [e]; exact .inl rfl
        · rw [e]
          refine .inr ⟨_, _, q :: g, rfl, ha.trans h3, .some hq ?_ h4⟩
          show m' q = _
          rw [h3.ext q (by rw [set_eq]; simp), set_eq]

/-! ## The tables -/

theorem copied_texts (k : Kind) (h : copyable k = true) : ∀ t ∈ texts k, t ∈ copiedTexts k := by
  cases k <;> simp [copyable] at h <;> decide

theorem copied_slots (k : Kind) (h : copyable k = true) :
    ∀ x ∈ slots k, x.1 ∈ copiedSlots k ∧ ∀ l ∈ x.2, copyable l = true := by
  cases k <;> simp [copyable] at h <;> decide

/-- What copying gives: the program aborts for lack of memory, or there is a copy in memory that was not in use; all other memory
is as before. -/
def Copied (m : Mem) (v : Chain) (o : Out (Ptr × Mem)) : Prop :=
  o = .abort ∨ ∃ q m' g, o = .ok (q, m') ∧ Adds m m' g ∧ Holds m' v true q g

theorem copySlot_spec {A : Allocator} {n : Nat} {k : Kind} (hk : copyable k = true) (i : Nat) {x : Chain} {p : Ptr} {f : List Ptr}
    {m₀ m : Mem} (hx : Holds m₀ x true p f) (hm : Ext m₀ m) (ht : MemberOk k i x x.Typed)
    (ih : ∀ s p f m ks, x ≠ .nil → x.Typed ks → (∀ l ∈ ks, copyable l = true) → Holds m x s p f → Copied m x (copy A n p s m)) :
    Copied m x (copySlot (copy A n) k i p m) := by
  unfold copySlot
  unfold MemberOk at ht
  cases hs : (slots k)[i]? with
  | none =>
    rw [hs] at ht
    dsimp only at ht ⊢
    subst ht
    obtain ⟨rfl, rfl⟩ := hx
    exact .inr ⟨0, m, [], rfl, .refl m, rfl, rfl⟩
  | some y =>
    obtain ⟨s, l⟩ := y
    rw [hs] at ht
    dsimp only at ht ⊢
    obtain ⟨hc1, hc2⟩ := copied_slots k hk (s, l) (List.mem_of_getElem? hs)
    by_cases hn : x = .nil
    · subst hn
      obtain ⟨rfl, rfl⟩ := hx
      rw [if_neg (by simp)]
      exact .inr ⟨0, m, [], rfl, .refl m, rfl, rfl⟩
    · rw [if_pos ⟨hc1, hx.ne hn⟩]
      cases hl : s.isList with
      | true => exact ih true p f m l hn ht.1 hc2 (hx.ext hm)
      | false => exact ih false p f m l hn ht.1 hc2 ((hx.ext hm).alone (ht.2 hl))

/-- The final write into the copy. -/
theorem copy_finish {m m1 m2 m3 m4 m5 m6 m7 : Mem} {r : Record} {q : Ptr} {gn gs ga gb gc ge : List Ptr}
    {ts : List (Option Str)} {a b c e next : Chain} {ps : List Ptr} {pa pb pc pe pn : Ptr} (h0 : q ≠ 0)
    (hq : m1 q = some (.record r)) (h1 : Adds m m1 [q])
    (h2 : Adds m1 m2 gn) (hn : Holds m2 next true pn gn) (h3 : Adds m2 m3 gs) (hs : Texts m3 ts ps gs)
    (h4 : Adds m3 m4 ga) (ha : Holds m4 a true pa ga) (h5 : Adds m4 m5 gb) (hb : Holds m5 b true pb gb)
    (h6 : Adds m5 m6 gc) (hc : Holds m6 c true pc gc) (h7 : Adds m6 m7 ge) (he : Holds m7 e true pe ge) :
    ∃ m' g, (writeRecord m7 q { r with texts := ps, a := pa, b := pb, c := pc, e := pe, next := pn }) = .ok m' ∧
      Adds m m' g ∧ Holds m' (.cons r.kind r.data ts r.crashThread a b c e next) true q g := by
  have q1 : m1 q ≠ none := by rw [hq]; simp
  have e2 := h2.ext
  have e3 := e2.trans h3.ext
  have e4 := e3.trans h4.ext
  have e5 := e4.trans h5.ext
  have e6 := e5.trans h6.ext
  have e7 := e6.trans h7.ext
  have q2 : m2 q ≠ none := by rw [e2 q q1]; exact q1
  have q3 : m3 q ≠ none := by rw [e3 q q1]; exact q1
  have q4 : m4 q ≠ none := by rw [e4 q q1]; exact q1
  have q5 : m5 q ≠ none := by rw [e5 q q1]; exact q1
  have q6 : m6 q ≠ none := by rw [e6 q q1]; exact q1
  have q7 : m7 q = some (.record r) := by rw [e7 q q1, hq]
  have hw : ∀ r', writeRecord m7 q r' = .ok (m7.set q (some (.record r'))) := fun r' => by unfold writeRecord; rw [q7]
  rw [hw]
  have keep : ∀ {m' : Mem} {g : List Ptr}, m' q ≠ none → (∀ x ∈ g, m' x = none) → ∀ r', ∀ x ∈ g,
      m7.set q (some (.record r')) x = m7 x := fun hq' hg r' x hx => set_ne _ _ fun e : x = q => hq' (e ▸ hg x hx)
  have all := ((((((h1.trans h2).trans h3).trans h4).trans h5).trans h6).trans h7)
  refine ⟨_, q :: (gs ++ (ga ++ (gb ++ (gc ++ (ge ++ gn))))), rfl, ?_, ?_⟩
  · refine Adds.set (all.perm ?_) (by simp) _
    classical
    rw [List.perm_iff_count]
    intro x
    simp only [List.count_append, List.count_cons, List.count_nil]
    omega
  · refine ⟨_, gs, ga, gb, gc, ge, gn, h0, set_eq _ _ _, rfl, rfl, rfl, ?_, ?_, ?_, ?_, ?_, ?_, rfl⟩
    · exact (hs.ext (h4.ext.trans (h5.ext.trans (h6.ext.trans h7.ext)))).congr (keep q2 h3.fresh _)
    · exact (ha.ext (h5.ext.trans (h6.ext.trans h7.ext))).congr (keep q3 h4.fresh _)
    · exact (hb.ext (h6.ext.trans h7.ext)).congr (keep q4 h5.fresh _)
    · exact (hc.ext h7.ext).congr (keep q5 h6.fresh _)
    · exact he.congr (keep q6 h7.fresh _)
    · rw [if_pos rfl]
      exact (hn.ext (h3.ext.trans (h4.ext.trans (h5.ext.trans (h6.ext.trans h7.ext))))).congr (keep q1 h2.fresh _)

theorem copy_spec (A : Allocator) (v : Chain) : ∀ (n : Nat) (s : Bool) (p : Ptr) (f : List Ptr) (m : Mem) (ks : List Kind), v ≠ .nil →
    v.size ≤ n → v.Typed ks → (∀ k ∈ ks, copyable k = true) → Holds m v s p f → Copied m v (copy A n p s m) := by
  induction v with
  | nil => exact fun _ _ _ _ _ _ h => absurd rfl h
  | cons k d ts w a b c e next iha ihb ihc ihe ihn =>
    intro n s p f m ks _ hsize ht hks hv
    obtain ⟨hk, hlen, htn, hta, htb, htc, hte⟩ := ht
    rw [Chain.size] at hsize
    cases n with
    | zero => omega
    | succ n =>
      obtain ⟨r, fs, fa, fb, fc, fe, fn, h0, h1, rfl, rfl, rfl, h5, ha, hb, hc, he, hn, rfl⟩ := hv
      have hcop := hks _ hk
      rw [copy, readRecord, h1]
      simp only [bind_ok]
      rcases alloc_spec A (.record r) m with e | ⟨q, e, hq, h1'⟩
      · rw [e]; exact .inl rfl
      rw [e]
      simp only [bind_ok]
      have hnext : Copied (m.set q (some (.record r))) next
          (if s = true ∧ r.next ≠ 0 then copy A n r.next true (m.set q (some (.record r))) else .ok (0, m.set q (some (.record r)))) := by
        cases s with
        | false =>
          rw [if_neg (by simp), hn.1]
          exact .inr ⟨0, _, [], rfl, .refl _, rfl, rfl⟩
        | true =>
          rw [if_pos rfl] at hn
          by_cases hnil : next = .nil
          · subst hnil
            rw [if_neg (by rw [hn.1]; simp)]
            exact .inr ⟨0, _, [], rfl, .refl _, rfl, rfl⟩
          · rw [if_pos ⟨rfl, hn.ne hnil⟩]
            exact ihn n true _ _ _ ks hnil (by omega) htn hks (hn.ext h1'.ext)
      rcases hnext with e | ⟨pn, m2, gn, e, h2, hn'⟩
      · rw [e]; exact .inl rfl
      rw [e]
      simp only [bind_ok]
      have x2 := h1'.ext.trans h2.ext
      rcases copyTexts_spec A (copiedTexts r.kind) h5 (texts r.kind) m2 hlen.symm (copied_texts _ hcop) x2 with
        e | ⟨ps, m3, gs, e, h3, hs'⟩
      · rw [e]; exact .inl rfl
      rw [e]
      simp only [bind_ok]
      have x3 := x2.trans h3.ext
      rcases copySlot_spec hcop 0 ha x3 hta fun s p f m ks h1 h2 h3 h4 => iha n s p f m ks h1 (by omega) h2 h3 h4 with
        e | ⟨pa, m4, ga, e, h4, ha'⟩
      · rw [e]; exact .inl rfl
      rw [e]
      simp only [bind_ok]
      have x4 := x3.trans h4.ext
      rcases copySlot_spec hcop 1 hb x4 htb fun s p f m ks h1 h2 h3 h4 => ihb n s p f m ks h1 (by omega) h2 h3 h4 with
        e | ⟨pb, m5, gb, e, h5, hb'⟩
      · rw [e]; exact .inl rfl
      rw [e]
      simp only [bind_ok]
      have x5 := x4.trans h5.ext
      rcases copySlot_spec hcop 2 hc x5 htc fun s p f m ks h1 h2 h3 h4 => ihc n s p f m ks h1 (by omega) h2 h3 h4 with
        e | ⟨pc, m6, gc, e, h6, hc'⟩
      · rw [e]; exact .inl rfl
      rw [e]
      simp only [bind_ok]
      have x6 := x5.trans h6.ext
      rcases copySlot_spec hcop 3 he x6 hte fun s p f m ks h1 h2 h3 h4 => ihe n s p f m ks h1 (by omega) h2 h3 h4 with
        e | ⟨pe, m7, ge, e, h7, he'⟩
      · rw [e]; exact .inl rfl
      rw [e]
      simp only [bind_ok]
      obtain ⟨m8, g, e8, h8, h9⟩ := copy_finish hq (set_eq _ _ _) h1' h2 hn' h3 hs' h4 ha' h5 hb' h6 hc' h7 he'
      rw [e8]
      exact .inr ⟨q, m8, g, rfl, h8, h9⟩

end Satyr.Heap
