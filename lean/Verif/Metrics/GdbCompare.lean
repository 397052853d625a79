import Verif.Metrics.Natural
import Verif.Metrics.JaroWinkler
import Verif.Normalize.Matching
import Verif.Crash.Quality
import Verif.Frames.CmpProps
/-!
# Distances of gdb threads as they are stored in the matrix (C113)
-/
namespace Satyr.GdbCompare
open Satyr.CStr Satyr.Normalize Satyr.Frames Satyr.Metrics Satyr.Distances
open Satyr.Levenshtein (pull)

/-! ## Model -/

/-- `0 == sr_frame_cmp_distance` for two gdb frames. -/
def same (f g : GdbFrame) : Bool := gdbCmpDistance f g == 0

/-- `sr_distance` for two gdb threads. -/
def plain (ty : Option DistType) (f1 f2 : List GdbFrame) : Out Rat := distance same ty (⟨(), f1⟩ : Thread Unit GdbFrame) ⟨(), f2⟩

/-- `normalize_and_compare` (lib/distance.c:394-434) for two gdb threads (`sr_threads_compare` asserts that both threads
have one type). The copies are made by `sr_gdb_thread_dup` (see `Heap`), so the pairing does not touch the threads. -/
def compare (ty : Option DistType) (f1 f2 : List GdbFrame) : Out Rat :=
  let c := Crash.qualityCounts f2 (Crash.qualityCounts f1 (0, 0))
  if c.1 ≠ c.2 then plain ty (pairUnknown f1 f2).1 (pairUnknown f1 f2).2 else plain ty f1 f2

/-! ## Specification -/

/-- The function of the frame is not known. -/
def Unknown (f : GdbFrame) : Prop := f.functionName = some c!"??"

/-- No function has a name that the pairing may invent. -/
def NoInvented (f1 f2 : List GdbFrame) : Prop := ∀ f ∈ f1 ++ f2, ∀ k, f.functionName ≠ some (unknownName k)

/-- Frames marked as signal handlers do not have the name `??` (gdb prints `<signal handler called>` instead of a name). -/
def SignalsNamed (f : List GdbFrame) : Prop := ∀ x ∈ f, x.signalHandlerCalled = true → ¬ Unknown x

/-- Comparison of the frames of both threads is transitive (it is if the libraries are known). -/
def Transitive (f1 f2 : List GdbFrame) : Prop :=
  ∀ x ∈ f1 ++ f2, ∀ y ∈ f1 ++ f2, ∀ z ∈ f1 ++ f2, same x y = true → same y z = true → same x z = true

/-! ## Frames at positions -/

/-- The frame at a position; a frame equal to no other past the end. -/
def at' (f : List GdbFrame) (i : Nat) : GdbFrame := f[i]?.getD { functionName := some c!"??" }

/-- Positions in the first or in the second thread. -/
abbrev Pos := Nat ⊕ Nat

def look (f1 f2 : List GdbFrame) : Pos → GdbFrame
  | .inl i => at' f1 i
  | .inr j => at' f2 j

def left (n : Nat) : List Pos := (List.range n).map Sum.inl
def right (n : Nat) : List Pos := (List.range n).map Sum.inr

/-- The position is one of the two of the pair. -/
def On (e : Nat × Nat) : Pos → Prop
  | .inl i => e.1 = i
  | .inr j => e.2 = j

def Linked (P : List (Nat × Nat)) (p q : Pos) : Prop := ∃ e ∈ P, On e p ∧ On e q

theorem map_at (f : List GdbFrame) : (List.range f.length).map (at' f) = f := by
  apply List.ext_getElem?
  intro i
  rw [List.getElem?_map]
  rcases Nat.lt_or_ge i f.length with h | h
  · rw [List.getElem?_range h]; simp [at', List.getElem?_eq_getElem h]
  · rw [List.getElem?_eq_none (by simpa using h), List.getElem?_eq_none h]; rfl

theorem left_map (f1 f2 : List GdbFrame) : (left f1.length).map (look f1 f2) = f1 := by
  unfold left; rw [List.map_map]; exact map_at f1
theorem right_map (f1 f2 : List GdbFrame) : (right f2.length).map (look f1 f2) = f2 := by
  unfold right; rw [List.map_map]; exact map_at f2

theorem left_nodup (n : Nat) : (left n).Nodup := by
  unfold left; exact List.Nodup.map Sum.inl_injective List.nodup_range
theorem right_nodup (n : Nat) : (right n).Nodup := by
  unfold right; exact List.Nodup.map Sum.inr_injective List.nodup_range
theorem left_right (n m : Nat) : ∀ x ∈ left n, x ∉ right m := by
  intro x hx hx'
  unfold left at hx; unfold right at hx'
  obtain ⟨_, _, rfl⟩ := List.mem_map.1 hx
  obtain ⟨_, _, h⟩ := List.mem_map.1 hx'
  cases h

/-- Comparison of positions. -/
def eqAt (f1 f2 : List GdbFrame) : Pos → Pos → Bool := pull same (look f1 f2)

theorem lev_positions (t : Bool) (f1 f2 : List GdbFrame) :
    Levenshtein.distance same t f1 f2 = Levenshtein.distance (eqAt f1 f2) t (left f1.length) (right f2.length) := by
  have := Levenshtein.distance_map same (look f1 f2) t (left f1.length) (right f2.length)
  rw [left_map, right_map] at this; exact this

theorem lev_positions' (t : Bool) (f1 f2 : List GdbFrame) :
    Levenshtein.distance same t f2 f1 = Levenshtein.distance (eqAt f1 f2) t (right f2.length) (left f1.length) := by
  have := Levenshtein.distance_map same (look f1 f2) t (right f2.length) (left f1.length)
  rw [left_map, right_map] at this; exact this

theorem jac_positions (f1 f2 : List GdbFrame) :
    jaccard same f1 f2 = jaccard (eqAt f1 f2) (left f1.length) (right f2.length) := by
  have := jaccard_map same (look f1 f2) (left f1.length) (right f2.length)
  rw [left_map, right_map] at this; exact this

theorem jac_positions' (f1 f2 : List GdbFrame) :
    jaccard same f2 f1 = jaccard (eqAt f1 f2) (right f2.length) (left f1.length) := by
  have := jaccard_map same (look f1 f2) (right f2.length) (left f1.length)
  rw [left_map, right_map] at this; exact this

/-! ## Comparison of gdb frames -/

theorem same_iff (f g : GdbFrame) : same f g = true ↔
    ¬ Unknown f ∧ f.functionName = g.functionName ∧ ¬ (∃ x y, f.libraryName = some x ∧ g.libraryName = some y ∧ x ≠ y) := by
  unfold same Unknown
  rw [beq_iff_eq]
  unfold gdbCmpDistance
  split
  · next h =>
    rw [strcmp0_eq_zero, strcmp0_eq_zero] at h
    simp [h.1]
  · next h =>
    rw [strcmp0_eq_zero, strcmp0_eq_zero] at h
    rw [orElse0_eq_zero, strcmp0_eq_zero]
    constructor
    · rintro ⟨h1, h2⟩
      refine ⟨fun hu => h ⟨hu, by rw [← h1]; exact hu⟩, h1, ?_⟩
      rintro ⟨x, y, hx, hy, hne⟩
      rw [hx, hy] at h2
      exact hne (strcmp_eq_zero.1 h2)
    · rintro ⟨_, h1, h2⟩
      refine ⟨h1, ?_⟩
      cases hf : f.libraryName <;> cases hg : g.libraryName <;> try rfl
      rename_i x y
      by_contra hne
      exact h2 ⟨x, y, hf, hg, fun e => hne (strcmp_eq_zero.2 e)⟩

theorem same_symm (f g : GdbFrame) (h : same f g = true) : same g f = true := by
  rw [same_iff] at h ⊢
  obtain ⟨h1, h2, h3⟩ := h
  refine ⟨fun hu => h1 (by unfold Unknown at *; rw [h2]; exact hu), h2.symm, ?_⟩
  rintro ⟨x, y, a, b, c⟩
  exact h3 ⟨y, x, b, a, Ne.symm c⟩

theorem eqAt_symm (f1 f2 : List GdbFrame) (p q : Pos) (h : eqAt f1 f2 p q = true) : eqAt f1 f2 q p = true :=
  same_symm _ _ h

/-! ## Equal frames after pairing -/

/-- The frame at a position after pairing: that of before, or the renamed one. -/
theorem look_cases {o1 o2 r1 r2 : List GdbFrame} {P : List (Nat × Nat)} (h : Paired o1 o2 P r1 r2) (p : Pos) :
    ((∀ e ∈ P, ¬ On e p) ∧ look r1 r2 p = look o1 o2 p) ∨
    ∃ k e, P[k]? = some e ∧ On e p ∧ Unknown (look o1 o2 p) ∧
      look r1 r2 p = { look o1 o2 p with functionName := some (unknownName k) } := by
  cases p with
  | inl i =>
    by_cases hi : i ∈ P.map Prod.fst
    · right
      obtain ⟨e, he, rfl⟩ := List.mem_map.1 hi
      obtain ⟨k, hk⟩ := List.mem_iff_getElem?.1 he
      obtain ⟨a, b, q1, q2, q3, q4, q5, q6, q7, q8⟩ := h.renamed k e hk
      refine ⟨k, e, hk, rfl, ?_, ?_⟩
      · unfold Unknown; simp only [look, at', q1]; exact q3
      · simp only [look, at', q1, q6]; rfl
    · left
      refine ⟨fun e he hon => hi (List.mem_map.2 ⟨e, he, hon⟩), ?_⟩
      simp only [look, at', h.other1 i hi]
  | inr j =>
    by_cases hj : j ∈ P.map Prod.snd
    · right
      obtain ⟨e, he, rfl⟩ := List.mem_map.1 hj
      obtain ⟨k, hk⟩ := List.mem_iff_getElem?.1 he
      obtain ⟨a, b, q1, q2, q3, q4, q5, q6, q7, q8⟩ := h.renamed k e hk
      refine ⟨k, e, hk, rfl, ?_, ?_⟩
      · unfold Unknown; simp only [look, at', q2]; exact q4
      · simp only [look, at', q2, q7]; rfl
    · left
      refine ⟨fun e he hon => hj (List.mem_map.2 ⟨e, he, hon⟩), ?_⟩
      simp only [look, at', h.other2 j hj]

/-- A position is in at most one pair. -/
theorem on_unique {o1 o2 r1 r2 : List GdbFrame} {P : List (Nat × Nat)} (h : Paired o1 o2 P r1 r2) {p : Pos}
    {e e' : Nat × Nat} (he : e ∈ P) (he' : e' ∈ P) (h1 : On e p) (h2 : On e' p) : e = e' := by
  cases p with
  | inl i => exact List.inj_on_of_nodup_map h.nodup1 he he' (h1.trans h2.symm)
  | inr j => exact List.inj_on_of_nodup_map h.nodup2 he he' (h1.trans h2.symm)

theorem index_unique {o1 o2 r1 r2 : List GdbFrame} {P : List (Nat × Nat)} (h : Paired o1 o2 P r1 r2) {k l : Nat}
    {e : Nat × Nat} (h1 : P[k]? = some e) (h2 : P[l]? = some e) : k = l := by
  have hn : P.Nodup := List.Nodup.of_map _ h.nodup1
  have hk := (List.getElem?_eq_some_iff.1 h1).1
  exact (List.getElem?_inj hk hn).1 (h1.trans h2.symm)

/-- The two frames of a pair (or one frame with itself) do not have contradicting libraries. -/
theorem linked_libs {o1 o2 r1 r2 : List GdbFrame} {P : List (Nat × Nat)} (h : Paired o1 o2 P r1 r2) {p q : Pos}
    (hl : Linked P p q) :
    ¬ (∃ x y, (look o1 o2 p).libraryName = some x ∧ (look o1 o2 q).libraryName = some y ∧ x ≠ y) := by
  obtain ⟨e, he, hp, hq⟩ := hl
  obtain ⟨k, hk⟩ := List.mem_iff_getElem?.1 he
  obtain ⟨a, b, q1, q2, q3, q4, q5, _⟩ := h.renamed k e hk
  have la : look o1 o2 (.inl e.1) = a := by simp only [look, at', q1]; rfl
  have lb : look o1 o2 (.inr e.2) = b := by simp only [look, at', q2]; rfl
  rintro ⟨x, y, h1, h2, h3⟩
  cases p <;> cases q <;> simp only [On] at hp hq <;> subst hp hq
  · rw [h1] at h2; cases h2; exact h3 rfl
  · rw [la] at h1; rw [lb] at h2; exact q5 ⟨x, y, h1, h2, h3⟩
  · rw [lb] at h1; rw [la] at h2; exact q5 ⟨y, x, h2, h1, Ne.symm h3⟩
  · rw [h1] at h2; cases h2; exact h3 rfl

theorem look_mem {f1 f2 : List GdbFrame} (p : Pos) : look f1 f2 p ∈ f1 ++ f2 ∨ look f1 f2 p = { functionName := some c!"??" } := by
  have key : ∀ (f : List GdbFrame) i, at' f i ∈ f ∨ at' f i = { functionName := some c!"??" } := by
    intro f i
    unfold at'
    cases h : f[i]? with
    | none => right; rfl
    | some a => left; exact List.mem_of_getElem? h
  cases p with
  | inl i => exact (key f1 i).imp_left (List.mem_append_left _)
  | inr j => exact (key f2 j).imp_left (List.mem_append_right _)

theorem look_not_invented {f1 f2 : List GdbFrame} (h : NoInvented f1 f2) (p : Pos) (k : Nat) :
    (look f1 f2 p).functionName ≠ some (unknownName k) := by
  rcases look_mem (f1 := f1) (f2 := f2) p with hm | he
  · exact h _ hm k
  · rw [he]
    intro hh
    exact unknownName_ne k (Option.some.inj hh).symm

/-- What is the same after pairing: what was the same before, and the frames of a pair. -/
theorem eqAt_paired {o1 o2 r1 r2 : List GdbFrame} {P : List (Nat × Nat)} (h : Paired o1 o2 P r1 r2)
    (hn : NoInvented o1 o2) (p q : Pos) :
    eqAt r1 r2 p q = true ↔ eqAt o1 o2 p q = true ∨ Linked P p q := by
  have one : ∀ p q : Pos, (∀ e ∈ P, ¬ On e q) → (∃ k e, P[k]? = some e ∧ On e p ∧ Unknown (look o1 o2 p) ∧
      look r1 r2 p = { look o1 o2 p with functionName := some (unknownName k) }) →
      look r1 r2 q = look o1 o2 q → (same (look r1 r2 p) (look r1 r2 q) = true ↔
        same (look o1 o2 p) (look o1 o2 q) = true ∨ Linked P p q) := by
    rintro p q hq ⟨k, e, hk, hon, hu, hr⟩ hq'
    rw [hr, hq', same_iff, same_iff]
    constructor
    · rintro ⟨_, h2, _⟩
      exact absurd h2.symm (look_not_invented hn q k)
    · rintro (⟨h1, _⟩ | ⟨e, he, _, h2⟩)
      · exact absurd hu h1
      · exact absurd h2 (hq e he)
  have sym : ∀ f g, (same f g = true ↔ same g f = true) := fun f g => ⟨same_symm f g, same_symm g f⟩
  have lsym : Linked P p q ↔ Linked P q p :=
    ⟨fun ⟨e, he, a, b⟩ => ⟨e, he, b, a⟩, fun ⟨e, he, a, b⟩ => ⟨e, he, b, a⟩⟩
  show same (look r1 r2 p) (look r1 r2 q) = true ↔ same (look o1 o2 p) (look o1 o2 q) = true ∨ Linked P p q
  rcases look_cases h p with ⟨hp, ep⟩ | hp
  · rcases look_cases h q with ⟨hq, eq⟩ | hq
    · rw [ep, eq]
      constructor
      · exact Or.inl
      · rintro (h | ⟨e, he, h1, _⟩)
        · exact h
        · exact absurd h1 (hp e he)
    · rw [sym, sym (look o1 o2 p), lsym]
      exact one q p hp hq ep
  · rcases look_cases h q with ⟨hq, eq⟩ | hq
    · exact one p q hq hp eq
    · obtain ⟨k, e, hk, hon, hu, hr⟩ := hp
      obtain ⟨l, e', hl, hon', hu', hr'⟩ := hq
      have hm := List.mem_of_getElem? hk
      have hm' := List.mem_of_getElem? hl
      constructor
      · intro hs
        right
        rw [hr, hr', same_iff] at hs
        have : k = l := unknownName_injective (Option.some.inj hs.2.1)
        subst this
        rw [hk] at hl; cases hl
        exact ⟨e, hm, hon, hon'⟩
      · rintro (hs | hlk)
        · rw [same_iff] at hs; exact absurd hu hs.1
        · have hlibs := linked_libs h hlk
          obtain ⟨e2, he2, a, b⟩ := hlk
          have e1 := on_unique h hm he2 hon a
          have e1' := on_unique h hm' he2 hon' b
          subst e1; subst e1'
          have := index_unique h hk hl
          subst this
          rw [hr, hr', same_iff]
          refine ⟨?_, rfl, hlibs⟩
          intro hh
          exact unknownName_ne k (Option.some.inj hh)

/-- Frames that were the same stay the same. -/
theorem eqAt_mono {o1 o2 r1 r2 : List GdbFrame} {P : List (Nat × Nat)} (h : Paired o1 o2 P r1 r2) (p q : Pos)
    (he : eqAt o1 o2 p q = true) : eqAt r1 r2 p q = true := by
  have he' : same (look o1 o2 p) (look o1 o2 q) = true := he
  show same (look r1 r2 p) (look r1 r2 q) = true
  have h1 := (same_iff _ _).1 he'
  have h2 := (same_iff _ _).1 (same_symm _ _ he')
  rcases look_cases h p with ⟨_, ep⟩ | ⟨_, _, _, _, hu, _⟩
  · rcases look_cases h q with ⟨_, eq⟩ | ⟨_, _, _, _, hu, _⟩
    · rw [ep, eq]; exact he'
    · exact absurd hu h2.1
  · exact absurd hu h1.1

theorem eqAt_trans {f1 f2 : List GdbFrame} (h : Transitive f1 f2) (p q r : Pos)
    (h1 : eqAt f1 f2 p q = true) (h2 : eqAt f1 f2 q r = true) : eqAt f1 f2 p r = true := by
  have h1' : same (look f1 f2 p) (look f1 f2 q) = true := h1
  have h2' : same (look f1 f2 q) (look f1 f2 r) = true := h2
  have nu : ∀ x, ¬ Unknown (look f1 f2 x) → look f1 f2 x ∈ f1 ++ f2 := by
    intro x hx
    rcases look_mem (f1 := f1) (f2 := f2) x with hm | he
    · exact hm
    · rw [he] at hx; exact absurd rfl hx
  have a := ((same_iff _ _).1 h1').1
  have b := ((same_iff _ _).1 h2').1
  have c := ((same_iff _ _).1 (same_symm _ _ h2')).1
  exact h _ (nu p a) _ (nu q b) _ (nu r c) h1' h2'

theorem eqAt_paired_trans {o1 o2 r1 r2 : List GdbFrame} {P : List (Nat × Nat)} (h : Paired o1 o2 P r1 r2)
    (hn : NoInvented o1 o2) (ht : Transitive o1 o2) (p q r : Pos)
    (h1 : eqAt r1 r2 p q = true) (h2 : eqAt r1 r2 q r = true) : eqAt r1 r2 p r = true := by
  rw [eqAt_paired h hn] at h1 h2 ⊢
  have un : ∀ x y, Linked P x y → Unknown (look o1 o2 x) ∧ Unknown (look o1 o2 y) := by
    rintro x y ⟨e, he, hx, hy⟩
    have key : ∀ z, On e z → Unknown (look o1 o2 z) := by
      intro z hz
      rcases look_cases h z with ⟨hno, _⟩ | ⟨_, _, _, _, hu, _⟩
      · exact absurd hz (hno e he)
      · exact hu
    exact ⟨key x hx, key y hy⟩
  have ne : ∀ x y, eqAt o1 o2 x y = true → ¬ Unknown (look o1 o2 x) ∧ ¬ Unknown (look o1 o2 y) := by
    intro x y hxy
    exact ⟨((same_iff _ _).1 hxy).1, ((same_iff _ _).1 (same_symm _ _ hxy)).1⟩
  rcases h1 with h1 | h1
  · rcases h2 with h2 | h2
    · exact Or.inl (eqAt_trans ht p q r h1 h2)
    · exact absurd (un _ _ h2).1 (ne _ _ h1).2
  · rcases h2 with h2 | h2
    · exact absurd (un _ _ h1).2 (ne _ _ h2).1
    · right
      obtain ⟨e, he, a, b⟩ := h1
      obtain ⟨e', he', a', b'⟩ := h2
      have := on_unique h he he' b a'
      subst this
      exact ⟨e, he, a, b'⟩

/-! ## The two orders of pairing -/

/-- Pairing the threads in the other order makes the same frames equal. -/
theorem eqAt_swap {f1 f2 : List GdbFrame} (hn : NoInvented f1 f2) :
    eqAt (pairUnknown f1 f2).1 (pairUnknown f1 f2).2 = eqAt (pairUnknown f2 f1).2 (pairUnknown f2 f1).1 := by
  obtain ⟨P, hP, fP, _⟩ := C18_first_fit f1 f2
  obtain ⟨Q, hQ, fQ, _⟩ := C18_first_fit f2 f1
  have hn' : NoInvented f2 f1 := by
    intro f hf k
    exact hn f (by rw [List.mem_append] at hf ⊢; exact hf.symm) k
  have hR : (fun j i => Fits f2 f1 i j) = Fits f1 f2 := by
    funext j i; exact propext fits_comm
  have fQ' := fQ.swap
  rw [hR] at fQ'
  have hm := fP.unique fQ'
  have mem : ∀ i j, (i, j) ∈ P ↔ (j, i) ∈ Q := by
    intro i j
    rw [hm]
    constructor
    · intro h
      obtain ⟨⟨a, b⟩, hp, e⟩ := List.mem_map.1 h
      cases e; exact hp
    · intro h; exact List.mem_map.2 ⟨(j, i), h, rfl⟩
  let sw : Pos → Pos := Sum.swap
  have hl : ∀ p q, Linked P p q ↔ Linked Q (sw p) (sw q) := by
    intro p q
    constructor
    · rintro ⟨⟨a, b⟩, he, h1, h2⟩
      refine ⟨(b, a), (mem a b).1 he, ?_, ?_⟩
      · cases p <;> exact h1
      · cases q <;> exact h2
    · rintro ⟨⟨b, a⟩, he, h1, h2⟩
      refine ⟨(a, b), (mem a b).2 he, ?_, ?_⟩
      · cases p <;> exact h1
      · cases q <;> exact h2
  have hs : ∀ (a b : List GdbFrame) p, look a b (sw p) = look b a p := by
    intro a b p; cases p <;> rfl
  have he : ∀ (a b : List GdbFrame) p q, eqAt a b (sw p) (sw q) = eqAt b a p q := by
    intro a b p q
    show same (look a b (sw p)) (look a b (sw q)) = same (look b a p) (look b a q)
    rw [hs, hs]
  funext p q
  rw [Bool.eq_iff_iff, eqAt_paired hP hn, ← he (pairUnknown f2 f1).1 (pairUnknown f2 f1).2 p q, eqAt_paired hQ hn', he, hl]

theorem counts_comm (f1 f2 : List GdbFrame) :
    Crash.qualityCounts f2 (Crash.qualityCounts f1 (0, 0)) = Crash.qualityCounts f1 (Crash.qualityCounts f2 (0, 0)) := by
  rw [Crash.qualityCounts_eq f1, Crash.qualityCounts_eq f2, Crash.qualityCounts_eq f2, Crash.qualityCounts_eq f1]
  ext <;> simp only <;> omega

theorem plain_symm_of (f1 f2 g1 g2 : List GdbFrame) (l1 : f1.length = g1.length) (l2 : f2.length = g2.length)
    (he : eqAt f1 f2 = eqAt g1 g2) :
    plain (some .levenshtein) f1 f2 = plain (some .levenshtein) g2 g1 ∧
    ((∀ p q r, eqAt f1 f2 p q = true → eqAt f1 f2 q r = true → eqAt f1 f2 p r = true) →
      plain (some .damerauLevenshtein) f1 f2 = plain (some .damerauLevenshtein) g2 g1 ∧
      plain (some .jaccard) f1 f2 = plain (some .jaccard) g2 g1) := by
  refine ⟨?_, fun ht => ⟨?_, ?_⟩⟩
  · show Levenshtein.distance same false f1 f2 = Levenshtein.distance same false g2 g1
    rw [lev_positions, lev_positions' false g1 g2, ← he, ← l1, ← l2]
    exact Levenshtein.C06_symmetric _ _ (fun p q h => eqAt_symm f1 f2 p q h) (by simp) _ _
  · show Levenshtein.distance same true f1 f2 = Levenshtein.distance same true g2 g1
    rw [lev_positions, lev_positions' true g1 g2, ← he, ← l1, ← l2]
    exact Levenshtein.C06_symmetric _ _ (fun p q h => eqAt_symm f1 f2 p q h) (fun _ => ht) _ _
  · show Out.ok (jaccard same f1 f2) = Out.ok (jaccard same g2 g1)
    rw [jac_positions, jac_positions' g1 g2, ← he, ← l1, ← l2]
    rw [jaccard_positions_symm (fun p q h => eqAt_symm f1 f2 p q h) ht _ _ (left_nodup _) (right_nodup _) (left_right _ _)]

/-! ## C113 -/

/-- **C113.** The distance stored for two gdb threads does not depend on which of them comes first: for the Levenshtein
distance if no function is called like an invented name, for the Damerau-Levenshtein and the Jaccard distance if in addition
the comparison of the frames of these threads is transitive. -/
theorem C113_symmetric (f1 f2 : List GdbFrame) (hn : NoInvented f1 f2) :
    compare (some .levenshtein) f1 f2 = compare (some .levenshtein) f2 f1 ∧
    (Transitive f1 f2 →
      compare (some .damerauLevenshtein) f1 f2 = compare (some .damerauLevenshtein) f2 f1 ∧
      compare (some .jaccard) f1 f2 = compare (some .jaccard) f2 f1) := by
  unfold compare
  rw [counts_comm f1 f2]
  simp only
  split
  · obtain ⟨P, hP, _, _⟩ := C18_first_fit f1 f2
    obtain ⟨Q, hQ, _, _⟩ := C18_first_fit f2 f1
    obtain ⟨h1, h2⟩ := plain_symm_of (pairUnknown f1 f2).1 (pairUnknown f1 f2).2 (pairUnknown f2 f1).2 (pairUnknown f2 f1).1
      (by rw [hP.length1, hQ.length2]) (by rw [hP.length2, hQ.length1]) (eqAt_swap hn)
    exact ⟨h1, fun ht => h2 (eqAt_paired_trans hP hn ht)⟩
  · obtain ⟨h1, h2⟩ := plain_symm_of f1 f2 f1 f2 rfl rfl rfl
    exact ⟨h1, fun ht => h2 (eqAt_trans ht)⟩

/-- C113: comparison is transitive if the libraries of all frames are known. -/
theorem C113_transitive_if_known (f1 f2 : List GdbFrame) (h : ∀ f ∈ f1 ++ f2, f.libraryName ≠ none) : Transitive f1 f2 := by
  intro x hx y hy z hz h1 h2
  rw [same_iff] at h1 h2 ⊢
  obtain ⟨u, hu⟩ := Option.ne_none_iff_exists'.1 (h y hy)
  refine ⟨h1.1, h1.2.1.trans h2.2.1, ?_⟩
  rintro ⟨a, b, ha, hb, hne⟩
  by_cases hau : a = u
  · subst hau; exact h2.2.2 ⟨a, b, hu, hb, hne⟩
  · exact h1.2.2 ⟨a, u, ha, hu, hau⟩

/-- C113: pairing never makes the Levenshtein distance greater. -/
theorem C113_not_greater (f1 f2 : List GdbFrame) :
    ∃ q q0, compare (some .levenshtein) f1 f2 = .ok q ∧ plain (some .levenshtein) f1 f2 = .ok q0 ∧ q ≤ q0 := by
  have h0 : plain (some .levenshtein) f1 f2 = Levenshtein.distance same false f1 f2 := rfl
  obtain ⟨k0, hk0, e0⟩ := Levenshtein.C05_levenshtein (eqAt f1 f2) (left f1.length) (right f2.length)
  rw [← lev_positions] at e0
  unfold compare
  simp only
  split
  · obtain ⟨P, hP, _, _⟩ := C18_first_fit f1 f2
    obtain ⟨k, hk, e⟩ := Levenshtein.C05_levenshtein (eqAt (pairUnknown f1 f2).1 (pairUnknown f1 f2).2)
      (left (pairUnknown f1 f2).1.length) (right (pairUnknown f1 f2).2.length)
    rw [← lev_positions] at e
    refine ⟨_, _, e, h0.trans e0, ?_⟩
    rw [hP.length1, hP.length2] at hk ⊢
    have hle : k ≤ k0 := by
      apply hk.2
      obtain ⟨bs, b1, b2, b3, b4⟩ := hk0.1
      refine ⟨bs, ?_, b2, b3, b4⟩
      intro B hB
      have := b1 B hB
      cases B with
      | keep x y => exact eqAt_mono hP x y this
      | swap a b c d => exact ⟨this.1, eqAt_mono hP _ _ this.2.1, eqAt_mono hP _ _ this.2.2⟩
      | subst x y => trivial
      | del x => trivial
      | ins y => trivial
    have hle' : (k : Rat) ≤ k0 := by exact_mod_cast hle
    exact div_le_div_of_nonneg_right hle' (by positivity)
  · exact ⟨_, _, h0.trans e0, h0.trans e0, le_refl _⟩

theorem pairUnknown_known {f1 f2 : List GdbFrame} (h : (∀ f ∈ f1, ¬ Unknown f) ∨ ∀ f ∈ f2, ¬ Unknown f) :
    pairUnknown f1 f2 = (f1, f2) := by
  obtain ⟨P, hP, fP, _⟩ := C18_first_fit f1 f2
  have hnil : P = [] := by
    cases P with
    | nil => rfl
    | cons e P =>
      have hf := fP.candidate e.1 e.2 (by simp)
      obtain ⟨a, ha, ua⟩ := nameAt_some hf.1
      obtain ⟨b, hb, ub⟩ := nameAt_some hf.2.1
      rcases h with h | h
      · exact absurd ua (h a (List.mem_of_getElem? ha))
      · exact absurd ub (h b (List.mem_of_getElem? hb))
  subst hnil
  have e1 : (pairUnknown f1 f2).1 = f1 := List.ext_getElem? fun i => hP.other1 i (by simp)
  have e2 : (pairUnknown f1 f2).2 = f2 := List.ext_getElem? fun i => hP.other2 i (by simp)
  exact Prod.ext e1 e2

/-- C113: if all functions of one of the threads are known, the distance is that of the threads as they are. -/
theorem C113_known (ty : Option DistType) (f1 f2 : List GdbFrame)
    (h : (∀ f ∈ f1, ¬ Unknown f) ∨ ∀ f ∈ f2, ¬ Unknown f) : compare ty f1 f2 = plain ty f1 f2 := by
  unfold compare
  rw [pairUnknown_known h]
  simp

theorem all_resolved {f1 f2 : List GdbFrame}
    (h : (Crash.qualityCounts f2 (Crash.qualityCounts f1 (0, 0))).1 = (Crash.qualityCounts f2 (Crash.qualityCounts f1 (0, 0))).2) :
    ∀ f ∈ f1 ++ f2, Crash.Resolved f := by
  rw [Crash.qualityCounts_eq f1, Crash.qualityCounts_eq f2] at h
  simp only [Nat.zero_add] at h
  have h1 := List.countP_le_length (p := fun f => decide (Crash.Resolved f)) (l := f1)
  have h2 := List.countP_le_length (p := fun f => decide (Crash.Resolved f)) (l := f2)
  intro f hf
  rcases List.mem_append.1 hf with hf | hf
  · have : List.countP (fun f => decide (Crash.Resolved f)) f1 = f1.length := by omega
    simpa using List.countP_eq_length.1 this f hf
  · have : List.countP (fun f => decide (Crash.Resolved f)) f2 = f2.length := by omega
    simpa using List.countP_eq_length.1 this f hf

/-- The threads are compared after pairing, whenever there is something to pair. -/
theorem compare_paired (ty : Option DistType) (f1 f2 : List GdbFrame) (h1 : SignalsNamed f1) :
    compare ty f1 f2 = plain ty (pairUnknown f1 f2).1 (pairUnknown f1 f2).2 := by
  unfold compare
  simp only
  split
  · rfl
  · next h =>
    rw [not_not] at h
    have hr := all_resolved h
    rw [pairUnknown_known]
    left
    intro f hf hu
    rcases hr f (List.mem_append_left _ hf) with hs | ⟨⟨n, hn1, hn2⟩, _⟩
    · exact h1 f hf hs hu
    · unfold Unknown at hu; rw [hn1] at hu; exact hn2 (Option.some.inj hu)

/-- C113: the Levenshtein distance is 0 exactly if the threads have the same number of frames, and at each position the
frames are the same or form a pair. -/
theorem C113_zero_iff (f1 f2 : List GdbFrame) (hn : NoInvented f1 f2) (hs : SignalsNamed f1) :
    ∃ pairs, FirstFit (Fits f1 f2) pairs ∧
      (compare (some .levenshtein) f1 f2 = .ok 0 ↔ f1.length = f2.length ∧
        ∀ i a b, f1[i]? = some a → f2[i]? = some b → same a b = true ∨ (i, i) ∈ pairs) := by
  obtain ⟨P, hP, fP, _⟩ := C18_first_fit f1 f2
  refine ⟨P, fP, ?_⟩
  rw [compare_paired _ _ _ hs]
  show Levenshtein.distance same false _ _ = .ok 0 ↔ _
  rw [lev_positions, hP.length1, hP.length2]
  obtain ⟨q, e, _, _, hz⟩ := Levenshtein.C06_range_and_zero (eqAt (pairUnknown f1 f2).1 (pairUnknown f1 f2).2) false (by simp)
    (left f1.length) (right f2.length)
  rw [e]
  have : (Out.ok q = Out.ok 0) ↔ q = 0 := ⟨fun h => by injection h, fun h => by rw [h]⟩
  rw [this, hz]
  have same_len : ∀ {a b : List Pos} {eq}, Levenshtein.Same eq a b → a.length = b.length := by
    intro a b eq h
    induction h with
    | nil => rfl
    | cons _ _ ih => simp [ih]
  have same_get : ∀ {a b : List Pos} {eq : Pos → Pos → Bool}, Levenshtein.Same eq a b → ∀ (i : Nat) x y,
      a[i]? = some x → b[i]? = some y → eq x y = true := by
    intro a b eq h
    induction h with
    | nil => intro i x y h; simp at h
    | cons h _ ih =>
      intro i x y hx hy
      cases i with
      | zero => simp only [List.getElem?_cons_zero, Option.some.injEq] at hx hy; subst hx hy; exact h
      | succ i => exact ih i x y (by simpa using hx) (by simpa using hy)
  have same_of : ∀ (a b : List Pos) {eq : Pos → Pos → Bool}, a.length = b.length →
      (∀ (i : Nat) x y, a[i]? = some x → b[i]? = some y → eq x y = true) → Levenshtein.Same eq a b := by
    intro a
    induction a with
    | nil => intro b eq hl _; cases b with
      | nil => exact .nil
      | cons _ _ => simp at hl
    | cons x a ih =>
      intro b eq hl h
      cases b with
      | nil => simp at hl
      | cons y b => exact .cons (h 0 x y rfl rfl) (ih b (by simpa using hl) fun i x' y' h1 h2 => h (i + 1) x' y' (by simpa using h1) (by simpa using h2))
  have gl : ∀ n i, i < n → (left n)[i]? = some (.inl i) := by intro n i h; simp [left, List.getElem?_range h]
  have gr : ∀ n i, i < n → (right n)[i]? = some (.inr i) := by intro n i h; simp [right, List.getElem?_range h]
  have link : ∀ i, Linked P (.inl i) (.inr i) ↔ (i, i) ∈ P := by
    intro i
    constructor
    · rintro ⟨⟨a, b⟩, he, h1, h2⟩
      simp only [On] at h1 h2; subst h1; subst h2; exact he
    · intro h; exact ⟨(i, i), h, rfl, rfl⟩
  have at1 : ∀ i a b, f1[i]? = some a → f2[i]? = some b → (eqAt f1 f2 (.inl i) (.inr i) = same a b) := by
    intro i a b ha hb
    show same (at' f1 i) (at' f2 i) = same a b
    unfold at'; rw [ha, hb]; rfl
  constructor
  · intro h
    have hl : f1.length = f2.length := by simpa [left, right] using same_len h
    refine ⟨hl, fun i a b ha hb => ?_⟩
    have hi := (List.getElem?_eq_some_iff.1 ha).1
    have := same_get h i _ _ (gl _ _ hi) (gr _ _ (hl ▸ hi))
    rw [eqAt_paired hP hn, at1 i a b ha hb, link] at this
    exact this
  · rintro ⟨hl, h⟩
    refine same_of _ _ (by simp [left, right, hl]) fun i x y hx hy => ?_
    have hi : i < f1.length := by
      have := (List.getElem?_eq_some_iff.1 hx).1
      simpa [left] using this
    rw [gl _ _ hi] at hx; rw [gr _ _ (hl ▸ hi)] at hy
    cases hx; cases hy
    have ha : f1[i]? = some f1[i] := List.getElem?_eq_getElem hi
    have hb : f2[i]? = some (f2[i]'(hl ▸ hi)) := List.getElem?_eq_getElem _
    rw [eqAt_paired hP hn, at1 i _ _ ha hb, link]
    exact h i _ _ ha hb

/-- C113: a thread has distance 0 from an identical thread exactly if it has no two unknown functions in a row. -/
theorem C113_identical (f : List GdbFrame) (hn : NoInvented f f) (hs : SignalsNamed f) :
    compare (some .levenshtein) f f = .ok 0 ↔
      ∀ i a b, f[i]? = some a → f[i + 1]? = some b → ¬ (Unknown a ∧ Unknown b) := by
  obtain ⟨P, fP, hz⟩ := C113_zero_iff f f hn hs
  rw [hz]
  have refl : ∀ a, ¬ Unknown a → same a a = true := by
    intro a ha
    rw [same_iff]
    refine ⟨ha, rfl, ?_⟩
    rintro ⟨x, y, h1, h2, h3⟩
    rw [h1] at h2; cases h2; exact h3 rfl
  constructor
  · rintro ⟨_, h⟩ i a b ha hb ⟨ua, ub⟩
    rcases h i a a ha ha with h1 | h1
    · exact ((same_iff _ _).1 h1).1 ua
    · have := (fP.candidate i i h1).next.1
      apply this
      unfold nameAt; rw [hb]; exact congrArg some ub
  · intro h
    refine ⟨rfl, fun i a b ha hb => ?_⟩
    rw [ha] at hb; cases hb
    by_cases hu : Unknown a
    · right
      have fit : ∀ i, nameAt f i = some (some c!"??") → Fits f f i i := by
        intro i hi
        obtain ⟨a, ha, ua⟩ := nameAt_some hi
        have agree : ∀ j, LibsAgree f f j j := by
          intro j a b x y h1 h2 h3 h4
          rw [h1] at h2; cases h2; rw [h3] at h4; cases h4; rfl
        refine ⟨hi, hi, ⟨?_, rfl, ?_⟩, agree _, agree _, agree _⟩
        · rcases Nat.eq_zero_or_pos i with rfl | hpos
          · exact Or.inl ⟨rfl, rfl⟩
          · refine Or.inr ⟨hpos, hpos, rfl, ?_⟩
            intro hh
            obtain ⟨b, hb, ub⟩ := nameAt_some hh
            exact h (i - 1) b a hb (by rw [Nat.sub_add_cancel hpos]; exact ha) ⟨ub, ua⟩
        · intro hh
          obtain ⟨b, hb, ub⟩ := nameAt_some hh
          exact h i a b ha hb ⟨ua, ub⟩
      have diag : ∀ n i, i = n → nameAt f i = some (some c!"??") → (i, i) ∈ P := by
        intro n
        induction n using Nat.strongRecOn with
        | ind n ih =>
          rintro i rfl hi
          rcases fP.maximal i i (fit i hi) with h1 | ⟨j, hj, h1⟩ | ⟨j, hj, h1⟩
          · exact h1
          · have hju := (fP.candidate i j h1).2.1
            have := fP.snd i j j h1 (ih j hj j rfl hju); omega
          · have hju := (fP.candidate j i h1).1
            have := fP.fst j i j h1 (ih j hj j rfl hju); omega
      exact diag i i rfl (by unfold nameAt; rw [ha]; exact congrArg some hu)
    · exact Or.inl (refl a hu)

/-! ## What fails -/

/-- C113 fails for the Jaro-Winkler metric. -/
theorem C113_not_symmetric_jaro_winkler : ∃ f1 f2, NoInvented f1 f2 ∧ Transitive f1 f2 ∧
    compare (some .jaroWinkler) f1 f2 ≠ compare (some .jaroWinkler) f2 f1 := by
  refine ⟨[named c!"f", named c!"f"], [named c!"f"], ?_, ?_, ?_⟩
  · intro f hf k
    have : f = named c!"f" := by simpa using hf
    subst this
    intro h
    have h' := Option.some.inj h
    unfold unknownName at h'
    simp at h'
  · intro x hx y hy z hz _ _
    have hx' : x = named c!"f" := by simpa using hx
    have hz' : z = named c!"f" := by simpa using hz
    subst hx' hz'; decide +kernel
  · decide +kernel

/-- A frame of a library. -/
def inLib (n l : Str) : GdbFrame := { functionName := some n, libraryName := some l }

/-- C113 fails for the Jaccard metric if a library is missing: comparison is then not transitive. -/
theorem C113_not_symmetric_jaccard :
    compare (some .jaccard) [inLib c!"f" c!"a", inLib c!"f" c!"b"] [named c!"f"] = .ok 0 ∧
    compare (some .jaccard) [named c!"f"] [inLib c!"f" c!"a", inLib c!"f" c!"b"] = .ok (1 / 2) := by decide +kernel

/-- C113: two unknown functions in a row keep a thread away from an identical one. -/
theorem C113_not_zero_for_identical :
    compare (some .levenshtein) [named c!"f", named c!"??", named c!"??", named c!"g"]
      [named c!"f", named c!"??", named c!"??", named c!"g"] = .ok (1 / 2) := by decide +kernel

/-- C113 fails if a function really has an invented name: the numbers of the pairs depend on the order. -/
theorem C113_not_symmetric_invented :
    compare (some .levenshtein)
      [named c!"a", named c!"??", named c!"b", named c!"c", named c!"??", named c!"d", named c!"__unknown_function_0"]
      [named c!"c", named c!"??", named c!"d", named c!"a", named c!"??", named c!"b"] = .ok (5 / 7) ∧
    compare (some .levenshtein)
      [named c!"c", named c!"??", named c!"d", named c!"a", named c!"??", named c!"b"]
      [named c!"a", named c!"??", named c!"b", named c!"c", named c!"??", named c!"d", named c!"__unknown_function_0"] =
        .ok (6 / 7) := by decide +kernel

/-! ### Non-vacuity -/

example : compare (some .levenshtein) [named c!"f", named c!"??", named c!"g"] [named c!"f", named c!"??", named c!"g"] = .ok 0 ∧
    plain (some .levenshtein) [named c!"f", named c!"??", named c!"g"] [named c!"f", named c!"??", named c!"g"] = .ok (1 / 3) := by
  decide +kernel
example : compare (some .levenshtein) [named c!"f", named c!"??", named c!"g", named c!"f", named c!"??", named c!"g"]
      [named c!"f", named c!"??", named c!"g"] = .ok (1 / 2) ∧
    compare (some .levenshtein) [named c!"f", named c!"??", named c!"g"]
      [named c!"f", named c!"??", named c!"g", named c!"f", named c!"??", named c!"g"] = .ok (1 / 2) := by decide +kernel

end Satyr.GdbCompare
