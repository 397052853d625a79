import Verif.Levenshtein.DP
import Mathlib.Algebra.Order.Field.Basic
import Mathlib.Algebra.Order.Ring.Rat
import Mathlib.Algebra.Field.Rat
/-!
# Properties C05, C06: Levenshtein and Damerau-Levenshtein distance
-/
namespace Satyr.Levenshtein

variable {F : Type}

/-- Frame comparison is an equivalence relation. -/
structure Equiv' (eq : F → F → Bool) : Prop where
  refl : ∀ x, eq x x = true
  symm : ∀ x y, eq x y = true → eq y x = true
  trans : ∀ x y z, eq x y = true → eq y z = true → eq x z = true

theorem max_eq (a b : List F) : (if b.length < a.length then a.length else b.length) = max a.length b.length := by
  split <;> omega

theorem distance_eq (eq : F → F → Bool) (sw : Bool) (hr : sw = false ∨ Rect eq) (a b : List F) :
    distance eq sw a b = .ok ((D eq sw a.reverse b.reverse : Rat) / (max a.length b.length : Nat)) := by
  unfold distance
  rw [max_eq]
  simp only
  split
  · next h => rw [h]; simp
  · rw [rawDistance_eq eq sw hr, Out.bind_ok]

/-! ## C05 -/

/-- **C05.** `SR_DISTANCE_LEVENSHTEIN`: for every frame comparison (not even reflexive) the result is the least
cost of an alignment by insertions, deletions and substitutions, divided by the length of the longer thread. -/
theorem C05_levenshtein (eq : F → F → Bool) (a b : List F) :
    ∃ k, IsLeast' (Alignable eq false a b) k ∧
      distance eq false a b = .ok ((k : Rat) / (max a.length b.length : Nat)) :=
  ⟨_, D_isLeast eq false a b, distance_eq eq false (Or.inl rfl) a b⟩

/-- **C05.** `SR_DISTANCE_DAMERAU_LEVENSHTEIN`: if frame comparison is symmetric and transitive, the result is the
least cost of an alignment that may also swap adjacent frames, divided by the length of the longer thread. -/
theorem C05_damerau_levenshtein (eq : F → F → Bool) (hs : ∀ x y, eq x y = true → eq y x = true)
    (ht : ∀ x y z, eq x y = true → eq y z = true → eq x z = true) (a b : List F) :
    ∃ k, IsLeast' (Alignable eq true a b) k ∧
      distance eq true a b = .ok ((k : Rat) / (max a.length b.length : Nat)) :=
  ⟨_, D_isLeast eq true a b, distance_eq eq true
    (Or.inr fun x1 x2 y1 y2 h1 h2 h3 => ht x1 x2 y1 (ht x1 y2 x2 h3 (hs _ _ h1)) h2) a b⟩

/-- A non-transitive comparison: 0 is a wildcard. -/
def wild (x y : Nat) : Bool := x == 0 || y == 0 || x == y

theorem alignable_cons_inv {eq : F → F → Bool} {sw : Bool} {a b : List F}
    (h : Alignable eq sw a b 0) : Same eq a b := by
  obtain ⟨bs, h1, rfl, rfl, h4⟩ := h
  induction bs with
  | nil => exact .nil
  | cons B bs ih =>
    simp only [List.map_cons, List.sum_cons] at h4
    have := ih (fun B hB => h1 B (by simp [hB])) (by omega)
    cases B with
    | keep x y => exact .cons (h1 (.keep x y) (by simp)) this
    | _ => simp [Block.cost] at h4

/-- **C05, finding.** Transitivity cannot be dropped in the Damerau variant: with a wildcard comparison (as the gdb
comparison with an unknown library is) the program returns 0 for two threads that no alignment of cost 0 relates. -/
theorem C05_not_damerau_for_wildcards :
    distance wild true [1, 0] [2, 0] = .ok 0 ∧ ¬ Alignable wild true [1, 0] [2, 0] 0 := by
  constructor
  · have : rawDistance wild true [1, 0] [2, 0] = .ok 0 := by decide
    simp [distance, this]
  · intro h
    have := alignable_cons_inv h
    cases this with
    | cons h _ => simp [wild] at h

/-- Non-vacuity: "kitten"/"sitting" and a swap. -/
example : rawDistance (fun x y : Char => x == y) false "kitten".toList "sitting".toList = .ok 3 ∧
    rawDistance (fun x y : Char => x == y) true "abcd".toList "acbd".toList = .ok 1 ∧
    rawDistance (fun x y : Char => x == y) false "abcd".toList "acbd".toList = .ok 2 := by decide

/-! ### Edit steps -/

theorem Steps.prefix {k : Nat} {a b : List F} (h : Steps k a b) (p : List F) : Steps k (p ++ a) (p ++ b) := by
  induction h with
  | refl a => exact .refl _
  | step h _ ih =>
    refine .step ?_ ih
    cases h with
    | ins q s y => rw [← List.append_assoc, ← List.append_assoc]; exact .ins _ _ _
    | del q s y => rw [← List.append_assoc, ← List.append_assoc]; exact .del _ _ _
    | subst q s x y => rw [← List.append_assoc, ← List.append_assoc]; exact .subst _ _ _ _

theorem steps_of_alignable {eq : F → F → Bool} (hrefl : ∀ x, eq x x = true) {a b : List F} {k : Nat}
    (h : Alignable eq false a b k) : ∃ b', Steps k a b' ∧ Same eq b' b := by
  obtain ⟨bs, h1, rfl, rfl, rfl⟩ := h
  induction bs with
  | nil => exact ⟨[], .refl _, .nil⟩
  | cons B bs ih =>
    obtain ⟨b', hs, hsame⟩ := ih (fun B hB => h1 B (by simp [hB]))
    have hB := h1 B (by simp)
    simp only [List.flatMap_cons, List.map_cons, List.sum_cons]
    cases B with
    | keep x y =>
      refine ⟨x :: b', ?_, .cons hB hsame⟩
      have := hs.prefix [x]
      simpa [Block.src, Block.cost] using this
    | subst x y =>
      refine ⟨y :: b', ?_, .cons (hrefl y) hsame⟩
      simp only [Block.src, Block.cost, Nat.add_comm 1]
      exact .step (.subst [] _ x y) (hs.prefix [y])
    | del x =>
      refine ⟨b', ?_, hsame⟩
      simp only [Block.src, Block.cost, Nat.add_comm 1]
      exact .step (.del [] _ x) hs
    | ins y =>
      refine ⟨y :: b', ?_, .cons (hrefl y) hsame⟩
      simp only [Block.src, Block.cost, Nat.add_comm 1]
      exact .step (.ins [] _ y) (hs.prefix [y])
    | swap x1 x2 y1 y2 => simp [Block.Ok] at hB

theorem split_src {eq : F → F → Bool} (bs : List (Block F)) (h : ∀ B ∈ bs, B.Ok eq false) (p s : List F)
    (e : bs.flatMap Block.src = p ++ s) :
    ∃ b1 b2, bs = b1 ++ b2 ∧ b1.flatMap Block.src = p ∧ b2.flatMap Block.src = s := by
  induction bs generalizing p with
  | nil =>
    simp only [List.flatMap_nil] at e
    have e := List.nil_eq_append_iff.1 e
    exact ⟨[], [], rfl, by simp [e.1], by simp [e.2]⟩
  | cons B bs ih =>
    rcases p with _ | ⟨z, p⟩
    · exact ⟨[], B :: bs, rfl, rfl, e⟩
    · have hB := h B (by simp)
      have one : B.src = [] ∨ B.src = [z] := by
        cases B with
        | swap => simp [Block.Ok] at hB
        | ins y => left; rfl
        | _ => right; simp [Block.src] at e ⊢; exact e.1
      rcases one with one | one
      · rw [List.flatMap_cons, one, List.nil_append] at e
        obtain ⟨b1, b2, h1, h2, h3⟩ := ih (fun B hB => h B (by simp [hB])) (z :: p) e
        exact ⟨B :: b1, b2, by rw [h1]; rfl, by rw [List.flatMap_cons, one, h2]; rfl, h3⟩
      · rw [List.flatMap_cons, one] at e
        simp only [List.cons_append, List.nil_append, List.cons.injEq, true_and] at e
        obtain ⟨b1, b2, h1, h2, h3⟩ := ih (fun B hB => h B (by simp [hB])) p e
        exact ⟨B :: b1, b2, by rw [h1]; rfl, by rw [List.flatMap_cons, one, h2]; rfl, h3⟩

/-- The blocks up to the one consuming `y`. -/
theorem split_at {eq : F → F → Bool} (bs : List (Block F)) (h : ∀ B ∈ bs, B.Ok eq false) (p s : List F) (y : F)
    (e : bs.flatMap Block.src = p ++ y :: s) :
    ∃ b1 B b2, bs = b1 ++ B :: b2 ∧ b1.flatMap Block.src = p ∧ B.src = [y] ∧ b2.flatMap Block.src = s := by
  obtain ⟨b1, b2, rfl, h2, h3⟩ := split_src bs h p (y :: s) e
  have h' : ∀ B ∈ b2, B.Ok eq false := fun B hB => h B (by simp [hB])
  clear e h
  induction b2 generalizing b1 with
  | nil => simp at h3
  | cons B b2 ih =>
    have hB := h' B (by simp)
    have one : B.src = [] ∨ B.src = [y] := by
      cases B with
      | swap => simp [Block.Ok] at hB
      | ins y => left; rfl
      | _ => right; simp [Block.src] at h3 ⊢; exact h3.1
    rcases one with one | one
    · rw [List.flatMap_cons, one, List.nil_append] at h3
      obtain ⟨c1, C, c2, g1, g2, g3, g4⟩ := ih (b1 ++ [B]) (by simp [h2, one]) h3 (fun B hB => h' B (by simp [hB]))
      exact ⟨c1, C, c2, by rw [← g1]; simp, g2, g3, g4⟩
    · refine ⟨b1, B, b2, rfl, h2, one, ?_⟩
      rw [List.flatMap_cons, one] at h3
      simpa using h3

theorem alignable_of_step {eq : F → F → Bool} {a a' b : List F} {k : Nat} (h : Step a a')
    (hal : Alignable eq false a' b k) : ∃ k', k' ≤ k + 1 ∧ Alignable eq false a b k' := by
  obtain ⟨bs, h1, h2, rfl, rfl⟩ := hal
  cases h with
  | ins p s y =>
    obtain ⟨b1, B, b2, rfl, g2, g3, g4⟩ := split_at bs h1 p s y h2
    have hb : ∀ C ∈ b1 ++ b2, C.Ok eq false := fun C hC => h1 C (by simp at hC ⊢; tauto)
    cases B with
    | keep x z =>
      refine ⟨_, ?_, b1 ++ .ins z :: b2, ?_, ?_, ?_, rfl⟩
      · simp [Block.cost]; omega
      · intro C hC
        simp only [List.mem_append, List.mem_cons] at hC hb
        rcases hC with h | rfl | h
        · exact hb C (Or.inl h)
        · trivial
        · exact hb C (Or.inr h)
      · simp [g2, g4, Block.src]
      · simp [Block.dst]
    | subst x z =>
      refine ⟨_, ?_, b1 ++ .ins z :: b2, ?_, ?_, ?_, rfl⟩
      · simp [Block.cost]
      · intro C hC
        simp only [List.mem_append, List.mem_cons] at hC hb
        rcases hC with h | rfl | h
        · exact hb C (Or.inl h)
        · trivial
        · exact hb C (Or.inr h)
      · simp [g2, g4, Block.src]
      · simp [Block.dst]
    | del x =>
      refine ⟨_, ?_, b1 ++ b2, hb, ?_, ?_, rfl⟩
      · simp [Block.cost]; omega
      · simp [g2, g4]
      · simp [Block.dst]
    | ins z => simp [Block.src] at g3
    | swap => simp [Block.src] at g3
  | del p s x =>
    obtain ⟨b1, b2, rfl, g2, g3⟩ := split_src bs h1 p s h2
    refine ⟨_, ?_, b1 ++ .del x :: b2, ?_, ?_, ?_, rfl⟩
    · simp [Block.cost]; omega
    · intro C hC
      simp only [List.mem_append, List.mem_cons] at hC h1
      rcases hC with h | rfl | h
      · exact h1 C (Or.inl h)
      · trivial
      · exact h1 C (Or.inr h)
    · simp [g2, g3, Block.src]
    · simp [Block.dst]
  | subst p s x y =>
    obtain ⟨b1, B, b2, rfl, g2, g3, g4⟩ := split_at bs h1 p s y h2
    have hb : ∀ C ∈ b1 ++ b2, C.Ok eq false := fun C hC => h1 C (by simp at hC ⊢; tauto)
    have key : ∀ B' : Block F, B'.Ok eq false → B'.src = [x] → B'.dst = B.dst → B'.cost ≤ B.cost + 1 →
        ∃ k', k' ≤ ((b1 ++ B :: b2).map Block.cost).sum + 1 ∧
          Alignable eq false (p ++ x :: s) ((b1 ++ B :: b2).flatMap Block.dst) k' := by
      intro B' o1 o2 o3 o4
      refine ⟨_, ?_, b1 ++ B' :: b2, ?_, ?_, ?_, rfl⟩
      · simp; omega
      · intro C hC
        simp only [List.mem_append, List.mem_cons] at hC hb
        rcases hC with h | rfl | h
        · exact hb C (Or.inl h)
        · exact o1
        · exact hb C (Or.inr h)
      · simp [g2, g4, o2]
      · simp [o3]
    cases B with
    | keep _ z => exact key (.subst x z) trivial rfl rfl (by simp [Block.cost])
    | subst _ z => exact key (.subst x z) trivial rfl rfl (by simp [Block.cost])
    | del _ => exact key (.del x) trivial rfl rfl (by simp [Block.cost])
    | ins z => simp [Block.src] at g3
    | swap => simp [Block.src] at g3

theorem alignable_of_same {eq : F → F → Bool} {sw : Bool} {a b : List F} (h : Same eq a b) :
    Alignable eq sw a b 0 := by
  induction h with
  | nil => exact ⟨[], by simp, rfl, rfl, rfl⟩
  | @cons x y a b hxy _ ih =>
    obtain ⟨bs, h1, rfl, rfl, h4⟩ := ih
    refine ⟨.keep x y :: bs, ?_, rfl, rfl, by simp [h4, Block.cost]⟩
    intro B hB
    rcases List.mem_cons.1 hB with rfl | hB
    · exact hxy
    · exact h1 B hB

theorem alignable_of_steps {eq : F → F → Bool} {a b b' : List F} {k : Nat} (h : Steps k a b') (hs : Same eq b' b) :
    ∃ k', k' ≤ k ∧ Alignable eq false a b k' := by
  induction h with
  | refl a => exact ⟨0, Nat.le_refl _, alignable_of_same hs⟩
  | step h _ ih =>
    obtain ⟨k', h1, h2⟩ := ih hs
    obtain ⟨k'', h3, h4⟩ := alignable_of_step h h2
    exact ⟨k'', by omega, h4⟩

/-- **C05.** For a reflexive frame comparison the Levenshtein distance is, literally, the minimum number of single
frame insertions, deletions and substitutions that turn `a` into a sequence whose frames equal those of `b`,
divided by the length of the longer sequence. -/
theorem C05_levenshtein_edit_steps (eq : F → F → Bool) (hrefl : ∀ x, eq x x = true) (a b : List F) :
    ∃ k, IsLeast' (fun k => ∃ b', Steps k a b' ∧ Same eq b' b) k ∧
      distance eq false a b = .ok ((k : Rat) / (max a.length b.length : Nat)) := by
  obtain ⟨k, ⟨h1, h2⟩, h3⟩ := C05_levenshtein eq a b
  refine ⟨k, ⟨steps_of_alignable hrefl h1, ?_⟩, h3⟩
  rintro k' ⟨b', h4, h5⟩
  obtain ⟨k'', h6, h7⟩ := alignable_of_steps h4 h5
  exact Nat.le_trans (h2 _ h7) h6

/-! ## C06 -/

theorem D_le_max (eq : F → F → Bool) (sw : Bool) (a b : List F) : D eq sw a b ≤ max a.length b.length := by
  induction a generalizing b with
  | nil => rw [D_nil]; simp
  | cons x a ih =>
    cases b with
    | nil => rw [D_nil']; simp
    | cons y b =>
      have h1 := D_sub eq sw x y a b
      have h2 := ih b
      simp; omega

theorem D_zero_iff (eq : F → F → Bool) (sw : Bool) (a b : List F) :
    D eq sw a.reverse b.reverse = 0 ↔ Same eq a b := by
  have h := D_isLeast eq sw a b
  constructor
  · intro e
    have := h.1
    rw [e] at this
    exact alignable_cons_inv this
  · intro hs
    have := h.2 0 (alignable_of_same hs)
    omega

/-- **C06.** The distance lies in [0, 1], and it is 0 exactly for threads of equal length with pairwise equal frames.
(Levenshtein: any comparison; Damerau-Levenshtein: symmetric and transitive comparison.) -/
theorem C06_range_and_zero (eq : F → F → Bool) (sw : Bool)
    (h : sw = true → (∀ x y, eq x y = true → eq y x = true) ∧
      ∀ x y z, eq x y = true → eq y z = true → eq x z = true) (a b : List F) :
    ∃ q, distance eq sw a b = .ok q ∧ 0 ≤ q ∧ q ≤ 1 ∧ (q = 0 ↔ Same eq a b) := by
  have hr : sw = false ∨ Rect eq := by
    cases sw with
    | false => exact Or.inl rfl
    | true =>
      obtain ⟨hs, ht⟩ := h rfl
      exact Or.inr fun x1 x2 y1 y2 h1 h2 h3 => ht x1 x2 y1 (ht x1 y2 x2 h3 (hs _ _ h1)) h2
  refine ⟨_, distance_eq eq sw hr a b, ?_, ?_, ?_⟩
  · exact div_nonneg (Nat.cast_nonneg _) (Nat.cast_nonneg _)
  · apply div_le_one_of_le₀
    · have := D_le_max eq sw a.reverse b.reverse
      simp only [List.length_reverse] at this
      exact_mod_cast this
    · exact Nat.cast_nonneg _
  · rw [← D_zero_iff eq sw a b, div_eq_zero_iff]
    constructor
    · rintro (h | h)
      · exact_mod_cast h
      · have h : max a.length b.length = 0 := by exact_mod_cast h
        have := D_le_max eq sw a.reverse b.reverse
        simp only [List.length_reverse] at this
        omega
    · intro h; left; rw [h]; rfl

/-- Exchange of the two sides of a block. -/
def Block.flip : Block F → Block F
  | .keep x y => .keep y x
  | .subst x y => .subst y x
  | .del x => .ins x
  | .ins y => .del y
  | .swap x1 x2 y1 y2 => .swap y1 y2 x1 x2

theorem alignable_symm {eq : F → F → Bool} {sw : Bool} (hs : ∀ x y, eq x y = true → eq y x = true) {a b : List F}
    {k : Nat} (h : Alignable eq sw a b k) : Alignable eq sw b a k := by
  obtain ⟨bs, h1, rfl, rfl, rfl⟩ := h
  refine ⟨bs.map Block.flip, ?_, ?_, ?_, ?_⟩
  · intro B hB
    obtain ⟨B, hB', rfl⟩ := List.mem_map.1 hB
    have := h1 B hB'
    cases B with
    | keep x y => exact hs _ _ this
    | swap x1 x2 y1 y2 => exact ⟨this.1, hs _ _ this.2.2, hs _ _ this.2.1⟩
    | _ => trivial
  · rw [List.flatMap_map]; congr 1; funext B; cases B <;> rfl
  · rw [List.flatMap_map]; congr 1; funext B; cases B <;> rfl
  · rw [List.map_map]; congr 2; funext B; cases B <;> rfl

/-- **C06.** Symmetry: if the frame comparison is symmetric (and, for the Damerau variant, transitive), exchanging
the threads does not change the distance. -/
theorem C06_symmetric (eq : F → F → Bool) (sw : Bool) (hs : ∀ x y, eq x y = true → eq y x = true)
    (ht : sw = true → ∀ x y z, eq x y = true → eq y z = true → eq x z = true) (a b : List F) :
    distance eq sw a b = distance eq sw b a := by
  have hr : sw = false ∨ Rect eq := by
    cases sw with
    | false => exact Or.inl rfl
    | true => exact Or.inr fun x1 x2 y1 y2 h1 h2 h3 => ht rfl x1 x2 y1 (ht rfl x1 y2 x2 h3 (hs _ _ h1)) h2
  rw [distance_eq eq sw hr, distance_eq eq sw hr, Nat.max_comm]
  have h1 := D_isLeast eq sw a b
  have h2 := D_isLeast eq sw b a
  have e : D eq sw a.reverse b.reverse = D eq sw b.reverse a.reverse :=
    Nat.le_antisymm (h1.2 _ (alignable_symm hs h2.1)) (h2.2 _ (alignable_symm hs h1.1))
  rw [e]

theorem Same.trans' {eq : F → F → Bool} (ht : ∀ x y z, eq x y = true → eq y z = true → eq x z = true)
    {a b c : List F} (h1 : Same eq a b) (h2 : Same eq b c) : Same eq a c := by
  induction h1 generalizing c with
  | nil => exact h2
  | cons hxy _ ih =>
    cases h2 with
    | cons hyz h2 => exact .cons (ht _ _ _ hxy hyz) (ih h2)

theorem Same.split {eq : F → F → Bool} {a p s : List F} (h : Same eq a (p ++ s)) :
    ∃ p' s', a = p' ++ s' ∧ Same eq p' p ∧ Same eq s' s := by
  induction p generalizing a with
  | nil => exact ⟨[], a, rfl, .nil, h⟩
  | cons x p ih =>
    cases h with
    | cons hx h =>
      obtain ⟨p', s', rfl, h1, h2⟩ := ih h
      exact ⟨_ :: p', s', rfl, .cons hx h1, h2⟩

theorem Same.append {eq : F → F → Bool} {a b c d : List F} (h : Same eq a b) (h' : Same eq c d) :
    Same eq (a ++ c) (b ++ d) := by
  induction h with
  | nil => exact h'
  | cons hx _ ih => exact .cons hx ih

theorem steps_transport {eq : F → F → Bool} (hrefl : ∀ x, eq x x = true) {k : Nat} {b c b' : List F} (h : Steps k b c)
    (hs : Same eq b' b) : ∃ c', Steps k b' c' ∧ Same eq c' c := by
  induction h generalizing b' with
  | refl a => exact ⟨b', .refl _, hs⟩
  | step h _ ih =>
    cases h with
    | ins p s y =>
      obtain ⟨p', s', rfl, h1, h2⟩ := hs.split
      obtain ⟨c', h3, h4⟩ := ih (h1.append (.cons (hrefl y) h2))
      exact ⟨c', .step (.ins p' s' y) h3, h4⟩
    | del p s x =>
      obtain ⟨p', s', rfl, h1, h2⟩ := hs.split
      cases h2 with
      | cons hx h2 =>
        obtain ⟨c', h3, h4⟩ := ih (h1.append h2)
        exact ⟨c', .step (.del p' _ _) h3, h4⟩
    | subst p s x y =>
      obtain ⟨p', s', rfl, h1, h2⟩ := hs.split
      cases h2 with
      | cons hx h2 =>
        obtain ⟨c', h3, h4⟩ := ih (h1.append (.cons (hrefl y) h2))
        exact ⟨c', .step (.subst p' _ _ y) h3, h4⟩

theorem Steps.trans' {k l : Nat} {a b c : List F} (h : Steps k a b) (h' : Steps l b c) : Steps (k + l) a c := by
  induction h with
  | refl a => simpa using h'
  | step h _ ih => rw [Nat.add_right_comm]; exact .step h (ih h')

/-- **C06.** Triangle inequality of the unnormalised Levenshtein distance, when frame comparison is an equivalence. -/
theorem C06_triangle (eq : F → F → Bool) (he : Equiv' eq) (a b c : List F) :
    ∃ ab bc ac, rawDistance eq false a b = .ok ab ∧ rawDistance eq false b c = .ok bc ∧
      rawDistance eq false a c = .ok ac ∧ ac ≤ ab + bc := by
  refine ⟨_, _, _, rawDistance_eq eq false (Or.inl rfl) a b, rawDistance_eq eq false (Or.inl rfl) b c,
    rawDistance_eq eq false (Or.inl rfl) a c, ?_⟩
  obtain ⟨b', h1, h2⟩ := steps_of_alignable he.refl (D_isLeast eq false a b).1
  obtain ⟨c', h3, h4⟩ := steps_of_alignable he.refl (D_isLeast eq false b c).1
  obtain ⟨c'', h5, h6⟩ := steps_transport he.refl h3 h2
  obtain ⟨k, h7, h8⟩ := alignable_of_steps (h1.trans' h5) (h6.trans' he.trans h4)
  exact Nat.le_trans ((D_isLeast eq false a c).2 k h8) h7

/-- Non-vacuity: character equality is an equivalence; a strict triangle. -/
example : Equiv' (fun x y : Char => x == y) ∧
    rawDistance (fun x y : Char => x == y) false "ab".toList "ba".toList = .ok 2 ∧
    rawDistance (fun x y : Char => x == y) false "ba".toList "xa".toList = .ok 1 ∧
    rawDistance (fun x y : Char => x == y) false "ab".toList "xa".toList = .ok 2 :=
  ⟨⟨by simp, by intro x y h; simpa using (by simpa using h : x = y).symm, by simp⟩, by decide, by decide, by decide⟩

end Satyr.Levenshtein
