import Verif.Metrics.Float
import Verif.Metrics.Natural
import Verif.Frames.CmpProps
import Mathlib.Tactic.Linarith
import Mathlib.Tactic.FieldSimp
/-!
# C139: threads near the same thread are near each other
-/
namespace Satyr.Metrics
open Satyr.Levenshtein (pull Equiv' D D_isLeast D_le_max Alignable Block Same)

variable {F : Type} {eq : F → F → Bool}

/-! ## Classes of equal frames -/

/-- Frames up to the comparison. -/
def classes (he : Equiv' eq) : Setoid F where
  r x y := eq x y = true
  iseqv := ⟨he.refl, fun h => he.symm _ _ h, fun h g => he.trans _ _ _ h g⟩

instance (he : Equiv' eq) : DecidableEq (Quotient (classes he)) :=
  @Quotient.decidableEq _ (classes he) (fun x y => inferInstanceAs (Decidable (eq x y = true)))

def cls (he : Equiv' eq) (x : F) : Quotient (classes he) := Quotient.mk _ x

theorem byKey (he : Equiv' eq) : ByKey eq (cls he) := fun _ _ =>
  ⟨fun h => Quotient.sound (s := classes he) h, fun h => Quotient.exact (s := classes he) h⟩

theorem pull_cls (he : Equiv' eq) : pull (fun x y : Quotient (classes he) => decide (x = y)) (cls he) = eq := by
  funext x y
  rw [Bool.eq_iff_iff, byKey he x y]
  simp [pull]

theorem map_cls (he : Equiv' eq) {a b : List F} (h : Same eq a b) : a.map (cls he) = b.map (cls he) := by
  induction h with
  | nil => rfl
  | cons hx _ ih => rw [List.map_cons, List.map_cons, ih, (byKey he _ _).1 hx]

/-- Threads with pairwise equal frames have the same distances. -/
theorem levenshtein_same (he : Equiv' eq) (sw : Bool) {a b : List F} (h : Same eq a b) (c : List F) :
    Levenshtein.distance eq sw a c = Levenshtein.distance eq sw b c := by
  rw [← pull_cls he, ← Levenshtein.distance_map, ← Levenshtein.distance_map, map_cls he h]

/-! ## Jaccard -/

theorem frameSet_triangle {K : Type} [DecidableEq K] (A B C : Finset K) :
    (A ∪ B ∪ C).card + (A ∩ B).card + (B ∩ C).card ≤ (A ∩ C).card + (A ∪ B).card + (B ∪ C).card := by
  have h : (A ∪ B ∪ C) \ (A ∩ C) ⊆ ((A ∪ B) \ (A ∩ B)) ∪ ((B ∪ C) \ (B ∩ C)) := by
    intro x
    simp only [Finset.mem_sdiff, Finset.mem_union, Finset.mem_inter]
    by_cases h1 : x ∈ A <;> by_cases h2 : x ∈ B <;> by_cases h3 : x ∈ C <;> simp [h1, h2, h3]
  have h' := (Finset.card_le_card h).trans (Finset.card_union_le _ _)
  have e1 := Finset.card_sdiff_add_card_eq_card (s := A ∩ C) (t := A ∪ B ∪ C)
    (fun x hx => Finset.mem_union_right _ (Finset.mem_inter.1 hx).2)
  have e2 := Finset.card_sdiff_add_card_eq_card (s := A ∩ B) (t := A ∪ B) Finset.inter_subset_union
  have e3 := Finset.card_sdiff_add_card_eq_card (s := B ∩ C) (t := B ∪ C) Finset.inter_subset_union
  omega

theorem ratio_triangle {u i n1 i1 n2 i2 n3 i3 : Nat} (h : u + i1 + i2 ≤ i + n1 + n2) (h3 : i3 = i) (u1 : n1 ≤ u) (u2 : n2 ≤ u) (u3 : n3 ≤ u)
    (k1 : i1 ≤ n1) (k2 : i2 ≤ n2) (p1 : 0 < n1) (p2 : 0 < n2) (p3 : 0 < n3) :
    1 - (i3 : Rat) / n3 ≤ (1 - (i1 : Rat) / n1) + (1 - (i2 : Rat) / n2) := by
  subst h3
  have up : (0 : Rat) < u := by exact_mod_cast (by omega : 0 < u)
  have q1 : (0 : Rat) < n1 := by exact_mod_cast p1
  have q2 : (0 : Rat) < n2 := by exact_mod_cast p2
  have q3 : (0 : Rat) < n3 := by exact_mod_cast p3
  have c1 : (n1 : Rat) ≤ u := by exact_mod_cast u1
  have c2 : (n2 : Rat) ≤ u := by exact_mod_cast u2
  have c3 : (n3 : Rat) ≤ u := by exact_mod_cast u3
  have l1 : (i1 : Rat) ≤ n1 := by exact_mod_cast k1
  have l2 : (i2 : Rat) ≤ n2 := by exact_mod_cast k2
  have hh : (u : Rat) + i1 + i2 ≤ i3 + n1 + n2 := by exact_mod_cast h
  have e1 : ((n1 : Rat) - i1) / u ≤ 1 - (i1 : Rat) / n1 := by
    rw [show (1 : Rat) - i1 / n1 = (n1 - i1) / n1 by rw [sub_div, div_self q1.ne']]
    exact div_le_div_of_nonneg_left (by linarith) q1 c1
  have e2 : ((n2 : Rat) - i2) / u ≤ 1 - (i2 : Rat) / n2 := by
    rw [show (1 : Rat) - i2 / n2 = (n2 - i2) / n2 by rw [sub_div, div_self q2.ne']]
    exact div_le_div_of_nonneg_left (by linarith) q2 c2
  have e3 : (i3 : Rat) / u ≤ i3 / n3 := div_le_div_of_nonneg_left (Nat.cast_nonneg _) q3 c3
  have e4 : 1 - (i3 : Rat) / u ≤ ((n1 : Rat) - i1) / u + ((n2 : Rat) - i2) / u := by
    rw [← add_div, show (1 : Rat) - i3 / u = (u - i3) / u by rw [sub_div, div_self up.ne']]
    exact div_le_div_of_nonneg_right (by linarith) up.le
  linarith

theorem jaccard_triangle {K : Type} [DecidableEq K] {key : F → K} (h : ByKey eq key) (a b c : List F) :
    jaccard eq a c ≤ jaccard eq a b + jaccard eq b c := by
  have n1 := (C07_range h a b).1
  have n2 := (C07_range h b c).1
  by_cases hac : a = [] ∧ c = []
  · rw [C07_jaccard_formula h a c, if_pos hac]
    linarith
  by_cases hab : a = [] ∧ b = []
  · obtain ⟨rfl, rfl⟩ := hab
    linarith
  by_cases hbc : b = [] ∧ c = []
  · obtain ⟨rfl, rfl⟩ := hbc
    linarith
  have pos : ∀ {x y : List F}, ¬ (x = [] ∧ y = []) → 0 < (frameSet key x ∪ frameSet key y).card := by
    intro x y hxy
    rw [Nat.pos_iff_ne_zero, ne_eq, Finset.card_eq_zero, Finset.union_eq_empty]
    simpa [frameSet] using hxy
  rw [C07_jaccard_formula h a c, C07_jaccard_formula h a b, C07_jaccard_formula h b c, if_neg hac, if_neg hab, if_neg hbc]
  exact ratio_triangle (frameSet_triangle (frameSet key a) (frameSet key b) (frameSet key c)) rfl
    (Finset.card_le_card Finset.subset_union_left)
    (Finset.card_le_card fun x hx => by simp only [Finset.mem_union] at *; tauto)
    (Finset.card_le_card fun x hx => by simp only [Finset.mem_union] at *; tauto)
    (Finset.card_le_card Finset.inter_subset_union) (Finset.card_le_card Finset.inter_subset_union) (pos hab) (pos hbc) (pos hac)

/-! ## Edit distances -/

/-- A swap is two replacements. -/
theorem unswap {a b : List F} {k : Nat} (h : Alignable eq true a b k) : ∃ l, l ≤ 2 * k ∧ Alignable eq false a b l := by
  obtain ⟨bs, h1, rfl, rfl, rfl⟩ := h
  induction bs with
  | nil => exact ⟨0, by simp, [], by simp, rfl, rfl, rfl⟩
  | cons B bs ih =>
    obtain ⟨l, hl, cs, c1, c2, c3, c4⟩ := ih fun B hB => h1 B (by simp [hB])
    have hB := h1 B (by simp)
    have one : ∀ C : Block F, C.Ok eq false → C.src = B.src → C.dst = B.dst → C.cost = B.cost →
        ∃ l, l ≤ 2 * ((B :: bs).map Block.cost).sum ∧ Alignable eq false ((B :: bs).flatMap Block.src) ((B :: bs).flatMap Block.dst) l := by
      intro C k0 k1 k2 k3
      refine ⟨C.cost + l, ?_, C :: cs, ?_, ?_, ?_, ?_⟩
      · rw [List.map_cons, List.sum_cons]; omega
      · intro X hX
        rcases List.mem_cons.1 hX with rfl | hX
        · exact k0
        · exact c1 X hX
      · rw [List.flatMap_cons, List.flatMap_cons, c2, k1]
      · rw [List.flatMap_cons, List.flatMap_cons, c3, k2]
      · rw [List.map_cons, List.sum_cons, c4]
    cases B with
    | keep x y => exact one (.keep x y) hB rfl rfl rfl
    | subst x y => exact one (.subst x y) trivial rfl rfl rfl
    | del x => exact one (.del x) trivial rfl rfl rfl
    | ins y => exact one (.ins y) trivial rfl rfl rfl
    | swap x1 x2 y1 y2 =>
      refine ⟨2 + l, ?_, .subst x1 y1 :: .subst x2 y2 :: cs, ?_, ?_, ?_, ?_⟩
      · simp only [List.map_cons, List.sum_cons, Block.cost]; omega
      · intro X hX
        simp only [List.mem_cons] at hX
        rcases hX with rfl | rfl | hX
        · trivial
        · trivial
        · exact c1 X hX
      · simp [List.flatMap_cons, c2, Block.src]
      · simp [List.flatMap_cons, c3, Block.dst]
      · simp only [List.map_cons, List.sum_cons, Block.cost, c4]; omega

theorem swaps_allowed {a b : List F} {k : Nat} (h : Alignable eq false a b k) : Alignable eq true a b k := by
  obtain ⟨bs, h1, r⟩ := h
  refine ⟨bs, fun B hB => ?_, r⟩
  have := h1 B hB
  cases B with
  | swap => exact absurd this.1 (by simp)
  | _ => exact this

theorem length_alignable {sw : Bool} {a b : List F} {k : Nat} (h : Alignable eq sw a b k) : b.length ≤ a.length + k := by
  obtain ⟨bs, -, rfl, rfl, rfl⟩ := h
  induction bs with
  | nil => simp
  | cons B bs ih =>
    simp only [List.flatMap_cons, List.length_append, List.map_cons, List.sum_cons]
    cases B <;> simp only [Block.src, Block.dst, Block.cost, List.length_cons, List.length_nil] <;> omega

/-- Number of operations between two threads. -/
abbrev ops (eq : F → F → Bool) (sw : Bool) (a b : List F) : Nat := D eq sw a.reverse b.reverse

theorem ops_length (sw : Bool) (a b : List F) : b.length ≤ a.length + ops eq sw a b := length_alignable (D_isLeast eq sw a b).1

theorem ops_symm (he : Equiv' eq) (sw : Bool) (a b : List F) : ops eq sw a b = ops eq sw b a :=
  Nat.le_antisymm ((D_isLeast eq sw a b).2 _ (Levenshtein.alignable_symm he.symm (D_isLeast eq sw b a).1))
    ((D_isLeast eq sw b a).2 _ (Levenshtein.alignable_symm he.symm (D_isLeast eq sw a b).1))

theorem ops_triangle (he : Equiv' eq) (a b c : List F) : ops eq false a c ≤ ops eq false a b + ops eq false b c := by
  obtain ⟨x, y, z, h1, h2, h3, h⟩ := Levenshtein.C06_triangle eq he a b c
  rw [Levenshtein.rawDistance_eq eq false (Or.inl rfl)] at h1 h2 h3
  injection h1 with h1
  injection h2 with h2
  injection h3 with h3
  unfold ops
  omega

theorem ops_swap (a b : List F) : ops eq true a b ≤ ops eq false a b ∧ ops eq false a b ≤ 2 * ops eq true a b := by
  refine ⟨(D_isLeast eq true a b).2 _ (swaps_allowed (D_isLeast eq false a b).1), ?_⟩
  obtain ⟨l, hl, h⟩ := unswap (D_isLeast eq true a b).1
  exact ((D_isLeast eq false a b).2 _ h).trans hl

/-- The arithmetic of relative distances: `s` is the factor for absolute ones. -/
theorem relative {x y z la lb lc : Nat} (s : Nat) (hs : 1 ≤ s) (hz : z ≤ s * (x + y)) (hm : z ≤ max la lc) (hx : x ≤ max la lb)
    (hy : y ≤ max lb lc) (h1 : lb ≤ la + x) (h2 : lb ≤ lc + y) :
    (z : Rat) / (max la lc : Nat) ≤ (s + 1 / 2) * ((x : Rat) / (max la lb : Nat) + (y : Rat) / (max lb lc : Nat)) ∧
    (lb ≤ max la lc → (z : Rat) / (max la lc : Nat) ≤ s * ((x : Rat) / (max la lb : Nat) + (y : Rat) / (max lb lc : Nat))) := by
  have quot : ∀ {p q : Nat}, p ≤ q → ∃ r : Rat, (p : Rat) / q = r ∧ 0 ≤ r ∧ r ≤ 1 ∧ (p : Rat) = r * q := by
    intro p q h
    refine ⟨_, rfl, by positivity, div_le_one_of_le₀ (by exact_mod_cast h) (Nat.cast_nonneg _), ?_⟩
    by_cases hq : q = 0
    · have : p = 0 := by omega
      rw [hq, this]; simp
    · rw [div_mul_cancel₀]
      exact_mod_cast hq
  obtain ⟨X, eX, X0, X1, xX⟩ := quot hx
  obtain ⟨Y, eY, Y0, Y1, yY⟩ := quot hy
  obtain ⟨Z, eZ, Z0, Z1, zZ⟩ := quot hm
  rw [eX, eY, eZ]
  have hsq : (1 : Rat) ≤ s := by exact_mod_cast hs
  have hzq : (z : Rat) ≤ s * (x + y) := by exact_mod_cast hz
  have near : lb ≤ max la lc → Z ≤ s * (X + Y) := by
    intro hb
    have m1 : ((max la lb : Nat) : Rat) ≤ (max la lc : Nat) := by exact_mod_cast (by omega)
    have m2 : ((max lb lc : Nat) : Rat) ≤ (max la lc : Nat) := by exact_mod_cast (by omega)
    by_cases hM : max la lc = 0
    · have : Z = 0 := by rw [← eZ, hM]; simp
      rw [this]
      positivity
    have hM' : (0 : Rat) < (max la lc : Nat) := by exact_mod_cast Nat.pos_of_ne_zero hM
    have k1 := mul_le_mul_of_nonneg_left m1 X0
    have k2 := mul_le_mul_of_nonneg_left m2 Y0
    have k3 : (x : Rat) + y ≤ (X + Y) * (max la lc : Nat) := by rw [xX, yY, add_mul]; linarith
    have k4 := mul_le_mul_of_nonneg_left k3 (by linarith : (0 : Rat) ≤ s)
    have k5 : Z * (max la lc : Nat) ≤ (s * (X + Y)) * (max la lc : Nat) := by rw [← zZ, mul_assoc]; linarith
    exact le_of_mul_le_mul_right k5 hM'
  refine ⟨?_, near⟩
  by_cases hb : lb ≤ max la lc
  · have := near hb
    nlinarith
  by_cases big : 1 ≤ (s + 1 / 2 : Rat) * (X + Y)
  · linarith
  push Not at big
  rw [show max la lb = lb by omega] at xX
  rw [show max lb lc = lb by omega] at yY
  have b0 : (0 : Rat) < lb := by exact_mod_cast (by omega)
  have c1 : (lb : Rat) ≤ (max la lc : Nat) + x := by exact_mod_cast (by omega)
  have c2 : (lb : Rat) ≤ (max la lc : Nat) + y := by exact_mod_cast (by omega)
  generalize ((max la lc : Nat) : Rat) = M at *
  have hS : X + Y ≤ 2 / 3 := by nlinarith
  have hM : (lb : Rat) * (1 - (X + Y) / 2) ≤ M := by nlinarith
  have hM' : 0 < M := lt_of_lt_of_le (mul_pos b0 (by linarith)) hM
  have k : Z * M ≤ ((s + 1 / 2) * (X + Y)) * M := by
    rw [← zZ]
    have e1 : (z : Rat) ≤ s * ((X + Y) * lb) := by rw [add_mul, ← xX, ← yY]; exact hzq
    have e2 : ((s + 1 / 2 : Rat) * (X + Y)) * (lb * (1 - (X + Y) / 2)) ≤ ((s + 1 / 2) * (X + Y)) * M :=
      mul_le_mul_of_nonneg_left hM (by positivity)
    have e3 : s * ((X + Y) * lb) ≤ ((s + 1 / 2 : Rat) * (X + Y)) * (lb * (1 - (X + Y) / 2)) := by
      have : (0 : Rat) ≤ (X + Y) * lb * ((1 - (s + 1 / 2) * (X + Y)) / 2) := by
        apply mul_nonneg
        · positivity
        · linarith
      nlinarith
    linarith
  exact le_of_mul_le_mul_right k hM'


/-! ## The distances of `sr_distance` -/
open Distances (DistType)

/-- The metrics with a triangle inequality, each with its factor. -/
def factors : List (DistType × Rat) := [(.jaccard, 1), (.levenshtein, 3 / 2), (.damerauLevenshtein, 5 / 2)]

theorem rect (he : Equiv' eq) : Levenshtein.Rect eq := fun x1 x2 y1 y2 h1 h2 h3 =>
  he.trans x1 x2 y1 (he.trans x1 y2 x2 h3 (he.symm _ _ h1)) h2

/-- What a function from pairs of threads to numbers has to satisfy. -/
structure Near (k : Rat) (d : List F → List F → Rat) : Prop where
  range : ∀ a b, 0 ≤ d a b ∧ d a b ≤ 1
  symm : ∀ a b, d a b = d b a
  triangle : ∀ a b c, d a c ≤ k * (d a b + d b c)
  same : ∀ a b c, d a b = 0 → d a c = d b c

theorem edit_near (he : Equiv' eq) (sw : Bool) : ∃ d : List F → List F → Rat, (∀ a b, Levenshtein.distance eq sw a b = .ok (d a b)) ∧
    Near (if sw then 5 / 2 else 3 / 2) d ∧
    (sw = false → ∀ a b c, b.length ≤ max a.length c.length → d a c ≤ d a b + d b c) := by
  have hr : sw = false ∨ Levenshtein.Rect eq := Or.inr (rect he)
  have rg : ∀ a b, 0 ≤ (ops eq sw a b : Rat) / (max a.length b.length : Nat) ∧ (ops eq sw a b : Rat) / (max a.length b.length : Nat) ≤ 1 ∧
      ((ops eq sw a b : Rat) / (max a.length b.length : Nat) = 0 ↔ Same eq a b) := by
    intro a b
    obtain ⟨q, h1, h2, h3, h4⟩ := Levenshtein.C06_range_and_zero eq sw (fun _ => ⟨he.symm, he.trans⟩) a b
    rw [Levenshtein.distance_eq eq sw hr] at h1
    injection h1 with h1
    exact h1 ▸ ⟨h2, h3, h4⟩
  have sy : ∀ a b : List F, (ops eq sw a b : Rat) / (max a.length b.length : Nat) = (ops eq sw b a : Rat) / (max b.length a.length : Nat) := by
    intro a b
    rw [ops_symm he, Nat.max_comm]
  have le : ∀ a b : List F, ops eq sw a b ≤ max a.length b.length := by
    intro a b
    have := D_le_max eq sw a.reverse b.reverse
    simpa using this
  have l2 : ∀ b c : List F, b.length ≤ c.length + ops eq sw b c := by
    intro b c
    rw [ops_symm he]
    exact ops_length sw c b
  refine ⟨fun a b => (ops eq sw a b : Rat) / (max a.length b.length : Nat), fun a b => Levenshtein.distance_eq eq sw hr a b,
    ⟨fun a b => ⟨(rg a b).1, (rg a b).2.1⟩, sy, ?_, ?_⟩, ?_⟩
  · intro a b c
    cases sw with
    | false =>
      have := (relative 1 (le_refl _) (by have := ops_triangle he a b c; omega) (le a c) (le a b) (le b c) (ops_length false a b) (l2 b c)).1
      refine this.trans (le_of_eq ?_)
      norm_num
    | true =>
      have h1 := ops_triangle he a b c
      have h2 := (ops_swap (eq := eq) a c).1
      have h3 := (ops_swap (eq := eq) a b).2
      have h4 := (ops_swap (eq := eq) b c).2
      have := (relative 2 (by omega) (by omega) (le a c) (le a b) (le b c) (ops_length true a b) (l2 b c)).1
      refine this.trans (le_of_eq ?_)
      norm_num
  · intro a b c h
    have h1 := levenshtein_same he sw ((rg a b).2.2.1 h) c
    rw [Levenshtein.distance_eq eq sw hr, Levenshtein.distance_eq eq sw hr] at h1
    injection h1
  · rintro rfl a b c hb
    have := (relative 1 (le_refl _) (by have := ops_triangle he a b c; omega) (le a c) (le a b) (le b c) (ops_length false a b) (l2 b c)).2 hb
    refine this.trans (le_of_eq ?_)
    norm_num

theorem jaccard_near (he : Equiv' eq) : Near 1 (jaccard eq) where
  range a b := C07_range (byKey he) a b
  symm a b := C07_symmetric (byKey he) a b
  triangle a b c := by rw [one_mul]; exact jaccard_triangle (byKey he) a b c
  same a b c h := by
    have h1 := jaccard_triangle (byKey he) a b c
    have h2 := jaccard_triangle (byKey he) b a c
    rw [C07_symmetric (byKey he) b a] at h2
    exact le_antisymm (by linarith) (by linarith)

theorem near {T : Type} [DecidableEq T] (he : Equiv' eq) {ty : DistType} {k : Rat} (hk : (ty, k) ∈ factors) :
    ∃ d : List F → List F → Rat,
      (∀ t u : Thread T F, distance eq (some ty) t u = .ok (if t.type = u.type then d t.frames u.frames else 1)) ∧ Near k d := by
  simp only [factors, List.mem_cons, Prod.mk.injEq, List.not_mem_nil, or_false] at hk
  rcases hk with ⟨rfl, rfl⟩ | ⟨rfl, rfl⟩ | ⟨rfl, rfl⟩
  · refine ⟨_, fun t u => ?_, jaccard_near he⟩
    unfold distance
    by_cases h : t.type = u.type
    · rw [if_neg (not_not.2 h), if_pos h]
    · rw [if_pos h, if_neg h]
  · obtain ⟨d, h1, h2, -⟩ := edit_near he false
    refine ⟨d, fun t u => ?_, h2⟩
    unfold distance
    by_cases h : t.type = u.type
    · rw [if_neg (not_not.2 h), if_pos h]; exact h1 _ _
    · rw [if_pos h, if_neg h]
  · obtain ⟨d, h1, h2, -⟩ := edit_near he true
    refine ⟨d, fun t u => ?_, h2⟩
    unfold distance
    by_cases h : t.type = u.type
    · rw [if_neg (not_not.2 h), if_pos h]; exact h1 _ _
    · rw [if_pos h, if_neg h]

theorem factor_pos {ty : DistType} {k : Rat} (hk : (ty, k) ∈ factors) : 1 ≤ k := by
  simp only [factors, List.mem_cons, Prod.mk.injEq, List.not_mem_nil, or_false] at hk
  rcases hk with ⟨-, rfl⟩ | ⟨-, rfl⟩ | ⟨-, rfl⟩ <;> norm_num

/-- C139: whatever the types of the threads, two threads near the same thread are near each other. -/
theorem C139_triangle {T : Type} [DecidableEq T] (he : Equiv' eq) {ty : DistType} {k : Rat} (hk : (ty, k) ∈ factors) (t u v : Thread T F) :
    ∃ x y z, distance eq (some ty) t u = .ok x ∧ distance eq (some ty) u v = .ok y ∧ distance eq (some ty) t v = .ok z ∧
      z ≤ k * (x + y) := by
  obtain ⟨d, hd, n⟩ := near (T := T) he hk
  have k1 := factor_pos hk
  refine ⟨_, _, _, hd t u, hd u v, hd t v, ?_⟩
  have r1 := n.range t.frames u.frames
  have r2 := n.range u.frames v.frames
  have r3 := n.range t.frames v.frames
  have r4 := n.triangle t.frames u.frames v.frames
  by_cases h1 : t.type = u.type <;> by_cases h2 : u.type = v.type
  · rw [if_pos h1, if_pos h2, if_pos (h1.trans h2)]; exact r4
  · rw [if_pos h1, if_neg h2, if_neg (fun h => h2 (h1.symm.trans h))]; nlinarith
  · rw [if_neg h1, if_pos h2, if_neg (fun h => h1 (h.trans h2.symm))]; nlinarith
  · rw [if_neg h1, if_neg h2]
    split <;> nlinarith

/-- C139: for the Levenshtein distance there is no factor if the thread between is not longer than both others. -/
theorem C139_short_between {T : Type} [DecidableEq T] (he : Equiv' eq) (t u v : Thread T F) (hl : u.frames.length ≤ max t.frames.length v.frames.length) :
    ∃ x y z, distance eq (some .levenshtein) t u = .ok x ∧ distance eq (some .levenshtein) u v = .ok y ∧
      distance eq (some .levenshtein) t v = .ok z ∧ z ≤ x + y := by
  obtain ⟨d, hd, n, hs⟩ := edit_near he false
  have e : ∀ t u : Thread T F, distance eq (some .levenshtein) t u = .ok (if t.type = u.type then d t.frames u.frames else 1) := by
    intro t u
    unfold distance
    by_cases h : t.type = u.type
    · rw [if_neg (not_not.2 h), if_pos h]; exact hd _ _
    · rw [if_pos h, if_neg h]
  refine ⟨_, _, _, e t u, e u v, e t v, ?_⟩
  have r1 := n.range t.frames u.frames
  have r2 := n.range u.frames v.frames
  have r3 := n.range t.frames v.frames
  by_cases h1 : t.type = u.type <;> by_cases h2 : u.type = v.type
  · rw [if_pos h1, if_pos h2, if_pos (h1.trans h2)]; exact hs rfl _ _ _ hl
  · rw [if_pos h1, if_neg h2, if_neg (fun h => h2 (h1.symm.trans h))]; linarith
  · rw [if_neg h1, if_pos h2, if_neg (fun h => h1 (h.trans h2.symm))]; linarith
  · rw [if_neg h1, if_neg h2]
    split <;> linarith

/-- C139: threads with distance 0 have the same distance to every thread. -/
theorem C139_interchangeable {T : Type} [DecidableEq T] (he : Equiv' eq) {ty : DistType} {k : Rat} (hk : (ty, k) ∈ factors) (t u v : Thread T F)
    (h : distance eq (some ty) t u = .ok 0) : distance eq (some ty) t v = distance eq (some ty) u v := by
  obtain ⟨d, hd, n⟩ := near (T := T) he hk
  rw [hd] at h
  injection h with h
  by_cases h1 : t.type = u.type
  · rw [if_pos h1] at h
    rw [hd, hd, h1, n.same _ _ v.frames h]
  · rw [if_neg h1] at h
    norm_num at h


/-! ## The computed values -/

/-- C139 for the values of `sr_distance_jaccard` in `float` arithmetic, for threads of at most 2^23 frames. -/
theorem C139_float_jaccard (R : Rounding 24) (D : Rounding 53) (he : Equiv' eq) (a b c : List F) (ha : a.length ≤ 2 ^ 23) (hb : b.length ≤ 2 ^ 23) (hc : c.length ≤ 2 ^ 23) :
    jaccardFloat R D eq a c ≤ jaccardFloat R D eq a b + jaccardFloat R D eq b c + 9 / 2 ^ 24 := by
  have hk := byKey he
  have card : ∀ a b : List F, a.length ≤ 2 ^ 23 → b.length ≤ 2 ^ 23 → (frameSet (cls he) a ∪ frameSet (cls he) b).card ≤ 2 ^ 24 := by
    intro a b ha hb
    have h1 := Finset.card_union_le (frameSet (cls he) a) (frameSet (cls he) b)
    have h2 : ∀ l : List F, (frameSet (cls he) l).card ≤ l.length := fun l => by
      have := List.toFinset_card_le (l.map (cls he))
      simpa [frameSet] using this
    have := h2 a
    have := h2 b
    omega
  have e1 := abs_le.1 (C07_float_exact_partial R D hk a b (card a b ha hb)).2.2
  have e2 := abs_le.1 (C07_float_exact_partial R D hk b c (card b c hb hc)).2.2
  have e3 := abs_le.1 (C07_float_exact_partial R D hk a c (card a c ha hc)).2.2
  have := jaccard_triangle hk a b c
  linarith

/-- C139 for the values of the edit distances in `float` arithmetic, for threads of at most 2^24 frames. -/
theorem C139_float_edit (R : Rounding 24) (he : Equiv' eq) (sw : Bool) (a b c : List F) (ha : a.length ≤ 2 ^ 24) (hb : b.length ≤ 2 ^ 24)
    (hc : c.length ≤ 2 ^ 24) :
    ∃ x y z, levenshteinFloat R eq sw a b = .ok x ∧ levenshteinFloat R eq sw b c = .ok y ∧ levenshteinFloat R eq sw a c = .ok z ∧
      z ≤ (if sw then 5 / 2 else 3 / 2) * (x + y) + 6 / 2 ^ 24 := by
  have hcmp : Comparison eq sw := fun _ => ⟨he.symm, he.trans⟩
  obtain ⟨d, hd, n, -⟩ := edit_near he sw
  have near : ∀ a b : List F, a.length ≤ 2 ^ 24 → b.length ≤ 2 ^ 24 → ∃ q, levenshteinFloat R eq sw a b = .ok q ∧ |q - d a b| ≤ 1 / 2 ^ 24 := by
    intro a b ha hb
    obtain ⟨q, x, -, -, h1, h2, h3, -⟩ := C06_float_error R sw hcmp a b a b ha hb ha hb
    rw [hd] at h2
    injection h2 with h2
    exact ⟨q, h1, h2 ▸ h3⟩
  obtain ⟨x, x1, x2⟩ := near a b ha hb
  obtain ⟨y, y1, y2⟩ := near b c hb hc
  obtain ⟨z, z1, z2⟩ := near a c ha hc
  refine ⟨x, y, z, x1, y1, z1, ?_⟩
  have x3 := abs_le.1 x2
  have y3 := abs_le.1 y2
  have z3 := abs_le.1 z2
  have := n.triangle a b c
  cases sw <;> simp only [if_true, if_false, Bool.false_eq_true] at * <;> linarith

/-! ### Non-vacuity, and where it fails -/

/-- Threads whose frames are numbers. -/
abbrev thr (l : List Nat) : Thread Unit Nat := ⟨(), l⟩

theorem nat_equiv : Equiv' (fun x y : Nat => x == y) :=
  ⟨by simp, fun x y h => by rw [beq_iff_eq] at *; exact h.symm, fun x y z h g => by rw [beq_iff_eq] at *; exact h.trans g⟩

local notation "dist" => distance (fun x y : Nat => x == y)

/-- C139 without factor fails for the Levenshtein distance, and 3/2 is the least factor. -/
theorem C139_not_levenshtein : ∃ (t u v : Thread Unit Nat) (x y z : Rat), dist (some .levenshtein) t u = .ok x ∧
    dist (some .levenshtein) u v = .ok y ∧ dist (some .levenshtein) t v = .ok z ∧ 0 < x + y ∧ z = 3 / 2 * (x + y) :=
  ⟨thr [1, 2], thr [1, 2, 3], thr [2, 3], 1 / 3, 1 / 3, 1, by decide +kernel, by decide +kernel, by decide +kernel, by norm_num, by norm_num⟩

/-- C139 without factor fails for the Damerau-Levenshtein distance, also if the thread between is as long as the shortest. -/
theorem C139_not_damerau : ∃ (t u v : Thread Unit Nat) (x y z : Rat), dist (some .damerauLevenshtein) t u = .ok x ∧
    dist (some .damerauLevenshtein) u v = .ok y ∧ dist (some .damerauLevenshtein) t v = .ok z ∧ u.frames.length ≤ t.frames.length ∧
    u.frames.length ≤ v.frames.length ∧ x + y < z :=
  ⟨thr [1, 2], thr [2, 1], thr [2, 3, 1], 1 / 2, 1 / 3, 1, by decide +kernel, by decide +kernel, by decide +kernel, by decide, by decide,
    by norm_num⟩

/-- C139 fails for the Jaro-Winkler similarity: two threads that are similar to the same thread may have nothing in common. -/
theorem C139_not_jaro_winkler : ∃ (t u v : Thread Unit Nat) (x y : Rat), dist (some .jaroWinkler) t u = .ok x ∧
    dist (some .jaroWinkler) u v = .ok y ∧ dist (some .jaroWinkler) t v = .ok 0 ∧ (1 - x) + (1 - y) < 1 :=
  ⟨thr [1, 2], thr [1, 3], thr [2, 3], 1 - 4 / 15, 1 - 1 / 3, by decide +kernel, by decide +kernel, by decide +kernel, by norm_num⟩

example : dist (some .jaccard) (thr [1, 2]) (thr [1, 2, 3]) = .ok (1 / 3) ∧ dist (some .jaccard) (thr [1, 2, 3]) (thr [2, 3]) = .ok (1 / 3) ∧
    dist (some .jaccard) (thr [1, 2]) (thr [2, 3]) = .ok (2 / 3) := by decide +kernel
example : dist (some .jaccard) (thr [1, 2]) (thr [2, 1, 2]) = .ok 0 ∧ dist (some .jaccard) (thr [1, 2]) (thr [2, 3]) = .ok (2 / 3) ∧
    dist (some .jaccard) (thr [2, 1, 2]) (thr [2, 3]) = .ok (2 / 3) := by decide +kernel
example : dist (some .levenshtein) (thr [1, 2, 3]) (thr [1, 2]) = .ok (1 / 3) ∧ dist (some .levenshtein) (thr [1, 2]) (thr [1, 4, 2]) = .ok (1 / 3) ∧
    dist (some .levenshtein) (thr [1, 2, 3]) (thr [1, 4, 2]) = .ok (2 / 3) := by decide +kernel
example := nat_equiv
end Satyr.Metrics
