import Verif.Metrics.Model
import Mathlib.Data.Finset.Card
import Mathlib.Data.Finset.Lattice.Lemmas
import Mathlib.Algebra.Order.Field.Basic
import Mathlib.Algebra.Order.Ring.Rat
import Mathlib.Algebra.Field.Rat
import Mathlib.Tactic.Linarith
/-!
# Property C07: the Jaccard distance
-/
namespace Satyr.Metrics

variable {F K : Type} [DecidableEq K] {eq : F → F → Bool} {key : F → K}

/-- The set of distinct frames of a thread: `key x` is the equivalence class of `x`. -/
def frameSet (key : F → K) (a : List F) : Finset K := (a.map key).toFinset

/-- Frame comparison is the equivalence "same key". (Every equivalence relation has this form.) -/
def ByKey (eq : F → F → Bool) (key : F → K) : Prop := ∀ x y, eq x y = true ↔ key x = key y

theorem contains_iff (h : ByKey eq key) (l : List F) (x : F) : contains eq l x = true ↔ key x ∈ frameSet key l := by
  induction l with
  | nil => simp [contains, frameSet]
  | cons y l ih =>
    unfold contains
    by_cases hy : eq y x = true
    · have := (h y x).1 hy
      simp [hy, frameSet, this]
    · have : key y ≠ key x := fun e => hy ((h y x).2 e)
      simp only [hy, if_false, Bool.false_eq_true]
      rw [ih]
      simp [frameSet, Ne.symm this]

theorem loop1_eq (h : ByKey eq key) (b a : List F) (n k : Nat) :
    jaccardLoop1 eq b a (n, k) = (n + (frameSet key a).card, k + (frameSet key a ∩ frameSet key b).card) := by
  induction a generalizing n k with
  | nil => simp [jaccardLoop1, frameSet]
  | cons x a ih =>
    unfold jaccardLoop1
    by_cases hc : contains eq a x = true
    · have hm := (contains_iff h a x).1 hc
      have : frameSet key (x :: a) = frameSet key a := by
        unfold frameSet at hm ⊢
        simp only [List.map_cons, List.toFinset_cons]
        exact Finset.insert_eq_self.2 hm
      rw [if_pos hc, ih, this]
    · have hm : key x ∉ frameSet key a := fun hh => hc ((contains_iff h a x).2 hh)
      have hs : frameSet key (x :: a) = insert (key x) (frameSet key a) := by
        unfold frameSet; simp
      rw [if_neg hc, ih, hs, Finset.card_insert_of_notMem hm]
      by_cases hb : contains eq b x = true
      · have hbm := (contains_iff h b x).1 hb
        rw [if_pos hb, Finset.insert_inter_of_mem hbm, Finset.card_insert_of_notMem (by simp [hm])]
        ext <;> simp only <;> omega
      · have hbm : key x ∉ frameSet key b := fun hh => hb ((contains_iff h b x).2 hh)
        rw [if_neg hb, Finset.insert_inter_of_notMem hbm]
        ext <;> simp only <;> omega

theorem loop2_eq (h : ByKey eq key) (a : List F) (n : Nat) :
    jaccardLoop2 eq a n = n + (frameSet key a).card := by
  induction a generalizing n with
  | nil => simp [jaccardLoop2, frameSet]
  | cons x a ih =>
    unfold jaccardLoop2
    by_cases hc : contains eq a x = true
    · have hm := (contains_iff h a x).1 hc
      have : frameSet key (x :: a) = frameSet key a := by
        unfold frameSet at hm ⊢
        simp only [List.map_cons, List.toFinset_cons]
        exact Finset.insert_eq_self.2 hm
      rw [if_pos hc, ih, this]
    · have hm : key x ∉ frameSet key a := fun hh => hc ((contains_iff h a x).2 hh)
      have hs : frameSet key (x :: a) = insert (key x) (frameSet key a) := by
        unfold frameSet; simp
      rw [if_neg hc, ih, hs, Finset.card_insert_of_notMem hm]
      omega

/-- **C07.** The Jaccard distance is `1 - |A ∩ B| / |A ∪ B|` for the sets `A`, `B` of distinct frames
(0 for two empty threads). -/
theorem C07_jaccard_formula (h : ByKey eq key) (a b : List F) :
    jaccard eq a b = if a = [] ∧ b = [] then 0 else
      1 - ((frameSet key a ∩ frameSet key b).card : Rat) / ((frameSet key a ∪ frameSet key b).card : Rat) := by
  have hu := Finset.card_union_add_card_inter (frameSet key a) (frameSet key b)
  unfold jaccard
  rw [loop1_eq h, loop2_eq h]
  simp only [Nat.zero_add]
  have e : ((frameSet key a).card : Int) + (frameSet key b).card - ((frameSet key a ∩ frameSet key b).card : Nat) =
      ((frameSet key a ∪ frameSet key b).card : Nat) := by omega
  have e1 : ((((frameSet key a ∪ frameSet key b).card : Nat) : Int) : Rat) = ((frameSet key a ∪ frameSet key b).card : Rat) := by
    push_cast; rfl
  rw [e, e1]
  have hle : (frameSet key a ∩ frameSet key b).card ≤ (frameSet key a ∪ frameSet key b).card :=
    Finset.card_le_card (Finset.inter_subset_union)
  have hz : (frameSet key a ∪ frameSet key b).card = 0 ↔ a = [] ∧ b = [] := by
    rw [Finset.card_eq_zero, Finset.union_eq_empty]
    simp [frameSet]
  by_cases hab : a = [] ∧ b = []
  · rw [if_pos hab, if_pos (by exact_mod_cast hz.2 hab)]
  · rw [if_neg hab, if_neg (by intro hh; exact hab (hz.1 (by exact_mod_cast hh)))]
    rw [if_neg]
    rw [not_lt, sub_nonneg]
    apply div_le_one_of_le₀
    · exact_mod_cast hle
    · exact Nat.cast_nonneg _

/-- **C07.** It lies in [0, 1]. -/
theorem C07_range (h : ByKey eq key) (a b : List F) : 0 ≤ jaccard eq a b ∧ jaccard eq a b ≤ 1 := by
  rw [C07_jaccard_formula h]
  split
  · exact ⟨le_refl _, zero_le_one⟩
  · have hle : (frameSet key a ∩ frameSet key b).card ≤ (frameSet key a ∪ frameSet key b).card :=
      Finset.card_le_card (Finset.inter_subset_union)
    have h1 : ((frameSet key a ∩ frameSet key b).card : Rat) / ((frameSet key a ∪ frameSet key b).card : Rat) ≤ 1 :=
      div_le_one_of_le₀ (by exact_mod_cast hle) (Nat.cast_nonneg _)
    have h2 : (0 : Rat) ≤ ((frameSet key a ∩ frameSet key b).card : Rat) / ((frameSet key a ∪ frameSet key b).card : Rat) :=
      div_nonneg (Nat.cast_nonneg _) (Nat.cast_nonneg _)
    constructor <;> linarith

/-- **C07.** It is symmetric. -/
theorem C07_symmetric (h : ByKey eq key) (a b : List F) : jaccard eq a b = jaccard eq b a := by
  rw [C07_jaccard_formula h, C07_jaccard_formula h, Finset.inter_comm, Finset.union_comm]
  simp only [and_comm]

/-- **C07.** It is 0 exactly if both threads have the same set of frames. -/
theorem C07_zero_iff (h : ByKey eq key) (a b : List F) :
    jaccard eq a b = 0 ↔ frameSet key a = frameSet key b := by
  rw [C07_jaccard_formula h]
  split
  · next hab => rw [hab.1, hab.2]; simp
  · next hab =>
    have hpos : (frameSet key a ∪ frameSet key b).card ≠ 0 := by
      rw [Ne, Finset.card_eq_zero, Finset.union_eq_empty]
      simpa [frameSet] using hab
    have hpos' : ((frameSet key a ∪ frameSet key b).card : Rat) ≠ 0 := by exact_mod_cast hpos
    rw [sub_eq_zero, eq_comm, div_eq_one_iff_eq hpos', Nat.cast_inj]
    constructor
    · intro e
      have := Finset.eq_of_subset_of_card_le (Finset.inter_subset_union (s := frameSet key a) (t := frameSet key b)) (le_of_eq e.symm)
      apply Finset.Subset.antisymm
      · intro x hx
        have : x ∈ frameSet key a ∩ frameSet key b := by rw [this]; exact Finset.mem_union_left _ hx
        exact (Finset.mem_inter.1 this).2
      · intro x hx
        have : x ∈ frameSet key a ∩ frameSet key b := by rw [this]; exact Finset.mem_union_right _ hx
        exact (Finset.mem_inter.1 this).1
    · intro e; rw [e]; simp

/-- **C07.** Unless both threads are empty it is 1 exactly if no frame occurs in both threads. -/
theorem C07_one_iff (h : ByKey eq key) (a b : List F) (hne : ¬ (a = [] ∧ b = [])) :
    jaccard eq a b = 1 ↔ ∀ x ∈ a, ∀ y ∈ b, eq x y = false := by
  rw [C07_jaccard_formula h, if_neg hne]
  have hpos : (frameSet key a ∪ frameSet key b).card ≠ 0 := by
    rw [Ne, Finset.card_eq_zero, Finset.union_eq_empty]
    simpa [frameSet] using hne
  have hpos' : ((frameSet key a ∪ frameSet key b).card : Rat) ≠ 0 := by exact_mod_cast hpos
  rw [sub_eq_self, div_eq_zero_iff, or_iff_left hpos', Nat.cast_eq_zero, Finset.card_eq_zero]
  constructor
  · intro e x hx y hy
    by_contra hc
    have hk := (h x y).1 (by simpa using hc)
    have : key x ∈ frameSet key a ∩ frameSet key b := by
      rw [Finset.mem_inter]
      refine ⟨?_, ?_⟩
      · simp only [frameSet, List.mem_toFinset, List.mem_map]; exact ⟨x, hx, rfl⟩
      · simp only [frameSet, List.mem_toFinset, List.mem_map]; exact ⟨y, hy, hk.symm⟩
    rw [e] at this; simp at this
  · intro hd
    rw [Finset.eq_empty_iff_forall_notMem]
    intro k hk
    rw [Finset.mem_inter] at hk
    simp only [frameSet, List.mem_toFinset, List.mem_map] at hk
    obtain ⟨⟨x, hx, rfl⟩, y, hy, e⟩ := hk
    have := hd x hx y hy
    rw [(h x y).2 e.symm] at this; simp at this

/-- Non-vacuity: {a,b} vs {b,c} with repetitions: 1 - 1/3. -/
example : ByKey (fun x y : Char => x == y) id ∧
    jaccard (fun x y : Char => x == y) "aabb".toList "bcb".toList = 2 / 3 := by
  constructor
  · intro x y; simp
  · decide +kernel

end Satyr.Metrics
