import Verif.Cluster.Duplicates
import Verif.Cluster.Float
import Verif.Metrics.Triangle
import Verif.Generic.Triangle
/-!
# Identical crashes fall into one cluster (C143)
-/
namespace Satyr.Cluster
open Satyr.Distances
open Satyr.Levenshtein (Equiv')
open Satyr.Metrics (jaccardFloat levenshteinFloat frameSet cls byKey)

/-- Finitely many distances that are not negative have a least one that is not 0. -/
theorem exists_least : ∀ l : List Rat, (∀ x ∈ l, 0 ≤ x) → ∃ δ : Rat, 0 < δ ∧ ∀ x ∈ l, x = 0 ∨ δ ≤ x
  | [], _ => ⟨1, by norm_num, by simp⟩
  | x :: l, h => by
    obtain ⟨δ, h1, h2⟩ := exists_least l fun y hy => h y (by simp [hy])
    by_cases hx : x = 0
    · refine ⟨δ, h1, fun y hy => ?_⟩
      rcases List.mem_cons.1 hy with rfl | hy
      · exact .inl hx
      · exact h2 y hy
    · refine ⟨min x δ, lt_min (lt_of_le_of_ne (h x (by simp)) (Ne.symm hx)) h1, fun y hy => ?_⟩
      rcases List.mem_cons.1 hy with rfl | hy
      · exact .inr (min_le_left _ _)
      · exact (h2 y hy).imp id fun h => (min_le_right _ _).trans h

theorem ratArith_means (n : Nat) (δ : Rat) : Means ratArith.avg 0 δ n where
  zero p q _ _ _ := by simp [ratArith]
  far a p b q hp hq _ ha hb := by
    have h1 : (1 : Rat) ≤ p := by exact_mod_cast hp
    have h2 : (1 : Rat) ≤ q := by exact_mod_cast hq
    simp only [ratArith]
    push_cast
    rw [le_div_iff₀ (by linarith)]
    nlinarith

theorem floatArith_means (R : Rounding 24) {n : Nat} (hn : n ≤ 2 ^ 24) : Means (floatArith R).avg 0 (1 / 2 ^ 149) n where
  zero p q _ _ _ := by simp [floatArith, R.zero]
  far a p b q hp hq hpq ha hb := by
    have low : ∀ (x : Rat) (k : Nat), k ≤ 2 ^ 24 → 1 / 2 ^ 149 * (k : Rat) ≤ x → 1 / 2 ^ 149 * (k : Rat) ≤ R.rnd x := by
      intro x k hk hx
      have := R.keeps (k : Int) (-149) (by rw [abs_of_nonneg (by positivity)]; exact_mod_cast hk) (by norm_num) (by norm_num)
      have e : ((k : Int) : Rat) * 2 ^ (-149 : Int) = 1 / 2 ^ 149 * (k : Rat) := by
        rw [zpow_neg, mul_comm]
        norm_num
      rw [e] at this
      rw [← this]
      exact R.mono _ _ hx
    simp only [floatArith]
    rw [R.keeps_nat p (by omega), R.keeps_nat q (by omega), R.keeps_nat (p + q) (by omega)]
    have hp' : (0 : Rat) ≤ p := Nat.cast_nonneg p
    have hq' : (0 : Rat) ≤ q := Nat.cast_nonneg q
    have h1 := low (a * p) p (by omega) (mul_le_mul_of_nonneg_right ha hp')
    have h2 := low (b * q) q (by omega) (mul_le_mul_of_nonneg_right hb hq')
    have h3 := low (R.rnd (a * p) + R.rnd (b * q)) (p + q) (by omega) (by push_cast; linarith)
    refine R.ge_pow (by norm_num) ?_
    rw [le_div_iff₀ (by exact_mod_cast (by omega : 0 < p + q))]
    exact h3

/-- C143 in exact arithmetic: identical objects are in the same clusters at every level, and the clusters at level 0 are the groups of
identical objects. -/
theorem C143_exact {d : Matrix Rat} {m n : Nat} {D : Nat → Nat → Rat} (h : Filled 0 d m n D) (hmn : n ≤ m + 1) (hs : ∀ i j, D i j = D j i)
    (h0 : ∀ i j, 0 ≤ D i j) (ht : ∀ i j k, i < n → j < n → k < n → Alike D 0 i j → Alike D 0 j k → Alike D 0 i k) :
    ∃ r, clusterObjects ratArith d = .ok r ∧ r.order.Perm (List.range n) ∧ ∀ level minSize, 0 ≤ level →
      ∃ cs, cut ratArith.le r level minSize = .ok cs ∧ ∀ c ∈ cs, ∀ i ∈ c, i < n ∧ ∀ j < n,
        (D i j = 0 → j ∈ c) ∧ (level = 0 → j ∈ c → Alike D 0 i j) := by
  obtain ⟨δ, d1, d2⟩ := exists_least ((List.range n).flatMap fun i => (List.range n).map fun j => D i j) (by
    intro x hx
    simp only [List.mem_flatMap, List.mem_map] at hx
    obtain ⟨i, -, j, -, rfl⟩ := hx
    exact h0 i j)
  have hc : Classes D 0 δ n := ⟨hs, ht, fun i j hi hj _ => d2 _ (by
    simp only [List.mem_flatMap, List.mem_map, List.mem_range]
    exact ⟨i, hi, j, hj, rfl⟩)⟩
  obtain ⟨r, e, hp, hr⟩ := C143_clusters (A := ratArith) ratArith_lawful h hmn d1 hc (ratArith_means n δ)
  refine ⟨r, e, hp, fun level minSize hl => ?_⟩
  obtain ⟨cs, ec, hcs⟩ := hr level minSize hl
  refine ⟨cs, ec, fun c hc i hi => ⟨(hcs c hc i hi).1, fun j hj => ⟨((hcs c hc i hi).2 j hj).1, ?_⟩⟩⟩
  rintro rfl
  exact ((hcs c hc i hi).2 j hj).2 d1

/-- C143 for `float`s, whatever the rounding mode, for distances that are 0 or not below the least positive `float`. -/
theorem C143_float (R : Rounding 24) {d : Matrix Rat} {m n : Nat} {D : Nat → Nat → Rat} (h : Filled 0 d m n D) (hmn : n ≤ m + 1) (hn : n ≤ 2 ^ 24)
    (hc : Classes D 0 (1 / 2 ^ 149) n) :
    ∃ r, clusterObjects (floatArith R) d = .ok r ∧ r.order.Perm (List.range n) ∧ ∀ level minSize, 0 ≤ level →
      ∃ cs, cut (floatArith R).le r level minSize = .ok cs ∧ ∀ c ∈ cs, ∀ i ∈ c, i < n ∧ ∀ j < n,
        (D i j = 0 → j ∈ c) ∧ (level = 0 → j ∈ c → Alike D 0 i j) := by
  have d1 : (0 : Rat) < 1 / 2 ^ 149 := by positivity
  obtain ⟨r, e, hp, hr⟩ := C143_clusters (A := floatArith R) (floatArith_lawful R) h hmn d1 hc (floatArith_means R hn)
  refine ⟨r, e, hp, fun level minSize hl => ?_⟩
  obtain ⟨cs, ec, hcs⟩ := hr level minSize hl
  refine ⟨cs, ec, fun c hc i hi => ⟨(hcs c hc i hi).1, fun j hj => ⟨((hcs c hc i hi).2 j hj).1, ?_⟩⟩⟩
  rintro rfl
  exact ((hcs c hc i hi).2 j hj).2 d1

/-- Distances given by what makes objects alike. -/
theorem classes_of {X : Type} {D : Nat → Nat → Rat} {δ : Rat} {n : Nat} (f : Nat → X) (hs : ∀ i j, D i j = D j i)
    (h0 : ∀ i j, i < n → j < n → i ≠ j → (D i j = 0 ↔ f i = f j) ∧ (D i j = 0 ∨ δ ≤ D i j)) : Classes D 0 δ n where
  symm := hs
  trans i j k hi hj hk h1 h2 := by
    by_cases hik : i = k
    · exact .inl hik
    right
    rw [(h0 i k hi hk hik).1]
    have e1 : f i = f j := by
      rcases h1 with rfl | h1
      · rfl
      · by_cases hij : i = j
        · rw [hij]
        · exact (h0 i j hi hj hij).1.1 h1
    have e2 : f j = f k := by
      rcases h2 with rfl | h2
      · rfl
      · by_cases hjk : j = k
        · rw [hjk]
        · exact (h0 j k hj hk hjk).1.1 h2
    exact e1.trans e2
  far i j hi hj hij := (h0 i j hi hj hij).2

variable {F : Type} {eq : F → F → Bool}

theorem levenshteinFloat_far (R : Rounding 24) (he : Equiv' eq) (sw : Bool) {a b : List F} (ha : a.length < 2 ^ 31) (hb : b.length < 2 ^ 31) {q : Rat}
    (h : levenshteinFloat R eq sw a b = .ok q) : (q = 0 ↔ Levenshtein.Same eq a b) ∧ (q = 0 ∨ 1 / 2 ^ 149 ≤ q) := by
  have hcmp : Metrics.Comparison eq sw := fun _ => ⟨he.symm, he.trans⟩
  obtain ⟨q', x, h1, -, -, -, h2, -⟩ := Metrics.C06_float R sw hcmp a b ha hb
  rw [h] at h1
  injection h1 with h1
  subst h1
  refine ⟨h2, ?_⟩
  rw [Metrics.levenshteinFloat_eq R sw hcmp.rect] at h
  injection h with h
  subst h
  have hle := Levenshtein.D_le_max eq sw a.reverse b.reverse
  simp only [List.length_reverse] at hle
  generalize Levenshtein.D eq sw a.reverse b.reverse = d at *
  have hd : (d : Rat) ≤ (max a.length b.length : Nat) := by exact_mod_cast hle
  have hm : max a.length b.length < 2 ^ 31 := by omega
  generalize max a.length b.length = mx at *
  by_cases hne : d = 0
  · left; rw [hne]; simp [R.zero]
  · right
    have h1 : (1 : Rat) ≤ R.rnd d := by
      have := R.ge_nat (x := d) (n := 1) (by norm_num) (by exact_mod_cast Nat.pos_of_ne_zero hne)
      exact_mod_cast this
    have h2 : R.rnd mx ≤ 2 ^ 31 := by
      have := R.keeps 1 31 (by norm_num) (by norm_num) (by norm_num)
      have e2 : ((1 : Int) : Rat) * 2 ^ (31 : Int) = 2 ^ 31 := by norm_num
      rw [e2] at this
      rw [← this]
      exact R.mono _ _ (by exact_mod_cast hm.le)
    have h3 : 0 < R.rnd mx := lt_of_lt_of_le (lt_of_lt_of_le zero_lt_one h1) (R.mono _ _ hd)
    have h4 : (1 : Rat) / 2 ^ 31 ≤ R.rnd d / R.rnd mx := by
      rw [div_le_div_iff₀ (by norm_num) h3]
      nlinarith
    exact R.ge_pow (by norm_num) (le_trans (by norm_num) h4)

theorem jaccardFloat_far (R : Rounding 24) (E : Rounding 53) (he : Equiv' eq) {a b : List F} (ha : a.length ≤ 2 ^ 23) (hb : b.length ≤ 2 ^ 23) :
    (jaccardFloat R E eq a b = 0 ↔ frameSet (cls he) a = frameSet (cls he) b) ∧ (jaccardFloat R E eq a b = 0 ∨ 1 / 2 ^ 149 ≤ jaccardFloat R E eq a b) := by
  have hk := byKey he
  have hc : (frameSet (cls he) a ∪ frameSet (cls he) b).card ≤ 2 ^ 24 := by
    have h1 := Finset.card_union_le (frameSet (cls he) a) (frameSet (cls he) b)
    have h2 : ∀ l : List F, (frameSet (cls he) l).card ≤ l.length := fun l => by
      have := List.toFinset_card_le (l.map (cls he))
      simpa [frameSet] using this
    have := h2 a
    have := h2 b
    omega
  obtain ⟨e1, -, e3⟩ := Metrics.C07_float_exact_partial R E hk a b hc
  refine ⟨e1, ?_⟩
  rw [Metrics.jaccardFloat_eq R E hk]
  by_cases hab : a = [] ∧ b = []
  · rw [if_pos hab]; exact .inl rfl
  rw [if_neg hab]
  have hle : (frameSet (cls he) a ∩ frameSet (cls he) b).card ≤ (frameSet (cls he) a ∪ frameSet (cls he) b).card :=
    Finset.card_le_card (Finset.inter_subset_union)
  have hpos : 0 < (frameSet (cls he) a ∪ frameSet (cls he) b).card := by
    rw [Nat.pos_iff_ne_zero, ne_eq, Finset.card_eq_zero, Finset.union_eq_empty]
    simpa [frameSet] using hab
  generalize (frameSet (cls he) a ∪ frameSet (cls he) b).card = u at *
  generalize (frameSet (cls he) a ∩ frameSet (cls he) b).card = i at *
  by_cases hi : i = u
  · exact .inl ((Metrics.jaccardValue_zero_iff R E hle hpos hc).2 hi)
  right
  have hu0 : (0 : Rat) < u := by exact_mod_cast hpos
  unfold Metrics.jaccardValue
  rw [R.keeps_nat i (by omega), R.keeps_nat u hc]
  have h1 : (i : Rat) + 1 ≤ u := by exact_mod_cast (by omega : i + 1 ≤ u)
  have h2 : (u : Rat) ≤ 2 ^ 24 := by exact_mod_cast hc
  have h3 : (i : Rat) / u ≤ 1 - 1 / 2 ^ 24 := by
    rw [div_le_iff₀ hu0]
    have : (1 : Rat) / 2 ^ 24 * u ≤ 1 := by
      rw [div_mul_eq_mul_div, one_mul, div_le_one (by norm_num)]
      exact h2
    linarith
  have h4 := R.le_below_one (by norm_num) (by norm_num) h3
  have h5 : (1 : Rat) / 2 ^ 24 ≤ 1 - R.rnd ((i : Rat) / u) := by linarith
  exact le_trans (by norm_num) (R.ge_pow (by norm_num) (E.ge_pow (by norm_num) h5))

/-- C143 for the computed edit distances: the clusters at level 0 are the groups of threads with the same frames, and at no level are such threads in
different clusters. -/
theorem C143_float_edit (R : Rounding 24) (he : Equiv' eq) (sw : Bool) (ts : Nat → List F) {d : Matrix Rat} {m n : Nat} {D : Nat → Nat → Rat}
    (h : Filled 0 d m n D) (hmn : n ≤ m + 1) (hn : n ≤ 2 ^ 24) (hl : ∀ i < n, (ts i).length < 2 ^ 31) (hs : ∀ i j, D i j = D j i)
    (hD : ∀ i j, i < n → j < n → i ≠ j → levenshteinFloat R eq sw (ts i) (ts j) = .ok (D i j)) :
    ∃ r, clusterObjects (floatArith R) d = .ok r ∧ r.order.Perm (List.range n) ∧ ∀ level minSize, 0 ≤ level →
      ∃ cs, cut (floatArith R).le r level minSize = .ok cs ∧ ∀ c ∈ cs, ∀ i ∈ c, i < n ∧ ∀ j < n,
        (Levenshtein.Same eq (ts i) (ts j) → j ∈ c) ∧ (level = 0 → j ∈ c → Levenshtein.Same eq (ts i) (ts j)) := by
  have same : ∀ a b : List F, Levenshtein.Same eq a b ↔ a.map (cls he) = b.map (cls he) := by
    intro a b
    constructor
    · exact Metrics.map_cls he
    · intro e
      induction a generalizing b with
      | nil =>
        cases b with
        | nil => exact Levenshtein.Same.nil
        | cons => simp at e
      | cons x a ih =>
        cases b with
        | nil => simp at e
        | cons y b =>
          simp only [List.map_cons, List.cons.injEq] at e
          exact Levenshtein.Same.cons ((byKey he x y).2 e.1) (ih b e.2)
  have hc : Classes D 0 (1 / 2 ^ 149) n := classes_of (fun i => (ts i).map (cls he)) hs (fun i j hi hj hij => by
    have := levenshteinFloat_far R he sw (hl i hi) (hl j hj) (hD i j hi hj hij)
    rw [← same]
    exact this)
  obtain ⟨r, e, hp, hr⟩ := C143_float R h hmn hn hc
  refine ⟨r, e, hp, fun level minSize hlev => ?_⟩
  obtain ⟨cs, ec, hcs⟩ := hr level minSize hlev
  refine ⟨cs, ec, fun c hcm i hi => ?_⟩
  obtain ⟨hin, key⟩ := hcs c hcm i hi
  refine ⟨hin, fun j hj => ?_⟩
  replace key := key j hj
  by_cases hij : i = j
  · subst hij
    exact ⟨fun _ => hi, fun _ _ => (same _ _).2 rfl⟩
  · have z := (levenshteinFloat_far R he sw (hl i hin) (hl j hj) (hD i j hin hj hij)).1
    exact ⟨fun hsame => key.1 (z.2 hsame), fun h0 hjc => z.1 ((key.2 h0 hjc).resolve_left hij)⟩

/-- C143 for the computed Jaccard distance: the clusters at level 0 are the groups of threads with the same set of frames. -/
theorem C143_float_jaccard (R : Rounding 24) (E : Rounding 53) (he : Equiv' eq) (ts : Nat → List F) {d : Matrix Rat} {m n : Nat} {D : Nat → Nat → Rat}
    (h : Filled 0 d m n D) (hmn : n ≤ m + 1) (hn : n ≤ 2 ^ 24) (hl : ∀ i < n, (ts i).length ≤ 2 ^ 23) (hs : ∀ i j, D i j = D j i)
    (hD : ∀ i j, i < n → j < n → i ≠ j → D i j = jaccardFloat R E eq (ts i) (ts j)) :
    ∃ r, clusterObjects (floatArith R) d = .ok r ∧ r.order.Perm (List.range n) ∧ ∀ level minSize, 0 ≤ level →
      ∃ cs, cut (floatArith R).le r level minSize = .ok cs ∧ ∀ c ∈ cs, ∀ i ∈ c, i < n ∧ ∀ j < n,
        (frameSet (cls he) (ts i) = frameSet (cls he) (ts j) → j ∈ c) ∧
        (level = 0 → j ∈ c → frameSet (cls he) (ts i) = frameSet (cls he) (ts j)) := by
  have far : ∀ i j, i < n → j < n → i ≠ j → (D i j = 0 ↔ frameSet (cls he) (ts i) = frameSet (cls he) (ts j)) ∧ (D i j = 0 ∨ 1 / 2 ^ 149 ≤ D i j) := by
    intro i j hi hj hij
    rw [hD i j hi hj hij]
    exact jaccardFloat_far R E he (hl i hi) (hl j hj)
  obtain ⟨r, e, hp, hr⟩ := C143_float R h hmn hn (classes_of (fun i => frameSet (cls he) (ts i)) hs far)
  refine ⟨r, e, hp, fun level minSize hlev => ?_⟩
  obtain ⟨cs, ec, hcs⟩ := hr level minSize hlev
  refine ⟨cs, ec, fun c hcm i hi => ?_⟩
  obtain ⟨hin, key⟩ := hcs c hcm i hi
  refine ⟨hin, fun j hj => ?_⟩
  replace key := key j hj
  by_cases hij : i = j
  · subst hij
    exact ⟨fun _ => hi, fun _ _ => rfl⟩
  · have z := (far i j hin hj hij).1
    exact ⟨fun hsame => key.1 (z.2 hsame), fun h0 hjc => z.1 ((key.2 h0 hjc).resolve_left hij)⟩

/-! ## Examples -/

/-- The hypotheses of `C143_exact` are met: the objects 0 and 2 are identical. -/
example : Filled 0 ⟨2, 3, [some 1, some 0, none, some 1]⟩ 2 3 (three 1 0 1) ∧ (∀ i j, 0 ≤ three 1 0 1 i j) ∧
    (∀ i j k, i < 3 → j < 3 → k < 3 → Alike (three 1 0 1) 0 i j → Alike (three 1 0 1) 0 j k → Alike (three 1 0 1) 0 i k) ∧
    clusterObjects ratArith ⟨2, 3, [some 1, some 0, none, some 1]⟩ = .ok ⟨[0, 2, 1], [0, 1]⟩ ∧
    cut ratArith.le ⟨[0, 2, 1], [0, 1]⟩ 0 1 = .ok [[1], [0, 2]] := by
  refine ⟨three_filled 1 0 1, ?_, ?_, by decide +kernel, by decide +kernel⟩
  · intro i j
    unfold three
    split_ifs <;> norm_num
  · intro i j k hi hj hk
    have : (i = 0 ∨ i = 1 ∨ i = 2) ∧ (j = 0 ∨ j = 1 ∨ j = 2) ∧ (k = 0 ∨ k = 1 ∨ k = 2) := by omega
    unfold Alike
    obtain ⟨rfl | rfl | rfl, rfl | rfl | rfl, rfl | rfl | rfl⟩ := this <;> decide +kernel

end Satyr.Cluster

namespace Satyr.Generic
open Satyr.Cluster
open Satyr.Distances
open Satyr.Metrics (factors)

/-- C143 for threads of any type with frames about which enough is known: threads at distance 0 are in the same clusters at every level, and the
clusters at level 0 consist of threads at distance 0. -/
theorem C143_threads_partial {ty : DistType} {k : Rat} (hk : (ty, k) ∈ factors) (ts : Nat → Thread) {d : Matrix Rat} {m n : Nat} {D : Nat → Nat → Rat}
    (h : Filled 0 d m n D) (hmn : n ≤ m + 1) (hf : ∀ i, ∀ f ∈ allFrames (ts i), Known f)
    (hD : ∀ i j, threadDistance (some ty) (ts i) (ts j) = .ok (D i j)) :
    ∃ r, clusterObjects ratArith d = .ok r ∧ r.order.Perm (List.range n) ∧ ∀ level minSize, 0 ≤ level →
      ∃ cs, cut ratArith.le r level minSize = .ok cs ∧ ∀ c ∈ cs, ∀ i ∈ c, i < n ∧ ∀ j < n,
        (threadDistance (some ty) (ts i) (ts j) = .ok 0 → j ∈ c) ∧
        (level = 0 → j ∈ c → i ≠ j → threadDistance (some ty) (ts i) (ts j) = .ok 0) := by
  obtain ⟨δ, hδ, near⟩ := Metrics.near (T := Report.ReportType) known_equiv hk
  have val : ∀ i j, D i j = if (ts i).type = (ts j).type then δ (asKnown (ts i) (hf i)).frames (asKnown (ts j) (hf j)).frames else 1 := by
    intro i j
    have := hD i j
    rw [threadDistance_known _ _ _ (hf i) (hf j), hδ] at this
    injection this with this
    exact this.symm
  have hs : ∀ i j, D i j = D j i := by
    intro i j
    rw [val, val, near.symm]
    simp only [eq_comm]
  have h0 : ∀ i j, 0 ≤ D i j := by
    intro i j
    rw [val]
    split
    · exact (near.range _ _).1
    · norm_num
  have ht : ∀ i j k, D i j = 0 → D i k = D j k := by
    intro i j l e
    obtain ⟨x, y, z, e1, e2, e3, -, -, e4⟩ := C139_threads_partial hk (ts i) (ts j) (ts l) (hf i) (hf j) (hf l)
    rw [hD] at e1 e2 e3
    injection e1 with e1
    injection e2 with e2
    injection e3 with e3
    subst e1 e2 e3
    exact e4 e
  obtain ⟨r, e, hp, hr⟩ := C143_exact h hmn hs h0 (fun i j l _ _ _ h1 h2 => by
    rcases h1 with rfl | h1
    · exact h2
    · rcases h2 with rfl | h2
      · exact .inr h1
      · exact .inr (by rw [ht i j l h1]; exact h2))
  refine ⟨r, e, hp, fun level minSize hlev => ?_⟩
  obtain ⟨cs, ec, hcs⟩ := hr level minSize hlev
  refine ⟨cs, ec, fun c hcm i hi => ⟨(hcs c hcm i hi).1, fun j hj => ?_⟩⟩
  obtain ⟨k1, k2⟩ := (hcs c hcm i hi).2 j hj
  rw [hD]
  constructor
  · intro e
    injection e with e
    exact k1 e
  · intro e hjc hij
    rw [(k2 e hjc).resolve_left hij]

/-- C143 fails if the library of a frame is not known: with each of these metrics the distance of the threads 1 and 2 is 0, but they are in different
clusters when the dendrogram is cut at level 0. -/
theorem C143_not_unknown (p : DistType × Rat) (hp : p ∈ factors) : ∃ (t u v : Thread) (d : Matrix Rat), Filled 0 d 2 3 (three 0 1 0) ∧
    threadDistance (some p.1) t u = .ok 0 ∧ threadDistance (some p.1) t v = .ok 1 ∧ threadDistance (some p.1) u v = .ok 0 ∧
    ∃ r, clusterObjects ratArith d = .ok r ∧ cut ratArith.le r 0 1 = .ok [[2], [0, 1]] := by
  obtain ⟨t, u, v, h1, h2, h3⟩ := C139_not_gdb p hp
  exact ⟨t, u, v, _, three_filled 0 1 0, h1, h3, h2, ⟨[0, 1, 2], [0, 1 / 2]⟩, by decide +kernel, by decide +kernel⟩

/-- C143 fails for the Jaro-Winkler metric, which is a similarity: here the threads 0 and 1 are the same, and thread 2 has nothing in common with
them; at the level 0 thread 2 is in the cluster of thread 0, and thread 1 is not. -/
theorem C143_not_jaro_winkler : ∃ (t v : Thread) (d : Matrix Rat), Filled 0 d 2 3 (three 1 0 0) ∧
    threadDistance (some .jaroWinkler) t t = .ok 1 ∧ threadDistance (some .jaroWinkler) t v = .ok 0 ∧
    ∃ r, clusterObjects ratArith d = .ok r ∧ cut ratArith.le r 0 1 = .ok [[1], [0, 2]] :=
  ⟨coreNamed [c!"f", c!"g"], coreNamed [c!"h"], _, three_filled 1 0 0, by decide +kernel, by decide +kernel, ⟨[0, 2, 1], [0, 1 / 2]⟩,
    by decide +kernel, by decide +kernel⟩

end Satyr.Generic
