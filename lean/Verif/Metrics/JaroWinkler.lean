import Verif.Metrics.Model
import Verif.Levenshtein.Spec
import Mathlib.Algebra.Order.Field.Basic
import Mathlib.Algebra.Order.Ring.Rat
import Mathlib.Algebra.Field.Rat
import Mathlib.Tactic.Linarith
import Mathlib.Tactic.FieldSimp
import Mathlib.Tactic.Ring
import Mathlib.Data.List.Nodup
import Mathlib.Data.List.Perm.Subperm
/-!
# Properties C08, C09: Jaro-Winkler similarity and the metric dispatch
-/
namespace Satyr.Metrics

variable {F : Type} {eq : F → F → Bool}

theorem jwInner_match {mx i : Nat} {x : F} (l : List F) (j : Nat) (p : Bool)
    (h : (jwInner eq mx i x l j p).1 = true) : ∃ y ∈ l, eq x y = true := by
  induction l generalizing j p with
  | nil => simp [jwInner] at h
  | cons y l ih =>
    unfold jwInner at h
    simp only at h
    split at h
    · next hc => exact ⟨y, by simp, hc.2⟩
    · obtain ⟨z, hz, e⟩ := ih _ _ h
      exact ⟨z, by simp [hz], e⟩

theorem jwInner_trans_le {mx i : Nat} {x : F} (l : List F) (j : Nat) (p : Bool) :
    (jwInner eq mx i x l j p).2.2 = true → (jwInner eq mx i x l j p).1 = true := by
  induction l generalizing j p with
  | nil => simp [jwInner]
  | cons y l ih =>
    unfold jwInner
    simp only
    split
    · simp
    · exact ih _ _

/-- Number of frames of `a` that have an equal frame in `b`. -/
def common (eq : F → F → Bool) (a b : List F) : Nat := (a.filter fun x => b.any fun y => eq x y).length

theorem jwOuter_bounds {mx : Nat} {b : List F} (a : List F) (i : Nat) (s : JW) (hs : s.trans ≤ s.matches_) :
    (jwOuter eq mx b a i s).trans ≤ (jwOuter eq mx b a i s).matches_ ∧
    (jwOuter eq mx b a i s).matches_ ≤ s.matches_ + common eq a b := by
  induction a generalizing i s with
  | nil => simp [jwOuter, hs]
  | cons x a ih =>
    unfold jwOuter
    simp only
    have ht := jwInner_trans_le (eq := eq) (mx := mx) (i := i) (x := x) b 1 s.stillPrefix
    have hm := jwInner_match (eq := eq) (mx := mx) (i := i) (x := x) b 1 s.stillPrefix
    generalize jwInner eq mx i x b 1 s.stillPrefix = r at ht hm
    have := ih (i + 1) { stillPrefix := r.2.1
                         trans := if r.2.2 then s.trans + 1 else s.trans
                         prefixLen := if r.2.1 then s.prefixLen + 1 else s.prefixLen
                         matches_ := if r.1 then s.matches_ + 1 else s.matches_ } (by
      simp only
      split
      · next h => rw [if_pos (ht h)]; omega
      · split <;> omega)
    refine ⟨this.1, le_trans this.2 ?_⟩
    simp only [common, List.filter_cons]
    by_cases hr : r.1 = true
    · obtain ⟨y, hy, e⟩ := hm hr
      have : (b.any fun y => eq x y) = true := List.any_eq_true.2 ⟨y, hy, e⟩
      simp only [hr, this, if_true, List.length_cons]; omega
    · simp only [hr, Bool.false_eq_true, if_false]
      split
      · simp only [List.length_cons]; omega
      · exact Nat.le_refl _

theorem common_le (a b : List F) : common eq a b ≤ a.length := List.length_filter_le _ _

/-- The score of given counters. -/
def score (la lb : Nat) (s : JW) : Rat :=
  let trans : Rat := (s.trans : Rat) / 2
  let p := if s.prefixLen > 4 then 4 else s.prefixLen
  if s.matches_ = 0 then 0 else
  let m : Rat := s.matches_
  let jaro : Rat := (m / la + m / lb + (m - trans) / m) / 3
  jaro + (p : Rat) * (1 / 5) * (1 - jaro)

theorem prefix_bound (n : Nat) : (0 : Rat) ≤ ((if n > 4 then 4 else n : Nat) : Rat) * (1 / 5) ∧
    ((if n > 4 then 4 else n : Nat) : Rat) * (1 / 5) ≤ 4 / 5 := by
  have h : (if n > 4 then 4 else n) ≤ 4 := by split <;> omega
  have h1 : ((if n > 4 then 4 else n : Nat) : Rat) ≤ 4 := by exact_mod_cast h
  have h2 : (0 : Rat) ≤ ((if n > 4 then 4 else n : Nat) : Rat) := Nat.cast_nonneg _
  constructor <;> linarith

theorem score_nonneg (la lb : Nat) (s : JW) (hs : s.trans ≤ s.matches_) : 0 ≤ score la lb s := by
  unfold score
  simp only
  split
  · exact le_refl _
  · next hm =>
    obtain ⟨h1, h2⟩ := prefix_bound s.prefixLen
    have hpos : (0 : Rat) < s.matches_ := by exact_mod_cast Nat.pos_of_ne_zero hm
    have ht : (s.trans : Rat) ≤ s.matches_ := by exact_mod_cast hs
    have ht0 : (0 : Rat) ≤ s.trans := Nat.cast_nonneg _
    have a1 : (0 : Rat) ≤ (s.matches_ : Rat) / la := div_nonneg (le_of_lt hpos) (Nat.cast_nonneg _)
    have a2 : (0 : Rat) ≤ (s.matches_ : Rat) / lb := div_nonneg (le_of_lt hpos) (Nat.cast_nonneg _)
    have a3 : (0 : Rat) ≤ ((s.matches_ : Rat) - (s.trans : Rat) / 2) / s.matches_ :=
      div_nonneg (by linarith) (le_of_lt hpos)
    have hj : 0 ≤ ((s.matches_ : Rat) / la + (s.matches_ : Rat) / lb +
        ((s.matches_ : Rat) - (s.trans : Rat) / 2) / s.matches_) / 3 := by
      linarith
    generalize ((s.matches_ : Rat) / la + (s.matches_ : Rat) / lb +
        ((s.matches_ : Rat) - (s.trans : Rat) / 2) / s.matches_) / 3 = q at *
    generalize ((if s.prefixLen > 4 then 4 else s.prefixLen : Nat) : Rat) * (1 / 5) = p at *
    nlinarith

theorem score_le_one (la lb : Nat) (s : JW) (ha : s.matches_ ≤ la) (hb : s.matches_ ≤ lb) :
    score la lb s ≤ 1 := by
  unfold score
  simp only
  split
  · exact zero_le_one
  · next hm =>
    obtain ⟨h1, h2⟩ := prefix_bound s.prefixLen
    have hpos : (0 : Rat) < s.matches_ := by exact_mod_cast Nat.pos_of_ne_zero hm
    have ht0 : (0 : Rat) ≤ s.trans := Nat.cast_nonneg _
    have a1 : (s.matches_ : Rat) / la ≤ 1 := div_le_one_of_le₀ (by exact_mod_cast ha) (Nat.cast_nonneg _)
    have a2 : (s.matches_ : Rat) / lb ≤ 1 := div_le_one_of_le₀ (by exact_mod_cast hb) (Nat.cast_nonneg _)
    have a3 : ((s.matches_ : Rat) - (s.trans : Rat) / 2) / s.matches_ ≤ 1 :=
      div_le_one_of_le₀ (by linarith) (le_of_lt hpos)
    have hj : ((s.matches_ : Rat) / la + (s.matches_ : Rat) / lb + ((s.matches_ : Rat) - (s.trans : Rat) / 2) / s.matches_) / 3 ≤ 1 := by
      linarith
    generalize ((s.matches_ : Rat) / la + (s.matches_ : Rat) / lb + ((s.matches_ : Rat) - (s.trans : Rat) / 2) / s.matches_) / 3 = q at *
    generalize ((if s.prefixLen > 4 then 4 else s.prefixLen : Nat) : Rat) * (1 / 5) = p at *
    nlinarith

/-- Final counters. -/
def counters (eq : F → F → Bool) (a b : List F) : JW :=
  jwOuter eq (max a.length b.length) b a 1 { prefixLen := 0, stillPrefix := true, trans := 0, matches_ := 0 }

theorem jaroWinkler_eq (a b : List F) : jaroWinkler eq a b =
    if a = [] ∧ b = [] then 1 else score a.length b.length (counters eq a b) := by
  unfold jaroWinkler
  have hmx : (if b.length < a.length then a.length else b.length) = max a.length b.length := by split <;> omega
  rw [hmx]
  simp only [List.length_eq_zero_iff]
  rfl

/-- **C08 (part that holds for all threads).** The similarity is never negative. -/
theorem C08_nonneg (a b : List F) : 0 ≤ jaroWinkler eq a b := by
  rw [jaroWinkler_eq]
  split
  · exact zero_le_one
  · exact score_nonneg _ _ _ (jwOuter_bounds a 1 _ (by simp)).1

/-- If the frames of `a` are pairwise different and each is matched, the partners are pairwise different. -/
theorem common_le_right (hs : ∀ x y, eq x y = true → eq y x = true)
    (ht : ∀ x y z, eq x y = true → eq y z = true → eq x z = true) (a b : List F)
    (hd : a.Pairwise fun x y => eq x y = false) : common eq a b ≤ b.length := by
  induction a generalizing b with
  | nil => simp [common]
  | cons x a ih =>
    rw [List.pairwise_cons] at hd
    simp only [common, List.filter_cons]
    split
    · next hx =>
      obtain ⟨y, hy, hxy⟩ := List.any_eq_true.1 hx
      obtain ⟨b1, b2, rfl⟩ := List.append_of_mem hy
      have := ih (b1 ++ b2) hd.2
      have hsub : (a.filter fun x => (b1 ++ y :: b2).any fun y => eq x y) = a.filter fun x => (b1 ++ b2).any fun y => eq x y := by
        apply List.filter_congr
        intro z hz
        have hzx := hd.1 z hz
        have hzy : eq z y = false := by
          by_contra hc
          have hc : eq z y = true := by simpa using hc
          have := ht x y z hxy (hs _ _ hc)
          rw [this] at hzx; simp at hzx
        simp [hzy]
      rw [hsub]
      simp only [common] at this
      simp at this ⊢; omega
    · exact ih b hd.2

/-- **C08 (partial).** In [0, 1], provided the frames of the first thread are pairwise different (and comparison is
symmetric and transitive). Missing: the claim is false without that, see `C08_not_at_most_one`. -/
theorem C08_range_partial (hs : ∀ x y, eq x y = true → eq y x = true)
    (ht : ∀ x y z, eq x y = true → eq y z = true → eq x z = true) (a b : List F)
    (hd : a.Pairwise fun x y => eq x y = false) :
    0 ≤ jaroWinkler eq a b ∧ jaroWinkler eq a b ≤ 1 := by
  refine ⟨C08_nonneg a b, ?_⟩
  rw [jaroWinkler_eq]
  split
  · exact le_refl _
  · have h := (jwOuter_bounds (eq := eq) (mx := max a.length b.length) (b := b) a 1
      { prefixLen := 0, stillPrefix := true, trans := 0, matches_ := 0 } (by simp)).2
    have h1 := common_le (eq := eq) a b
    have h2 := common_le_right hs ht a b hd
    apply score_le_one <;> (unfold counters; simp only [Nat.zero_add] at h; omega)

/-- **C08, finding.** The similarity can exceed 1: four equal frames against a single one. -/
theorem C08_not_at_most_one : jaroWinkler (fun x y : Nat => x == y) [1, 1, 1, 1] [1] = 61 / 60 ∧ (61 / 60 : Rat) > 1 := by
  constructor
  · decide +kernel
  · norm_num

/-- **C08.** 0 if no frame of one thread equals a frame of the other (and not both are empty). -/
theorem C08_zero_if_nothing_equal (a b : List F) (hne : ¬ (a = [] ∧ b = []))
    (h : ∀ x ∈ a, ∀ y ∈ b, eq x y = false) : jaroWinkler eq a b = 0 := by
  rw [jaroWinkler_eq, if_neg hne]
  have hb := (jwOuter_bounds (eq := eq) (mx := max a.length b.length) (b := b) a 1
      { prefixLen := 0, stillPrefix := true, trans := 0, matches_ := 0 } (by simp)).2
  have hc : common eq a b = 0 := by
    unfold common
    rw [List.length_eq_zero_iff, List.filter_eq_nil_iff]
    intro x hx hany
    obtain ⟨y, hy, e⟩ := List.any_eq_true.1 hany
    rw [h x hx y hy] at e; simp at e
  have : (counters eq a b).matches_ = 0 := by unfold counters; simp only at hb; omega
  unfold score
  simp [this]

theorem jwInner_same {mx i : Nat} {x : F} (hmx : 2 ≤ mx) (pre : List F) (y : F) (post : List F) (j : Nat)
    (hj : j + pre.length = i) (hpre : ∀ z ∈ pre, eq x z = false) (hxy : eq x y = true) (p : Bool) :
    jwInner eq mx i x (pre ++ y :: post) j p = (true, p, false) := by
  induction pre generalizing j with
  | nil =>
    simp only [List.length_nil, Nat.add_zero] at hj
    subst hj
    unfold jwInner
    have : (1 : Int) ≤ (mx / 2 : Nat) := by
      have : 1 ≤ mx / 2 := by omega
      exact_mod_cast this
    simp [hxy]
    omega
  | cons z pre ih =>
    have hz := hpre z (by simp)
    simp only [List.cons_append]
    unfold jwInner
    simp only [List.length_cons] at hj
    have : ¬ (i = j) := by omega
    simp only [this, false_and, if_false, hz, Bool.false_eq_true, and_false]
    exact ih (j + 1) (by omega) (fun w hw => hpre w (by simp [hw]))

theorem jwOuter_same {mx : Nat} (hmx : 2 ≤ mx) {pre rest pre' rest' : List F} (i : Nat) (hi : i = pre.length + 1)
    (hl : pre'.length = pre.length) (hsame : Levenshtein.Same eq rest rest')
    (hdist : ∀ p q x y, pre' ++ rest' = p ++ y :: q → x ∈ rest → eq x y = true → ∀ z ∈ p, eq x z = false)
    (s : JW) (hp : s.stillPrefix = true) (ht : s.trans = 0) :
    (jwOuter eq mx (pre' ++ rest') rest i s).trans = 0 ∧
    (jwOuter eq mx (pre' ++ rest') rest i s).matches_ = s.matches_ + rest.length := by
  induction hsame generalizing pre pre' i s with
  | nil => simp [jwOuter, ht]
  | @cons x y a b hxy hs ih =>
    unfold jwOuter
    simp only
    rw [jwInner_same hmx pre' y b 1 (by omega) (hdist pre' b x y rfl (by simp) hxy) hxy]
    have e : pre' ++ y :: b = (pre' ++ [y]) ++ b := by simp
    rw [e]
    have := ih (pre := pre ++ [x]) (pre' := pre' ++ [y]) (i + 1) (by simp [hi]) (by simp [hl])
      (by
        intro p q x' y' h1 h2 h3
        exact hdist p q x' y' (by rw [e]; exact h1) (by simp [h2]) h3)
      { stillPrefix := true
        trans := s.trans
        prefixLen := s.prefixLen + 1
        matches_ := s.matches_ + 1 } rfl ht
    simp only [hp, if_true, Bool.false_eq_true, if_false]
    refine ⟨this.1, ?_⟩
    rw [this.2]; simp; omega

/-- **C08 (partial).** 1 for threads of equal length >= 2 with pairwise equal frames, if the frames within a thread
are pairwise different. Missing: false for single-frame threads and for threads with repeated frames, see
`C08_not_one_for_identical`. -/
theorem C08_one_if_identical_partial (hsym : ∀ x y, eq x y = true → eq y x = true)
    (htr : ∀ x y z, eq x y = true → eq y z = true → eq x z = true) (a b : List F) (hlen : 2 ≤ a.length)
    (hsame : Levenshtein.Same eq a b) (hd : b.Pairwise fun x y => eq x y = false) :
    jaroWinkler eq a b = 1 := by
  have hab : a.length = b.length := by
    clear hlen hd
    induction hsame with
    | nil => rfl
    | cons _ _ ih => simp [ih]
  rw [jaroWinkler_eq, if_neg (by rintro ⟨rfl, -⟩; simp at hlen)]
  have h := jwOuter_same (eq := eq) (mx := max a.length b.length) (by omega) (pre := []) (pre' := []) 1 rfl rfl hsame
    (by
      intro p q x y h1 _ h3 z hz
      by_contra hc
      have hc : eq x z = true := by simpa using hc
      simp only [List.nil_append] at h1
      rw [h1, List.pairwise_append] at hd
      have := hd.2.2 z hz y (by simp)
      rw [htr z x y (hsym _ _ hc) h3] at this; simp at this)
    { prefixLen := 0, stillPrefix := true, trans := 0, matches_ := 0 } rfl rfl
  simp only [List.nil_append, Nat.zero_add] at h
  unfold score counters
  have hpos : (a.length : Rat) ≠ 0 := by
    have : a.length ≠ 0 := by omega
    exact_mod_cast this
  simp only [h.1, h.2]
  rw [if_neg (by omega), ← hab]
  simp only [Nat.cast_zero, zero_div, sub_zero, div_self hpos]
  norm_num

/-- **C08, finding.** Identical threads need not have similarity 1: a single frame gives 0, a repeated frame gives
less than 1. -/
theorem C08_not_one_for_identical :
    jaroWinkler (fun x y : Nat => x == y) [1] [1] = 0 ∧
    jaroWinkler (fun x y : Nat => x == y) [1, 1, 2, 3] [1, 1, 2, 3] = 119 / 120 := by
  constructor <;> decide +kernel

/-- Non-vacuity. -/
example : jaroWinkler (fun x y : Nat => x == y) [1, 2, 3] [1, 2, 4] = 13 / 15 ∧
    jaroWinkler (fun x y : Nat => x == y) [1, 2, 3] [1, 2, 3] = 1 ∧
    jaroWinkler (fun x y : Nat => x == y) [1, 2, 3] [4, 5] = 0 := by
  refine ⟨?_, ?_, ?_⟩ <;> decide +kernel

/-! ## C09 -/

/-- **C09.** Threads of different types have distance 1, whatever the metric and the frames; threads of one type get
the distance of exactly the requested metric. -/
theorem C09_dispatch {T : Type} [DecidableEq T] (t1 t2 : Thread T F) :
    (t1.type ≠ t2.type → ∀ ty, distance eq ty t1 t2 = .ok 1) ∧
    (t1.type = t2.type →
      distance eq (some .jaroWinkler) t1 t2 = .ok (jaroWinkler eq t1.frames t2.frames) ∧
      distance eq (some .jaccard) t1 t2 = .ok (jaccard eq t1.frames t2.frames) ∧
      distance eq (some .levenshtein) t1 t2 = Levenshtein.distance eq false t1.frames t2.frames ∧
      distance eq (some .damerauLevenshtein) t1 t2 = Levenshtein.distance eq true t1.frames t2.frames) := by
  constructor
  · intro h ty; simp [distance, h]
  · intro h; simp [distance, h]

/-- **C09.** A value outside of the enumeration of distance types gives distance 1. -/
theorem C09_unknown_metric {T : Type} [DecidableEq T] (t1 t2 : Thread T F) : distance eq none t1 t2 = .ok 1 := by
  by_cases h : t1.type = t2.type <;> simp [distance, h]

/-- Non-vacuity. -/
example : distance (fun x y : Nat => x == y) (some .jaccard) ⟨"gdb", [1]⟩ ⟨"java", [1]⟩ = .ok 1 := by decide +kernel

end Satyr.Metrics
