import Verif.Rounding
import Verif.Metrics.Jaccard
import Verif.Metrics.JaroWinkler
import Verif.Levenshtein.Props
import Mathlib.Data.Finset.Range
/-!
# The distances as `float`

The metrics with the rounding that each operation on `float` and `double` does (`R` rounds to `float`, `D` to `double`; evaluation in
the precision of the operands, as on x86-64).
-/
namespace Satyr.Metrics

variable {F : Type} (R : Rounding 24) (D : Rounding 53) (eq : F → F → Bool)

/-- `distance_jaccard` (lib/distance.c:127-179). The quotient is a `float`, the difference from `1.0` a `double`, and the result is
converted to `float`. -/
def jaccardFloat (a b : List F) : Rat :=
  let r := jaccardLoop1 eq b a (0, 0)
  let set2 := jaccardLoop2 eq b 0
  let union : Int := (r.1 : Int) + set2 - r.2
  if union = 0 then 0 else
  let d : Rat := R.rnd (D.rnd (1 - R.rnd (R.rnd r.2 / R.rnd union)))
  if d < 0 then 0 else d

/-- `distance_levenshtein` (lib/distance.c:181-272) with its last line in `float`. -/
def levenshteinFloat (transposition : Bool) (a b : List F) : Out Rat :=
  let mx := if b.length < a.length then a.length else b.length
  if mx = 0 then .ok 0 else do
    let r ← Levenshtein.rawDistance eq transposition a b
    .ok (R.rnd (R.rnd r / R.rnd mx))

/-- State of the outer loop; `trans_count` and `match_count` are `float`s. -/
structure JWFloat where
  prefixLen : Nat
  stillPrefix : Bool
  trans : Rat
  matches_ : Rat

/-- Outer loop of `distance_jaro_winkler` (lib/distance.c:54-88). -/
def jwOuterFloat (mx : Nat) (b : List F) : List F → Nat → JWFloat → JWFloat
  | [], _, s => s
  | x :: rest, i, s =>
    let r := jwInner eq mx i x b 1 s.stillPrefix
    jwOuterFloat mx b rest (i + 1)
      { stillPrefix := r.2.1
        trans := if r.2.2 then R.rnd (s.trans + 1) else s.trans
        prefixLen := if r.2.1 then s.prefixLen + 1 else s.prefixLen
        matches_ := if r.1 then R.rnd (s.matches_ + 1) else s.matches_ }

/-- The last lines of `distance_jaro_winkler` (lib/distance.c:90-108); the literal `0.2` is a `double`. -/
def scoreFloat (la lb : Nat) (s : JWFloat) : Rat :=
  let trans : Rat := R.rnd (s.trans / 2)
  let p := if s.prefixLen > 4 then 4 else s.prefixLen
  if s.matches_ = 0 then 0 else
  let m : Rat := s.matches_
  let jaro : Rat := R.rnd (R.rnd (R.rnd (R.rnd (m / R.rnd la) + R.rnd (m / R.rnd lb)) + R.rnd (R.rnd (m - trans) / m)) / 3)
  let k : Rat := R.rnd (D.rnd (1 / 5))
  R.rnd (jaro + R.rnd (R.rnd (R.rnd p * k) * R.rnd (1 - jaro)))

/-- `distance_jaro_winkler` (lib/distance.c:33-109). -/
def jaroWinklerFloat (a b : List F) : Rat :=
  if a.length = 0 ∧ b.length = 0 then 1 else
  let mx := if b.length < a.length then a.length else b.length
  scoreFloat R D a.length b.length
    (jwOuterFloat R eq mx b a 1 { prefixLen := 0, stillPrefix := true, trans := 0, matches_ := 0 })

/-! ## Levenshtein (C06) -/

variable {eq}

theorem levenshteinFloat_eq (sw : Bool) (hr : sw = false ∨ Levenshtein.Rect eq) (a b : List F) :
    levenshteinFloat R eq sw a b =
      .ok (R.rnd (R.rnd (Levenshtein.D eq sw a.reverse b.reverse : Nat) / R.rnd (max a.length b.length : Nat))) := by
  unfold levenshteinFloat
  rw [Levenshtein.max_eq]
  simp only
  split
  · next h => rw [h]; simp [R.zero]
  · rw [Levenshtein.rawDistance_eq eq sw hr, Out.bind_ok]

/-- Condition of the theorems about the edit distances (see `C06_range_and_zero`). -/
def Comparison (eq : F → F → Bool) (sw : Bool) : Prop :=
  sw = true → (∀ x y, eq x y = true → eq y x = true) ∧ ∀ x y z, eq x y = true → eq y z = true → eq x z = true

theorem Comparison.rect {sw : Bool} (h : Comparison eq sw) : sw = false ∨ Levenshtein.Rect eq := by
  cases sw with
  | false => exact Or.inl rfl
  | true =>
    obtain ⟨hs, ht⟩ := h rfl
    exact Or.inr fun x1 x2 y1 y2 h1 h2 h3 => ht x1 x2 y1 (ht x1 y2 x2 h3 (hs _ _ h1)) h2

/-- **C06.** As a `float`, whatever the rounding mode: the distance lies in [0, 1] and is 0 exactly for threads of equal length with
pairwise equal frames. For threads of up to 2^24 frames it is the exact distance, rounded once. -/
theorem C06_float (sw : Bool) (h : Comparison eq sw) (a b : List F) (ha : a.length < 2 ^ 31) (hb : b.length < 2 ^ 31) :
    ∃ q x, levenshteinFloat R eq sw a b = .ok q ∧ Levenshtein.distance eq sw a b = .ok x ∧ 0 ≤ q ∧ q ≤ 1 ∧
      (q = 0 ↔ Levenshtein.Same eq a b) ∧
      (a.length ≤ 2 ^ 24 → b.length ≤ 2 ^ 24 → q = R.rnd x) := by
  have hr := h.rect
  have hle := Levenshtein.D_le_max eq sw a.reverse b.reverse
  simp only [List.length_reverse] at hle
  have hz := Levenshtein.D_zero_iff eq sw a b
  refine ⟨_, _, levenshteinFloat_eq R sw hr a b, Levenshtein.distance_eq eq sw hr a b, ?_⟩
  generalize Levenshtein.D eq sw a.reverse b.reverse = d at *
  have hd : (d : Rat) ≤ (max a.length b.length : Nat) := by exact_mod_cast hle
  have hm : max a.length b.length < 2 ^ 31 := by omega
  generalize hmx : max a.length b.length = mx at *
  have h0 : (0 : Rat) ≤ R.rnd d := R.nonneg (Nat.cast_nonneg d)
  have hrange := R.div_range h0 (R.mono _ _ hd)
  refine ⟨hrange.1, hrange.2, ?_, ?_⟩
  · rw [← hz]
    constructor
    · intro e
      by_contra hne
      have h1 : (1 : Rat) ≤ R.rnd d := by
        have := R.ge_nat (x := d) (n := 1) (by norm_num) (by exact_mod_cast Nat.pos_of_ne_zero hne)
        exact_mod_cast this
      have h2 : R.rnd mx ≤ 2 ^ 31 := by
        have := R.keeps 1 31 (by norm_num) (by norm_num) (by norm_num)
        have e2 : ((1 : Int) : Rat) * 2 ^ (31 : Int) = 2 ^ 31 := by norm_num
        rw [e2] at this
        rw [← this]
        exact R.mono _ _ (by exact_mod_cast hm.le)
      have h3 : 0 < R.rnd mx := lt_of_lt_of_le (lt_of_lt_of_le zero_lt_one h1) (R.mono _ _ hd)
      have h4 : (1 : Rat) / 2 ^ 31 ≤ R.rnd d / R.rnd mx := by
        rw [div_le_div_iff₀ (by norm_num) h3]
        nlinarith
      have h5 := R.ge_pow (by norm_num) h4
      rw [e] at h5
      norm_num at h5
    · intro e
      rw [e]
      simp [R.zero]
  · intro hla hlb
    rw [R.keeps_nat d (by omega), R.keeps_nat mx (by omega)]

/-- **C06.** The error of the `float` is at most 2^-24, and pairs of threads compare as their exact distances do. -/
theorem C06_float_error (sw : Bool) (h : Comparison eq sw) (a b c d : List F) (ha : a.length ≤ 2 ^ 24) (hb : b.length ≤ 2 ^ 24)
    (hc : c.length ≤ 2 ^ 24) (hd : d.length ≤ 2 ^ 24) :
    ∃ q x r y, levenshteinFloat R eq sw a b = .ok q ∧ Levenshtein.distance eq sw a b = .ok x ∧ |q - x| ≤ 1 / 2 ^ 24 ∧
      levenshteinFloat R eq sw c d = .ok r ∧ Levenshtein.distance eq sw c d = .ok y ∧ (x ≤ y → q ≤ r) := by
  obtain ⟨q, x, h1, h2, -, -, -, h3⟩ := C06_float R sw h a b (by omega) (by omega)
  obtain ⟨r, y, k1, k2, -, -, -, k3⟩ := C06_float R sw h c d (by omega) (by omega)
  obtain ⟨x', e, x0, x1, -⟩ := Levenshtein.C06_range_and_zero eq sw h a b
  rw [h2] at e
  injection e with e
  subst e
  refine ⟨q, x, r, y, h1, h2, ?_, k1, k2, ?_⟩
  · rw [h3 ha hb]
    have := R.abs_error x0 0 (by rw [zpow_zero]; exact x1) (by norm_num) (by norm_num) (by norm_num)
    rwa [zpow_zero] at this
  · intro hxy
    rw [h3 ha hb, k3 hc hd]
    exact R.mono _ _ hxy

/-- **C06.** The `float` is symmetric. -/
theorem C06_float_symmetric (sw : Bool) (hs : ∀ x y, eq x y = true → eq y x = true) (h : Comparison eq sw) (a b : List F) :
    levenshteinFloat R eq sw a b = levenshteinFloat R eq sw b a := by
  rw [levenshteinFloat_eq R sw h.rect, levenshteinFloat_eq R sw h.rect, Nat.max_comm]
  have h1 := Levenshtein.D_isLeast eq sw a b
  have h2 := Levenshtein.D_isLeast eq sw b a
  have e : Levenshtein.D eq sw a.reverse b.reverse = Levenshtein.D eq sw b.reverse a.reverse :=
    Nat.le_antisymm (h1.2 _ (Levenshtein.alignable_symm hs h2.1)) (h2.2 _ (Levenshtein.alignable_symm hs h1.1))
  rw [e]

/-- Non-vacuity: one edit in three frames; the `float` is not a third. -/
example : Comparison (fun x y : Nat => x == y) true ∧
    levenshteinFloat float32 (fun x y : Nat => x == y) true [1, 2, 3] [1, 2, 4] = .ok (11184811 / 33554432) := by
  refine ⟨fun _ => ⟨by simp only [beq_iff_eq]; exact fun x y e => e.symm, by simp only [beq_iff_eq]; exact fun x y z e f => e.trans f⟩, ?_⟩
  decide +kernel

/-! ## Jaccard (C07) -/

section
variable {K : Type} [DecidableEq K] {key : F → K}

/-- The value for given sizes. -/
def jaccardValue (i u : Nat) : Rat := R.rnd (D.rnd (1 - R.rnd (R.rnd i / R.rnd u)))

theorem jaccardValue_range {i u : Nat} (h : i ≤ u) : 0 ≤ jaccardValue R D i u ∧ jaccardValue R D i u ≤ 1 := by
  have h1 : (i : Rat) ≤ u := by exact_mod_cast h
  have := R.div_range (R.nonneg (Nat.cast_nonneg i)) (R.mono _ _ h1)
  exact ⟨R.nonneg (D.nonneg (by linarith)), R.le_one (D.le_one (by linarith))⟩

theorem jaccardFloat_eq (h : ByKey eq key) (a b : List F) :
    jaccardFloat R D eq a b = if a = [] ∧ b = [] then 0 else
      jaccardValue R D (frameSet key a ∩ frameSet key b).card (frameSet key a ∪ frameSet key b).card := by
  have hu := Finset.card_union_add_card_inter (frameSet key a) (frameSet key b)
  unfold jaccardFloat
  rw [loop1_eq h, loop2_eq h]
  simp only [Nat.zero_add]
  have e : ((frameSet key a).card : Int) + (frameSet key b).card - ((frameSet key a ∩ frameSet key b).card : Nat) =
      ((frameSet key a ∪ frameSet key b).card : Nat) := by omega
  have e1 : ((((frameSet key a ∪ frameSet key b).card : Nat) : Int) : Rat) = ((frameSet key a ∪ frameSet key b).card : Rat) := by
    push_cast; rfl
  rw [e, e1]
  have hle : (frameSet key a ∩ frameSet key b).card ≤ (frameSet key a ∪ frameSet key b).card :=
    Finset.card_le_card (Finset.inter_subset_union)
  have hz : (frameSet key a ∪ frameSet key b).card = 0 ↔ a = [] ∧ b = [] := by
    rw [Finset.card_eq_zero, Finset.union_eq_empty]
    simp [frameSet]
  by_cases hab : a = [] ∧ b = []
  · rw [if_pos hab, if_pos (by exact_mod_cast hz.2 hab)]
  · rw [if_neg hab, if_neg (by intro hh; exact hab (hz.1 (by exact_mod_cast hh)))]
    rw [if_neg]
    · rfl
    · rw [not_lt]
      exact (jaccardValue_range R D hle).1

theorem jaccardValue_zero_iff {i u : Nat} (h : i ≤ u) (h0 : 0 < u) (hu : u ≤ 2 ^ 24) : jaccardValue R D i u = 0 ↔ i = u := by
  have hu0 : (0 : Rat) < u := by exact_mod_cast h0
  unfold jaccardValue
  rw [R.keeps_nat i (by omega), R.keeps_nat u hu]
  constructor
  · intro e
    by_contra hne
    have h1 : (i : Rat) + 1 ≤ u := by exact_mod_cast (by omega : i + 1 ≤ u)
    have h2 : (u : Rat) ≤ 2 ^ 24 := by exact_mod_cast hu
    have h3 : (i : Rat) / u ≤ 1 - 1 / 2 ^ 24 := by
      rw [div_le_iff₀ hu0]
      have : (1 : Rat) / 2 ^ 24 * u ≤ 1 := by
        rw [div_mul_eq_mul_div, one_mul, div_le_one (by norm_num)]
        exact h2
      linarith
    have h4 := R.le_below_one (by norm_num) (by norm_num) h3
    have h5 : (1 : Rat) / 2 ^ 24 ≤ 1 - R.rnd ((i : Rat) / u) := by linarith
    have h6 := R.ge_pow (by norm_num) (D.ge_pow (by norm_num) h5)
    rw [e] at h6
    norm_num at h6
  · rintro rfl
    rw [div_self hu0.ne', R.one, sub_self, D.zero, R.zero]

theorem jaccardValue_one_iff {i u : Nat} (h : i ≤ u) (h0 : 0 < u) (hu : u ≤ 2 ^ 24) : jaccardValue R D i u = 1 ↔ i = 0 := by
  have hu0 : (0 : Rat) < u := by exact_mod_cast h0
  unfold jaccardValue
  rw [R.keeps_nat i (by omega), R.keeps_nat u hu]
  constructor
  · intro e
    by_contra hne
    have h1 : (1 : Rat) ≤ i := by exact_mod_cast Nat.pos_of_ne_zero hne
    have h2 : (u : Rat) ≤ 2 ^ 24 := by exact_mod_cast hu
    have h3 : (1 : Rat) / 2 ^ 24 ≤ (i : Rat) / u := by
      rw [div_le_div_iff₀ (by norm_num) hu0]
      nlinarith
    have h4 := R.ge_pow (by norm_num) h3
    have h5 : 1 - R.rnd ((i : Rat) / u) ≤ 1 - 1 / 2 ^ 24 := by linarith
    have h6 := R.le_below_one (by norm_num) (by norm_num) (D.le_below_one (by norm_num) (by norm_num) h5)
    rw [e] at h6
    norm_num at h6
  · rintro rfl
    rw [Nat.cast_zero, zero_div, R.zero, sub_zero, D.one, R.one]

theorem jaccardValue_error {i u : Nat} (h : i ≤ u) (h0 : 0 < u) (hu : u ≤ 2 ^ 24) :
    |jaccardValue R D i u - (1 - (i : Rat) / u)| ≤ 3 / 2 ^ 24 := by
  have hu0 : (0 : Rat) < u := by exact_mod_cast h0
  have hiu : (i : Rat) ≤ u := by exact_mod_cast h
  unfold jaccardValue
  rw [R.keeps_nat i (by omega), R.keeps_nat u hu]
  have r := R.div_range (Nat.cast_nonneg i) hiu
  have q0 : (0 : Rat) ≤ (i : Rat) / u := div_nonneg (Nat.cast_nonneg _) hu0.le
  have q1 : (i : Rat) / u ≤ 1 := div_le_one_of_le₀ hiu hu0.le
  generalize (i : Rat) / u = q at *
  have e1 := R.abs_error q0 0 (by rw [zpow_zero]; exact q1) (by norm_num) (by norm_num) (by norm_num)
  have a1 : 0 ≤ 1 - R.rnd q := by linarith
  have a2 : 1 - R.rnd q ≤ 1 := by linarith
  have e2 := D.abs_error a1 0 (by rw [zpow_zero]; exact a2) (by norm_num) (by norm_num) (by norm_num)
  have e3 := R.abs_error (D.nonneg a1) 0 (by rw [zpow_zero]; exact D.le_one a2) (by norm_num) (by norm_num) (by norm_num)
  generalize D.rnd (1 - R.rnd q) = w at *
  generalize R.rnd w = v at *
  rw [abs_le] at *
  norm_num at *
  constructor <;> linarith

/-- **C07.** As a `float`, whatever the rounding mode: the distance lies in [0, 1] and is symmetric. -/
theorem C07_float_range (h : ByKey eq key) (a b : List F) :
    0 ≤ jaccardFloat R D eq a b ∧ jaccardFloat R D eq a b ≤ 1 ∧ jaccardFloat R D eq a b = jaccardFloat R D eq b a := by
  refine ⟨?_, ?_, ?_⟩
  · rw [jaccardFloat_eq R D h]
    split
    · exact le_refl _
    · exact (jaccardValue_range R D (Finset.card_le_card (Finset.inter_subset_union))).1
  · rw [jaccardFloat_eq R D h]
    split
    · exact zero_le_one
    · exact (jaccardValue_range R D (Finset.card_le_card (Finset.inter_subset_union))).2
  · rw [jaccardFloat_eq R D h, jaccardFloat_eq R D h, Finset.inter_comm, Finset.union_comm]
    simp only [and_comm]

/-- **C07 (partial).** With at most 2^24 different frames: 0 exactly if both threads have the same set of frames, 1 exactly if they
have no frame in common (and are not both empty), and never more than 3 * 2^-24 from the exact value. Missing: false for more
frames, see `C07_not_float_zero`. -/
theorem C07_float_exact_partial (h : ByKey eq key) (a b : List F) (hc : (frameSet key a ∪ frameSet key b).card ≤ 2 ^ 24) :
    (jaccardFloat R D eq a b = 0 ↔ frameSet key a = frameSet key b) ∧
    (jaccardFloat R D eq a b = 1 ↔ frameSet key a ∩ frameSet key b = ∅ ∧ ¬ (a = [] ∧ b = [])) ∧
    |jaccardFloat R D eq a b - jaccard eq a b| ≤ 3 / 2 ^ 24 := by
  rw [jaccardFloat_eq R D h, C07_jaccard_formula h]
  by_cases hab : a = [] ∧ b = []
  · rw [if_pos hab, if_pos hab, hab.1, hab.2]
    simp
    norm_num
  · rw [if_neg hab, if_neg hab]
    have hle : (frameSet key a ∩ frameSet key b).card ≤ (frameSet key a ∪ frameSet key b).card :=
      Finset.card_le_card (Finset.inter_subset_union)
    have hpos : 0 < (frameSet key a ∪ frameSet key b).card := by
      rw [Nat.pos_iff_ne_zero, ne_eq, Finset.card_eq_zero, Finset.union_eq_empty]
      simpa [frameSet] using hab
    refine ⟨?_, ?_, jaccardValue_error R D hle hpos hc⟩
    · rw [jaccardValue_zero_iff R D hle hpos hc]
      constructor
      · intro e
        have hs := Finset.eq_of_subset_of_card_le (Finset.inter_subset_union (s := frameSet key a) (t := frameSet key b)) e.ge
        apply Finset.Subset.antisymm
        · intro x hx
          have : x ∈ frameSet key a ∩ frameSet key b := by rw [hs]; exact Finset.mem_union_left _ hx
          exact (Finset.mem_inter.1 this).2
        · intro x hx
          have : x ∈ frameSet key a ∩ frameSet key b := by rw [hs]; exact Finset.mem_union_right _ hx
          exact (Finset.mem_inter.1 this).1
      · intro e
        rw [e, Finset.inter_self, Finset.union_self]
    · rw [jaccardValue_one_iff R D hle hpos hc, Finset.card_eq_zero]
      exact ⟨fun e => ⟨e, hab⟩, fun e => e.1⟩

/-- **C07.** `float` distances compare as the exact ones do (with at most 2^24 different frames). -/
theorem C07_float_order (h : ByKey eq key) (a b c d : List F) (hab : (frameSet key a ∪ frameSet key b).card ≤ 2 ^ 24)
    (hcd : (frameSet key c ∪ frameSet key d).card ≤ 2 ^ 24) (hle : jaccard eq a b ≤ jaccard eq c d) :
    jaccardFloat R D eq a b ≤ jaccardFloat R D eq c d := by
  have h1 := C07_float_range R D h
  by_cases e1 : a = [] ∧ b = []
  · rw [jaccardFloat_eq R D h a b, if_pos e1]
    exact (h1 c d).1
  by_cases e2 : c = [] ∧ d = []
  · have : jaccard eq c d = 0 := by rw [C07_jaccard_formula h, if_pos e2]
    rw [this] at hle
    have h3 : jaccard eq a b = 0 := le_antisymm hle (C07_range h a b).1
    rw [((C07_float_exact_partial R D h a b hab).1).2 ((C07_zero_iff h a b).1 h3)]
    exact (h1 c d).1
  rw [jaccardFloat_eq R D h a b, jaccardFloat_eq R D h c d, if_neg e1, if_neg e2]
  rw [C07_jaccard_formula h, C07_jaccard_formula h, if_neg e1, if_neg e2] at hle
  have i1 : (frameSet key a ∩ frameSet key b).card ≤ (frameSet key a ∪ frameSet key b).card :=
    Finset.card_le_card (Finset.inter_subset_union)
  have i2 : (frameSet key c ∩ frameSet key d).card ≤ (frameSet key c ∪ frameSet key d).card :=
    Finset.card_le_card (Finset.inter_subset_union)
  unfold jaccardValue
  rw [R.keeps_nat _ hab, R.keeps_nat _ hcd, R.keeps_nat _ (i1.trans hab), R.keeps_nat _ (i2.trans hcd)]
  apply R.mono
  apply D.mono
  have := R.mono _ _ (show ((frameSet key c ∩ frameSet key d).card : Rat) / (frameSet key c ∪ frameSet key d).card ≤
    ((frameSet key a ∩ frameSet key b).card : Rat) / (frameSet key a ∪ frameSet key b).card by linarith)
  linarith

end

/-- **C07, finding.** Beyond 2^24 frames the numbers of frames are not `float`s any more: with any rounding that takes 2^24 + 1 to
2^24 (rounding to nearest does), two threads that differ in a frame have distance 0. -/
theorem C07_not_float_zero (hR : R.rnd (2 ^ 24 + 1) = 2 ^ 24) : ∃ a b : List Nat,
    frameSet id a ≠ frameSet id b ∧ jaccardFloat R D (fun x y : Nat => x == y) a b = 0 := by
  have hk : ByKey (fun x y : Nat => x == y) id := fun x y => by simp
  have hs : ∀ n, frameSet (id : Nat → Nat) (List.range n) = Finset.range n := by
    intro n
    ext x
    simp [frameSet]
  refine ⟨List.range (2 ^ 24), List.range (2 ^ 24 + 1), ?_, ?_⟩
  · rw [hs, hs]
    intro e
    have := congrArg Finset.card e
    rw [Finset.card_range, Finset.card_range] at this
    omega
  · rw [jaccardFloat_eq R D hk, hs, hs]
    have hsub : Finset.range (2 ^ 24) ⊆ Finset.range (2 ^ 24 + 1) := by
      intro x hx
      rw [Finset.mem_range] at hx ⊢
      omega
    rw [Finset.inter_eq_left.2 hsub, Finset.union_eq_right.2 hsub, Finset.card_range, Finset.card_range]
    split
    · rfl
    · unfold jaccardValue
      rw [R.keeps_nat _ (le_refl _)]
      have e1 : ((2 ^ 24 + 1 : Nat) : Rat) = 2 ^ 24 + 1 := by norm_num
      have e2 : ((2 ^ 24 : Nat) : Rat) = 2 ^ 24 := by norm_num
      rw [e1, e2, hR, div_self (by norm_num), R.one, sub_self, D.zero, R.zero]

/-- Rounding to nearest is such a rounding. -/
example : float32.rnd (2 ^ 24 + 1) = 2 ^ 24 := by decide +kernel

/-- Non-vacuity. -/
example : ByKey (fun x y : Nat => x == y) id ∧ (frameSet id [1, 2, 3] ∪ frameSet (id : Nat → Nat) [2, 3]).card ≤ 2 ^ 24 ∧
    jaccardFloat float32 float64 (fun x y : Nat => x == y) [1, 2, 3] [2, 3] = 5592405 / 16777216 := by
  refine ⟨fun x y => by simp, by decide, ?_⟩
  decide +kernel

/-! ## Jaro-Winkler (C08) -/

/-- The counters as `float`s. -/
def JW.toFloat (s : JW) : JWFloat :=
  { prefixLen := s.prefixLen, stillPrefix := s.stillPrefix, trans := s.trans, matches_ := s.matches_ }

/-- Up to 2^24 the counters are exact. -/
theorem jwOuterFloat_eq (mx : Nat) (b : List F) (a : List F) (i : Nat) (s : JW) (h1 : s.trans + a.length ≤ 2 ^ 24)
    (h2 : s.matches_ + a.length ≤ 2 ^ 24) :
    jwOuterFloat R eq mx b a i s.toFloat = (jwOuter eq mx b a i s).toFloat := by
  induction a generalizing i s with
  | nil => rfl
  | cons x a ih =>
    unfold jwOuterFloat jwOuter
    simp only [List.length_cons] at h1 h2
    have e : ∀ n : Nat, n + 1 ≤ 2 ^ 24 → R.rnd ((n : Rat) + 1) = ((n + 1 : Nat) : Rat) := by
      intro n hn
      have := R.keeps_nat (n + 1) hn
      rw [← this]
      push_cast
      rfl
    rw [← ih]
    · refine congrArg (jwOuterFloat R eq mx b a (i + 1)) ?_
      unfold JW.toFloat
      simp only [JWFloat.mk.injEq, true_and]
      constructor
      · split
        · exact e _ (by omega)
        · rfl
      · split
        · exact e _ (by omega)
        · rfl
    · simp only
      split <;> omega
    · simp only
      split <;> omega

theorem jaroWinklerFloat_eq (a b : List F) (ha : a.length ≤ 2 ^ 24) : jaroWinklerFloat R D eq a b =
    if a = [] ∧ b = [] then 1 else scoreFloat R D a.length b.length (counters eq a b).toFloat := by
  unfold jaroWinklerFloat
  have hmx : (if b.length < a.length then a.length else b.length) = max a.length b.length := by split <;> omega
  rw [hmx]
  simp only [List.length_eq_zero_iff]
  unfold counters
  rw [← jwOuterFloat_eq R _ _ _ _ _ (by simpa using ha) (by simpa using ha)]
  unfold JW.toFloat
  simp only [Nat.cast_zero]

/-- The weight of the prefix: `k` is between 3/16 and 13/64. -/
theorem weight_bounds : 3 / 16 ≤ R.rnd (D.rnd (1 / 5)) ∧ R.rnd (D.rnd (1 / 5)) ≤ 13 / 64 := by
  have a1 : ∀ {p : Nat} (S : Rounding p), 4 ≤ p → S.rnd (3 / 16) = 3 / 16 := by
    intro p S hp
    have h16 : (2 : Int) ^ 4 ≤ 2 ^ p := by exact_mod_cast Nat.pow_le_pow_right (by norm_num) hp
    have := S.keeps 3 (-4) (by rw [abs_of_nonneg (by norm_num)]; omega) (by norm_num) (by norm_num)
    norm_num at this ⊢
    exact this
  have a2 : ∀ {p : Nat} (S : Rounding p), 4 ≤ p → S.rnd (13 / 64) = 13 / 64 := by
    intro p S hp
    have h16 : (2 : Int) ^ 4 ≤ 2 ^ p := by exact_mod_cast Nat.pow_le_pow_right (by norm_num) hp
    have := S.keeps 13 (-6) (by rw [abs_of_nonneg (by norm_num)]; omega) (by norm_num) (by norm_num)
    norm_num at this ⊢
    exact this
  constructor
  · rw [← a1 R (by norm_num)]
    apply R.mono
    rw [← a1 D (by norm_num)]
    exact D.mono _ _ (by norm_num)
  · rw [← a2 R (by norm_num)]
    apply R.mono
    rw [← a2 D (by norm_num)]
    exact D.mono _ _ (by norm_num)

/-- The weighted prefix is at most 13/16. -/
theorem prefix_float (n : Nat) : 0 ≤ R.rnd (R.rnd ((if n > 4 then 4 else n : Nat) : Rat) * R.rnd (D.rnd (1 / 5))) ∧
    R.rnd (R.rnd ((if n > 4 then 4 else n : Nat) : Rat) * R.rnd (D.rnd (1 / 5))) ≤ 13 / 16 := by
  obtain ⟨h1, h2⟩ := weight_bounds R D
  have h : (if n > 4 then 4 else n) ≤ 4 := by split <;> omega
  rw [R.keeps_nat _ (by omega)]
  have h4 : ((if n > 4 then 4 else n : Nat) : Rat) ≤ 4 := by exact_mod_cast h
  have h0 : (0 : Rat) ≤ ((if n > 4 then 4 else n : Nat) : Rat) := Nat.cast_nonneg _
  generalize ((if n > 4 then 4 else n : Nat) : Rat) = q at *
  generalize R.rnd (D.rnd (1 / 5)) = k at *
  refine ⟨R.nonneg (by nlinarith), ?_⟩
  have e : R.rnd (13 / 16) = 13 / 16 := by
    have := R.keeps 13 (-4) (by norm_num) (by norm_num) (by norm_num)
    norm_num at this ⊢
    exact this
  rw [← e]
  exact R.mono _ _ (by nlinarith)

/-- The Jaro similarity of given counters. -/
def jaroFloat (la lb : Nat) (m t : Nat) : Rat :=
  R.rnd (R.rnd (R.rnd (R.rnd (m / R.rnd la) + R.rnd (m / R.rnd lb)) + R.rnd (R.rnd (m - R.rnd (t / 2)) / m)) / 3)

theorem scoreFloat_eq (la lb : Nat) (s : JW) : scoreFloat R D la lb s.toFloat =
    if s.matches_ = 0 then 0 else
      R.rnd (jaroFloat R la lb s.matches_ s.trans + R.rnd (R.rnd (R.rnd ((if s.prefixLen > 4 then 4 else s.prefixLen : Nat) : Rat) *
        R.rnd (D.rnd (1 / 5))) * R.rnd (1 - jaroFloat R la lb s.matches_ s.trans))) := by
  unfold scoreFloat JW.toFloat jaroFloat
  simp only [Nat.cast_eq_zero]

theorem jaroFloat_range {la lb m t : Nat} (hm : 0 < m) (ht : t ≤ m) (ha : m ≤ la) (hb : m ≤ lb) (hm' : m ≤ 2 ^ 24) :
    0 ≤ jaroFloat R la lb m t ∧ jaroFloat R la lb m t ≤ 1 := by
  have hm0 : (0 : Rat) < m := by exact_mod_cast hm
  have htm : (t : Rat) ≤ m := by exact_mod_cast ht
  have ht0 : (0 : Rat) ≤ t := Nat.cast_nonneg _
  have q : ∀ n : Nat, m ≤ n → 0 ≤ R.rnd (m / R.rnd n) ∧ R.rnd (m / R.rnd n) ≤ 1 := by
    intro n hn
    exact R.div_range hm0.le (R.ge_nat hm' (by exact_mod_cast hn))
  obtain ⟨a0, a1⟩ := q la ha
  obtain ⟨b0, b1⟩ := q lb hb
  have ht2 : R.rnd (t / 2) ≤ m := R.le_nat hm' (by linarith)
  have ht3 : 0 ≤ R.rnd (t / 2) := R.nonneg (by linarith)
  have c1 : R.rnd (m - R.rnd (t / 2)) ≤ m := R.le_nat hm' (by linarith)
  have c0 : 0 ≤ R.rnd (m - R.rnd (t / 2)) := R.nonneg (by linarith)
  obtain ⟨d0, d1⟩ := R.div_range c0 c1
  unfold jaroFloat
  generalize R.rnd (m / R.rnd la) = x at *
  generalize R.rnd (m / R.rnd lb) = y at *
  generalize R.rnd (R.rnd (m - R.rnd (t / 2)) / m) = z at *
  have s1 : R.rnd (x + y) ≤ 2 := by
    have := R.le_nat (x := x + y) (n := 2) (by norm_num) (by push_cast; linarith)
    exact_mod_cast this
  have s0 : 0 ≤ R.rnd (x + y) := R.nonneg (by linarith)
  have u1 : R.rnd (R.rnd (x + y) + z) ≤ 3 := by
    have := R.le_nat (x := R.rnd (x + y) + z) (n := 3) (by norm_num) (by push_cast; linarith)
    exact_mod_cast this
  have u0 : 0 ≤ R.rnd (R.rnd (x + y) + z) := R.nonneg (by linarith)
  exact ⟨R.nonneg (by linarith), R.le_one (by linarith)⟩

theorem scoreFloat_nonneg (la lb : Nat) (s : JW) (hs : s.trans ≤ s.matches_) (ha : s.matches_ ≤ la) (hb : s.matches_ ≤ lb)
    (hm : s.matches_ ≤ 2 ^ 24) : 0 ≤ scoreFloat R D la lb s.toFloat := by
  rw [scoreFloat_eq]
  split
  · exact le_refl _
  · next h0 =>
    obtain ⟨j0, j1⟩ := jaroFloat_range R (Nat.pos_of_ne_zero h0) hs ha hb hm
    obtain ⟨w0, -⟩ := prefix_float R D s.prefixLen
    have e0 : 0 ≤ R.rnd (1 - jaroFloat R la lb s.matches_ s.trans) := R.nonneg (by linarith)
    exact R.nonneg (add_nonneg j0 (R.nonneg (mul_nonneg w0 e0)))

theorem scoreFloat_le_one (la lb : Nat) (s : JW) (hs : s.trans ≤ s.matches_) (ha : s.matches_ ≤ la) (hb : s.matches_ ≤ lb)
    (hm : s.matches_ ≤ 2 ^ 24) : scoreFloat R D la lb s.toFloat ≤ 1 := by
  rw [scoreFloat_eq]
  split
  · exact zero_le_one
  · next h0 =>
    obtain ⟨j0, j1⟩ := jaroFloat_range R (Nat.pos_of_ne_zero h0) hs ha hb hm
    obtain ⟨w0, w1⟩ := prefix_float R D s.prefixLen
    generalize R.rnd (R.rnd ((if s.prefixLen > 4 then 4 else s.prefixLen : Nat) : Rat) * R.rnd (D.rnd (1 / 5))) = w at *
    have hj : jaroFloat R la lb s.matches_ s.trans = 1 ∨ jaroFloat R la lb s.matches_ s.trans ≤ 1 - 1 / 2 ^ 24 := by
      rcases (show 1 ≤ jaroFloat R la lb s.matches_ s.trans ∨ jaroFloat R la lb s.matches_ s.trans ≤ 1 - 1 / 2 ^ 24 ∨
          jaroFloat R la lb s.matches_ s.trans ≤ 1 / 2 from R.one_or_below _) with h | h | h
      · exact .inl (le_antisymm j1 h)
      · exact .inr h
      · right
        norm_num at h ⊢
        linarith
    generalize jaroFloat R la lb s.matches_ s.trans = j at *
    rcases hj with rfl | hj
    · rw [sub_self, R.zero, mul_zero, R.zero, add_zero]
      exact R.one.le
    · apply R.le_one
      -- both roundings are much smaller than the part that the weight takes away
      have d1 : (1 : Rat) / 2 ^ 24 ≤ 1 - j := by linarith
      have e1 := R.error (x := 1 - j) (le_trans (by norm_num) d1) (by norm_num; linarith) (by norm_num) (by norm_num)
      have f0 : 0 ≤ R.rnd (1 - j) := R.nonneg (by linarith)
      have f1 : R.rnd (1 - j) ≤ (1 - j) * (17 / 16) := by
        rw [abs_le] at e1
        norm_num at e1
        linarith
      have g0 : w * R.rnd (1 - j) ≤ (1 - j) * (221 / 256) := by nlinarith
      have g1 : R.rnd (w * R.rnd (1 - j)) ≤ R.rnd ((1 - j) * (221 / 256)) := R.mono _ _ g0
      have e2 := R.error (x := (1 - j) * (221 / 256)) (by norm_num at d1 ⊢; linarith) (by norm_num; linarith) (by norm_num) (by norm_num)
      have g2 : R.rnd ((1 - j) * (221 / 256)) ≤ 1 - j := by
        rw [abs_le] at e2
        norm_num at e2 ⊢
        linarith
      linarith

/-- **C08 (partial).** As a `float`, whatever the rounding mode: in [0, 1], provided the frames of the first thread are pairwise
different and there are at most 2^24 of them. Missing: false for repeated frames, see `C08_not_float_at_most_one`. -/
theorem C08_float_range_partial (hs : ∀ x y, eq x y = true → eq y x = true)
    (ht : ∀ x y z, eq x y = true → eq y z = true → eq x z = true) (a b : List F)
    (hd : a.Pairwise fun x y => eq x y = false) (ha : a.length ≤ 2 ^ 24) :
    0 ≤ jaroWinklerFloat R D eq a b ∧ jaroWinklerFloat R D eq a b ≤ 1 := by
  rw [jaroWinklerFloat_eq R D a b ha]
  split
  · exact ⟨zero_le_one, le_refl _⟩
  · have h := jwOuter_bounds (eq := eq) (mx := max a.length b.length) (b := b) a 1
      { prefixLen := 0, stillPrefix := true, trans := 0, matches_ := 0 } (by simp)
    have h1 := common_le (eq := eq) a b
    have h2 := common_le_right hs ht a b hd
    have hm : (counters eq a b).matches_ ≤ common eq a b := by
      unfold counters
      simpa using h.2
    exact ⟨scoreFloat_nonneg R D _ _ _ h.1 (by omega) (by omega) (by omega), scoreFloat_le_one R D _ _ _ h.1 (by omega) (by omega) (by omega)⟩

/-- **C08.** As a `float`: 0 if no frame of one thread equals a frame of the other (and not both are empty). -/
theorem C08_float_zero_if_nothing_equal (a b : List F) (hne : ¬ (a = [] ∧ b = [])) (ha : a.length ≤ 2 ^ 24)
    (h : ∀ x ∈ a, ∀ y ∈ b, eq x y = false) : jaroWinklerFloat R D eq a b = 0 := by
  rw [jaroWinklerFloat_eq R D a b ha, if_neg hne, scoreFloat_eq]
  have hb := (jwOuter_bounds (eq := eq) (mx := max a.length b.length) (b := b) a 1
      { prefixLen := 0, stillPrefix := true, trans := 0, matches_ := 0 } (by simp)).2
  have hc : common eq a b = 0 := by
    unfold common
    rw [List.length_eq_zero_iff, List.filter_eq_nil_iff]
    intro x hx hany
    obtain ⟨y, hy, e⟩ := List.any_eq_true.1 hany
    rw [h x hx y hy] at e; simp at e
  have : (counters eq a b).matches_ = 0 := by unfold counters; simp only at hb; omega
  rw [if_pos this]

/-- **C08 (partial).** As a `float`: exactly 1 for threads of equal length >= 2 with pairwise equal frames, if the frames within a
thread are pairwise different. Missing: false otherwise, see `C08_not_one_for_identical`. -/
theorem C08_float_one_if_identical_partial (hsym : ∀ x y, eq x y = true → eq y x = true)
    (htr : ∀ x y z, eq x y = true → eq y z = true → eq x z = true) (a b : List F) (hlen : 2 ≤ a.length)
    (ha : a.length ≤ 2 ^ 24) (hsame : Levenshtein.Same eq a b) (hd : b.Pairwise fun x y => eq x y = false) :
    jaroWinklerFloat R D eq a b = 1 := by
  have hab : a.length = b.length := by
    clear hlen hd ha
    induction hsame with
    | nil => rfl
    | cons _ _ ih => simp [ih]
  rw [jaroWinklerFloat_eq R D a b ha, if_neg (by rintro ⟨rfl, -⟩; simp at hlen), scoreFloat_eq]
  have h := jwOuter_same (eq := eq) (mx := max a.length b.length) (by omega) (pre := []) (pre' := []) 1 rfl rfl hsame
    (by
      intro p q x y h1 _ h3 z hz
      by_contra hc
      have hc : eq x z = true := by simpa using hc
      simp only [List.nil_append] at h1
      rw [h1, List.pairwise_append] at hd
      have := hd.2.2 z hz y (by simp)
      rw [htr z x y (hsym _ _ hc) h3] at this; simp at this)
    { prefixLen := 0, stillPrefix := true, trans := 0, matches_ := 0 } rfl rfl
  simp only [List.nil_append, Nat.zero_add] at h
  unfold counters
  have hpos : (a.length : Rat) ≠ 0 := by
    have : a.length ≠ 0 := by omega
    exact_mod_cast this
  have hj : jaroFloat R a.length b.length a.length 0 = 1 := by
    unfold jaroFloat
    rw [← hab, R.keeps_nat _ ha]
    simp only [Nat.cast_zero, zero_div, R.zero, sub_zero, R.keeps_nat _ ha, div_self hpos, R.one]
    have e2 : R.rnd (1 + 1) = 2 := by
      have := R.keeps_nat 2 (by norm_num)
      norm_num at this ⊢
      exact this
    have e3 : R.rnd (2 + 1) = 3 := by
      have := R.keeps_nat 3 (by norm_num)
      norm_num at this ⊢
      exact this
    rw [e2, e3, div_self (by norm_num), R.one]
  simp only [h.1, h.2]
  rw [if_neg (by omega), hj, sub_self, R.zero, mul_zero, R.zero, add_zero, R.one]

/-- The error of the Jaro similarity, in units of 2^-24. -/
theorem jaroFloat_error {la lb m t : Nat} (hm : 0 < m) (ht : t ≤ m) (ha : m ≤ la) (hb : m ≤ lb) (hla : la ≤ 2 ^ 23) (hlb : lb ≤ 2 ^ 23) :
    |jaroFloat R la lb m t - ((m : Rat) / la + (m : Rat) / lb + ((m : Rat) - (t : Rat) / 2) / m) / 3| ≤ 4 / 2 ^ 24 := by
  have hm0 : (0 : Rat) < m := by exact_mod_cast hm
  have htm : (t : Rat) ≤ m := by exact_mod_cast ht
  have ht0 : (0 : Rat) ≤ t := Nat.cast_nonneg _
  have half : ∀ n : Nat, n ≤ 2 ^ 24 → R.rnd ((n : Rat) / 2) = (n : Rat) / 2 := by
    intro n hn
    have := R.keeps n (-1) (by rw [abs_of_nonneg (by positivity)]; exact_mod_cast hn) (by norm_num) (by norm_num)
    rw [zpow_neg_one, ← div_eq_mul_inv, Int.cast_natCast] at this
    exact this
  have e1 : R.rnd ((t : Rat) / 2) = (t : Rat) / 2 := half t (by omega)
  have e2 : R.rnd ((m : Rat) - (t : Rat) / 2) = (m : Rat) - (t : Rat) / 2 := by
    have := half (2 * m - t) (by omega)
    have e : ((2 * m - t : Nat) : Rat) / 2 = (m : Rat) - (t : Rat) / 2 := by
      rw [Nat.cast_sub (by omega)]
      push_cast
      ring
    rwa [e] at this
  have unit : ∀ x : Rat, 0 ≤ x → x ≤ 1 → |R.rnd x - x| ≤ 1 / 2 ^ 24 := by
    intro x h0 h1
    have := R.abs_error h0 0 (by rw [zpow_zero]; exact h1) (by norm_num) (by norm_num) (by norm_num)
    rwa [zpow_zero] at this
  have q : ∀ n : Nat, m ≤ n → 0 ≤ (m : Rat) / n ∧ (m : Rat) / n ≤ 1 := by
    intro n hn
    have : (m : Rat) ≤ n := by exact_mod_cast hn
    exact ⟨by positivity, div_le_one_of_le₀ this (Nat.cast_nonneg _)⟩
  unfold jaroFloat
  rw [R.keeps_nat la (by omega), R.keeps_nat lb (by omega), e1, e2]
  obtain ⟨a0, a1⟩ := q la ha
  obtain ⟨b0, b1⟩ := q lb hb
  have c0 : (0 : Rat) ≤ ((m : Rat) - (t : Rat) / 2) / m := div_nonneg (by linarith) hm0.le
  have c1 : ((m : Rat) - (t : Rat) / 2) / m ≤ 1 := div_le_one_of_le₀ (by linarith) hm0.le
  generalize (m : Rat) / la = x at *
  generalize (m : Rat) / lb = y at *
  generalize ((m : Rat) - (t : Rat) / 2) / m = z at *
  have ex := unit x a0 a1
  have ey := unit y b0 b1
  have ez := unit z c0 c1
  have x1 := R.le_one a1
  have y1 := R.le_one b1
  have z1 := R.le_one c1
  have x0 := R.nonneg a0
  have y0 := R.nonneg b0
  have z0 := R.nonneg c0
  generalize R.rnd x = x' at *
  generalize R.rnd y = y' at *
  generalize R.rnd z = z' at *
  have es := R.abs_error (x := x' + y') (by linarith) 1 (by norm_num; linarith) (by norm_num) (by norm_num) (by norm_num)
  have s1 : R.rnd (x' + y') ≤ 2 := by
    have := R.le_nat (x := x' + y') (n := 2) (by norm_num) (by push_cast; linarith)
    exact_mod_cast this
  have s0 : 0 ≤ R.rnd (x' + y') := R.nonneg (by linarith)
  generalize R.rnd (x' + y') = v at *
  have eu := R.abs_error (x := v + z') (by linarith) 2 (by norm_num; linarith) (by norm_num) (by norm_num) (by norm_num)
  have u1 : R.rnd (v + z') ≤ 3 := by
    have := R.le_nat (x := v + z') (n := 3) (by norm_num) (by push_cast; linarith)
    exact_mod_cast this
  have u0 : 0 ≤ R.rnd (v + z') := R.nonneg (by linarith)
  generalize R.rnd (v + z') = u at *
  have ew := unit (u / 3) (by linarith) (by linarith)
  generalize R.rnd (u / 3) = w at *
  rw [abs_le] at *
  norm_num at *
  constructor <;> linarith

/-- **C08 (partial).** The `float` is never more than 15 * 2^-24 (less than a millionth) from the exact similarity, for threads of up to
2^23 frames, if the frames of the first thread are pairwise different. -/
theorem C08_float_error_partial (hs : ∀ x y, eq x y = true → eq y x = true)
    (ht : ∀ x y z, eq x y = true → eq y z = true → eq x z = true) (a b : List F)
    (hd : a.Pairwise fun x y => eq x y = false) (ha : a.length ≤ 2 ^ 23) (hb : b.length ≤ 2 ^ 23) :
    |jaroWinklerFloat R D eq a b - jaroWinkler eq a b| ≤ 15 / 2 ^ 24 := by
  rw [jaroWinklerFloat_eq R D a b (by omega), jaroWinkler_eq]
  split
  · norm_num
  have h := jwOuter_bounds (eq := eq) (mx := max a.length b.length) (b := b) a 1
    { prefixLen := 0, stillPrefix := true, trans := 0, matches_ := 0 } (by simp)
  have h1 := common_le (eq := eq) a b
  have h2 := common_le_right hs ht a b hd
  have hm : (counters eq a b).matches_ ≤ common eq a b := by
    unfold counters
    simpa using h.2
  have htr : (counters eq a b).trans ≤ (counters eq a b).matches_ := h.1
  rw [scoreFloat_eq]
  unfold score
  simp only
  generalize counters eq a b = s at *
  split
  · norm_num
  next h0 =>
  have ej := jaroFloat_error R (Nat.pos_of_ne_zero h0) htr (by omega : s.matches_ ≤ a.length) (by omega : s.matches_ ≤ b.length) ha hb
  obtain ⟨j0, j1⟩ := jaroFloat_range R (Nat.pos_of_ne_zero h0) htr (by omega : s.matches_ ≤ a.length)
    (by omega : s.matches_ ≤ b.length) (by omega)
  have hx1 : ((s.matches_ : Rat) / a.length + (s.matches_ : Rat) / b.length + ((s.matches_ : Rat) - (s.trans : Rat) / 2) / s.matches_) / 3 ≤ 1 := by
    have hpos : (0 : Rat) < s.matches_ := by exact_mod_cast Nat.pos_of_ne_zero h0
    have ht0 : (0 : Rat) ≤ s.trans := Nat.cast_nonneg _
    have a1 : (s.matches_ : Rat) / a.length ≤ 1 := div_le_one_of_le₀ (by exact_mod_cast (by omega : s.matches_ ≤ a.length)) (Nat.cast_nonneg _)
    have a2 : (s.matches_ : Rat) / b.length ≤ 1 := div_le_one_of_le₀ (by exact_mod_cast (by omega : s.matches_ ≤ b.length)) (Nat.cast_nonneg _)
    have a3 : ((s.matches_ : Rat) - (s.trans : Rat) / 2) / s.matches_ ≤ 1 := div_le_one_of_le₀ (by linarith) (le_of_lt hpos)
    linarith
  have hx0 : 0 ≤ ((s.matches_ : Rat) / a.length + (s.matches_ : Rat) / b.length + ((s.matches_ : Rat) - (s.trans : Rat) / 2) / s.matches_) / 3 := by
    have hpos : (0 : Rat) < s.matches_ := by exact_mod_cast Nat.pos_of_ne_zero h0
    have htm : (s.trans : Rat) ≤ s.matches_ := by exact_mod_cast htr
    have ht0 : (0 : Rat) ≤ s.trans := Nat.cast_nonneg _
    have a1 : 0 ≤ (s.matches_ : Rat) / a.length := by positivity
    have a2 : 0 ≤ (s.matches_ : Rat) / b.length := by positivity
    have a3 : 0 ≤ ((s.matches_ : Rat) - (s.trans : Rat) / 2) / s.matches_ := div_nonneg (by linarith) (le_of_lt hpos)
    linarith
  generalize ((s.matches_ : Rat) / a.length + (s.matches_ : Rat) / b.length + ((s.matches_ : Rat) - (s.trans : Rat) / 2) / s.matches_) / 3 = x at *
  generalize jaroFloat R a.length b.length s.matches_ s.trans = j at *
  have hp : (if s.prefixLen > 4 then 4 else s.prefixLen) ≤ 4 := by split <;> omega
  have hw := prefix_float R D s.prefixLen
  rw [R.keeps_nat _ (by omega)] at hw ⊢
  have p4 : ((if s.prefixLen > 4 then 4 else s.prefixLen : Nat) : Rat) ≤ 4 := by exact_mod_cast hp
  have p0 : (0 : Rat) ≤ ((if s.prefixLen > 4 then 4 else s.prefixLen : Nat) : Rat) := Nat.cast_nonneg _
  generalize ((if s.prefixLen > 4 then 4 else s.prefixLen : Nat) : Rat) = p at *
  -- the weight
  have d1 := D.abs_error (x := 1 / 5) (by norm_num) (-2) (by norm_num) (by norm_num) (by norm_num) (by norm_num)
  have d2 : D.rnd (1 / 5) ≤ 1 / 4 := by
    have := D.keeps_pow 2 (by norm_num)
    norm_num at this
    rw [← this]
    exact D.mono _ _ (by norm_num)
  have d3 := R.abs_error (x := D.rnd (1 / 5)) (D.nonneg (by norm_num)) (-2) (by norm_num; linarith) (by norm_num) (by norm_num) (by norm_num)
  have wb := weight_bounds R D
  generalize D.rnd (1 / 5) = k0 at *
  generalize R.rnd k0 = k at *
  have unit : ∀ x : Rat, 0 ≤ x → x ≤ 1 → |R.rnd x - x| ≤ 1 / 2 ^ 24 := by
    intro x h0 h1
    have := R.abs_error h0 0 (by rw [zpow_zero]; exact h1) (by norm_num) (by norm_num) (by norm_num)
    rwa [zpow_zero] at this
  have ek : |k - 1 / 5| ≤ 13 / 50 / 2 ^ 24 := by
    rw [abs_le] at *
    norm_num at d1 d3 ⊢
    constructor <;> linarith
  have pk0 : 0 ≤ p * k := mul_nonneg p0 (by linarith)
  have pk1 : p * k ≤ 1 := by nlinarith
  have ew := unit (p * k) pk0 pk1
  have epk : |p * k - p * (1 / 5)| ≤ 104 / 100 / 2 ^ 24 := by
    rw [← mul_sub, abs_mul, abs_of_nonneg p0]
    have : p * |k - 1 / 5| ≤ 4 * (13 / 50 / 2 ^ 24) := mul_le_mul p4 ek (abs_nonneg _) (by norm_num)
    norm_num at this ⊢
    linarith
  generalize R.rnd (p * k) = w at *
  have eww : |w - p * (1 / 5)| ≤ 204 / 100 / 2 ^ 24 := by
    rw [abs_le] at *
    norm_num at *
    constructor <;> linarith
  have y0 : 0 ≤ R.rnd (1 - j) := R.nonneg (by linarith)
  have y1 : R.rnd (1 - j) ≤ 1 := R.le_one (by linarith)
  have ey := unit (1 - j) (by linarith) (by linarith)
  generalize R.rnd (1 - j) = y at *
  have eyy : |y - (1 - x)| ≤ 5 / 2 ^ 24 := by
    rw [abs_le] at *
    norm_num at *
    constructor <;> linarith
  have wy0 : 0 ≤ w * y := mul_nonneg hw.1 y0
  have wy1 : w * y ≤ 1 := by nlinarith
  have ewy : |w * y - p * (1 / 5) * (1 - x)| ≤ 704 / 100 / 2 ^ 24 := by
    have e : w * y - p * (1 / 5) * (1 - x) = w * (y - (1 - x)) + (w - p * (1 / 5)) * (1 - x) := by ring
    rw [e]
    refine (abs_add_le _ _).trans ?_
    rw [abs_mul, abs_mul, abs_of_nonneg hw.1, abs_of_nonneg (by linarith : 0 ≤ 1 - x)]
    have a1 : w * |y - (1 - x)| ≤ 1 * (5 / 2 ^ 24) := mul_le_mul (by linarith [hw.2]) eyy (abs_nonneg _) (by norm_num)
    have a2 : |w - p * (1 / 5)| * (1 - x) ≤ 204 / 100 / 2 ^ 24 * 1 := mul_le_mul eww (by linarith) (by linarith) (by norm_num)
    norm_num at a1 a2 ⊢
    linarith
  have ez := unit (w * y) wy0 wy1
  have z0 := R.nonneg wy0
  have z1 := R.le_one wy1
  generalize R.rnd (w * y) = z at *
  have hsum : j + z ≤ 1 + 1 / 2 ^ 20 := by
    have : p * (1 / 5) * (1 - x) ≤ 4 / 5 * (1 - x) := mul_le_mul_of_nonneg_right (by linarith) (by linarith)
    rw [abs_le] at *
    norm_num at *
    linarith
  have ef := R.abs_error (x := j + z) (by linarith) 1 (by norm_num at hsum ⊢; linarith) (by norm_num) (by norm_num) (by norm_num)
  generalize R.rnd (j + z) = r at *
  rw [abs_le] at *
  norm_num at *
  constructor <;> linarith

/-- **C08, finding.** The `float` can exceed 1, whatever the rounding mode: four equal frames against a single one. -/
theorem C08_not_float_at_most_one : 1 < jaroWinklerFloat R D (fun x y : Nat => x == y) [1, 1, 1, 1] [1] := by
  rw [jaroWinklerFloat_eq R D _ _ (by norm_num), if_neg (by simp), scoreFloat_eq]
  have hc : counters (fun x y : Nat => x == y) [1, 1, 1, 1] [1] = { prefixLen := 4, stillPrefix := true, trans := 1, matches_ := 2 } := by
    decide +kernel
  rw [hc]
  rw [if_neg (by norm_num)]
  have grid : ∀ n k : Int, |n| ≤ 2 ^ 24 → -149 ≤ k → k ≤ 64 → R.rnd ((n : Rat) * 2 ^ k) = (n : Rat) * 2 ^ k := R.keeps
  have hj : 138 / 128 ≤ jaroFloat R 4 1 2 1 ∧ jaroFloat R 4 1 2 1 ≤ 139 / 128 := by
    have r4 : R.rnd (4 : Nat) = 4 := R.keeps_nat 4 (by norm_num)
    have r1 : R.rnd (1 : Nat) = 1 := by have := R.keeps_nat 1 (by norm_num); exact_mod_cast this
    have h12 : R.rnd (1 / 2) = 1 / 2 := by have := grid 1 (-1) (by norm_num) (by norm_num) (by norm_num); norm_num at this ⊢; exact this
    have h2 : R.rnd 2 = 2 := by have := grid 2 0 (by norm_num) (by norm_num) (by norm_num); norm_num at this ⊢; exact this
    have h32 : R.rnd (3 / 2) = 3 / 2 := by have := grid 3 (-1) (by norm_num) (by norm_num) (by norm_num); norm_num at this ⊢; exact this
    have h52 : R.rnd (5 / 2) = 5 / 2 := by have := grid 5 (-1) (by norm_num) (by norm_num) (by norm_num); norm_num at this ⊢; exact this
    have h34 : R.rnd (3 / 4) = 3 / 4 := by have := grid 3 (-2) (by norm_num) (by norm_num) (by norm_num); norm_num at this ⊢; exact this
    have h134 : R.rnd (13 / 4) = 13 / 4 := by have := grid 13 (-2) (by norm_num) (by norm_num) (by norm_num); norm_num at this ⊢; exact this
    have hv : jaroFloat R 4 1 2 1 = R.rnd (13 / 12) := by
      unfold jaroFloat
      rw [r4, r1]
      norm_num [h12, h2, h32, h52, h34, h134]
    rw [hv]
    have l := grid 138 (-7) (by norm_num) (by norm_num) (by norm_num)
    have u := grid 139 (-7) (by norm_num) (by norm_num) (by norm_num)
    norm_num at l u ⊢
    constructor
    · rw [← l]
      exact R.mono _ _ (by norm_num)
    · rw [← u]
      exact R.mono _ _ (by norm_num)
  simp only [List.length_cons, List.length_nil, Nat.zero_add]
  generalize jaroFloat R 4 1 2 1 = j at *
  have hw := prefix_float R D 4
  generalize R.rnd (R.rnd ((if 4 > 4 then 4 else 4 : Nat) : Rat) * R.rnd (D.rnd (1 / 5))) = w at *
  have hy : -11 / 128 ≤ R.rnd (1 - j) := by
    have l := grid (-11) (-7) (by norm_num) (by norm_num) (by norm_num)
    norm_num at l ⊢
    rw [← l]
    exact R.mono _ _ (by linarith)
  have hy' : R.rnd (1 - j) ≤ 0 := by rw [← R.zero]; exact R.mono _ _ (by linarith)
  generalize R.rnd (1 - j) = y at *
  have hz : -143 / 2048 ≤ R.rnd (w * y) := by
    have l := grid (-143) (-11) (by norm_num) (by norm_num) (by norm_num)
    norm_num at l ⊢
    rw [← l]
    exact R.mono _ _ (by nlinarith)
  generalize R.rnd (w * y) = z at *
  have l := grid 1025 (-10) (by norm_num) (by norm_num) (by norm_num)
  norm_num at l
  have : (1025 / 1024 : Rat) ≤ R.rnd (j + z) := by
    rw [← l]
    exact R.mono _ _ (by linarith)
  linarith

/-- Non-vacuity. -/
example : jaroWinklerFloat float32 float64 (fun x y : Nat => x == y) [1, 2, 3] [1, 2, 4] = 14540255 / 16777216 ∧
    ([1, 2, 3] : List Nat).Pairwise fun x y => (x == y) = false := by
  constructor <;> decide +kernel

end Satyr.Metrics
