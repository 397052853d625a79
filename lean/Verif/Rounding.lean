import Mathlib.Data.Int.Log
import Mathlib.Data.Rat.Floor
import Mathlib.Algebra.Order.Field.Basic
import Mathlib.Algebra.Order.Field.Power
import Mathlib.Algebra.Order.Ring.Rat
import Mathlib.Algebra.Field.Rat
import Mathlib.Tactic.Linarith
import Mathlib.Tactic.Ring
import Mathlib.Tactic.FieldSimp
import Mathlib.Tactic.NormNum
/-!
# Rounding of floating-point numbers

Arithmetic of `float` (precision 24) and `double` (precision 53) rounds the exact result of every operation. The only things that
are used of a rounding are that it does not change the order of numbers, that its results are numbers `n * 2^k` with at most `p`
bits in `n`, and that it keeps such numbers for exponents that `float` has. This holds for every rounding mode of IEEE 754, as long as
the numbers stay below 2^128 (`float`) and 2^1024 (`double`).
-/
namespace Satyr

/-- A rounding to numbers with `p` bits. -/
structure Rounding (p : Nat) where
  rnd : Rat → Rat
  mono : ∀ x y : Rat, x ≤ y → rnd x ≤ rnd y
  keeps : ∀ n k : Int, |n| ≤ 2 ^ p → -149 ≤ k → k ≤ 64 → rnd (n * 2 ^ k) = n * 2 ^ k
  fits : ∀ x, ∃ n k : Int, |n| ≤ 2 ^ p ∧ rnd x = n * 2 ^ k

namespace Rounding
variable {p : Nat} (R : Rounding p)

theorem keeps_int (n : Int) (h : |n| ≤ 2 ^ p) : R.rnd n = n := by
  have := R.keeps n 0 h (by norm_num) (by norm_num)
  simpa using this

theorem keeps_nat (n : Nat) (h : n ≤ 2 ^ p) : R.rnd n = n := by
  have := R.keeps_int (n : Int) (by rw [abs_of_nonneg (by positivity)]; exact_mod_cast h)
  simpa using this

theorem zero : R.rnd 0 = 0 := by have := R.keeps_nat 0 (Nat.zero_le _); simpa using this
theorem one : R.rnd 1 = 1 := by have := R.keeps_nat 1 Nat.one_le_two_pow; simpa using this

theorem nonneg {x : Rat} (h : 0 ≤ x) : 0 ≤ R.rnd x := by rw [← R.zero]; exact R.mono _ _ h
theorem le_one {x : Rat} (h : x ≤ 1) : R.rnd x ≤ 1 := by rw [← R.one]; exact R.mono _ _ h
theorem le_nat {x : Rat} {n : Nat} (hn : n ≤ 2 ^ p) (h : x ≤ n) : R.rnd x ≤ n := by rw [← R.keeps_nat n hn]; exact R.mono _ _ h
theorem ge_nat {x : Rat} {n : Nat} (hn : n ≤ 2 ^ p) (h : (n : Rat) ≤ x) : (n : Rat) ≤ R.rnd x := by
  rw [← R.keeps_nat n hn]; exact R.mono _ _ h

/-- The quotient of two numbers in order. -/
theorem div_range {x y : Rat} (h0 : 0 ≤ x) (h : x ≤ y) : 0 ≤ R.rnd (x / y) ∧ R.rnd (x / y) ≤ 1 :=
  ⟨R.nonneg (div_nonneg h0 (h0.trans h)), R.le_one (div_le_one_of_le₀ h (h0.trans h))⟩

/-- Powers of two are kept. -/
theorem keeps_pow (k : Nat) (hk : k ≤ 149) : R.rnd (1 / 2 ^ k) = 1 / 2 ^ k := by
  have := R.keeps 1 (-(k : Int)) (by rw [abs_one]; exact_mod_cast Nat.one_le_two_pow) (by omega) (by omega)
  rw [zpow_neg, zpow_natCast, Int.cast_one, one_mul, ← one_div] at this
  exact this

theorem ge_pow {x : Rat} {k : Nat} (hk : k ≤ 149) (h : 1 / 2 ^ k ≤ x) : 1 / 2 ^ k ≤ R.rnd x := by
  rw [← R.keeps_pow k hk]; exact R.mono _ _ h

/-- Numbers just below one are kept. -/
theorem keeps_below_one (k : Nat) (hk : k ≤ p) (hk' : k ≤ 149) : R.rnd (1 - 1 / 2 ^ k) = 1 - 1 / 2 ^ k := by
  have h2 : (1 : Int) ≤ 2 ^ k := by exact_mod_cast Nat.one_le_two_pow
  have h3 : (2 : Int) ^ k ≤ 2 ^ p := by exact_mod_cast Nat.pow_le_pow_right (by norm_num) hk
  have := R.keeps (2 ^ k - 1) (-(k : Int)) (by rw [abs_of_nonneg (by omega)]; omega) (by omega) (by omega)
  rw [zpow_neg, zpow_natCast] at this
  have e : (((2 : Int) ^ k - 1 : Int) : Rat) * ((2 : Rat) ^ k)⁻¹ = 1 - 1 / 2 ^ k := by
    have : (2 : Rat) ^ k ≠ 0 := by positivity
    push_cast
    field_simp
  rwa [e] at this

theorem le_below_one {x : Rat} {k : Nat} (hk : k ≤ p) (hk' : k ≤ 149) (h : x ≤ 1 - 1 / 2 ^ k) : R.rnd x ≤ 1 - 1 / 2 ^ k := by
  rw [← R.keeps_below_one k hk hk']; exact R.mono _ _ h

/-- The relative error is at most one unit in the last place. -/
theorem error {x : Rat} (h1 : 1 / 2 ^ 64 ≤ x) (h2 : x < 2 ^ 64) (hp : 1 ≤ p) (hp' : p ≤ 64) : |R.rnd x - x| ≤ x / 2 ^ (p - 1) := by
  have hx : (0 : Rat) < x := lt_of_lt_of_le (by positivity) h1
  set e := Int.log 2 x with he
  have hlo : (2 : Rat) ^ e ≤ x := by have := Int.zpow_log_le_self (b := 2) (by norm_num) hx; exact_mod_cast this
  have hhi : x < (2 : Rat) ^ (e + 1) := by have := Int.lt_zpow_succ_log_self (b := 2) (by norm_num) x; exact_mod_cast this
  have two : (1 : Rat) < 2 := by norm_num
  have b1 : -64 ≤ e := by
    by_contra hc
    have : e + 1 ≤ -64 := by omega
    have h3 : (2 : Rat) ^ (e + 1) ≤ 2 ^ (-64 : Int) := zpow_le_zpow_right₀ two.le this
    have h4 : (2 : Rat) ^ (-64 : Int) = 1 / 2 ^ 64 := by norm_num
    rw [h4] at h3
    linarith
  have b2 : e ≤ 63 := by
    by_contra hc
    have : (64 : Int) ≤ e := by omega
    have h3 : (2 : Rat) ^ (64 : Int) ≤ 2 ^ e := zpow_le_zpow_right₀ two.le this
    have h4 : (2 : Rat) ^ (64 : Int) = 2 ^ 64 := by norm_num
    rw [h4] at h3
    linarith
  set u := (2 : Rat) ^ (e + 1 - p) with hu
  have hu0 : 0 < u := by rw [hu]; exact zpow_pos (by norm_num) _
  set n := ⌊x / u⌋ with hn
  have hnlo : (n : Rat) * u ≤ x := by
    have := Int.floor_le (x / u)
    rw [le_div_iff₀ hu0] at this
    exact this
  have hnhi : x < (n + 1 : Rat) * u := by
    have := Int.lt_floor_add_one (x / u)
    rw [div_lt_iff₀ hu0] at this
    exact this
  have hn0 : 0 ≤ n := Int.floor_nonneg.2 (by positivity)
  have hup : u * 2 ^ p = 2 ^ (e + 1) := by
    rw [hu, ← zpow_natCast (2 : Rat) p, ← zpow_add₀ (by norm_num)]
    congr 1
    ring
  have hn1 : n < 2 ^ p := by
    have h3 : (n : Rat) * u < 2 ^ p * u := by
      rw [mul_comm ((2 : Rat) ^ p) u, hup]
      linarith
    have h4 : (n : Rat) < 2 ^ p := lt_of_mul_lt_mul_right h3 hu0.le
    exact_mod_cast h4
  have k1 := R.keeps n (e + 1 - p) (by rw [abs_of_nonneg hn0]; omega) (by omega) (by omega)
  have k2 := R.keeps (n + 1) (e + 1 - p) (by rw [abs_of_nonneg (by omega)]; omega) (by omega) (by omega)
  rw [← hu] at k1 k2
  have m1 := R.mono _ _ hnlo
  have m2 := R.mono _ _ (show x ≤ ((n + 1 : Int) : Rat) * u by push_cast; exact hnhi.le)
  rw [k1] at m1
  rw [k2] at m2
  push_cast at m2
  have hux : u ≤ x / 2 ^ (p - 1) := by
    rw [le_div_iff₀ (by positivity)]
    have : u * 2 ^ (p - 1) = 2 ^ e := by
      have h5 : (2 : Rat) ^ p = 2 ^ (p - 1) * 2 := by rw [← pow_succ]; congr 1; omega
      have h6 : u * 2 ^ (p - 1) * 2 = 2 ^ e * 2 := by
        rw [mul_assoc, ← h5, hup, zpow_add_one₀ (by norm_num)]
      linarith
    rw [this]
    exact hlo
  rw [abs_le]
  constructor <;> nlinarith

/-- The error below a power of two. -/
theorem abs_error {x : Rat} (h0 : 0 ≤ x) (e : Int) (hx : x ≤ 2 ^ e) (he : -64 ≤ e) (he' : e ≤ 64) (hp' : p ≤ 64) :
    |R.rnd x - x| ≤ 2 ^ e / 2 ^ p := by
  have hu : (2 : Rat) ^ e / 2 ^ p = 2 ^ (e - p) := by
    rw [zpow_sub₀ (by norm_num), zpow_natCast]
  rw [hu]
  have hu0 : (0 : Rat) < 2 ^ (e - p) := zpow_pos (by norm_num) _
  rcases eq_or_lt_of_le hx with rfl | hlt
  · have := R.keeps 1 e (by rw [abs_one]; exact_mod_cast Nat.one_le_two_pow) (by omega) he'
    rw [Int.cast_one, one_mul] at this
    rw [this, sub_self, abs_zero]
    exact hu0.le
  set u := (2 : Rat) ^ (e - p) with hu'
  set n := ⌊x / u⌋ with hn
  have hnlo : (n : Rat) * u ≤ x := by
    have := Int.floor_le (x / u)
    rw [le_div_iff₀ hu0] at this
    exact this
  have hnhi : x < (n + 1 : Rat) * u := by
    have := Int.lt_floor_add_one (x / u)
    rw [div_lt_iff₀ hu0] at this
    exact this
  have hn0 : 0 ≤ n := Int.floor_nonneg.2 (by positivity)
  have hup : u * 2 ^ p = 2 ^ e := by
    rw [← hu]
    exact div_mul_cancel₀ _ (by positivity)
  have hn1 : n < 2 ^ p := by
    have h3 : (n : Rat) * u < 2 ^ p * u := by
      rw [mul_comm ((2 : Rat) ^ p) u, hup]
      linarith
    have h4 : (n : Rat) < 2 ^ p := lt_of_mul_lt_mul_right h3 hu0.le
    exact_mod_cast h4
  have k1 := R.keeps n (e - p) (by rw [abs_of_nonneg hn0]; omega) (by omega) (by omega)
  have k2 := R.keeps (n + 1) (e - p) (by rw [abs_of_nonneg (by omega)]; omega) (by omega) (by omega)
  rw [← hu'] at k1 k2
  have m1 := R.mono _ _ hnlo
  have m2 := R.mono _ _ (show x ≤ ((n + 1 : Int) : Rat) * u by push_cast; exact hnhi.le)
  rw [k1] at m1
  rw [k2] at m2
  push_cast at m2
  rw [abs_le]
  constructor <;> nlinarith

/-- The largest number below one. -/
theorem one_or_below (x : Rat) : 1 ≤ R.rnd x ∨ R.rnd x ≤ 1 - 1 / 2 ^ p ∨ R.rnd x ≤ 1 / 2 := by
  obtain ⟨n, k, hn, e⟩ := R.fits x
  rw [e]
  rcases le_or_gt 1 ((n : Rat) * 2 ^ k) with h | h
  · exact .inl h
  right
  have hn' : n ≤ 2 ^ p := le_trans (le_abs_self n) hn
  by_cases hk : 0 ≤ k
  · obtain ⟨d, rfl⟩ := Int.eq_ofNat_of_zero_le hk
    rw [zpow_natCast] at h ⊢
    have : n * 2 ^ d < 1 := by exact_mod_cast h
    have : (n : Rat) * 2 ^ d ≤ 0 := by exact_mod_cast (by omega : n * 2 ^ d ≤ 0)
    right
    linarith
  · obtain ⟨d, hd⟩ := Int.eq_ofNat_of_zero_le (show 0 ≤ -k by omega)
    have hk' : k = -(d : Int) := by omega
    rw [hk', zpow_neg, zpow_natCast, ← div_eq_mul_inv] at h ⊢
    have h2 : (0 : Rat) < 2 ^ d := by positivity
    rw [div_lt_one h2] at h
    by_cases hdp : d ≤ p
    · left
      have h3 : n + 1 ≤ 2 ^ d := by exact_mod_cast h
      have h4 : (n : Rat) + 1 ≤ 2 ^ d := by exact_mod_cast h3
      have h5 : (2 : Rat) ^ d ≤ 2 ^ p := pow_le_pow_right₀ (by norm_num) hdp
      have h6 : (1 : Rat) / 2 ^ p ≤ 1 / 2 ^ d := one_div_le_one_div_of_le h2 h5
      have h7 : (n : Rat) / 2 ^ d ≤ 1 - 1 / 2 ^ d := by
        rw [div_le_iff₀ h2, sub_mul, one_div, inv_mul_cancel₀ h2.ne']
        linarith
      linarith
    · right
      rw [div_le_iff₀ h2]
      have h3 : (n : Rat) ≤ 2 ^ p := by exact_mod_cast hn'
      have h5 : (2 : Rat) ^ (p + 1) ≤ 2 ^ d := pow_le_pow_right₀ (by norm_num) (by omega)
      rw [pow_succ] at h5
      linarith

end Rounding

/-! ### The roundings of IEEE 754 -/

/-- The place of the last digit that fits. -/
def lastPlace (p : Nat) (x : Rat) : Int := max (Int.log 2 |x| + 1 - p) (-149)

/-- Rounding to an integer. -/
structure Snap where
  snap : Rat → Int
  mono : ∀ x y, x ≤ y → snap x ≤ snap y
  keeps : ∀ n : Int, snap n = n

namespace Snap
variable (g : Snap)

/-- Rounding a nonnegative number at its last place. -/
def at' (p : Nat) (x : Rat) : Rat := g.snap (x / 2 ^ lastPlace p x) * 2 ^ lastPlace p x

theorem zero : g.snap 0 = 0 := by
  have := g.keeps 0
  rwa [Int.cast_zero] at this

theorem nonneg {x : Rat} (h : 0 ≤ x) : 0 ≤ g.snap x := by
  have := g.mono _ _ h
  rw [g.zero] at this
  exact this

theorem at'_nonneg (p : Nat) (x : Rat) (h : 0 ≤ x) : 0 ≤ g.at' p x := by
  unfold at'
  have := g.nonneg (show 0 ≤ x / 2 ^ lastPlace p x by positivity)
  have : (0 : Rat) ≤ (g.snap (x / 2 ^ lastPlace p x) : Int) := by exact_mod_cast this
  positivity

theorem lastPlace_mono (p : Nat) {x y : Rat} (h0 : 0 < x) (h : x ≤ y) : lastPlace p x ≤ lastPlace p y := by
  unfold lastPlace
  have : Int.log 2 |x| ≤ Int.log 2 |y| := by
    rw [abs_of_pos h0, abs_of_pos (h0.trans_le h)]
    exact Int.log_mono_right h0 h
  omega

/-- Numbers on the grid stay. -/
theorem at'_grid (p : Nat) (x : Rat) (m : Int) (hm : x / 2 ^ lastPlace p x = m) : g.at' p x = x := by
  unfold at'
  rw [hm, g.keeps, ← hm]
  exact div_mul_cancel₀ _ (zpow_ne_zero _ (by norm_num))

/-- Representable nonnegative numbers. -/
theorem at'_keeps (p : Nat) (hp : 1 ≤ p) (n k : Int) (h0 : 0 ≤ n) (h : n ≤ 2 ^ p) (hk : -149 ≤ k) :
    g.at' p (n * 2 ^ k) = n * 2 ^ k := by
  have hle : n = 0 ∨ lastPlace p (n * 2 ^ k) ≤ k + (if n = 2 ^ p then 1 else 0) := by
    rcases eq_or_lt_of_le h0 with h1 | h1
    · exact .inl h1.symm
    · right
      have hpos : (0 : Rat) < n * 2 ^ k := mul_pos (by exact_mod_cast h1) (zpow_pos (by norm_num) _)
      unfold lastPlace
      rw [abs_of_pos hpos]
      have key : ∀ j : Int, (n : Rat) * 2 ^ k < 2 ^ (j + 1) → Int.log 2 ((n : Rat) * 2 ^ k) ≤ j := by
        intro j hj
        have := (Int.lt_zpow_iff_log_lt (b := 2) (by norm_num) hpos).1 (by exact_mod_cast hj)
        omega
      split
      · next e =>
        have := key (p + k) (by
          rw [e]
          push_cast
          rw [← zpow_natCast, ← zpow_add₀ (by norm_num)]
          exact zpow_lt_zpow_right₀ (by norm_num) (by omega))
        omega
      · next e =>
        have hlt : n < 2 ^ p := lt_of_le_of_ne h e
        have := key (p + k - 1) (by
          rw [sub_add_cancel, zpow_add₀ (by norm_num), zpow_natCast]
          apply mul_lt_mul_of_pos_right _ (zpow_pos (by norm_num) _)
          exact_mod_cast hlt)
        omega
  rcases hle with h1 | h1
  · subst h1
    simp [at', g.zero]
  · by_cases e : n = 2 ^ p
    · rw [if_pos e] at h1
      obtain ⟨d, hd⟩ := Int.eq_ofNat_of_zero_le (show 0 ≤ k + 1 - lastPlace p (n * 2 ^ k) by omega)
      obtain ⟨q, rfl⟩ : ∃ q, p = q + 1 := ⟨p - 1, by omega⟩
      apply g.at'_grid _ _ (2 ^ q * 2 ^ d)
      push_cast
      rw [← zpow_natCast (2 : Rat) d, ← hd, zpow_sub₀ (by norm_num), zpow_add_one₀ (by norm_num)]
      have e' : (n : Rat) = 2 ^ q * 2 := by rw [e]; push_cast; rw [pow_succ]
      generalize (2 : Rat) ^ lastPlace (q + 1) (n * 2 ^ k) = w
      rw [e']
      ring
    · rw [if_neg e] at h1
      obtain ⟨d, hd⟩ := Int.eq_ofNat_of_zero_le (show 0 ≤ k - lastPlace p (n * 2 ^ k) by omega)
      apply g.at'_grid _ _ (n * 2 ^ d)
      push_cast
      rw [mul_div_assoc, ← zpow_sub₀ (by norm_num), hd, zpow_natCast]

theorem at'_mono (p : Nat) (hp : 1 ≤ p) {x y : Rat} (h0 : 0 ≤ x) (h : x ≤ y) : g.at' p x ≤ g.at' p y := by
  rcases eq_or_lt_of_le h0 with rfl | hx
  · have : g.at' p 0 = 0 := by simp [at', g.zero]
    rw [this]
    exact g.at'_nonneg p y h
  have hy := hx.trans_le h
  have hu : (0 : Rat) < 2 ^ lastPlace p y := zpow_pos (by norm_num) _
  have hv : (0 : Rat) < 2 ^ lastPlace p x := zpow_pos (by norm_num) _
  have hl := lastPlace_mono p hx h
  rcases eq_or_lt_of_le hl with e | hlt
  · unfold at'
    rw [e]
    apply mul_le_mul_of_nonneg_right _ hu.le
    exact_mod_cast g.mono _ _ (div_le_div_of_nonneg_right h hu.le)
  · -- the power of two between them
    have hly : lastPlace p y = Int.log 2 y + 1 - p := by
      unfold lastPlace at hlt ⊢
      rw [abs_of_pos hy] at hlt ⊢
      omega
    have hlog : Int.log 2 x < Int.log 2 y := by
      unfold lastPlace at hlt
      rw [abs_of_pos hy, abs_of_pos hx] at hlt
      omega
    have h1 : x < (2 : Rat) ^ (Int.log 2 y) := by
      have := (Int.lt_zpow_iff_log_lt (b := 2) (by norm_num) hx).2 hlog
      exact_mod_cast this
    have h2 : (2 : Rat) ^ (Int.log 2 y) ≤ y := by
      have := Int.zpow_log_le_self (b := 2) (by norm_num) hy
      exact_mod_cast this
    have grid : ∀ w : Int, w ≤ Int.log 2 y → ∃ m : Int, (2 : Rat) ^ (Int.log 2 y) = m * 2 ^ w := by
      intro w hw
      obtain ⟨d, hd⟩ := Int.eq_ofNat_of_zero_le (show 0 ≤ Int.log 2 y - w by omega)
      refine ⟨2 ^ d, ?_⟩
      push_cast
      rw [← zpow_natCast, ← zpow_add₀ (by norm_num)]
      congr 1
      omega
    have h3 : (2 : Rat) ^ (Int.log 2 y) ≤ g.at' p y := by
      unfold at'
      obtain ⟨m, e⟩ := grid (lastPlace p y) (by omega)
      rw [e]
      apply mul_le_mul_of_nonneg_right _ hu.le
      have := g.mono m (y / 2 ^ lastPlace p y) (by rw [le_div_iff₀ hu, ← e]; exact h2)
      rw [g.keeps] at this
      exact_mod_cast this
    have h4 : g.at' p x ≤ (2 : Rat) ^ (Int.log 2 y) := by
      unfold at'
      obtain ⟨m, e⟩ := grid (lastPlace p x) (by omega)
      rw [e]
      apply mul_le_mul_of_nonneg_right _ hv.le
      have := g.mono (x / 2 ^ lastPlace p x) m (by rw [div_le_iff₀ hv, ← e]; exact h1.le)
      rw [g.keeps] at this
      exact_mod_cast this
    exact h4.trans h3

theorem at'_fits (p : Nat) {y : Rat} (hy : 0 ≤ y) : ∃ n k : Int, |n| ≤ 2 ^ p ∧ g.at' p y = n * 2 ^ k := by
  refine ⟨_, lastPlace p y, ?_, rfl⟩
  have hu : (0 : Rat) < 2 ^ lastPlace p y := zpow_pos (by norm_num) _
  rw [abs_of_nonneg (g.nonneg (by positivity))]
  have h1 : y / 2 ^ lastPlace p y ≤ ((2 ^ p : Int) : Rat) := by
    push_cast
    rcases eq_or_lt_of_le hy with e | hpos
    · rw [← e, zero_div]
      positivity
    rw [div_le_iff₀ hu]
    have h2 : y < (2 : Rat) ^ (Int.log 2 y + 1) := by
      have := Int.lt_zpow_succ_log_self (b := 2) (by norm_num) y
      exact_mod_cast this
    have h3 : (2 : Rat) ^ (Int.log 2 y + 1) ≤ 2 ^ (p + lastPlace p y : Int) := by
      apply zpow_le_zpow_right₀ (by norm_num)
      unfold lastPlace
      rw [abs_of_pos hpos]
      omega
    rw [zpow_add₀ (by norm_num) (p : Int) _, zpow_natCast] at h3
    linarith
  have := g.mono _ _ h1
  rwa [g.keeps] at this

/-- Rounding with the same rule for positive and negative numbers. -/
def rounding (p : Nat) (hp : 1 ≤ p) : Rounding p where
  rnd x := if 0 ≤ x then g.at' p x else -g.at' p (-x)
  mono x y h := by
    split <;> split
    · next hx hy => exact g.at'_mono p hp hx h
    · next hx hy => exact absurd (hx.trans h) hy
    · next hx hy => exact le_trans (neg_nonpos.2 (g.at'_nonneg p _ (by linarith))) (g.at'_nonneg p _ hy)
    · next hx hy => exact neg_le_neg (g.at'_mono p hp (by linarith) (by linarith))
  keeps n k h hk _ := by
    have hu : (0 : Rat) < 2 ^ k := zpow_pos (by norm_num) _
    split
    · next h0 =>
      have : 0 ≤ n := by
        have := nonneg_of_mul_nonneg_left h0 hu
        exact_mod_cast this
      exact g.at'_keeps p hp n k this (by rw [abs_of_nonneg this] at h; exact h) hk
    · next h0 =>
      have hn : n ≤ 0 := by
        by_contra hc
        exact h0 (mul_nonneg (by exact_mod_cast (by omega : 0 ≤ n)) hu.le)
      have := g.at'_keeps p hp (-n) k (by omega) (by rw [abs_of_nonpos hn] at h; exact h) hk
      push_cast at this
      rw [neg_mul] at this
      rw [this, neg_neg]
  fits x := by
    split
    · next h0 => exact g.at'_fits p h0
    · next h0 =>
      obtain ⟨n, k, hn, e⟩ := g.at'_fits p (y := -x) (by linarith)
      exact ⟨-n, k, by rw [abs_neg]; exact hn, by rw [e]; push_cast; ring⟩

/-- The value between two powers of two. -/
theorem rounding_value (p : Nat) (hp : 1 ≤ p) {x : Rat} (L : Int) (h1 : 2 ^ L ≤ x) (h2 : x < 2 ^ (L + 1)) (hL : -149 ≤ L + 1 - p) :
    (g.rounding p hp).rnd x = g.snap (x / 2 ^ (L + 1 - p)) * 2 ^ (L + 1 - p) := by
  have hx : (0 : Rat) < x := lt_of_lt_of_le (zpow_pos (by norm_num) _) h1
  have hl : Int.log 2 x = L := by
    have a : L ≤ Int.log 2 x := (Int.zpow_le_iff_le_log (b := 2) (by norm_num) hx).1 (by exact_mod_cast h1)
    have b : Int.log 2 x < L + 1 := (Int.lt_zpow_iff_log_lt (b := 2) (by norm_num) hx).1 (by exact_mod_cast h2)
    omega
  have : lastPlace p x = L + 1 - p := by
    unfold lastPlace
    rw [abs_of_pos hx, hl]
    omega
  simp only [rounding, hx.le, if_true, at', this]

end Snap

/-- Toward zero (for numbers that are not negative). -/
def floorSnap : Snap where
  snap x := ⌊x⌋
  mono _ _ h := Int.floor_le_floor h
  keeps n := Int.floor_intCast n

/-- To the nearest integer, halves to the even one. -/
def halfEven (x : Rat) : Int :=
  if x - ⌊x⌋ < 1 / 2 then ⌊x⌋ else if 1 / 2 < x - ⌊x⌋ then ⌊x⌋ + 1 else if ⌊x⌋ % 2 = 0 then ⌊x⌋ else ⌊x⌋ + 1

theorem halfEven_bounds (x : Rat) : ⌊x⌋ ≤ halfEven x ∧ halfEven x ≤ ⌊x⌋ + 1 := by
  unfold halfEven
  split
  · omega
  · split
    · omega
    · split <;> omega

def nearestSnap : Snap where
  snap := halfEven
  mono x y h := by
    have hf : ⌊x⌋ ≤ ⌊y⌋ := Int.floor_le_floor h
    rcases eq_or_lt_of_le hf with e | hlt
    · unfold halfEven
      rw [← e]
      by_cases a : x - ⌊x⌋ < 1 / 2
      · rw [if_pos a]
        split
        · omega
        · split
          · omega
          · split <;> omega
      · have b : ¬ (y - ⌊x⌋ < 1 / 2) := by intro hc; apply a; linarith
        rw [if_neg a, if_neg b]
        by_cases c : 1 / 2 < x - ⌊x⌋
        · have d : 1 / 2 < y - ⌊x⌋ := by linarith
          rw [if_pos c, if_pos d]
        · rw [if_neg c]
          split
          · split <;> omega
          · omega
    · have h1 := halfEven_bounds x
      have h2 := halfEven_bounds y
      omega
  keeps n := by
    unfold halfEven
    rw [Int.floor_intCast, sub_self, if_pos (by norm_num)]

/-- `float` in the rounding mode that programs start with. -/
def float32 : Rounding 24 := nearestSnap.rounding 24 (by decide)

/-- The significands of `double` in that mode. (The smallest exponent is the one of `float`; only numbers far from it are used.) -/
def float64 : Rounding 53 := nearestSnap.rounding 53 (by decide)

/-- A third as a `float`. -/
example : float32.rnd (1 / 3) = 11184811 / 33554432 := by
  rw [float32, Snap.rounding_value _ _ _ (-2) (by norm_num) (by norm_num) (by norm_num)]
  have : nearestSnap.snap (1 / 3 / 2 ^ ((-2 : Int) + 1 - (24 : Nat))) = 11184811 := by
    norm_num
    show halfEven _ = _
    decide +kernel
  rw [this]
  norm_num

end Satyr
