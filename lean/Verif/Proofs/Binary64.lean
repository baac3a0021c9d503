import Verif.Model.Float
import Mathlib.Algebra.Order.Round
import Mathlib.Data.Int.Log

/-! # IEEE 754 binary64 arithmetic with correctly rounded functions satisfies the error model

`f64` of Rust is binary64 with rounding to nearest, ties to even; here `ln` and `exp` are correctly rounded as well. Overflow to
infinity is not represented. -/

namespace NumPrime

/-- the nearest integer, ties to even -/
noncomputable def roundEven (y : ℝ) : ℤ := if Int.fract y = 1 / 2 then 2 * round (y / 2) else round y

/-- the nearest binary64 number (53 bit significand, least exponent -1074), ties to even -/
noncomputable def binary64 (x : ℝ) : ℝ :=
  let u : ℝ := 2 ^ (max (Int.log 2 |x| - 52) (-1074))
  roundEven (x / u) * u

/-- binary64 arithmetic -/
noncomputable def FloatOps.ieee : FloatOps where
  ofNat x := binary64 x
  lit a b := binary64 (a / b)
  add x y := binary64 (x + y)
  sub x y := binary64 (x - y)
  mul x y := binary64 (x * y)
  div x y := binary64 (x / y)
  ln x := binary64 (Real.log x)
  exp x := binary64 (Real.exp x)

theorem roundEven_near (y : ℝ) : |y - roundEven y| ≤ 1 / 2 := by
  unfold roundEven
  split
  · rename_i h
    have h1 := Int.floor_add_fract y
    rw [h] at h1
    set k := ⌊y⌋ with hk
    rcases Int.even_or_odd' k with ⟨m, hm | hm⟩
    · have : round (y / 2) = m := by
        rw [round_eq, Int.floor_eq_iff, ← h1, hm]
        push_cast
        constructor <;> linarith
      rw [this, ← h1, hm, abs_le]
      push_cast
      constructor <;> linarith
    · have : round (y / 2) = m + 1 := by
        rw [round_eq, Int.floor_eq_iff, ← h1, hm]
        push_cast
        constructor <;> linarith
      rw [this, ← h1, hm, abs_le]
      push_cast
      constructor <;> linarith
  · exact abs_sub_round y

theorem binary64_rounds (x : ℝ) : Rounds x (binary64 x) := by
  intro _
  by_cases hx0 : x = 0
  · have : binary64 x = 0 := by simp [binary64, roundEven, hx0]
    rw [this, hx0, sub_self, abs_zero]
    positivity
  have h0 : (0 : ℝ) ≤ |x| / 2 ^ 48 := by positivity
  unfold binary64
  dsimp only
  set e := max (Int.log 2 |x| - 52) (-1074) with he
  have hu : (0 : ℝ) < 2 ^ e := by positivity
  have h1 : |(roundEven (x / 2 ^ e) : ℝ) * 2 ^ e - x| ≤ 1 / 2 * 2 ^ e := by
    have h := roundEven_near (x / 2 ^ e)
    have e1 : (roundEven (x / 2 ^ e) : ℝ) * 2 ^ e - x = -((x / 2 ^ e - roundEven (x / 2 ^ e)) * 2 ^ e) := by
      field_simp
      ring
    rw [e1, abs_neg, abs_mul, abs_of_pos hu]
    exact mul_le_mul_of_nonneg_right h hu.le
  refine h1.trans ?_
  rcases le_total (Int.log 2 |x| - 52) (-1074) with hc | hc
  · rw [max_eq_right hc] at he
    rw [he]
    have : (2 : ℝ) ^ (-1074 : ℤ) ≤ 1 / 2 ^ 1000 := by
      rw [zpow_neg, one_div]
      apply inv_anti₀ (by positivity)
      rw [show (1074 : ℤ) = ((1074 : ℕ) : ℤ) from rfl, zpow_natCast]
      exact pow_le_pow_right₀ (by norm_num) (by norm_num)
    have h2 : (0 : ℝ) < 1 / 2 ^ 1000 := by positivity
    linarith
  · rw [max_eq_left hc] at he
    have hx : 0 < |x| := abs_pos.mpr hx0
    have h2 := Int.zpow_log_le_self (R := ℝ) (b := 2) one_lt_two hx
    rw [he, zpow_sub₀ two_ne_zero]
    have h3 : (0 : ℝ) < 1 / 2 ^ 1000 := by positivity
    have h4 : (2 : ℝ) ^ (52 : ℤ) = 2 ^ 52 := by rw [show (52 : ℤ) = ((52 : ℕ) : ℤ) from rfl, zpow_natCast]
    rw [h4]
    push_cast at h2
    have h5 : 1 / 2 * ((2 : ℝ) ^ Int.log 2 |x| / 2 ^ 52) ≤ |x| / 2 ^ 48 := by
      rw [← mul_div_assoc, div_le_div_iff₀ (by positivity) (by positivity)]
      nlinarith
    linarith

/-- binary64 arithmetic is accurate in the sense of the model -/
theorem ieee_accurate : FloatOps.ieee.Accurate :=
  ⟨fun _ => binary64_rounds _, fun _ _ => binary64_rounds _, fun _ _ => binary64_rounds _, fun _ _ => binary64_rounds _,
    fun _ _ => binary64_rounds _, fun _ _ _ => binary64_rounds _, fun _ _ => binary64_rounds _, fun _ => binary64_rounds _⟩

end NumPrime
