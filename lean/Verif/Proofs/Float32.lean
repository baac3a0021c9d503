import Verif.Model.Float32
import Mathlib.Algebra.Order.Round
import Mathlib.Algebra.Order.Field.Power
import Mathlib.Data.Rat.Floor
import Mathlib.Tactic.FieldSimp
import Mathlib.Tactic.Linarith
import Mathlib.Tactic.NormNum
import Mathlib.Tactic.Positivity
import Mathlib.Tactic.Ring

/-! # Lemmas on `f32` rounding -/

namespace NumPrime

theorem twoPow_eq (e : ℤ) : twoPow e = (2 : ℚ) ^ e := by
  unfold twoPow
  split
  · rename_i h
    obtain ⟨n, rfl⟩ := Int.eq_ofNat_of_zero_le h
    simp
  · rename_i h
    obtain ⟨n, hn⟩ := Int.eq_ofNat_of_zero_le (show 0 ≤ -e by omega)
    have : e = -(n : ℤ) := by omega
    subst this
    simp

theorem roundDiv_nearest (a b : ℕ) (hb : 0 < b) (j : ℤ) :
    |(roundDiv a b : ℚ) - a / b| ≤ |(j : ℚ) - a / b| := by
  have hb' : (0 : ℚ) < b := by exact_mod_cast hb
  have key : |(roundDiv a b : ℤ) * b - a| ≤ |j * b - a| := by
    have hd : (b : ℤ) * (a / b : ℕ) + (a % b : ℕ) = a := by exact_mod_cast Nat.div_add_mod a b
    have hr : a % b < b := Nat.mod_lt _ hb
    set f : ℕ := a / b
    set r : ℕ := a % b
    have hj : |j * b - a| ≥ min (r : ℤ) (b - r) := by
      rcases le_or_gt j f with h | h
      · have : (j : ℤ) * b ≤ f * b := mul_le_mul_of_nonneg_right h (by omega)
        rw [abs_of_nonpos (by nlinarith)]
        refine (min_le_left _ _).trans (by nlinarith)
      · have : ((f : ℤ) + 1) * b ≤ j * b := mul_le_mul_of_nonneg_right h (by omega)
        rw [abs_of_nonneg (by nlinarith)]
        refine (min_le_right _ _).trans (by nlinarith)
    refine le_trans ?_ hj
    have e1 : ((f : ℕ) : ℤ) * b - a = -r := by rw [← hd]; ring
    have e2 : ((f + 1 : ℕ) : ℤ) * b - a = b - r := by rw [← hd]; push_cast; ring
    unfold roundDiv
    change |((if 2 * r < b then f else if b < 2 * r then f + 1 else if f % 2 = 0 then f else f + 1 : ℕ) : ℤ) * b - a| ≤ _
    split_ifs with h1 h2 h3
    · rw [e1, abs_neg, abs_of_nonneg (by omega)]; exact le_min le_rfl (by omega)
    · rw [e2, abs_of_nonneg (by omega)]; exact le_min (by omega) le_rfl
    · rw [e1, abs_neg, abs_of_nonneg (by omega)]; exact le_min le_rfl (by omega)
    · rw [e2, abs_of_nonneg (by omega)]; exact le_min (by omega) le_rfl
  have conv : ∀ x : ℤ, |(x : ℚ) - a / b| = |((x * b - a : ℤ) : ℚ)| / b := by
    intro x
    rw [← abs_of_pos hb', ← abs_div, abs_of_pos hb']
    congr 1
    push_cast
    field_simp
  have := conv (roundDiv a b)
  rw [Int.cast_natCast] at this
  rw [this, conv j]
  refine div_le_div_of_nonneg_right ?_ hb'.le
  rw [← Int.cast_abs, ← Int.cast_abs]
  exact Int.cast_le.mpr key

theorem exponentOf_spec {q : ℚ} (hq : 0 < q) : (2 : ℚ) ^ exponentOf q ≤ q ∧ q < (2 : ℚ) ^ (exponentOf q + 1) := by
  set n := q.num.natAbs with hn
  set d := q.den with hd
  have hn0 : n ≠ 0 := by have := Rat.num_pos.mpr hq; omega
  have hd0 : d ≠ 0 := q.den_ne_zero
  have hqe : q = n / d := by
    conv_lhs => rw [← Rat.num_div_den q]
    have : (q.num : ℚ) = ((n : ℤ) : ℚ) := by
      congr 1; have := Rat.num_pos.mpr hq; omega
    rw [this]; simp [hd]
  have n1 : (2 : ℚ) ^ n.log2 ≤ n := by exact_mod_cast Nat.log2_self_le hn0
  have n2 : (n : ℚ) < 2 ^ (n.log2 + 1) := by exact_mod_cast Nat.lt_log2_self
  have d1 : (2 : ℚ) ^ d.log2 ≤ d := by exact_mod_cast Nat.log2_self_le hd0
  have d2 : (d : ℚ) < 2 ^ (d.log2 + 1) := by exact_mod_cast Nat.lt_log2_self
  have dp : (0 : ℚ) < d := by exact_mod_cast Nat.pos_of_ne_zero hd0
  have z : ∀ i j : ℕ, (2 : ℚ) ^ ((i : ℤ) - j) = 2 ^ i / 2 ^ j := by
    intro i j; rw [zpow_sub₀ (by norm_num)]; simp
  have up : q < (2 : ℚ) ^ ((n.log2 : ℤ) - d.log2 + 1) := by
    have : (n.log2 : ℤ) - d.log2 + 1 = ((n.log2 + 1 : ℕ) : ℤ) - d.log2 := by push_cast; ring
    rw [this, z, hqe, div_lt_div_iff₀ dp (by positivity)]
    calc (n : ℚ) * 2 ^ d.log2 < 2 ^ (n.log2 + 1) * 2 ^ d.log2 := by gcongr
      _ ≤ 2 ^ (n.log2 + 1) * d := by gcongr
  have lo : (2 : ℚ) ^ ((n.log2 : ℤ) - d.log2 - 1) ≤ q := by
    have : (n.log2 : ℤ) - d.log2 - 1 = (n.log2 : ℤ) - ((d.log2 + 1 : ℕ) : ℤ) := by push_cast; ring
    rw [this, z, hqe, div_le_div_iff₀ (by positivity) dp]
    exact mul_le_mul n1 d2.le dp.le (by positivity)
  unfold exponentOf
  rw [twoPow_eq]
  split
  · rename_i h; exact ⟨h, up⟩
  · rename_i h
    refine ⟨lo, ?_⟩
    rw [sub_add_cancel]
    exact not_le.mp h

/-- the numbers `j * 2^t` with at most 24 significant bits and `t` at least `-149`: zero, the subnormal and the normal numbers of
`f32` (without a bound above) -/
def IsF32 (q : ℚ) : Prop := ∃ j t : ℤ, |j| < 2 ^ 24 ∧ -149 ≤ t ∧ q = j * 2 ^ t

theorem roundNonneg_eq (q : ℚ) (hq : 0 ≤ q) : ∃ m : ℕ, roundNonneg q = m * 2 ^ ulpExponent q ∧
    ∀ j : ℤ, |(m : ℚ) * 2 ^ ulpExponent q - q| ≤ |j * 2 ^ ulpExponent q - q| := by
  have hu : (0 : ℚ) < 2 ^ ulpExponent q := by positivity
  refine ⟨roundDiv (q / twoPow (ulpExponent q)).num.natAbs (q / twoPow (ulpExponent q)).den, ?_, fun j => ?_⟩
  · simp only [roundNonneg, twoPow_eq]
  · set x := q / twoPow (ulpExponent q) with hx
    have hx0 : 0 ≤ x := by rw [hx, twoPow_eq]; positivity
    have h := roundDiv_nearest x.num.natAbs x.den x.den_pos j
    have hxe : ((x.num.natAbs : ℕ) : ℚ) / x.den = x := by
      conv_rhs => rw [← Rat.num_div_den x]
      congr 1
      have : x.num = (x.num.natAbs : ℤ) := by have := Rat.num_nonneg.mpr hx0; omega
      conv_rhs => rw [this, Int.cast_natCast]
    rw [hxe] at h
    have hq' : q = x * 2 ^ ulpExponent q := by rw [hx, twoPow_eq]; field_simp
    have conv : ∀ y : ℚ, |y * 2 ^ ulpExponent q - q| = |y - x| * 2 ^ ulpExponent q := by
      intro y
      have e : y * 2 ^ ulpExponent q - q = (y - x) * 2 ^ ulpExponent q := by rw [sub_mul, ← hq']
      rw [e, abs_mul, abs_of_pos hu]
    rw [conv, conv]
    gcongr

/-- rounding gives a number of `f32` -/
theorem roundNonneg_isF32 (q : ℚ) (hq : 0 ≤ q) : IsF32 (roundNonneg q) := by
  obtain ⟨m, h1, h2⟩ := roundNonneg_eq q hq
  have hu : (0 : ℚ) < 2 ^ ulpExponent q := by positivity
  have ht : -149 ≤ ulpExponent q := le_max_right _ _
  -- m ≤ 2^24
  have hle : m ≤ 2 ^ 24 := by
    rcases hq.eq_or_lt with rfl | hpos
    · have := h2 0
      simp only [Int.cast_zero, zero_mul, sub_zero, abs_zero] at this
      have h0 : (m : ℚ) * 2 ^ ulpExponent 0 = 0 := abs_nonpos_iff.mp this
      have : (m : ℚ) = 0 := by
        rcases mul_eq_zero.mp h0 with h | h
        · exact h
        · exact absurd h hu.ne'
      have : m = 0 := by exact_mod_cast this
      omega
    · by_contra hgt
      have hgt : 2 ^ 24 + 1 ≤ m := by omega
      have hq2 : q < 2 ^ 24 * 2 ^ ulpExponent q := by
        refine (exponentOf_spec hpos).2.trans_le ?_
        rw [← zpow_natCast, ← zpow_add₀ (by norm_num)]
        refine zpow_le_zpow_right₀ (by norm_num) ?_
        have := le_max_left (exponentOf q - 23) (-149)
        unfold ulpExponent
        push_cast
        omega
      have h3 := h2 (2 ^ 24)
      have hm : ((2 : ℚ) ^ 24 + 1) * 2 ^ ulpExponent q ≤ m * 2 ^ ulpExponent q := by
        gcongr
        exact_mod_cast hgt
      push_cast at h3
      rw [abs_of_pos (by nlinarith), abs_of_pos (by linarith)] at h3
      nlinarith
  rw [h1]
  rcases hle.lt_or_eq with h | h
  · exact ⟨m, ulpExponent q, by rw [abs_of_nonneg (by omega)]; exact_mod_cast h, ht, by simp⟩
  · refine ⟨2 ^ 23, ulpExponent q + 1, by norm_num, by omega, ?_⟩
    rw [h, zpow_add₀ (by norm_num)]
    push_cast
    ring

/-- rounding is to a nearest number of `f32` -/
theorem roundNonneg_nearest (q : ℚ) (hq : 0 ≤ q) {p : ℚ} (hp : IsF32 p) : |roundNonneg q - q| ≤ |p - q| := by
  obtain ⟨m, h1, h2⟩ := roundNonneg_eq q hq
  rw [h1]
  rcases hq.eq_or_lt with rfl | hpos
  · have := h2 0
    simp only [Int.cast_zero, zero_mul, sub_zero, abs_zero] at this
    simpa using this.trans (abs_nonneg p)
  obtain ⟨j, t, hj, ht, rfl⟩ := hp
  rcases le_or_gt (ulpExponent q) t with h | h
  · obtain ⟨s, hs⟩ := Int.eq_ofNat_of_zero_le (show 0 ≤ t - ulpExponent q by omega)
    have : t = s + ulpExponent q := by omega
    have e : (j : ℚ) * 2 ^ t = ((j * 2 ^ s : ℤ) : ℚ) * 2 ^ ulpExponent q := by
      rw [this, zpow_add₀ (by norm_num)]; push_cast; rw [zpow_natCast]; ring
    rw [e]; exact h2 _
  · -- finer exponent: p lies below the binade of q
    have hux : ulpExponent q = exponentOf q - 23 := by
      unfold ulpExponent at h ⊢
      rcases max_cases (exponentOf q - 23) (-149) with ⟨h3, -⟩ | ⟨h3, -⟩
      · exact h3
      · omega
    have h3 := h2 (2 ^ 23)
    have e : ((2 ^ 23 : ℤ) : ℚ) * 2 ^ ulpExponent q = 2 ^ exponentOf q := by
      rw [hux, Int.cast_pow, Int.cast_ofNat, ← zpow_natCast, ← zpow_add₀ (by norm_num)]; congr 1; push_cast; ring
    rw [e] at h3
    have hlo := (exponentOf_spec hpos).1
    rw [abs_of_nonpos (by linarith : (2 : ℚ) ^ exponentOf q - q ≤ 0)] at h3
    have hp : (j : ℚ) * 2 ^ t ≤ 2 ^ exponentOf q := by
      calc (j : ℚ) * 2 ^ t ≤ 2 ^ 24 * 2 ^ t := by
            gcongr
            have : j ≤ 2 ^ 24 := le_of_lt (lt_of_abs_lt hj)
            exact_mod_cast this
        _ = 2 ^ (24 + t) := by rw [← zpow_natCast, ← zpow_add₀ (by norm_num)]; norm_num
        _ ≤ 2 ^ exponentOf q := zpow_le_zpow_right₀ (by norm_num) (by omega)
    rw [abs_of_nonpos (by linarith : (j : ℚ) * 2 ^ t - q ≤ 0)]
    linarith

theorem isF32_zero : IsF32 0 := ⟨0, 0, by norm_num, by norm_num, by simp⟩
theorem isF32_one : IsF32 1 := ⟨1, 0, by norm_num, by norm_num, by simp⟩

theorem IsF32.neg {q : ℚ} (h : IsF32 q) : IsF32 (-q) := by
  obtain ⟨j, t, h1, h2, rfl⟩ := h
  exact ⟨-j, t, by rwa [abs_neg], h2, by push_cast; ring⟩

theorem roundNonneg_le {q p : ℚ} (hq : 0 ≤ q) (hp : IsF32 p) (h : q ≤ p) : roundNonneg q ≤ p := by
  have := roundNonneg_nearest q hq hp
  by_contra hlt
  rw [abs_of_nonneg (by linarith), abs_of_nonneg (by linarith)] at this
  linarith

theorem le_roundNonneg {q p : ℚ} (hq : 0 ≤ q) (hp : IsF32 p) (h : p ≤ q) : p ≤ roundNonneg q := by
  have := roundNonneg_nearest q hq hp
  by_contra hlt
  rw [abs_of_nonpos (by linarith), abs_of_nonpos (by linarith)] at this
  linarith

theorem roundNonneg_exact {p : ℚ} (h0 : 0 ≤ p) (hp : IsF32 p) : roundNonneg p = p :=
  le_antisymm (roundNonneg_le h0 hp le_rfl) (le_roundNonneg h0 hp le_rfl)

/-- the error of rounding in the unit interval -/
theorem roundNonneg_error {q : ℚ} (h0 : 0 ≤ q) (h1 : q ≤ 1) : |roundNonneg q - q| ≤ 1 / 2 ^ 25 := by
  rcases h1.eq_or_lt with rfl | h1
  · rw [roundNonneg_exact h0 isF32_one]; norm_num
  rcases h0.eq_or_lt with rfl | h0'
  · rw [roundNonneg_exact le_rfl isF32_zero]; norm_num
  obtain ⟨m, e1, e2⟩ := roundNonneg_eq q h0
  have hu : (0 : ℚ) < 2 ^ ulpExponent q := by positivity
  rw [e1]
  refine (e2 (round (q / 2 ^ ulpExponent q))).trans ?_
  have hr := abs_sub_round (q / 2 ^ ulpExponent q)
  have he : exponentOf q < 0 := by
    have := (exponentOf_spec h0').1.trans_lt h1
    by_contra hlt
    have := one_le_zpow₀ (show (1 : ℚ) ≤ 2 by norm_num) (show 0 ≤ exponentOf q by omega)
    linarith
  have hle : (2 : ℚ) ^ ulpExponent q ≤ 2 ^ (-24 : ℤ) :=
    zpow_le_zpow_right₀ (by norm_num) (max_le (by omega) (by omega))
  have e3 : (round (q / 2 ^ ulpExponent q) : ℚ) * 2 ^ ulpExponent q - q =
      -((q / 2 ^ ulpExponent q - round (q / 2 ^ ulpExponent q)) * 2 ^ ulpExponent q) := by
    rw [sub_mul, div_mul_cancel₀ _ hu.ne']; ring
  rw [e3, abs_neg, abs_mul, abs_of_pos hu]
  calc |q / 2 ^ ulpExponent q - round (q / 2 ^ ulpExponent q)| * 2 ^ ulpExponent q ≤ 1 / 2 * 2 ^ (-24 : ℤ) := by gcongr
    _ = 1 / 2 ^ 25 := by norm_num

namespace F32

/-- rounding in the unit interval stays there -/
theorem round_unit {q : ℚ} (h0 : 0 ≤ q) (h1 : q ≤ 1) :
    round q = fin (roundNonneg q) ∧ 0 ≤ roundNonneg q ∧ roundNonneg q ≤ 1 := by
  have a := le_roundNonneg h0 isF32_zero h0
  have b := roundNonneg_le h0 isF32_one h1
  refine ⟨?_, a, b⟩
  rw [round, if_pos h0, if_pos (lt_of_le_of_lt b (by norm_num))]

theorem mul_comm (a b : F32) : mul a b = mul b a := by
  cases a <;> cases b <;> simp [mul, _root_.mul_comm, bne_comm]

end F32

end NumPrime
