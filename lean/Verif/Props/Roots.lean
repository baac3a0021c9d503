import Verif.Proofs.Roots
import Mathlib.Data.Nat.Bitwise

/-! # C54 – C58: exact roots and bit tests -/

namespace NumPrime

/-- **C54 (partial)** machine integers of any width `b`: for `n > 0`, `sqrt_exact` does not panic and returns
`Some(r)` iff `r² = n` (so `None` iff `n` is no square). Missing: `n = 0`, where the statement is false, see
`C54_sqrt_exact_zero_panics`. -/
theorem C54_sqrt_exact_prim_partial (b n : ℕ) (hn : 0 < n) (hb : n < 2 ^ b) :
    ∃ o, sqrtExactPrim b n = .ok o ∧ ∀ r, o = some r ↔ r ^ 2 = n := sqrtExactPrim_spec hn hb

example : sqrtExactPrim 64 (2 ^ 40 * 49) = .ok (some (2 ^ 20 * 7)) := by decide +kernel
example : sqrtExactPrim 64 (2 ^ 41 * 49) = .ok none := by decide +kernel

/-- **C54, finding** `0.sqrt_exact()` (0 is a perfect square) panics on every machine type with an even number of bits -/
theorem C54_sqrt_exact_zero_panics (k : ℕ) : sqrtExactPrim (2 * k) 0 = .panic := by
  have h : 2 * k &&& 1 = 0 := by rw [and_one]; omega
  simp [sqrtExactPrim, trailingZeros, cshr, h]

/-- **C55** `BigUint::sqrt_exact` is exact on all inputs in both builds -/
theorem C55_sqrt_exact_big (bld : Build) (n : ℕ) :
    ∃ o, sqrtExactBig bld n = .ok o ∧ ∀ r, o = some r ↔ r ^ 2 = n := sqrtExactBig_spec bld n

/-- **C55** `BigUint::cbrt_exact` is exact on all inputs in both builds -/
theorem C55_cbrt_exact_big (bld : Build) (n r : ℕ) : cbrtExactBig bld n = some r ↔ r ^ 3 = n :=
  cbrtExactBig_spec bld n r

example : sqrtExactBig .big ((10 ^ 30 + 57) ^ 2) = .ok (some (10 ^ 30 + 57)) := by decide +kernel
example : sqrtExactBig .big ((10 ^ 30 + 57) ^ 2 + 8) = .ok none := by decide +kernel
example : cbrtExactBig .small ((10 ^ 30 + 57) ^ 3) = some (10 ^ 30 + 57) := by decide +kernel

/-- **C56** `BigInt::sqrt_exact`: `None` for negative numbers, otherwise the (non-negative) exact root -/
theorem C56_sqrt_exact_bigint (bld : Build) (z : ℤ) :
    ∃ o, sqrtExactBigInt bld z = .ok o ∧ ∀ r, o = some r ↔ 0 ≤ r ∧ r ^ 2 = z := by
  unfold sqrtExactBigInt
  by_cases hz : z < 0
  · refine ⟨none, by simp [hz], ?_⟩
    intro r
    simp only [reduceCtorEq, false_iff, not_and]
    intro _ h
    nlinarith
  · obtain ⟨n, rfl⟩ := Int.eq_ofNat_of_zero_le (by omega : 0 ≤ z)
    obtain ⟨o, ho, hr⟩ := sqrtExactBig_spec bld n
    refine ⟨o.map (fun r : ℕ => (r : ℤ)), by simp [ho, hz], ?_⟩
    intro r
    simp only [Option.map_eq_some_iff]
    constructor
    · rintro ⟨a, h1, rfl⟩
      refine ⟨by positivity, ?_⟩
      exact_mod_cast (hr a).mp h1
    · rintro ⟨h0, h1⟩
      obtain ⟨a, rfl⟩ := Int.eq_ofNat_of_zero_le h0
      exact ⟨a, (hr a).mpr (by exact_mod_cast h1), rfl⟩

/-- **C56** `BigInt::cbrt_exact` is the exact signed cube root -/
theorem C56_cbrt_exact_bigint (bld : Build) (z r : ℤ) : cbrtExactBigInt bld z = some r ↔ r ^ 3 = z := by
  unfold cbrtExactBigInt
  simp only [Option.map_eq_some_iff, cbrtExactBig_spec]
  constructor
  · rintro ⟨a, h1, rfl⟩
    split
    · have : (z.natAbs : ℤ) = -z := by omega
      rw [← h1] at this; push_cast at this; linear_combination -this
    · have : (z.natAbs : ℤ) = z := by omega
      rw [← h1] at this; push_cast at this; exact this
  · rintro rfl
    refine ⟨r.natAbs, by rw [Int.natAbs_pow], ?_⟩
    rcases lt_or_ge r 0 with h | h
    · have : r ^ 3 < 0 := Odd.pow_neg (by decide) h
      rw [if_pos this]; omega
    · have : ¬ r ^ 3 < 0 := not_lt.mpr (by positivity)
      rw [if_neg this]; omega

/-- **C56** negating the input negates the cube root -/
theorem C56_cbrt_neg (bld : Build) (z : ℤ) :
    cbrtExactBigInt bld (-z) = (cbrtExactBigInt bld z).map (fun r => -r) := by
  ext r
  simp only [Option.mem_def, Option.map_eq_some_iff, C56_cbrt_exact_bigint]
  constructor
  · intro h; exact ⟨-r, by linear_combination -h, by ring⟩
  · rintro ⟨a, h, rfl⟩; linear_combination -h

example : cbrtExactBigInt .big (-(12345 ^ 3)) = some (-12345) := by decide +kernel
example : sqrtExactBigInt .big (-4) = .ok none := by decide +kernel

/-- **C57** `nth_root_exact(k)` for `k ≥ 1` -/
theorem C57_nth_root_exact (n k r : ℕ) (hk : 1 ≤ k) : nthRootExact n k = some r ↔ r ^ k = n :=
  nthRootExact_iff (by omega) n r

/-- **C57** `is_nth_power` -/
theorem C57_is_nth_power (n k : ℕ) (hk : 1 ≤ k) : isNthPower n k = true ↔ ∃ r, r ^ k = n := by
  simp only [isNthPower, Option.isSome_iff_exists, C57_nth_root_exact n k _ hk]

/-- **C57** `is_cubic` on every type -/
theorem C57_is_cubic (bld : Build) (w : Width) (n : ℕ) : isCubic bld w n = true ↔ ∃ r, r ^ 3 = n := by
  simp only [isCubic, Option.isSome_iff_exists, cbrtExact_spec]

/-- **C57** `is_square` on every type (positive inputs that fit) -/
theorem C57_is_square (bld : Build) (w : Width) (n : ℕ) (hn : 0 < n) (hw : fits w n = true) :
    ∃ v, NumPrime.isSquare bld w n = .ok v ∧ (v = true ↔ ∃ r, r ^ 2 = n) := by
  obtain ⟨v, h1, h2⟩ := isSquare_spec bld w hn hw
  refine ⟨v, h1, h2.trans ?_⟩
  constructor
  · rintro ⟨r, h⟩; exact ⟨r, by rw [h, pow_two]⟩
  · rintro ⟨r, h⟩; exact ⟨r, by rw [← h, pow_two]⟩

example : nthRootExact (7 ^ 5) 5 = some 7 ∧ nthRootExact (7 ^ 5 + 1) 5 = none := by decide +kernel

/-- **C58** `bits()` is the bit length: the least `k` with `n < 2^k` -/
theorem C58_bits (n k : ℕ) : bits n ≤ k ↔ n < 2 ^ k := by
  unfold bits; rw [bitLen_eq_size, Nat.size_le]

/-- **C58** `bit(i)` is the `i`-th binary digit, for every position allowed by the type -/
theorem C58_bit (w : Width) (n i : ℕ) (hi : ∀ b, w = some b → i < b) :
    ∃ v, bit w n i = .ok v ∧ (v = true ↔ n / 2 ^ i % 2 = 1) := by
  cases w with
  | none =>
    refine ⟨_, rfl, ?_⟩
    rw [Nat.testBit_eq_decide_div_mod_eq]; simp
  | some b =>
    refine ⟨decide (n &&& (1 <<< i) > 0), by simp only [bit, hi b rfl, if_true], ?_⟩
    rw [Nat.one_shiftLeft, decide_eq_true_iff, Nat.and_two_pow, Nat.testBit_eq_decide_div_mod_eq]
    by_cases h : n / 2 ^ i % 2 = 1 <;> simp [h]

/-- **C58** `trailing_zeros()` is the exponent of 2, for positive numbers of every type -/
theorem C58_trailing_zeros (w : Width) (n k : ℕ) (hn : 0 < n) :
    trailingZeros w n = k ↔ 2 ^ k ∣ n ∧ ¬ 2 ^ (k + 1) ∣ n := by
  have e : trailingZeros w n = tz n := by simp [trailingZeros, hn.ne']
  rw [e]
  have key : ∀ k, 2 ^ k ∣ n → ((n / 2 ^ k) % 2 = 1 ↔ ¬ 2 ^ (k + 1) ∣ n) := by
    intro k hk
    rw [pow_succ]
    constructor
    · rintro h ⟨c, hc⟩
      rw [hc, mul_assoc, Nat.mul_div_cancel_left _ (by positivity)] at h
      omega
    · intro h
      by_contra h2
      apply h
      obtain ⟨c, rfl⟩ := hk
      rw [Nat.mul_div_cancel_left _ (by positivity)] at h2
      exact Nat.mul_dvd_mul_left _ (by omega)
  constructor
  · rintro rfl
    obtain ⟨a, b⟩ := tz_spec hn
    exact ⟨a, (key _ a).mp b⟩
  · rintro ⟨a, b⟩
    exact tz_unique hn a ((key _ a).mpr b)

example : bits 255 = 8 ∧ bits 256 = 9 ∧ trailingZeros (some 64) 96 = 5 ∧ bit (some 8) 5 2 = .ok true := by
  decide +kernel

end NumPrime
