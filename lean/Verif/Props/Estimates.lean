import Verif.Proofs.Cheb
import Verif.Proofs.Riemann
import Verif.Props.Bounds

/-! # The estimates on their whole range: C36, C71, C72, C75, C76

Every primitive integer is below `2^990`, so for the primitive types the theorems cover every argument. -/

namespace NumPrime
open Spec

/-- beyond the smaller table the two formulas of `prime_pi_bounds` are in order -/
theorem fPi_order {F : FloatOps} (hF : F.Accurate) {x : ℕ} (h252 : 252 ≤ x) (hx : x ≤ 2 ^ 990) :
    0 ≤ fPiLo F x ∧ 0 ≤ fPiHi F x ∧ ⌊fPiLo F x⌋₊ ≤ ⌊fPiHi F x⌋₊ ∧ fPiHi F x < x / 2 := by
  rcases Nat.lt_or_ge x 11534336 with h | h
  · have hp := estRange.1.pi F hF x h252 h
    exact ⟨hp.pos, hp.hi.trans' (Nat.cast_nonneg _), (floor_le_of_lt_succ hp.lo).trans (Nat.le_floor hp.hi), hp.lt⟩
  · obtain ⟨h1, h2, h3, -⟩ := fPi_far hF h hx
    exact ⟨by linarith, by linarith, Nat.floor_le_floor h2, h3⟩

theorem not_table {bld : Build} {x : ℕ} (ht : ¬ x ≤ if bld = .big then 8161 else 251) :
    252 ≤ x ∧ ¬ (x < 2 ^ 64 ∧ x ≤ (smallPrimes bld).getLastD 0) := by
  have := smallPrimes_last bld
  constructor
  · split at ht <;> omega
  · omega

theorem floor_lt_half {v : ℝ} {x : ℕ} (h : v < x / 2) (hx : 0 < x) : 2 * ⌊v⌋₊ < x := by
  rcases le_or_gt 0 v with h0 | h0
  · have := Nat.floor_le h0
    have : (2 * ⌊v⌋₊ : ℝ) < x := by linarith
    exact_mod_cast this
  · rw [Nat.floor_of_nonpos h0.le]
    omega

/-! ## C75: the estimates return -/

/-- **C75** `prime_pi_bounds(x)` returns for every `x` up to `2^990`, so for every value of every primitive integer type, and its
result satisfies `lo ≤ hi ≤ x` -/
theorem C75_prime_pi_bounds_returns (bld : Build) (w : Width) (F : FloatOps) (hF : F.Accurate) (x : ℕ) (hx : x ≤ 2 ^ 990)
    (hw : fits w x = true) :
    ∃ lo hi, primePiBounds bld w (floatEstimates F) x = .ok (lo, hi) ∧ lo ≤ hi ∧ hi ≤ x := by
  by_cases ht : x ≤ if bld = .big then 8161 else 251
  · exact ⟨_, _, C34_prime_pi_bounds bld _ w x hw ht, le_rfl, primeCounting_le x⟩
  · obtain ⟨h252, hlast⟩ := not_table ht
    obtain ⟨h1, h2, h3, h4⟩ := fPi_order hF h252 hx
    have := floor_lt_half h4 (by omega)
    exact ⟨_, _, primePiBounds_float hF h252 (lt_finite hx) hlast hw h1 h2 h3 h4, h3, by omega⟩

/-- **C75** `prime_pi_est(x)` returns a value `≤ x` in the same range. Without the large table it is between the bounds of
`prime_pi_bounds`. -/
theorem C75_prime_pi_est_returns (bld : Build) (w : Width) (hstd : StdWidth w) (F : FloatOps) (hF : F.Accurate) (x : ℕ)
    (hx : x ≤ 2 ^ 990) (hw : fits w x = true) :
    ∃ v, primePiEst bld w (floatEstimates F) x = .ok v ∧ v ≤ x ∧
      (bld = .small → ∀ lo hi, primePiBounds bld w (floatEstimates F) x = .ok (lo, hi) → lo ≤ v ∧ v ≤ hi) := by
  cases bld
  · simp only [primePiEst, reduceCtorEq, false_implies, and_true]
    by_cases ht : x ≤ 8161
    · have hl := smallPrimes_last .big
      simp only [if_true] at hl
      rw [if_pos (by omega), C34_prime_pi_bounds .big _ (some 16) x (fits_some.mpr (by omega)) (by simpa using ht)]
      simp only [Res.bind_ok, ne_eq, not_true, if_false]
      exact ⟨_, unwrapFit_of_fits (fits_mono (primeCounting_le x) hw), primeCounting_le x⟩
    · have hl := smallPrimes_last .big
      simp only [if_true] at hl
      rw [if_neg (by omega)]
      obtain ⟨q1, q2⟩ := fPiEst_bounds hF (show 8162 ≤ x by omega) hx
      have q3 := floor_lt_half q2 (by omega)
      have q4 : (floatEstimates F).piEst x = some ⌊fPiEst F x⌋₊ := by
        simp only [floatEstimates]
        exact finiteF_eq (lt_finite hx) (by linarith)
      rw [q4]
      exact ⟨_, unwrapFit_of_fits (fits_mono (by omega) hw), by omega⟩
  · have key : ∃ lo hi, primePiBounds .small w (floatEstimates F) x = .ok (lo, hi) ∧ lo ≤ hi ∧ hi ≤ x ∧
        fits w (lo + hi) = true := by
      by_cases ht : x ≤ 251
      · refine ⟨_, _, C34_prime_pi_bounds .small _ w x hw (by simpa using ht), le_rfl, primeCounting_le x, std_fits hstd ?_⟩
        have h1 := Nat.monotone_primeCounting ht
        have h2 : 54 = Nat.primeCounting 251 := by decide +kernel
        omega
      · obtain ⟨h252, hlast⟩ := not_table (bld := .small) (x := x) (by simpa using ht)
        obtain ⟨h1, h2, h3, h4⟩ := fPi_order hF h252 hx
        have := floor_lt_half h4 (by omega)
        exact ⟨_, _, primePiBounds_float hF h252 (lt_finite hx) hlast hw h1 h2 h3 h4, h3, by omega, fits_mono (by omega) hw⟩
    obtain ⟨lo, hi, hb, h1, h2, h3⟩ := key
    refine ⟨(lo + hi) / 2, by simp only [primePiEst, hb, Res.bind_ok, cadd_ok h3]; rfl, by omega, fun _ lo' hi' hb' => ?_⟩
    rw [hb] at hb'
    simp only [Res.ok.injEq, Prod.mk.injEq] at hb'
    omega

/-- beyond the smaller table the two formulas of `nth_prime_bounds` are in order -/
theorem fNth_order {F : FloatOps} (hF : F.Accurate) {n : ℕ} (h54 : 54 < n) (hn : n ≤ 2 ^ 990) :
    0 ≤ fNthLo F n ∧ 0 ≤ fNthHi F n ∧ ⌊fNthLo F n⌋₊ ≤ ⌊fNthHi F n⌋₊ := by
  rcases Nat.lt_or_ge 759401 n with h | h
  · obtain ⟨h1, h2, -⟩ := fNth_far hF h hn
    have hl := log_ge_of (n := 13) (c := 759401) (by norm_num) h.le (by omega)
    push_cast at hl
    have hll : 0 ≤ Real.log (Real.log n) := Real.log_nonneg (by linarith)
    have : 0 ≤ (n : ℝ) * (Real.log n + Real.log (Real.log n) - 3) := mul_nonneg (Nat.cast_nonneg _) (by linarith)
    exact ⟨by linarith, by linarith, Nat.floor_le_floor h2⟩
  · have hp := estRange.1.nth F hF n h54 h
    exact ⟨hp.pos, hp.hi.trans' (Nat.cast_nonneg _), (floor_le_of_lt_succ hp.lo).trans (Nat.le_floor hp.hi)⟩

theorem nthBounds_eq {bld : Build} {w : Width} {F : FloatOps} (hF : F.Accurate) {n : ℕ} (ht : ¬ n ≤ (smallPrimes bld).length)
    (hn : n ≤ 2 ^ 990) :
    nthPrimeBounds bld w (floatEstimates F) n =
      .ok (if fits w ⌊fNthHi F n⌋₊ then some (⌊fNthLo F n⌋₊, ⌊fNthHi F n⌋₊) else none) := by
  have hlen := smallPrimes_length_ge bld
  obtain ⟨h1, h2, h3⟩ := fNth_order hF (show 54 < n by omega) hn
  have e1 : finiteF n (fNthLo F n) = some ⌊fNthLo F n⌋₊ := finiteF_eq (lt_finite hn) h1
  have e2 : finiteF n (fNthHi F n) = some ⌊fNthHi F n⌋₊ := finiteF_eq (lt_finite hn) h2
  have h0 : ¬ n = 0 := by omega
  simp only [nthPrimeBounds, h0, ht, if_false, floatEstimates, e1, e2]
  by_cases hf : fits w ⌊fNthHi F n⌋₊ = true
  · simp only [hf, fits_mono h3 hf, Bool.and_self, if_true]
  · simp only [hf, Bool.and_false, Bool.false_eq_true, if_false]

/-- **C75** beyond the table `nth_prime_bounds(n)` never panics for `n` up to `2^990`: there are bounds `lo ≤ hi`, the same for
every type, and the result is `Some((lo, hi))` if `hi` fits the type and `None` otherwise (for the table see
`C35_nth_prime_bounds`) -/
theorem C75_nth_prime_bounds_returns (bld : Build) (F : FloatOps) (hF : F.Accurate) (n : ℕ)
    (ht : (smallPrimes bld).length < n) (hn : n ≤ 2 ^ 990) :
    ∃ lo hi, lo ≤ hi ∧ ∀ w, nthPrimeBounds bld w (floatEstimates F) n = .ok (if fits w hi then some (lo, hi) else none) := by
  have hlen := smallPrimes_length_ge bld
  exact ⟨_, _, (fNth_order hF (by omega) hn).2.2, fun w => nthBounds_eq hF (by omega) hn⟩

theorem huge_of {x : ℕ} (hx : 2 ^ 1024 - 2 ^ 970 ≤ x) : 2 ^ 64 ≤ x := by
  have h1 : (2 : ℕ) ^ 1024 = 2 ^ 970 * 2 ^ 54 := by rw [← pow_add]
  have h2 : (2 : ℕ) ^ 64 ≤ 2 ^ 970 := Nat.pow_le_pow_right (by norm_num) (by norm_num)
  generalize (2 : ℕ) ^ 1024 = A at *
  generalize (2 : ℕ) ^ 970 = B at *
  omega

/-- **C75** finding: for a `BigUint` that is too large for `f64` both `prime_pi_bounds` and `prime_pi_est` panic, while
`nth_prime_bounds` and `nth_prime_est` return `None` -/
theorem C75_huge_panics (bld : Build) (F : FloatOps) (x : ℕ) (hx : 2 ^ 1024 - 2 ^ 970 ≤ x) (fuel : ℕ) :
    primePiBounds bld none (floatEstimates F) x = .panic ∧ primePiEst bld none (floatEstimates F) x = .panic ∧
      nthPrimeBounds bld none (floatEstimates F) x = .ok none ∧ nthPrimeEst bld none (floatEstimates F) x fuel = .ok none := by
  have h64 := huge_of hx
  have hlen := smallPrimes_length_le bld
  have hf : ∀ v, finiteF x v = none := fun v => if_neg (not_lt.mpr hx)
  have b : ∀ bld, primePiBounds bld none (floatEstimates F) x = .panic := by
    intro bld
    unfold primePiBounds
    rw [if_neg (by omega)]
    simp only [floatEstimates, hf, unwrapFloat]
    rfl
  have c : nthPrimeBounds bld none (floatEstimates F) x = .ok none := by
    unfold nthPrimeBounds
    rw [if_neg (by omega), if_neg (by omega)]
    simp only [floatEstimates, hf]
  refine ⟨b bld, ?_, c, ?_⟩
  · cases bld
    · unfold primePiEst
      dsimp only
      rw [if_neg (by omega)]
      simp only [floatEstimates, hf, unwrapFloat]
    · simp only [primePiEst, b]
      rfl
  · simp only [nthPrimeEst, c, Res.bind_ok, Res.pure_def]

-- the largest `u128`
example : ∃ v, primePiEst .big (some 128) (floatEstimates FloatOps.ieee) (2 ^ 128 - 1) = .ok v ∧ v ≤ 2 ^ 128 - 1 := by
  obtain ⟨v, h1, h2, -⟩ := C75_prime_pi_est_returns .big (some 128) (Or.inr ⟨128, by simp, rfl⟩) _ ieee_accurate (2 ^ 128 - 1)
    ((Nat.sub_le _ _).trans (Nat.pow_le_pow_right (by norm_num) (by norm_num))) (fits_some.mpr (by norm_num))
  exact ⟨v, h1, h2⟩

/-! ## C36: `nth_prime_est` with the floating point estimates -/

/-- **C36** whenever `nth_prime_bounds(n)` gives bounds `(lo, hi)` and the type has room for `2 * hi`, `nth_prime_est(n)` returns a
value between them within `hi - lo` rounds -/
theorem C36_nth_prime_est_float (bld : Build) (w : Width) (hstd : StdWidth w) (F : FloatOps) (hF : F.Accurate) (n lo hi : ℕ)
    (hn : n ≤ 2 ^ 990) (h : nthPrimeBounds bld w (floatEstimates F) n = .ok (some (lo, hi))) (hw : fits w (hi + hi) = true)
    (hhi : hi ≤ 2 ^ 990) (fuel : ℕ) (hf : hi - lo ≤ fuel) :
    ∃ v, nthPrimeEst bld w (floatEstimates F) n fuel = .ok (some v) ∧ lo ≤ v ∧ v ≤ hi := by
  have hle : lo ≤ hi := by
    by_cases ht : n ≤ (smallPrimes bld).length
    · unfold nthPrimeBounds at h
      split at h
      · simp only [Res.ok.injEq, Option.some.injEq, Prod.mk.injEq] at h
        omega
      · simp only [Res.bind_eq_ok, Res.pure_def, Res.ok.injEq, Option.some.injEq, Prod.mk.injEq] at h
        obtain ⟨p, -, q, -, h⟩ := h
        omega
    · have hlen := smallPrimes_length_ge bld
      rw [nthBounds_eq hF ht hn] at h
      split at h
      · simp only [Res.ok.injEq, Option.some.injEq, Prod.mk.injEq] at h
        have := (fNth_order hF (show 54 < n by omega) hn).2.2
        omega
      · simp at h
  have hx : ∃ x, nthPrimeEst bld w (floatEstimates F) n fuel = .ok (some x) := by
    rcases Nat.lt_or_ge lo hi with h1 | h1
    · have hne : ¬ lo = hi := by omega
      simp only [nthPrimeEst, h, Res.bind_ok, hne, if_false]
      exact (nthPrimeEstLoop_spec fuel lo hi h1).2.2 (by omega) hw fun x _ hx => by
        obtain ⟨v, hv, -⟩ := C75_prime_pi_est_returns bld w hstd F hF x (by omega) (fits_mono (by omega) hw)
        exact ⟨v, hv⟩
    · have he : lo = hi := by omega
      exact ⟨lo, by simp [nthPrimeEst, h, he]⟩
  obtain ⟨x, hx⟩ := hx
  obtain ⟨y, h1, h2⟩ := (C36_nth_prime_est bld w _ n lo hi h hle).2 fuel _ hx
  injection h1 with h1
  exact ⟨x, hx, by omega, by omega⟩

/-- the upper bound of `nth_prime_bounds` for `n ≤ 2^970` -/
theorem fNthHi_le {F : FloatOps} (hF : F.Accurate) {n k c : ℕ} (h54 : 54 < n) (hk : n ≤ 2 ^ k) (hk9 : k ≤ 970) (hk2 : 20 ≤ k)
    (hc : 70 / 100 * (k : ℝ) ≤ Real.exp c) : ⌊fNthHi F n⌋₊ ≤ 2 ^ k * (k + c + 1) := by
  have hn9 : n ≤ 2 ^ 990 := hk.trans (Nat.pow_le_pow_right (by norm_num) (by omega))
  rcases Nat.lt_or_ge 759401 n with h | h
  · obtain ⟨-, -, h3⟩ := fNth_far hF h hn9
    have hn0 : (0 : ℝ) < n := by exact_mod_cast (show 0 < n by omega)
    have hl1 : 1 ≤ Real.log n := by
      have := log_ge_of (n := 13) (c := 759401) (by norm_num) h.le (by omega)
      push_cast at this
      linarith
    have hl : Real.log n ≤ 70 / 100 * k := by
      have h1 : Real.log n ≤ Real.log ((2 : ℝ) ^ k) := Real.log_le_log hn0 (by exact_mod_cast hk)
      rw [Real.log_pow] at h1
      have h2 := Real.log_two_lt_d9
      have h3 : (k : ℝ) * Real.log 2 ≤ k * (70 / 100) := mul_le_mul_of_nonneg_left (by linarith) (Nat.cast_nonneg _)
      linarith
    have hll : Real.log (Real.log n) ≤ c := (Real.log_le_iff_le_exp (by linarith)).mpr (hl.trans hc)
    have hk0 : (0 : ℝ) ≤ k := Nat.cast_nonneg _
    have hc0 : (0 : ℝ) ≤ c := Nat.cast_nonneg _
    have h4 : (n : ℝ) * (Real.log n + Real.log (Real.log n) + 1) ≤ 2 ^ k * (k + c + 1) :=
      mul_le_mul (by exact_mod_cast hk) (by linarith) (by
        have := Real.log_nonneg hl1
        linarith) (by positivity)
    refine Nat.floor_le_of_le (h3.trans (h4.trans ?_))
    push_cast
    exact le_rfl
  · have hp := estRange.1.nth F hF n h54 h
    have hlt : ⌊fNthHi F n⌋₊ < n * n := (Nat.floor_lt' (by have := Nat.mul_pos (show 0 < n by omega) (show 0 < n by omega); omega)).mpr (by exact_mod_cast hp.sq)
    have hlt2 : ⌊fNthHi F n⌋₊ < nthPrime n + nthPrime n / 16 + 60 := (Nat.floor_lt' (by omega)).mpr hp.lt
    have hp11 : nthPrime n ≤ 11534336 - 1 := (nthPrime_le_iff (by omega)).mpr (by rw [← estRange.1.count]; exact h)
    have h20 : 2 ^ 20 ≤ 2 ^ k := Nat.pow_le_pow_right (by norm_num) hk2
    have := Nat.mul_le_mul h20 (show 20 ≤ k + c + 1 by omega)
    omega

/-- **C36** for `u64` and every `1 ≤ n ≤ 2^57` the call `nth_prime_est(n)` returns a value between the bounds of
`nth_prime_bounds(n)` -/
theorem C36_nth_prime_est_u64 (bld : Build) (F : FloatOps) (hF : F.Accurate) (n : ℕ) (h1 : 1 ≤ n) (hn : n ≤ 2 ^ 57) :
    ∃ lo hi, nthPrimeBounds bld (some 64) (floatEstimates F) n = .ok (some (lo, hi)) ∧ ∀ fuel, hi - lo ≤ fuel →
      ∃ v, nthPrimeEst bld (some 64) (floatEstimates F) n fuel = .ok (some v) ∧ lo ≤ v ∧ v ≤ hi := by
  have h9 : (2 : ℕ) ^ 64 ≤ 2 ^ 990 := Nat.pow_le_pow_right (by norm_num) (by norm_num)
  have key : ∃ lo hi, nthPrimeBounds bld (some 64) (floatEstimates F) n = .ok (some (lo, hi)) ∧ hi + hi < 2 ^ 64 := by
    by_cases ht : n ≤ (smallPrimes bld).length
    · have he := estOK_table (floatEstimates F) h1 ht
      exact ⟨_, _, he.bounds, by have := he.lt; omega⟩
    · have hlen := smallPrimes_length_ge bld
      have := fNthHi_le (c := 4) hF (show 54 < n by omega) hn (by norm_num) (by norm_num) (by
        have h1 : 27182 / 10000 ≤ Real.exp 1 := by have := Real.exp_one_gt_d9; linarith
        have h2 : Real.exp ((4 : ℕ) : ℝ) = Real.exp 1 ^ 4 := by rw [← Real.exp_nat_mul, mul_one]
        rw [h2]
        exact le_trans (by norm_num) (pow_le_pow_left₀ (by norm_num) h1 4))
      exact ⟨_, _, by rw [nthBounds_eq hF ht (by omega), if_pos (fits_some.mpr (by omega))], by omega⟩
  obtain ⟨lo, hi, hb, hhi⟩ := key
  exact ⟨lo, hi, hb, fun fuel hf =>
    C36_nth_prime_est_float bld (some 64) std64 F hF n lo hi (by omega) hb (fits_some.mpr hhi) (by omega) fuel hf⟩

/-- **C36** the same for `BigUint` and every `1 ≤ n ≤ 2^970` -/
theorem C36_nth_prime_est_biguint (bld : Build) (F : FloatOps) (hF : F.Accurate) (n : ℕ) (h1 : 1 ≤ n) (hn : n ≤ 2 ^ 970) :
    ∃ lo hi, nthPrimeBounds bld none (floatEstimates F) n = .ok (some (lo, hi)) ∧ ∀ fuel, hi - lo ≤ fuel →
      ∃ v, nthPrimeEst bld none (floatEstimates F) n fuel = .ok (some v) ∧ lo ≤ v ∧ v ≤ hi := by
  have h9 : (2 : ℕ) ^ 990 = 2 ^ 970 * 1048576 := by rw [show (1048576 : ℕ) = 2 ^ 20 by norm_num, ← pow_add]
  have h97 : (2 : ℕ) ^ 64 ≤ 2 ^ 970 := Nat.pow_le_pow_right (by norm_num) (by norm_num)
  have hn9 : n ≤ 2 ^ 990 := by
    generalize (2 : ℕ) ^ 970 = A at *
    generalize (2 : ℕ) ^ 990 = B at *
    omega
  have key : ∃ lo hi, nthPrimeBounds bld none (floatEstimates F) n = .ok (some (lo, hi)) ∧ hi ≤ 2 ^ 990 := by
    by_cases ht : n ≤ (smallPrimes bld).length
    · have he := estOK_table (floatEstimates F) h1 ht
      have hl := he.lt
      refine ⟨_, _, nthPrimeBounds_table _ h1 ht rfl, ?_⟩
      generalize (2 : ℕ) ^ 970 = A at *
      generalize (2 : ℕ) ^ 990 = B at *
      omega
    · have hlen := smallPrimes_length_ge bld
      have := fNthHi_le (c := 7) hF (show 54 < n by omega) hn (by norm_num) (by norm_num) (by
        have h1 : 27182 / 10000 ≤ Real.exp 1 := by have := Real.exp_one_gt_d9; linarith
        have h2 : Real.exp ((7 : ℕ) : ℝ) = Real.exp 1 ^ 7 := by rw [← Real.exp_nat_mul, mul_one]
        rw [h2]
        exact le_trans (by norm_num) (pow_le_pow_left₀ (by norm_num) h1 7))
      refine ⟨_, _, nthBounds_eq (w := none) hF ht hn9, this.trans ?_⟩
      rw [h9]
      exact Nat.mul_le_mul_left _ (by norm_num)
  obtain ⟨lo, hi, hb, hhi⟩ := key
  exact ⟨lo, hi, hb, fun fuel hf => C36_nth_prime_est_float bld none (Or.inl rfl) F hF n lo hi hn9 hb rfl hhi fuel hf⟩

/-- the bounds at `n = 5000` -/
theorem nth_5000 {F : FloatOps} (hF : F.Accurate) : 48000 ≤ ⌊fNthLo F 5000⌋₊ ∧ ⌊fNthLo F 5000⌋₊ < 49000 ∧
    50000 ≤ ⌊fNthHi F 5000⌋₊ ∧ ⌊fNthHi F 5000⌋₊ < 51000 := by
  have hv : (LnRef.mk 1 0 0).Valid := ⟨Nat.one_pos, by simp, by simp⟩
  have hc : nthBox ⟨1, 0, 0⟩ ⟨1, 0, 0⟩ 5000 5000 (fun _ _ B => ((nthLoE 5000).ieval B).any fun l =>
      ((nthHiE 5000).ieval B).any fun u =>
        (leScaled 48000 l.lo && ltScaled l.hi 49000) && (leScaled 50000 u.lo && ltScaled u.hi 51000)) = true := by
    decide +kernel
  obtain ⟨_, _, B, _, _, h, hB⟩ := nthBox_sound hv hv hc
  obtain ⟨l, hl, h⟩ := Option.any_eq_true _ _ |>.mp h
  obtain ⟨u, hu, h⟩ := Option.any_eq_true _ _ |>.mp h
  simp only [Bool.and_eq_true] at h
  have hBx := hB F hF 5000 le_rfl le_rfl
  have v1 := FE.ieval_sound hF hBx _ hl
  have v2 := FE.ieval_sound hF hBx _ hu
  rw [nthLoE_eval] at v1
  rw [nthHiE_eval] at v2
  exact ⟨Nat.le_floor (leScaled_le v1 h.1.1), (Nat.floor_lt' (by norm_num)).mpr (ltScaled_lt v1 (by norm_num) h.1.2),
    Nat.le_floor (leScaled_le v2 h.2.1), (Nat.floor_lt' (by norm_num)).mpr (ltScaled_lt v2 (by norm_num) h.2.2)⟩

/-- **C36** finding: `nth_prime_est::<u16>(&5000)` panics (in a debug build) although the bounds, and the 5000th prime 48611,
fit the type: the sum of the bounds does not -/
theorem C36_nth_prime_est_u16_panics (F : FloatOps) (hF : F.Accurate) (bld : Build) :
    (∃ lo hi, nthPrimeBounds bld (some 16) (floatEstimates F) 5000 = .ok (some (lo, hi))) ∧
      ∀ fuel, nthPrimeEst bld (some 16) (floatEstimates F) 5000 (fuel + 1) = .panic := by
  obtain ⟨h1, h2, h3, h6⟩ := nth_5000 hF
  have hlen := smallPrimes_length_le bld
  have hb : nthPrimeBounds bld (some 16) (floatEstimates F) 5000 = .ok (some (⌊fNthLo F 5000⌋₊, ⌊fNthHi F 5000⌋₊)) := by
    rw [nthBounds_eq hF (by omega) (le_trans (show 5000 ≤ 2 ^ 20 by norm_num) (Nat.pow_le_pow_right (by norm_num) (by norm_num))),
      if_pos (fits_some.mpr (by omega))]
  refine ⟨⟨_, _, hb⟩, fun fuel => ?_⟩
  generalize ⌊fNthLo F 5000⌋₊ = lo at *
  generalize ⌊fNthHi F 5000⌋₊ = hi at *
  have hc : cadd (some 16) lo hi = .panic := by
    unfold cadd
    rw [if_neg (by rw [fits_some]; omega)]
  have h4 : ¬ lo = hi := by omega
  have h5 : ¬ lo = hi - 1 := by omega
  simp only [nthPrimeEst, hb, Res.bind_ok, h4, if_false, nthPrimeEstLoop, csub_ok (show 1 ≤ hi by omega), h5, hc]
  rfl

/-! ## C71, C72: the size of the bounds -/

/-- **C71 (partial)** for every `x ≥ 11534336` up to `2^990` the bounds are right up to a constant factor: `π(x) ≤ 3 lo`,
`hi ≤ 2 π(x)` and `lo ≤ hi`. Missing: `lo ≤ π(x) ≤ hi`, which is proved for smaller `x` in `C71_prime_pi_bounds_partial`. -/
theorem C71_prime_pi_bounds_factor_partial (bld : Build) (w : Width) (F : FloatOps) (hF : F.Accurate) (x : ℕ)
    (h : 11534336 ≤ x) (hx : x ≤ 2 ^ 990) (lo hi : ℕ) (hb : primePiBounds bld w (floatEstimates F) x = .ok (lo, hi)) :
    lo ≤ hi ∧ Nat.primeCounting x ≤ 3 * lo ∧ hi ≤ 2 * Nat.primeCounting x := by
  obtain ⟨h1, h2, h3, h4, h5⟩ := fPi_far hF h hx
  have hlast : ¬ (x < 2 ^ 64 ∧ x ≤ (smallPrimes bld).getLastD 0) := by
    have := smallPrimes_last bld
    split at this <;> omega
  have e : lo = ⌊fPiLo F x⌋₊ ∧ hi = ⌊fPiHi F x⌋₊ := by
    unfold primePiBounds at hb
    rw [if_neg hlast] at hb
    simp only [floatEstimates, finiteF_eq (lt_finite hx) (show 0 ≤ fPiLo F x by linarith),
      finiteF_eq (lt_finite hx) (show 0 ≤ fPiHi F x by linarith), unwrapFloat, Res.bind_eq_ok, Res.pure_def, Res.ok.injEq,
      Prod.mk.injEq, unwrapFit, ite_eq_left_iff, reduceCtorEq, imp_false, not_not] at hb
    obtain ⟨a, ha, b, hb, rfl, rfl⟩ := hb
    split at ha
    · split at hb
      · injection ha with ha
        injection hb with hb
        exact ⟨ha.symm, hb.symm⟩
      · simp at hb
    · simp at ha
  obtain ⟨rfl, rfl⟩ := e
  have c1 := cheb_lower h
  have c2 := cheb_upper h
  have hl : 0 < Real.log x := Real.log_pos (by
    have : (11534336 : ℝ) ≤ x := by exact_mod_cast h
    linarith)
  have hpi : 759401 ≤ Nat.primeCounting x := by
    rw [estRange.1.count]
    exact Nat.monotone_primeCounting (by omega)
  have hpi' : (759401 : ℝ) ≤ Nat.primeCounting x := by exact_mod_cast hpi
  have f1 := Nat.lt_floor_add_one (fPiLo F x)
  have f2 := Nat.floor_le (show 0 ≤ fPiHi F x by linarith)
  refine ⟨Nat.floor_le_floor h2, ?_, ?_⟩
  · have : (Nat.primeCounting x : ℝ) ≤ 281 / 100 * fPiLo F x := le_of_mul_le_mul_right (by linarith) hl
    have : (Nat.primeCounting x : ℝ) ≤ 3 * (⌊fPiLo F x⌋₊ : ℝ) := by linarith
    exact_mod_cast this
  · have : fPiHi F x ≤ 2 * Nat.primeCounting x := le_of_mul_le_mul_right (by linarith) hl
    have : (⌊fPiHi F x⌋₊ : ℝ) ≤ 2 * (Nat.primeCounting x : ℝ) := by linarith
    exact_mod_cast this

-- in `u64`
example : ∃ lo hi, primePiBounds .small (some 64) (floatEstimates FloatOps.ieee) (10 ^ 19) = .ok (lo, hi) ∧ lo ≤ hi ∧
    Nat.primeCounting (10 ^ 19) ≤ 3 * lo ∧ hi ≤ 2 * Nat.primeCounting (10 ^ 19) := by
  have hx : 10 ^ 19 ≤ 2 ^ 990 := le_trans (show 10 ^ 19 ≤ 2 ^ 64 by norm_num) (Nat.pow_le_pow_right (by norm_num) (by norm_num))
  obtain ⟨lo, hi, h1, -⟩ := C75_prime_pi_bounds_returns .small (some 64) _ ieee_accurate (10 ^ 19) hx (fits_some.mpr (by norm_num))
  exact ⟨lo, hi, h1, C71_prime_pi_bounds_factor_partial .small (some 64) _ ieee_accurate _ (by norm_num) hx _ _ h1⟩

/-- **C72 (partial)** for every `n > 759401` up to `2^990` the bounds are right up to a constant factor: `p_n ≤ 3 lo`, `hi ≤ 4 p_n` and
`lo ≤ hi`. Missing: `lo ≤ p_n ≤ hi`, which is proved for smaller `n` in `C72_nth_prime_bounds_partial`. -/
theorem C72_nth_prime_bounds_factor_partial (bld : Build) (w : Width) (F : FloatOps) (hF : F.Accurate) (n : ℕ)
    (h : 759401 < n) (hn : n ≤ 2 ^ 990) (lo hi : ℕ) (hb : nthPrimeBounds bld w (floatEstimates F) n = .ok (some (lo, hi))) :
    lo ≤ hi ∧ nthPrime n ≤ 3 * lo ∧ hi ≤ 4 * nthPrime n := by
  have hlen := smallPrimes_length_le bld
  rw [nthBounds_eq hF (by omega) hn] at hb
  split at hb
  swap
  · simp at hb
  simp only [Res.ok.injEq, Option.some.injEq, Prod.mk.injEq] at hb
  obtain ⟨rfl, rfl⟩ := hb
  obtain ⟨h1, h2, h3⟩ := fNth_far hF h hn
  have hp : 11534336 ≤ nthPrime n := by
    by_contra hc
    have := (nthPrime_le_iff (by omega)).mp (show nthPrime n ≤ 11534336 - 1 by omega)
    rw [← estRange.1.count] at this
    omega
  obtain ⟨c1, c2⟩ := cheb_nth h hp (primeCounting_nthPrime (by omega))
  have hp' : (11534336 : ℝ) ≤ nthPrime n := by exact_mod_cast hp
  have f1 := Nat.lt_floor_add_one (fNthLo F n)
  have f2 := Nat.floor_le (show 0 ≤ fNthHi F n by linarith)
  refine ⟨Nat.floor_le_floor h2, ?_, ?_⟩
  · have : (nthPrime n : ℝ) ≤ 3 * (⌊fNthLo F n⌋₊ : ℝ) := by linarith
    exact_mod_cast this
  · have : (⌊fNthHi F n⌋₊ : ℝ) ≤ 4 * (nthPrime n : ℝ) := by linarith
    exact_mod_cast this

/-- **C72 (partial)** in this range `nth_prime_bounds(n)` returns such a pair if the type has room for `4 p_n` -/
theorem C72_nth_prime_bounds_factor_returns_partial (bld : Build) (w : Width) (F : FloatOps) (hF : F.Accurate) (n : ℕ)
    (h : 759401 < n) (hn : n ≤ 2 ^ 990) (hw : fits w (4 * nthPrime n) = true) :
    ∃ lo hi, nthPrimeBounds bld w (floatEstimates F) n = .ok (some (lo, hi)) := by
  have hlen := smallPrimes_length_le bld
  have e := nthBounds_eq (w := none) (bld := bld) hF (show ¬ n ≤ (smallPrimes bld).length by omega) hn
  simp only [fits, if_true] at e
  have hu := (C72_nth_prime_bounds_factor_partial bld none F hF n h hn _ _ e).2.2
  rw [nthBounds_eq hF (by omega) hn, fits_mono hu hw]
  exact ⟨_, _, rfl⟩

-- in `BigUint`
example : ∃ lo hi, nthPrimeBounds .big none (floatEstimates FloatOps.ieee) (2 ^ 500) = .ok (some (lo, hi)) ∧ lo ≤ hi ∧
    nthPrime (2 ^ 500) ≤ 3 * lo ∧ hi ≤ 4 * nthPrime (2 ^ 500) := by
  have h1 : 759401 < 2 ^ 500 := lt_of_lt_of_le (show 759401 < 2 ^ 20 by norm_num) (Nat.pow_le_pow_right (by norm_num) (by norm_num))
  have h2 : 2 ^ 500 ≤ 2 ^ 990 := Nat.pow_le_pow_right (by norm_num) (by norm_num)
  obtain ⟨lo, hi, h⟩ := C72_nth_prime_bounds_factor_returns_partial .big none _ ieee_accurate (2 ^ 500) h1 h2 rfl
  exact ⟨lo, hi, h, C72_nth_prime_bounds_factor_partial .big none _ ieee_accurate _ h1 h2 _ _ h⟩

/-! ## C76: the Riemann function -/

/-- **C76** the estimate of `prime_pi` with the large table is the Riemann function `R(x)`, up to the relative error `10^-7` and
rounding, for every `8161 < x < 2^64` -/
theorem C76_prime_pi_est_riemann (w : Width) (F : FloatOps) (hF : F.Accurate) (x v : ℕ) (h : 8161 < x) (hx : x < 2 ^ 64)
    (hv : primePiEst .big w (floatEstimates F) x = .ok v) :
    |(v : ℝ) - riemannR x| ≤ 2 + riemannR x / 10 ^ 7 := by
  have hx' : x ≤ 2 ^ 990 := hx.le.trans (Nat.pow_le_pow_right (by norm_num) (by norm_num))
  have hr := fPiEst_riemann hF (show 8162 ≤ x by omega) hx
  have h0 := (fPiEst_bounds hF (show 8162 ≤ x by omega) hx').1
  have q4 : (floatEstimates F).piEst x = some ⌊fPiEst F x⌋₊ := by
    simp only [floatEstimates]
    exact finiteF_eq (lt_finite hx') (by linarith)
  have hl := smallPrimes_last .big
  simp only [if_true] at hl
  simp only [primePiEst] at hv
  rw [if_neg (by omega), q4] at hv
  simp only [unwrapFloat, unwrapFit] at hv
  split at hv
  swap
  · simp at hv
  injection hv with hv
  subst hv
  have f1 := Nat.lt_floor_add_one (fPiEst F x)
  have f2 := Nat.floor_le (show 0 ≤ fPiEst F x by linarith)
  rw [abs_le] at hr ⊢
  constructor <;> linarith [hr.1, hr.2]

-- the bounds of `R` there are not assumed: the estimate exists
example : ∃ v : ℕ, primePiEst .big (some 64) (floatEstimates FloatOps.ieee) (10 ^ 18) = .ok v ∧
    |(v : ℝ) - riemannR ((10 ^ 18 : ℕ) : ℝ)| ≤ 2 + riemannR ((10 ^ 18 : ℕ) : ℝ) / 10 ^ 7 := by
  obtain ⟨v, h, -⟩ := C75_prime_pi_est_returns .big (some 64) std64 _ ieee_accurate (10 ^ 18)
    (le_trans (show 10 ^ 18 ≤ 2 ^ 64 by norm_num) (Nat.pow_le_pow_right (by norm_num) (by norm_num))) (fits_some.mpr (by norm_num))
  exact ⟨v, h, C76_prime_pi_est_riemann _ _ ieee_accurate _ v (by norm_num) (by norm_num) h⟩

theorem primePiEst_big {w : Width} {F : FloatOps} (hF : F.Accurate) {x v : ℕ} (h : 8161 < x) (hx : x ≤ 2 ^ 990)
    (hv : primePiEst .big w (floatEstimates F) x = .ok v) : (v : ℝ) ≤ fPiEst F x := by
  have h0 := (fPiEst_bounds hF (show 8162 ≤ x by omega) hx).1
  have q4 : (floatEstimates F).piEst x = some ⌊fPiEst F x⌋₊ := by
    simp only [floatEstimates]
    exact finiteF_eq (lt_finite hx) (by linarith)
  have hl := smallPrimes_last .big
  simp only [if_true] at hl
  simp only [primePiEst] at hv
  rw [if_neg (by omega), q4] at hv
  simp only [unwrapFloat, unwrapFit] at hv
  split at hv
  swap
  · simp at hv
  injection hv with hv
  subst hv
  exact Nat.floor_le (by linarith)

/-- **C76** finding: beyond `u64` the estimate is wrong, since the series is cut off after 99 terms. At `2^127`, in `u128`, it is
at least two percent below `R(x)`. -/
theorem C76_prime_pi_est_u128_wrong (F : FloatOps) (hF : F.Accurate) :
    ∃ v : ℕ, primePiEst .big (some 128) (floatEstimates F) (2 ^ 127) = .ok v ∧ (v : ℝ) ≤ 98 / 100 * riemannR ((2 ^ 127 : ℕ) : ℝ) := by
  have hx : 2 ^ 127 ≤ 2 ^ 990 := Nat.pow_le_pow_right (by norm_num) (by norm_num)
  obtain ⟨v, h, -⟩ := C75_prime_pi_est_returns .big (some 128) (Or.inr ⟨128, by simp, rfl⟩) F hF (2 ^ 127) hx (fits_some.mpr (by norm_num))
  exact ⟨v, h, (primePiEst_big hF (by norm_num) hx h).trans (fPiEst_two_pow_127 hF)⟩

/-- **C76** finding: for a `BigUint` the estimate can be off by any factor; at `2^300` it is less than `10^-11` of the number of
primes -/
theorem C76_prime_pi_est_biguint_wrong (F : FloatOps) (hF : F.Accurate) :
    ∃ v : ℕ, primePiEst .big none (floatEstimates F) (2 ^ 300) = .ok v ∧ v * 10 ^ 11 < Nat.primeCounting (2 ^ 300) := by
  have hx : 2 ^ 300 ≤ 2 ^ 990 := Nat.pow_le_pow_right (by norm_num) (by norm_num)
  obtain ⟨v, h, -⟩ := C75_prime_pi_est_returns .big none (Or.inl rfl) F hF (2 ^ 300) hx rfl
  have h1 := (primePiEst_big hF (lt_of_lt_of_le (show 8161 < 2 ^ 20 by norm_num) (Nat.pow_le_pow_right (by norm_num) (by norm_num))) hx h).trans_lt
    (fPiEst_two_pow_300 hF)
  have h2 : v < 10 ^ 76 := by exact_mod_cast h1
  refine ⟨v, h, lt_of_lt_of_le ?_ primeCounting_two_pow_300⟩
  calc v * 10 ^ 11 < 10 ^ 76 * 10 ^ 11 := Nat.mul_lt_mul_of_pos_right h2 (by norm_num)
    _ = 10 ^ 87 := by norm_num

end NumPrime
