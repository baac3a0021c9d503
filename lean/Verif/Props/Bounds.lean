import Verif.Proofs.Binary64
import Verif.Proofs.EstRange
import Verif.Proofs.FloatFar
import Verif.Props.PrimePi

/-! # The floating point estimates: `prime_pi_bounds` (C71), `nth_prime_bounds` (C72) and what depends on them

The formulas are modelled in Model/Float.lean. The theorems hold for every accurate floating point arithmetic, so for the one
of the machine (`FloatOps.ieee`) and for every implementation of `ln` and `exp` that is precise to 48 bits. -/

namespace NumPrime
open Spec

/-- exact arithmetic is accurate -/
theorem exact_accurate : FloatOps.exact.Accurate := by
  have h : ∀ x : ℝ, Rounds x x := fun x _ => by
    rw [sub_self, abs_zero]
    positivity
  exact ⟨fun _ => h _, fun _ _ => h _, fun _ _ => h _, fun _ _ => h _, fun _ _ => h _, fun _ _ _ => h _, fun _ _ => h _, fun _ => h _⟩

/-- an arithmetic in which every result is too large by the relative error `2^-50` -/
noncomputable def FloatOps.upward : FloatOps where
  ofNat x := x * (1 + 1 / 2 ^ 50)
  lit a b := a / b * (1 + 1 / 2 ^ 50)
  add x y := (x + y) * (1 + 1 / 2 ^ 50)
  sub x y := (x - y) * (1 + 1 / 2 ^ 50)
  mul x y := x * y * (1 + 1 / 2 ^ 50)
  div x y := x / y * (1 + 1 / 2 ^ 50)
  ln x := Real.log x * (1 + 1 / 2 ^ 50)
  exp x := Real.exp x * (1 + 1 / 2 ^ 50)

theorem upward_accurate : FloatOps.upward.Accurate := by
  have h : ∀ x : ℝ, Rounds x (x * (1 + 1 / 2 ^ 50)) := fun x _ => by
    have : x * (1 + 1 / 2 ^ 50) - x = x / 2 ^ 50 := by ring
    rw [this, abs_div, abs_of_pos (by positivity : (0 : ℝ) < 2 ^ 50)]
    have : |x| / 2 ^ 50 ≤ |x| / 2 ^ 48 := div_le_div_of_nonneg_left (abs_nonneg x) (by positivity) (by norm_num)
    have h0 : (0 : ℝ) ≤ 1 / 2 ^ 1000 := by positivity
    linarith
  exact ⟨fun _ => h _, fun _ _ => h _, fun _ _ => h _, fun _ _ => h _, fun _ _ => h _, fun _ _ _ => h _, fun _ _ => h _, fun _ => h _⟩

theorem floor_le_of_lt_succ {x : ℝ} {n : ℕ} (h : x < (n : ℝ) + 1) : ⌊x⌋₊ ≤ n := by
  have : ⌊x⌋₊ < n + 1 := (Nat.floor_lt' (by omega)).mpr (by exact_mod_cast h)
  omega

theorem unwrapFit_of_fits {w : Width} {x : ℕ} (h : fits w x = true) : unwrapFit w x = .ok x := by
  simp only [unwrapFit, h, if_true]

theorem lt_finite {x : ℕ} (h : x ≤ 2 ^ 990) : x < 2 ^ 1024 - 2 ^ 970 := by
  have h1 : (2 : ℕ) ^ 1024 = 2 ^ 990 * 2 ^ 34 := by rw [← pow_add]
  have h2 : (2 : ℕ) ^ 990 = 2 ^ 970 * 2 ^ 20 := by rw [← pow_add]
  have h3 : 0 < (2 : ℕ) ^ 970 := by positivity
  generalize (2 : ℕ) ^ 1024 = A at *
  generalize (2 : ℕ) ^ 990 = B at *
  generalize (2 : ℕ) ^ 970 = C at *
  omega

theorem finiteF_eq {x : ℕ} {v : ℝ} (hx : x < 2 ^ 1024 - 2 ^ 970) (hv : 0 ≤ v) : finiteF x v = some ⌊v⌋₊ := by
  unfold finiteF truncF
  rw [if_pos hx, if_neg (by linarith)]

/-! ## C71 -/

/-- `prime_pi_bounds` beyond the table -/
theorem primePiBounds_float {bld : Build} {w : Width} {F : FloatOps} (hF : F.Accurate) {x : ℕ} (h252 : 252 ≤ x) (hx : x < 2 ^ 1024 - 2 ^ 970)
    (hlast : ¬ (x < 2 ^ 64 ∧ x ≤ (smallPrimes bld).getLastD 0)) (hw : fits w x = true) (h0 : 0 ≤ fPiLo F x) (h0' : 0 ≤ fPiHi F x)
    (hle : ⌊fPiLo F x⌋₊ ≤ ⌊fPiHi F x⌋₊) (hlt : fPiHi F x < x / 2) :
    primePiBounds bld w (floatEstimates F) x = .ok (⌊fPiLo F x⌋₊, ⌊fPiHi F x⌋₊) := by
  have h3 : ⌊fPiHi F x⌋₊ < x := (Nat.floor_lt' (by omega)).mpr (by
    have : (0 : ℝ) ≤ x := Nat.cast_nonneg x
    linarith)
  have f1 : fits w ⌊fPiLo F x⌋₊ = true := fits_mono (by omega) hw
  have f2 : fits w ⌊fPiHi F x⌋₊ = true := fits_mono (by omega) hw
  unfold primePiBounds
  rw [if_neg hlast]
  simp only [floatEstimates, finiteF_eq hx h0, finiteF_eq hx h0', unwrapFloat, unwrapFit_of_fits f1, unwrapFit_of_fits f2]
  rfl

/-- **C71 (partial)** `prime_pi_bounds(x) = (lo, hi)` with `lo ≤ π(x) ≤ hi`, for every integer type, every table and every accurate
floating point arithmetic. Missing: `x ≥ 11534336`, where the bounds rest on analytic estimates (Dusart) that are not available
as formal proofs; the formulas for `x ≥ 2953652287` are therefore not covered. -/
theorem C71_prime_pi_bounds_partial (bld : Build) (w : Width) (F : FloatOps) (hF : F.Accurate) (x : ℕ)
    (hx : x < 11534336) (hw : fits w x = true) :
    ∃ lo hi, primePiBounds bld w (floatEstimates F) x = .ok (lo, hi) ∧ lo ≤ Nat.primeCounting x ∧
      Nat.primeCounting x ≤ hi := by
  by_cases ht : x ≤ if bld = .big then 8161 else 251
  · exact ⟨_, _, C34_prime_pi_bounds bld _ w x hw ht, le_rfl, le_rfl⟩
  · have h252 : 252 ≤ x := by
      split at ht <;> omega
    have hlast : ¬ (x < 2 ^ 64 ∧ x ≤ (smallPrimes bld).getLastD 0) := by
      have := smallPrimes_last bld
      omega
    have hp := estRange.1.pi F hF x h252 hx
    have h1 : ⌊fPiLo F x⌋₊ ≤ Nat.primeCounting x := floor_le_of_lt_succ hp.lo
    have h2 : Nat.primeCounting x ≤ ⌊fPiHi F x⌋₊ := Nat.le_floor hp.hi
    exact ⟨_, _, primePiBounds_float hF h252 (lt_finite (by omega)) hlast hw hp.pos (hp.hi.trans' (Nat.cast_nonneg _)) (h1.trans h2) hp.lt, h1, h2⟩

-- two arithmetics, beyond the larger table, in `u32`
example : ∃ lo hi, primePiBounds .big (some 32) (floatEstimates FloatOps.ieee) 10000000 = .ok (lo, hi) ∧
    lo ≤ Nat.primeCounting 10000000 ∧ Nat.primeCounting 10000000 ≤ hi :=
  C71_prime_pi_bounds_partial .big (some 32) _ ieee_accurate 10000000 (by norm_num) (by decide)
example : ∃ lo hi, primePiBounds .small (some 16) (floatEstimates FloatOps.upward) 252 = .ok (lo, hi) ∧
    lo ≤ Nat.primeCounting 252 ∧ Nat.primeCounting 252 ≤ hi :=
  C71_prime_pi_bounds_partial .small (some 16) _ upward_accurate 252 (by norm_num) (by decide)

/-! ## C72 -/

theorem nthBounds_float {bld : Build} (F : FloatOps) (hF : F.Accurate) {n : ℕ} (h54 : 54 < n)
    (hn : n ≤ 759401) (ht : ¬ n ≤ (smallPrimes bld).length) (w : Width) :
    (∀ lo hi, nthPrimeBounds bld w (floatEstimates F) n = .ok (some (lo, hi)) → lo = ⌊fNthLo F n⌋₊ ∧ hi = ⌊fNthHi F n⌋₊) ∧
      (fits w ⌊fNthHi F n⌋₊ = true →
        nthPrimeBounds bld w (floatEstimates F) n = .ok (some (⌊fNthLo F n⌋₊, ⌊fNthHi F n⌋₊))) ∧
      ⌊fNthLo F n⌋₊ ≤ nthPrime n ∧ nthPrime n ≤ ⌊fNthHi F n⌋₊ ∧
      ⌊fNthHi F n⌋₊ < nthPrime n + nthPrime n / 16 + 60 ∧ ⌊fNthHi F n⌋₊ < n * n ∧ (4096 < n → 300 ≤ ⌊fNthLo F n⌋₊) := by
  have hp := estRange.1.nth F hF n h54 hn
  have hb : 0 ≤ fNthHi F n := le_trans (Nat.cast_nonneg _) hp.hi
  have e1 : finiteF n (fNthLo F n) = some ⌊fNthLo F n⌋₊ := finiteF_eq (lt_finite (by omega)) hp.pos
  have e2 : finiteF n (fNthHi F n) = some ⌊fNthHi F n⌋₊ := finiteF_eq (lt_finite (by omega)) hb
  have h1 : ⌊fNthLo F n⌋₊ ≤ nthPrime n := floor_le_of_lt_succ hp.lo
  have h2 : nthPrime n ≤ ⌊fNthHi F n⌋₊ := Nat.le_floor hp.hi
  have h0 : ¬ n = 0 := by omega
  have he : nthPrimeBounds bld w (floatEstimates F) n =
      if fits w ⌊fNthLo F n⌋₊ && fits w ⌊fNthHi F n⌋₊ then .ok (some (⌊fNthLo F n⌋₊, ⌊fNthHi F n⌋₊)) else .ok none := by
    simp only [nthPrimeBounds, h0, ht, if_false, floatEstimates, e1, e2]
  refine ⟨fun lo hi h => ?_, fun hf => ?_, h1, h2, ?_, ?_, fun h => Nat.le_floor (by exact_mod_cast hp.big h)⟩
  · rw [he] at h
    split at h
    · simp only [Res.ok.injEq, Option.some.injEq, Prod.mk.injEq] at h
      exact ⟨h.1.symm, h.2.symm⟩
    · simp at h
  · rw [he, hf, fits_mono (by omega) hf]
    rfl
  · exact (Nat.floor_lt' (by omega)).mpr hp.lt
  · exact (Nat.floor_lt' (by have := Nat.mul_pos (show 0 < n by omega) (show 0 < n by omega); omega)).mpr (by exact_mod_cast hp.sq)

theorem smallPrimes_length_ge (bld : Build) : 54 ≤ (smallPrimes bld).length := by cases bld <;> decide +kernel

/-- **C72 (partial)** whenever `nth_prime_bounds(n)` returns `Some((lo, hi))` for `n ≥ 1`, `lo ≤ p_n ≤ hi`, for every integer type, every
table and every accurate floating point arithmetic. Missing: `n > 759401`, where the bounds rest on analytic estimates (Dusart,
Axler) that are not available as formal proofs; the formulas for `n ≥ 8009824` are therefore not covered. -/
theorem C72_nth_prime_bounds_partial (bld : Build) (w : Width) (F : FloatOps) (hF : F.Accurate) (n : ℕ)
    (h1 : 1 ≤ n) (hn : n ≤ 759401) (lo hi : ℕ) (h : nthPrimeBounds bld w (floatEstimates F) n = .ok (some (lo, hi))) :
    lo ≤ nthPrime n ∧ nthPrime n ≤ hi := by
  by_cases ht : n ≤ (smallPrimes bld).length
  · by_cases hw : fits w (nthPrime n) = true
    · rw [nthPrimeBounds_table _ h1 ht hw] at h
      simp only [Res.ok.injEq, Option.some.injEq, Prod.mk.injEq] at h
      omega
    · have he : (smallPrimes bld)[n - 1]? = some (nthPrime n) := (Buf.inv_new bld).getElem? (by simp only [Buf.new]; omega)
      have : n ≠ 0 := by omega
      simp only [nthPrimeBounds, this, if_false, ht, if_true, smallPrimeAt, he, Res.bind_ok, unwrapFit, hw] at h
      simp at h
  · have := smallPrimes_length_ge bld
    obtain ⟨k1, -, k3, k4, -⟩ := nthBounds_float (bld := bld) F hF (by omega) hn ht w
    obtain ⟨rfl, rfl⟩ := k1 lo hi h
    exact ⟨k3, k4⟩

/-- **C72 (partial)** in the same range `nth_prime_bounds(n)` returns such a pair if the type has room for a little more than
the `n`-th prime -/
theorem C72_nth_prime_bounds_returns_partial (bld : Build) (w : Width) (F : FloatOps) (hF : F.Accurate) (n : ℕ)
    (h1 : 1 ≤ n) (hn : n ≤ 759401) (hw : fits w (nthPrime n + nthPrime n / 16 + 60) = true) :
    ∃ lo hi, nthPrimeBounds bld w (floatEstimates F) n = .ok (some (lo, hi)) := by
  by_cases ht : n ≤ (smallPrimes bld).length
  · exact ⟨_, _, nthPrimeBounds_table _ h1 ht (fits_mono (by omega) hw)⟩
  · have := smallPrimes_length_ge bld
    obtain ⟨-, k2, -, -, k5, -⟩ := nthBounds_float (bld := bld) F hF (by omega) hn ht w
    exact ⟨_, _, k2 (fits_mono (by omega) hw)⟩

-- the hundred-thousandth prime
example : ∃ lo hi, nthPrimeBounds .big (some 32) (floatEstimates FloatOps.upward) 100000 = .ok (some (lo, hi)) ∧
    lo ≤ nthPrime 100000 ∧ nthPrime 100000 ≤ hi := by
  have h9 : nthPrime 100000 ≤ 10629728 := (nthPrime_le_iff (by norm_num)).mpr (by rw [← estRange.2.count]; norm_num)
  obtain ⟨lo, hi, h⟩ := C72_nth_prime_bounds_returns_partial .big (some 32) _ upward_accurate 100000 (by norm_num) (by norm_num)
    (fits_some.mpr (by omega))
  exact ⟨lo, hi, h, C72_nth_prime_bounds_partial .big (some 32) _ upward_accurate 100000 (by norm_num) (by norm_num) lo hi h⟩

/-! ## what depends on the estimates -/

/-- **C25** with the floating point bounds of the crate `nprimes(count)` returns the first `count` primes, for every
`count ≤ 759401`, after any history in which the stored primes stayed below `2^32` -/
theorem C25_nprimes_float (bld : Build) (F : FloatOps) (hF : F.Accurate) (g f : ℕ) (b : Buf)
    (h : Reachable bld (floatEstimates F) g f b) (count : ℕ) (hc : count ≤ 759401) (hs : ∀ p ∈ b.iter, p < 2 ^ 32) :
    ∃ b', Buf.nprimes bld (floatEstimates F) b count = .ok (firstPrimes count, b') := by
  obtain ⟨l, b', hl⟩ := C25_nprimes_returns bld _ g f b h count hs (fun hlt => by
    have hlen := smallPrimes_length_ge bld
    have hp := estRange.1.nth F hF count (by omega) hc
    obtain ⟨-, -, k3, k4, -, k6, -⟩ := nthBounds_float (bld := bld) F hF (n := count) (by omega) hc (by omega) none
    have hsq : count * count ≤ 759401 * 759401 := Nat.mul_le_mul hc hc
    have hb : 0 ≤ fNthHi F count := le_trans (Nat.cast_nonneg _) hp.hi
    exact ⟨⌊fNthLo F count⌋₊, ⌊fNthHi F count⌋₊, by simp only [floatEstimates]; exact finiteF_eq (lt_finite (by omega)) hp.pos,
      by simp only [floatEstimates]; exact finiteF_eq (lt_finite (by omega)) hb, by omega, k4, by omega⟩)
  exact ⟨b', by rw [hl, C25_nprimes_exact bld _ g f b h count l b' hl]⟩

end NumPrime
