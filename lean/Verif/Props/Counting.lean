import Verif.Props.Estimates

/-! # Prime counting with the floating point estimates of the crate: C30, C31, C32

The theorems of Props/PrimePi.lean about calls that return have hypotheses on the estimates; here they are discharged for the
floating point formulas. -/

namespace NumPrime
open Spec

/-- Chebyshev: there are more than `28 * 10^16` primes below `2^64` -/
theorem pi_u64 : 28 * 10 ^ 16 ≤ Nat.primeCounting (2 ^ 64 - 1) := by
  have h := cheb_lower (x := 2 ^ 64 - 1) (by norm_num)
  have hl : Real.log ((2 ^ 64 - 1 : ℕ) : ℝ) ≤ 64 * (6931472 / 10 ^ 7) := by
    have h1 : Real.log ((2 ^ 64 - 1 : ℕ) : ℝ) ≤ Real.log ((2 : ℝ) ^ 64) := Real.log_le_log (by norm_num) (by norm_num)
    rw [Real.log_pow] at h1
    have := Real.log_two_lt_d9
    push_cast at h1 ⊢
    linarith
  have h2 : (Nat.primeCounting (2 ^ 64 - 1) : ℝ) * Real.log ((2 ^ 64 - 1 : ℕ) : ℝ) ≤
      Nat.primeCounting (2 ^ 64 - 1) * (64 * (6931472 / 10 ^ 7)) := mul_le_mul_of_nonneg_left hl (Nat.cast_nonneg _)
  generalize Nat.primeCounting (2 ^ 64 - 1) = P at *
  have h3 : (28 * 10 ^ 16 : ℝ) ≤ P := by
    have h4 := h.trans h2
    norm_num at h4
    linarith
  exact_mod_cast h3

theorem nthPrime_u64 {n : ℕ} (h1 : 1 ≤ n) (hn : n ≤ 28 * 10 ^ 16) : nthPrime n < 2 ^ 64 := by
  have := (nthPrime_le_iff h1).mpr (hn.trans pi_u64)
  omega

/-- the bounds on the `n`-th prime beyond the certified range -/
theorem nth_far_u64 {F : FloatOps} (hF : F.Accurate) {n : ℕ} (h : 759401 < n) (hn : n ≤ 2 * 10 ^ 17) :
    300 ≤ ⌊fNthLo F n⌋₊ ∧ ⌊fNthHi F n⌋₊ < 2 ^ 63 ∧ ⌊fNthHi F n⌋₊ ≤ n * n := by
  have hn9 : n ≤ 2 ^ 990 := by
    have h9 : (2 : ℕ) ^ 64 ≤ 2 ^ 990 := Nat.pow_le_pow_right (by norm_num) (by norm_num)
    omega
  obtain ⟨h1, -, h3⟩ := fNth_far hF h hn9
  have hn0 : (759401 : ℝ) ≤ n := by exact_mod_cast h.le
  have hl1 := log_ge_of (n := 13) (c := 759401) (by norm_num) h.le (by omega)
  push_cast at hl1
  have hll0 : 0 ≤ Real.log (Real.log n) := Real.log_nonneg (by linarith)
  have h2 := Real.log_two_lt_d9
  have hl : Real.log n ≤ 3998 / 100 := by
    have h4 : Real.log ((n : ℝ) ^ 3) ≤ Real.log (2 ^ 173) := by
      refine Real.log_le_log (by positivity) (le_trans (pow_le_pow_left₀ (by linarith) (show (n : ℝ) ≤ 2 * 10 ^ 17 by exact_mod_cast hn) 3) ?_)
      norm_num
    rw [Real.log_pow, Real.log_pow] at h4
    push_cast at h4
    linarith
  have hll : Real.log (Real.log n) ≤ 37 / 10 := by
    have h4 : Real.log (Real.log n ^ 3) ≤ Real.log (2 ^ 16) := by
      refine Real.log_le_log (by positivity) (le_trans (pow_le_pow_left₀ (by linarith) hl 3) ?_)
      norm_num
    rw [Real.log_pow, Real.log_pow] at h4
    push_cast at h4
    linarith
  have h5 : fNthHi F n ≤ n * (4468 / 100) := h3.trans (mul_le_mul_of_nonneg_left (by linarith) (by linarith))
  have hnr : (n : ℝ) ≤ ((2 * 10 ^ 17 : ℕ) : ℝ) := Nat.cast_le.mpr hn
  refine ⟨Nat.le_floor ?_, (Nat.floor_lt' (by norm_num)).mpr ?_, Nat.floor_le_of_le ?_⟩
  · refine le_trans ?_ h1
    have : (n : ℝ) * 1 ≤ n * (Real.log n + Real.log (Real.log n) - 3) := mul_le_mul_of_nonneg_left (by linarith) (by linarith)
    push_cast
    linarith
  · have e1 : ((2 * 10 ^ 17 : ℕ) : ℝ) = 200000000000000000 := by norm_num
    have e2 : ((2 ^ 63 : ℕ) : ℝ) = 9223372036854775808 := by norm_num
    rw [e1] at hnr
    rw [e2]
    linarith
  · push_cast
    have : (n : ℝ) * (4468 / 100) ≤ n * n := mul_le_mul_of_nonneg_left (by linarith) (by linarith)
    linarith

/-- the floating point estimates are good enough for `prime_pi`, `prime_phi` and `nth_prime` to return -/
theorem goodEstimates_float (bld : Build) (F : FloatOps) (hF : F.Accurate) {N : ℕ} (hN : N ≤ 2 * 10 ^ 17) :
    GoodEstimates bld (floatEstimates F) N := by
  intro n h1 h2
  by_cases ht : n ≤ (smallPrimes bld).length
  · exact goodEstimates_table _ (N := n) ht n h1 le_rfl
  · have hlen := smallPrimes_length_ge bld
    have h9 : (2 : ℕ) ^ 64 ≤ 2 ^ 990 := Nat.pow_le_pow_right (by norm_num) (by norm_num)
    have hb := nthBounds_eq (w := some 64) hF ht (show n ≤ 2 ^ 990 by omega)
    have hord := (fNth_order hF (show 54 < n by omega) (show n ≤ 2 ^ 990 by omega)).2.2
    have key : ⌊fNthHi F n⌋₊ < 2 ^ 63 ∧ (4096 < n → 300 ≤ ⌊fNthLo F n⌋₊) ∧ ⌊fNthHi F n⌋₊ ≤ n * n ∧
        (n ≤ 4096 → nthPrime n ≤ ⌊fNthHi F n⌋₊ ∧ ⌊fNthHi F n⌋₊ < 2 ^ 31) := by
      rcases Nat.lt_or_ge 759401 n with h | h
      · obtain ⟨q1, q2, q3⟩ := nth_far_u64 hF h (by omega)
        exact ⟨q2, fun _ => q1, q3, fun h4 => by omega⟩
      · obtain ⟨-, -, k3, k4, k5, k6, k7⟩ := nthBounds_float (bld := bld) F hF (by omega) h ht (some 64)
        have hp : nthPrime n ≤ 11534336 - 1 := (nthPrime_le_iff (by omega)).mpr (by rw [← estRange.1.count]; exact h)
        exact ⟨by omega, k7, k6.le, fun _ => ⟨k4, by omega⟩⟩
    obtain ⟨k1, k2, k3, k4⟩ := key
    refine ⟨⌊fNthLo F n⌋₊, ⌊fNthHi F n⌋₊, ⟨by rw [hb, if_pos (fits_some.mpr (by omega))], hord, fun h => (k4 h).1,
      nthPrime_u64 h1 (by omega), k1, fun h => (k4 h).2, k2, fun _ x _ hx => ?_⟩, fun _ => k3⟩
    obtain ⟨v, hv, -⟩ := C75_prime_pi_est_returns bld (some 64) std64 F hF x (by omega) (fits_some.mpr (by omega))
    exact ⟨v, hv⟩

/-! ## C30 -/

/-- **C30** with the floating point bounds of the crate `prime_pi(x)` returns the number of primes up to `x`, for every
`x < 38891^2 = 1512509881`; nothing is assumed of `is_prime64` -/
theorem C30_prime_pi_float (bld : Build) (F : FloatOps) (hF : F.Accurate) (x : ℕ) (hx : x < 38891 ^ 2) :
    ∃ G, ∀ g f b, G ≤ g → x < f → Reachable bld (floatEstimates F) g f b → (∀ p ∈ b.iter, p < 2 ^ 32) →
      ∃ b', primePi bld (floatEstimates F) g f b x = .ok (Nat.primeCounting x, b') := by
  obtain ⟨G, hG⟩ := exists_fuel bld
  have hpi := pi_sqrt_small hx
  refine ⟨G, fun g f b hg hf h hs => ?_⟩
  have := primePi_wp (s := True) (o := floatEstimates F) (fun _ => hG g hg) f x (by omega) (fun _ => by omega) (fun _ => hf)
    (fun h => by omega) (fun _ => goodEstimates_float bld F hF (by omega)) b ⟨h.inv, fun _ => hs⟩
  obtain ⟨⟨v, b'⟩, hv⟩ := this.2 trivial
  exact ⟨b', hv.trans (by rw [show v = _ from (this.1 _ hv).1])⟩

/-- **C30 (partial)** with the floating point bounds of the crate, and if `is_prime64` has no pseudoprimes, `prime_pi(x)` returns
the number of primes up to `x` for every `x < u64::MAX`, after any history in which the stored primes stayed below `2^32`.
Missing: `x = u64::MAX`, where it is false (`C30_prime_pi_max`), and the proof that `is_prime64` has no pseudoprimes. -/
theorem C30_prime_pi_float_partial (bld : Build) (hex : NoPseudoprimes bld) (F : FloatOps) (hF : F.Accurate)
    (x : ℕ) (hx : x < 2 ^ 64 - 1) :
    ∃ G, ∀ g f b, G ≤ g → x < f → Reachable bld (floatEstimates F) g f b → (∀ p ∈ b.iter, p < 2 ^ 32) →
      ∃ b', primePi bld (floatEstimates F) g f b x = .ok (Nat.primeCounting x, b') := by
  have := pi_sqrt_le (show x < 2 ^ 64 by omega)
  exact C30_prime_pi_returns_partial bld hex _ x (by omega) (goodEstimates_float bld F hF (by omega))

/-- **C30 (partial)** the same for the free function; missing as above -/
theorem C30_nt_prime_pi_float_partial (bld : Build) (hex : NoPseudoprimes bld) (F : FloatOps) (hF : F.Accurate)
    (x : ℕ) (hx : x < 2 ^ 64 - 1) :
    ∃ G, ∀ g f, G ≤ g → x < f → ntPrimePi bld (floatEstimates F) g f x = .ok (Nat.primeCounting x) := by
  have := pi_sqrt_le (show x < 2 ^ 64 by omega)
  exact C30_nt_prime_pi bld hex _ x (by omega) (goodEstimates_float bld F hF (by omega))

/-! ## C31 -/

/-- **C31 (partial)** with the floating point bounds of the crate, and if `is_prime64` has no pseudoprimes (needed for `a > 4096`
only), `prime_phi(x, a, cache)` returns the number of integers in `1..=x` that none of the first `a` primes divides, for every
`x < u64::MAX` and every `1 ≤ a ≤ 2 * 10^17`. Missing: `a = 0` and `x = u64::MAX`, where it is false (`C31_prime_phi_zero_panics`,
`C31_prime_phi_max`), larger `a` (see `C32_nth_prime_overflow`), and the proof that `is_prime64` has no pseudoprimes. -/
theorem C31_prime_phi_float_partial (bld : Build) (F : FloatOps) (hF : F.Accurate) (x a : ℕ) (hx : x < 2 ^ 64 - 1) (ha : 1 ≤ a)
    (ha17 : a ≤ 2 * 10 ^ 17) (hex : 4096 < a → NoPseudoprimes bld) :
    ∃ G, ∀ g f b c, G ≤ g → 2 ^ 63 ≤ f → Reachable bld (floatEstimates F) g f b → (∀ p ∈ b.iter, p < 2 ^ 32) →
      (∀ x a v, ((x, a), v) ∈ c.items → v = legendrePhi x a) →
      ∃ b' c', b.primePhi bld (floatEstimates F) g f x a c = .ok (legendrePhi x a, b', c') := by
  obtain ⟨G, hG⟩ := exists_fuel bld
  refine ⟨G, fun g f b c hg hf h hs hc => ?_⟩
  have hest := goodEstimates_float bld F hF (N := 2 * 10 ^ 17) le_rfl
  have hn : ∀ n, 1 ≤ n → n ≤ a → NthAt True (Buf.nthPrime bld (floatEstimates F) g f) n := by
    intro n h1 h2 b hb
    obtain ⟨lo, hi, he, -⟩ := hest n h1 (by omega)
    refine nthPrimeWith_wp (lo := lo) (hi := hi) h1 (by omega) (fun h => hex (by omega)) (fun _ => hG g hg) (fun _ => he) ?_ b hb
    intro h4 y hy hyh
    have hyh := hyh trivial
    have hlt := he.lt
    have := pi_sqrt_le (show y < 2 ^ 64 by omega)
    exact primePi_wp (fun _ => hG g hg) f y (by omega) (fun _ => hy) (fun _ => by omega) (fun _ => hex (by omega))
      (fun _ n' h1' h2' => hest n' h1' (by omega))
  have := primePhiWith_wp (s := True) (f := Buf.nthPrime bld (floatEstimates F) g f) a b c x ha hn ⟨h.inv, fun _ => hs⟩
    (fun e he => hc _ _ _ he) (fun _ => by omega)
  obtain ⟨⟨v, b', c'⟩, hv⟩ := this.2 trivial
  exact ⟨b', c', hv.trans (by rw [show v = _ from (this.1 _ hv).1])⟩

/-! ## C32 -/

/-- **C32** with the floating point bounds of the crate `nth_prime(n)` returns the `n`-th prime for every `1 ≤ n ≤ 4096`; nothing
is assumed of `is_prime64` -/
theorem C32_nth_prime_float (bld : Build) (F : FloatOps) (hF : F.Accurate) (n : ℕ) (hn : 1 ≤ n) (h4 : n ≤ 4096) :
    ∃ G, ∀ g f b, G ≤ g → Reachable bld (floatEstimates F) g f b → (∀ p ∈ b.iter, p < 2 ^ 32) →
      ∃ b', b.nthPrime bld (floatEstimates F) g f n = .ok (nthPrime n, b') := by
  obtain ⟨G, hG⟩ := exists_fuel bld
  obtain ⟨lo, hi, he, -⟩ := goodEstimates_float bld F hF (N := n) (by omega) n hn le_rfl
  refine ⟨G, fun g f b hg h hs => ?_⟩
  have := nthPrimeWith_wp (s := True) (o := floatEstimates F) (g := g) (pi := primePi bld (floatEstimates F) g f) hn
    (by omega) (fun h => by omega) (fun _ => hG g hg) (fun _ => he) (fun h => by omega) b ⟨h.inv, fun _ => hs⟩
  obtain ⟨⟨v, b'⟩, hv⟩ := this.2 trivial
  exact ⟨b', hv.trans (by rw [show v = _ from (this.1 _ hv).1])⟩

/-- **C32 (partial)** with the floating point bounds of the crate, and if `is_prime64` has no pseudoprimes, `nth_prime(n)` returns
the `n`-th prime for every `1 ≤ n ≤ 2 * 10^17`, after any history in which the stored primes stayed below `2^32`. Missing:
larger `n`; from `25 * 10^16` on it is false (`C32_nth_prime_overflow`). -/
theorem C32_nth_prime_float_partial (bld : Build) (hex : NoPseudoprimes bld) (F : FloatOps) (hF : F.Accurate)
    (n : ℕ) (hn : 1 ≤ n) (h17 : n ≤ 2 * 10 ^ 17) :
    ∃ G, ∀ g f b, G ≤ g → 2 ^ 63 ≤ f → Reachable bld (floatEstimates F) g f b → (∀ p ∈ b.iter, p < 2 ^ 32) →
      ∃ b', b.nthPrime bld (floatEstimates F) g f n = .ok (nthPrime n, b') := by
  obtain ⟨lo, hi, he, -⟩ := goodEstimates_float bld F hF h17 n hn le_rfl
  have hlt := he.lt
  have := pi_sqrt_le (show hi < 2 ^ 64 by omega)
  obtain ⟨G, hG⟩ := C32_nth_prime_returns_partial bld hex _ n lo hi hn he (goodEstimates_float bld F hF (by omega))
  exact ⟨G, fun g f b h1 h2 => hG g f b h1 (by omega)⟩

/-- the bounds at `n = 25 * 10^16` -/
theorem nth_overflow {F : FloatOps} (hF : F.Accurate) :
    2 ^ 63 ≤ ⌊fNthLo F (25 * 10 ^ 16)⌋₊ ∧ ⌊fNthLo F (25 * 10 ^ 16)⌋₊ + 2 ≤ ⌊fNthHi F (25 * 10 ^ 16)⌋₊ := by
  have hv : (LnRef.mk 1 0 0).Valid := ⟨Nat.one_pos, by simp, by simp⟩
  have hc : nthBox ⟨1, 0, 0⟩ ⟨1, 0, 0⟩ (25 * 10 ^ 16) (25 * 10 ^ 16) (fun _ _ B => ((nthLoE (25 * 10 ^ 16)).ieval B).any fun l =>
      ((nthHiE (25 * 10 ^ 16)).ieval B).any fun u =>
        (leScaled (10697985 * 10 ^ 12) l.lo && ltScaled l.hi (10698 * 10 ^ 15)) && leScaled (10698001 * 10 ^ 12) u.lo) = true := by
    decide +kernel
  obtain ⟨_, _, B, _, _, h, hB⟩ := nthBox_sound hv hv hc
  obtain ⟨l, hl, h⟩ := Option.any_eq_true _ _ |>.mp h
  obtain ⟨u, hu, h⟩ := Option.any_eq_true _ _ |>.mp h
  simp only [Bool.and_eq_true] at h
  have hBx := hB F hF (25 * 10 ^ 16) le_rfl le_rfl
  have v1 := FE.ieval_sound hF hBx _ hl
  have v2 := FE.ieval_sound hF hBx _ hu
  rw [nthLoE_eval] at v1
  rw [nthHiE_eval] at v2
  have h1 : 10697985 * 10 ^ 12 ≤ ⌊fNthLo F (25 * 10 ^ 16)⌋₊ := Nat.le_floor (leScaled_le v1 h.1.1)
  have h2 : ⌊fNthLo F (25 * 10 ^ 16)⌋₊ < 10698 * 10 ^ 15 := (Nat.floor_lt' (by norm_num)).mpr (ltScaled_lt v1 (by norm_num) h.1.2)
  have h3 : 10698001 * 10 ^ 12 ≤ ⌊fNthHi F (25 * 10 ^ 16)⌋₊ := Nat.le_floor (leScaled_le v2 h.2)
  omega

/-- **C32** finding: `nth_prime(25 * 10^16)` panics (in a debug build), although that prime fits `u64`: the bisection of
`nth_prime_est` adds two bounds above `2^63` -/
theorem C32_nth_prime_overflow (bld : Build) (F : FloatOps) (hF : F.Accurate) (g f : ℕ) (b : Buf)
    (hb : b.iter.length ≤ 25 * 10 ^ 16) :
    b.nthPrime bld (floatEstimates F) (g + 1) f (25 * 10 ^ 16) = .panic ∧ nthPrime (25 * 10 ^ 16) < 2 ^ 64 := by
  refine ⟨?_, nthPrime_u64 (by norm_num) (by norm_num)⟩
  obtain ⟨h1, h2⟩ := nth_overflow hF
  have hlen := smallPrimes_length_le bld
  have h9 : (2 : ℕ) ^ 64 ≤ 2 ^ 990 := Nat.pow_le_pow_right (by norm_num) (by norm_num)
  have he := nthBounds_eq (bld := bld) (w := some 64) hF (n := 25 * 10 ^ 16) (by omega) (by omega)
  generalize ⌊fNthLo F (25 * 10 ^ 16)⌋₊ = lo at *
  generalize ⌊fNthHi F (25 * 10 ^ 16)⌋₊ = hi at *
  have hp : nthPrimeEst bld (some 64) (floatEstimates F) (25 * 10 ^ 16) (g + 1) = .panic ∨
      nthPrimeEst bld (some 64) (floatEstimates F) (25 * 10 ^ 16) (g + 1) = .ok none := by
    simp only [nthPrimeEst, he, Res.bind_ok]
    split
    · right; rfl
    · rename_i lo' hi' heq
      split at heq
      · simp only [Option.some.injEq, Prod.mk.injEq] at heq
        obtain ⟨rfl, rfl⟩ := heq
        have hc : cadd (some 64) lo hi = .panic := by
          unfold cadd
          rw [if_neg (by rw [fits_some]; omega)]
        left
        rw [if_neg (by omega)]
        simp only [nthPrimeEstLoop, csub_ok (show 1 ≤ hi by omega), Res.bind_ok, hc]
        rw [if_neg (by omega)]
        rfl
      · simp at heq
  unfold Buf.nthPrime nthPrimeWith
  rw [if_neg (by simp only [Buf.iter] at hb; omega), if_neg (by norm_num)]
  rcases hp with hp | hp
  · rw [hp]; rfl
  · rw [hp]; rfl

end NumPrime
