import Verif.Props.FactorizeU32
import Verif.Props.Counting32
import Verif.Props.Estimates
import Verif.Props.Exact32
import Verif.Props.Factors
import Verif.Props.LucasSearch
import Verif.Props.MintOps
import Verif.Props.Primorial
import Verif.Props.Probability
import Verif.Props.RandDist
import Verif.Props.ReleasePi
import Verif.Props.ReleaseReserve
import Verif.Proofs.Binary64
import Mathlib.Tactic.NormNum.LegendreSymbol

/-! # Instances

Theorems of the other files applied to concrete inputs, with every hypothesis discharged: none of them is vacuous. -/

namespace NumPrime
open Spec Tables

/-! ## the prime buffer -/

/-- a buffer with a history: grown, cleared, grown again -/
def usedBuf : Buf := ⟨(List.range 113).filter (fun p => Nat.Prime p), 113⟩

theorem usedBuf_reachable : Reachable .small exampleEstimates 5 5 usedBuf :=
  ⟨[.reserve 300, .clear, .primes 60, .reserve 61, .nprimes 5, .primePi 110], by decide +kernel⟩

theorem usedBuf_lt : ∀ p ∈ usedBuf.iter, p < 2 ^ 32 := by decide +kernel

example : (∃ b', usedBuf.reserve 500 = .ok b') :=
  (C28_reserve_returns_partial .small exampleEstimates 5 5 usedBuf usedBuf_reachable 500).1.mpr ⟨by decide, Or.inr usedBuf_lt⟩
example : ∃ b', usedBuf.reserve 4294967295 = .ok b' ∧ b'.next ≤ 2 ^ 32 + 1 :=
  C28_reserve_32bit .small exampleEstimates 5 5 usedBuf usedBuf_reachable (by decide +kernel) 4294967295 (by norm_num)
example : usedBuf.clear.iter = firstPrimes 16 := (C29_clear .small exampleEstimates 5 5 usedBuf usedBuf_reachable).2.1
example : ∃ b', Buf.primorial .small (some 16) exampleEstimates usedBuf 6 = .ok (30030, b') ∧
    30030 = ∏ i ∈ Finset.range 6, Nat.nth Nat.Prime i := by
  refine ⟨usedBuf, by decide +kernel, ?_⟩
  exact C33_primorial_exact .small exampleEstimates 5 5 usedBuf usedBuf_reachable (some 16) 6 30030 usedBuf (by decide +kernel)
example : Buf.primorial .small (some 16) exampleEstimates usedBuf 7 = .panic ∧
    Buf.primorialRel .small 16 exampleEstimates usedBuf 7 = .ok (510510 % 2 ^ 16, usedBuf) := by decide +kernel
example : ¬ ∏ i ∈ Finset.range 7, Nat.nth Nat.Prime i < 2 ^ 16 := fun h => by
  obtain ⟨r, hr⟩ := (C33_primorial_returns_iff .small exampleEstimates 5 5 usedBuf usedBuf_reachable 16 (by norm_num) 7
    [2, 3, 5, 7, 11, 13, 17] usedBuf (by decide +kernel)).1.mpr h
  have : Buf.primorial .small (some 16) exampleEstimates usedBuf 7 = .panic := by decide +kernel
  rw [this] at hr; cases hr
example : (Buf.primorialRel .small 16 exampleEstimates usedBuf 7).mapR Prod.fst ≠ .ok (∏ i ∈ Finset.range 7, Nat.nth Nat.Prime i) := fun h => by
  have := (C88_primorial_release_right_iff .small exampleEstimates 5 5 usedBuf usedBuf_reachable 16 (by norm_num) 7
    [2, 3, 5, 7, 11, 13, 17] usedBuf (by decide +kernel)).mp h
  have h2 : Buf.primorial .small (some 16) exampleEstimates usedBuf 7 = .panic := by decide +kernel
  obtain ⟨r, hr⟩ := (C33_primorial_returns_iff .small exampleEstimates 5 5 usedBuf usedBuf_reachable 16 (by norm_num) 7
    [2, 3, 5, 7, 11, 13, 17] usedBuf (by decide +kernel)).1.mpr this
  rw [h2] at hr; cases hr
example : (25 : ℕ) = Nat.primeCounting 100 :=
  C30_prime_pi_exact_below .small exampleEstimates 5 101 ⟨[2, 3, 5, 7, 11, 13, 17, 19, 23, 29, 31, 37, 41, 43, 47, 53], 55⟩
    ⟨[.clear], by decide +kernel⟩ 100 (by norm_num) 25 ⟨(List.range 103).filter (fun p => Nat.Prime p), 103⟩ (by decide +kernel)

/-! ## counting, with the floating point arithmetic of IEEE 754 -/

example : ∃ G, ∀ g f b, G ≤ g → 10 ^ 9 < f → Reachable .big (floatEstimates FloatOps.ieee) g f b → (∀ p ∈ b.iter, p < 2 ^ 32) →
    ∃ b', primePi .big (floatEstimates FloatOps.ieee) g f b (10 ^ 9) = .ok (Nat.primeCounting (10 ^ 9), b') :=
  C30_prime_pi_float .big _ ieee_accurate (10 ^ 9) (by norm_num)
example : ∃ G, ∀ g f, G ≤ g → 10 ^ 18 < f → ntPrimePi .small (floatEstimates FloatOps.ieee) g f (10 ^ 18) = .ok (Nat.primeCounting (10 ^ 18)) :=
  C30_nt_prime_pi_u62 _ ieee_accurate (10 ^ 18) (by norm_num)
example : ∃ G, ∀ g f b, G ≤ g → 2 ^ 32 ≤ f → Reachable .small (floatEstimates FloatOps.ieee) g f b → (∀ p ∈ b.iter, p < 2 ^ 32) →
    ∃ b', b.nthPrime .small (floatEstimates FloatOps.ieee) g f (10 ^ 8) = .ok (nthPrime (10 ^ 8), b') :=
  C32_nth_prime_u32 _ ieee_accurate (10 ^ 8) (by norm_num) (by norm_num)
example : ∃ G, ∀ g f b c, G ≤ g → 2 ^ 32 ≤ f → Reachable .small (floatEstimates FloatOps.ieee) g f b → (∀ p ∈ b.iter, p < 2 ^ 32) →
    (∀ x a v, ((x, a), v) ∈ c.items → v = legendrePhi x a) →
    ∃ b' c', b.primePhi .small (floatEstimates FloatOps.ieee) g f (10 ^ 15) (10 ^ 6) c = .ok (legendrePhi (10 ^ 15) (10 ^ 6), b', c') :=
  C31_prime_phi_u32 _ ieee_accurate (10 ^ 15) (10 ^ 6) (by norm_num) (by norm_num) (by norm_num)
-- the hypotheses on the buffer are met by a new one
example (bld : Build) (o : Estimates) (g f : ℕ) : Reachable bld o g f (Buf.new bld) := ⟨[], rfl⟩
example : ∀ p ∈ (Buf.new .big).iter, p < 2 ^ 32 := by decide +kernel
example : ∃ lo hi, nthPrimeBounds .big (some 64) (floatEstimates FloatOps.ieee) (10 ^ 16) = .ok (some (lo, hi)) ∧ ∀ fuel, hi - lo ≤ fuel →
    ∃ v, nthPrimeEst .big (some 64) (floatEstimates FloatOps.ieee) (10 ^ 16) fuel = .ok (some v) ∧ lo ≤ v ∧ v ≤ hi :=
  C36_nth_prime_est_u64 .big _ ieee_accurate (10 ^ 16) (by norm_num) (by norm_num)
example : ∃ lo hi, nthPrimeBounds .small none (floatEstimates FloatOps.ieee) (10 ^ 100) = .ok (some (lo, hi)) ∧ ∀ fuel, hi - lo ≤ fuel →
    ∃ v, nthPrimeEst .small none (floatEstimates FloatOps.ieee) (10 ^ 100) fuel = .ok (some v) ∧ lo ≤ v ∧ v ≤ hi :=
  C36_nth_prime_est_biguint .small _ ieee_accurate (10 ^ 100) (by norm_num) (by decide +kernel)
example : ∃ lo hi, lo ≤ hi ∧ ∀ w, nthPrimeBounds .big w (floatEstimates FloatOps.ieee) (10 ^ 200) = .ok (if fits w hi then some (lo, hi) else none) :=
  C75_nth_prime_bounds_returns .big _ ieee_accurate (10 ^ 200) (by decide +kernel) (by decide +kernel)

/-! ## factorization -/

/-- random numbers that are all 0: Pollard's rho never succeeds -/
def zeroRng : Rng := ⟨fun _ => 0, fun _ => []⟩

example : ∃ m, factorize64 .big zeroRng 5 0 60060 = .ok (m, 0) ∧ IsFactorization m 60060 :=
  C45_factorize64_u16 .big zeroRng 5 0 60060 (by norm_num) (by norm_num) (by norm_num)
example : ∃ m k', IsFactorization m (65519 * 65521) ∧ factorize64 .small zeroRng (2 ^ 72) 0 (65519 * 65521) = .ok (m, k') ∧
    factorize128 .small zeroRng (2 ^ 72) 0 (65519 * 65521) = .ok (m, k') ∧
    (∀ w list config, factors .small w list zeroRng (2 ^ 72) 0 (65519 * 65521) config = .ok (m, none, k')) ∧
    ∀ w list attempts, 1 ≤ attempts → factorize .small w list zeroRng (2 ^ 72) attempts 0 (65519 * 65521) = .ok (m, k') :=
  C96_factorize_u32_exact .small (2 ^ 32) (Or.inl ⟨rfl, rfl⟩) zeroRng (2 ^ 72) 0 (65519 * 65521) (by norm_num) (by norm_num) le_rfl
example : moebius .small (some 32) zeroRng (2 ^ 72) 1 0 (65519 * 65521) = .ok 1 := by
  have h := C96_moebius_u32_exact .small (2 ^ 32) (Or.inl ⟨rfl, rfl⟩) (some 32) zeroRng (2 ^ 72) 1 0 (65519 * 65521) (by norm_num) le_rfl le_rfl
  rw [h, ArithmeticFunction.isMultiplicative_moebius.map_mul_of_coprime (by norm_num),
    ArithmeticFunction.moebius_apply_prime (by norm_num), ArithmeticFunction.moebius_apply_prime (by norm_num)]
  norm_num
example : ∃ l, divisors .small zeroRng (2 ^ 72) 0 (65519 * 65521) = .ok l ∧ ListsDivisors l (65519 * 65521) := by
  obtain ⟨m, k', h⟩ := C96_factorize64_u32_returns .small zeroRng (2 ^ 72) 0 (65519 * 65521) (by norm_num) (by norm_num) le_rfl
  exact C66_divisors_u32 zeroRng (2 ^ 72) 0 _ (by norm_num) (by norm_num) _ h
example : 360 = product [(2, 3), (3, 2)] * residual (.error 5) :=
  (C37_trial_division (some 16) [2, 3] 360 none [(2, 3), (3, 2)] (.error 5) (by norm_num) (by norm_num) (by decide +kernel)).1
example : ProperDivisor 41 11111 := by
  refine C40_squfof_partial .big (some 64) 450 11111 1 30 41 5 (by simp) (by norm_num) (by decide) ?_ (by decide +kernel)
  rintro ⟨r, hr⟩
  have h1 : r < 106 := by nlinarith
  have h2 : 105 < r := by nlinarith
  omega
example : factorize128 .big zeroRng (2 ^ 72) 0 (2 ^ 64 + 13) ≠ .timeout ∧ factorize64 .big zeroRng (2 ^ 72) 0 (2 ^ 64 - 59) ≠ .timeout :=
  ⟨C79_factorize128_terminates _ _ _ _ _ (by norm_num) le_rfl, C79_factorize64_terminates _ _ _ _ _ (by norm_num) le_rfl⟩
example : IsFactorization [(2, 3), (3, 2)] 72 ∧ moebiusFactorized [(2, 3), (3, 2)] = ArithmeticFunction.moebius 72 := by
  have h : IsFactorization [(2, 3), (3, 2)] 72 := by
    obtain ⟨m, h1, h2⟩ := C45_factorize64_u16 .small zeroRng 5 0 72 (by norm_num) (by norm_num) (by norm_num)
    have h3 : factorize64 .small zeroRng 5 0 72 = .ok ([(2, 3), (3, 2)], 0) := by decide +kernel
    rw [h3] at h1
    simp only [Res.ok.injEq, Prod.mk.injEq, and_true] at h1
    rw [h1]; exact h2
  exact ⟨h, C51_moebius_factorized _ _ (by norm_num) h⟩

/-! ## primality tests -/

/-- the Mersenne prime `2^89 - 1` has more than 64 bits -/
def m89 : ℕ := 2 ^ 89 - 1

instance (w : Width) : Decidable (StdWidth w) := by unfold StdWidth; infer_instance
instance (w : Width) (p : ℕ) (q : ℤ) : Decidable (LucasArgs w p q) := by unfold LucasArgs; infer_instance
instance (b : ℕ) : Decidable (PrimWidth b) := by unfold PrimWidth; infer_instance

example : isPrime .big (some 128) [2, 3] m89 (some ⟨2, 1, true, true⟩) [7] ≠ .ok .no ∧
    isPrime .big (some 128) [2, 3] m89 (some ⟨2, 1, true, true⟩) [7] ≠ .panic :=
  C14_is_prime_prime_partial .big (some 128) (by decide) [2, 3] m89 (by
    have : m89 = mersenne 89 := rfl
    rw [this]
    exact lucas_lehmer_sufficiency 89 (by norm_num) (by norm_num)) (by decide) _ [7] (by decide) (by decide)
example : ¬ (2 ^ 71 - 1 : ℕ).Prime :=
  C15_no_is_composite_partial .big (some 128) (by decide) [2, 3] (2 ^ 71 - 1) (by decide) (some ⟨2, 0, false, false⟩) []
    (by decide) (by decide) (by decide +kernel)
example : ∃ P, pBruteforce .big (some 64) 10007 = .ok P ∧
    ((P = 0 ∧ ¬ Nat.Prime 10007) ∨ (3 ≤ P ∧ (P ≤ 9 ∨ P ^ 2 < 10007 + 4) ∧ jacobiSym ((P : ℤ) ^ 2 - 4) 10007 = -1)) :=
  C08_p_bruteforce .big (some 64) (by decide) 10007 (by norm_num) (by decide)
-- 5777 = 53 * 109 is a strong Lucas pseudoprime for the parameters 1, -1
example : isSlprp .big (some 64) 5777 (some 1) (some (-1)) = .ok true := by decide +kernel
example : StrongLucasPRP 5777 1 (-1) := by
  obtain ⟨v, h1, h2⟩ := C11_is_slprp_iff .big (some 64) 5777 (by norm_num) (by norm_num) (by decide) 1 (-1) (by decide) (by decide)
  have h3 : isSlprp .big (some 64) 5777 (some 1) (some (-1)) = .ok true := by decide +kernel
  rw [h3] at h1
  exact h2.mp (by simpa using h1.symm)

example : isSlprp .small (some 32) 10007 (some 3) (some 5) = .ok true :=
  C10_is_slprp_prime_explicit .small (some 32) 10007 (by norm_num) (by norm_num) (by decide) 3 5 (by decide) (by decide)
example : isEslprp .small none m89 none = .ok true :=
  C12_is_eslprp_prime .small none (by decide) m89 (by
    have : m89 = mersenne 89 := rfl
    rw [this]
    exact lucas_lehmer_sufficiency 89 (by norm_num) (by norm_num)) (by decide) (by decide)
example : isEslprp .big (some 16) 10007 (some 7) = .ok true :=
  C12_is_eslprp_prime_explicit .big (some 16) 10007 (by norm_num) (by norm_num) (by decide) 7 (by decide) (by decide)
example : ∃ v, isEslprp .big (some 16) 10001 (some 4) = .ok v :=
  C13_is_eslprp_returns_partial .big (some 16) 10001 (by norm_num) (by norm_num) (by decide) 4 (by decide) (by norm_num)
example : ∃ P, pBruteforce .big none m89 = .ok P ∧ (MethodC m89 P ∨ (P = 0 ∧ ∀ P', ¬ MethodC m89 P')) :=
  C89_p_bruteforce_method_c .big none (by decide) m89 (by decide) (by decide)
-- 5459 is a strong Lucas pseudoprime for the default parameters too, 989 an extra strong one
example : isSlprp .big (some 64) 5459 none none = .ok true ∧ isEslprp .big (some 64) 989 none = .ok true := by decide +kernel
example : ∃ Q : ℤ, MethodA 5459 (1 - 4 * Q) ∧ StrongLucasPRP 5459 1 Q := by
  obtain ⟨v, h1, h2⟩ := C89_is_slprp_default .big (some 64) (by decide) 5459 (by norm_num) (by decide)
  have h3 : isSlprp .big (some 64) 5459 none none = .ok true := by decide +kernel
  rw [h3] at h1
  exact h2.mp (by simpa using h1.symm)
example : ∃ P, MethodC 989 P ∧ ExtraStrongLucasPRP 989 P := by
  obtain ⟨v, h1, h2⟩ := C89_is_eslprp_default .big (some 64) (by decide) 989 (by norm_num) (by decide)
  have h3 : isEslprp .big (some 64) 989 none = .ok true := by decide +kernel
  rw [h3] at h1
  exact h2.mp (by simpa using h1.symm)
example : isLprp .big (some 16) 323 none none = isLprp .small none 323 none none :=
  (C89_default_agree .big .small (some 16) none (by decide) (by decide) 323 (by norm_num) (by decide) (by decide)).1
example : isLprp .big (some 16) 323 none none = .ok true := by decide +kernel
example : ∃ ex : List ℕ, ex.length = 1 ∧ ex.Nodup ∧ (∀ b ∈ ex, b ∈ [2, 7] ∧ b ∉ [2, 3]) ∧
    ∀ n : ℕ, n % 2 = 1 → 2 ^ 64 ≤ n → fits none (n + 1) = true →
      ∃ r, isPrime .big none [2, 3, 5] n (some ⟨2, 1, true, false⟩) [2, 7] = .ok r ∧
        (r.probably = true ↔ (∀ b ∈ [2, 3] ++ ex, StrongPRP n b) ∧
          (true = true → ∃ Q : ℤ, MethodA n (1 - 4 * Q) ∧ StrongLucasPRP n 1 Q) ∧
          (false = true → ∃ P, MethodC n P ∧ ExtraStrongLucasPRP n P)) :=
  C16_accepted_iff .big none (by decide) [2, 3, 5] ⟨2, 1, true, false⟩ [2, 7] (by decide)
example : isSafePrime .big (some 16) (2 * 1013 + 1) [] [] = .ok .yes := by decide +kernel
example : Primality.yes.probably = true :=
  C18_is_safe_prime_complete .big (some 16) (by decide) 1013 (by norm_num) (by norm_num) (by decide) [] [] (by simp) (by simp) .yes
    (by decide +kernel)

/-! ## neighbouring primes -/

example : 65521 ∣ 65521 ∧ nextPrime .big (some 16) 65519 none (fun _ => []) 10 = .ok (some 65521) ∧
    nextPrime .big (some 16) 65521 none (fun _ => []) 10 = .ok none := ⟨dvd_rfl, by decide +kernel⟩
example : ∀ q, q.Prime → 65521 < q → fits (some 16) q = false :=
  C19_next_prime_none (some 16) (by decide) 65521 none (fun _ => []) (by intro t x hx; simp at hx) 10 (by decide +kernel)
example : ∀ q, q.Prime → 65519 < q → 65521 ≤ q :=
  (C19_next_prime_some (some 16) (by decide) 65519 none (fun _ => []) (by intro t x hx; simp at hx) 10 65521 (by decide +kernel)).2.2.2
example : ∃ r, some 65519 = some r ∧ r < 65521 ∧ Accepted .small (some 16) none (fun _ => []) r ∧ ∀ q, q.Prime → q < 65521 → q ≤ r :=
  C20_prev_prime_some .small (some 16) (by decide) 65521 (by norm_num) (by decide) none (fun _ => []) (by intro t x hx; simp at hx) 10 _
    (by decide +kernel)

/-! ## the Montgomery wrapper -/

open Mint in
example : mPollardRho (left 8051) (right 2 8051) (right 1 8051) 100 = .ok (some (left 97), 8) := by decide +kernel
open Mint in
example : ∃ d i, pollardRho 8051 2 1 100 = .ok (d, i) ∧ mPollardRho (left 8051) (right 2 8051) (right 1 8051) 100 = .ok (d.map left, i) :=
  C64_pollard_rho_transparent 8051 2 1 100 (by norm_num) (by norm_num)
open Mint in
example : isEslprp .big (some 64) 1019 none = .ok true :=
  C64_eslprp_transparent .big (some 64) 1019 (by norm_num) (by decide) none true (by decide +kernel)
open Mint in
example : mIsSlprp (some 64) (left 5459) none none = isSlprp .big (some 64) 5459 none none :=
  (C64_lucas_transparent .big (some 64) 5459 (by norm_num) (by decide) none none).2.2.2
open Mint in
example : mIsPrime .big (some 128) [2, 3] (left m89) (some ⟨2, 1, true, false⟩) [7] ≠ .panic :=
  C65_is_prime_no_panic_partial .big (some 128) (by decide) [2, 3] m89 (by decide) _ rfl [7]
open Mint in
example : rem (left 1000) (left 77) = .ok (right 76 77) := (C77_rem (some 16) 1000 77 (by norm_num) (by decide)).1

/-! ## random primes -/

example : Nat.Prime 193 := C59_gen_prime_u16_prime .big (constSource 12345) 16 (Or.inr rfl) 5 10 0 193 1 (Or.inl (by decide +kernel))
example : Nat.Prime 479 ∧ Nat.Prime ((479 - 1) / 2) :=
  C62_safe_prime_u16_prime .big (constSource 60000) 16 (Or.inr rfl) 5 9 4 0 479 1 (Or.inr (by decide +kernel))
example : 2 ^ 9 ≤ 709 ∧ BitBound 10 709 ∧ (10 = 16 → 709 < 2 ^ 10) :=
  C61_gen_prime_exact_prim_partial .big (constSource 12345) 16 (by decide) 5 10 0 709 1 (by decide +kernel)
example : ∃ F r, ∀ fuel, F ≤ fuel → genPrimePrim .big (constSource 12345) 16 fuel 10 0 = .ok r :=
  C59_gen_prime_prim_returns (constSource 12345) 16 (by decide) 10 0 (by norm_num) (by norm_num) (Or.inl (by norm_num))
/-- numbers above 64 bits are tested with the random witnesses 5, 7 and 11 -/
def bigSource : RandSource := ⟨fun k => 2 ^ 69 + 12345 + 98 * k, fun _ _ => [5, 7, 11]⟩
theorem bigSource_good : ∀ k, GoodDraws (bigSource.draws k) := fun k t x hx => by
  simp only [bigSource, List.mem_cons, List.not_mem_nil, or_false] at hx
  omega
example : BitBound 70 590295810358705664123 :=
  C60_gen_prime_big_partial .big bigSource bigSource_good none 50 70 0 _ 1 (by norm_num) (by decide +kernel)
example : ∃ j, Accepted .big none none (bigSource.draws j) 590295810358705664123 :=
  C59_gen_prime_big .big bigSource none 50 70 0 _ 1 (Or.inl (by decide +kernel))
example : 1180591620717411330563 < 2 ^ 130 :=
  (C63_safe_prime_u128_partial .big bigSource bigSource_good 50 128 20 0 _ 13).1 (by decide +kernel)
example : Passed128 .big bigSource 1180591620717411330563 ∧ Passed128 .big bigSource ((1180591620717411330563 - 1) / 2) :=
  (C62_safe_prime_u128 .big bigSource 50 128 20 0 _ 13 (Or.inl (by decide +kernel))).2.2

/-! ## probabilities -/

example : ∃ v, probability .bpsw = .fin v ∧ 0 < v ∧ v ≤ 1 ∧ |v - testProbability .bpsw| ≤ 1 / 2 ^ 22 ∧
    (v < 1 ↔ (1 ≤ PrimalityTestConfig.bpsw.sprpTrials ∧ PrimalityTestConfig.bpsw.sprpTrials ≤ 12) ∨
      (1 ≤ PrimalityTestConfig.bpsw.sprpRandomTrials ∧ PrimalityTestConfig.bpsw.sprpRandomTrials ≤ 12) ∨
        PrimalityTestConfig.bpsw.slprpTest = true ∨ PrimalityTestConfig.bpsw.eslprpTest = true) :=
  C83_reported_partial .bpsw (by decide) (by decide)
example : ∃ v, (Primality.probable (.fin (1 / 2))).and (.probable (.fin (3 / 4))) = .probable (.fin v) ∧ |v - 1 / 2 * (3 / 4)| ≤ 1 / 2 ^ 25 ∧
    0 ≤ v ∧ v ≤ 1 / 2 ∧ v ≤ 3 / 4 := C17_and_value (1 / 2) (3 / 4)
    ⟨⟨1, -1, by norm_num, by norm_num, by norm_num⟩, by norm_num, by norm_num⟩ ⟨⟨3, -2, by norm_num, by norm_num, by norm_num⟩, by norm_num, by norm_num⟩

end NumPrime
