import Verif.Props.Instances
import Verif.Props.Consistency
import Verif.Props.ReleaseNth
import Verif.Props.ReleasePrimality
import Verif.Props.ReleaseRand
import Verif.Props.Rho
import Verif.Props.Sprp
import Verif.Props.Termination

/-! # More instances

As Instances.lean: theorems applied to concrete inputs. Where a theorem assumes `NoPseudoprimes` this one hypothesis is kept. -/

namespace NumPrime
open Spec Tables

/-! ## the prime buffer and counting -/

def newBuf : Buf := Buf.new .small
theorem newBuf_reachable : Reachable .small exampleEstimates 5 101 newBuf := ⟨[], rfl⟩

-- 25 primes up to 100
example : ∃ l v b1 b2, newBuf.primes 100 = .ok (l, b1) ∧ primePi .small exampleEstimates 5 101 newBuf 100 = .ok (v, b2) ∧ l.length = v ∧ v = 25 := by
  have h1 : newBuf.primes 100 = .ok ((List.range 100).filter (fun p => Nat.Prime p), newBuf) := by
    decide +kernel
  have h2 : primePi .small exampleEstimates 5 101 newBuf 100 = .ok (25, newBuf) := by
    decide +kernel
  exact ⟨_, _, _, _, h1, h2, C84_primes_length .small exampleEstimates 5 101 newBuf newBuf newBuf_reachable newBuf_reachable 100 (by norm_num)
    _ _ _ _ h1 h2, rfl⟩
example : (16 : ℕ) = 16 :=
  C84_prime_pi_nth_prime .small exampleEstimates 5 101 newBuf newBuf newBuf_reachable newBuf_reachable 16 (by norm_num) (by norm_num) 53 16 newBuf
    newBuf (by decide +kernel) (by decide +kernel)
example : (53 : ℕ) = 53 :=
  C84_nth_prime_prime_pi .small exampleEstimates 5 101 newBuf newBuf newBuf_reachable newBuf_reachable 53 (by norm_num) (by norm_num) 16 53 newBuf
    newBuf (by decide +kernel) (by decide +kernel)
example (hex : NoPseudoprimes .big) : ∃ G, ∀ g f b, G ≤ g → 10 ^ 19 < f → Reachable .big (floatEstimates FloatOps.ieee) g f b →
    (∀ p ∈ b.iter, p < 2 ^ 32) → ∃ b', primePi .big (floatEstimates FloatOps.ieee) g f b (10 ^ 19) = .ok (Nat.primeCounting (10 ^ 19), b') :=
  C30_prime_pi_float_partial .big hex _ ieee_accurate (10 ^ 19) (by norm_num)
example (hex : NoPseudoprimes .big) : ∃ G, ∀ g f, G ≤ g → 10 ^ 19 < f →
    ntPrimePi .big (floatEstimates FloatOps.ieee) g f (10 ^ 19) = .ok (Nat.primeCounting (10 ^ 19)) :=
  C30_nt_prime_pi_float_partial .big hex _ ieee_accurate (10 ^ 19) (by norm_num)
example : ∃ G, ∀ g f b c, G ≤ g → 2 ^ 63 ≤ f → Reachable .big (floatEstimates FloatOps.ieee) g f b → (∀ p ∈ b.iter, p < 2 ^ 32) →
    (∀ x a v, ((x, a), v) ∈ c.items → v = legendrePhi x a) →
    ∃ b' c', b.primePhi .big (floatEstimates FloatOps.ieee) g f (10 ^ 19) 4000 c = .ok (legendrePhi (10 ^ 19) 4000, b', c') :=
  C31_prime_phi_float_partial .big _ ieee_accurate (10 ^ 19) 4000 (by norm_num) (by norm_num) (by norm_num) (fun h => absurd h (by norm_num))
example : ∃ G, ∀ g f b, G ≤ g → Reachable .small (floatEstimates FloatOps.ieee) g f b → (∀ p ∈ b.iter, p < 2 ^ 32) →
    ∃ b', b.nthPrime .small (floatEstimates FloatOps.ieee) g f 4096 = .ok (nthPrime 4096, b') :=
  C32_nth_prime_float .small _ ieee_accurate 4096 (by norm_num) (by norm_num)
example (hex : NoPseudoprimes .big) : ∃ G, ∀ g f b, G ≤ g → 2 ^ 63 ≤ f → Reachable .big (floatEstimates FloatOps.ieee) g f b →
    (∀ p ∈ b.iter, p < 2 ^ 32) → ∃ b', b.nthPrime .big (floatEstimates FloatOps.ieee) g f (10 ^ 17) = .ok (nthPrime (10 ^ 17), b') :=
  C32_nth_prime_float_partial .big hex _ ieee_accurate (10 ^ 17) (by norm_num) (by norm_num)
example : newBuf.nthPrime .small (floatEstimates FloatOps.ieee) 2 0 (25 * 10 ^ 16) = .panic :=
  (C32_nth_prime_overflow .small _ ieee_accurate 1 0 newBuf (by decide +kernel)).1
example : ∃ G, ∀ g f b, G ≤ g → 10 ^ 18 < f → Reachable .small (floatEstimates FloatOps.ieee) g f b → (∀ p ∈ b.iter, p < 2 ^ 32) →
    ∃ b', primePi .small (floatEstimates FloatOps.ieee) g f b (10 ^ 18) = .ok (Nat.primeCounting (10 ^ 18), b') :=
  C30_prime_pi_u62 _ ieee_accurate (10 ^ 18) (by norm_num)
example : ∃ F, ∀ g f b, F ≤ g → 10 ^ 7 < f → Reachable .big exampleEstimates g f b → (∀ p ∈ b.iter, p < 2 ^ 32) →
    ∃ b', primePi .big exampleEstimates g f b (10 ^ 7) = .ok (Nat.primeCounting (10 ^ 7), b') :=
  C30_prime_pi_returns_table .big exampleEstimates (10 ^ 7) (by decide +kernel)
example : ∃ F, ∀ g f b, F ≤ g → Reachable .big exampleEstimates g f b → (∀ p ∈ b.iter, p < 2 ^ 32) →
    ∃ b', b.nthPrime .big exampleEstimates g f 1000 = .ok (nthPrime 1000, b') :=
  C32_nth_prime_returns_table .big exampleEstimates 1000 (by norm_num) (by decide +kernel)
example : usedBuf.primePhi .small exampleEstimates 5 5 100 0 ⟨10, []⟩ = .panic :=
  C31_prime_phi_zero_panics .small exampleEstimates 5 5 usedBuf 100 _ (by simp)
example : Buf.primorialRel .small 16 exampleEstimates usedBuf 7 = .ok ((∏ i ∈ Finset.range 7, Nat.nth Nat.Prime i) % 2 ^ 16, usedBuf) :=
  (C88_primorial_release .small exampleEstimates 5 5 usedBuf usedBuf_reachable 16 (by norm_num) 7 [2, 3, 5, 7, 11, 13, 17] usedBuf
    (by decide +kernel)).1 (fun i hi => by
      have h := Nat.nth_strictMono Nat.infinite_setOfPred_prime hi
      change Nat.nth Nat.Prime i < Nat.nth Nat.Prime 7 at h
      have h2 : Nat.nth Nat.Prime 7 = 19 := by
        have := Nat.nth_count (p := Nat.Prime) (show Nat.Prime 19 by norm_num)
        rwa [show Nat.count Nat.Prime 19 = 7 by decide +kernel] at this
      omega)
example : nthPrimeEstRel .big 64 (floatEstimates FloatOps.ieee) (3 * 10 ^ 17) 1000 = .timeout :=
  (C97_nth_prime_est_u64_hangs .big _ ieee_accurate (3 * 10 ^ 17) (by norm_num) (by norm_num) 1000).1

/-! ## factorization -/

/-- random numbers 1, 2, 3, … -/
def countRng : Rng := ⟨fun k => k + 1, fun _ => []⟩

example : ∃ m1 m2 k1 k2, factorize64 .small zeroRng (2 ^ 72) 0 (65519 * 65521) = .ok (m1, k1) ∧
    factorize64 .small countRng (2 ^ 72) 7 (65519 * 65521) = .ok (m2, k2) ∧ m1 = m2 := by
  obtain ⟨m1, k1, h1⟩ := C96_factorize64_u32_returns .small zeroRng (2 ^ 72) 0 (65519 * 65521) (by norm_num) (by norm_num) le_rfl
  obtain ⟨m2, k2, h2⟩ := C96_factorize64_u32_returns .small countRng (2 ^ 72) 7 (65519 * 65521) (by norm_num) (by norm_num) le_rfl
  exact ⟨m1, m2, k1, k2, h1, h2, C86_factorize64_deterministic .small (2 ^ 32) testExact_u32 _ _ _ _ _ _ _ (by norm_num) (by norm_num) _ _ _ _ h1 h2⟩
example : ∃ m1 m2 k1 k2, factorize64 .small zeroRng (2 ^ 72) 0 (65519 * 65521) = .ok (m1, k1) ∧
    factorize128 .small countRng (2 ^ 72) 7 (65519 * 65521) = .ok (m2, k2) ∧ m1 = m2 := by
  obtain ⟨m1, k1, h1⟩ := C96_factorize64_u32_returns .small zeroRng (2 ^ 72) 0 (65519 * 65521) (by norm_num) (by norm_num) le_rfl
  obtain ⟨m2, k2, -, h2, -⟩ := C96_factorize_u32_returns .small countRng (2 ^ 72) 7 (65519 * 65521) (by norm_num) (by norm_num) le_rfl
  exact ⟨m1, m2, k1, k2, h1, h2, C86_factorize128_agrees .small (2 ^ 32) testExact_u32 _ _ _ _ _ _ _ (by norm_num) (by norm_num) _ _ _ _ h1 h2⟩
example : ∃ m1 m2 k1 k2, factorize64 .small zeroRng (2 ^ 72) 0 (65519 * 65521) = .ok (m1, k1) ∧
    factorize .small (some 64) usedBuf.iter countRng (2 ^ 72) 3 7 (65519 * 65521) = .ok (m2, k2) ∧ m1 = m2 := by
  obtain ⟨m1, k1, h1⟩ := C96_factorize64_u32_returns .small zeroRng (2 ^ 72) 0 (65519 * 65521) (by norm_num) (by norm_num) le_rfl
  obtain ⟨m2, k2, -, -, -, h2⟩ := C96_factorize_u32_returns .small countRng (2 ^ 72) 7 (65519 * 65521) (by norm_num) (by norm_num) le_rfl
  have h2 := h2 (some 64) usedBuf.iter 3 (by norm_num)
  exact ⟨m1, m2, k1, k2, h1, h2, C86_factorize_agrees .small (2 ^ 32) testExact_u32 exampleEstimates 5 5 usedBuf usedBuf_reachable _ _ _ _ _ _ _ _ _
    (by norm_num) (by norm_num) _ _ _ _ h1 h2⟩
example : ∃ r1 r2 r3, moebius .small (some 32) zeroRng (2 ^ 72) 1 0 65519 = .ok r1 ∧ moebius .small (some 32) zeroRng (2 ^ 72) 1 0 65521 = .ok r2 ∧
    moebius .small (some 32) countRng (2 ^ 72) 1 5 (65519 * 65521) = .ok r3 ∧ r3 = r1 * r2 := by
  obtain ⟨r1, h1⟩ := C96_moebius_u32_returns .small (some 32) zeroRng (2 ^ 72) 1 0 65519 (by norm_num) le_rfl le_rfl
  obtain ⟨r2, h2⟩ := C96_moebius_u32_returns .small (some 32) zeroRng (2 ^ 72) 1 0 65521 (by norm_num) le_rfl le_rfl
  obtain ⟨r3, h3⟩ := C96_moebius_u32_returns .small (some 32) countRng (2 ^ 72) 1 5 (65519 * 65521) (by norm_num) le_rfl le_rfl
  exact ⟨r1, r2, r3, h1, h2, h3, C87_moebius_mul .small (2 ^ 32) testExact_u32 _ _ _ _ _ _ _ _ _ _ _ (by norm_num) (by norm_num) (by norm_num)
    (by norm_num) _ _ _ h1 h2 h3⟩
-- 180 = 2^2 * 3^2 * 5
example : (0 : ℤ) = 0 ↔ false = false :=
  C87_moebius_square_free .big (2 ^ 16) (testExact_u16 .big) (some 16) zeroRng countRng 5 5 1 1 0 0 180 (by norm_num) (by norm_num) 0 false
    (by decide +kernel) (by decide +kernel)
example : ∃ l, divisorsLoop [(2, 3), (3, 2)] [1] = .ok l ∧ ListsDivisors l 72 :=
  C66_divisors_from_factorization _ 72 (by norm_num) (by norm_num) (by
    have h := C45_factorize64_u16 .small zeroRng 5 0 72 (by norm_num) (by norm_num) (by norm_num)
    obtain ⟨m, h1, h2⟩ := h
    have h3 : factorize64 .small zeroRng 5 0 72 = .ok ([(2, 3), (3, 2)], 0) := by decide +kernel
    rw [h3] at h1
    simp only [Res.ok.injEq, Prod.mk.injEq, and_true] at h1
    rw [h1]; exact h2)
example : (divisorsLoop [(2, 3), (3, 2)] [1] >>= fun l => sumPow 2 l 0) = .ok (ArithmeticFunction.sigma 2 72) := by
  have hf : IsFactorization [(2, 3), (3, 2)] 72 := by
    obtain ⟨m, h1, h2⟩ := C45_factorize64_u16 .small zeroRng 5 0 72 (by norm_num) (by norm_num) (by norm_num)
    have h3 : factorize64 .small zeroRng 5 0 72 = .ok ([(2, 3), (3, 2)], 0) := by decide +kernel
    rw [h3] at h1
    simp only [Res.ok.injEq, Prod.mk.injEq, and_true] at h1
    rw [h1]; exact h2
  have h := C67_divisor_sigma_from_factorization _ 72 2 (by norm_num) (by norm_num) hf
  have h2 : (divisorsLoop [(2, 3), (3, 2)] [1] >>= fun l => sumPow 2 l 0) = .ok 7735 := by decide +kernel
  rw [h2] at h ⊢
  split at h
  · exact h
  · cases h
example (hex : NoPseudoprimes .big) : IsFactorization [(2, 2), (3, 2), (5, 1)] 180 :=
  C45_factorize64_exact .big hex zeroRng 5 0 180 (by norm_num) (by norm_num) _ 0 (by decide +kernel)
example (hex : NoPseudoprimes .big) : primeOmega .big zeroRng 5 0 180 = .ok (ArithmeticFunction.cardDistinctFactors 180) :=
  (C67_prime_omega .big hex zeroRng 5 0 180 (by norm_num) (by norm_num) ([(2, 2), (3, 2), (5, 1)], 0) (by decide +kernel)).1
example (hex : NoPseudoprimes .big) : ∃ l, divisors .big zeroRng 5 0 180 = .ok l ∧ ListsDivisors l 180 :=
  C66_divisors .big hex zeroRng 5 0 180 (by norm_num) (by norm_num) ([(2, 2), (3, 2), (5, 1)], 0) (by decide +kernel)
example : factorize64Rel .big zeroRng 5 0 180 = .ok ([(2, 2), (3, 2), (5, 1)], 0) ∧ factorize128Rel .big zeroRng 5 0 180 = .ok ([(2, 2), (3, 2), (5, 1)], 0) :=
  ⟨C80_factorize64_agrees .big zeroRng 5 0 180 (by norm_num) (by norm_num) _ (by decide +kernel),
    C80_factorize128_agrees .big zeroRng 5 0 180 (by norm_num) (by norm_num) _ (by decide +kernel)⟩
example : factorize64Rel .big zeroRng 5 0 (2 ^ 64 - 59) ≠ .panic ∧ factorize128Rel .big zeroRng 5 0 (2 ^ 128 - 159) ≠ .panic :=
  ⟨(C80_factorize64_release .big zeroRng 5 0 (2 ^ 64 - 59) (by norm_num) (by norm_num)).1,
    (C80_factorize128_release .big zeroRng 5 0 (2 ^ 128 - 159) (by norm_num) (by norm_num)).1⟩
example (hex : NoPseudoprimes .big) : IsFactorization [(2, 2), (3, 2), (5, 1)] 180 :=
  C80_factorize64_release_exact .big hex zeroRng 5 0 180 (by norm_num) (by norm_num) _ 0 (by decide +kernel)
example : ∃ v, factorize64 .big countRng (2 ^ 72) 0 (65519 * 65521) = .ok v ∧ factorize64Rel .big countRng (2 ^ 72) 0 (65519 * 65521) = .ok v ∧
    factorize128Rel .big countRng (2 ^ 72) 0 (65519 * 65521) = .ok v :=
  C96_factorize_u32_release .big countRng (2 ^ 72) 0 (65519 * 65521) (by norm_num) (by norm_num) le_rfl
example : product [(2, 2), (3, 2), (5, 1)] * (Option.getD none []).prod = 180 :=
  (C47_factors_product .small exampleEstimates 5 5 usedBuf usedBuf_reachable (some 16) zeroRng 5 0 180 (by norm_num) none _ none 0 (by decide +kernel)).1
example : product [(2, 2), (3, 2), (5, 1)] = 180 :=
  (C48_factorize_product .small exampleEstimates 5 5 usedBuf usedBuf_reachable (some 16) zeroRng 5 1 0 180 (by norm_num) _ 0 (by decide +kernel)).1
example : (-1 : ℤ) = ArithmeticFunction.moebius 30030 * -1 := by
  rw [← C51_moebius_u16 .big (some 16) zeroRng 5 1 0 30030 (by norm_num) 1 (by decide +kernel)]; norm_num
example : moebius .big (some 16) zeroRng 0 0 0 255 = .ok (ArithmeticFunction.moebius 255) :=
  C51_moebius_small .big (some 16) zeroRng 0 0 0 255 (by norm_num)
example : factors .big (some 128) [2, 3, 5] countRng (2 ^ 72) 0 (2 ^ 128 - 159) none ≠ .timeout ∧
    factorize .big (some 128) [2, 3, 5] countRng (2 ^ 72) 1 0 (2 ^ 128 - 159) ≠ .timeout ∧
    moebius .big (some 128) countRng (2 ^ 72) 1 0 (2 ^ 128 - 159) ≠ .timeout :=
  ⟨C79_factors_terminates .big _ _ _ _ 0 _ none (by norm_num) le_rfl, C79_factorize_terminates .big _ _ _ _ 1 0 _ (by norm_num) le_rfl le_rfl,
    C79_moebius_terminates .big _ _ _ 1 0 _ (by norm_num) le_rfl le_rfl⟩
example : pollardRho 8051 2 1 1000 = .ok (some 97, 8) ∧ pollardRho 8051 2 1 7 = .ok (none, 7) :=
  ⟨(C90_rho_limit 8051 2 1 100 (some 97) 8 (by decide +kernel) (Or.inl rfl) 1000).1 (by norm_num),
    (C90_rho_limit 8051 2 1 100 (some 97) 8 (by decide +kernel) (Or.inl rfl) 7).2 (by norm_num)⟩

/-! ## primality tests -/

example : isPrp 1009 2 = true := C03_is_prp_prime 1009 2 (by norm_num) (by norm_num)
example : 2 ≤ 1009 ∧ (1009 = 2 ∨ 1009 % 2 = 1) := C02_accepted_ge_two_partial .big 1009 (by decide +kernel)
-- 323 = 17 * 19 is the first Lucas pseudoprime
example : ∃ Q : ℤ, MethodA 323 (1 - 4 * Q) ∧ LucasPRP 323 1 Q := by
  obtain ⟨v, h1, h2⟩ := C89_is_lprp_default .big (some 16) (by decide) 323 (by norm_num) (by decide)
  have h3 : isLprp .big (some 16) 323 none none = .ok true := by decide +kernel
  rw [h3] at h1
  exact h2.mp (by simpa using h1.symm)
example : isLprpRel .big 16 323 none none = .ok true ∧ isSlprpRel .big 16 5777 (some 1) (some (-1)) = .ok true ∧
    isEslprpRel .big 16 989 none = .ok true :=
  ⟨(C100_lucas_release_agrees .big 16 323 (by norm_num) (by norm_num) none none true).1 (by decide +kernel),
    (C100_lucas_release_agrees .big 16 5777 (by norm_num) (by norm_num) (some 1) (some (-1)) true).2.1 (by decide +kernel),
    (C100_lucas_release_agrees .big 16 989 (by norm_num) (by norm_num) none none true).2.2 (by decide +kernel)⟩
example : ∃ v, isLprp .big (some 64) (2 ^ 64 - 1) none none = .ok v ∧ isLprpRel .big 64 (2 ^ 64 - 1) none none = .ok v :=
  (C100_lucas_release_default .big 64 (2 ^ 64 - 1) (by simp) (by norm_num)).1
example (hex : NoPseudoprimes .big) :
    (isSafePrime .big (some 64) 4294967087 [] [] = .ok .yes ∧ Nat.Prime 4294967087 ∧ Nat.Prime ((4294967087 - 1) / 2)) ∨
    (isSafePrime .big (some 64) 4294967087 [] [] = .ok .no ∧ ¬ (Nat.Prime 4294967087 ∧ Nat.Prime ((4294967087 - 1) / 2))) :=
  C18_is_safe_prime_u64 .big hex (some 64) 4294967087 (by norm_num) [] []

/-! ## neighbouring primes -/

example : ∃ F, ∀ fuel, F ≤ fuel → ∃ q, nextPrime .big (some 16) 65519 none (fun _ => []) fuel = .ok (some q) ∧
    prevPrime .big (some 16) q none (fun _ => []) fuel = .ok (some 65519) :=
  C85_prev_next .big 16 (Or.inl (by simp)) 65519 (by norm_num) ⟨65521, by norm_num, by norm_num, by norm_num⟩ none
example : prevPrime .small (some 64) 2 none (fun _ => []) 0 = .ok none := C20_prev_prime_none .small (some 64) 2 le_rfl none _ 0
example (hex : NoPseudoprimes .big) : ∃ r F, (∀ fuel, F ≤ fuel → prevPrime .big (some 64) (2 ^ 64 - 59) none (fun _ => []) fuel = .ok (some r)) ∧
    IsPrevPrime (2 ^ 64 - 59) r :=
  C20_prev_prime_u64 .big hex (some 64) (2 ^ 64 - 59) (by norm_num) (by norm_num) none _

/-! ## the Montgomery wrapper -/

open Mint in
example : mIsPrp (left 561) (left 2) = .ok true ∧ mIsSprp (some 64) (left 2047) (left 2) = .ok true :=
  ⟨(C64_sprp_transparent (some 64) 561 2 (by norm_num)).1.trans (by decide +kernel),
    (C64_sprp_transparent (some 64) 2047 2 (by norm_num)).2.1.trans (by decide +kernel)⟩
open Mint in
example : ∃ u v, mLucasm 1 (-1) (left 1001) (left 100) = .ok (right u 1001, right v 1001) ∧ lucasm 1 (-1) 1001 100 = (u, v) ∧
    (u : ℤ) = lucasU 1 (-1) 100 % 1001 ∧ (v : ℤ) = lucasV 1 (-1) 100 % 1001 := C64_lucasm_transparent 1 (-1) 1001 100 (by norm_num)
open Mint in
example : rem (left 1000) (left 78) = .panic := C77_rem_even_panics 1000 78 (by norm_num)
open Mint in
example : ∃ s d p, maddm (right 5 7) (right 6 7) (left 7) = .ok (right s 7) ∧ msubm (right 5 7) (right 6 7) (left 7) = .ok (right d 7) ∧
    mmulm (right 5 7) (right 6 7) (left 7) = .ok (right p 7) ∧ s < 7 ∧ d < 7 ∧ p < 7 ∧ (s : ZMod 7) = (5 : ℕ) + (6 : ℕ) ∧
    (d : ZMod 7) = (5 : ℕ) - (6 : ℕ) ∧ (p : ZMod 7) = (5 : ℕ) * (6 : ℕ) := C77_modular_ops 7 5 6 (by norm_num)
open Mint in
example : eq (right 5 7) (right 5 9) = .panic := (C77_eq (right 5 7) (right 5 9) rfl).2.mpr ⟨5, 7, 5, 9, rfl, rfl, by norm_num⟩

/-! ## random primes -/

example : Nat.Prime 479 ∧ Nat.Prime ((479 - 1) / 2) :=
  C62_safe_prime_u32_prime (constSource 60000) 16 (Or.inr (Or.inl rfl)) 5 9 4 0 479 1 (Or.inr (by decide +kernel))
example : 193 < 2 ^ 16 ∧ isPrime64 .big 193 = true :=
  C59_gen_prime_prim .big (constSource 12345) 16 (by decide) 5 10 0 193 1 (Or.inl (by decide +kernel))
example : genPrimePrim .big (constSource 7) 16 1 17 0 = .panic :=
  (C59_bad_bit_size_panics .big (constSource 7) none 16 0 17 0 (Or.inr (by norm_num))).1
example : ∃ F r, ∀ fuel, F ≤ fuel → genPrimeExactPrim .big (constSource 12345) 16 fuel 10 0 = .ok r :=
  C59_gen_prime_exact_prim_returns (constSource 12345) 16 (by decide) 10 0 (by norm_num) (by norm_num) (Or.inl (by norm_num))
example : genPrimePrim .small (constSource 253) 8 1 8 0 = .panic := C59_gen_prime_small_panics 253 (by norm_num) (by norm_num) 0 0
example : genPrimePrimRel .big (constSource 12345) 16 5 10 0 = .ok (193, 1) :=
  (C99_gen_prime_release_agrees .big (constSource 12345) 16 (by decide) 5 10 0 0 (by norm_num)).1.trans (by decide +kernel)
example : ∃ F, ∀ fuel, F ≤ fuel → genPrimePrim .big (constSource 12345) 16 fuel 10 0 = .ok (193, 1) :=
  C94_gen_prime_first .big 16 (by decide) (testExact_u16 .big) (constSource 12345) 10 0 193 (by norm_num) (by norm_num)
    (by have h : (constSource 12345).value 0 % 2 ^ 16 / 2 ^ (16 - 10) ||| 1 = 193 := by decide
        rw [h]
        exact ⟨⟨by norm_num, le_rfl⟩, fun q hq => hq.2⟩)
    (by norm_num) (fun h => absurd h.1 (by decide))

/-! ## further cases -/

example : oneLine .big (some (2 * 8)) 65521 (1 * 65521) 2 = .panic :=
  (C43_one_line_panics_iff .big 8 65521 1 2 (by norm_num) (by norm_num) (by norm_num)).mpr
    ⟨1, by norm_num, by norm_num, by norm_num, by norm_num, fun j h1 h2 => absurd h1 (by omega)⟩
-- only one prime factor of 2^30 * 4294967291 is above the small table
example : ∃ m, factorize64 .big zeroRng 1 0 (2 ^ 3 * 1000003) = .ok (m, 0) ∧
    ((isPrime64 .big (2 ^ 3 * 1000003) = true → (2 ^ 3 * 1000003).Prime) → IsFactorization m (2 ^ 3 * 1000003)) := by
  have key : ∀ p : ℕ, p.Prime → smallPrimesNext .big ≤ p → p ∣ 2 ^ 3 * 1000003 → p = 1000003 := by
    intro p hp hb hd
    have hb : 100 ≤ p := le_trans (by decide +kernel) hb
    rcases hp.dvd_mul.mp hd with h | h
    · have := (Nat.prime_dvd_prime_iff_eq hp Nat.prime_two).mp (hp.dvd_of_dvd_pow h)
      omega
    · exact (Nat.prime_dvd_prime_iff_eq hp (by norm_num)).mp h
  refine C45_factorize64_smooth .big zeroRng 1 0 _ (by norm_num) (by norm_num) le_rfl (fun p q hp hq h1 h2 hd => ?_)
  have e1 := key p hp h1 (dvd_trans (dvd_mul_right p q) hd)
  have e2 := key q hq h2 (dvd_trans (dvd_mul_left q p) hd)
  have := Nat.le_of_dvd (by norm_num) hd
  rw [e1, e2] at this
  norm_num at this
example : probability ⟨13, 20, false, false⟩ = .fin 1 := C83_reported_certain 13 20 (by norm_num) (by norm_num) (Or.inl (by norm_num)) (by norm_num)
theorem m89_accepted : ∃ r, isPrime .big (some 128) [2, 3] m89 (some ⟨2, 1, true, true⟩) [7] = .ok r ∧ r.probably = true := by
  have h : (match isPrime .big (some 128) [2, 3] m89 (some ⟨2, 1, true, true⟩) [7] with | .ok r => r.probably | _ => false) = true := by
    decide +kernel
  split at h
  · rename_i r hr; exact ⟨r, hr, h⟩
  · cases h
example : m89 % 2 = 1 ∧ (∀ b ∈ [2, 3].take 2, StrongPRP m89 b) := by
  obtain ⟨r, hr, hp⟩ := m89_accepted
  have h := C16_accepted_passes .big (some 128) (by decide) [2, 3] m89 (by decide) (by decide) ⟨2, 1, true, true⟩ [7] r hr hp
  exact ⟨h.1, h.2.1⟩
example : ∃ p v, isPrime .big (some 128) [2, 3] m89 (some ⟨2, 1, true, true⟩) [7] = .ok (.probable p) ∧ p = .fin v ∧ 0 < v ∧ v ≤ 1 := by
  obtain ⟨p, hr⟩ : ∃ p, isPrime .big (some 128) [2, 3] m89 (some ⟨2, 1, true, true⟩) [7] = .ok (.probable p) := by
    have h : (match isPrime .big (some 128) [2, 3] m89 (some ⟨2, 1, true, true⟩) [7] with | .ok (.probable _) => true | _ => false) = true := by
      decide +kernel
    split at h
    · rename_i p hp; exact ⟨p, hp⟩
    · cases h
  obtain ⟨v, h1, h2, h3, -⟩ := C83_is_prime_partial .big (some 128) (by decide) [2, 3] m89 (by decide) (by decide) (some ⟨2, 1, true, true⟩) [7] p
    (by decide) (by decide) hr
  exact ⟨p, v, hr, h1, h2, h3⟩
theorem isPrimeNew_returns {t : ℕ} (h : t < 2 ^ 64) (bld : Build) (w : Width) (config : Option PrimalityTestConfig) (draws : List ℕ) :
    isPrimeNew bld w t config draws ≠ .timeout := by
  simp only [isPrimeNew, isPrime, h]; split <;> simp
example : ∃ o F, ∀ fuel, F ≤ fuel → nextPrime .big (some 16) 65000 none (fun _ => []) fuel = .ok o :=
  C19_next_prime_returns (some 16) (by decide) 65000 none (fun _ => []) (by intro t x hx; simp at hx) (fun t ht =>
    isPrimeNew_returns (by have := fits_some.mp ht; omega) _ _ _ _)
example (hex : NoPseudoprimes .big) : ∃ F, ∀ fuel, F ≤ fuel →
    (∃ p, nextPrime .big (some 64) (2 ^ 64 - 100) none (fun _ => []) fuel = .ok (some p) ∧ IsNextPrime (2 ^ 64 - 100) p) ∨
    (nextPrime .big (some 64) (2 ^ 64 - 100) none (fun _ => []) fuel = .ok none ∧ ∀ p, IsNextPrime (2 ^ 64 - 100) p → 2 ^ 64 ≤ p) :=
  C19_next_prime_machine hex 64 (by simp) (2 ^ 64 - 100) none
example : BitBound 70 2053 :=
  (C60_gen_prime_u128_partial .big bigSource bigSource_good none 50 70 0 2053 1 (by decide +kernel)).1
example : 2 ^ 69 ≤ 590295810358705653817 ∧ BitBound 70 590295810358705653817 :=
  ⟨(C61_gen_prime_exact_u128_partial .big bigSource bigSource_good none 50 70 0 _ 1 (by decide +kernel)).1,
    (C61_gen_prime_exact_u128_partial .big bigSource bigSource_good none 50 70 0 _ 1 (by decide +kernel)).2.1⟩
example : 2 ^ 69 ≤ 590295810358705664123 ∧ BitBound 70 590295810358705664123 :=
  C61_gen_prime_exact_big_partial .big bigSource bigSource_good none 50 70 0 _ 1 (by decide +kernel)
example : 590295810358705653817 < 2 ^ 128 :=
  (C59_gen_prime_u128 .big bigSource none 50 70 0 _ 1 (Or.inr (by decide +kernel))).1
example : 1180591620717411330563 < 2 ^ 72 :=
  (C63_safe_prime_big_partial .big bigSource bigSource_good 50 70 (by norm_num) 20 0 _ 13).1 (by decide +kernel)
example : ∃ j, Accepted .big none (some .strict) (bigSource.draws j) ((1180591620717411330563 - 1) / 2) :=
  (C62_safe_prime_big .big bigSource 50 70 20 0 1180591620717411330563 13 (Or.inl (by decide +kernel))).2.2
example : BitBound 9 479 :=
  ((C63_safe_prime_prim_partial .big (constSource 60000) 16 (by decide) 5 9 4 0 479 1).2 (by decide +kernel)).2.1
example : 2 ^ 9 ≤ 709 ∧ 709 < 2 ^ 10 :=
  C61_gen_prime_exact_prim_within_partial .big (constSource 12345) 16 (by decide) 5 10 0 709 1
    (fun _ => ⟨1021, by norm_num, by norm_num, by simp only [constSource]; decide⟩) (by decide +kernel)
example : ∃ F, ∀ fuel, F ≤ fuel → genPrimeExactPrim .big (constSource 12345) 16 fuel 10 0 = .ok (709, 1) :=
  C94_gen_prime_exact_first .big 16 (by decide) (testExact_u16 .big) (constSource 12345) 10 0 709 (by norm_num) (by norm_num)
    (by have h : (constSource 12345).value 0 % 2 ^ 16 / 2 ^ (16 - 10) ||| 1 ||| 2 ^ (10 - 1) = 705 := by decide
        rw [h]
        refine ⟨⟨by norm_num, by norm_num⟩, fun q hq => ?_⟩
        by_contra hlt
        have h1 := hq.1
        have h2 := hq.2
        have : q = 705 ∨ q = 706 ∨ q = 707 ∨ q = 708 := by omega
        rcases this with rfl | rfl | rfl | rfl <;> revert h1 <;> norm_num)
    (by norm_num) (fun h => absurd h.1 (by decide))
example : IsFactorization [(2, 2), (3, 2), (5, 1)] 180 :=
  C47_factors_complete .small exampleEstimates 5 5 usedBuf usedBuf_reachable (some 16) zeroRng 5 0 180 (by norm_num) none _ 0
    (passesTest_exactBelow (testExact_u16 .small) (by norm_num) (by norm_num)) (by decide +kernel)
example : false = true ↔ ¬ ∃ d, 1 < d ∧ d * d ∣ 180 :=
  C52_is_square_free_exact .small (some 16) zeroRng 5 1 0 180
    (fun t ht => passesTest_exactBelow (testExact_u16 .small) (by rcases ht with h | h <;> omega)
      (by rcases ht with h | h <;> omega)) false (by decide +kernel)
-- the limits are 0 and 100000
example : ∃ x, nthPrimeEst .big none exampleEstimates 5000 100000 = .ok (some x) ∧ 0 ≤ x ∧ x ≤ 100000 :=
  C36_nth_prime_est_unbounded .big exampleEstimates 5000 0 100000 (by decide +kernel) (by norm_num) (fun _ _ _ => ⟨rfl, rfl, rfl⟩) 100000 (by norm_num)
example : nthPrimeEst .big (some 64) exampleEstimates 5000 100000 ≠ .timeout :=
  (C36_nth_prime_est .big (some 64) exampleEstimates 5000 0 100000 (by decide +kernel) (by norm_num)).1 100000 (by norm_num)
example : factorize128With .big (fun t j => if t.Prime then .panic else search .big 64 countRng 1000 t j)
    (fun t j => if t.Prime then .panic else search .big 128 countRng 1000 t j) 1000 0 (2 ^ 100 + 7) =
    factorize128 .big countRng 1000 0 (2 ^ 100 + 7) :=
  C69_factorize128_no_prime .big countRng 1000 0 (2 ^ 100 + 7) (by norm_num) (by norm_num)
-- the Mersenne prime 2^89 - 1
example : IsFactorization [(m89, 1)] m89 := by
  refine C46_factorize128_exact .big zeroRng 5 0 m89 (by decide) (by decide) (fun p hp v hv h => ?_) _ 0 (by decide +kernel)
  have hm : m89.Prime := by
    have : m89 = mersenne 89 := rfl
    rw [this]
    exact lucas_lehmer_sufficiency 89 (by norm_num) (by norm_num)
  rcases (Nat.dvd_prime hm).mp hp with rfl | rfl
  · have h1 : isPrimeNew .big (some 128) 1 (some .bpsw) [] = .ok .no := by decide +kernel
    rw [h1] at hv
    cases hv
    cases h
  · exact hm
example : IsFactorization [(3, 1), (1009, 2)] (3 * 1009 ^ 2) := by
  refine C45_factorize64_exact_divisors .small zeroRng (2 ^ 72) 0 _ (by norm_num) (by norm_num) (fun p hp h => ?_) _ 0 (by decide +kernel)
  exact (isPrime64_exact_u32 (lt_of_le_of_lt (Nat.le_of_dvd (by norm_num) hp) (by norm_num))).mp h
-- 12 * (2^89 - 1) * (2^61 - 1) with useless random numbers: the cofactor stays composite
example : ¬ Nat.Prime 1427247692705959880439315947500961989719490561 :=
  C47_cofactors_not_prime .small exampleEstimates 5 5 usedBuf usedBuf_reachable (fun p hp => lt_trans (usedBuf_lt p hp) (by norm_num)) zeroRng
    (by intro j x hx; simp [zeroRng] at hx) 200 0 (12 * m89 * (2 ^ 61 - 1)) (by decide) (some ⟨⟨2, 0, true, false⟩, some 100, 2⟩)
    [(2, 2), (3, 1)] [1427247692705959880439315947500961989719490561] 5 (by decide +kernel) _ (List.mem_singleton.mpr rfl)

end NumPrime
