import Verif.Props.Instances2
import Verif.Props.AnyBuffer
import Verif.Props.BuildAgree
import Verif.Props.Profile
import Verif.Props.RandReach
import Verif.Props.ReleaseExamples
import Verif.Props.ReleaseMoebius
import Verif.Props.ReleasePrime
import Verif.Props.Shanks
import Verif.Props.TableRange

/-! # More instances

As Instances.lean and Instances2.lean: theorems applied to concrete inputs that meet their hypotheses. -/

namespace NumPrime
open Spec Tables

/-! ## factorization on an arbitrary buffer -/

theorem buffer_8999 : ∀ p ∈ [8999, 2], p.Prime ∧ p < 2 ^ 64 := by
  intro p hp; simp only [List.mem_cons, List.not_mem_nil, or_false] at hp; rcases hp with rfl | rfl <;> norm_num
theorem factors_8999 : factors .small none [8999, 2] exampleRng 200 0 (2 ^ 100 * 8999 * 8999 * 1000003) none =
    .ok ([(2, 100), (8999, 2), (1000003, 1)], none, 1) := by decide +kernel
example : product [(2, 100), (8999, 2), (1000003, 1)] = 2 ^ 100 * 8999 * 8999 * 1000003 := by
  have h := (C107_factors_product .small _ buffer_8999 none exampleRng 200 0 _ (by norm_num) none _ _ _ factors_8999).1
  simpa using h
example (hex : ∀ p, p ∣ 2 ^ 100 * 8999 * 8999 * 1000003 → AcceptedBy .small none [8999, 2] exampleRng PrimalityTestConfig.default p → p.Prime) :
    IsFactorization [(2, 100), (8999, 2), (1000003, 1)] (2 ^ 100 * 8999 * 8999 * 1000003) :=
  C107_factors_complete .small _ buffer_8999 none exampleRng 200 0 _ (by norm_num) none _ _ hex factors_8999
example : ∃ r, factors .big none [8999, 2] exampleRng 400 0 (2 ^ 150 + 1) (some ⟨.bpsw, none, 4⟩) = .ok r :=
  C107_factors_returns .big _ buffer_8999 exampleRng 400 0 _ (by norm_num) _ (fun j => by simp [PrimalityTestConfig.bpsw]) (by decide +kernel)
example : ProperDivisor 103 (101 * 103) :=
  (C107_divisor_proper [101, 103] (by decide) (some 32) exampleRng 0 (101 * 103) (by norm_num) none 4 (some 103) 2 4 (by decide +kernel)).2 _ rfl
example (find : ℕ → ℕ → Res (ℕ × ℕ)) (h : ∀ t j, find t j = search .big 64 exampleRng 10 t j) :
    factorize128With .big find (search .big 128 exampleRng 10) 10 0 (2 ^ 100 + 1) = factorize128 .big exampleRng 10 0 (2 ^ 100 + 1) :=
  C69_factorize128_search .big exampleRng 10 0 _ (by norm_num) (by norm_num) _ _ (fun t j _ _ => h t j) (fun _ _ _ _ => rfl)

/-! ## the two builds -/

example : isPrime .big (some 128) (smallPrimes .small) (2 ^ 64 + 13) none [5, 7, 11] =
    isPrime .small (some 128) (smallPrimes .small) (2 ^ 64 + 13) none [5, 7, 11] :=
  C111_is_prime_large .big .small _ _ _ (by norm_num) _ _
example : (25 : ℕ) = 25 :=
  C111_prime_pi .small .small exampleEstimates exampleEstimates 5 101 5 101 newBuf newBuf newBuf_reachable newBuf_reachable 100 (by norm_num)
    25 25 newBuf newBuf (by decide +kernel) (by decide +kernel)

/-! ## the profiling example -/

example : ∃ l, profileNMin .big (2 ^ 24 * 130) (fun r => r + 2) (fun _ => 1) (fun _ => 0) (fun _ => 0) (fun _ => 0) (1000003 * 1000033) = .ok l :=
  C105_profile_returns _ _ _ _ _ _ _ _ (by norm_num) (by norm_num) le_rfl
example : ∃ l a b c, profileN .big (2 ^ 20 * 130) (fun r => r + 2) (fun _ => 1) (1000003 * 1000033) = .ok l ∧ l = a ++ b ++ c ∧ a.length = 2 ∧
    b.length = 10 ∧ c.length = 3 := by
  obtain ⟨l, hl⟩ := C105_profile_n_returns .big (2 ^ 20 * 130) (fun r => r + 2) (fun _ => 1) (1000003 * 1000033) (by norm_num) (by norm_num) le_rfl
  obtain ⟨a, b, c, h, h1, h2, h3⟩ := C105_profile_n _ _ _ _ _ _ hl
  exact ⟨l, a, b, c, hl, h, h1.length_eq.symm, h2.length_eq.symm.trans (by decide), h3.length_eq.symm⟩

/-! ## generating a given prime -/

example : genPrimePrim .big (constSource (251 * 2 ^ 8)) 16 1 8 0 = .ok (251, 1) ∧ genPrimeExactPrim .big (constSource (251 * 2 ^ 8)) 16 1 8 0 = .ok (251, 1) :=
  have h := C109_gen_prime_prim .big 16 (Or.inr (Or.inl rfl)) 8 251 (by norm_num) (by norm_num) (by norm_num) (by norm_num)
    (constSource (251 * 2 ^ 8)) 0 0 rfl
  ⟨h.1, h.2 (by norm_num)⟩
example : ∃ src : RandSource, genPrimeBig .big src (some .strict) 1 200 0 = .ok (1000003, 1) :=
  ⟨⟨fun _ => 1000003, fun _ _ => [5, 7, 11]⟩,
   (C109_gen_prime_big .big (some .strict) 200 1000003 (by norm_num) (by norm_num) (by norm_num) ⟨fun _ => 1000003, fun _ _ => [5, 7, 11]⟩ 0 0 rfl
    (fun t x hx => by simp only [List.mem_cons, List.not_mem_nil, or_false] at hx; omega)
    (strict_returns (Or.inl rfl) rfl)).1⟩
example : ∃ src : RandSource, genPrime128 .big src (some .bpsw) 1 100 0 = .ok (1000003, 1) :=
  ⟨⟨fun _ => 1000003 * 2 ^ 28, fun _ _ => []⟩,
   (C109_gen_prime_u128 .big (some .bpsw) (by rfl) 100 1000003 (by norm_num) (by norm_num) (by norm_num) (by norm_num) _ 0 0 rfl
    (fun t x hx => by simp at hx) (by decide +kernel)).1⟩

/-! ## without overflow checks -/

theorem accepted_1001 {bld : Build} {p : ℕ} (hp : p ∣ 1001) {v : Primality} (h : isPrimeNew bld (some 128) p (some .bpsw) [] = .ok v)
    (hv : v.probably = true) : p.Prime := by
  have hlt : p < 2 ^ 16 := lt_of_le_of_lt (Nat.le_of_dvd (by norm_num) hp) (by norm_num)
  exact (C02_is_prime64_exact_u16_partial bld p hlt).mp
    (isPrime64_of_accepted128 (config := some .bpsw) (draws := fun _ => []) (lt_trans hlt (by norm_num)) ⟨v, h, hv⟩)

example : factorizeRel .small zeroRng 100 1 0 1001 ≠ .panic := (C101_factorize_release _ _ _ _ _ _ (by norm_num) (by norm_num)).1
example : IsFactorization [(7, 1), (11, 1), (13, 1)] 1001 :=
  C101_factorize_release_exact .small zeroRng 100 1 0 1001 (by norm_num) (by norm_num) (fun _ hp _ h hv => accepted_1001 hp h hv) _ 0
    (by decide +kernel)
example : factorizeRel .small zeroRng 100 1 0 1001 = .ok ([(7, 1), (11, 1), (13, 1)], 0) :=
  (C101_factorize_agrees .small (some 16) [2, 3, 5, 7] zeroRng 100 0 1001 (by norm_num) (by norm_num)).2 1 _ (by decide +kernel)
example : moebiusRel .big 64 zeroRng 100 1 0 (2 ^ 64 - 1) ≠ .panic := (C101_moebius_never_panics .big 64 zeroRng 100 1 0 _ (by norm_num)).1
example : moebiusRel .small 16 zeroRng 100 1 0 1001 = .ok (-1) ∧ isSquareFreeRel .small 16 zeroRng 100 1 0 1001 = .ok true :=
  have h := C101_moebius_agrees .small (some 16) 16 (by norm_num) zeroRng 100 1 0 1001 (by norm_num)
  ⟨h.1 _ (by decide +kernel), h.2 _ (by decide +kernel)⟩
example : (-1 : ℤ) = ArithmeticFunction.moebius 1001 :=
  C101_moebius_release_exact .small 16 (by norm_num) zeroRng 100 1 0 1001 (by norm_num) (fun _ hp _ h hv => accepted_1001 hp h hv) _
    (by decide +kernel)
example : Squarefree 1001 :=
  (C101_is_square_free_release_exact .small 16 (by norm_num) zeroRng 100 1 0 1001 (by norm_num) (fun _ hp _ h hv => accepted_1001 hp h hv) true
    (by decide +kernel)).mp rfl
example : isPrimeRel .big 128 (smallPrimes .big) (2 ^ 127 - 1) (some .bpsw) [] = isPrime .big (some 128) (smallPrimes .big) (2 ^ 127 - 1) (some .bpsw) [] :=
  C102_is_prime_release .big 128 (by simp) _ _ (by norm_num) _ _
example : isSafePrimeRel .big 64 (2 ^ 64 - 1) [] [] = isSafePrime .big (some 64) (2 ^ 64 - 1) [] [] :=
  C102_is_safe_prime_release .big 64 (by simp) _ (by norm_num) _ _
example : nextPrimeRel .big 128 (2 ^ 128 - 1) none (fun _ => []) 5 = nextPrime .big (some 128) (2 ^ 128 - 1) none (fun _ => []) 5 :=
  C102_next_prime_release .big 128 (by simp) _ _ _ _
example : prevPrimeRel .big 32 (2 ^ 32 - 1) none (fun _ => []) 5 = prevPrime .big (some 32) (2 ^ 32 - 1) none (fun _ => []) 5 ∧
    prevPrimeRel .big 32 (2 ^ 32 - 1) none (fun _ => []) 5 ≠ .panic :=
  ⟨C102_prev_prime_release .big 32 (by simp) _ (by norm_num) _ _ _, (C102_prev_prime_never_panics .big 32 (by simp) _ (by norm_num) _ _ _).1⟩
example : divisorsRel .big zeroRng 5 0 12 = .ok [1, 2, 4, 3, 6, 12] ∧ divisorSigmaRel .big zeroRng 5 0 12 1 = .ok 28 ∧
    primeOmegaRel .big zeroRng 5 0 12 = .ok 2 :=
  have h := C103_examples_agree .big zeroRng 5 0 12 (by norm_num) (by norm_num)
  ⟨h.1 _ (by decide +kernel), h.2.1 _ _ (by decide +kernel), h.2.2 _ (by decide +kernel)⟩

/-! ## the remaining ones -/

example : ShanksAt 11111 (1 * 11111) 5 41 :=
  (C108_squfof_found .big (some 64) (30 * 15) 11111 1 30 41 5 (by simp) (by norm_num) (by decide) not_square_11111 (by decide +kernel)).2.2.1
example : 127 >>> 6 < moebiusOdd.length ∧ 127 &&& 63 < 64 := C104_moebius_lookup 127 (by norm_num)
example : 63 < zetaLogTable.length := (C104_zeta_lookup 64 (by norm_num) le_rfl).1
example : moebiusLookupIdx 104 = .ok (moebiusLookup 104) := C104_moebius 105 (by norm_num) (by norm_num)
example : ∃ o F, ∀ fuel, F ≤ fuel → prevPrime .big none (2 ^ 300) (some .strict) (fun _ => [5, 7, 11]) fuel = .ok o :=
  C20_prev_prime_returns .big none (Or.inl rfl) (2 ^ 300) rfl _ _
    (fun t x hx => by simp only [List.mem_cons, List.not_mem_nil, or_false] at hx; omega) (fun t => strict_returns (Or.inl rfl) rfl)
example : ∃ F, ∀ g f b c, F ≤ g → 4096 * 4096 ≤ f → Reachable .small idealEstimates g f b → (∀ p ∈ b.iter, p < 2 ^ 32) →
    (∀ x a v, ((x, a), v) ∈ c.items → v = legendrePhi x a) →
    ∃ b' c', b.primePhi .small idealEstimates g f (10 ^ 18) 4096 c = .ok (legendrePhi (10 ^ 18) 4096, b', c') :=
  C31_prime_phi_returns_partial .small idealEstimates (10 ^ 18) 4096 (by norm_num) (by norm_num) (by norm_num) (fun h => by omega)
    (goodEstimates_ideal .small (by norm_num))
example (hex : NoPseudoprimes .small) : ∃ F, ∀ g f b, F ≤ g → 10 ^ 18 < f → Reachable .small idealEstimates g f b → (∀ p ∈ b.iter, p < 2 ^ 32) →
    ∃ b', primePi .small idealEstimates g f b (10 ^ 18) = .ok (Nat.primeCounting (10 ^ 18), b') :=
  C30_prime_pi_returns_partial .small hex idealEstimates (10 ^ 18) (by norm_num) (goodEstimates_ideal .small (by
    have h1 : Nat.sqrt (10 ^ 18) = 10 ^ 9 := by rw [show (10 : ℕ) ^ 18 = 10 ^ 9 * 10 ^ 9 by norm_num, Nat.sqrt_eq]
    have h2 := primeCounting_le (Nat.sqrt (10 ^ 18))
    rw [h1] at h2 ⊢
    exact h2.trans (by norm_num)))
example (hex : NoPseudoprimes .small) : 25 = Nat.primeCounting 100 :=
  C30_prime_pi_exact .small hex exampleEstimates 5 101 newBuf newBuf_reachable 100 (by norm_num) 25 newBuf (by decide +kernel)
example (hex : ∀ p < 2 ^ 64, isPrime64 .small p = true → p.Prime) : (-1 : ℤ) = ArithmeticFunction.moebius 1001 :=
  C51_moebius_u64 .small hex (some 16) zeroRng 100 1 0 1001 (by norm_num) _ (by decide +kernel)

end NumPrime
