import Verif.Props.Consistency
import Verif.Props.FactorizeU32

/-! # C111: the cargo feature `big-table` changes no answer -/

namespace NumPrime
open Spec

theorem sqrtExact_build (bld bld' : Build) (w : Width) (n : ℕ) : sqrtExact bld w n = sqrtExact bld' w n := by
  cases w with
  | some b => rfl
  | none =>
    obtain ⟨o, h1, h2⟩ := sqrtExactBig_spec bld n
    obtain ⟨o', h1', h2'⟩ := sqrtExactBig_spec bld' n
    have : o = o' := by
      ext r
      rw [h2, h2']
    simp only [sqrtExact, h1, h1', this]

theorem isSquare_build (bld bld' : Build) (w : Width) (n : ℕ) : NumPrime.isSquare bld w n = NumPrime.isSquare bld' w n := by
  rw [NumPrime.isSquare, NumPrime.isSquare, sqrtExact_build bld bld']

/-- **C111** exact roots and the tests for squares and cubes are the same in both builds, for every type and every number -/
theorem C111_roots (bld bld' : Build) (w : Width) (n : ℕ) :
    sqrtExact bld w n = sqrtExact bld' w n ∧ cbrtExact bld w n = cbrtExact bld' w n ∧
    NumPrime.isSquare bld w n = NumPrime.isSquare bld' w n ∧ isCubic bld w n = isCubic bld' w n := by
  have hc : cbrtExact bld w n = cbrtExact bld' w n := by
    ext r
    rw [cbrtExact_spec, cbrtExact_spec]
  exact ⟨sqrtExact_build _ _ _ _, hc, isSquare_build _ _ _ _, by rw [isCubic, isCubic, hc]⟩

theorem pqSelfridgeLoop_build (bld bld' : Build) (w : Width) (n f : ℕ) :
    ∀ d neg, pqSelfridgeLoop bld w n f d neg = pqSelfridgeLoop bld' w n f d neg := by
  induction f with
  | zero => intro d neg; rfl
  | succ f ih => intro d neg; simp only [pqSelfridgeLoop, isSquare_build bld bld', ih]

theorem pBruteforceLoop_build (bld bld' : Build) (w : Width) (n f : ℕ) :
    ∀ p, pBruteforceLoop bld w n f p = pBruteforceLoop bld' w n f p := by
  induction f with
  | zero => intro d; rfl
  | succ f ih => intro d; simp only [pBruteforceLoop, isSquare_build bld bld', ih]

theorem lucasParams_build (bld bld' : Build) (w : Width) (n : ℕ) (p : Option ℕ) (q : Option ℤ) :
    lucasParams bld w n p q = lucasParams bld' w n p q := by
  unfold lucasParams
  split
  · rfl
  · exact pqSelfridgeLoop_build _ _ _ _ _ _ _

/-- **C111** so are the Lucas tests, with any parameters -/
theorem C111_lucas_tests (bld bld' : Build) (w : Width) (n : ℕ) (p : Option ℕ) (q : Option ℤ) :
    isLprp bld w n p q = isLprp bld' w n p q ∧ isSlprp bld w n p q = isSlprp bld' w n p q ∧
    isEslprp bld w n p = isEslprp bld' w n p := by
  have h : pBruteforce bld w n = pBruteforce bld' w n := pBruteforceLoop_build _ _ _ _ _ _
  refine ⟨?_, ?_, ?_⟩
  · simp only [isLprp, lucasParams_build bld bld']
  · simp only [isSlprp, lucasParams_build bld bld']
  · simp only [isEslprp, h]

/-- **C111** so are the searches of SQUFOF and of the one-line method, with any arguments -/
theorem C111_squfof_one_line (bld bld' : Build) (w : Width) (fuel target mulTarget maxIter : ℕ) :
    squfof bld w fuel target mulTarget maxIter = squfof bld' w fuel target mulTarget maxIter ∧
    oneLine bld w target mulTarget maxIter = oneLine bld' w target mulTarget maxIter := by
  have h1 : ∀ rd f i p q qm1, squfofForward bld w fuel target mulTarget rd maxIter f i p q qm1 =
      squfofForward bld' w fuel target mulTarget rd maxIter f i p q qm1 := by
    intro rd f
    induction f with
    | zero => intro i p q qm1; rfl
    | succ f ih => intro i p q qm1; simp only [squfofForward, sqrtExact_build bld bld', ih]
  have h2 : ∀ f i ikn, oneLineLoop bld w target mulTarget maxIter f i ikn = oneLineLoop bld' w target mulTarget maxIter f i ikn := by
    intro f
    induction f with
    | zero => intro i ikn; rfl
    | succ f ih => intro i ikn; simp only [oneLineLoop, sqrtExact_build bld bld', ih]
  constructor
  · simp only [squfof, h1]
  · simp only [oneLine, h2]

/-- **C111** above `2^64` the generic test on a given prime buffer gives the same answer in both builds -/
theorem C111_is_prime_large (bld bld' : Build) (w : Width) (list : List ℕ) (n : ℕ) (hn : 2 ^ 64 ≤ n)
    (config : Option PrimalityTestConfig) (draws : List ℕ) :
    isPrime bld w list n config draws = isPrime bld' w list n config draws := by
  simp only [isPrime, if_neg (not_lt.mpr hn), (C111_lucas_tests bld bld' w n none none).2.1, (C111_lucas_tests bld bld' w n none none).2.2]

theorem smallPrimes_take (k : ℕ) (hk : k ≤ 54) : (smallPrimes .big).take k = (smallPrimes .small).take k := by
  have h : (smallPrimes .big).take 54 = smallPrimes .small := by decide +kernel
  rw [← h, List.take_take, min_eq_left hk]

/-- **C111** and so does the function `is_prime`, as long as the configuration asks for at most the 54 bases the smaller table
holds -/
theorem C111_is_prime_new (bld bld' : Build) (w : Width) (n : ℕ) (hn : 2 ^ 64 ≤ n) (config : Option PrimalityTestConfig)
    (hk : (config.getD .default).sprpTrials ≤ 54) (draws : List ℕ) :
    isPrimeNew bld w n config draws = isPrimeNew bld' w n config draws := by
  have key : ∀ b : Build, isPrimeNew b w n config draws = isPrimeNew .small w n config draws := by
    intro b
    cases b with
    | small => rfl
    | big =>
      unfold isPrimeNew
      rw [C111_is_prime_large .big .small w _ n hn]
      simp only [isPrime, if_neg (not_lt.mpr hn), smallPrimes_take _ hk]
  rw [key bld, key bld']

/-- **C111** below any bound up to which both builds accept only primes, `is_prime64` and the generic `is_prime` answer the same,
and the same as each other -/
theorem C111_is_prime_small (bld bld' : Build) (N : ℕ) (hN : TestExactBelow bld N) (hN' : TestExactBelow bld' N) (n : ℕ) (hlt : n < N)
    (w w' : Width) (list list' : List ℕ) (config config' : Option PrimalityTestConfig) (draws draws' : List ℕ) :
    isPrime64 bld n = isPrime64 bld' n ∧
    isPrime bld w list n config draws = isPrime bld' w' list' n config' draws' := by
  have h64 : n < 2 ^ 64 := lt_of_lt_of_le hlt hN.1
  have h : ∀ b, TestExactBelow b N → (isPrime64 b n = true ↔ n.Prime) := fun b hb =>
    ⟨hb.2 n hlt, fun hp => C01_is_prime64_prime b n hp h64⟩
  have he : isPrime64 bld n = isPrime64 bld' n := Bool.eq_iff_iff.mpr ((h bld hN).trans (h bld' hN').symm)
  refine ⟨he, ?_⟩
  unfold isPrime
  by_cases h2 : n % 2 = 0
  · rw [if_pos h2, if_pos h2]
  · rw [if_neg h2, if_neg h2, if_pos h64, if_pos h64, he]

/-- **C111** below such a bound the factorizations are the same, whatever the random values -/
theorem C111_factorize (bld bld' : Build) (N : ℕ) (hN : TestExactBelow bld N) (hN' : TestExactBelow bld' N) (rng rng' : Rng)
    (fuel fuel' k k' n : ℕ) (hn : 1 ≤ n) (hlt : n < N) (m m' : List (ℕ × ℕ)) (j j' : ℕ) :
    (factorize64 bld rng fuel k n = .ok (m, j) → factorize64 bld' rng' fuel' k' n = .ok (m', j') → m = m') ∧
    (factorize128 bld rng fuel k n = .ok (m, j) → factorize128 bld' rng' fuel' k' n = .ok (m', j') → m = m') :=
  ⟨fun h1 h2 => isFactorization_unique (factorize64_exactBelow hN hn hlt h1) (factorize64_exactBelow hN' hn hlt h2),
   fun h1 h2 => isFactorization_unique (factorize128_exactBelow hN hn hlt h1) (factorize128_exactBelow hN' hn hlt h2)⟩

/-- **C111** `prime_pi` gives the same count in both builds, whatever the histories of the buffers and the estimates they use -/
theorem C111_prime_pi (bld bld' : Build) (o o' : Estimates) (g f g' f' : ℕ) (b b' : Buf) (h : Reachable bld o g f b)
    (h' : Reachable bld' o' g' f' b') (x : ℕ) (hx : x < 38891 ^ 2) (v v' : ℕ) (c c' : Buf)
    (hr : primePi bld o g f b x = .ok (v, c)) (hr' : primePi bld' o' g' f' b' x = .ok (v', c')) : v = v' :=
  (C30_prime_pi_exact_below bld o g f b h x hx v c hr).trans (C30_prime_pi_exact_below bld' o' g' f' b' h' x hx v' c' hr').symm

/-- **C111** on machine integers on which both builds accept only primes, `next_prime` and `prev_prime` return the same, except
that the build without big tables panics on `next_prime(252)` up to `next_prime(255)` -/
theorem C111_next_prev_prime (b : ℕ) (hb : b ∈ [8, 16, 32, 64]) (hB : TestExactBelow .big (2 ^ b)) (hS : TestExactBelow .small (2 ^ b))
    (n : ℕ) (hn : n < 2 ^ b) (config : Option PrimalityTestConfig) :
    ∃ F, ∀ fuel, F ≤ fuel →
      (¬ (252 ≤ n ∧ n ≤ 255) → ∃ r, nextPrime .big (some b) n config (fun _ => []) fuel = .ok r ∧
        nextPrime .small (some b) n config (fun _ => []) fuel = .ok r) ∧
      (252 ≤ n ∧ n ≤ 255 → nextPrime .small (some b) n config (fun _ => []) fuel = .panic) ∧
      ∃ r, prevPrime .big (some b) n config (fun _ => []) fuel = .ok r ∧
        prevPrime .small (some b) n config (fun _ => []) fuel = .ok r := by
  have hstd : StdWidth (some b) := by simp [StdWidth] at hb ⊢; tauto
  have h64 : 2 ^ b ≤ 2 ^ 64 := Nat.pow_le_pow_right (by norm_num) (by simp at hb; omega)
  have hdr : GoodDraws (fun _ => []) := by intro t x hx; simp at hx
  have hen : ∀ bld t, fits (some b) t = true → isPrimeNew bld (some b) t config [] ≠ .timeout := by
    intro bld t ht
    rw [fits_some] at ht
    rw [isPrimeNew, isPrime_below bld (some b) _ (show t < 2 ^ 64 by omega)]
    simp
  have hacc : ∀ bld, TestExactBelow bld (2 ^ b) → ∀ r, fits (some b) r = true → Accepted bld (some b) config (fun _ => []) r → r.Prime := by
    intro bld hx r hr ha
    rw [fits_some] at hr
    exact accepted_prime64 (by omega) (hx.2 r hr) ha
  have hnext : ∃ F, ∀ fuel, F ≤ fuel → ¬ (252 ≤ n ∧ n ≤ 255) → ∃ r, nextPrime .big (some b) n config (fun _ => []) fuel = .ok r ∧
        nextPrime .small (some b) n config (fun _ => []) fuel = .ok r := by
    by_cases hex : 252 ≤ n ∧ n ≤ 255
    · exact ⟨0, fun _ _ h => absurd hex h⟩
    obtain ⟨o, F1, h1⟩ := C19_next_prime_returns (some b) hstd n config (fun _ => []) hdr (hen .big)
    obtain ⟨F2, h2⟩ := C21_next_prime_small_partial (some b) hstd n hex config (fun _ => []) hdr (hen .small)
    refine ⟨max F1 F2, fun fuel hf _ => ⟨o, h1 fuel (le_trans (le_max_left _ _) hf), ?_⟩⟩
    have e1 := h1 fuel (le_trans (le_max_left _ _) hf)
    rcases h2 fuel (le_trans (le_max_right _ _) hf) with ⟨r, g1, g2, g3, g4, g5⟩ | ⟨g1, g2⟩
    · have hp := hacc .small hS r g3 g4
      cases o with
      | none => rw [C19_next_prime_none (some b) hstd n config (fun _ => []) hdr fuel e1 r hp g2] at g3; cases g3
      | some r' =>
        obtain ⟨f1, f2, f3, f4⟩ := C19_next_prime_some (some b) hstd n config (fun _ => []) hdr fuel r' e1
        have := g5 r' (hacc .big hB r' f2 f3) f1
        have := f4 r hp g2
        rw [g1, show r = r' by omega]
    · cases o with
      | none => exact g1
      | some r' =>
        obtain ⟨f1, f2, f3, f4⟩ := C19_next_prime_some (some b) hstd n config (fun _ => []) hdr fuel r' e1
        rw [g2 r' (hacc .big hB r' f2 f3) f1] at f2
        cases f2
  have hprev : ∃ F, ∀ fuel, F ≤ fuel → ∃ r, prevPrime .big (some b) n config (fun _ => []) fuel = .ok r ∧
        prevPrime .small (some b) n config (fun _ => []) fuel = .ok r := by
    by_cases hn2 : n ≤ 2
    · exact ⟨0, fun fuel _ => ⟨none, C20_prev_prime_none .big _ n hn2 _ _ fuel, C20_prev_prime_none .small _ n hn2 _ _ fuel⟩⟩
    have hprevX : ∀ bld, TestExactBelow bld (2 ^ b) → ∃ r F, (∀ fuel, F ≤ fuel → prevPrime bld (some b) n config (fun _ => []) fuel = .ok (some r)) ∧
        IsPrevPrime n r := by
      intro bld hx
      obtain ⟨r, F, h1, h2, h3, h4⟩ := prevPrime_u64 bld (some b) n (by omega) (by omega) config (fun _ => [])
      exact ⟨r, F, h1, ⟨hx.2 r (by omega) h3, h2⟩, fun q hq => h4 q hq.1 hq.2⟩
    obtain ⟨r, F1, h1, h2⟩ := hprevX .big hB
    obtain ⟨r', F2, h1', h2'⟩ := hprevX .small hS
    have : r = r' := h2.unique h2'
    subst this
    exact ⟨max F1 F2, fun fuel hf => ⟨some r, h1 fuel (le_trans (le_max_left _ _) hf), h1' fuel (le_trans (le_max_right _ _) hf)⟩⟩
  obtain ⟨F1, h1⟩ := hnext
  obtain ⟨F2, h2⟩ := hprev
  exact ⟨max F1 F2, fun fuel hf => ⟨h1 fuel (le_trans (le_max_left _ _) hf),
    fun h => C21_next_prime_panics (some b) n h.1 h.2 config _ fuel, h2 fuel (le_trans (le_max_right _ _) hf)⟩⟩

example : isEslprp .big none 989 none = isEslprp .small none 989 none ∧ isEslprp .small none 989 none = .ok true :=
  ⟨(C111_lucas_tests .big .small none 989 none none).2.2, by decide +kernel⟩

example : sqrtExact .big none (3 ^ 90) = .ok (some (3 ^ 45)) ∧ sqrtExact .small none (3 ^ 90) = .ok (some (3 ^ 45)) :=
  ⟨(C111_roots .big .small none (3 ^ 90)).1.trans (by decide +kernel), by decide +kernel⟩

example : squfof .big (some 64) 100 11111 11111 100 = .ok (some 41, 5) :=
  (C111_squfof_one_line .big .small (some 64) 100 11111 11111 100).1.trans (by decide +kernel)

example : isPrimeNew .big none 18446744073709551629 none [1000003, 5, 7] = .ok (.probable (probability .default)) :=
  (C111_is_prime_new .big .small none _ (by norm_num) none (by decide) _).trans (by decide +kernel)

example : isPrime64 .big 60029 = isPrime64 .small 60029 :=
  (C111_is_prime_small .big .small (2 ^ 16) (testExact_u16 _) (testExact_u16 _) 60029 (by norm_num) none none [] [] none none [] []).1

example (rng rng' : Rng) : ∃ m j j', factorize64 .big rng (2 ^ 72) 0 60060 = .ok (m, j) ∧ factorize64 .small rng' (2 ^ 72) 5 60060 = .ok (m, j') := by
  obtain ⟨m, j, h⟩ := C96_factorize64_u32_returns .big rng (2 ^ 72) 0 60060 (by norm_num) (by norm_num) le_rfl
  obtain ⟨m', j', h'⟩ := C96_factorize64_u32_returns .small rng' (2 ^ 72) 5 60060 (by norm_num) (by norm_num) le_rfl
  have := (C111_factorize .big .small (2 ^ 16) (testExact_u16 _) (testExact_u16 _) rng rng' _ _ _ _ 60060 (by norm_num) (by norm_num)
    m m' j j').1 h h'
  subst this
  exact ⟨m, j, j', h, h'⟩

example : ∃ F, ∀ fuel, F ≤ fuel → ∃ r, nextPrime .big (some 16) 65521 none (fun _ => []) fuel = .ok r ∧
    nextPrime .small (some 16) 65521 none (fun _ => []) fuel = .ok r := by
  obtain ⟨F, h⟩ := C111_next_prev_prime 16 (by simp) (testExact_u16 _) (testExact_u16 _) 65521 (by norm_num) none
  exact ⟨F, fun fuel hf => (h fuel hf).1 (by omega)⟩

end NumPrime
