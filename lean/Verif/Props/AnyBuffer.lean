import Verif.Props.Factors

/-! # C107: `factors`, `factorize` and `divisor` on any implementation of `PrimeBuffer` -/

namespace NumPrime

open Spec

/-- **C107** `factors` on any buffer of 64-bit primes, in any order, with gaps or repetitions: whenever it returns, the product of the
prime factors and of the cofactors is the target, the keys are increasing with positive exponents, and every key is a prime of the
buffer or passed the primality test; the cofactors, if given, were rejected by the primality test -/
theorem C107_factors_product (bld : Build) (list : List ℕ) (hl : ∀ p ∈ list, p.Prime ∧ p < 2 ^ 64) (w : Width) (rng : Rng) (fuel k n : ℕ)
    (hn : 1 ≤ n) (config : Option FactorizationConfig) (m : List (ℕ × ℕ)) (rest : Option (List ℕ)) (k' : ℕ)
    (hr : factors bld w list rng fuel k n config = .ok (m, rest, k')) :
    product m * (rest.getD []).prod = n ∧ Ordered m ∧ (∀ x ∈ m, 0 < x.2) ∧
      (∀ x ∈ m, (x.1 ∈ list ∧ x.1.Prime) ∨ (n < 2 ^ 128 ∧ ∃ v, isPrimeNew bld (some 128) x.1 (some .bpsw) [] = .ok v ∧ v.probably = true) ∨
        (2 ^ 128 ≤ n ∧ AcceptedBy bld w list rng (config.getD .default).primalityConfig x.1)) ∧
      (∀ l, rest = some l → l ≠ [] ∧ 2 ^ 128 ≤ n ∧ ∀ t ∈ l, RejectedBy bld w list rng (config.getD .default).primalityConfig t) := by
  have hpr : ∀ p ∈ list, p.Prime := fun p hp => (hl p hp).1
  have hfind := divisor_find (w := w) (rng := rng) hpr (some 0)
  unfold factors factorsWith at hr
  by_cases h128 : n < 2 ^ 128
  · simp only [h128, if_true, Res.bind_eq_ok] at hr
    obtain ⟨⟨m', k1⟩, h1, h2⟩ := hr
    simp only [Res.pure_def, Res.ok.injEq, Prod.mk.injEq] at h2
    obtain ⟨rfl, rfl, rfl⟩ := h2
    obtain ⟨g1, g2, g3⟩ := C46_factorize128_product bld rng fuel k n hn h128 _ _ h1
    exact ⟨by simp [g1], g2, fun x hx => (g3 x hx).1, fun x hx => Or.inr (Or.inl ⟨h128, (g3 x hx).2⟩), by simp⟩
  · simp only [h128, if_false, Res.bind_eq_ok] at hr
    obtain ⟨⟨m1, e⟩, h1, h2⟩ := hr
    have hge : 2 ^ 128 ≤ n := by omega
    obtain ⟨lim, -, hF, tried, rest', t1, t2, -, -, -, t6⟩ := trialDivision_inv hn hpr h1
    have hkey : ∀ x ∈ m1, x.1 ∈ list ∧ x.1.Prime := fun x hx =>
      ⟨by rw [t1]; exact List.mem_append_left _ (t2 x hx), hF.prime x hx⟩
    cases e with
    | ok r =>
      simp only [Res.pure_def, Res.ok.injEq, Prod.mk.injEq] at h2
      obtain ⟨rfl, rfl, rfl⟩ := h2
      have hr1 : r = 1 := by
        rcases t6 r rfl with h | ⟨q, t, h3, h4⟩
        · exact h
        · exfalso
          have hq := (hl q (by rw [t1, h3]; simp)).2
          have : 2 ^ 64 ≤ isqrt n := by
            rw [isqrt_eq]; exact Nat.le_sqrt'.mpr (by rw [← pow_mul]; exact hge)
          omega
      subst hr1
      simp only [ne_eq, not_true, if_false]
      have := hF.prod
      simp only [residual, mul_one] at this
      exact ⟨by simp [product_eq, this], hF.sorted, hF.pos, fun x hx => Or.inl (hkey x hx), by simp⟩
    | error r =>
      simp only [Res.bind_eq_ok] at h2
      obtain ⟨⟨m2, failed, k2⟩, h3, h4⟩ := h2
      simp only [Res.pure_def, Res.ok.injEq, Prod.mk.injEq] at h4
      obtain ⟨rfl, rfl, rfl⟩ := h4
      obtain ⟨g1, g2, g3, g4, g5⟩ := factorsLoop_spec
        (P := fun p => (p ∈ list ∧ p.Prime) ∨ AcceptedBy bld w list rng (config.getD .default).primalityConfig p) hfind
        (fun p hp => Or.inr hp) _ _ _ _ _ _ _ _ _
        (by have := hF.rpos; simp only [residual] at this; simpa using Nat.succ_le_of_lt this) hF.sorted hF.pos
        (fun x hx => Or.inl (hkey x hx)) (by simp) h3
      refine ⟨?_, g2, g3, fun x hx => (g4 x hx).imp id (fun h => Or.inr ⟨hge, h⟩), ?_⟩
      · have : (if failed = [] then none else some failed).getD [] = failed := by split <;> simp [*]
        rw [this, g1, List.prod_singleton, List.prod_nil, mul_one, product_eq, hF.prod]; rfl
      · intro l hl
        split at hl
        · simp at hl
        · rename_i hne
          simp only [Option.some.injEq] at hl
          subst hl
          exact ⟨hne, hge, g5⟩

/-- **C107** `divisor` on any buffer of positive numbers: a divisor found is proper, and `rho_trials` never grows -/
theorem C107_divisor_proper (list : List ℕ) (hl : ∀ p ∈ list, 0 < p) (w : Width) (rng : Rng) (k n : ℕ) (hn : 1 ≤ n)
    (tdLimit : Option ℕ) (rhoTrials : ℕ) (r : Option ℕ) (left k' : ℕ)
    (hr : divisor w list rng k n tdLimit rhoTrials = .ok (r, left, k')) :
    left ≤ rhoTrials ∧ ∀ d, r = some d → ProperDivisor d n :=
  divisor_divisor hn hl hr

/-- **C107, finding** what `divisor` does with the contents of a buffer: it only looks at the first prime, and only with the limit 0;
if that prime is larger than `sqrt(n) + 1`, the answer is `None` without any trial, even for composite targets -/
theorem C107_divisor_first (p : ℕ) (ps : List ℕ) (hp : 0 < p) (rng : Rng) (k n : ℕ) (tdLimit : Option ℕ) (rhoTrials : ℕ) :
    divisor none (p :: ps) rng k n tdLimit rhoTrials =
      if tdLimit = some 0 ∧ Nat.sqrt n + 1 < p then .ok (none, rhoTrials, k) else divisorRho rng n rhoTrials k := by
  have hu : unwrapFit none p = .ok p := rfl
  by_cases ht : tdLimit = some 0
  · simp only [divisor, ht, if_true, true_and, cadd_ok (w := none) (a := Nat.sqrt n) (b := 1) rfl, isqrt_eq, Res.bind_ok, divisorTrial, hu]
    by_cases h1 : Nat.sqrt n + 1 < p
    · simp [h1]
    · simp [h1, hp]
  · simp [divisor, ht]

/-- **C107** on an empty buffer `divisor` is Pollard's rho -/
theorem C107_divisor_empty (rng : Rng) (k n : ℕ) (tdLimit : Option ℕ) (rhoTrials : ℕ) :
    divisor none [] rng k n tdLimit rhoTrials = divisorRho rng n rhoTrials k := by
  by_cases ht : tdLimit = some 0
  · simp [divisor, ht, cadd_ok (w := none) (a := isqrt n) (b := 1) rfl, divisorTrial]
  · simp [divisor, ht]

/-- **C107** `None` means complete on every buffer of 64-bit primes: if no cofactor is reported, and the numbers accepted by the
primality test are primes, the map is the prime factorization of the target -/
theorem C107_factors_complete (bld : Build) (list : List ℕ) (hl : ∀ p ∈ list, p.Prime ∧ p < 2 ^ 64) (w : Width) (rng : Rng)
    (fuel k n : ℕ) (hn : 2 ^ 128 ≤ n) (config : Option FactorizationConfig) (m : List (ℕ × ℕ)) (k' : ℕ)
    (hex : ∀ p, p ∣ n → AcceptedBy bld w list rng (config.getD .default).primalityConfig p → p.Prime)
    (hr : factors bld w list rng fuel k n config = .ok (m, none, k')) : IsFactorization m n := by
  obtain ⟨g1, g2, g3, g4, -⟩ := C107_factors_product bld list hl w rng fuel k n (by omega) config m none k' hr
  simp only [Option.getD_none, List.prod_nil, mul_one] at g1
  refine isFactorization_of g2 (fun x hx => ?_) g3 g1
  rcases g4 x hx with h | h | h
  · exact h.2
  · omega
  · refine hex x.1 ?_ h.2
    rw [← g1]
    refine (dvd_pow_self x.1 (g3 x hx).ne').trans ?_
    exact List.dvd_prod (List.mem_map_of_mem (f := fun x : ℕ × ℕ => x.1 ^ x.2) hx)

/-- **C107** on `BigUint`, for targets from `2^128` on, `factors` returns on every buffer of 64-bit primes: no panic and, with
`2 * log2 n` rounds of its loop, no endless run, provided the random source delivers enough different values -/
theorem C107_factors_returns (bld : Build) (list : List ℕ) (hl : ∀ p ∈ list, p.Prime ∧ p < 2 ^ 64)
    (rng : Rng) (fuel k n : ℕ) (hn : 2 ^ 128 ≤ n) (config : Option FactorizationConfig)
    (hen : ∀ j, (config.getD .default).primalityConfig.sprpRandomTrials ≤
      ((rng.draws j).toFinset \ (list.take (config.getD .default).primalityConfig.sprpTrials).toFinset).card)
    (hf : 2 * Nat.log 2 n ≤ fuel) : ∃ r, factors bld none list rng fuel k n config = .ok r := by
  have hpr : ∀ p ∈ list, p.Prime := fun p hp => (hl p hp).1
  have h1 : 1 ≤ n := by omega
  obtain ⟨⟨m, e⟩, hv⟩ := C37_trial_division_returns none list n (config.getD .default).tdLimit h1 hpr (fun _ _ => rfl)
    (fun _ _ => rfl) rfl
  have h128 : ¬ n < 2 ^ 128 := by omega
  simp only [factors, factorsWith, h128, if_false, hv, Res.bind_ok]
  obtain ⟨lim, -, hF, -⟩ := trialDivision_inv h1 hpr hv
  cases e with
  | ok r => exact ⟨_, rfl⟩
  | error r =>
    simp only [residual] at hF
    have hrn : r ≤ n := Nat.le_of_dvd h1 ⟨mapProd m, by rw [Nat.mul_comm]; exact hF.prod⟩
    obtain ⟨x, hx⟩ := factorsLoop_returns (bld := bld) (list := list) (rng := rng) (pc := (config.getD .default).primalityConfig)
      (fun t j => C14_is_prime_returns bld none (Or.inl rfl) list t rfl _ _ (hen j))
      (find := fun target trials k => divisor none list rng k target (some 0) trials)
      (fun t tr k ht => by
        obtain ⟨o, tr', k', c1, c2, c3⟩ := divisorRho_divisor (rng := rng) ht tr k
        cases list with
        | nil => exact ⟨o, tr', k', (C107_divisor_empty rng k t (some 0) tr).trans c1, c3⟩
        | cons p ps =>
          have h := C107_divisor_first p ps (hpr p (by simp)).pos rng k t (some 0) tr
          by_cases hp : Nat.sqrt t + 1 < p
          · rw [if_pos ⟨rfl, hp⟩] at h
            exact ⟨none, tr, k, h, by simp⟩
          · rw [if_neg (fun h => hp h.2)] at h
            exact ⟨o, tr', k', h.trans c1, c3⟩)
      fuel (config.getD .default).rhoTrials k [r] m [] (by simpa using Nat.one_le_iff_ne_zero.mpr hF.rpos.ne')
      (by have := Nat.log_mono_right (b := 2) hrn
          have h2 : 1 ≤ Nat.log 2 n := Nat.log_pos (by norm_num) (by omega)
          simp only [rounds, List.map_cons, List.sum_cons, List.map_nil, List.sum_nil]; omega)
    exact ⟨(x.1, if x.2.1 = [] then none else some x.2.1, x.2.2), by simp only [hx, Res.bind_ok, Res.pure_def]⟩

/-- **C107** `factorize` on every buffer of 64-bit primes: if it returns, and the numbers accepted by the primality test are primes, the
map is the prime factorization of the target -/
theorem C107_factorize_exact (bld : Build) (list : List ℕ) (hl : ∀ p ∈ list, p.Prime ∧ p < 2 ^ 64) (w : Width) (rng : Rng)
    (fuel attempts k n : ℕ) (hn : 2 ^ 128 ≤ n) (m : List (ℕ × ℕ)) (k' : ℕ)
    (hex : ∀ p, p ∣ n → AcceptedBy bld w list rng FactorizationConfig.default.primalityConfig p → p.Prime)
    (hr : factorize bld w list rng fuel attempts k n = .ok (m, k')) : IsFactorization m n := by
  induction attempts generalizing k with
  | zero => simp [factorize] at hr
  | succ a ih =>
    simp only [factorize, Res.bind_eq_ok] at hr
    obtain ⟨⟨m1, rest, k1⟩, h1, h2⟩ := hr
    cases rest with
    | some l => exact ih _ h2
    | none =>
      simp only [Res.pure_def, Res.ok.injEq, Prod.mk.injEq] at h2
      obtain ⟨rfl, rfl⟩ := h2
      exact C107_factors_complete bld list hl w rng fuel k n hn none m1 k1 hex h1

-- a buffer with the primes 8999 and 2 in this order: both are found by trial division, 1000003 is accepted by the primality test
example : (∀ p ∈ [8999, 2], p.Prime ∧ p < 2 ^ 64) ∧
    factors .small none [8999, 2] exampleRng 200 0 (2 ^ 100 * 8999 * 8999 * 1000003) none =
      .ok ([(2, 100), (8999, 2), (1000003, 1)], none, 1) ∧
    factorize .small none [8999, 2] exampleRng 200 1 0 (2 ^ 100 * 8999 * 8999 * 1000003) =
      .ok ([(2, 100), (8999, 2), (1000003, 1)], 1) := by
  refine ⟨?_, by decide +kernel, by decide +kernel⟩
  intro p hp; simp only [List.mem_cons, List.not_mem_nil, or_false] at hp; rcases hp with rfl | rfl <;> norm_num

-- `divisor` gives up on 35 = 5 * 7 with a buffer that starts with 101, and finds a factor on the empty buffer
example : divisor none [101] exampleRng 0 35 (some 0) 4 = .ok (none, 4, 0) ∧
    divisor none [101] exampleRng 0 35 (some 1) 4 = divisorRho exampleRng 35 4 0 :=
  ⟨C107_divisor_first 101 [] (by norm_num) exampleRng 0 35 (some 0) 4 |>.trans (if_pos ⟨rfl, by decide +kernel⟩),
   C107_divisor_first 101 [] (by norm_num) exampleRng 0 35 (some 1) 4 |>.trans (if_neg (by simp))⟩

end NumPrime
