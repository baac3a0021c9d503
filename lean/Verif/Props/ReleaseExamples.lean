import Verif.Model.ReleaseExamples
import Verif.Props.ReleasePrime
import Verif.Props.FactorizeU32

/-! # C103: the example programs without overflow checks -/

namespace NumPrime
open Spec

theorem wpow_ok {b a e x : ℕ} (h : cpow (some b) a e = .ok x) : wpow b a e = x := by
  unfold cpow at h
  split at h
  · rename_i hf
    injection h with h
    rw [← h, wpow, Nat.mod_eq_of_lt (by simpa [fits] using hf)]
  · simp at h

theorem mulAllRel_ok {p i : ℕ} : ∀ {l r : List ℕ}, mulAll p i l = .ok r → mulAllRel p i l = r
  | [], r, h => by simpa [mulAll, mulAllRel] using h
  | f :: t, r, h => by
    simp only [mulAll, Res.bind_eq_ok, Res.pure_def, Res.ok.injEq] at h
    obtain ⟨q, h1, x, h2, r', h3, rfl⟩ := h
    have h4 := mulAllRel_ok h3
    unfold mulAllRel at h4 ⊢
    rw [List.map_cons, h4, wpow_ok h1]
    congr 1
    unfold cmul at h2
    split at h2
    · rename_i hf
      injection h2 with h2
      rw [← h2, wmul, Nat.mod_eq_of_lt (by simpa [fits] using hf)]
    · simp at h2

theorem divisorsInnerRel_ok {result : List ℕ} {p : ℕ} : ∀ {c i : ℕ} {r : List ℕ}, divisorsInner result p c i = .ok r →
    divisorsInnerRel result p c i = r
  | 0, i, r, h => by simpa [divisorsInner, divisorsInnerRel] using h
  | c + 1, i, r, h => by
    simp only [divisorsInner, Res.bind_eq_ok, Res.pure_def, Res.ok.injEq] at h
    obtain ⟨a, h1, b, h2, rfl⟩ := h
    rw [divisorsInnerRel, mulAllRel_ok h1, divisorsInnerRel_ok h2]

theorem divisorsLoopRel_ok : ∀ {m : List (ℕ × ℕ)} {result r : List ℕ}, divisorsLoop m result = .ok r → divisorsLoopRel m result = r
  | [], result, r, h => by simpa [divisorsLoop, divisorsLoopRel] using h
  | (p, e) :: t, result, r, h => by
    simp only [divisorsLoop, Res.bind_eq_ok] at h
    obtain ⟨new, h1, h2⟩ := h
    rw [divisorsLoopRel, divisorsInnerRel_ok h1, divisorsLoopRel_ok h2]

theorem sumPowRel_eq (z : ℕ) : ∀ (l : List ℕ) (s : ℕ), s < 2 ^ 64 → sumPowRel z l s = (s + (l.map (· ^ z)).sum) % 2 ^ 64
  | [], s, hs => by rw [sumPowRel, List.map_nil, List.sum_nil, Nat.add_zero, Nat.mod_eq_of_lt hs]
  | d :: t, s, hs => by
    have h : wadd 64 s (wpow 64 d z) < 2 ^ 64 := Nat.mod_lt _ (by positivity)
    rw [sumPowRel, sumPowRel_eq z t _ h, List.map_cons, List.sum_cons, wadd, wpow]
    omega

/-- the primality test accepts only primes among the divisors of `n` -/
def ExactOnDivisors (bld : Build) (n : ℕ) : Prop := ∀ p, p ∣ n → isPrime64 bld p = true → p.Prime

theorem factorize64Rel_exactOn {bld : Build} {rng : Rng} {fuel k n : ℕ} (hn : 1 ≤ n) (h64 : n < 2 ^ 64) (hex : ExactOnDivisors bld n)
    {m : List (ℕ × ℕ)} {k' : ℕ} (h : factorize64Rel bld rng fuel k n = .ok (m, k')) : IsFactorization m n := by
  obtain ⟨h1, h2, h3⟩ := (C80_factorize64_release bld rng fuel k n hn h64).2 m k' h
  refine isFactorization_of h2 (fun x hx => hex x.1 ?_ (h3 x hx).1) (fun x hx => (h3 x hx).2) h1
  rw [← h1]
  refine (dvd_pow_self x.1 (h3 x hx).2.ne').trans ?_
  exact List.dvd_prod (List.mem_map_of_mem (f := fun x : ℕ × ℕ => x.1 ^ x.2) hx)

/-- **C103** the divisors example lists the divisors of its argument, each once, also without overflow checks: no product wraps -/
theorem C103_divisors_release (bld : Build) (rng : Rng) (fuel k n : ℕ) (hn : 1 ≤ n) (h64 : n < 2 ^ 64) (hex : ExactOnDivisors bld n) :
    divisorsRel bld rng fuel k n ≠ .panic ∧ ∀ l, divisorsRel bld rng fuel k n = .ok l → l.Nodup ∧ ∀ d, d ∈ l ↔ d ∣ n := by
  unfold divisorsRel
  have hp := (C80_factorize64_release bld rng fuel k n hn h64).1
  cases h : factorize64Rel bld rng fuel k n with
  | panic => exact absurd h hp
  | timeout => exact ⟨by simp [Res.mapR], fun l hl => by simp [Res.mapR] at hl⟩
  | ok r =>
    obtain ⟨l, h1, h2⟩ := C66_divisors_from_factorization r.1 n hn h64 (factorize64Rel_exactOn hn h64 hex h)
    rw [Res.mapR_ok, divisorsLoopRel_ok h1]
    refine ⟨by simp, fun l' hl => ?_⟩
    injection hl with hl
    rw [← hl]; exact h2

/-- **C103** the divisor sum example then returns `σ_z(n)` reduced modulo `2^64`, without a sign of the overflow -/
theorem C103_divisor_sigma_release (bld : Build) (rng : Rng) (fuel k n z : ℕ) (hn : 1 ≤ n) (h64 : n < 2 ^ 64)
    (hex : ExactOnDivisors bld n) :
    divisorSigmaRel bld rng fuel k n z ≠ .panic ∧
    ∀ s, divisorSigmaRel bld rng fuel k n z = .ok s → s = ArithmeticFunction.sigma z n % 2 ^ 64 := by
  obtain ⟨h1, h2⟩ := C103_divisors_release bld rng fuel k n hn h64 hex
  unfold divisorSigmaRel
  cases h : divisorsRel bld rng fuel k n with
  | panic => exact absurd h h1
  | timeout => exact ⟨by simp [Res.mapR], fun l hl => by simp [Res.mapR] at hl⟩
  | ok l =>
    rw [Res.mapR_ok]
    refine ⟨by simp, fun s hs => ?_⟩
    injection hs with hs
    have h3 : ListsDivisors l n := h2 l h
    rw [← hs, sumPowRel_eq z l 0 (by norm_num), zero_add, h3.sum_pow hn z]

/-- **C103** the omega examples count the prime factors, also without overflow checks -/
theorem C103_prime_omega_release (bld : Build) (rng : Rng) (fuel k n : ℕ) (hn : 1 ≤ n) (h64 : n < 2 ^ 64) (hex : ExactOnDivisors bld n) :
    (primeOmegaRel bld rng fuel k n ≠ .panic ∧ primeBigOmegaRel bld rng fuel k n ≠ .panic) ∧
    (∀ s, primeOmegaRel bld rng fuel k n = .ok s → s = ArithmeticFunction.cardDistinctFactors n) ∧
    ∀ s, primeBigOmegaRel bld rng fuel k n = .ok s → s = ArithmeticFunction.cardFactors n := by
  have hp := (C80_factorize64_release bld rng fuel k n hn h64).1
  unfold primeOmegaRel primeBigOmegaRel
  cases h : factorize64Rel bld rng fuel k n with
  | panic => exact absurd h hp
  | timeout => simp [Res.mapR]
  | ok r =>
    obtain ⟨h1, h2⟩ := factorization_omega (factorize64Rel_exactOn hn h64 hex h) hn
    have h3 : ArithmeticFunction.cardFactors n < 2 ^ 64 := by
      have h4 : 2 ^ ArithmeticFunction.cardFactors n ≤ n := by
        rw [ArithmeticFunction.cardFactors_apply]
        conv_rhs => rw [← Nat.prod_primeFactorsList (show n ≠ 0 by omega)]
        exact List.pow_card_le_prod _ 2 (fun p hp => (Nat.prime_of_mem_primeFactorsList hp).two_le)
      have := Nat.lt_two_pow_self (n := ArithmeticFunction.cardFactors n)
      omega
    simp only [Res.mapR_ok, Res.ok.injEq, ne_eq, reduceCtorEq, not_false_eq_true, and_self, true_and]
    refine ⟨fun s hs => by rw [← hs, ← h1], fun s hs => ?_⟩
    rw [← hs, h2, Nat.mod_eq_of_lt h3]

/-- **C103** what the programs return with overflow checks they return without -/
theorem C103_examples_agree (bld : Build) (rng : Rng) (fuel k n : ℕ) (hn : 1 ≤ n) (h64 : n < 2 ^ 64) :
    (∀ l, divisors bld rng fuel k n = .ok l → divisorsRel bld rng fuel k n = .ok l) ∧
    (∀ z s, divisorSigma bld rng fuel k n z = .ok s → divisorSigmaRel bld rng fuel k n z = .ok s) ∧
    ∀ s, primeOmega bld rng fuel k n = .ok s → primeOmegaRel bld rng fuel k n = .ok s := by
  have h0 : ∀ l, divisors bld rng fuel k n = .ok l → divisorsRel bld rng fuel k n = .ok l := by
    intro l h
    simp only [divisors, Res.bind_eq_ok] at h
    obtain ⟨r, h1, h2⟩ := h
    rw [divisorsRel, C80_factorize64_agrees bld rng fuel k n hn h64 r h1, Res.mapR_ok, divisorsLoopRel_ok h2]
  refine ⟨h0, fun z s h => ?_, fun s h => ?_⟩
  · simp only [divisorSigma, Res.bind_eq_ok] at h
    obtain ⟨l, h1, h2⟩ := h
    rw [divisorSigmaRel, h0 l h1, Res.mapR_ok, sumPowRel_eq z l 0 (by norm_num)]
    rw [sumPow_eq z l 0 (by norm_num)] at h2
    split at h2
    · rename_i h3
      rw [Nat.mod_eq_of_lt h3]; exact h2
    · simp at h2
  · rw [primeOmega] at h
    cases h1 : factorize64 bld rng fuel k n with
    | panic => rw [h1] at h; simp [Res.mapR] at h
    | timeout => rw [h1] at h; simp [Res.mapR] at h
    | ok r => rw [primeOmegaRel, C80_factorize64_agrees bld rng fuel k n hn h64 r h1, ← h, h1]

theorem mersenne_step {b x : ℕ} (hx : x < 2 ^ b) (h1 : 1 ≤ x) : wsub b (x % 2 ^ b) 1 = x - 1 := by
  rw [Nat.mod_eq_of_lt hx, wsub_of_le hx h1]

theorem cpow_fits {b a e : ℕ} (h : a ^ e < 2 ^ b) : cpow (some b) a e = .ok (a ^ e) := by
  unfold cpow
  rw [if_pos (by simpa [fits] using h)]

theorem mersenneFilter_release {b : ℕ} (hb : b = 128) (bld : Build) (draws : ℕ → List ℕ) : ∀ l : List ℕ, (∀ p ∈ l, p < b) →
    mersenneFilterRel bld draws l = mersenneFilter bld draws l
  | [], _ => rfl
  | p :: t, h => by
    have h1 : 2 ^ p < 2 ^ b := Nat.pow_lt_pow_right (by norm_num) (h p (by simp))
    have h2 : 1 ≤ 2 ^ p := Nat.one_le_two_pow
    have h3 : 2 ^ p - 1 < 2 ^ b := by omega
    have h4 := mersenneFilter_release hb bld draws t (fun q hq => h q (by simp [hq]))
    have h5 := isPrimeNew_release bld (b := b) (by subst hb; simp) h3 none (draws (2 ^ p - 1))
    have h6 := cpow_fits h1
    have h7 : wsub b (wpow b 2 p) 1 = 2 ^ p - 1 := mersenne_step h1 h2
    rw [mersenneFilterRel, mersenneFilter, h4]
    rw [← hb]
    rw [h6, Res.bind_ok, csub_ok h2, Res.bind_ok]
    rw [h7, h5]

/-- **C103** the Mersenne example returns the same list, for every sequence of random numbers -/
theorem C103_list_mersenne_release (bld : Build) (draws : ℕ → List ℕ) : listMersenneRel bld draws = listMersenne bld draws := by
  unfold listMersenneRel listMersenne
  rw [primes128 bld, Res.bind_ok, Res.bind_ok]
  exact mersenneFilter_release rfl bld draws _ (by decide)

/-! Instances -/

example (rng : Rng) (fuel k : ℕ) : divisorsRel .big rng fuel k 65535 ≠ .panic :=
  (C103_divisors_release .big rng fuel k 65535 (by norm_num) (by norm_num) (fun p hp h =>
    (C02_is_prime64_exact_u16_partial .big p (lt_of_le_of_lt (Nat.le_of_dvd (by norm_num) hp) (by norm_num))).mp h)).1

/-- the checked program panics here; this one returns the sum of the squares of the divisors of `2^40` modulo `2^64` -/
example : divisorSigma .big ⟨fun _ => 0, fun _ => []⟩ 5 0 (2 ^ 40) 2 = .panic ∧
    divisorSigmaRel .big ⟨fun _ => 0, fun _ => []⟩ 5 0 (2 ^ 40) 2 = .ok (6148914691236517205) ∧
    divisorSigmaRel .big ⟨fun _ => 0, fun _ => []⟩ 5 0 360 1 = .ok 1170 ∧
    primeBigOmegaRel .big ⟨fun _ => 0, fun _ => []⟩ 5 0 360 = .ok 6 := by decide +kernel

end NumPrime
