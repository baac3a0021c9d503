import Verif.Proofs.JaeschkeAll
import Verif.Props.Termination
import Verif.Props.Rand
import Verif.Props.Moebius
import Verif.Props.Examples

/-! # Exactness below `2^32` without big tables

Without the `big-table` feature `is_prime64` tests the bases 2, 7 and 61 below `4759123141`. That no composite below `2^32`
passes is proved here, so the functions built on the test are exact for `u32` values with nothing assumed. -/

namespace NumPrime
open Tables Spec

/-- **C02 (partial)** without big tables `is_prime64` is exact on all of `u32`. Missing: the range from `2^32`, and (from
`2^16`) the default build. -/
theorem C02_is_prime64_exact_u32_partial (n : ℕ) (hn : n < 2 ^ 32) : isPrime64 .small n = true ↔ n.Prime :=
  isPrime64_exact_u32 hn

-- 3215031751 is the least strong pseudoprime to the bases 2, 3, 5 and 7; 4294967291 is the largest prime below 2^32
example : sprp64 3215031751 2 = true ∧ sprp64 3215031751 7 = true ∧ isPrime64 .small 3215031751 = false ∧
    isPrime64 .small 4294967291 = true := by decide +kernel

/-- **C15** `is_prime` on a value below `2^32` answers `Yes` or `No`, rightly, whatever the configuration -/
theorem C15_is_prime_u32 (w : Width) (list : List ℕ) (n : ℕ) (hn : n < 2 ^ 32) (config : Option PrimalityTestConfig)
    (draws : List ℕ) :
    (isPrime .small w list n config draws = .ok .yes ∧ n.Prime) ∨ (isPrime .small w list n config draws = .ok .no ∧ ¬ n.Prime) := by
  rw [isPrime_below .small w list (show n < 2 ^ 64 by omega)]
  by_cases h : isPrime64 .small n = true
  · exact Or.inl ⟨by rw [if_pos h], (isPrime64_exact_u32 hn).mp h⟩
  · exact Or.inr ⟨by rw [if_neg h], fun hp => h ((isPrime64_exact_u32 hn).mpr hp)⟩

/-- **C18** `is_safe_prime` below `2^32`, nothing assumed -/
theorem C18_is_safe_prime_u32 (w : Width) (n : ℕ) (hn : n < 2 ^ 32) (d1 d2 : List ℕ) :
    (isSafePrime .small w n d1 d2 = .ok .yes ∧ n.Prime ∧ ((n - 1) / 2).Prime) ∨
    (isSafePrime .small w n d1 d2 = .ok .no ∧ ¬ (n.Prime ∧ ((n - 1) / 2).Prime)) :=
  isSafePrime_exact .small w n (by omega) (fun m hm => isPrime64_exact_u32 (by omega)) d1 d2

/-- **C20** `prev_prime` up to `2^32`, nothing assumed -/
theorem C20_prev_prime_u32 (w : Width) (n : ℕ) (hn : 2 < n) (h32 : n ≤ 2 ^ 32)
    (config : Option PrimalityTestConfig) (draws : ℕ → List ℕ) :
    ∃ r F, (∀ fuel, F ≤ fuel → prevPrime .small w n config draws fuel = .ok (some r)) ∧ IsPrevPrime n r := by
  obtain ⟨r, F, h1, h2, h3, h4⟩ := prevPrime_u64 .small w n hn (by omega) config draws
  exact ⟨r, F, h1, ⟨(isPrime64_exact_u32 (by omega)).mp h3, h2⟩, fun q hq => h4 q hq.1 hq.2⟩

example : prevPrime .small (some 32) 4294967295 none (fun _ => []) 9 = .ok (some 4294967291) := by decide +kernel

/-- **C21 (partial)** `next_prime` on `u8`, `u16` and `u32` without big tables, nothing assumed: the least greater prime, or
`None` exactly when that prime does not fit the type. Missing: the values 252..255, for which it panics
(`C21_next_prime_panics`). -/
theorem C21_next_prime_u32_partial (b : ℕ) (hb : b ∈ [8, 16, 32]) (n : ℕ) (hn : ¬ (252 ≤ n ∧ n ≤ 255))
    (config : Option PrimalityTestConfig) :
    ∃ F, ∀ fuel, F ≤ fuel →
      (∃ p, nextPrime .small (some b) n config (fun _ => []) fuel = .ok (some p) ∧ IsNextPrime n p) ∨
      (nextPrime .small (some b) n config (fun _ => []) fuel = .ok none ∧ ∀ p, IsNextPrime n p → 2 ^ b ≤ p) := by
  have hstd : StdWidth (some b) := by simp [StdWidth] at hb ⊢; tauto
  have h32 : 2 ^ b ≤ 2 ^ 32 := Nat.pow_le_pow_right (by norm_num) (by simp at hb; omega)
  obtain ⟨F, hF⟩ := C21_next_prime_small_partial (some b) hstd n hn config (fun _ => []) (by intro t x hx; simp at hx) (by
    intro t ht
    rw [fits_some] at ht
    rw [isPrimeNew, isPrime_below .small (some b) _ (show t < 2 ^ 64 by omega)]
    simp)
  refine ⟨F, fun fuel hf => ?_⟩
  rcases hF fuel hf with ⟨r, h1, h2, h3, h4, h5⟩ | ⟨h1, h2⟩
  · rw [fits_some] at h3
    exact Or.inl ⟨r, h1, ⟨accepted_prime64 (by omega) (isPrime64_exact_u32 (by omega)).mp h4, h2⟩, fun q hq => h5 q hq.1 hq.2⟩
  · refine Or.inr ⟨h1, fun p hp => ?_⟩
    have := h2 p hp.1.1 hp.1.2
    by_contra hlt
    rw [fits_some.mpr (by omega)] at this
    simp at this

example : nextPrime .small (some 32) 4294967279 none (fun _ => []) 9 = .ok (some 4294967291) ∧
    nextPrime .small (some 32) 4294967291 none (fun _ => []) 9 = .ok none := by decide +kernel

/-- **C45** a map returned by `factorize64` for a value below `2^32` is the prime factorization; nothing assumed -/
theorem C45_factorize64_u32 (rng : Rng) (fuel k n : ℕ) (hn : 1 ≤ n) (h32 : n < 2 ^ 32) (m : List (ℕ × ℕ)) (k' : ℕ)
    (h : factorize64 .small rng fuel k n = .ok (m, k')) : IsFactorization m n := by
  obtain ⟨h1, h2, h3⟩ := C44_factorize64_product .small rng fuel k n hn (by omega) m k' h
  have hkey : ∀ x ∈ m, x.1 < 2 ^ 32 := by
    intro x hx
    have hd : x.1 ∣ n := by
      rw [← h1]
      refine (dvd_pow_self x.1 (h3 x hx).2.ne').trans ?_
      exact List.dvd_prod (List.mem_map_of_mem (f := fun x : ℕ × ℕ => x.1 ^ x.2) hx)
    exact lt_of_le_of_lt (Nat.le_of_dvd hn hd) h32
  exact isFactorization_of h2 (fun x hx => (isPrime64_exact_u32 (hkey x hx)).mp (h3 x hx).1) (fun x hx => (h3 x hx).2) h1

-- two primes above the table limit 257, found by the divisor search
example : (factorize64 .small ⟨fun j => 2 + j, fun _ => []⟩ (2 ^ 72) 0 (65519 * 65521)).mapR Prod.fst =
    .ok [(65519, 1), (65521, 1)] ∧ 65519 * 65521 < 2 ^ 32 := by decide +kernel

/-- **C51** `moebius` below `2^32`, nothing assumed -/
theorem C51_moebius_u32 (w : Width) (rng : Rng) (fuel attempts k n : ℕ) (hn : n < 2 ^ 32) (r : ℤ)
    (h : moebius .small w rng fuel attempts k n = .ok r) : r = ArithmeticFunction.moebius n := by
  rcases Nat.eq_zero_or_pos n with rfl | h0
  · rw [C51_moebius_small .small w rng fuel attempts k 0 (by simp)] at h
    simpa using h.symm
  · refine C51_moebius_exact .small w rng fuel attempts k n (fun t ht p hp hpt => ?_) r h
    have hpl := Nat.le_of_dvd (show 0 < t by omega) hp
    exact (isPrime64_exact_u32 (by omega)).mp ((accepted128_below (by omega)).mp (hpt.1 (by omega)))

/-- **C52** `is_square_free` below `2^32`, nothing assumed -/
theorem C52_is_square_free_u32 (w : Width) (rng : Rng) (fuel attempts k n : ℕ) (h0 : 1 ≤ n) (hn : n < 2 ^ 32) (r : Bool)
    (h : isSquareFree .small w rng fuel attempts k n = .ok r) : r = true ↔ ¬ ∃ d, 1 < d ∧ d * d ∣ n := by
  refine C52_is_square_free_exact .small w rng fuel attempts k n (fun t ht p hp hpt => ?_) r h
  have hpl := Nat.le_of_dvd (show 0 < t by omega) hp
  exact (isPrime64_exact_u32 (by omega)).mp ((accepted128_below (by omega)).mp (hpt.1 (by omega)))

/-- **C59** `u8`, `u16` and `u32`: every number returned by the random prime generators is a prime; nothing assumed -/
theorem C59_gen_prime_u32_prime (src : RandSource) (b : ℕ) (hb : b = 8 ∨ b = 16 ∨ b = 32) (fuel bits k p k' : ℕ)
    (h : genPrimePrim .small src b fuel bits k = .ok (p, k') ∨ genPrimeExactPrim .small src b fuel bits k = .ok (p, k')) :
    p.Prime := by
  obtain ⟨h1, h2⟩ := C59_gen_prime_prim .small src b (by unfold PrimWidth; omega) fuel bits k p k' h
  exact (isPrime64_exact_u32 (lt_of_lt_of_le h1 (Nat.pow_le_pow_right (by norm_num) (by omega)))).mp h2

/-- **C62** `u8`, `u16` and `u32`: every number returned by the safe prime generators is a safe prime; nothing assumed -/
theorem C62_safe_prime_u32_prime (src : RandSource) (b : ℕ) (hb : b = 8 ∨ b = 16 ∨ b = 32) (fuel bits f k r k' : ℕ)
    (h : genSafePrimePrim .small src b fuel bits f k = .ok (r, k') ∨
      genSafePrimeExactPrim .small src b fuel bits f k = .ok (r, k')) : r.Prime ∧ ((r - 1) / 2).Prime := by
  obtain ⟨h1, _, h3, h4⟩ := C62_safe_prime_prim .small src b (by unfold PrimWidth; omega) fuel bits f k r k' h
  have : r < 2 ^ 32 := lt_of_lt_of_le h1 (Nat.pow_le_pow_right (by norm_num) (by omega))
  exact ⟨(isPrime64_exact_u32 this).mp h3, (isPrime64_exact_u32 (by omega)).mp h4⟩

/-- **C66** the divisors of a value below `2^32`, once the factorization returns -/
theorem C66_divisors_u32 (rng : Rng) (fuel k n : ℕ) (hn : 1 ≤ n) (h32 : n < 2 ^ 32) (r : List (ℕ × ℕ) × ℕ)
    (h : factorize64 .small rng fuel k n = .ok r) : ∃ l, divisors .small rng fuel k n = .ok l ∧ ListsDivisors l n := by
  obtain ⟨l, h1, h2⟩ := C66_divisors_from_factorization r.1 n hn (by omega) (C45_factorize64_u32 rng fuel k n hn h32 _ r.2 h)
  exact ⟨l, by rw [divisors, h, Res.bind_ok]; exact h1, h2⟩

end NumPrime
