import Verif.Proofs.Worklist128
import Verif.Props.IsPrime64

/-! # C44 – C46, C53, C69: `factorize64` and `factorize128`

`rng` is the source of random numbers, `k` the number of values already taken from it, `fuel` a bound on all loops: a
run that would need more rounds is `timeout`, so that "`= .ok`" means "the call returns". -/

namespace NumPrime
open Spec Tables

/-- a fixed random source for the examples: a linear congruential sequence -/
def exampleRng : Rng := ⟨fun i => (6364136223846793005 * (i + 1) + 1442695040888963407) % 2 ^ 64, fun i => [i + 1, i + 2, i + 3, i + 4, i + 5]⟩

/-! ## C53 -/

/-- **C53** dividing by a tabulated prime with its precomputed inverse is exact division, for every `u64` and every entry
of the table but the first (the prime 2) -/
theorem C53_div_exact (n p : ℕ) (pinv : ℕ × ℕ) (hn : n < 2 ^ 64) (h : (p, pinv) ∈ (smallPrimesB.zip smallPrimesInvB).drop 1) :
    divExact64 n pinv = if p ∣ n then some (n / p) else none := by
  obtain ⟨h1, h2, h3⟩ := primesWithInv_spec (show (p, pinv) ∈ primesWithInv from h)
  exact divExact64_spec hn (mem_drop.mp h3).1.pos h1 h2

/-- **C53** the table has an entry for every odd prime below 8167 and for nothing else -/
theorem C53_entries (p : ℕ) : (∃ pinv, (p, pinv) ∈ (smallPrimesB.zip smallPrimesInvB).drop 1) ↔ p.Prime ∧ p ≠ 2 ∧ p < 8167 := by
  have h1 : (∃ pinv, (p, pinv) ∈ primesWithInv) ↔ p ∈ (smallPrimes .big).drop 1 := by
    rw [← primesWithInv_fst]
    constructor
    · rintro ⟨pinv, h⟩; exact List.mem_map_of_mem (f := Prod.fst) h
    · intro h
      obtain ⟨⟨q, pinv⟩, hx, rfl⟩ := List.mem_map.mp h
      exact ⟨pinv, hx⟩
  refine h1.trans (mem_drop.trans ?_)
  have : smallPrimesNext .big = 8167 := rfl
  rw [this]; tauto

example : divExact64 (2 ^ 64 - 1) (12297829382473034411, 6148914691236517205) = some 6148914691236517205 ∧
    divExact64 (2 ^ 64 - 2) (12297829382473034411, 6148914691236517205) = none := by decide +kernel

/-! ## C44, C45 -/

/-- **C44** whatever the random source returns: if `factorize64(n)` returns a map, the product of `p ^ e` is `n`, the keys
are listed once in increasing order, every exponent is positive and every key passes the primality test -/
theorem C44_factorize64_product (bld : Build) (rng : Rng) (fuel k n : ℕ) (hn : 1 ≤ n) (h64 : n < 2 ^ 64)
    (m : List (ℕ × ℕ)) (k' : ℕ) (h : factorize64 bld rng fuel k n = .ok (m, k')) :
    product m = n ∧ Ordered m ∧ ∀ x ∈ m, isPrime64 bld x.1 = true ∧ 0 < x.2 := by
  have key : FactorMap (fun p => isPrime64 bld p = true) m n := by
    rcases factorize64With_cases (bld := bld) (fuel := fuel) (k := k) hn h64 with ⟨m', h1, h2⟩ | ⟨m', r, h1, h2, h3⟩
    · rw [factorize64, h1] at h
      simp only [Res.ok.injEq, Prod.mk.injEq] at h
      rw [← h.1]; exact h2
    · rw [factorize64, h3, Res.mapR_eq_ok] at h
      obtain ⟨⟨l, k1⟩, h4, h5⟩ := h
      simp only [Prod.mk.injEq] at h5
      rw [← h5.1]
      obtain ⟨g1, g2⟩ := advanced64Loop_spec (search_ok bld 64 (by norm_num) rng fuel) _ _ _ _ _ _
        (by simpa using h2) (by simp) h4
      exact fmap_merged h1 (by rw [g2]; simp) (fun p hp => isPrime64_prime bld hp) (fun x hx => (g1 x hx).2.1)
        (fun x hx => (g1 x hx).2.2)
  exact ⟨key.prod, key.ordered, fun x hx => ⟨key.key x hx, key.pos x hx⟩⟩

/-- **C45** if the 64-bit test is right about the divisors of `n`, the result is the prime factorization -/
theorem C45_factorize64_exact_divisors (bld : Build) (rng : Rng) (fuel k n : ℕ) (hn : 1 ≤ n) (h64 : n < 2 ^ 64)
    (hex : ∀ p, p ∣ n → isPrime64 bld p = true → p.Prime) (m : List (ℕ × ℕ)) (k' : ℕ)
    (h : factorize64 bld rng fuel k n = .ok (m, k')) : IsFactorization m n := by
  obtain ⟨h1, h2, h3⟩ := C44_factorize64_product bld rng fuel k n hn h64 m k' h
  refine isFactorization_of h2 (fun x hx => hex x.1 ?_ (h3 x hx).1) (fun x hx => (h3 x hx).2) h1
  rw [← h1]
  refine (dvd_pow_self x.1 (h3 x hx).2.ne').trans ?_
  exact List.dvd_prod (List.mem_map_of_mem (f := fun x : ℕ × ℕ => x.1 ^ x.2) hx)

/-- **C45** given exactness of the 64 bit primality test (see C02), a returned map is the prime factorization: exactly the
primes dividing `n`, each with its multiplicity -/
theorem C45_factorize64_exact (bld : Build) (hex : NoPseudoprimes bld) (rng : Rng) (fuel k n : ℕ) (hn : 1 ≤ n)
    (h64 : n < 2 ^ 64) (m : List (ℕ × ℕ)) (k' : ℕ) (h : factorize64 bld rng fuel k n = .ok (m, k')) : IsFactorization m n :=
  C45_factorize64_exact_divisors bld rng fuel k n hn h64 (fun p hp =>
    ((C02_is_prime64_exact_partial bld).mpr hex p (lt_of_le_of_lt (Nat.le_of_dvd hn hp) h64)).mp) m k' h

/-- the number has at most one prime factor (with multiplicity) outside the table of small primes -/
def AtMostOneLarge (bld : Build) (n : ℕ) : Prop :=
  ∀ p q, p.Prime → q.Prime → smallPrimesNext bld ≤ p → smallPrimesNext bld ≤ q → ¬ p * q ∣ n

theorem AtMostOneLarge.prime {bld : Build} {n r : ℕ} (h : AtMostOneLarge bld n) (hd : r ∣ n) (h1 : 1 < r)
    (hr : Rough bld r) : r.Prime := by
  have hmf := Nat.minFac_prime (show r ≠ 1 by omega)
  have hle : ∀ q, q.Prime → q ∣ r → smallPrimesNext bld ≤ q := fun q hq hqd => by
    by_contra hlt
    exact hr q hq (by omega) hqd
  obtain ⟨c, hc⟩ := Nat.minFac_dvd r
  rcases Nat.lt_or_ge 1 c with h2 | h2
  · exfalso
    have hcf := Nat.minFac_prime (show c ≠ 1 by omega)
    refine h _ _ hmf hcf (hle _ hmf (Nat.minFac_dvd r)) (hle _ hcf ?_) ?_
    · exact (Nat.minFac_dvd c).trans ⟨r.minFac, by rw [Nat.mul_comm]; exact hc⟩
    · refine Dvd.dvd.trans ?_ hd
      conv_rhs => rw [hc]
      exact Nat.mul_dvd_mul_left _ (Nat.minFac_dvd c)
  · have : c = 1 := by
      rcases Nat.eq_zero_or_pos c with h0 | h0
      · subst h0; omega
      · omega
    subst this
    rw [Nat.mul_one] at hc
    rw [hc]; exact hmf

/-- **C45** for every `n` with at most one prime factor outside the table, `factorize64` returns without using random
numbers, and the result is the prime factorization as soon as the test does not accept `n` itself wrongly -/
theorem C45_factorize64_smooth (bld : Build) (rng : Rng) (fuel k n : ℕ) (hn : 1 ≤ n) (h64 : n < 2 ^ 64)
    (hf : 1 ≤ fuel) (hsm : AtMostOneLarge bld n) :
    ∃ m, factorize64 bld rng fuel k n = .ok (m, k) ∧ ((isPrime64 bld n = true → n.Prime) → IsFactorization m n) := by
  obtain ⟨f, rfl⟩ : ∃ f, fuel = f + 1 := ⟨fuel - 1, by omega⟩
  obtain ⟨f2, r, h1, h2, h3, h4, h5⟩ := split_two hn h64
  by_cases hp : f2 = 0 ∧ isPrime64 bld n = true
  · refine ⟨[(n, 1)], by simp only [factorize64, factorize64With, h1, hp]; rfl, fun hex => ?_⟩
    exact isFactorization_of (by simp [MapSorted]) (by simpa using hex hp.2) (by simp) (by simp)
  · have hF := fmap_two hn h3 h4
    have hs : isqrt n + 1 < 2 ^ 64 := by
      have := (isqrt_spec n).1
      generalize isqrt n = s at *
      nlinarith
    obtain ⟨r', m', b, g1, g2, g3, g4, g5, g6⟩ := td64_spec (bld := bld) h64 h5 h4 hF
    cases b with
    | true =>
      refine ⟨if r' ≠ 1 then mapInsert m' r' 1 else m', ?_, fun _ => ?_⟩
      · simp only [factorize64, factorize64With, h1, hp, if_false, cadd_ok (fits_some.mpr hs), Res.bind_ok, h2, g1, if_true]
        rfl
      · exact (fmap_finished g2 (g6 rfl) (P := Nat.Prime) (fun p hp => hp)).isFactorization (fun x _ h => h)
    | false =>
      have hr1 : 1 < r' := by have := g2.rpos; have := (g5 rfl).1; omega
      have hpr : r'.Prime := hsm.prime ⟨mapProd m', by rw [Nat.mul_comm]; exact g2.prod⟩ hr1 (g5 rfl).2
      have hm : isPrime64Miller bld r' = true := isPrime64Miller_of hr1 (g5 rfl).2 (isPrime64_prime bld hpr)
      refine ⟨mergeFactors m' [(r', 1)], ?_, fun _ => ?_⟩
      · simp only [factorize64, factorize64With, h1, hp, if_false, cadd_ok (fits_some.mpr hs), Res.bind_ok, h2, g1,
          factorize64Advanced, advanced64Loop, hm, if_true]
        rfl
      · exact (fmap_merged g2 (by simp) (P := Nat.Prime) (fun p hp => hp) (by simpa using hpr) (by simp)).isFactorization
          (fun x _ h => h)

/-- **C45** for every `n < 2^16`, `factorize64` returns the prime factorization; nothing is assumed -/
theorem C45_factorize64_u16 (bld : Build) (rng : Rng) (fuel k n : ℕ) (hn : 1 ≤ n) (h16 : n < 2 ^ 16) (hf : 1 ≤ fuel) :
    ∃ m, factorize64 bld rng fuel k n = .ok (m, k) ∧ IsFactorization m n := by
  obtain ⟨m, h1, h2⟩ := C45_factorize64_smooth bld rng fuel k n hn (by omega) hf (by
    intro p q _ _ hp hq hd
    have h257 : 257 ≤ smallPrimesNext bld := by cases bld <;> decide
    have := Nat.le_of_dvd hn hd
    have : 257 * 257 ≤ p * q := Nat.mul_le_mul (by omega) (by omega)
    omega)
  exact ⟨m, h1, h2 (C02_is_prime64_exact_u16_partial bld n h16).mp⟩

/-- **C45** in particular `factorize64` returns for every `n` below the square of the table bound (`8167^2`, without big
tables `257^2`) -/
theorem C45_factorize64_returns_below (bld : Build) (rng : Rng) (fuel k n : ℕ) (hn : 1 ≤ n)
    (hlt : n < smallPrimesNext bld ^ 2) (hf : 1 ≤ fuel) : ∃ m, factorize64 bld rng fuel k n = .ok (m, k) := by
  have hN := smallPrimesNext_le bld
  have h64 : n < 2 ^ 64 := by
    have : smallPrimesNext bld ^ 2 ≤ 8167 ^ 2 := Nat.pow_le_pow_left hN 2
    omega
  obtain ⟨m, h, _⟩ := C45_factorize64_smooth bld rng fuel k n hn h64 hf (by
    intro p q hp hq h1 h2 hd
    have := Nat.le_of_dvd hn hd
    have := Nat.mul_le_mul h1 h2
    rw [pow_two] at hlt
    omega)
  exact ⟨m, h⟩

example : factorize64 .big exampleRng 10 0 (2 ^ 10 * 3 ^ 4 * 8161 ^ 2 * 4294967) =
    .ok ([(2, 10), (3, 4), (8161, 2), (4294967, 1)], 0) := by decide +kernel
-- a cofactor with two large primes (found by Pollard's rho) and a square and a cube of a large prime
example : factorize64 .big exampleRng 200 0 (9 * 8999 * 1000003) = .ok ([(3, 2), (8999, 1), (1000003, 1)], 2) ∧
    factorize64 .small exampleRng 200 0 (65537 ^ 2) = .ok ([(65537, 2)], 0) ∧
    factorize64 .small exampleRng 200 0 (2642239 ^ 2 * 3) = .ok ([(3, 1), (2642239, 2)], 0) ∧
    factorize64 .big exampleRng 200 0 (65537 ^ 3) = .ok ([(65537, 3)], 0) := by decide +kernel

/-- **C44, finding** `factorize64(0)` panics (shift by 64 bits) -/
theorem C44_factorize64_zero (bld : Build) (rng : Rng) (fuel k : ℕ) : factorize64 bld rng fuel k 0 = .panic := by
  have h1 : isqrt 0 = 0 := by decide
  simp [factorize64, factorize64With, trailingZeros, h1, cadd, cshr, fits]

/-- **C44, finding** with overflow checks on, a `u64` from `(2^32 - 1)^2` on that is neither prime nor a perfect power can
make `factorize64` panic: when Pollard's rho fails, Hart's one-line method overflows in its first round -/
theorem C44_factorize64_overflow (bld : Build) :
    factorize64 bld ⟨fun _ => 0, fun _ => []⟩ 10 0 (2147483743 * 8589934211) = .panic := by
  cases bld <;> decide +kernel

/-! ## C46 -/

/-- **C46** the same for `factorize128`; "passes the primality test" is acceptance by the BPSW configuration -/
theorem C46_factorize128_product (bld : Build) (rng : Rng) (fuel k n : ℕ) (hn : 1 ≤ n) (h128 : n < 2 ^ 128)
    (m : List (ℕ × ℕ)) (k' : ℕ) (h : factorize128 bld rng fuel k n = .ok (m, k')) :
    product m = n ∧ Ordered m ∧ ∀ x ∈ m, 0 < x.2 ∧
      ∃ v, isPrimeNew bld (some 128) x.1 (some .bpsw) [] = .ok v ∧ v.probably = true := by
  rcases Nat.lt_or_ge n (2 ^ 64) with h64 | h64
  · rw [factorize128, factorize128With, if_pos h64] at h
    obtain ⟨h1, h2, h3⟩ := C44_factorize64_product bld rng fuel k n hn h64 m k' h
    refine ⟨h1, h2, fun x hx => ⟨(h3 x hx).2, (accepted128_below ?_).mpr (h3 x hx).1⟩⟩
    have hd : x.1 ∣ n := by
      rw [← h1]
      refine (dvd_pow_self x.1 (h3 x hx).2.ne').trans ?_
      exact List.dvd_prod (List.mem_map_of_mem (f := fun x : ℕ × ℕ => x.1 ^ x.2) hx)
    exact lt_of_le_of_lt (Nat.le_of_dvd hn hd) h64
  · have key : FactorMap (Accepted128 bld) m n := by
      rcases factorize128With_cases (bld := bld) (fuel := fuel) (k := k) h64 h128 with ⟨m', h1, h2⟩ | ⟨m', r, h1, h2, h3⟩
      · rw [factorize128, h1] at h
        simp only [Res.ok.injEq, Prod.mk.injEq] at h
        rw [← h.1]; exact h2
      · rw [factorize128, h3, Res.mapR_eq_ok] at h
        obtain ⟨⟨l, k1⟩, h4, h5⟩ := h
        simp only [Prod.mk.injEq] at h5
        rw [← h5.1]
        obtain ⟨g1, g2⟩ := factorize128Advanced_spec (search_ok bld 64 (by norm_num) rng fuel)
          (search_ok bld 128 (by norm_num) rng fuel) h2 h4
        refine ⟨mergeFactors_sorted l m' h1.sorted, by rw [product_eq, mergeFactors_prod, g2, ← h1.prod],
          mergeFactors_keys l m' (fun x hx => ?_) (fun x hx => (g1 x hx).2.1),
          mergeFactors_pos l m' h1.pos (fun x hx => (g1 x hx).2.2)⟩
        exact accepted128_prime (h1.prime x hx) (lt_of_le_of_lt (Nat.le_of_dvd hn (h1.dvd hx)) h128)
    exact ⟨key.prod, key.ordered, fun x hx => ⟨key.pos x hx, key.key x hx⟩⟩

/-- **C46** if that test is right about the divisors of `n`, a returned map is the prime factorization -/
theorem C46_factorize128_exact (bld : Build)
    (rng : Rng) (fuel k n : ℕ) (hn : 1 ≤ n) (h128 : n < 2 ^ 128)
    (hex : ∀ p, p ∣ n → ∀ v, isPrimeNew bld (some 128) p (some .bpsw) [] = .ok v → v.probably = true → p.Prime)
    (m : List (ℕ × ℕ)) (k' : ℕ) (h : factorize128 bld rng fuel k n = .ok (m, k')) : IsFactorization m n := by
  obtain ⟨h1, h2, h3⟩ := C46_factorize128_product bld rng fuel k n hn h128 m k' h
  refine isFactorization_of h2 (fun x hx => ?_) (fun x hx => (h3 x hx).1) h1
  obtain ⟨v, hv, hp⟩ := (h3 x hx).2
  refine hex x.1 ?_ v hv hp
  rw [← h1]
  refine (dvd_pow_self x.1 (h3 x hx).1.ne').trans ?_
  exact List.dvd_prod (List.mem_map_of_mem (f := fun x : ℕ × ℕ => x.1 ^ x.2) hx)

/-- **C46** for `n` from `2^64` on with at most one prime factor outside the table, `factorize128` returns the prime
factorization; no assumption about pseudoprimes is needed -/
theorem C46_factorize128_smooth (bld : Build) (rng : Rng) (fuel k n : ℕ) (h64 : 2 ^ 64 ≤ n) (h128 : n < 2 ^ 128)
    (hf : 1 ≤ fuel) (hsm : AtMostOneLarge bld n) :
    ∃ m, factorize128 bld rng fuel k n = .ok (m, k) ∧ IsFactorization m n := by
  obtain ⟨f, rfl⟩ : ∃ f, fuel = f + 1 := ⟨fuel - 1, by omega⟩
  have hn : 1 ≤ n := by omega
  have hlt : ¬ n < 2 ^ 64 := by omega
  obtain ⟨f2, r, h1, h2, h3, h4, h5⟩ := split_two hn h128
  have hF2 : FMap (if f2 ≠ 0 then [(2, f2)] else []) r n := by
    rw [ite_not]; exact fmap_two hn h3 h4
  obtain ⟨r', m', b, g1, g2, g3, g4, g5, g6⟩ := td128_spec (bld := bld) h4 hF2
  cases b with
  | true =>
    have hr1 := g6 rfl
    subst hr1
    refine ⟨m', ?_, g2.finish_one⟩
    simp only [factorize128, factorize128With, hlt, if_false, h1, h2, Res.bind_ok, g1, if_true]
    rfl
  | false =>
    have hr1 : 1 < r' := by have := g2.rpos; have := (g5 rfl).1; omega
    have hpr : r'.Prime := hsm.prime ⟨mapProd m', by rw [Nat.mul_comm]; exact g2.prod⟩ hr1 (g5 rfl).2
    have hfac : IsFactorization (mergeFactors m' [(r', 1)]) n :=
      (fmap_merged g2 (by simp) (P := Nat.Prime) (fun p hp => hp) (by simpa using hpr) (by simp)).isFactorization
        (fun x _ h => h)
    refine ⟨_, ?_, hfac⟩
    simp only [factorize128, factorize128With, hlt, if_false, h1, h2, Res.bind_ok, g1, factorize128Advanced,
      factorize64Advanced, pushCofactor]
    by_cases hsz : r' < 2 ^ 64
    · have hm : isPrime64Miller bld r' = true := isPrime64Miller_of hr1 (g5 rfl).2 (isPrime64_prime bld hpr)
      simp only [hsz, if_true]
      simp [advanced128Loop, advanced64Loop, hm]
    · obtain ⟨v, hv, hp⟩ := accepted128_prime (bld := bld) hpr (by omega)
      simp only [hsz, if_false]
      simp [advanced128Loop, advanced64Loop, hv, hp]

example : factorize128 .big exampleRng 400 0 (8999 * (2 ^ 107 - 1)) = .ok ([(8999, 1), (2 ^ 107 - 1, 1)], 2) := by
  decide +kernel
example : factorize128 .small exampleRng 400 0 (12 * 277 * 281 * (2 ^ 89 - 1)) =
    .ok ([(2, 2), (3, 1), (277, 1), (281, 1), (2 ^ 89 - 1, 1)], 4) := by decide +kernel
example : factorize128 .small exampleRng 400 0 (277 * (2 ^ 61 - 1) ^ 2) = .ok ([(277, 1), (2 ^ 61 - 1, 2)], 2) := by
  decide +kernel

/-! ## C69 -/

/-- **C69** the divisor search of `factorize64` is only ever started on numbers rejected by the primality test: replacing
the search on all other numbers by anything whatsoever does not change the outcome -/
theorem C69_factorize64_search (bld : Build) (rng : Rng) (fuel k n : ℕ) (hn : 1 ≤ n) (h64 : n < 2 ^ 64)
    (find : ℕ → ℕ → Res (ℕ × ℕ))
    (hfind : ∀ t j, t < 2 ^ 64 → isPrime64 bld t = false → find t j = search bld 64 rng fuel t j) :
    factorize64With bld find fuel k n = factorize64 bld rng fuel k n := by
  rcases factorize64With_cases (bld := bld) (fuel := fuel) (k := k) hn h64 with ⟨m', h1, h2⟩ | ⟨m', r, h1, h2, h3⟩
  · rw [factorize64, h1, h1]
  · rw [factorize64, h3, h3, factorize64Advanced, factorize64Advanced,
      advanced64Loop_congr (search_ok bld 64 (by norm_num) rng fuel) hfind _ _ _ _ (by simpa using h2)]

/-- **C69** in particular the search is never started on a prime: `factorize64` would return the same if it panicked on
every prime -/
theorem C69_factorize64_no_prime (bld : Build) (rng : Rng) (fuel k n : ℕ) (hn : 1 ≤ n) (h64 : n < 2 ^ 64) :
    factorize64With bld (fun t j => if t.Prime then .panic else search bld 64 rng fuel t j) fuel k n =
      factorize64 bld rng fuel k n := by
  refine C69_factorize64_search bld rng fuel k n hn h64 _ (fun t j _ h => ?_)
  have : ¬ t.Prime := fun hp => by rw [isPrime64_prime bld hp] at h; simp at h
  simp only [this, if_false]

/-- **C69** the same for both searches of `factorize128` -/
theorem C69_factorize128_search (bld : Build) (rng : Rng) (fuel k n : ℕ) (hn : 1 ≤ n) (h128 : n < 2 ^ 128)
    (find64 find128 : ℕ → ℕ → Res (ℕ × ℕ))
    (h1 : ∀ t j, t < 2 ^ 64 → isPrime64 bld t = false → find64 t j = search bld 64 rng fuel t j)
    (h2 : ∀ t j, t < 2 ^ 128 → (∀ v, isPrimeNew bld (some 128) t (some .bpsw) [] = .ok v → v.probably = false) →
      find128 t j = search bld 128 rng fuel t j) :
    factorize128With bld find64 find128 fuel k n = factorize128 bld rng fuel k n := by
  rcases Nat.lt_or_ge n (2 ^ 64) with h64 | h64
  · rw [factorize128, factorize128With, factorize128With, if_pos h64, if_pos h64]
    exact C69_factorize64_search bld rng fuel k n hn h64 find64 h1
  · rcases factorize128With_cases (bld := bld) (fuel := fuel) (k := k) h64 h128 with ⟨m', g1, g2⟩ | ⟨m', r, g1, g2, g3⟩
    · rw [factorize128, g1, g1]
    · rw [factorize128, g3, g3]
      congr 1
      have hL : Lists bld ([], []) := ⟨by simp, by simp⟩
      obtain ⟨p1, -⟩ := hL.push g2
      have hag : ∀ n k, n < 2 ^ 128 → ¬ Accepted128 bld n → find128 n k = search bld 128 rng fuel n k := by
        intro t j ht hna
        refine h2 t j ht (fun v hv => ?_)
        rw [Bool.eq_false_iff]
        exact fun hp => hna ⟨v, hv, hp⟩
      simp only [factorize128Advanced, factorize64Advanced]
      rw [advanced128Loop_congr (search_ok bld 128 (by norm_num) rng fuel) hag _ _ _ _ p1]
      cases hv : advanced128Loop bld (search bld 128 rng fuel) fuel k (pushCofactor (r, 1) ([], [])) [] with
      | panic => rfl
      | timeout => rfl
      | ok v =>
        obtain ⟨t64, d, k1⟩ := v
        obtain ⟨a1, a2, a3⟩ := advanced128Loop_spec (search_ok bld 128 (by norm_num) rng fuel) _ _ _ _ _ _ _ p1 (by simp) hv
        simp only [Res.bind_ok]
        rw [advanced64Loop_congr (search_ok bld 64 (by norm_num) rng fuel) h1 _ _ _ _ a2]

/-- **C69** neither search of `factorize128` is ever started on a prime -/
theorem C69_factorize128_no_prime (bld : Build) (rng : Rng) (fuel k n : ℕ) (hn : 1 ≤ n) (h128 : n < 2 ^ 128) :
    factorize128With bld (fun t j => if t.Prime then .panic else search bld 64 rng fuel t j)
      (fun t j => if t.Prime then .panic else search bld 128 rng fuel t j) fuel k n = factorize128 bld rng fuel k n := by
  refine C69_factorize128_search bld rng fuel k n hn h128 _ _ (fun t j _ h => ?_) (fun t j ht h => ?_)
  · have : ¬ t.Prime := fun hp => by rw [isPrime64_prime bld hp] at h; simp at h
    simp only [this, if_false]
  · have : ¬ t.Prime := fun hp => by
      obtain ⟨v, hv, hp⟩ := accepted128_prime (bld := bld) hp ht
      rw [h v hv] at hp; simp at hp
    simp only [this, if_false]

end NumPrime
