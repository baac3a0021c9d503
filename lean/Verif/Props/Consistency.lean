import Verif.Props.Counting32

/-! # Consistency between the functions of the crate: C84 – C87

The same fact asked for in two ways must give the same answer. Where a theorem needs `is_prime64` to be exact it is stated for a range
`TestExactBelow bld N`, which is known for `2^16` in both builds and for `2^32` in the build without big tables, and follows from
`NoPseudoprimes` for `2^64`. -/

namespace NumPrime
open Tables Spec

/-- `is_prime64` accepts only primes below `N` -/
def TestExactBelow (bld : Build) (N : ℕ) : Prop := N ≤ 2 ^ 64 ∧ ∀ p < N, isPrime64 bld p = true → p.Prime

theorem testExact_u16 (bld : Build) : TestExactBelow bld (2 ^ 16) :=
  ⟨by norm_num, fun p hp => (C02_is_prime64_exact_u16_partial bld p hp).mp⟩

theorem testExact_u32 : TestExactBelow .small (2 ^ 32) := ⟨by norm_num, fun _ hp => (isPrime64_exact_u32 hp).mp⟩

theorem testExact_u64 {bld : Build} (hex : NoPseudoprimes bld) : TestExactBelow bld (2 ^ 64) :=
  ⟨le_rfl, fun p hp => ((C02_is_prime64_exact_partial bld).mpr hex p hp).mp⟩

/-! ## C84: counting and listing -/

theorem primesUpTo_length (n : ℕ) : (primesUpTo n).length = Nat.primeCounting n := by
  rw [Nat.primeCounting, Nat.primeCounting', Nat.count_eq_card_filter_range, primesUpTo, ← List.toFinset_card_of_nodup]
  · congr 1
    ext p
    simp
  · exact List.nodup_range.filter _

/-- **C84** `primes(x)` lists `prime_pi(x)` numbers, whatever the histories of the two buffers -/
theorem C84_primes_length (bld : Build) (o : Estimates) (g f : ℕ) (b1 b2 : Buf) (h1 : Reachable bld o g f b1)
    (h2 : Reachable bld o g f b2) (x : ℕ) (hx : x < 38891 ^ 2) (l : List ℕ) (v : ℕ) (b1' b2' : Buf)
    (r1 : b1.primes x = .ok (l, b1')) (r2 : primePi bld o g f b2 x = .ok (v, b2')) : l.length = v := by
  rw [C24_primes_exact bld o g f b1 h1 x l b1' r1, C30_prime_pi_exact_below bld o g f b2 h2 x hx v b2' r2, primesUpTo_length]

/-- **C84** `prime_pi(nth_prime(n)) = n` -/
theorem C84_prime_pi_nth_prime (bld : Build) (o : Estimates) (g f : ℕ) (b1 b2 : Buf) (h1 : Reachable bld o g f b1)
    (h2 : Reachable bld o g f b2) (n : ℕ) (hn : 1 ≤ n) (h4 : n ≤ 4096) (p v : ℕ) (b1' b2' : Buf)
    (r1 : b1.nthPrime bld o g f n = .ok (p, b1')) (r2 : primePi bld o g f b2 p = .ok (v, b2')) : v = n := by
  have hp := C32_nth_prime_exact bld o g f b1 h1 n hn (by omega) (by omega) p b1' r1
  have hlt : p < 38891 ^ 2 := by
    have h5 : nthPrime n ≤ 4096 * 4096 := by
      rcases Nat.lt_or_ge n 2 with h | h
      · have : n = 1 := by omega
        subst this
        rw [nthPrime_le_iff le_rfl]
        have : Nat.primeCounting 2 ≤ Nat.primeCounting (4096 * 4096) := Nat.monotone_primeCounting (by norm_num)
        have h2 : Nat.primeCounting 2 = 1 := by decide
        omega
      · exact (nthPrime_le_sq h).trans (Nat.mul_le_mul h4 h4)
    omega
  rw [C30_prime_pi_exact_below bld o g f b2 h2 p hlt v b2' r2, hp]
  exact primeCounting_nthPrime hn

/-- **C84** `nth_prime(prime_pi(p)) = p` for every prime `p` -/
theorem C84_nth_prime_prime_pi (bld : Build) (o : Estimates) (g f : ℕ) (b1 b2 : Buf) (h1 : Reachable bld o g f b1)
    (h2 : Reachable bld o g f b2) (p : ℕ) (hp : p.Prime) (hlt : p < 38891) (n q : ℕ) (b1' b2' : Buf)
    (r1 : primePi bld o g f b1 p = .ok (n, b1')) (r2 : b2.nthPrime bld o g f n = .ok (q, b2')) : q = p := by
  have hn := C30_prime_pi_exact_below bld o g f b1 h1 p (by omega) n b1' r1
  have h1n : 1 ≤ n := by
    rw [hn]
    have h2 : Nat.primeCounting 2 = 1 := by decide
    rw [← h2]
    exact Nat.monotone_primeCounting hp.two_le
  have h4 : n ≤ 4096 := by
    rw [hn]
    exact (Nat.monotone_primeCounting (show p ≤ 38890 by omega)).trans pi_38890
  rw [C32_nth_prime_exact bld o g f b2 h2 n h1n (by omega) (by omega) q b2' r2]
  exact (eq_nthPrime hp hn.symm).symm

/-- **C84** `nprimes(n)` and `primes(nth_prime(n))` are the same list -/
theorem C84_nprimes_primes (bld : Build) (o : Estimates) (g f : ℕ) (b1 b2 b3 : Buf) (h1 : Reachable bld o g f b1)
    (h2 : Reachable bld o g f b2) (h3 : Reachable bld o g f b3) (n : ℕ) (hn : 1 ≤ n) (h4 : n ≤ 4096) (p : ℕ) (l l' : List ℕ)
    (b1' b2' b3' : Buf) (r1 : Buf.nprimes bld o b1 n = .ok (l, b1')) (r2 : b2.nthPrime bld o g f n = .ok (p, b2'))
    (r3 : b3.primes p = .ok (l', b3')) : l = l' := by
  have hp := C32_nth_prime_exact bld o g f b2 h2 n hn (by omega) (by omega) p b2' r2
  rw [C25_nprimes_exact bld o g f b1 h1 n l b1' r1, C24_primes_exact bld o g f b3 h3 p l' b3' r3, hp]
  have e : primesUpTo (nthPrime n) = primesBelow (nthPrime n + 1) := rfl
  rw [e, primesBelow_eq_firstPrimes, count_succ_eq, primeCounting_nthPrime hn]

-- the calls return and agree: there are 25 primes up to 100, and 97 is the 25th
example : ntPrimePi .small exampleEstimates 5 2 97 = .ok 25 ∧ ntNthPrime .small exampleEstimates 5 5 25 = .ok 97 ∧
    ((Buf.new .small).primes 97).mapR (fun r => r.1.length) = .ok 25 := by decide +kernel

/-- **C84** without big tables, with the floating point formulas of the crate: `nth_prime` and `prime_pi` return and are inverse to
each other, for the first `13 * 10^7` primes -/
theorem C84_round_trip_u32 (F : FloatOps) (hF : F.Accurate) (n : ℕ) (hn : 1 ≤ n) (h7 : n ≤ 13 * 10 ^ 7) :
    ∃ G, ∀ g f, G ≤ g → 2 ^ 32 ≤ f → ∃ p, ntNthPrime .small (floatEstimates F) g f n = .ok p ∧
      ntPrimePi .small (floatEstimates F) g f p = .ok n := by
  obtain ⟨G1, h1⟩ := C32_nt_nth_prime_u32 F hF n hn h7
  have hlt := nthPrime_u32 hn h7
  obtain ⟨G2, h2⟩ := C30_nt_prime_pi_u62 F hF (nthPrime n) (by omega)
  refine ⟨max G1 G2, fun g f hg hf => ⟨nthPrime n, h1 g f (le_trans (le_max_left _ _) hg) hf, ?_⟩⟩
  rw [h2 g f (le_trans (le_max_right _ _) hg) (by omega), primeCounting_nthPrime hn]

/-! ## C85: next and previous prime -/

theorem prev_of_next {p q r : ℕ} (hp : p.Prime) (hq : IsNextPrime p q) (hr : IsPrevPrime q r) : r = p := by
  have h1 : p ≤ r := hr.2 ⟨hp, hq.1.2⟩
  by_contra hne
  have := hq.2 ⟨hr.1.1, show p < r by omega⟩
  have := hr.1.2
  omega

theorem next_of_prev {p q r : ℕ} (hp : p.Prime) (hq : IsPrevPrime p q) (hr : IsNextPrime q r) : r = p := by
  have h1 : r ≤ p := hr.2 ⟨hp, hq.1.2⟩
  by_contra hne
  have := hq.2 ⟨hr.1.1, show r < p by omega⟩
  have := hr.1.2
  omega

theorem nextPrime_total {bld : Build} {b p : ℕ} (hb : b ∈ [8, 16] ∨ b ∈ [8, 16, 32] ∧ bld = .small) (hp : p.Prime)
    (config : Option PrimalityTestConfig) :
    ∃ F, ∀ fuel, F ≤ fuel →
      (∃ q, nextPrime bld (some b) p config (fun _ => []) fuel = .ok (some q) ∧ IsNextPrime p q) ∨
      (nextPrime bld (some b) p config (fun _ => []) fuel = .ok none ∧ ∀ q, IsNextPrime p q → 2 ^ b ≤ q) := by
  have hb' : b ∈ [8, 16, 32] := by
    rcases hb with h | ⟨h, -⟩
    · simp at h ⊢; omega
    · exact h
  cases bld with
  | small =>
    refine C21_next_prime_u32_partial b hb' p (fun h => ?_) config
    obtain ⟨h1, h2⟩ := h
    interval_cases p <;> revert hp <;> norm_num
  | big =>
    refine C19_next_prime_u16 b ?_ p config
    rcases hb with h | ⟨-, h⟩
    · exact h
    · cases h

theorem prevPrime_total {bld : Build} {b n : ℕ} (hb : b ∈ [8, 16] ∨ b ∈ [8, 16, 32] ∧ bld = .small) (hn : 2 < n) (hnb : n < 2 ^ b)
    (config : Option PrimalityTestConfig) (draws : ℕ → List ℕ) :
    ∃ r F, (∀ fuel, F ≤ fuel → prevPrime bld (some b) n config draws fuel = .ok (some r)) ∧ IsPrevPrime n r := by
  rcases hb with h | ⟨h, rfl⟩
  · have : 2 ^ b ≤ 2 ^ 16 := Nat.pow_le_pow_right (by norm_num) (by simp at h; omega)
    exact C20_prev_prime_u16 bld (some b) n hn (by omega) config draws
  · have : 2 ^ b ≤ 2 ^ 32 := Nat.pow_le_pow_right (by norm_num) (by simp at h; omega)
    exact C20_prev_prime_u32 (some b) n hn (by omega) config draws

/-- **C85** `prev_prime(next_prime(p)) = p` for every prime `p` whose successor fits the type: `u8` and `u16` in both builds, `u32`
without big tables -/
theorem C85_prev_next (bld : Build) (b : ℕ) (hb : b ∈ [8, 16] ∨ b ∈ [8, 16, 32] ∧ bld = .small) (p : ℕ) (hp : p.Prime)
    (hfit : ∃ q, q.Prime ∧ p < q ∧ q < 2 ^ b) (config : Option PrimalityTestConfig) :
    ∃ F, ∀ fuel, F ≤ fuel → ∃ q, nextPrime bld (some b) p config (fun _ => []) fuel = .ok (some q) ∧
      prevPrime bld (some b) q config (fun _ => []) fuel = .ok (some p) := by
  obtain ⟨q, hq1, hq2, hq3⟩ := hfit
  have hex : ∃ q, q.Prime ∧ p < q := ⟨q, hq1, hq2⟩
  have hnext : IsNextPrime p (Nat.find hex) := ⟨Nat.find_spec hex, fun r hr => Nat.find_min' hex hr⟩
  have hle : Nat.find hex ≤ q := Nat.find_min' hex ⟨hq1, hq2⟩
  have h2 := hp.two_le
  have := (Nat.find_spec hex).2
  obtain ⟨F1, h1⟩ := nextPrime_total hb hp config
  obtain ⟨r, F2, h3, h4⟩ := prevPrime_total hb (n := Nat.find hex) (by omega) (by omega) config (fun _ => [])
  refine ⟨max F1 F2, fun fuel hf => ?_⟩
  rcases h1 fuel (le_trans (le_max_left _ _) hf) with ⟨q', g1, g2⟩ | ⟨-, g2⟩
  · have e : q' = Nat.find hex := g2.unique hnext
    exact ⟨q', g1, by rw [e, h3 fuel (le_trans (le_max_right _ _) hf), prev_of_next hp hnext h4]⟩
  · have := g2 _ hnext
    omega

/-- **C85** `next_prime(prev_prime(p)) = p` for every odd prime `p` of the type -/
theorem C85_next_prev (bld : Build) (b : ℕ) (hb : b ∈ [8, 16] ∨ b ∈ [8, 16, 32] ∧ bld = .small) (p : ℕ) (hp : p.Prime) (h2 : 2 < p)
    (hfit : p < 2 ^ b) (config : Option PrimalityTestConfig) :
    ∃ F, ∀ fuel, F ≤ fuel → ∃ q, prevPrime bld (some b) p config (fun _ => []) fuel = .ok (some q) ∧
      nextPrime bld (some b) q config (fun _ => []) fuel = .ok (some p) := by
  obtain ⟨q, F2, h3, h4⟩ := prevPrime_total hb h2 hfit config (fun _ => [])
  obtain ⟨F1, h1⟩ := nextPrime_total hb h4.1.1 config
  refine ⟨max F1 F2, fun fuel hf => ⟨q, h3 fuel (le_trans (le_max_right _ _) hf), ?_⟩⟩
  have hnext : IsNextPrime q p := ⟨⟨hp, h4.1.2⟩, fun r hr => by
    by_contra hlt
    have := h4.2 ⟨hr.1, not_le.mp hlt⟩
    have := hr.2
    omega⟩
  rcases h1 fuel (le_trans (le_max_left _ _) hf) with ⟨q', g1, g2⟩ | ⟨-, g2⟩
  · rw [g1, g2.unique hnext]
  · have := g2 _ hnext
    omega

example : nextPrime .small (some 32) 4294967279 none (fun _ => []) 9 = .ok (some 4294967291) ∧
    prevPrime .small (some 32) 4294967291 none (fun _ => []) 9 = .ok (some 4294967279) := by decide +kernel

/-! ## C86: the factorization does not depend on chance or on the function called -/

/-- a number has only one factorization -/
theorem isFactorization_unique {m m' : List (ℕ × ℕ)} {n : ℕ} (h : IsFactorization m n) (h' : IsFactorization m' n) : m = m' := by
  have hs : ∀ {m : List (ℕ × ℕ)}, Ordered m → m.Pairwise (fun x y => x.1 < y.1) := fun h => List.pairwise_map.mp h
  refine List.Perm.eq_of_pairwise (le := fun x y : ℕ × ℕ => x.1 < y.1) ?_ (hs h.1) (hs h'.1) ?_
  · intro a b _ _ h1 h2; omega
  · refine (List.perm_ext_iff_of_nodup ?_ ?_).mpr (fun x => ?_)
    · exact (hs h.1).imp (fun h e => by rw [e] at h; omega)
    · exact (hs h'.1).imp (fun h e => by rw [e] at h; omega)
    · obtain ⟨p, e⟩ := x
      rw [h.2, h'.2]

theorem factorize64_exactBelow {bld : Build} {N : ℕ} (hN : TestExactBelow bld N) {rng : Rng} {fuel k n : ℕ} (hn : 1 ≤ n) (hlt : n < N)
    {m : List (ℕ × ℕ)} {k' : ℕ} (h : factorize64 bld rng fuel k n = .ok (m, k')) : IsFactorization m n := by
  obtain ⟨h1, h2, h3⟩ := C44_factorize64_product bld rng fuel k n hn (lt_of_lt_of_le hlt hN.1) m k' h
  refine isFactorization_of h2 (fun x hx => hN.2 x.1 ?_ (h3 x hx).1) (fun x hx => (h3 x hx).2) h1
  have hd : x.1 ∣ n := by
    rw [← h1]
    refine (dvd_pow_self x.1 (h3 x hx).2.ne').trans ?_
    exact List.dvd_prod (List.mem_map_of_mem (f := fun x : ℕ × ℕ => x.1 ^ x.2) hx)
  exact lt_of_le_of_lt (Nat.le_of_dvd hn hd) hlt

theorem factorize128_exactBelow {bld : Build} {N : ℕ} (hN : TestExactBelow bld N) {rng : Rng} {fuel k n : ℕ} (hn : 1 ≤ n) (hlt : n < N)
    {m : List (ℕ × ℕ)} {k' : ℕ} (h : factorize128 bld rng fuel k n = .ok (m, k')) : IsFactorization m n := by
  have h64 := lt_of_lt_of_le hlt hN.1
  obtain ⟨h1, h2, h3⟩ := C46_factorize128_product bld rng fuel k n hn (by omega) m k' h
  have hd : ∀ x ∈ m, x.1 < N := by
    intro x hx
    have hd : x.1 ∣ n := by
      rw [← h1]
      refine (dvd_pow_self x.1 (h3 x hx).1.ne').trans ?_
      exact List.dvd_prod (List.mem_map_of_mem (f := fun x : ℕ × ℕ => x.1 ^ x.2) hx)
    exact lt_of_le_of_lt (Nat.le_of_dvd hn hd) hlt
  refine isFactorization_of h2 (fun x hx => hN.2 x.1 (hd x hx) ?_) (fun x hx => (h3 x hx).1) h1
  exact (accepted128_below (lt_of_lt_of_le (hd x hx) hN.1)).mp (h3 x hx).2

theorem passesTest_exactBelow {bld : Build} {N : ℕ} (hN : TestExactBelow bld N) {w : Width} {list : List ℕ} {rng : Rng}
    {config : Option FactorizationConfig} {n : ℕ} (hn : 1 ≤ n) (hlt : n < N) :
    ∀ p, p ∣ n → PassesTest bld w list rng config n p → p.Prime := by
  intro p hp ht
  have hpl := lt_of_le_of_lt (Nat.le_of_dvd hn hp) hlt
  have h64 := lt_of_lt_of_le hlt hN.1
  exact hN.2 p hpl ((accepted128_below (lt_of_lt_of_le hpl hN.1)).mp (ht.1 (by omega)))

/-- **C86** two runs of `factorize64` on the same number return the same map, whatever the random draws -/
theorem C86_factorize64_deterministic (bld : Build) (N : ℕ) (hN : TestExactBelow bld N) (rng1 rng2 : Rng) (fuel1 fuel2 k1 k2 n : ℕ)
    (hn : 1 ≤ n) (hlt : n < N) (m1 m2 : List (ℕ × ℕ)) (k1' k2' : ℕ) (h1 : factorize64 bld rng1 fuel1 k1 n = .ok (m1, k1'))
    (h2 : factorize64 bld rng2 fuel2 k2 n = .ok (m2, k2')) : m1 = m2 :=
  isFactorization_unique (factorize64_exactBelow hN hn hlt h1) (factorize64_exactBelow hN hn hlt h2)

/-- **C86** `factorize64` and `factorize128` agree -/
theorem C86_factorize128_agrees (bld : Build) (N : ℕ) (hN : TestExactBelow bld N) (rng1 rng2 : Rng) (fuel1 fuel2 k1 k2 n : ℕ)
    (hn : 1 ≤ n) (hlt : n < N) (m1 m2 : List (ℕ × ℕ)) (k1' k2' : ℕ) (h1 : factorize64 bld rng1 fuel1 k1 n = .ok (m1, k1'))
    (h2 : factorize128 bld rng2 fuel2 k2 n = .ok (m2, k2')) : m1 = m2 :=
  isFactorization_unique (factorize64_exactBelow hN hn hlt h1) (factorize128_exactBelow hN hn hlt h2)

/-- **C86** so does the generic `factorize`, for every integer type and every history of the buffer -/
theorem C86_factorize_agrees (bld : Build) (N : ℕ) (hN : TestExactBelow bld N) (o : Estimates) (g f : ℕ) (b : Buf)
    (hb : Reachable bld o g f b) (w : Width) (rng1 rng2 : Rng) (fuel1 fuel2 attempts k1 k2 n : ℕ) (hn : 1 ≤ n) (hlt : n < N)
    (m1 m2 : List (ℕ × ℕ)) (k1' k2' : ℕ) (h1 : factorize64 bld rng1 fuel1 k1 n = .ok (m1, k1'))
    (h2 : factorize bld w b.iter rng2 fuel2 attempts k2 n = .ok (m2, k2')) : m1 = m2 :=
  isFactorization_unique (factorize64_exactBelow hN hn hlt h1)
    (C48_factorize_exact bld o g f b hb w rng2 fuel2 attempts k2 n hn m2 k2' (passesTest_exactBelow hN hn hlt) h2)

/-- **C86** and `factors`, when it leaves no cofactor -/
theorem C86_factors_agrees (bld : Build) (N : ℕ) (hN : TestExactBelow bld N) (o : Estimates) (g f : ℕ) (b : Buf)
    (hb : Reachable bld o g f b) (w : Width) (rng1 rng2 : Rng) (fuel1 fuel2 k1 k2 n : ℕ) (hn : 1 ≤ n) (hlt : n < N)
    (config : Option FactorizationConfig) (m1 m2 : List (ℕ × ℕ)) (k1' k2' : ℕ)
    (h1 : factorize64 bld rng1 fuel1 k1 n = .ok (m1, k1'))
    (h2 : factors bld w b.iter rng2 fuel2 k2 n config = .ok (m2, none, k2')) : m1 = m2 :=
  isFactorization_unique (factorize64_exactBelow hN hn hlt h1)
    (C47_factors_complete bld o g f b hb w rng2 fuel2 k2 n hn config m2 k2' (passesTest_exactBelow hN hn hlt) h2)

-- different draws, the same result
example : (factorize64 .small ⟨fun j => 2 + j, fun _ => []⟩ (2 ^ 72) 0 (65519 * 65521)).mapR Prod.fst =
    (factorize64 .small ⟨fun j => 7 + 3 * j, fun _ => []⟩ (2 ^ 72) 5 (65519 * 65521)).mapR Prod.fst := by decide +kernel

/-! ## C87: primality, factorization and the arithmetic functions -/

/-- **C87** `is_prime(n)` answers `Yes` exactly when `factorize64(n)` is `{n: 1}` -/
theorem C87_is_prime_factorize64 (bld : Build) (N : ℕ) (hN : TestExactBelow bld N) (w : Width) (list : List ℕ)
    (config : Option PrimalityTestConfig) (draws : List ℕ) (rng : Rng) (fuel k n : ℕ) (hn : 1 ≤ n) (hlt : n < N)
    (m : List (ℕ × ℕ)) (k' : ℕ) (h : factorize64 bld rng fuel k n = .ok (m, k')) :
    isPrime bld w list n config draws = .ok .yes ↔ m = [(n, 1)] := by
  have hf := factorize64_exactBelow hN hn hlt h
  rw [isPrime_below bld w list (lt_of_lt_of_le hlt hN.1)]
  have hiff : isPrime64 bld n = true ↔ n.Prime := ⟨hN.2 n hlt, fun hp => C01_is_prime64_prime bld n hp (lt_of_lt_of_le hlt hN.1)⟩
  constructor
  · intro hy
    have hp : n.Prime := by
      rw [← hiff]
      by_contra hc
      rw [if_neg hc] at hy
      simp at hy
    refine isFactorization_unique hf ⟨by simp [Ordered], fun p e => ?_⟩
    rw [List.mem_singleton, Prod.mk.injEq]
    constructor
    · rintro ⟨rfl, rfl⟩
      exact ⟨hp, dvd_rfl, by rw [hp.factorization_self]⟩
    · rintro ⟨h1, h2, h3⟩
      have := (Nat.prime_dvd_prime_iff_eq h1 hp).mp h2
      subst this
      exact ⟨rfl, by rw [h3, hp.factorization_self]⟩
  · intro hm
    have := ((hf.2 n 1).mp (by rw [hm]; simp)).1
    rw [if_pos (hiff.mpr this)]

theorem moebius_exactBelow {bld : Build} {N : ℕ} (hN : TestExactBelow bld N) {w : Width} {rng : Rng} {fuel attempts k n : ℕ}
    (hlt : n < N) {r : ℤ} (h : moebius bld w rng fuel attempts k n = .ok r) : r = ArithmeticFunction.moebius n := by
  rcases Nat.eq_zero_or_pos n with rfl | h0
  · rw [C51_moebius_small bld w rng fuel attempts k 0 (by simp)] at h
    simpa using h.symm
  · refine C51_moebius_exact bld w rng fuel attempts k n (fun t ht => passesTest_exactBelow hN (by omega) (by omega)) r h

/-- **C87** `moebius` is multiplicative -/
theorem C87_moebius_mul (bld : Build) (N : ℕ) (hN : TestExactBelow bld N) (w : Width) (rng1 rng2 rng3 : Rng)
    (fuel attempts k1 k2 k3 a b : ℕ) (hab : Nat.Coprime a b) (hlt : a * b < N) (ha : a < N) (hb : b < N) (r1 r2 r3 : ℤ)
    (h1 : moebius bld w rng1 fuel attempts k1 a = .ok r1) (h2 : moebius bld w rng2 fuel attempts k2 b = .ok r2)
    (h3 : moebius bld w rng3 fuel attempts k3 (a * b) = .ok r3) : r3 = r1 * r2 := by
  rw [moebius_exactBelow hN ha h1, moebius_exactBelow hN hb h2, moebius_exactBelow hN hlt h3,
    ArithmeticFunction.isMultiplicative_moebius.map_mul_of_coprime hab]

/-- **C87** `moebius(n)` is zero exactly when `is_square_free(n)` is false -/
theorem C87_moebius_square_free (bld : Build) (N : ℕ) (hN : TestExactBelow bld N) (w : Width) (rng1 rng2 : Rng)
    (fuel1 fuel2 attempts1 attempts2 k1 k2 n : ℕ) (hn : 1 ≤ n) (hlt : n < N) (r : ℤ) (s : Bool)
    (h1 : moebius bld w rng1 fuel1 attempts1 k1 n = .ok r) (h2 : isSquareFree bld w rng2 fuel2 attempts2 k2 n = .ok s) :
    r = 0 ↔ s = false := by
  have e1 := moebius_exactBelow hN hlt h1
  have e2 := C52_is_square_free_exact bld w rng2 fuel2 attempts2 k2 n
    (fun t ht => passesTest_exactBelow hN (by omega) (by omega)) s h2
  rw [← Bool.not_eq_true, e2, not_not, e1, ← not_iff_not]
  rw [← ne_eq, ArithmeticFunction.moebius_ne_zero_iff_squarefree]
  constructor
  · rintro hs ⟨d, hd, hdd⟩
    have := hs d hdd
    rw [Nat.isUnit_iff] at this
    omega
  · intro hs d hd
    rw [Nat.isUnit_iff]
    by_contra hc
    have h0 : 0 < d := Nat.pos_of_ne_zero (by rintro rfl; simp at hd; omega)
    exact hs ⟨d, by omega, hd⟩

/-- **C87** on a prime `moebius` is `-1` -/
theorem C87_moebius_prime (bld : Build) (N : ℕ) (hN : TestExactBelow bld N) (w : Width) (list : List ℕ)
    (config : Option PrimalityTestConfig) (draws : List ℕ) (rng : Rng) (fuel attempts k n : ℕ) (hlt : n < N) (r : ℤ)
    (hp : isPrime bld w list n config draws = .ok .yes) (h : moebius bld w rng fuel attempts k n = .ok r) : r = -1 := by
  rw [isPrime_below bld w list (lt_of_lt_of_le hlt hN.1)] at hp
  have : n.Prime := by
    refine hN.2 n hlt ?_
    by_contra hc
    rw [if_neg hc] at hp
    simp at hp
  rw [moebius_exactBelow hN hlt h, ArithmeticFunction.moebius_apply_prime this]

example : moebius .small (some 32) ⟨fun j => 2 + j, fun _ => []⟩ 100 3 0 15 = .ok 1 ∧
    moebius .small (some 32) ⟨fun j => 2 + j, fun _ => []⟩ 100 3 0 4 = .ok 0 := by decide +kernel

end NumPrime
