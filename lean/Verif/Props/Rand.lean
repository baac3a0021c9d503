import Verif.Proofs.Rand

/-! # C59 – C63: random primes

`src.value k` is the `k`-th number handed out by an arbitrary generator, `src.draws j t` are the values `rand::random()`
returns while the candidate `t` is tested in attempt `j` (only read for numbers of more than 64 bits). A result
`.ok (p, k')` says that the function returned `p`. -/

namespace NumPrime
open Tables Spec

/-- the widths of the machine types handled by the first implementation, `u8`, `u16`, `u32`, `u64` -/
def PrimWidth (b : ℕ) : Prop := b = 8 ∨ b = 16 ∨ b = 32 ∨ b = 64

theorem PrimWidth.le {b : ℕ} (h : PrimWidth b) : b ≤ 64 := by unfold PrimWidth at h; omega

theorem PrimWidth.std {b : ℕ} (h : PrimWidth b) : StdWidth (some b) := by
  rcases h with rfl | rfl | rfl | rfl <;> exact Or.inr ⟨_, by simp, rfl⟩

theorem std128 : StdWidth (some 128) := Or.inr ⟨128, by simp, rfl⟩

theorem accepted_is64 {bld : Build} {w : Width} {config draws} {r : ℕ} (h64 : r < 2 ^ 64)
    (h : Accepted bld w config draws r) : isPrime64 bld r = true := by
  obtain ⟨x, h1, h2⟩ := h
  rw [isPrimeNew, isPrime_below bld w _ h64] at h1
  injection h1 with h1
  by_contra hc
  rw [if_neg hc] at h1
  rw [← h1] at h2; simp [Primality.probably] at h2

theorem fits_lt {b n : ℕ} (h : fits (some b) n = true) : n < 2 ^ b := by simpa [fits] using h
theorem lt_fits {b n : ℕ} (h : n < 2 ^ b) : fits (some b) n = true := by simpa [fits] using h

/-! ## the loops of the three implementations -/

theorem primLoop_accepted {bld : Build} {src : RandSource} {b : ℕ} (hb : PrimWidth b) {mk : ℕ → Res ℕ}
    (hmk : ∀ j t, mk j = .ok t → t < 2 ^ b) {fuel f k p k' : ℕ}
    (h : genLoop mk (fun _ t => .ok (isPrime64 bld t)) (fun k t => nextPrime bld (some b) t none (src.draws k) fuel) f k =
      .ok (p, k')) : p < 2 ^ b ∧ isPrime64 bld p = true := by
  obtain ⟨j, t, _, _, h3, h4⟩ := genLoop_spec _ _ _ _ h
  rcases h4 with ⟨h4, rfl⟩ | ⟨_, h5⟩
  · injection h4 with h4
    exact ⟨hmk j p h3, h4⟩
  · obtain ⟨_, a2, a3⟩ := nextPrime_accepted bld (some b) t none _ _ _ h5
    exact ⟨fits_lt a2, accepted_is64 (fits_64 hb.le a2) a3⟩

theorem primLoop_contract {bld : Build} {src : RandSource} {b : ℕ} (hb : PrimWidth b) {mk : ℕ → Res ℕ}
    (hmk : ∀ j t, mk j = .ok t → t < 2 ^ b) {fuel f k p k' : ℕ}
    (h : genLoop mk (fun _ t => .ok (isPrime64 bld t)) (fun k t => nextPrime bld (some b) t none (src.draws k) fuel) f k =
      .ok (p, k')) :
    ∃ j t, k ≤ j ∧ k' = j + 1 ∧ mk j = .ok t ∧ t ≤ p ∧ p < 2 ^ b ∧ (∀ q, q.Prime → t ≤ q → p ≤ q) := by
  obtain ⟨j, t, a1, a2, a3, a4, a5, a6⟩ := genLoop_contract (w := some b) (fun j t ht => lt_fits (hmk j t ht))
    (fun j t ht hf hp => by
      injection hf with hf
      rw [C01_is_prime64_prime bld t hp (fits_64 hb.le ht)] at hf
      simp at hf)
    (fun j t p hn => by
      rw [nextPrime_draws bld hb.le t none _ (fun _ => []) fuel] at hn
      obtain ⟨b1, b2, _, b4⟩ := (nextPrime_contract bld (some b) hb.std t none _ goodDraws_nil fuel _ hn).1 p rfl
      exact ⟨b1, b2, b4⟩) h
  exact ⟨j, t, a1, a2, a3, a4, fits_lt a5, a6⟩

theorem loop128_accepted {bld : Build} {src : RandSource} {config : Option PrimalityTestConfig} {mk : ℕ → Res ℕ}
    (hmk : ∀ j t, mk j = .ok t → t < 2 ^ 128) {fuel f k p k' : ℕ}
    (h : genLoop mk (testMint bld src config) (fun k t => nextPrime bld (some 128) t none (src.draws k) fuel) f k =
      .ok (p, k')) : p < 2 ^ 128 ∧ ∃ j, k' = j + 1 ∧ (Accepted bld (some 128) config (src.draws j) p ∨
        Accepted bld (some 128) none (src.draws j) p) := by
  obtain ⟨j, t, _, hk, h3, h4⟩ := genLoop_spec _ _ _ _ h
  rcases h4 with ⟨h4, rfl⟩ | ⟨_, h5⟩
  · exact ⟨hmk j p h3, j, hk, Or.inl (testMint_true (lt_fits (hmk j p h3)) h4)⟩
  · obtain ⟨_, a2, a3⟩ := nextPrime_accepted bld (some 128) t none _ _ _ h5
    exact ⟨fits_lt a2, j, hk, Or.inr a3⟩

theorem loop128_contract {bld : Build} {src : RandSource} (hdr : ∀ k, GoodDraws (src.draws k))
    {config : Option PrimalityTestConfig} {mk : ℕ → Res ℕ}
    (hmk : ∀ j t, mk j = .ok t → t < 2 ^ 128) {fuel f k p k' : ℕ}
    (h : genLoop mk (testMint bld src config) (fun k t => nextPrime bld (some 128) t none (src.draws k) fuel) f k =
      .ok (p, k')) :
    ∃ j t, k ≤ j ∧ k' = j + 1 ∧ mk j = .ok t ∧ t ≤ p ∧ p < 2 ^ 128 ∧ (∀ q, q.Prime → t ≤ q → p ≤ q) := by
  obtain ⟨j, t, a1, a2, a3, a4, a5, a6⟩ := genLoop_contract (w := some 128) (fun j t ht => lt_fits (hmk j t ht))
    (fun j t ht hf => testMint_false (hdr j) ht hf)
    (fun j t p hn => by
      obtain ⟨b1, b2, _, b4⟩ := (nextPrime_contract bld (some 128) std128 t none _ (hdr j) fuel _ hn).1 p rfl
      exact ⟨b1, b2, b4⟩) h
  exact ⟨j, t, a1, a2, a3, a4, fits_lt a5, a6⟩

theorem loopBig_accepted {bld : Build} {src : RandSource} {config : Option PrimalityTestConfig} {mk : ℕ → Res ℕ}
    {fuel f k p k' : ℕ}
    (h : genLoop mk (testPlain bld none src config) (fun k t => nextPrime bld none t config (src.draws k) fuel) f k =
      .ok (p, k')) : ∃ j, k' = j + 1 ∧ Accepted bld none config (src.draws j) p := by
  obtain ⟨j, t, _, hk, h3, h4⟩ := genLoop_spec _ _ _ _ h
  rcases h4 with ⟨h4, rfl⟩ | ⟨_, h5⟩
  · exact ⟨j, hk, testPlain_true h4⟩
  · exact ⟨j, hk, (nextPrime_accepted bld none t config _ _ _ h5).2.2⟩

theorem loopBig_contract {bld : Build} {src : RandSource} (hdr : ∀ k, GoodDraws (src.draws k))
    {config : Option PrimalityTestConfig} {mk : ℕ → Res ℕ} {fuel f k p k' : ℕ}
    (h : genLoop mk (testPlain bld none src config) (fun k t => nextPrime bld none t config (src.draws k) fuel) f k =
      .ok (p, k')) :
    ∃ j t, k ≤ j ∧ k' = j + 1 ∧ mk j = .ok t ∧ t ≤ p ∧ (∀ q, q.Prime → t ≤ q → p ≤ q) := by
  obtain ⟨j, t, a1, a2, a3, a4, a5, a6⟩ := genLoop_contract (w := none) (fun j t ht => rfl)
    (fun j t ht hf => testPlain_false (Or.inl rfl) (hdr j) ht hf)
    (fun j t p hn => by
      obtain ⟨b1, b2, _, b4⟩ := (nextPrime_contract bld none (Or.inl rfl) t config _ (hdr j) fuel _ hn).1 p rfl
      exact ⟨b1, b2, b4⟩) h
  exact ⟨j, t, a1, a2, a3, a4, a6⟩

theorem drawBits_fits {b bits : ℕ} (hbits : bits ≤ b) {src : RandSource} (j t : ℕ)
    (h : drawBits b bits (src.value j) = .ok t) : t < 2 ^ b :=
  lt_of_lt_of_le (drawBits_ok hbits h).2.2 (Nat.pow_le_pow_right (by norm_num) hbits)

theorem drawExact_fits {b bits : ℕ} (hbits : bits ≤ b) {src : RandSource} (j t : ℕ)
    (h : drawExact b bits (src.value j) = .ok t) : t < 2 ^ b :=
  lt_of_lt_of_le (drawExact_ok hbits h).2.2 (Nat.pow_le_pow_right (by norm_num) hbits)

theorem not_gt_of_ok {bits b : ℕ} {x : Res (ℕ × ℕ)} {r : ℕ × ℕ} (h : (if bits > b then .panic else x) = .ok r) :
    bits ≤ b ∧ x = .ok r := by
  by_cases hc : bits > b
  · rw [if_pos hc] at h; simp at h
  · rw [if_neg hc] at h; exact ⟨by omega, h⟩

/-! ## C59 -/

/-- **C59** `u8`, `u16`, `u32`, `u64`: whatever the generator produces, a number returned by `gen_prime` or
`gen_prime_exact` fits the type and is accepted by `is_prime64` -/
theorem C59_gen_prime_prim (bld : Build) (src : RandSource) (b : ℕ) (hb : PrimWidth b) (fuel bits k p k' : ℕ)
    (h : genPrimePrim bld src b fuel bits k = .ok (p, k') ∨ genPrimeExactPrim bld src b fuel bits k = .ok (p, k')) :
    p < 2 ^ b ∧ isPrime64 bld p = true := by
  rcases h with h | h
  · obtain ⟨h1, h2⟩ := not_gt_of_ok h
    exact primLoop_accepted hb (drawBits_fits h1) h2
  · obtain ⟨h1, h2⟩ := not_gt_of_ok h
    exact primLoop_accepted hb (drawExact_fits h1) h2

/-- **C59** hence it is a prime if `is_prime64` makes no mistake (see C02) -/
theorem C59_gen_prime_prim_prime (bld : Build) (hex : NoPseudoprimes bld) (src : RandSource) (b : ℕ) (hb : PrimWidth b)
    (fuel bits k p k' : ℕ)
    (h : genPrimePrim bld src b fuel bits k = .ok (p, k') ∨ genPrimeExactPrim bld src b fuel bits k = .ok (p, k')) :
    p.Prime := by
  obtain ⟨h1, h2⟩ := C59_gen_prime_prim bld src b hb fuel bits k p k' h
  have : p < 2 ^ 64 := lt_of_lt_of_le h1 (Nat.pow_le_pow_right (by norm_num) hb.le)
  exact ((C02_is_prime64_exact_partial bld).mpr hex p this).mp h2

/-- **C59** `u8` and `u16`: every returned number is a prime; nothing is assumed -/
theorem C59_gen_prime_u16_prime (bld : Build) (src : RandSource) (b : ℕ) (hb : b = 8 ∨ b = 16)
    (fuel bits k p k' : ℕ)
    (h : genPrimePrim bld src b fuel bits k = .ok (p, k') ∨ genPrimeExactPrim bld src b fuel bits k = .ok (p, k')) :
    p.Prime := by
  obtain ⟨h1, h2⟩ := C59_gen_prime_prim bld src b (by unfold PrimWidth; omega) fuel bits k p k' h
  have : p < 2 ^ 16 := lt_of_lt_of_le h1 (Nat.pow_le_pow_right (by norm_num) (by omega))
  exact (C02_is_prime64_exact_u16_partial bld p this).mp h2

/-- **C59** `u128`: a returned number was accepted by the primality test with the given configuration, or (when it comes
from `next_prime`, which is called without the configuration) with the default configuration -/
theorem C59_gen_prime_u128 (bld : Build) (src : RandSource) (config : Option PrimalityTestConfig) (fuel bits k p k' : ℕ)
    (h : genPrime128 bld src config fuel bits k = .ok (p, k') ∨
      genPrimeExact128 bld src config fuel bits k = .ok (p, k')) :
    p < 2 ^ 128 ∧ ∃ j, Accepted bld (some 128) config (src.draws j) p ∨ Accepted bld (some 128) none (src.draws j) p := by
  rcases h with h | h
  · obtain ⟨h1, h2⟩ := not_gt_of_ok h
    obtain ⟨a, j, _, b⟩ := loop128_accepted (drawBits_fits h1) h2
    exact ⟨a, j, b⟩
  · obtain ⟨h1, h2⟩ := not_gt_of_ok h
    obtain ⟨a, j, _, b⟩ := loop128_accepted (drawExact_fits h1) h2
    exact ⟨a, j, b⟩

/-- **C59** `BigUint`: a returned number was accepted by the primality test with the given configuration -/
theorem C59_gen_prime_big (bld : Build) (src : RandSource) (config : Option PrimalityTestConfig) (fuel bits k p k' : ℕ)
    (h : genPrimeBig bld src config fuel bits k = .ok (p, k') ∨
      genPrimeExactBig bld src config fuel bits k = .ok (p, k')) :
    ∃ j, Accepted bld none config (src.draws j) p := by
  rcases h with h | h
  · obtain ⟨j, _, b⟩ := loopBig_accepted h
    exact ⟨j, b⟩
  · obtain ⟨j, _, b⟩ := loopBig_accepted h
    exact ⟨j, b⟩

/-- a number accepted by any of these tests is at least 2, and it is 2 or odd -/
theorem accepted_ge_two {bld : Build} {w : Width} {config : Option PrimalityTestConfig} {draws : ℕ → List ℕ} {p : ℕ}
    (h : Accepted bld w config draws p) : 2 ≤ p ∧ (p = 2 ∨ p % 2 = 1) := by
  rcases Nat.lt_or_ge p (2 ^ 64) with h1 | h1
  · exact C02_accepted_ge_two_partial bld p (accepted_is64 h1 h)
  · refine ⟨by omega, Or.inr ?_⟩
    obtain ⟨r, h2, h3⟩ := h
    by_contra hc
    rw [isPrimeNew, isPrime_even bld w _ (by omega)] at h2
    injection h2 with h2
    have : ¬ p = 2 := by omega
    rw [if_neg this] at h2
    rw [← h2] at h3
    simp [Primality.probably] at h3

/-- **C59** the argument checks: more bits than the type has, or no bits, make the machine integer versions panic;
`gen_prime_exact(0)` panics for `BigUint` -/
theorem C59_bad_bit_size_panics (bld : Build) (src : RandSource) (config : Option PrimalityTestConfig) (b fuel bits k : ℕ)
    (h : bits = 0 ∨ b < bits) :
    genPrimePrim bld src b (fuel + 1) bits k = .panic ∧ genPrimeExactPrim bld src b (fuel + 1) bits k = .panic ∧
    (b = 128 → genPrime128 bld src config (fuel + 1) bits k = .panic ∧
      genPrimeExact128 bld src config (fuel + 1) bits k = .panic) ∧
    genPrimeExactBig bld src config (fuel + 1) 0 k = .panic := by
  have hbig : genPrimeExactBig bld src config (fuel + 1) 0 k = .panic := rfl
  rcases h with rfl | h
  · refine ⟨?_, ?_, ?_, hbig⟩
    · rw [genPrimePrim, if_neg (by omega), genLoop, drawBits_zero]; rfl
    · rw [genPrimeExactPrim, if_neg (by omega), genLoop, drawExact_zero]; rfl
    · rintro rfl
      constructor
      · rw [genPrime128, if_neg (by omega), genLoop, drawBits_zero]; rfl
      · rw [genPrimeExact128, if_neg (by omega), genLoop, drawExact_zero]; rfl
  · refine ⟨if_pos h, if_pos h, ?_, hbig⟩
    rintro rfl
    exact ⟨if_pos h, if_pos h⟩

/-- a prime exists between any odd number below `2^bits` and `2^b`, when `bits < b` -/
theorem next_fits {b bits t : ℕ} (hlt : bits < b) (h1 : 1 ≤ t) (h2 : t < 2 ^ bits) : ∃ q, q.Prime ∧ t < q ∧ q < 2 ^ b := by
  obtain ⟨q, hq, a, c⟩ := Nat.exists_prime_lt_and_le_two_mul t (by omega)
  have : 2 ^ (bits + 1) ≤ 2 ^ b := Nat.pow_le_pow_right (by norm_num) hlt
  rw [pow_succ] at this
  exact ⟨q, hq, a, by omega⟩

theorem primLoop_returns {src : RandSource} {b : ℕ} (hb : PrimWidth b) {mk : ℕ → Res ℕ}
    (hmk : ∀ j, ∃ t, mk j = .ok t) (k m : ℕ) (hm : ∃ t q, mk (k + m) = .ok t ∧ q.Prime ∧ t ≤ q ∧ q < 2 ^ b) :
    ∃ F r, ∀ fuel, F ≤ fuel → genLoop mk (fun _ t => .ok (isPrime64 .big t))
      (fun k t => nextPrime .big (some b) t none (src.draws k) fuel) fuel k = .ok r := by
  obtain ⟨F, r, h⟩ := genLoop_returns (mk := mk) (test := fun _ t => .ok (isPrime64 .big t))
    (next := fun fuel k t => nextPrime .big (some b) t none (src.draws k) fuel) hmk (fun j t _ => ⟨_, rfl⟩)
    (fun j t _ => by
      obtain ⟨o, F, hF⟩ := nextPrime_returns .big (some b) hb.std t none (fun _ => []) goodDraws_nil
        (fun t' ht hc => by
          rw [isPrimeNew, isPrime_below .big _ _ (fits_64 hb.le ht)] at hc
          simp at hc) (by simp)
      refine ⟨o, F, fun fuel hf => ?_⟩
      rw [nextPrime_draws .big hb.le t none _ (fun _ => []) fuel]
      exact hF fuel hf) m k (by
    obtain ⟨t, q, h1, h2, h3, h4⟩ := hm
    have h64 : q < 2 ^ 64 := lt_of_lt_of_le h4 (Nat.pow_le_pow_right (by norm_num) hb.le)
    rcases Nat.eq_or_lt_of_le h3 with rfl | h3
    · exact ⟨t, h1, Or.inl (by rw [C01_is_prime64_prime .big t h2 h64])⟩
    refine ⟨t, h1, Or.inr fun fuel hc => ?_⟩
    rw [nextPrime_draws .big hb.le t none _ (fun _ => []) fuel] at hc
    have := (nextPrime_contract .big (some b) hb.std t none _ goodDraws_nil fuel none hc).2 rfl q h2 h3
    rw [lt_fits h4] at this
    simp at this)
  exact ⟨F, r, fun fuel hf => h fuel fuel hf hf⟩

/-- **C59** (default build) `gen_prime` returns: for `1 ≤ bits < BITS` always, and with the first value of the generator;
for `bits = BITS` as soon as the generator produces a value that is not above the largest prime of the type -/
theorem C59_gen_prime_prim_returns (src : RandSource) (b : ℕ) (hb : PrimWidth b) (bits k : ℕ) (h0 : 0 < bits)
    (hbits : bits ≤ b)
    (hgood : bits < b ∨ ∃ m q, q.Prime ∧ q < 2 ^ b ∧ ((src.value (k + m) % 2 ^ b) ||| 1) ≤ q) :
    ∃ F r, ∀ fuel, F ≤ fuel → genPrimePrim .big src b fuel bits k = .ok r := by
  have hgt : ¬ bits > b := by omega
  simp only [genPrimePrim, hgt, if_false]
  by_cases hlt : bits < b
  · refine primLoop_returns hb (fun j => ⟨_, drawBits_eq h0 hbits _⟩) k 0 ?_
    obtain ⟨_, c1, c2⟩ := drawBits_ok hbits (drawBits_eq h0 hbits (src.value k))
    obtain ⟨q, q1, q2, q3⟩ := next_fits hlt c1 c2
    exact ⟨_, q, drawBits_eq h0 hbits _, q1, q2.le, q3⟩
  · obtain ⟨m, q, g1, g2, g3⟩ := hgood.resolve_left hlt
    have : bits = b := by omega
    subst this
    refine primLoop_returns hb (fun j => ⟨_, drawBits_eq h0 hbits _⟩) k m ⟨_, q, drawBits_eq h0 hbits _, g1, ?_, g2⟩
    rw [Nat.sub_self, pow_zero, Nat.div_one]
    exact g3

/-- **C59** (default build) `gen_prime_exact` returns, under the same conditions -/
theorem C59_gen_prime_exact_prim_returns (src : RandSource) (b : ℕ) (hb : PrimWidth b) (bits k : ℕ) (h0 : 0 < bits)
    (hbits : bits ≤ b)
    (hgood : bits < b ∨ ∃ m q, q.Prime ∧ q < 2 ^ b ∧ ((src.value (k + m) % 2 ^ b) ||| 1 ||| 2 ^ (b - 1)) ≤ q) :
    ∃ F r, ∀ fuel, F ≤ fuel → genPrimeExactPrim .big src b fuel bits k = .ok r := by
  have hgt : ¬ bits > b := by omega
  simp only [genPrimeExactPrim, hgt, if_false]
  by_cases hlt : bits < b
  · refine primLoop_returns hb (fun j => ⟨_, drawExact_eq h0 hbits _⟩) k 0 ?_
    obtain ⟨_, c1, c2⟩ := drawExact_ok hbits (drawExact_eq h0 hbits (src.value k))
    obtain ⟨q, q1, q2, q3⟩ := next_fits hlt (le_trans Nat.one_le_two_pow c1) c2
    exact ⟨_, q, drawExact_eq h0 hbits _, q1, q2.le, q3⟩
  · obtain ⟨m, q, g1, g2, g3⟩ := hgood.resolve_left hlt
    have : bits = b := by omega
    subst this
    refine primLoop_returns hb (fun j => ⟨_, drawExact_eq h0 hbits _⟩) k m ⟨_, q, drawExact_eq h0 hbits _, g1, ?_, g2⟩
    rw [Nat.sub_self, pow_zero, Nat.div_one]
    exact g3

/-- the values of a generator that always produces `v` -/
def constSource (v : ℕ) : RandSource := ⟨fun _ => v, fun _ _ => []⟩

/-- **C59, finding** without big tables `gen_prime::<u8>(8)` panics when the generator produces 252, 253, 254 or 255 -/
theorem C59_gen_prime_small_panics (v : ℕ) (h1 : 252 ≤ v) (h2 : v ≤ 255) (fuel k : ℕ) :
    genPrimePrim .small (constSource v) 8 (fuel + 1) 8 k = .panic := by
  have hv : v = 252 ∨ v = 253 ∨ v = 254 ∨ v = 255 := by omega
  rw [genPrimePrim, if_neg (by omega), genLoop, drawBits_eq (by omega) le_rfl, Res.bind_ok, Res.bind_ok]
  have ht : ((constSource v).value k % 2 ^ 8 / 2 ^ (8 - 8)) ||| 1 = 253 ∨
      ((constSource v).value k % 2 ^ 8 / 2 ^ (8 - 8)) ||| 1 = 255 := by
    rcases hv with rfl | rfl | rfl | rfl <;> simp [constSource]
  rcases ht with ht | ht <;> rw [ht]
  · rw [show isPrime64 .small 253 = false by decide +kernel, C21_next_prime_panics _ _ (by omega) (by omega)]; rfl
  · rw [show isPrime64 .small 255 = false by decide +kernel, C21_next_prime_panics _ _ (by omega) (by omega)]; rfl

theorem loopBig_returns {bld : Build} {src : RandSource} {config : Option PrimalityTestConfig} {mk : ℕ → Res ℕ}
    (hdr : ∀ k, GoodDraws (src.draws k)) (hen : ∀ k t, isPrimeNew bld none t config (src.draws k t) ≠ .timeout) (k : ℕ)
    (hsm : ∀ t, mk k = .ok t → bld = .small → ¬ (252 ≤ t ∧ t ≤ 255)) (hmk : ∃ t, mk k = .ok t) :
    ∃ F p, ∀ fuel, F ≤ fuel → genLoop mk (testPlain bld none src config)
      (fun k t => nextPrime bld none t config (src.draws k) fuel) fuel k = .ok (p, k + 1) := by
  obtain ⟨t, ht⟩ := hmk
  obtain ⟨a, ha⟩ : ∃ a, testPlain bld none src config k t = .ok a := by
    rw [testPlain]
    cases hr : isPrimeNew bld none t config (src.draws k t) with
    | ok r => exact ⟨r.probably, rfl⟩
    | timeout => exact absurd hr (hen k t)
    | panic => exact absurd hr (isPrime_ne_panic bld (Or.inl rfl) _ t rfl config _)
  obtain ⟨o, F, hF⟩ := nextPrime_returns bld none (Or.inl rfl) t config (src.draws k) (hdr k) (fun t' _ => hen k t') (hsm t ht)
  have ho : ∃ p, o = some p := by
    cases o with
    | some p => exact ⟨p, rfl⟩
    | none =>
      obtain ⟨q, hq, h1, _⟩ := Nat.exists_prime_lt_and_le_two_mul (t + 1) (by omega)
      have := (nextPrime_contract bld none (Or.inl rfl) t config _ (hdr k) F none (hF F le_rfl)).2 rfl q hq (by omega)
      simp [fits] at this
  obtain ⟨p, rfl⟩ := ho
  refine ⟨max F 1, if a then t else p, fun fuel hf => ?_⟩
  obtain ⟨g, rfl⟩ : ∃ g, fuel = g + 1 := ⟨fuel - 1, by omega⟩
  rw [genLoop, ht, Res.bind_ok, ha, Res.bind_ok]
  cases a
  · simp only [Bool.false_eq_true, if_false]
    rw [hF (g + 1) (by omega)]
    rfl
  · rfl

/-- **C59** (default build) for `BigUint` both functions return with the first value of the generator, if the primality
tests return (they do when `rand::random()` produces enough different values, C14) -/
theorem C59_gen_prime_big_returns (src : RandSource) (config : Option PrimalityTestConfig)
    (hdr : ∀ k, GoodDraws (src.draws k)) (hen : ∀ k t, isPrimeNew .big none t config (src.draws k t) ≠ .timeout)
    (bits k : ℕ) :
    (∃ F p, ∀ fuel, F ≤ fuel → genPrimeBig .big src config fuel bits k = .ok (p, k + 1)) ∧
    (0 < bits → ∃ F p, ∀ fuel, F ≤ fuel → genPrimeExactBig .big src config fuel bits k = .ok (p, k + 1)) := by
  constructor
  · exact loopBig_returns hdr hen k (by simp) ⟨_, rfl⟩
  · intro h0
    refine loopBig_returns hdr hen k (by simp) ?_
    have : csub bits 1 = .ok (bits - 1) := if_pos (by omega)
    rw [this]
    exact ⟨_, rfl⟩

-- the hypotheses of the two theorems above can be met
example : ∃ src : RandSource, (∀ k, GoodDraws (src.draws k)) ∧
    ∀ k t, isPrimeNew .big none t none (src.draws k t) ≠ .timeout := by
  refine ⟨⟨fun _ => 0, fun _ _ => [5, 7, 11]⟩, fun k t x hx => ?_, fun k t hc => ?_⟩
  · simp only [List.mem_cons, List.not_mem_nil, or_false] at hx
    omega
  · obtain ⟨r, hr⟩ := C14_is_prime_returns .big none (Or.inl rfl) (smallPrimes .big) t rfl none [5, 7, 11]
      (by decide +kernel)
    rw [isPrimeNew, hr] at hc
    simp at hc

example : genPrimePrim .big (constSource 12345) 16 5 10 0 = .ok (193, 1) := by decide +kernel
example : genPrimeExactPrim .big (constSource 12345) 16 5 10 0 = .ok (709, 1) := by decide +kernel
example : genPrimePrim .big (constSource 255) 8 5 8 0 = .timeout := by decide +kernel

/-! ## C60, C61: bit sizes -/

/-- what holds about the size of the result: it is below `2^bits`, or it is at most the first prime above `2^bits` (and
hence below `2^(bits+1)`) -/
def BitBound (bits p : ℕ) : Prop :=
  p < 2 ^ (bits + 1) ∧ (p < 2 ^ bits ∨ ∀ q, q.Prime → 2 ^ bits ≤ q → p ≤ q)

/-- **C60 (partial)** `u8`, `u16`, `u32`, `u64`: the result of `gen_prime(bits)` is below `2^bits`, or at most the first
prime above it; with `bits = BITS` it is below `2^bits`. Missing: `p < 2^bits` for all draws, which is false
(`C60_gen_prime_exceeds`); `C60_gen_prime_prim_within_partial` has the draws for which it holds. -/
theorem C60_gen_prime_prim_partial (bld : Build) (src : RandSource) (b : ℕ) (hb : PrimWidth b) (fuel bits k p k' : ℕ)
    (h : genPrimePrim bld src b fuel bits k = .ok (p, k')) : BitBound bits p ∧ (bits = b → p < 2 ^ bits) := by
  obtain ⟨h1, h2⟩ := not_gt_of_ok h
  obtain ⟨j, t, _, _, a3, _, a5, a6⟩ := primLoop_contract hb (drawBits_fits h1) h2
  obtain ⟨_, c1, c2⟩ := drawBits_ok h1 a3
  obtain ⟨o1, o2⟩ := overshoot c1 c2 a6
  exact ⟨⟨o1, Or.inr o2⟩, fun e => e ▸ a5⟩

/-- **C60 (partial)** the result is below `2^bits` if no value of the generator, cut to `bits` bits and made odd, is above
the largest prime below `2^bits` -/
theorem C60_gen_prime_prim_within_partial (bld : Build) (src : RandSource) (b : ℕ) (hb : PrimWidth b) (fuel bits k p k' : ℕ)
    (hv : ∀ j, ∃ q, q.Prime ∧ q < 2 ^ bits ∧ (src.value j % 2 ^ b / 2 ^ (b - bits)) ||| 1 ≤ q)
    (h : genPrimePrim bld src b fuel bits k = .ok (p, k')) : p < 2 ^ bits := by
  obtain ⟨h1, h2⟩ := not_gt_of_ok h
  obtain ⟨j, t, _, _, a3, _, _, a6⟩ := primLoop_contract hb (drawBits_fits h1) h2
  obtain ⟨h0, _, _⟩ := drawBits_ok h1 a3
  rw [drawBits_eq h0 h1] at a3
  injection a3 with a3
  obtain ⟨q, q1, q2, q3⟩ := hv j
  exact lt_of_le_of_lt (a6 q q1 (a3 ▸ q3)) q2

/-- **C60 (partial)** the same for `u128` -/
theorem C60_gen_prime_u128_partial (bld : Build) (src : RandSource) (hdr : ∀ k, GoodDraws (src.draws k))
    (config : Option PrimalityTestConfig) (fuel bits k p k' : ℕ)
    (h : genPrime128 bld src config fuel bits k = .ok (p, k')) : BitBound bits p ∧ (bits = 128 → p < 2 ^ bits) := by
  obtain ⟨h1, h2⟩ := not_gt_of_ok h
  obtain ⟨j, t, _, _, a3, _, a5, a6⟩ := loop128_contract hdr (drawBits_fits h1) h2
  obtain ⟨_, c1, c2⟩ := drawBits_ok h1 a3
  obtain ⟨o1, o2⟩ := overshoot c1 c2 a6
  exact ⟨⟨o1, Or.inr o2⟩, fun e => e ▸ a5⟩

/-- **C60 (partial)** the same for `BigUint` (which has no largest bit size) -/
theorem C60_gen_prime_big_partial (bld : Build) (src : RandSource) (hdr : ∀ k, GoodDraws (src.draws k))
    (config : Option PrimalityTestConfig) (fuel bits k p k' : ℕ) (h0 : 0 < bits)
    (h : genPrimeBig bld src config fuel bits k = .ok (p, k')) : BitBound bits p := by
  obtain ⟨j, t, _, _, a3, _, a6⟩ := loopBig_contract hdr h
  injection a3 with a3
  obtain ⟨o1, o2⟩ := overshoot (t := t) (bits := bits) (by rw [← a3]; exact Nat.right_le_or)
    (by rw [← a3]; exact or_one_lt h0 (Nat.mod_lt _ (by positivity))) a6
  exact ⟨o1, Or.inr o2⟩

/-- **C60, finding** the bit size limit is not respected: from the draw 65535, `gen_prime::<u16>(12)` returns
4099 ≥ 2^12, and `gen_prime(1)` returns 2 for every draw and every type -/
theorem C60_gen_prime_exceeds (bld : Build) :
    (∃ src fuel, genPrimePrim bld src 16 fuel 12 0 = .ok (4099, 1)) ∧
    ∀ (src : RandSource) (config : Option PrimalityTestConfig) (fuel k : ℕ),
      (∀ b, PrimWidth b → genPrimePrim bld src b (fuel + 1) 1 k = .ok (2, k + 1)) ∧
      genPrime128 bld src config (fuel + 1) 1 k = .ok (2, k + 1) ∧
      genPrimeBig bld src config (fuel + 1) 1 k = .ok (2, k + 1) := by
  constructor
  · exact ⟨constSource 65535, 5, by cases bld <;> decide +kernel⟩
  · intro src config fuel k
    have hn : ∀ w : Width, fits w 2 = true → ∀ c d, nextPrime bld w 1 c d (fuel + 1) = .ok (some 2) := by
      intro w hw c d
      cases bld
      · rw [nextPrime_table_big (by omega)]
        have : smallPrimeAt .big (binarySearch (smallPrimes .big) 1).upper = .ok 2 := by decide +kernel
        rw [this, Res.mapR_ok, fromNat, if_pos hw]
      · rcases nextPrime_table_small w (by omega : 1 < 256) c d (fuel + 1) with ⟨_, y, t1, t2, t3, t4, t5⟩ | ⟨t, _⟩
        · have : y = 2 := le_antisymm (t5 2 Nat.prime_two (by omega)) t2.two_le
          rw [t1, this, fromNat, if_pos hw]
        · omega
    have hv : ∀ b v : ℕ, 1 ≤ b → drawBits b 1 v = .ok 1 := by
      intro b v hb
      rw [drawBits_eq (by omega) hb]
      have := shr_lt (b := b) (bits := 1) (v := v) hb
      generalize v % 2 ^ b / 2 ^ (b - 1) = x at this ⊢
      have h2 : x = 0 ∨ x = 1 := by omega
      rcases h2 with h2 | h2 <;> rw [h2] <;> rfl
    have h64 : isPrime64 bld 1 = false := by cases bld <;> decide
    refine ⟨fun b hb => ?_, ?_, ?_⟩
    · have h1b : 1 ≤ b := by unfold PrimWidth at hb; omega
      rw [genPrimePrim, if_neg (by omega), genLoop, hv b _ h1b, Res.bind_ok, Res.bind_ok, h64]
      simp only [Bool.false_eq_true, if_false]
      rw [hn (some b) (lt_fits (by
        have := Nat.pow_le_pow_right (n := 2) (by norm_num) (show 2 ≤ b by unfold PrimWidth at hb; omega)
        omega)) none _]
      rfl
    · have ht : testMint bld src config k 1 = .ok false := by
        rw [testMint, mIsPrime]
        simp [Mint.isEven, Mint.value, Mint.toU64, h64, Res.mapR, Primality.probably]
      rw [genPrime128, if_neg (by omega), genLoop, hv 128 _ (by omega), Res.bind_ok, ht, Res.bind_ok]
      simp only [Bool.false_eq_true, if_false]
      rw [hn (some 128) (by decide) none _]
      rfl
    · have ht : testPlain bld none src config k 1 = .ok false := by
        rw [testPlain, isPrimeNew, isPrime_below bld none _ (by norm_num), h64]
        rfl
      have hm : (src.value k % 2 ^ 1) ||| 1 = 1 := by
        rcases Nat.mod_two_eq_zero_or_one (src.value k) with h2 | h2 <;> rw [pow_one, h2] <;> rfl
      rw [genPrimeBig, genLoop, hm, Res.bind_ok, ht, Res.bind_ok]
      simp only [Bool.false_eq_true, if_false]
      rw [hn none rfl config _]
      rfl

/-- **C61 (partial)** `u8`, `u16`, `u32`, `u64`: the result of `gen_prime_exact(bits)` is at least `2^(bits-1)`, and it is
below `2^bits` or at most the first prime above it; with `bits = BITS` it is below `2^bits`. Missing: `p < 2^bits` for all
draws, which is false (`C61_gen_prime_exact_exceeds`) -/
theorem C61_gen_prime_exact_prim_partial (bld : Build) (src : RandSource) (b : ℕ) (hb : PrimWidth b)
    (fuel bits k p k' : ℕ) (h : genPrimeExactPrim bld src b fuel bits k = .ok (p, k')) :
    2 ^ (bits - 1) ≤ p ∧ BitBound bits p ∧ (bits = b → p < 2 ^ bits) := by
  obtain ⟨h1, h2⟩ := not_gt_of_ok h
  obtain ⟨j, t, _, _, a3, a4, a5, a6⟩ := primLoop_contract hb (drawExact_fits h1) h2
  obtain ⟨_, c1, c2⟩ := drawExact_ok h1 a3
  obtain ⟨o1, o2⟩ := overshoot (le_trans Nat.one_le_two_pow c1) c2 a6
  exact ⟨c1.trans a4, ⟨o1, Or.inr o2⟩, fun e => e ▸ a5⟩

/-- **C61 (partial)** the result is below `2^bits` if no number the attempts start from is above the largest prime below
`2^bits` -/
theorem C61_gen_prime_exact_prim_within_partial (bld : Build) (src : RandSource) (b : ℕ) (hb : PrimWidth b)
    (fuel bits k p k' : ℕ)
    (hv : ∀ j, ∃ q, q.Prime ∧ q < 2 ^ bits ∧ (src.value j % 2 ^ b / 2 ^ (b - bits)) ||| 1 ||| 2 ^ (bits - 1) ≤ q)
    (h : genPrimeExactPrim bld src b fuel bits k = .ok (p, k')) : 2 ^ (bits - 1) ≤ p ∧ p < 2 ^ bits := by
  refine ⟨(C61_gen_prime_exact_prim_partial bld src b hb fuel bits k p k' h).1, ?_⟩
  obtain ⟨h1, h2⟩ := not_gt_of_ok h
  obtain ⟨j, t, _, _, a3, _, _, a6⟩ := primLoop_contract hb (drawExact_fits h1) h2
  obtain ⟨h0, _, _⟩ := drawExact_ok h1 a3
  rw [drawExact_eq h0 h1] at a3
  injection a3 with a3
  obtain ⟨q, q1, q2, q3⟩ := hv j
  exact lt_of_le_of_lt (a6 q q1 (a3 ▸ q3)) q2

/-- **C61 (partial)** the same for `u128` -/
theorem C61_gen_prime_exact_u128_partial (bld : Build) (src : RandSource) (hdr : ∀ k, GoodDraws (src.draws k))
    (config : Option PrimalityTestConfig) (fuel bits k p k' : ℕ)
    (h : genPrimeExact128 bld src config fuel bits k = .ok (p, k')) :
    2 ^ (bits - 1) ≤ p ∧ BitBound bits p ∧ (bits = 128 → p < 2 ^ bits) := by
  obtain ⟨h1, h2⟩ := not_gt_of_ok h
  obtain ⟨j, t, _, _, a3, a4, a5, a6⟩ := loop128_contract hdr (drawExact_fits h1) h2
  obtain ⟨_, c1, c2⟩ := drawExact_ok h1 a3
  obtain ⟨o1, o2⟩ := overshoot (le_trans Nat.one_le_two_pow c1) c2 a6
  exact ⟨c1.trans a4, ⟨o1, Or.inr o2⟩, fun e => e ▸ a5⟩

theorem bigExact_ok {bits v t : ℕ}
    (h : (csub bits 1).mapR (fun s => ((v % 2 ^ bits) ||| 1) ||| (1 <<< s)) = .ok t) :
    0 < bits ∧ 2 ^ (bits - 1) ≤ t ∧ t < 2 ^ bits := by
  rw [mapR_ok_iff] at h
  obtain ⟨s, h1, h2⟩ := h
  unfold csub at h1
  split at h1
  · rename_i h0
    injection h1 with h1
    subst h1
    rw [Nat.one_shiftLeft] at h2
    subst h2
    exact ⟨h0, Nat.right_le_or, Nat.or_lt_two_pow (or_one_lt h0 (Nat.mod_lt _ (by positivity)))
      (Nat.pow_lt_pow_right (by norm_num) (by omega))⟩
  · simp at h1

/-- **C61 (partial)** the same for `BigUint` -/
theorem C61_gen_prime_exact_big_partial (bld : Build) (src : RandSource) (hdr : ∀ k, GoodDraws (src.draws k))
    (config : Option PrimalityTestConfig) (fuel bits k p k' : ℕ)
    (h : genPrimeExactBig bld src config fuel bits k = .ok (p, k')) : 2 ^ (bits - 1) ≤ p ∧ BitBound bits p := by
  obtain ⟨j, t, _, _, a3, a4, a6⟩ := loopBig_contract hdr h
  obtain ⟨_, c1, c2⟩ := bigExact_ok a3
  obtain ⟨o1, o2⟩ := overshoot (le_trans Nat.one_le_two_pow c1) c2 a6
  exact ⟨c1.trans a4, o1, Or.inr o2⟩

/-- **C61, finding** from the draw 65535, `gen_prime_exact::<u16>(12)` returns the 13-bit prime 4099 -/
theorem C61_gen_prime_exact_exceeds (bld : Build) : ∃ src fuel, genPrimeExactPrim bld src 16 fuel 12 0 = .ok (4099, 1) :=
  ⟨constSource 65535, 5, by cases bld <;> decide +kernel⟩

example : BitBound 12 4093 ∧ ¬ BitBound 12 4111 := by
  refine ⟨⟨by norm_num, Or.inl (by norm_num)⟩, fun h => ?_⟩
  rcases h.2 with h | h
  · norm_num at h
  · have := h 4099 (by norm_num) (by norm_num)
    omega

/-! ## C62, C63: safe primes -/

theorem safe_arith {p : ℕ} (h : 2 ≤ p ∧ (p = 2 ∨ p % 2 = 1)) (h2 : 2 ≤ p >>> 1) : p % 2 = 1 ∧ p >>> 1 = (p - 1) / 2 := by
  rw [Nat.shiftRight_eq_div_pow, pow_one] at *
  omega

/-- **C62** `u8`, `u16`, `u32`, `u64`: if `gen_safe_prime` or `gen_safe_prime_exact` returns `r`, then `r` is odd and both
`r` and `(r-1)/2` are accepted by `is_prime64` -/
theorem C62_safe_prime_prim (bld : Build) (src : RandSource) (b : ℕ) (hb : PrimWidth b) (fuel bits : ℕ) : ∀ f k r k',
    genSafePrimePrim bld src b fuel bits f k = .ok (r, k') ∨ genSafePrimeExactPrim bld src b fuel bits f k = .ok (r, k') →
    r < 2 ^ b ∧ r % 2 = 1 ∧ isPrime64 bld r = true ∧ isPrime64 bld ((r - 1) / 2) = true := by
  have half : ∀ p, p < 2 ^ b ∧ isPrime64 bld p = true → isPrime64 bld (p >>> 1) = true →
      p < 2 ^ b ∧ p % 2 = 1 ∧ isPrime64 bld p = true ∧ isPrime64 bld ((p - 1) / 2) = true := by
    intro p ⟨h1, h2⟩ h3
    obtain ⟨a1, a2⟩ := safe_arith (C02_accepted_ge_two_partial bld p h2) (C02_accepted_ge_two_partial bld _ h3).1
    exact ⟨h1, a1, h2, a2 ▸ h3⟩
  intro f
  induction f with
  | zero => intro k r k' h; rcases h with h | h <;> simp [genSafePrimePrim, genSafePrimeExactPrim] at h
  | succ f ih =>
    intro k r k' h
    rcases h with h | h
    · rw [genSafePrimePrim, Res.bind_eq_ok] at h
      obtain ⟨⟨p, k1⟩, h1, h⟩ := h
      have hp := C59_gen_prime_prim bld src b hb fuel bits k p k1 (Or.inl h1)
      simp only at h
      by_cases c1 : isPrime64 bld (p >>> 1) = true
      · simp only [c1, if_true, Res.pure_def, Res.ok.injEq, Prod.mk.injEq] at h
        obtain ⟨rfl, rfl⟩ := h
        exact half p hp c1
      · simp only [c1, Bool.false_eq_true, if_false] at h
        by_cases c2 : fits (some b) (p * 2 + 1) = true ∧ isPrime64 bld (p * 2 + 1) = true
        · simp only [c2, and_self, if_true, Res.pure_def, Res.ok.injEq, Prod.mk.injEq] at h
          obtain ⟨rfl, rfl⟩ := h
          refine ⟨fits_lt c2.1, by omega, c2.2, ?_⟩
          rw [show (p * 2 + 1 - 1) / 2 = p by omega]
          exact hp.2
        · simp only [c2, if_false] at h
          exact ih _ _ _ (Or.inl h)
    · rw [genSafePrimeExactPrim, Res.bind_eq_ok] at h
      obtain ⟨⟨p, k1⟩, h1, h⟩ := h
      have hp := C59_gen_prime_prim bld src b hb fuel bits k p k1 (Or.inr h1)
      simp only at h
      by_cases c1 : isPrime64 bld (p >>> 1) = true
      · simp only [c1, if_true, Res.pure_def, Res.ok.injEq, Prod.mk.injEq] at h
        obtain ⟨rfl, rfl⟩ := h
        exact half p hp c1
      · simp only [c1, Bool.false_eq_true, if_false] at h
        exact ih _ _ _ (Or.inr h)

/-- **C62** hence a safe prime, if `is_prime64` makes no mistake (see C02) -/
theorem C62_safe_prime_prim_prime (bld : Build) (hex : NoPseudoprimes bld) (src : RandSource) (b : ℕ) (hb : PrimWidth b)
    (fuel bits f k r k' : ℕ)
    (h : genSafePrimePrim bld src b fuel bits f k = .ok (r, k') ∨
      genSafePrimeExactPrim bld src b fuel bits f k = .ok (r, k')) : r.Prime ∧ ((r - 1) / 2).Prime := by
  obtain ⟨h1, _, h3, h4⟩ := C62_safe_prime_prim bld src b hb fuel bits f k r k' h
  have : r < 2 ^ 64 := lt_of_lt_of_le h1 (Nat.pow_le_pow_right (by norm_num) hb.le)
  have hex' := (C02_is_prime64_exact_partial bld).mpr hex
  exact ⟨(hex' r this).mp h3, (hex' _ (by omega)).mp h4⟩

/-- **C62** `u8` and `u16`: every returned number is a safe prime; nothing is assumed -/
theorem C62_safe_prime_u16_prime (bld : Build) (src : RandSource) (b : ℕ) (hb : b = 8 ∨ b = 16) (fuel bits f k r k' : ℕ)
    (h : genSafePrimePrim bld src b fuel bits f k = .ok (r, k') ∨
      genSafePrimeExactPrim bld src b fuel bits f k = .ok (r, k')) : r.Prime ∧ ((r - 1) / 2).Prime := by
  obtain ⟨h1, _, h3, h4⟩ := C62_safe_prime_prim bld src b (by unfold PrimWidth; omega) fuel bits f k r k' h
  have : r < 2 ^ 16 := lt_of_lt_of_le h1 (Nat.pow_le_pow_right (by norm_num) (by omega))
  exact ⟨(C02_is_prime64_exact_u16_partial bld r this).mp h3, (C02_is_prime64_exact_u16_partial bld _ (by omega)).mp h4⟩

/-- the tests a result of the `u128` version has passed -/
def Passed128 (bld : Build) (src : RandSource) (n : ℕ) : Prop :=
  ∃ j, Accepted bld (some 128) (some .strict) (src.draws j) n ∨ Accepted bld (some 128) none (src.draws j) n

theorem Passed128.ge_two {bld : Build} {src : RandSource} {n : ℕ} (h : Passed128 bld src n) :
    2 ≤ n ∧ (n = 2 ∨ n % 2 = 1) := by
  obtain ⟨j, h | h⟩ := h <;> exact accepted_ge_two h

/-- **C62** `u128`: `r` and `(r-1)/2` are both accepted by the primality test with the strict configuration, or (numbers
found through `next_prime`) with the default configuration -/
theorem C62_safe_prime_u128 (bld : Build) (src : RandSource) (fuel bits : ℕ) : ∀ f k r k',
    genSafePrime128 bld src fuel bits f k = .ok (r, k') ∨ genSafePrimeExact128 bld src fuel bits f k = .ok (r, k') →
    r < 2 ^ 128 ∧ r % 2 = 1 ∧ Passed128 bld src r ∧ Passed128 bld src ((r - 1) / 2) := by
  have half : ∀ p k, (p < 2 ^ 128 ∧ Passed128 bld src p) → testMint bld src (some .strict) k (p >>> 1) = .ok true →
      p < 2 ^ 128 ∧ p % 2 = 1 ∧ Passed128 bld src p ∧ Passed128 bld src ((p - 1) / 2) := by
    intro p k ⟨h1, h2⟩ h3
    have hlt : p >>> 1 < 2 ^ 128 := by rw [Nat.shiftRight_eq_div_pow]; omega
    have h4 : Passed128 bld src (p >>> 1) := ⟨k, Or.inl (testMint_true (lt_fits hlt) h3)⟩
    obtain ⟨a1, a2⟩ := safe_arith h2.ge_two h4.ge_two.1
    exact ⟨h1, a1, h2, a2 ▸ h4⟩
  intro f
  induction f with
  | zero => intro k r k' h; rcases h with h | h <;> simp [genSafePrime128, genSafePrimeExact128] at h
  | succ f ih =>
    intro k r k' h
    rcases h with h | h
    · rw [genSafePrime128, Res.bind_eq_ok] at h
      obtain ⟨⟨p, k1⟩, h1, h⟩ := h
      have hp := C59_gen_prime_u128 bld src (some .strict) fuel bits k p k1 (Or.inl h1)
      simp only [Res.bind_eq_ok] at h
      obtain ⟨c, h2, h⟩ := h
      cases c
      · simp only [Bool.false_eq_true, if_false, Res.bind_eq_ok] at h
        obtain ⟨d, h3, h⟩ := h
        cases d
        · simp only [Bool.false_eq_true, if_false] at h
          exact ih _ _ _ (Or.inl h)
        · simp only [if_true, Res.pure_def, Res.ok.injEq, Prod.mk.injEq] at h
          obtain ⟨rfl, rfl⟩ := h
          by_cases hf : fits (some 128) (p * 2 + 1) = true
          · simp only [hf, if_true] at h3
            refine ⟨fits_lt hf, by omega, ⟨k1, Or.inl (testPlain_true h3)⟩, ?_⟩
            rw [show (p * 2 + 1 - 1) / 2 = p by omega]
            exact hp.2
          · simp [hf] at h3
      · simp only [if_true, Res.pure_def, Res.ok.injEq, Prod.mk.injEq] at h
        obtain ⟨rfl, rfl⟩ := h
        exact half p k1 hp h2
    · rw [genSafePrimeExact128, Res.bind_eq_ok] at h
      obtain ⟨⟨p, k1⟩, h1, h⟩ := h
      have hp := C59_gen_prime_u128 bld src (some .strict) fuel bits k p k1 (Or.inr h1)
      simp only [Res.bind_eq_ok] at h
      obtain ⟨c, h2, h⟩ := h
      cases c
      · simp only [Bool.false_eq_true, if_false] at h
        exact ih _ _ _ (Or.inr h)
      · simp only [if_true, Res.pure_def, Res.ok.injEq, Prod.mk.injEq] at h
        obtain ⟨rfl, rfl⟩ := h
        exact half p k1 hp h2

/-- **C62** `BigUint`: `r` and `(r-1)/2` are both accepted by the primality test with the strict configuration -/
theorem C62_safe_prime_big (bld : Build) (src : RandSource) (fuel bits : ℕ) : ∀ f k r k',
    genSafePrimeBig bld src fuel bits f k = .ok (r, k') ∨ genSafePrimeExactBig bld src fuel bits f k = .ok (r, k') →
    r % 2 = 1 ∧ (∃ j, Accepted bld none (some .strict) (src.draws j) r) ∧
      ∃ j, Accepted bld none (some .strict) (src.draws j) ((r - 1) / 2) := by
  have half : ∀ p k, (∃ j, Accepted bld none (some .strict) (src.draws j) p) →
      testPlain bld none src (some .strict) k (p >>> 1) = .ok true →
      p % 2 = 1 ∧ (∃ j, Accepted bld none (some .strict) (src.draws j) p) ∧
      ∃ j, Accepted bld none (some .strict) (src.draws j) ((p - 1) / 2) := by
    intro p k h2 h3
    have h4 := testPlain_true h3
    obtain ⟨j, h2⟩ := h2
    obtain ⟨a1, a2⟩ := safe_arith (accepted_ge_two h2) (accepted_ge_two h4).1
    exact ⟨a1, ⟨j, h2⟩, k, a2 ▸ h4⟩
  intro f
  induction f with
  | zero => intro k r k' h; rcases h with h | h <;> simp [genSafePrimeBig, genSafePrimeExactBig] at h
  | succ f ih =>
    intro k r k' h
    rcases h with h | h
    · rw [genSafePrimeBig, Res.bind_eq_ok] at h
      obtain ⟨⟨p, k1⟩, h1, h⟩ := h
      have hp := C59_gen_prime_big bld src (some .strict) fuel bits k p k1 (Or.inl h1)
      simp only [Res.bind_eq_ok] at h
      obtain ⟨c, h2, h⟩ := h
      cases c
      · simp only [Bool.false_eq_true, if_false, Res.bind_eq_ok] at h
        obtain ⟨d, h3, h⟩ := h
        cases d
        · simp only [Bool.false_eq_true, if_false] at h
          exact ih _ _ _ (Or.inl h)
        · simp only [if_true, Res.pure_def, Res.ok.injEq, Prod.mk.injEq] at h
          obtain ⟨rfl, rfl⟩ := h
          have e : p <<< 1 = p * 2 := by rw [Nat.shiftLeft_eq, pow_one]
          rw [e] at h3 ⊢
          refine ⟨by omega, ⟨k1, testPlain_true h3⟩, ?_⟩
          rw [show (p * 2 + 1 - 1) / 2 = p by omega]
          exact hp
      · simp only [if_true, Res.pure_def, Res.ok.injEq, Prod.mk.injEq] at h
        obtain ⟨rfl, rfl⟩ := h
        exact half p k1 hp h2
    · rw [genSafePrimeExactBig, Res.bind_eq_ok] at h
      obtain ⟨⟨p, k1⟩, h1, h⟩ := h
      have hp := C59_gen_prime_big bld src (some .strict) fuel bits k p k1 (Or.inr h1)
      simp only [Res.bind_eq_ok] at h
      obtain ⟨c, h2, h⟩ := h
      cases c
      · simp only [Bool.false_eq_true, if_false] at h
        exact ih _ _ _ (Or.inr h)
      · simp only [if_true, Res.pure_def, Res.ok.injEq, Prod.mk.injEq] at h
        obtain ⟨rfl, rfl⟩ := h
        exact half p k1 hp h2

/-- **C63 (partial)** `u8`, `u16`, `u32`, `u64`: a result of `gen_safe_prime(bits)` has at most two bits too many; a result
of `gen_safe_prime_exact(bits)` has at least `bits` bits and at most one too many. Missing: `r < 2^bits`, which is false
(`C63_gen_safe_prime_exceeds`). -/
theorem C63_safe_prime_prim_partial (bld : Build) (src : RandSource) (b : ℕ) (hb : PrimWidth b) (fuel bits : ℕ) :
    ∀ f k r k',
    (genSafePrimePrim bld src b fuel bits f k = .ok (r, k') → r < 2 ^ (bits + 2) ∧ (bits = b → r < 2 ^ bits)) ∧
    (genSafePrimeExactPrim bld src b fuel bits f k = .ok (r, k') →
      2 ^ (bits - 1) ≤ r ∧ BitBound bits r ∧ (bits = b → r < 2 ^ bits)) := by
  intro f
  induction f with
  | zero => intro k r k'; constructor <;> intro h <;> simp [genSafePrimePrim, genSafePrimeExactPrim] at h
  | succ f ih =>
    intro k r k'
    constructor
    · intro h
      refine ⟨?_, fun e => e ▸ (C62_safe_prime_prim bld src b hb fuel bits (f + 1) k r k' (Or.inl h)).1⟩
      rw [genSafePrimePrim, Res.bind_eq_ok] at h
      obtain ⟨⟨p, k1⟩, h1, h⟩ := h
      have hp := (C60_gen_prime_prim_partial bld src b hb fuel bits k p k1 h1).1.1
      have e : 2 ^ (bits + 2) = 2 ^ (bits + 1) * 2 := pow_succ _ _
      simp only at h
      split at h
      · simp only [Res.pure_def, Res.ok.injEq, Prod.mk.injEq] at h
        omega
      · split at h
        · simp only [Res.pure_def, Res.ok.injEq, Prod.mk.injEq] at h
          omega
        · exact ((ih _ _ _).1 h).1
    · intro h
      rw [genSafePrimeExactPrim, Res.bind_eq_ok] at h
      obtain ⟨⟨p, k1⟩, h1, h⟩ := h
      have hp := C61_gen_prime_exact_prim_partial bld src b hb fuel bits k p k1 h1
      simp only at h
      split at h
      · simp only [Res.pure_def, Res.ok.injEq, Prod.mk.injEq] at h
        obtain ⟨rfl, rfl⟩ := h
        exact hp
      · exact (ih _ _ _).2 h

/-- **C63 (partial)** the same for `u128` -/
theorem C63_safe_prime_u128_partial (bld : Build) (src : RandSource) (hdr : ∀ k, GoodDraws (src.draws k))
    (fuel bits : ℕ) : ∀ f k r k',
    (genSafePrime128 bld src fuel bits f k = .ok (r, k') → r < 2 ^ (bits + 2)) ∧
    (genSafePrimeExact128 bld src fuel bits f k = .ok (r, k') → 2 ^ (bits - 1) ≤ r ∧ BitBound bits r) := by
  intro f
  induction f with
  | zero => intro k r k'; constructor <;> intro h <;> simp [genSafePrime128, genSafePrimeExact128] at h
  | succ f ih =>
    intro k r k'
    constructor
    · intro h
      rw [genSafePrime128, Res.bind_eq_ok] at h
      obtain ⟨⟨p, k1⟩, h1, h⟩ := h
      have hp := (C60_gen_prime_u128_partial bld src hdr _ fuel bits k p k1 h1).1.1
      have e : 2 ^ (bits + 2) = 2 ^ (bits + 1) * 2 := pow_succ _ _
      simp only [Res.bind_eq_ok] at h
      obtain ⟨c, _, h⟩ := h
      cases c
      · simp only [Bool.false_eq_true, if_false, Res.bind_eq_ok] at h
        obtain ⟨d, _, h⟩ := h
        cases d
        · simp only [Bool.false_eq_true, if_false] at h
          exact (ih _ _ _).1 h
        · simp only [if_true, Res.pure_def, Res.ok.injEq, Prod.mk.injEq] at h
          omega
      · simp only [if_true, Res.pure_def, Res.ok.injEq, Prod.mk.injEq] at h
        omega
    · intro h
      rw [genSafePrimeExact128, Res.bind_eq_ok] at h
      obtain ⟨⟨p, k1⟩, h1, h⟩ := h
      have hp := C61_gen_prime_exact_u128_partial bld src hdr _ fuel bits k p k1 h1
      simp only [Res.bind_eq_ok] at h
      obtain ⟨c, _, h⟩ := h
      cases c
      · simp only [Bool.false_eq_true, if_false] at h
        exact (ih _ _ _).2 h
      · simp only [if_true, Res.pure_def, Res.ok.injEq, Prod.mk.injEq] at h
        obtain ⟨rfl, rfl⟩ := h
        exact ⟨hp.1, hp.2.1⟩

/-- **C63 (partial)** the same for `BigUint` -/
theorem C63_safe_prime_big_partial (bld : Build) (src : RandSource) (hdr : ∀ k, GoodDraws (src.draws k))
    (fuel bits : ℕ) (h0 : 0 < bits) : ∀ f k r k',
    (genSafePrimeBig bld src fuel bits f k = .ok (r, k') → r < 2 ^ (bits + 2)) ∧
    (genSafePrimeExactBig bld src fuel bits f k = .ok (r, k') → 2 ^ (bits - 1) ≤ r ∧ BitBound bits r) := by
  intro f
  induction f with
  | zero => intro k r k'; constructor <;> intro h <;> simp [genSafePrimeBig, genSafePrimeExactBig] at h
  | succ f ih =>
    intro k r k'
    constructor
    · intro h
      rw [genSafePrimeBig, Res.bind_eq_ok] at h
      obtain ⟨⟨p, k1⟩, h1, h⟩ := h
      have hp := (C60_gen_prime_big_partial bld src hdr _ fuel bits k p k1 h0 h1).1
      have e : 2 ^ (bits + 2) = 2 ^ (bits + 1) * 2 := pow_succ _ _
      have e2 : p <<< 1 = p * 2 := by rw [Nat.shiftLeft_eq, pow_one]
      simp only [Res.bind_eq_ok] at h
      obtain ⟨c, _, h⟩ := h
      cases c
      · simp only [Bool.false_eq_true, if_false, Res.bind_eq_ok] at h
        obtain ⟨d, _, h⟩ := h
        cases d
        · simp only [Bool.false_eq_true, if_false] at h
          exact (ih _ _ _).1 h
        · simp only [if_true, Res.pure_def, Res.ok.injEq, Prod.mk.injEq] at h
          omega
      · simp only [if_true, Res.pure_def, Res.ok.injEq, Prod.mk.injEq] at h
        omega
    · intro h
      rw [genSafePrimeExactBig, Res.bind_eq_ok] at h
      obtain ⟨⟨p, k1⟩, h1, h⟩ := h
      have hp := C61_gen_prime_exact_big_partial bld src hdr _ fuel bits k p k1 h1
      simp only [Res.bind_eq_ok] at h
      obtain ⟨c, _, h⟩ := h
      cases c
      · simp only [Bool.false_eq_true, if_false] at h
        exact (ih _ _ _).2 h
      · simp only [if_true, Res.pure_def, Res.ok.injEq, Prod.mk.injEq] at h
        obtain ⟨rfl, rfl⟩ := h
        exact hp

/-- **C63, finding** the bit size limit is not respected: from the draw 131·2^8, `gen_safe_prime::<u16>(8)` returns
263 ≥ 2^8, and `gen_safe_prime(1)` returns 5 for every draw -/
theorem C63_gen_safe_prime_exceeds (bld : Build) :
    (∃ src fuel, genSafePrimePrim bld src 16 fuel 8 1 0 = .ok (263, 1)) ∧
    ∀ (src : RandSource) (b fuel f k : ℕ), PrimWidth b → genSafePrimePrim bld src b (fuel + 1) 1 (f + 1) k = .ok (5, k + 1) := by
  constructor
  · exact ⟨constSource (131 * 256), 5, by cases bld <;> decide +kernel⟩
  · intro src b fuel f k hb
    rw [genSafePrimePrim, ((C60_gen_prime_exceeds bld).2 src none fuel k).1 b hb, Res.bind_ok]
    have h1 : isPrime64 bld (2 >>> 1) = false := by cases bld <;> decide
    have h2 : fits (some b) (2 * 2 + 1) = true ∧ isPrime64 bld (2 * 2 + 1) = true := by
      refine ⟨lt_fits ?_, by cases bld <;> decide +kernel⟩
      have := Nat.pow_le_pow_right (n := 2) (by norm_num) (show 3 ≤ b by unfold PrimWidth at hb; omega)
      omega
    simp only [h1, h2, and_self, Bool.false_eq_true, if_false, if_true]
    rfl

/-- **C62, finding** `gen_safe_prime_exact(1)` never returns (the only candidate is 2), for the types up to 64 bits -/
theorem C62_safe_prime_exact_diverges (bld : Build) (src : RandSource) (b fuel : ℕ) (hb : PrimWidth b) : ∀ f k,
    genSafePrimeExactPrim bld src b (fuel + 1) 1 f k = .timeout
  | 0, k => rfl
  | f + 1, k => by
    have hx : genPrimeExactPrim bld src b (fuel + 1) 1 k = .ok (2, k + 1) := by
      have := ((C60_gen_prime_exceeds bld).2 src none fuel k).1 b hb
      have hd : ∀ v, drawExact b 1 v = drawBits b 1 v := by
        intro v
        have h1b : 1 ≤ b := by unfold PrimWidth at hb; omega
        rw [drawBits_eq (by omega) h1b, drawExact_eq (by omega) h1b, pow_zero, Nat.or_assoc, Nat.or_self]
      rw [genPrimeExactPrim]
      simp only [hd]
      exact this
    have h1 : isPrime64 bld (2 >>> 1) = false := by cases bld <;> decide
    rw [genSafePrimeExactPrim, hx, Res.bind_ok]
    simp only [h1, Bool.false_eq_true, if_false]
    exact C62_safe_prime_exact_diverges bld src b fuel hb f (k + 1)

example : genSafePrimePrim .big (constSource 83) 64 5 64 4 0 = .ok (83, 1) := by decide +kernel
example : genSafePrimeExactPrim .big (constSource 60000) 16 5 9 4 0 = .ok (479, 1) := by decide +kernel
example : genSafePrimePrim .big (constSource 11400) 16 5 10 4 0 = .ok (179, 1) := by decide +kernel

-- numbers of more than 64 bits; the last one needs 13 attempts
example : genPrimeBig .big ⟨fun _ => 2 ^ 69 + 12345, fun _ _ => [5, 7, 11]⟩ none 50 70 0 = .ok (590295810358705664123, 1) := by
  decide +kernel
example : genSafePrime128 .big ⟨fun k => 2 ^ 69 + 12345 + 98 * k, fun _ _ => [5, 7, 11]⟩ 50 128 20 0 =
    .ok (1180591620717411330563, 13) := by decide +kernel

end NumPrime
