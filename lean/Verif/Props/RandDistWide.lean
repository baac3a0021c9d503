import Verif.Props.RandDist
import Verif.Props.Widen

/-! # C94 for `u128` and `BigUint`: which random words lead to which prime, up to 64 bits -/

namespace NumPrime
open Spec Tables

/-- below `2^64` the test of a wrapped odd number is `is_prime64` -/
theorem testMint_below (bld : Build) (src : RandSource) (config : Option PrimalityTestConfig) (k t : ℕ) (ho : t % 2 = 1) (h64 : t < 2 ^ 64) :
    testMint bld src config k t = .ok (isPrime64 bld t) := by
  have h1 : (Mint.left t).isEven = false := by simp [Mint.isEven, Mint.value, ho]
  have h2 : (Mint.left t).toU64 = some t := by rw [Mint.toU64, Mint.value, if_pos h64]
  simp only [testMint, mIsPrime, h1, h2, Bool.false_eq_true, if_false, Res.pure_def]
  cases isPrime64 bld t <;> rfl

theorem testPlain_below (bld : Build) (w : Width) (src : RandSource) (config : Option PrimalityTestConfig) (k t : ℕ) (h64 : t < 2 ^ 64) :
    testPlain bld w src config k t = .ok (isPrime64 bld t) := by
  rw [testPlain, isPrimeNew, isPrime_below bld w _ h64]
  cases isPrime64 bld t <;> rfl

/-- the loop of the generators of the wide types, if the number drawn first is `t` and the first prime from `t` is below `2^b` -/
theorem genLoop_first_wide {bld : Build} {b : ℕ} (hb : PrimWidth b) (hN : TestExactBelow bld (2 ^ b)) {w : Width} (hw : Wider (some b) w)
    {config : Option PrimalityTestConfig} {draws : ℕ → List ℕ} {mk : ℕ → Res ℕ} {test : ℕ → ℕ → Res Bool} {next : ℕ → ℕ → ℕ → Res (Option ℕ)}
    {k t p : ℕ} (hmk : mk k = .ok t) (htest : test k t = .ok (isPrime64 bld t))
    (hnext : ∀ fuel, next fuel k t = nextPrime bld w t config draws fuel) (hp : IsFirstPrime t p) (hpb : p < 2 ^ b)
    (hbad : ¬ NextPanics bld t) : ∃ F, ∀ fuel, F ≤ fuel → genLoop mk test (next fuel) fuel k = .ok (p, k + 1) := by
  by_cases hne : t = p
  · refine ⟨1, fun fuel hf => ?_⟩
    obtain ⟨f, rfl⟩ : ∃ f, fuel = f + 1 := ⟨fuel - 1, by omega⟩
    subst hne
    have := isPrime64_prime bld hp.1.1
    simp only [genLoop, hmk, Res.bind_ok, htest, this, if_true]
    rfl
  · obtain ⟨F, hF⟩ := nextPrime_first (config := config) hb hN hp hne hpb hbad draws
    refine ⟨F + 1, fun fuel hf => ?_⟩
    have hlt : t < p := lt_of_le_of_ne hp.1.2 hne
    have hn := (C110_next_prev_prime bld (some b) w hw hb.std t (lt_fits (hlt.trans hpb)) config draws fuel).2 p (hF fuel (by omega))
    have hnp : isPrime64 bld t = false := by
      by_contra h
      have hprime := hN.2 t (by omega) (by simpa using h)
      exact hne (le_antisymm hp.1.2 (hp.2 ⟨hprime, le_rfl⟩))
    obtain ⟨f, rfl⟩ : ∃ f, fuel = f + 1 := ⟨fuel - 1, by omega⟩
    simp only [genLoop, hmk, Res.bind_ok, htest, hnp, Bool.false_eq_true, if_false, hnext, hn]
    rfl

/-- and conversely: a prime below `2^b` returned after one draw is the first prime from the number drawn -/
theorem genLoop_first_conv {bld : Build} {b : ℕ} (hb : PrimWidth b) (hN : TestExactBelow bld (2 ^ b)) {w : Width} (hw : Wider (some b) w)
    {config : Option PrimalityTestConfig} {draws : ℕ → List ℕ} {mk : ℕ → Res ℕ} {test : ℕ → ℕ → Res Bool} {next : ℕ → ℕ → ℕ → Res (Option ℕ)}
    {k t p F : ℕ} (hmk : mk k = .ok t) (htest : test k t = .ok (isPrime64 bld t))
    (hnext : ∀ fuel, next fuel k t = nextPrime bld w t config draws fuel) (hp : p.Prime) (hpb : p < 2 ^ b)
    (h : ∀ fuel, F ≤ fuel → genLoop mk test (next fuel) fuel k = .ok (p, k + 1)) : IsFirstPrime t p := by
  have hstep : ∀ fuel, F ≤ fuel → (isPrime64 bld t = true ∧ p = t ∨ isPrime64 bld t = false ∧ nextPrime bld w t config draws fuel = .ok (some p)) := by
    intro fuel hf
    obtain ⟨j, s, h1, h2, h3, h4⟩ := genLoop_spec _ _ _ _ (h fuel hf)
    obtain rfl : j = k := by omega
    rw [hmk] at h3
    injection h3 with h3
    subst h3
    rw [htest, hnext] at h4
    rcases h4 with ⟨h4, h5⟩ | ⟨h4, h5⟩
    · injection h4 with h4
      exact Or.inl ⟨h4, h5⟩
    · injection h4 with h4
      exact Or.inr ⟨h4, h5⟩
  have hle : t ≤ p := by
    rcases hstep F le_rfl with ⟨-, h1⟩ | ⟨-, h1⟩
    · exact h1.ge
    · exact (nextPrime_accepted bld w t config draws F p h1).1
  by_cases hbad : NextPanics bld t
  · obtain ⟨c1, c2, c3⟩ := hbad
    subst c1
    rcases hstep F le_rfl with ⟨h1, h2⟩ | ⟨-, h1⟩
    · rw [← h2]
      exact ⟨⟨hp, le_rfl⟩, fun q hq => hq.2⟩
    · rw [C21_next_prime_panics w t c2 c3] at h1
      simp at h1
  · obtain ⟨p', hp'⟩ : ∃ p', IsFirstPrime t p' := by
      classical
      have hex : ∃ q, q.Prime ∧ t ≤ q := ⟨p, hp, hle⟩
      exact ⟨Nat.find hex, Nat.find_spec hex, fun q hq => Nat.find_min' hex hq⟩
    have hle' : p' ≤ p := hp'.2 ⟨hp, hle⟩
    obtain ⟨F', hF'⟩ := genLoop_first_wide hb hN hw hmk htest hnext hp' (lt_of_le_of_lt hle' hpb) hbad
    have e := (h (max F F') (le_max_left _ _)).symm.trans (hF' (max F F') (le_max_right _ _))
    injection e with e
    injection e with e1 e2
    rwa [e1]

theorem lead_lt {B bits v : ℕ} (h0 : 0 < bits) (hB : bits ≤ B) : (v % 2 ^ B / 2 ^ (B - bits)) ||| 1 < 2 ^ bits := by
  refine Nat.or_lt_two_pow ?_ (Nat.one_lt_two_pow (by omega))
  rw [Nat.div_lt_iff_lt_mul (Nat.two_pow_pos _), ← pow_add, Nat.add_sub_cancel' hB]
  exact Nat.mod_lt _ (Nat.two_pow_pos _)

theorem lead_exact_lt {B bits v : ℕ} (h0 : 0 < bits) (hB : bits ≤ B) : (v % 2 ^ B / 2 ^ (B - bits)) ||| 1 ||| 2 ^ (bits - 1) < 2 ^ bits :=
  Nat.or_lt_two_pow (lead_lt h0 hB) (Nat.pow_lt_pow_right (by norm_num) (by omega))

theorem lead_odd (v : ℕ) : (v ||| 1) % 2 = 1 := by rw [or_one_eq]; omega

theorem lead_exact_odd (v h : ℕ) : (v ||| 1 ||| h) % 2 = 1 := by
  rw [Nat.or_assoc, Nat.or_comm 1 h, ← Nat.or_assoc]; exact lead_odd _

theorem pos_of_lt {bits p : ℕ} (h3 : 3 < p) (hlt : p < 2 ^ bits) : 0 < bits := by
  rcases Nat.eq_zero_or_pos bits with rfl | h
  · simp at hlt; omega
  · exact h

/-- what a generator of a wide type yields from the word `v`, if it starts at `t` -/
theorem yields_wide {bld : Build} {b : ℕ} (hb : PrimWidth b) (hN : TestExactBelow bld (2 ^ b)) {w : Width} (hw : Wider (some b) w)
    {config : Option PrimalityTestConfig} {mk : RandSource → ℕ → Res ℕ} {test : RandSource → ℕ → ℕ → Res Bool} {v t p q : ℕ}
    (hmk : ∀ src k, src.value k = v → mk src k = .ok t) (htest : ∀ src k, test src k t = .ok (isPrime64 bld t))
    (hp : p.Prime) (hpb : p < 2 ^ b) (hq : IsPrevPrime p q) (hbad : ¬ (bld = .small ∧ p = 257)) :
    Yields (fun src fuel k => genLoop (mk src) (test src) (fun k t => nextPrime bld w t config (src.draws k) fuel) fuel k) v p ↔
      q < t ∧ t ≤ p := by
  rw [← isFirstPrime_iff hp hq]
  constructor
  · intro h
    obtain ⟨F, hF⟩ := h ⟨fun _ => v, fun _ _ => []⟩ 0 rfl
    exact genLoop_first_conv (next := fun fuel k t => nextPrime bld w t config (fun _ => []) fuel) hb hN hw
      (hmk ⟨fun _ => v, fun _ _ => []⟩ 0 rfl) (htest _ 0) (fun _ => rfl) hp hpb hF
  · intro h src k hv
    exact genLoop_first_wide (next := fun fuel k t => nextPrime bld w t config (src.draws k) fuel) hb hN hw (hmk src k hv)
      (htest src k) (fun _ => rfl) h hpb (not_nextPanics h hbad)

open scoped Classical in
/-- **C94** `gen_prime(bits)` of `u128` with up to 64 bits: a prime `p > 3` below `2^bits` is returned for exactly
`(p - q) * 2^(128 - bits)` of the `2^128` random words, `q` the prime before `p`. The configuration makes no difference. -/
theorem C94_gen_prime_words_u128 (bld : Build) (b : ℕ) (hb : PrimWidth b) (hN : TestExactBelow bld (2 ^ b))
    (config : Option PrimalityTestConfig) (bits p q : ℕ) (hbits : bits ≤ b) (hp : p.Prime) (h3 : 3 < p) (hlt : p < 2 ^ bits)
    (hq : IsPrevPrime p q) (hbad : ¬ (bld = .small ∧ p = 257)) :
    {v ∈ Finset.range (2 ^ 128) | Yields (fun src fuel k => genPrime128 bld src config fuel bits k) v p}.card =
      (p - q) * 2 ^ (128 - bits) := by
  have h64 : b ≤ 64 := hb.le
  have h0 := pos_of_lt h3 hlt
  have hgt : ¬ bits > 128 := by omega
  refine card_leading (by omega) hp h3 hlt hq (fun v hv => ?_)
  simp only [genPrime128, hgt, if_false]
  refine yields_wide (mk := fun src k => drawBits 128 bits (src.value k)) (test := fun src => testMint bld src config) hb hN (w := some 128)
    (Or.inr ⟨b, 128, rfl, rfl, by omega⟩) (fun src k h => ?_) (fun src k => ?_) hp (lt_of_lt_of_le hlt (Nat.pow_le_pow_right (by norm_num) hbits)) hq hbad
  · rw [h]; exact drawBits_eq h0 (by omega) _
  · exact testMint_below bld src config k _ (lead_odd _)
      (lt_of_lt_of_le (lead_lt h0 (by omega)) (Nat.pow_le_pow_right (by norm_num) (by omega)))

open scoped Classical in
/-- **C94** the same for `gen_prime_exact` of `u128` -/
theorem C94_gen_prime_exact_words_u128 (bld : Build) (b : ℕ) (hb : PrimWidth b) (hN : TestExactBelow bld (2 ^ b))
    (config : Option PrimalityTestConfig) (bits p q : ℕ) (hbits : bits ≤ b) (hp : p.Prime) (h3 : 3 < p) (hlt : p < 2 ^ bits)
    (hq : IsPrevPrime p q) (hbad : ¬ (bld = .small ∧ p = 257)) :
    {v ∈ Finset.range (2 ^ 128) | Yields (fun src fuel k => genPrimeExact128 bld src config fuel bits k) v p}.card =
      2 * (p - max q (2 ^ (bits - 1) - 1)) * 2 ^ (128 - bits) := by
  have h64 : b ≤ 64 := hb.le
  have h0 := pos_of_lt h3 hlt
  have hgt : ¬ bits > 128 := by omega
  refine card_leading_exact (by omega) hp h3 hlt hq (fun v hv => ?_)
  simp only [genPrimeExact128, hgt, if_false]
  refine yields_wide (mk := fun src k => drawExact 128 bits (src.value k)) (test := fun src => testMint bld src config) hb hN (w := some 128)
    (Or.inr ⟨b, 128, rfl, rfl, by omega⟩) (fun src k h => ?_) (fun src k => ?_) hp (lt_of_lt_of_le hlt (Nat.pow_le_pow_right (by norm_num) hbits)) hq hbad
  · rw [h]; exact drawExact_eq h0 (by omega) _
  · exact testMint_below bld src config k _ (lead_exact_odd _ _)
      (lt_of_lt_of_le (lead_exact_lt h0 (by omega)) (Nat.pow_le_pow_right (by norm_num) (by omega)))

open scoped Classical in
/-- **C94** `gen_prime(bits)` of `BigUint` with up to 64 bits: a prime `p > 3` below `2^bits` is returned for exactly `p - q` of the
`2^bits` numbers that can be drawn -/
theorem C94_gen_prime_words_big (bld : Build) (b : ℕ) (hb : PrimWidth b) (hN : TestExactBelow bld (2 ^ b))
    (config : Option PrimalityTestConfig) (bits p q : ℕ) (hbits : bits ≤ b) (hp : p.Prime) (h3 : 3 < p) (hlt : p < 2 ^ bits)
    (hq : IsPrevPrime p q) (hbad : ¬ (bld = .small ∧ p = 257)) :
    {v ∈ Finset.range (2 ^ bits) | Yields (fun src fuel k => genPrimeBig bld src config fuel bits k) v p}.card = p - q := by
  have h64 : b ≤ 64 := hb.le
  have h0 := pos_of_lt h3 hlt
  have hc := card_leading (b := bits) (Y := fun v => Yields (fun src fuel k => genPrimeBig bld src config fuel bits k) v p) le_rfl hp h3
    hlt hq (fun v hv => ?_)
  · simpa using hc
  have ht : (v % 2 ^ bits / 2 ^ (bits - bits)) ||| 1 = (v % 2 ^ bits) ||| 1 := by simp
  have hl := lead_lt (v := v) h0 le_rfl
  simp only [genPrimeBig]
  rw [ht] at hl ⊢
  refine yields_wide (mk := fun src k => .ok ((src.value k % 2 ^ bits) ||| 1)) (test := fun src => testPlain bld none src config) hb hN
    (w := none) (Or.inl rfl) (fun src k h => ?_) (fun src k => ?_) hp (lt_of_lt_of_le hlt (Nat.pow_le_pow_right (by norm_num) hbits)) hq hbad
  · rw [h]
  · exact testPlain_below bld none src config k _ (lt_of_lt_of_le hl (Nat.pow_le_pow_right (by norm_num) (by omega)))

open scoped Classical in
/-- **C94** the same for `gen_prime_exact` of `BigUint` -/
theorem C94_gen_prime_exact_words_big (bld : Build) (b : ℕ) (hb : PrimWidth b) (hN : TestExactBelow bld (2 ^ b))
    (config : Option PrimalityTestConfig) (bits p q : ℕ) (hbits : bits ≤ b) (hp : p.Prime) (h3 : 3 < p) (hlt : p < 2 ^ bits)
    (hq : IsPrevPrime p q) (hbad : ¬ (bld = .small ∧ p = 257)) :
    {v ∈ Finset.range (2 ^ bits) | Yields (fun src fuel k => genPrimeExactBig bld src config fuel bits k) v p}.card =
      2 * (p - max q (2 ^ (bits - 1) - 1)) := by
  have h64 : b ≤ 64 := hb.le
  have h0 := pos_of_lt h3 hlt
  have hc := card_leading_exact (b := bits) (Y := fun v => Yields (fun src fuel k => genPrimeExactBig bld src config fuel bits k) v p)
    le_rfl hp h3 hlt hq (fun v hv => ?_)
  · simpa using hc
  have ht : (v % 2 ^ bits / 2 ^ (bits - bits)) ||| 1 ||| 2 ^ (bits - 1) = (v % 2 ^ bits) ||| 1 ||| 2 ^ (bits - 1) := by simp
  have hl := lead_exact_lt (v := v) h0 le_rfl
  simp only [genPrimeExactBig]
  rw [ht] at hl ⊢
  refine yields_wide (mk := fun src k => (csub bits 1).mapR (fun s => ((src.value k % 2 ^ bits) ||| 1) ||| (1 <<< s)))
    (test := fun src => testPlain bld none src config) hb hN
    (w := none) (Or.inl rfl) (fun src k h => ?_) (fun src k => ?_) hp (lt_of_lt_of_le hlt (Nat.pow_le_pow_right (by norm_num) hbits)) hq hbad
  · rw [h, csub, if_pos (by omega), Res.mapR_ok, Nat.one_shiftLeft]
  · exact testPlain_below bld none src config k _ (lt_of_lt_of_le hl (Nat.pow_le_pow_right (by norm_num) (by omega)))

/-! ### concrete cases -/

open scoped Classical in
/-- of the 128 numbers below `2^7` a `BigUint` generator makes `127` from 14 and `113` from 4; of the words of the `u128` generator
`14 * 2^121` lead to `127` -/
example (bld : Build) (config : Option PrimalityTestConfig) :
    {v ∈ Finset.range (2 ^ 7) | Yields (fun src fuel k => genPrimeBig bld src config fuel 7 k) v 127}.card = 14 ∧
    {v ∈ Finset.range (2 ^ 7) | Yields (fun src fuel k => genPrimeBig bld src config fuel 7 k) v 113}.card = 4 ∧
    {v ∈ Finset.range (2 ^ 128) | Yields (fun src fuel k => genPrime128 bld src config fuel 7 k) v 127}.card = 14 * 2 ^ 121 :=
  ⟨C94_gen_prime_words_big bld 16 (Or.inr (Or.inl rfl)) (testExact_u16 bld) config 7 127 113 (by norm_num) (by norm_num) (by norm_num)
      (by norm_num) prev_127_113 (by norm_num),
    C94_gen_prime_words_big bld 16 (Or.inr (Or.inl rfl)) (testExact_u16 bld) config 7 113 109 (by norm_num) (by norm_num) (by norm_num)
      (by norm_num) prev_113_109 (by norm_num),
    C94_gen_prime_words_u128 bld 16 (Or.inr (Or.inl rfl)) (testExact_u16 bld) config 7 127 113 (by norm_num) (by norm_num) (by norm_num)
      (by norm_num) prev_127_113 (by norm_num)⟩

open scoped Classical in
/-- with the leading bit set: `127` from 28 of the 128 numbers, and `67` from 8, as `61 < 64` -/
example (bld : Build) (config : Option PrimalityTestConfig) :
    {v ∈ Finset.range (2 ^ 7) | Yields (fun src fuel k => genPrimeExactBig bld src config fuel 7 k) v 127}.card = 28 ∧
    {v ∈ Finset.range (2 ^ 7) | Yields (fun src fuel k => genPrimeExactBig bld src config fuel 7 k) v 67}.card = 8 ∧
    {v ∈ Finset.range (2 ^ 128) | Yields (fun src fuel k => genPrimeExact128 bld src config fuel 7 k) v 127}.card = 28 * 2 ^ 121 := by
  have h67 : IsPrevPrime 67 61 := by
    refine ⟨⟨by norm_num, by norm_num⟩, fun q hq => ?_⟩
    by_contra hc
    have h1 : 62 ≤ q := by omega
    have h2 : q ≤ 66 := by have := hq.2; omega
    interval_cases q <;> exact absurd hq.1 (by norm_num)
  exact ⟨C94_gen_prime_exact_words_big bld 16 (Or.inr (Or.inl rfl)) (testExact_u16 bld) config 7 127 113 (by norm_num) (by norm_num)
      (by norm_num) (by norm_num) prev_127_113 (by norm_num),
    C94_gen_prime_exact_words_big bld 16 (Or.inr (Or.inl rfl)) (testExact_u16 bld) config 7 67 61 (by norm_num) (by norm_num)
      (by norm_num) (by norm_num) h67 (by norm_num),
    C94_gen_prime_exact_words_u128 bld 16 (Or.inr (Or.inl rfl)) (testExact_u16 bld) config 7 127 113 (by norm_num) (by norm_num)
      (by norm_num) (by norm_num) prev_127_113 (by norm_num)⟩

end NumPrime
