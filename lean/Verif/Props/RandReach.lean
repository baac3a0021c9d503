import Verif.Props.RandDist

/-! # C109: every prime of the bit size is a possible result of the random generators -/

namespace NumPrime

theorem or_one_of_odd {p : ℕ} (h : p % 2 = 1) : p ||| 1 = p := by
  apply Nat.eq_of_testBit_eq
  intro i
  rw [Nat.testBit_or]
  cases i with
  | zero => simp [Nat.testBit_zero, h]
  | succ i => simp [Nat.testBit_succ]

theorem or_top {p s : ℕ} (h1 : 2 ^ s ≤ p) (h2 : p < 2 ^ (s + 1)) : p ||| 2 ^ s = p := by
  apply Nat.eq_of_testBit_eq
  intro i
  rw [Nat.testBit_or, Nat.testBit_two_pow]
  by_cases hi : s = i
  · subst hi
    rw [Nat.testBit_eq_decide_div_mod_eq]
    have : p / 2 ^ s = 1 := by
      apply Nat.div_eq_of_lt_le
      · omega
      · rw [pow_succ] at h2; omega
    simp [this]
  · simp [hi]

theorem draw_value {b bits p : ℕ} (hbits : bits ≤ b) (hp : p < 2 ^ bits) : p * 2 ^ (b - bits) % 2 ^ b / 2 ^ (b - bits) = p := by
  rw [Nat.mod_eq_of_lt, Nat.mul_div_cancel _ (by positivity)]
  calc p * 2 ^ (b - bits) < 2 ^ bits * 2 ^ (b - bits) := Nat.mul_lt_mul_of_pos_right hp (by positivity)
    _ = 2 ^ b := by rw [← pow_add]; congr 1; omega

theorem bits_pos {bits p : ℕ} (h2 : 2 < p) (hp : p < 2 ^ bits) : 0 < bits := by
  rcases Nat.eq_zero_or_pos bits with h | h
  · subst h; omega
  · exact h

theorem drawBits_value {b bits p : ℕ} (hbits : bits ≤ b) (h2 : 2 < p) (hodd : p % 2 = 1) (hp : p < 2 ^ bits) :
    drawBits b bits (p * 2 ^ (b - bits)) = .ok p := by
  rw [drawBits_eq (bits_pos h2 hp) hbits, draw_value hbits hp, or_one_of_odd hodd]

theorem drawExact_value {b bits p : ℕ} (hbits : bits ≤ b) (h2 : 2 < p) (hodd : p % 2 = 1) (hp : p < 2 ^ bits)
    (htop : 2 ^ (bits - 1) ≤ p) : drawExact b bits (p * 2 ^ (b - bits)) = .ok p := by
  have h0 := bits_pos h2 hp
  rw [drawExact_eq h0 hbits, draw_value hbits hp, or_one_of_odd hodd, or_top htop (by rwa [Nat.sub_add_cancel h0])]

theorem odd_of_prime {p : ℕ} (hp : p.Prime) (h2 : 2 < p) : p % 2 = 1 := hp.eq_two_or_odd.resolve_left (by omega)

theorem primWidth_lt {b p : ℕ} (hb : PrimWidth b) (h : p < 2 ^ b) : p < 2 ^ 64 :=
  lt_of_lt_of_le h (Nat.pow_le_pow_right (by norm_num) (by unfold PrimWidth at hb; omega))

/-- **C109** `u8` to `u64`: for every prime `p > 2` below `2^bits`, `gen_prime(bits)` returns `p` if the leading bits of the random word
are those of `p`; so does `gen_prime_exact(bits)` if `p` has exactly `bits` bits -/
theorem C109_gen_prime_prim (bld : Build) (b : ℕ) (hb : PrimWidth b) (bits p : ℕ) (hbits : bits ≤ b) (hp : p.Prime) (h2 : 2 < p)
    (hlt : p < 2 ^ bits) (src : RandSource) (fuel k : ℕ) (hs : src.value k = p * 2 ^ (b - bits)) :
    genPrimePrim bld src b (fuel + 1) bits k = .ok (p, k + 1) ∧
      (2 ^ (bits - 1) ≤ p → genPrimeExactPrim bld src b (fuel + 1) bits k = .ok (p, k + 1)) := by
  have hodd := odd_of_prime hp h2
  have hacc := C01_is_prime64_prime bld p hp
    (primWidth_lt hb (lt_of_lt_of_le hlt (Nat.pow_le_pow_right (by norm_num) hbits)))
  constructor
  · unfold genPrimePrim
    rw [if_neg (by omega)]
    simp only [genLoop, hs, drawBits_value hbits h2 hodd hlt, Res.bind_ok, hacc]
    rfl
  · intro htop
    unfold genPrimeExactPrim
    rw [if_neg (by omega)]
    simp only [genLoop, hs, drawExact_value hbits h2 hodd hlt htop, Res.bind_ok, hacc]
    rfl

/-- **C109** `u8` to `u64`: every safe prime below `2^bits` is a possible result of `gen_safe_prime(bits)`, and of
`gen_safe_prime_exact(bits)` if it has exactly `bits` bits -/
theorem C109_gen_safe_prime_prim (bld : Build) (b : ℕ) (hb : PrimWidth b) (bits p : ℕ) (hbits : bits ≤ b) (hp : p.Prime)
    (hsafe : ((p - 1) / 2).Prime) (hlt : p < 2 ^ bits) (src : RandSource) (fuel f k : ℕ)
    (hs : src.value k = p * 2 ^ (b - bits)) :
    genSafePrimePrim bld src b (fuel + 1) bits (f + 1) k = .ok (p, k + 1) ∧
      (2 ^ (bits - 1) ≤ p → genSafePrimeExactPrim bld src b (fuel + 1) bits (f + 1) k = .ok (p, k + 1)) := by
  have h2 : 2 < p := by have := hsafe.two_le; omega
  have hodd := odd_of_prime hp h2
  have h64 := primWidth_lt hb (lt_of_lt_of_le hlt (Nat.pow_le_pow_right (by norm_num) hbits))
  have hh : p >>> 1 = (p - 1) / 2 := by rw [Nat.shiftRight_eq_div_pow]; omega
  have hacc := C01_is_prime64_prime bld _ hsafe (by omega)
  obtain ⟨g1, g2⟩ := C109_gen_prime_prim bld b hb bits p hbits hp h2 hlt src fuel k hs
  constructor
  · simp only [genSafePrimePrim, g1, Res.bind_ok, hh, hacc, if_true]; rfl
  · intro htop
    simp only [genSafePrimeExactPrim, g2 htop, Res.bind_ok, hh, hacc, if_true]; rfl

theorem testPlain_prime {bld : Build} {w : Width} (hstd : StdWidth w) {src : RandSource} {config : Option PrimalityTestConfig} {k p : ℕ}
    (hp : p.Prime) (hw : fits w p = true) (hdr : GoodDraws (src.draws k))
    (hen : isPrimeNew bld w p config (src.draws k p) ≠ .timeout) : testPlain bld w src config k p = .ok true := by
  cases hr : isPrimeNew bld w p config (src.draws k p) with
  | ok r => rw [testPlain, hr]; exact congrArg Res.ok (isPrimeNew_prime bld hstd hp hw config (hdr p) hr)
  | timeout => exact absurd hr hen
  | panic => exact absurd hr (isPrime_ne_panic bld hstd _ p hw config _)

theorem testMint_prime {bld : Build} {src : RandSource} {config : Option PrimalityTestConfig}
    (hc : (config.getD .default).eslprpTest = false) {k p : ℕ}
    (hp : p.Prime) (hw : fits (some 128) p = true) (hdr : GoodDraws (src.draws k))
    (hen : isPrimeNew bld (some 128) p config (src.draws k p) ≠ .timeout) : testMint bld src config k p = .ok true := by
  rw [testMint, mIsPrime_eq bld _ _ hw config hc]
  exact testPlain_prime (Or.inr ⟨128, by simp, rfl⟩) hp hw hdr hen

/-- **C109** `u128`, for configurations without the extra strong Lucas test (which panics on `SmallMint`, C65) -/
theorem C109_gen_prime_u128 (bld : Build) (config : Option PrimalityTestConfig) (hc : (config.getD .default).eslprpTest = false)
    (bits p : ℕ) (hbits : bits ≤ 128) (hp : p.Prime) (h2 : 2 < p) (hlt : p < 2 ^ bits) (src : RandSource) (fuel k : ℕ)
    (hs : src.value k = p * 2 ^ (128 - bits)) (hdr : GoodDraws (src.draws k))
    (hen : isPrimeNew bld (some 128) p config (src.draws k p) ≠ .timeout) :
    genPrime128 bld src config (fuel + 1) bits k = .ok (p, k + 1) ∧
      (2 ^ (bits - 1) ≤ p → genPrimeExact128 bld src config (fuel + 1) bits k = .ok (p, k + 1)) := by
  have hodd := odd_of_prime hp h2
  have hw : fits (some 128) p = true := fits_some.mpr (lt_of_lt_of_le hlt (Nat.pow_le_pow_right (by norm_num) hbits))
  have hacc := testMint_prime hc hp hw hdr hen
  constructor
  · unfold genPrime128
    rw [if_neg (by omega)]
    simp only [genLoop, hs, drawBits_value hbits h2 hodd hlt, Res.bind_ok, hacc]
    rfl
  · intro htop
    unfold genPrimeExact128
    rw [if_neg (by omega)]
    simp only [genLoop, hs, drawExact_value hbits h2 hodd hlt htop, Res.bind_ok, hacc]
    rfl

/-- **C109** `u128`: every safe prime of the bit size is a possible result -/
theorem C109_gen_safe_prime_u128 (bld : Build) (bits p : ℕ) (hbits : bits ≤ 128) (hp : p.Prime) (hsafe : ((p - 1) / 2).Prime)
    (hlt : p < 2 ^ bits) (src : RandSource) (fuel f k : ℕ) (hs : src.value k = p * 2 ^ (128 - bits))
    (hdr : ∀ k, GoodDraws (src.draws k))
    (hen : isPrimeNew bld (some 128) p (some .strict) (src.draws k p) ≠ .timeout)
    (hen' : isPrimeNew bld (some 128) ((p - 1) / 2) (some .strict) (src.draws (k + 1) ((p - 1) / 2)) ≠ .timeout) :
    genSafePrime128 bld src (fuel + 1) bits (f + 1) k = .ok (p, k + 1) ∧
      (2 ^ (bits - 1) ≤ p → genSafePrimeExact128 bld src (fuel + 1) bits (f + 1) k = .ok (p, k + 1)) := by
  have h2 : 2 < p := by have := hsafe.two_le; omega
  have hodd := odd_of_prime hp h2
  have hw : p < 2 ^ 128 := lt_of_lt_of_le hlt (Nat.pow_le_pow_right (by norm_num) hbits)
  have hh : p >>> 1 = (p - 1) / 2 := by rw [Nat.shiftRight_eq_div_pow]; omega
  have hacc := testMint_prime (bld := bld) (src := src) (config := some .strict) rfl hsafe (fits_some.mpr (by omega)) (hdr (k + 1)) hen'
  obtain ⟨g1, g2⟩ := C109_gen_prime_u128 bld (some .strict) rfl bits p hbits hp h2 hlt src fuel k hs (hdr k) hen
  constructor
  · simp only [genSafePrime128, g1, Res.bind_ok, hh, hacc, if_true]; rfl
  · intro htop
    simp only [genSafePrimeExact128, g2 htop, Res.bind_ok, hh, hacc, if_true]; rfl

/-- **C109** `BigUint`: every prime `p > 2` of the bit size is a possible result, for every configuration -/
theorem C109_gen_prime_big (bld : Build) (config : Option PrimalityTestConfig) (bits p : ℕ) (hp : p.Prime) (h2 : 2 < p)
    (hlt : p < 2 ^ bits) (src : RandSource) (fuel k : ℕ) (hs : src.value k = p) (hdr : GoodDraws (src.draws k))
    (hen : isPrimeNew bld none p config (src.draws k p) ≠ .timeout) :
    genPrimeBig bld src config (fuel + 1) bits k = .ok (p, k + 1) ∧
      (2 ^ (bits - 1) ≤ p → genPrimeExactBig bld src config (fuel + 1) bits k = .ok (p, k + 1)) := by
  have hodd := odd_of_prime hp h2
  have h0 := bits_pos h2 hlt
  have hacc := testPlain_prime (Or.inl rfl) hp rfl hdr hen
  have hcs : csub bits 1 = .ok (bits - 1) := if_pos (by omega)
  constructor
  · simp only [genPrimeBig, genLoop, hs, Nat.mod_eq_of_lt hlt, or_one_of_odd hodd, Res.bind_ok, hacc]; rfl
  · intro htop
    simp only [genPrimeExactBig, genLoop, hs, hcs, Res.mapR_ok, Nat.mod_eq_of_lt hlt, or_one_of_odd hodd, Nat.one_shiftLeft,
      or_top htop (by rwa [Nat.sub_add_cancel h0]), Res.bind_ok, hacc]
    rfl

/-- **C109** `BigUint`: every safe prime of the bit size is a possible result -/
theorem C109_gen_safe_prime_big (bld : Build) (bits p : ℕ) (hp : p.Prime) (hsafe : ((p - 1) / 2).Prime)
    (hlt : p < 2 ^ bits) (src : RandSource) (fuel f k : ℕ) (hs : src.value k = p)
    (hdr : ∀ k, GoodDraws (src.draws k))
    (hen : isPrimeNew bld none p (some .strict) (src.draws k p) ≠ .timeout)
    (hen' : isPrimeNew bld none ((p - 1) / 2) (some .strict) (src.draws (k + 1) ((p - 1) / 2)) ≠ .timeout) :
    genSafePrimeBig bld src (fuel + 1) bits (f + 1) k = .ok (p, k + 1) ∧
      (2 ^ (bits - 1) ≤ p → genSafePrimeExactBig bld src (fuel + 1) bits (f + 1) k = .ok (p, k + 1)) := by
  have h2 : 2 < p := by have := hsafe.two_le; omega
  have hodd := odd_of_prime hp h2
  have hh : p >>> 1 = (p - 1) / 2 := by rw [Nat.shiftRight_eq_div_pow]; omega
  have hacc := testPlain_prime (bld := bld) (src := src) (config := some .strict) (Or.inl rfl) hsafe rfl (hdr (k + 1)) hen'
  obtain ⟨g1, g2⟩ := C109_gen_prime_big bld (some .strict) bits p hp h2 hlt src fuel k hs (hdr k) hen
  constructor
  · simp only [genSafePrimeBig, g1, Res.bind_ok, hh, hacc, if_true]; rfl
  · intro htop
    simp only [genSafePrimeExactBig, g2 htop, Res.bind_ok, hh, hacc, if_true]; rfl

-- 23 is a safe prime of 5 bits; on `u8` the word 184 = 23 * 2^3 leads to it
example : genSafePrimePrim .big (constSource 184) 8 1 5 1 0 = .ok (23, 1) ∧ genSafePrimeExactPrim .big (constSource 184) 8 1 5 1 0 = .ok (23, 1) :=
  have h := C109_gen_safe_prime_prim .big 8 (Or.inl rfl) 5 23 (by norm_num) (by norm_num) (by norm_num) (by norm_num) (constSource 184) 0 0 0 rfl
  ⟨h.1, h.2 (by norm_num)⟩
theorem strict_returns {bld : Build} {w : Width} (hstd : StdWidth w) {t : ℕ} (hw : fits w t = true) :
    isPrimeNew bld w t (some .strict) [5, 7, 11] ≠ .timeout := by
  obtain ⟨r, hr⟩ := C14_is_prime_returns bld w hstd (smallPrimes bld) t hw (some .strict) [5, 7, 11]
    (by cases bld <;> decide +kernel)
  rw [isPrimeNew, hr]
  simp

-- `BigUint` and `u128`: the sources below hand out the safe prime 23 and enough random bases
example : ∃ src : RandSource, genSafePrimeBig .big src 1 5 1 0 = .ok (23, 1) ∧ genSafePrimeExactBig .big src 1 5 1 0 = .ok (23, 1) := by
  refine ⟨⟨fun _ => 23, fun _ _ => [5, 7, 11]⟩, ?_⟩
  have h := C109_gen_safe_prime_big .big 5 23 (by norm_num) (by norm_num) (by norm_num) ⟨fun _ => 23, fun _ _ => [5, 7, 11]⟩ 0 0 0 rfl
    (fun k t x hx => by simp only [List.mem_cons, List.not_mem_nil, or_false] at hx; omega)
    (strict_returns (Or.inl rfl) rfl) (strict_returns (Or.inl rfl) rfl)
  exact ⟨h.1, h.2 (by norm_num)⟩
example : ∃ src : RandSource, genSafePrime128 .big src 1 5 1 0 = .ok (23, 1) ∧ genSafePrimeExact128 .big src 1 5 1 0 = .ok (23, 1) := by
  refine ⟨⟨fun _ => 23 * 2 ^ (128 - 5), fun _ _ => [5, 7, 11]⟩, ?_⟩
  have h128 : StdWidth (some 128) := Or.inr ⟨128, by simp, rfl⟩
  have h := C109_gen_safe_prime_u128 .big 5 23 (by norm_num) (by norm_num) (by norm_num) (by norm_num)
    ⟨fun _ => 23 * 2 ^ (128 - 5), fun _ _ => [5, 7, 11]⟩ 0 0 0 rfl
    (fun k t x hx => by simp only [List.mem_cons, List.not_mem_nil, or_false] at hx; omega)
    (strict_returns h128 (by decide)) (strict_returns h128 (by decide))
  exact ⟨h.1, h.2 (by norm_num)⟩

theorem nextPrime_one (bld : Build) {w : Width} (hw : fits w 2 = true) (config : Option PrimalityTestConfig) (draws : ℕ → List ℕ) (fuel : ℕ) :
    nextPrime bld w 1 config draws fuel = .ok (some 2) := by
  cases bld
  · have h1 : binarySearch (smallPrimes .big) 1 = .missing 0 := by decide +kernel
    have h2 : smallPrimeAt .big 0 = .ok 2 := by decide +kernel
    simp only [nextPrime, h1, h2, show (1 : ℕ) ≤ 255 by norm_num, true_or, if_true, Res.mapR_ok, fromNat, hw]
  · have h1 : binarySearch (smallPrimes .small) 1 = .missing 0 := by decide +kernel
    have h2 : smallPrimeAt .small 0 = .ok 2 := by decide +kernel
    simp only [nextPrime, h1, h2, show (1 : ℕ) < 256 by norm_num, if_true, Res.mapR_ok, fromNat, hw]

theorem isPrime64_one_three (bld : Build) : isPrime64 bld 1 = false ∧ isPrime64 bld 3 = true := by
  cases bld <;> decide +kernel

theorem testMint_one_three (bld : Build) (src : RandSource) (config : Option PrimalityTestConfig) (k : ℕ) :
    testMint bld src config k 1 = .ok false ∧ testMint bld src config k 3 = .ok true := by
  obtain ⟨h1, h3⟩ := isPrime64_one_three bld
  constructor
  · simp [testMint, mIsPrime, Mint.isEven, Mint.toU64, h1, Mint.value]; rfl
  · simp [testMint, mIsPrime, Mint.isEven, Mint.toU64, h3, Mint.value]; rfl

theorem testPlain_one_three (bld : Build) (w : Width) (src : RandSource) (config : Option PrimalityTestConfig) (k : ℕ) :
    testPlain bld w src config k 1 = .ok false ∧ testPlain bld w src config k 3 = .ok true := by
  obtain ⟨h1, h3⟩ := isPrime64_one_three bld
  constructor
  · simp [testPlain, isPrimeNew, isPrime, h1]; rfl
  · simp [testPlain, isPrimeNew, isPrime, h3]; rfl

theorem small_or_one {v : ℕ} (h : v < 2) : v ||| 1 = 1 := by interval_cases v <;> rfl

theorem two_bits {v : ℕ} (h : v < 4) : (v ||| 1) ||| 2 = 3 := by interval_cases v <;> rfl

/-- **C109** the prime 2: every generator of `gen_prime` returns it if the leading bits of the random word are `0…00` or `0…01` (for
`bits = 1` that is every word, and 2 does not have the bit size) -/
theorem C109_gen_prime_two (bld : Build) (config : Option PrimalityTestConfig) (bits : ℕ) (h0 : 0 < bits) (src : RandSource) (fuel k : ℕ) :
    (∀ b, PrimWidth b → bits ≤ b → src.value k < 2 * 2 ^ (b - bits) → genPrimePrim bld src b (fuel + 1) bits k = .ok (2, k + 1)) ∧
    (bits ≤ 128 → src.value k < 2 * 2 ^ (128 - bits) → genPrime128 bld src config (fuel + 1) bits k = .ok (2, k + 1)) ∧
    (src.value k < 2 → genPrimeBig bld src config (fuel + 1) bits k = .ok (2, k + 1)) := by
  have hd : ∀ b, bits ≤ b → src.value k < 2 * 2 ^ (b - bits) → drawBits b bits (src.value k) = .ok 1 := by
    intro b hb hv
    rw [drawBits_eq h0 hb, small_or_one]
    exact lt_of_le_of_lt (Nat.div_le_div_right (Nat.mod_le _ _)) (Nat.div_lt_of_lt_mul (by linarith))
  refine ⟨fun b hw hb hv => ?_, fun hb hv => ?_, fun hv => ?_⟩
  · have hf : fits (some b) 2 = true := fits_some.mpr (lt_of_lt_of_le (show 2 < 2 ^ 8 by norm_num)
      (Nat.pow_le_pow_right (by norm_num) (by unfold PrimWidth at hw; omega)))
    unfold genPrimePrim
    rw [if_neg (by omega)]
    simp only [genLoop, hd b hb hv, Res.bind_ok, (isPrime64_one_three bld).1, nextPrime_one bld hf]
    rfl
  · unfold genPrime128
    rw [if_neg (by omega)]
    simp only [genLoop, hd 128 hb hv, Res.bind_ok, (testMint_one_three bld src config k).1,
      nextPrime_one bld (show fits (some 128) 2 = true by decide)]
    rfl
  · have hm : src.value k % 2 ^ bits ||| 1 = 1 := small_or_one (lt_of_le_of_lt (Nat.mod_le _ _) hv)
    simp only [genPrimeBig, genLoop, hm, Res.bind_ok, (testPlain_one_three bld none src config k).1,
      nextPrime_one bld (show fits none 2 = true by rfl)]
    rfl

/-- **C109** (finding) 2 has exactly two bits, but `gen_prime_exact(2)` always returns 3 -/
theorem C109_gen_prime_exact_two_bits (bld : Build) (config : Option PrimalityTestConfig) (src : RandSource) (fuel k : ℕ) :
    (∀ b, PrimWidth b → genPrimeExactPrim bld src b (fuel + 1) 2 k = .ok (3, k + 1)) ∧
    genPrimeExact128 bld src config (fuel + 1) 2 k = .ok (3, k + 1) ∧
    genPrimeExactBig bld src config (fuel + 1) 2 k = .ok (3, k + 1) := by
  have hd : ∀ b, 2 ≤ b → drawExact b 2 (src.value k) = .ok 3 := by
    intro b hb
    rw [drawExact_eq (by norm_num) hb]
    refine congrArg Res.ok (two_bits ?_)
    apply Nat.div_lt_of_lt_mul
    rw [show 2 ^ (b - 2) * 4 = 2 ^ b by rw [show (4 : ℕ) = 2 ^ 2 by rfl, ← pow_add]; congr 1; omega]
    exact Nat.mod_lt _ (by positivity)
  refine ⟨fun b hw => ?_, ?_, ?_⟩
  · have hb : 2 ≤ b := by unfold PrimWidth at hw; omega
    unfold genPrimeExactPrim
    rw [if_neg (by omega)]
    simp only [genLoop, hd b hb, Res.bind_ok, (isPrime64_one_three bld).2]
    rfl
  · unfold genPrimeExact128
    rw [if_neg (by omega)]
    simp only [genLoop, hd 128 (by norm_num), Res.bind_ok, (testMint_one_three bld src config k).2]
    rfl
  · have hm : (src.value k % 2 ^ 2 ||| 1) ||| 1 <<< 1 = 3 := two_bits (Nat.mod_lt _ (by norm_num))
    simp only [genPrimeExactBig, genLoop, show csub 2 1 = Res.ok 1 from rfl, Res.mapR_ok, hm, Res.bind_ok, (testPlain_one_three bld none src config k).2]
    rfl

example : genPrimePrim .big (constSource 100) 8 1 1 0 = .ok (2, 1) ∧ genPrimePrim .big (constSource 15) 8 1 5 0 = .ok (2, 1) :=
  ⟨(C109_gen_prime_two .big none 1 (by norm_num) (constSource 100) 0 0).1 8 (Or.inl rfl) (by norm_num) (by decide),
   (C109_gen_prime_two .big none 5 (by norm_num) (constSource 15) 0 0).1 8 (Or.inl rfl) (by norm_num) (by decide)⟩

end NumPrime
