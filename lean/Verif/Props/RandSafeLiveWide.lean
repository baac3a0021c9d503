import Verif.Props.RandSafeLive
import Verif.Props.ReleaseRand

/-! # C121 for `u128` and `BigUint` -/

namespace NumPrime

theorem testPlain_returns {bld : Build} {w : Width} (hstd : StdWidth w) {src : RandSource} {config : Option PrimalityTestConfig} {k t : ℕ}
    (hw : fits w t = true) (hen : isPrimeNew bld w t config (src.draws k t) ≠ .timeout) : ∃ a, testPlain bld w src config k t = .ok a := by
  cases hr : isPrimeNew bld w t config (src.draws k t) with
  | ok r => exact ⟨r.probably, by rw [testPlain, hr]; rfl⟩
  | timeout => exact absurd hr hen
  | panic => exact absurd hr (isPrime_ne_panic bld hstd _ t hw config _)

theorem half_of_safe {s : ℕ} (hs : s.Prime) (h : ((s - 1) / 2).Prime) : s >>> 1 = (s - 1) / 2 := by
  have hodd := odd_of_prime hs (by have := h.two_le; omega)
  rw [Nat.shiftRight_eq_div_pow]
  omega

/-- **C121** (default build) `BigUint`: `gen_safe_prime_exact(bits)` returns, with at most as many attempts as there are numbers
drawn up to the first one that gives a safe prime, if the primality tests return (they do when `rand::random()` produces
enough different values, C14) -/
theorem C121_safe_prime_exact_returns_big (src : RandSource) (hdr : ∀ k, GoodDraws (src.draws k))
    (hen : ∀ k t, isPrimeNew .big none t (some .strict) (src.draws k t) ≠ .timeout) (bits : ℕ) (h0 : 0 < bits)
    (s : ℕ) (hs : s.Prime) (hsafe : ((s - 1) / 2).Prime) : ∀ m k : ℕ,
    (src.value (k + m) % 2 ^ bits) ||| 1 ||| 2 ^ (bits - 1) = s →
    ∃ F r, ∀ fuel attempts, F ≤ fuel → m < attempts → genSafePrimeExactBig .big src fuel bits attempts k = .ok r := by
  intro m
  induction m with
  | zero =>
    intro k hm
    obtain ⟨F, p, hF⟩ := (C59_gen_prime_big_returns src (some .strict) hdr hen bits k).2 h0
    have hc : csub bits 1 = .ok (bits - 1) := if_pos (by omega)
    have h1 := hF F le_rfl
    rw [genPrimeExactBig] at h1
    obtain ⟨-, -, a3⟩ := genLoop_stops (t := s) F 0 k p (k + 1) (by
      simp only [hc, Res.mapR_ok]
      rw [Nat.shiftLeft_eq, one_mul, hm]) (testPlain_prime (Or.inl rfl) hs rfl (hdr _) (hen _ _)) h1
    have hp := a3 rfl
    refine ⟨F, (p, k + 1), fun fuel attempts hf ha => ?_⟩
    obtain ⟨g, rfl⟩ : ∃ g, attempts = g + 1 := ⟨attempts - 1, by omega⟩
    rw [genSafePrimeExactBig, hF fuel hf, Res.bind_ok]
    simp only [hp, half_of_safe hs hsafe, testPlain_prime (Or.inl rfl) hsafe rfl (hdr (k + 1)) (hen (k + 1) _), Res.bind_ok, if_true]
    rfl
  | succ m ih =>
    intro k hm
    obtain ⟨F, p, hF⟩ := (C59_gen_prime_big_returns src (some .strict) hdr hen bits k).2 h0
    obtain ⟨a, ha⟩ := testPlain_returns (bld := .big) (w := none) (t := p >>> 1) (Or.inl rfl) rfl (hen (k + 1) _)
    obtain ⟨F', r, h⟩ := ih (k + 1) (by rw [show k + 1 + m = k + (m + 1) by omega]; exact hm)
    refine ⟨max F F', if a then (p, k + 1) else r, fun fuel attempts hf hat => ?_⟩
    obtain ⟨g, rfl⟩ : ∃ g, attempts = g + 1 := ⟨attempts - 1, by omega⟩
    rw [genSafePrimeExactBig, hF fuel (by omega), Res.bind_ok]
    simp only [ha, Res.bind_ok]
    cases a
    · exact h fuel g (by omega) (by omega)
    · rfl

/-- **C121** (default build) `BigUint`: the same for `gen_safe_prime(bits)` -/
theorem C121_safe_prime_returns_big (src : RandSource) (hdr : ∀ k, GoodDraws (src.draws k))
    (hen : ∀ k t, isPrimeNew .big none t (some .strict) (src.draws k t) ≠ .timeout) (bits : ℕ)
    (s : ℕ) (hs : s.Prime) (hsafe : ((s - 1) / 2).Prime) : ∀ m k : ℕ,
    (src.value (k + m) % 2 ^ bits) ||| 1 = s →
    ∃ F r, ∀ fuel attempts, F ≤ fuel → m < attempts → genSafePrimeBig .big src fuel bits attempts k = .ok r := by
  intro m
  induction m with
  | zero =>
    intro k hm
    obtain ⟨F, p, hF⟩ := (C59_gen_prime_big_returns src (some .strict) hdr hen bits k).1
    have h1 := hF F le_rfl
    rw [genPrimeBig] at h1
    obtain ⟨-, -, a3⟩ := genLoop_stops (t := s) F 0 k p (k + 1) (by rw [hm])
      (testPlain_prime (Or.inl rfl) hs rfl (hdr _) (hen _ _)) h1
    have hp := a3 rfl
    refine ⟨F, (p, k + 1), fun fuel attempts hf ha => ?_⟩
    obtain ⟨g, rfl⟩ : ∃ g, attempts = g + 1 := ⟨attempts - 1, by omega⟩
    rw [genSafePrimeBig, hF fuel hf, Res.bind_ok]
    simp only [hp, half_of_safe hs hsafe, testPlain_prime (Or.inl rfl) hsafe rfl (hdr (k + 1)) (hen (k + 1) _), Res.bind_ok, if_true]
    rfl
  | succ m ih =>
    intro k hm
    obtain ⟨F, p, hF⟩ := (C59_gen_prime_big_returns src (some .strict) hdr hen bits k).1
    obtain ⟨a, ha⟩ := testPlain_returns (bld := .big) (w := none) (t := p >>> 1) (Or.inl rfl) rfl (hen (k + 1) _)
    obtain ⟨d, hd⟩ := testPlain_returns (bld := .big) (w := none) (t := (p <<< 1) + 1) (Or.inl rfl) rfl (hen (k + 1) _)
    obtain ⟨F', r, h⟩ := ih (k + 1) (by rw [show k + 1 + m = k + (m + 1) by omega]; exact hm)
    refine ⟨max F F', if a then (p, k + 1) else if d then ((p <<< 1) + 1, k + 1) else r, fun fuel attempts hf hat => ?_⟩
    obtain ⟨g, rfl⟩ : ∃ g, attempts = g + 1 := ⟨attempts - 1, by omega⟩
    rw [genSafePrimeBig, hF fuel (by omega), Res.bind_ok]
    simp only [ha, hd, Res.bind_ok]
    cases a
    · cases d
      · exact h fuel g (by omega) (by omega)
      · rfl
    · rfl

/-- **C121** (default build) `BigUint`, bit sizes from 3 to 128: there is a number below `2^bits` such that both generators return
for every stream in which it is drawn -/
theorem C121_returns_on_some_number_big (bits : ℕ) (h3 : 3 ≤ bits) (h128 : bits ≤ 128) :
    ∃ v < 2 ^ bits, ∀ (src : RandSource), (∀ k, GoodDraws (src.draws k)) →
      (∀ k t, isPrimeNew .big none t (some .strict) (src.draws k t) ≠ .timeout) → ∀ (k m : ℕ), src.value (k + m) = v →
      (∃ F r, ∀ fuel attempts, F ≤ fuel → m < attempts → genSafePrimeBig .big src fuel bits attempts k = .ok r) ∧
      (∃ F r, ∀ fuel attempts, F ≤ fuel → m < attempts → genSafePrimeExactBig .big src fuel bits attempts k = .ok r) := by
  obtain ⟨s, hs, hs', hlo, hhi⟩ := exists_safe h3 h128
  have hodd := odd_of_prime hs (by have := hs'.two_le; omega)
  refine ⟨s, hhi, fun src hdr hen k m hv => ⟨?_, ?_⟩⟩
  · refine C121_safe_prime_returns_big src hdr hen bits s hs hs' m k ?_
    rw [hv, Nat.mod_eq_of_lt hhi, or_one_of_odd hodd]
  · refine C121_safe_prime_exact_returns_big src hdr hen bits (by omega) s hs hs' m k ?_
    rw [hv, Nat.mod_eq_of_lt hhi, or_one_of_odd hodd, or_top hlo (by rwa [Nat.sub_add_cancel (by omega)])]

-- a stream that meets the hypotheses: the third number is the safe prime 23
example : ∃ (src : RandSource) (F : ℕ) (r : ℕ × ℕ), src.value 0 = 31 ∧
    ∀ fuel attempts, F ≤ fuel → 2 < attempts → genSafePrimeExactBig .big src fuel 5 attempts 0 = .ok r :=
  ⟨⟨fun i => if i = 0 then 31 else if i = 1 then 28 else 23, fun _ _ => [5, 7, 11]⟩, by
    obtain ⟨F, r, h⟩ := C121_safe_prime_exact_returns_big ⟨fun i => if i = 0 then 31 else if i = 1 then 28 else 23, fun _ _ => [5, 7, 11]⟩
      (fun _ => draws_good) (fun _ _ => strict_returns (Or.inl rfl) rfl) 5 (by norm_num) 23 (by norm_num) (by norm_num) 2 0 rfl
    exact ⟨F, r, rfl, h⟩⟩

theorem testMint_returns {bld : Build} {src : RandSource} {k t : ℕ} (hw : t < 2 ^ 128)
    (hen : isPrimeNew bld (some 128) t (some .strict) (src.draws k t) ≠ .timeout) : ∃ a, testMint bld src (some .strict) k t = .ok a := by
  rw [testMint, mIsPrime_eq bld _ _ (lt_fits hw) (some .strict) rfl]
  exact testPlain_returns (Or.inr ⟨128, by simp, rfl⟩) (lt_fits hw) hen

theorem loop128_returns {src : RandSource} {mk : ℕ → Res ℕ} (hdr : ∀ k, GoodDraws (src.draws k))
    (hen : ∀ k t config, config = none ∨ config = some .strict → fits (some 128) t = true →
      isPrimeNew .big (some 128) t config (src.draws k t) ≠ .timeout)
    (hmk : ∀ j, ∃ t, mk j = .ok t ∧ t < 2 ^ 128) (k m s : ℕ) (hm : mk (k + m) = .ok s) (hs : s.Prime) (hlt : s < 2 ^ 128) :
    ∃ F r, ∀ fuel, F ≤ fuel → genLoop mk (testMint .big src (some .strict))
      (fun k t => nextPrime .big (some 128) t none (src.draws k) fuel) fuel k = .ok r := by
  have hstd : StdWidth (some 128) := Or.inr ⟨128, by simp, rfl⟩
  obtain ⟨F, r, h⟩ := genLoop_returns (mk := mk) (test := testMint .big src (some .strict))
    (next := fun fuel k t => nextPrime .big (some 128) t none (src.draws k) fuel) (fun j => ⟨_, (hmk j).choose_spec.1⟩)
    (fun j t ht => by
      obtain ⟨t', h1, h2⟩ := hmk j
      obtain rfl : t = t' := by rw [ht] at h1; exact Res.ok.inj h1
      exact testMint_returns h2 (hen j t _ (Or.inr rfl) (lt_fits h2)))
    (fun j t _ => nextPrime_returns .big (some 128) hstd t none (src.draws j) (hdr j) (fun t' ht => hen j t' _ (Or.inl rfl) ht) (by simp))
    m k ⟨s, hm, Or.inl (testMint_prime rfl hs (lt_fits hlt) (hdr _) (hen _ _ _ (Or.inr rfl) (lt_fits hlt)))⟩
  exact ⟨F, r, fun fuel hf => h fuel fuel hf hf⟩

/-- **C121** (default build) `u128`: `gen_safe_prime_exact(bits)` returns for every stream in which some word gives a safe prime,
if the primality tests return (C14) -/
theorem C121_safe_prime_exact_returns_u128 (src : RandSource) (hdr : ∀ k, GoodDraws (src.draws k))
    (hen : ∀ k t config, config = none ∨ config = some .strict → fits (some 128) t = true →
      isPrimeNew .big (some 128) t config (src.draws k t) ≠ .timeout) (bits : ℕ) (h0 : 0 < bits) (hbits : bits ≤ 128)
    (s : ℕ) (hs : s.Prime) (hsafe : ((s - 1) / 2).Prime) : ∀ m k : ℕ,
    (src.value (k + m) % 2 ^ 128 / 2 ^ (128 - bits)) ||| 1 ||| 2 ^ (bits - 1) = s →
    ∃ F r, ∀ fuel attempts, F ≤ fuel → m < attempts → genSafePrimeExact128 .big src fuel bits attempts k = .ok r := by
  intro m
  induction m using Nat.strong_induction_on with
  | _ m ih =>
  intro k hm
  have hle := Nat.pow_le_pow_right (n := 2) (by norm_num) hbits
  have hd : drawExact 128 bits (src.value (k + m)) = .ok s := by rw [drawExact_eq h0 hbits, hm]
  have hslt : s < 2 ^ 128 := lt_of_lt_of_le (drawExact_ok hbits hd).2.2 hle
  obtain ⟨F, ⟨p, k'⟩, hF⟩ := loop128_returns hdr hen (mk := fun k => drawExact 128 bits (src.value k))
    (fun j => ⟨_, drawExact_eq h0 hbits _, lt_of_lt_of_le (drawExact_ok hbits (drawExact_eq h0 hbits _)).2.2 hle⟩) k m s hd hs hslt
  have hgen : ∀ fuel, F ≤ fuel → genPrimeExact128 .big src (some .strict) fuel bits k = .ok (p, k') := by
    intro fuel hf
    rw [genPrimeExact128, if_neg (by omega)]
    exact hF fuel hf
  obtain ⟨a1, a2, a3⟩ := genLoop_stops F m k p k' hd
    (testMint_prime rfl hs (lt_fits hslt) (hdr _) (hen _ _ _ (Or.inr rfl) (lt_fits hslt))) (hF F le_rfl)
  have hp128 := genPrime128_lt h0 (Or.inr (hgen F le_rfl))
  have hhalf : p >>> 1 < 2 ^ 128 := by rw [Nat.shiftRight_eq_div_pow]; omega
  obtain ⟨a, ha⟩ := testMint_returns hhalf (hen k' _ _ (Or.inr rfl) (lt_fits hhalf))
  cases a with
  | true =>
    refine ⟨F, (p, k'), fun fuel attempts hf hat => ?_⟩
    obtain ⟨g, rfl⟩ : ∃ g, attempts = g + 1 := ⟨attempts - 1, by omega⟩
    rw [genSafePrimeExact128, hgen fuel hf, Res.bind_ok]
    simp only [ha, Res.bind_ok, if_true]
    rfl
  | false =>
    have hk : k' ≠ k + m + 1 := fun e => by
      rw [a3 e, half_of_safe hs hsafe, testMint_prime rfl hsafe (lt_fits (by omega)) (hdr _) (hen _ _ _ (Or.inr rfl) (lt_fits (by omega)))] at ha
      cases ha
    obtain ⟨F', r, h⟩ := ih (k + m - k') (by omega) k' (by rw [show k' + (k + m - k') = k + m by omega]; exact hm)
    refine ⟨max F F', r, fun fuel attempts hf hat => ?_⟩
    obtain ⟨g, rfl⟩ : ∃ g, attempts = g + 1 := ⟨attempts - 1, by omega⟩
    rw [genSafePrimeExact128, hgen fuel (by omega), Res.bind_ok]
    simp only [ha, Res.bind_ok, Bool.false_eq_true, if_false]
    exact h fuel g (by omega) (by omega)

/-- **C121** (default build) `u128`: the same for `gen_safe_prime(bits)` -/
theorem C121_safe_prime_returns_u128 (src : RandSource) (hdr : ∀ k, GoodDraws (src.draws k))
    (hen : ∀ k t config, config = none ∨ config = some .strict → fits (some 128) t = true →
      isPrimeNew .big (some 128) t config (src.draws k t) ≠ .timeout) (bits : ℕ) (h0 : 0 < bits) (hbits : bits ≤ 128)
    (s : ℕ) (hs : s.Prime) (hsafe : ((s - 1) / 2).Prime) : ∀ m k : ℕ,
    (src.value (k + m) % 2 ^ 128 / 2 ^ (128 - bits)) ||| 1 = s →
    ∃ F r, ∀ fuel attempts, F ≤ fuel → m < attempts → genSafePrime128 .big src fuel bits attempts k = .ok r := by
  intro m
  induction m using Nat.strong_induction_on with
  | _ m ih =>
  intro k hm
  have hle := Nat.pow_le_pow_right (n := 2) (by norm_num) hbits
  have hd : drawBits 128 bits (src.value (k + m)) = .ok s := by rw [drawBits_eq h0 hbits, hm]
  have hslt : s < 2 ^ 128 := lt_of_lt_of_le (drawBits_ok hbits hd).2.2 hle
  obtain ⟨F, ⟨p, k'⟩, hF⟩ := loop128_returns hdr hen (mk := fun k => drawBits 128 bits (src.value k))
    (fun j => ⟨_, drawBits_eq h0 hbits _, lt_of_lt_of_le (drawBits_ok hbits (drawBits_eq h0 hbits _)).2.2 hle⟩) k m s hd hs hslt
  have hgen : ∀ fuel, F ≤ fuel → genPrime128 .big src (some .strict) fuel bits k = .ok (p, k') := by
    intro fuel hf
    rw [genPrime128, if_neg (by omega)]
    exact hF fuel hf
  obtain ⟨a1, a2, a3⟩ := genLoop_stops F m k p k' hd
    (testMint_prime rfl hs (lt_fits hslt) (hdr _) (hen _ _ _ (Or.inr rfl) (lt_fits hslt))) (hF F le_rfl)
  have hp128 := genPrime128_lt h0 (Or.inl (hgen F le_rfl))
  have hhalf : p >>> 1 < 2 ^ 128 := by rw [Nat.shiftRight_eq_div_pow]; omega
  obtain ⟨a, ha⟩ := testMint_returns hhalf (hen k' _ _ (Or.inr rfl) (lt_fits hhalf))
  obtain ⟨d, hdd⟩ : ∃ d, (if fits (some 128) (p * 2 + 1) = true then testPlain .big (some 128) src (some .strict) k' (p * 2 + 1)
      else .ok false : Res Bool) = .ok d := by
    by_cases hf : fits (some 128) (p * 2 + 1) = true
    · rw [if_pos hf]
      exact testPlain_returns (Or.inr ⟨128, by simp, rfl⟩) hf (hen k' _ _ (Or.inr rfl) hf)
    · exact ⟨false, if_neg hf⟩
  cases a with
  | true =>
    refine ⟨F, (p, k'), fun fuel attempts hf hat => ?_⟩
    obtain ⟨g, rfl⟩ : ∃ g, attempts = g + 1 := ⟨attempts - 1, by omega⟩
    rw [genSafePrime128, hgen fuel hf, Res.bind_ok]
    simp only [ha, Res.bind_ok, if_true]
    rfl
  | false =>
    have hk : k' ≠ k + m + 1 := fun e => by
      rw [a3 e, half_of_safe hs hsafe, testMint_prime rfl hsafe (lt_fits (by omega)) (hdr _) (hen _ _ _ (Or.inr rfl) (lt_fits (by omega)))] at ha
      cases ha
    obtain ⟨F', r, h⟩ := ih (k + m - k') (by omega) k' (by rw [show k' + (k + m - k') = k + m by omega]; exact hm)
    refine ⟨max F F', if d then (p * 2 + 1, k') else r, fun fuel attempts hf hat => ?_⟩
    obtain ⟨g, rfl⟩ : ∃ g, attempts = g + 1 := ⟨attempts - 1, by omega⟩
    rw [genSafePrime128, hgen fuel (by omega), Res.bind_ok]
    simp only [ha, hdd, Res.bind_ok, Bool.false_eq_true, if_false]
    cases d
    · exact h fuel g (by omega) (by omega)
    · rfl

/-- **C121** (default build) `u128`: for every bit size from 3 to 128 there is a word such that both generators return for every
stream in which it occurs -/
theorem C121_returns_on_some_word_u128 (bits : ℕ) (h3 : 3 ≤ bits) (hbits : bits ≤ 128) :
    ∃ v < 2 ^ 128, ∀ (src : RandSource), (∀ k, GoodDraws (src.draws k)) →
      (∀ k t config, config = none ∨ config = some .strict → fits (some 128) t = true →
        isPrimeNew .big (some 128) t config (src.draws k t) ≠ .timeout) → ∀ (k m : ℕ), src.value (k + m) = v →
      (∃ F r, ∀ fuel attempts, F ≤ fuel → m < attempts → genSafePrime128 .big src fuel bits attempts k = .ok r) ∧
      (∃ F r, ∀ fuel attempts, F ≤ fuel → m < attempts → genSafePrimeExact128 .big src fuel bits attempts k = .ok r) := by
  obtain ⟨s, hs, hs', hlo, hhi⟩ := exists_safe h3 hbits
  have hodd := odd_of_prime hs (by have := hs'.two_le; omega)
  have hlt : s * 2 ^ (128 - bits) < 2 ^ 128 := by
    calc s * 2 ^ (128 - bits) < 2 ^ bits * 2 ^ (128 - bits) := Nat.mul_lt_mul_of_pos_right hhi (by positivity)
      _ = 2 ^ 128 := by rw [← pow_add]; congr 1; omega
  have hcut : s * 2 ^ (128 - bits) % 2 ^ 128 / 2 ^ (128 - bits) = s := by
    rw [Nat.mod_eq_of_lt hlt, Nat.mul_div_cancel _ (by positivity)]
  refine ⟨s * 2 ^ (128 - bits), hlt, fun src hdr hen k m hv => ⟨?_, ?_⟩⟩
  · refine C121_safe_prime_returns_u128 src hdr hen bits (by omega) hbits s hs hs' m k ?_
    rw [hv, hcut, or_one_of_odd hodd]
  · refine C121_safe_prime_exact_returns_u128 src hdr hen bits (by omega) hbits s hs hs' m k ?_
    rw [hv, hcut, or_one_of_odd hodd, or_top hlo (by rwa [Nat.sub_add_cancel (by omega)])]

-- the hypotheses on the random bases can be met
example : ∃ src : RandSource, (∀ k, GoodDraws (src.draws k)) ∧ src.value 2 = 23 * 2 ^ 123 ∧
    ∀ k t config, config = none ∨ config = some .strict → fits (some 128) t = true →
      isPrimeNew .big (some 128) t config (src.draws k t) ≠ .timeout := by
  have hstd : StdWidth (some 128) := Or.inr ⟨128, by simp, rfl⟩
  refine ⟨⟨fun i => (31 - 4 * i) * 2 ^ 123, fun _ _ => [5, 7, 11]⟩, fun _ => draws_good, rfl, fun k t config hc hw => ?_⟩
  rcases hc with rfl | rfl
  · obtain ⟨r, hr⟩ := C14_is_prime_returns .big (some 128) hstd (smallPrimes .big) t hw none [5, 7, 11] (by decide +kernel)
    rw [isPrimeNew, hr]
    simp
  · exact strict_returns hstd hw

end NumPrime
