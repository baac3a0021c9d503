import Verif.Proofs.IsPrimeGen
import Verif.Proofs.NextPrime
import Verif.Props.IsPrime64
import Mathlib.NumberTheory.LucasPrimality
import Mathlib.Tactic.FieldSimp
import Mathlib.Tactic.Positivity

/-! # C14 – C18: the generic primality test, `Primality`, `is_safe_prime`

`list` is the content of the prime buffer, `draws` the values handed out by the random generator (a call that
would need more values is `timeout`). -/

namespace NumPrime
open Tables Spec

/-- **C14 (partial)** a prime is never rejected, for every configuration, every buffer content of nonzero `u64` values
and every sequence of random values that does not contain 0. Missing: the draw 0, for which the claim is false
(`C14_zero_witness_rejects`). -/
theorem C14_is_prime_prime_partial (bld : Build) (w : Width) (hstd : StdWidth w) (list : List ℕ) (p : ℕ) (hp : p.Prime)
    (hw : fits w p = true) (config : Option PrimalityTestConfig) (draws : List ℕ)
    (hl : ∀ x ∈ list, 0 < x ∧ x < 2 ^ 64) (hdr : ∀ x ∈ draws, 0 < x ∧ x < 2 ^ 64) :
    isPrime bld w list p config draws ≠ .ok .no ∧ isPrime bld w list p config draws ≠ .panic := by
  refine ⟨fun h => ?_, isPrime_ne_panic bld hstd list p hw config draws⟩
  rcases isPrime_prime bld hstd list hp hw config draws hl hdr _ h with h | h <;> simp at h

/-- **C14** the test returns as soon as the generator has produced enough different values not yet in the witness list -/
theorem C14_is_prime_returns (bld : Build) (w : Width) (hstd : StdWidth w) (list : List ℕ) (n : ℕ)
    (hw : fits w n = true) (config : Option PrimalityTestConfig) (draws : List ℕ)
    (hen : (config.getD .default).sprpRandomTrials ≤
      (draws.toFinset \ (list.take (config.getD .default).sprpTrials).toFinset).card) :
    ∃ r, isPrime bld w list n config draws = .ok r := by
  rcases Nat.lt_or_ge n (2 ^ 64) with h2 | h2
  · exact ⟨_, isPrime_below bld w list h2 config draws⟩
  · rcases Nat.mod_two_eq_zero_or_one n with h | h
    · exact ⟨_, isPrime_even bld w list h config draws⟩
    · obtain ⟨wl, hd⟩ := drawWitnesses_ok _ _ _ hen
      rcases isPrime_large bld hstd list h h2 hw config draws wl hd with ⟨h3, _⟩ | ⟨h3, _⟩ <;> exact ⟨_, h3⟩

theorem powm_ne {a e p : ℕ} (hp : 1 < p) (h : powm a e p ≠ 1) : (a : ZMod p) ^ e ≠ 1 := by
  intro hc
  apply h
  have h1 : ((powm a e p : ℕ) : ZMod p) = ((1 : ℕ) : ZMod p) := by rw [powm_cast, hc]; simp
  exact (natCast_inj_of_lt (powm_lt a e (by omega)) hp).mp h1

/-- a prime just above `2^64` -/
theorem prime_65bit : Nat.Prime 18446744073709551653 := by
  refine lucas_primality _ ((3 : ℕ) : ZMod 18446744073709551653) ?_ ?_
  · rw [← powm_cast]
    have : powm 3 (18446744073709551653 - 1) 18446744073709551653 = 1 := by decide +kernel
    rw [this]; simp
  · intro q hq hd
    have hf : 18446744073709551653 - 1 = 2 ^ 2 * 13 * 97 * 997 * 25873 * 141775993 := by norm_num
    have hmem : q = 2 ∨ q = 13 ∨ q = 97 ∨ q = 997 ∨ q = 25873 ∨ q = 141775993 := by
      rw [hf] at hd
      have e2 : Nat.Prime 2 := by norm_num
      have e13 : Nat.Prime 13 := by norm_num
      have e97 : Nat.Prime 97 := by norm_num
      have e997 : Nat.Prime 997 := by norm_num
      have e25873 : Nat.Prime 25873 := by norm_num
      have eb : Nat.Prime 141775993 := by norm_num
      rcases (Nat.Prime.dvd_mul hq).mp hd with hd | hd
      · rcases (Nat.Prime.dvd_mul hq).mp hd with hd | hd
        · rcases (Nat.Prime.dvd_mul hq).mp hd with hd | hd
          · rcases (Nat.Prime.dvd_mul hq).mp hd with hd | hd
            · rcases (Nat.Prime.dvd_mul hq).mp hd with hd | hd
              · exact Or.inl ((Nat.prime_dvd_prime_iff_eq hq e2).mp (hq.dvd_of_dvd_pow hd))
              · exact Or.inr (Or.inl ((Nat.prime_dvd_prime_iff_eq hq e13).mp hd))
            · exact Or.inr (Or.inr (Or.inl ((Nat.prime_dvd_prime_iff_eq hq e97).mp hd)))
          · exact Or.inr (Or.inr (Or.inr (Or.inl ((Nat.prime_dvd_prime_iff_eq hq e997).mp hd))))
        · exact Or.inr (Or.inr (Or.inr (Or.inr (Or.inl ((Nat.prime_dvd_prime_iff_eq hq e25873).mp hd)))))
      · exact Or.inr (Or.inr (Or.inr (Or.inr (Or.inr ((Nat.prime_dvd_prime_iff_eq hq eb).mp hd)))))
    apply powm_ne (by norm_num)
    rcases hmem with rfl | rfl | rfl | rfl | rfl | rfl <;> decide +kernel

/-- **C14, finding** if the random generator returns 0 as a witness, a prime is declared composite: 0 is a legal result of
`rand::random::<u64>()` and is not excluded -/
theorem C14_zero_witness_rejects (bld : Build) :
    Nat.Prime 18446744073709551653 ∧
    isPrime bld (some 128) (smallPrimes bld) 18446744073709551653 (some .strict) [0] = .ok .no := by
  refine ⟨prime_65bit, ?_⟩
  cases bld <;> decide +kernel

/-- **C14, finding in general** for every odd number from `2^64` on, prime or not: if random witnesses are configured and the first value
drawn is 0, the only possible answer is `No` (the fixed witnesses are the buffer primes, none of them 0) -/
theorem C14_zero_draw_rejects (bld : Build) (w : Width) (hstd : StdWidth w) (list : List ℕ) (n : ℕ) (hodd : n % 2 = 1)
    (h64 : 2 ^ 64 ≤ n) (hw : fits w n = true) (config : Option PrimalityTestConfig) (draws : List ℕ)
    (hl : ∀ x ∈ list, 0 < x) (hk : 0 < (config.getD .default).sprpRandomTrials) (r : Primality)
    (h : isPrime bld w list n config (0 :: draws) = .ok r) : r = .no := by
  cases hd : drawWitnesses (0 :: draws) (config.getD .default).sprpRandomTrials (list.take (config.getD .default).sprpTrials) with
  | panic => exact absurd hd (drawWitnesses_ne_panic _ _ _)
  | timeout => rw [isPrime_large_timeout bld list hodd h64 config _ hd] at h; simp at h
  | ok wl =>
    rcases isPrime_large bld hstd list hodd h64 hw config _ wl hd with ⟨h3, _⟩ | ⟨_, h4, _⟩
    · rw [h3] at h
      injection h with h
      exact h.symm
    · exfalso
      obtain ⟨k, hk'⟩ := Nat.exists_eq_succ_of_ne_zero hk.ne'
      have h0 : 0 ∉ list.take (config.getD .default).sprpTrials := fun hm => absurd (hl 0 (List.mem_of_mem_take hm)) (by omega)
      rw [hk', Nat.succ_eq_add_one, drawWitnesses, if_neg h0] at hd
      obtain ⟨ex, e1, -⟩ := drawWitnesses_spec _ _ _ _ hd
      have h5 := h4 0 (by rw [e1]; simp)
      rw [strongPRP_iff (by omega)] at h5
      have hne : (n - 1) >>> tz (n - 1) ≠ 0 := by
        obtain ⟨hu, -⟩ := tz_decomp (m := n - 1) (by omega)
        omega
      haveI : Fact (1 < n) := ⟨by omega⟩
      rcases h5 with h5 | ⟨r, -, h5⟩
      · rw [Nat.cast_zero, zero_pow hne] at h5
        exact zero_ne_one h5
      · rw [Nat.cast_zero, zero_pow (by positivity)] at h5
        exact one_ne_zero (neg_eq_zero.mp h5.symm)

-- the hypotheses of C14 are met: a 65-bit prime, default configuration, three random values
example (bld : Build) : ∃ r, isPrime bld (some 128) (smallPrimes bld) 18446744073709551653 none [2, 77, 77, 5, 123456789] = .ok r :=
  C14_is_prime_returns bld (some 128) (Or.inr ⟨128, by simp, rfl⟩) (smallPrimes bld) _ (by decide) none _
    (by cases bld <;> decide +kernel)

/-- **C15** `Yes` is only answered below `2^64` (or for 2), where the answer is the deterministic `is_prime64` -/
theorem C15_below_2_64 (bld : Build) (w : Width) (list : List ℕ) (n : ℕ) (h : n < 2 ^ 64)
    (config : Option PrimalityTestConfig) (draws : List ℕ) :
    isPrime bld w list n config draws = .ok (if isPrime64 bld n then .yes else .no) :=
  isPrime_below bld w list h config draws

/-- **C15** from `2^64` on the answer is `No`, or `Probable` with the probability that belongs to the configuration;
never `Yes` -/
theorem C15_above_2_64 (bld : Build) (w : Width) (hstd : StdWidth w) (list : List ℕ) (n : ℕ) (hw : fits w n = true)
    (h64 : 2 ^ 64 ≤ n) (config : Option PrimalityTestConfig) (draws : List ℕ) (r : Primality)
    (h : isPrime bld w list n config draws = .ok r) :
    r = .no ∨ r = .probable (probability (config.getD .default)) := by
  rcases Nat.mod_two_eq_zero_or_one n with h0 | h0
  · rw [isPrime_even bld w list h0, if_neg (by omega)] at h
    left; injection h with h; exact h.symm
  · cases hd : drawWitnesses draws (config.getD .default).sprpRandomTrials (list.take (config.getD .default).sprpTrials) with
    | panic => exact absurd hd (drawWitnesses_ne_panic _ _ _)
    | timeout => rw [isPrime_large_timeout bld list h0 h64 config draws hd] at h; simp at h
    | ok wl =>
      rcases isPrime_large bld hstd list h0 h64 hw config draws wl hd with ⟨h3, _⟩ | ⟨h3, _⟩ <;>
        · rw [h3] at h; injection h with h; simp [← h]

/-- **C15** `No` is only answered for numbers that are not prime (draws and buffer without 0, see C14) -/
theorem C15_no_is_composite_partial (bld : Build) (w : Width) (hstd : StdWidth w) (list : List ℕ) (n : ℕ) (hw : fits w n = true)
    (config : Option PrimalityTestConfig) (draws : List ℕ) (hl : ∀ x ∈ list, 0 < x ∧ x < 2 ^ 64)
    (hdr : ∀ x ∈ draws, 0 < x ∧ x < 2 ^ 64) (h : isPrime bld w list n config draws = .ok .no) : ¬ n.Prime :=
  fun hp => (C14_is_prime_prime_partial bld w hstd list n hp hw config draws hl hdr).1 h

/-- **C16** an accepted `n ≥ 2^64` is odd, a strong probable prime to each of the first `sprp_trials` buffer primes and to
`sprp_random_trials` further random bases, and passes the Lucas tests that are switched on -/
theorem C16_accepted_passes (bld : Build) (w : Width) (hstd : StdWidth w) (list : List ℕ) (n : ℕ) (hw : fits w n = true)
    (h64 : 2 ^ 64 ≤ n) (config : PrimalityTestConfig) (draws : List ℕ) (r : Primality)
    (h : isPrime bld w list n (some config) draws = .ok r) (hr : r.probably = true) :
    n % 2 = 1 ∧ (∀ b ∈ list.take config.sprpTrials, StrongPRP n b) ∧
    (∃ ex : List ℕ, ex.length = config.sprpRandomTrials ∧ ex.Nodup ∧ (∀ b ∈ ex, b ∈ draws) ∧ ∀ b ∈ ex, StrongPRP n b) ∧
    (config.slprpTest = true → ∃ P Q, jacobiSym ((P : ℤ) ^ 2 - 4 * Q) n = -1 ∧
      (StrongLucasPRP n P Q ∨ lucasV P Q (n + 1) ≡ 0 [ZMOD n])) ∧
    (config.eslprpTest = true → ∃ P : ℤ, 3 ≤ P ∧ jacobiSym (P ^ 2 - 4) n = -1 ∧ ExtraStrongLucasPRP n P) := by
  rcases Nat.mod_two_eq_zero_or_one n with h0 | h0
  · rw [isPrime_even bld w list h0, if_neg (by omega)] at h
    injection h with h
    rw [← h] at hr
    simp [Primality.probably] at hr
  · refine ⟨h0, ?_⟩
    cases hd : drawWitnesses draws ((some config).getD .default).sprpRandomTrials
        (list.take ((some config).getD .default).sprpTrials) with
    | panic => exact absurd hd (drawWitnesses_ne_panic _ _ _)
    | timeout => rw [isPrime_large_timeout bld list h0 h64 (some config) draws hd] at h; simp at h
    | ok wl =>
      rcases isPrime_large bld hstd list h0 h64 hw (some config) draws wl hd with ⟨h3, _⟩ | ⟨h3, h4, h5, h6⟩
      · rw [h3] at h
        injection h with h
        rw [← h] at hr
        simp [Primality.probably] at hr
      · obtain ⟨ex, rfl, x2, x3, x4⟩ := drawWitnesses_spec _ _ _ _ hd
        refine ⟨fun b hb => h4 b (List.mem_append_left _ hb),
          ⟨ex, x2, x4, fun b hb => (x3 b hb).1, fun b hb => h4 b (List.mem_append_right _ hb)⟩, ?_, ?_⟩
        · intro hs
          obtain ⟨v, y1, y2⟩ := isSlprp_total bld hstd h64 h0 hw
          rw [h5 hs] at y1
          injection y1 with y1
          obtain ⟨Q, z3, z4⟩ := y2 y1.symm
          exact ⟨1, Q, by simpa using z3, z4⟩
        · intro hs
          obtain ⟨v, y1, y2⟩ := isEslprp_total bld hstd h64 h0 hw
          rw [h6 hs] at y1
          injection y1 with y1
          obtain ⟨P, z1, z2, z3⟩ := y2 y1.symm
          exact ⟨P, by exact_mod_cast z1, z2, z3⟩

/-- **C16** acceptance under `strict()` implies acceptance under `bpsw()` (which draws nothing) -/
theorem C16_strict_imp_bpsw (bld : Build) (w : Width) (hstd : StdWidth w) (list : List ℕ) (n : ℕ) (hw : fits w n = true)
    (draws draws' : List ℕ) (r : Primality)
    (h : isPrime bld w list n (some .strict) draws = .ok r) (hr : r.probably = true) :
    ∃ r', isPrime bld w list n (some .bpsw) draws' = .ok r' ∧ r'.probably = true := by
  rcases Nat.lt_or_ge n (2 ^ 64) with h2 | h2
  · rw [isPrime_below bld w list h2] at h
    rw [isPrime_below bld w list h2]
    injection h with h
    exact ⟨_, rfl, by rw [h]; exact hr⟩
  · rcases Nat.mod_two_eq_zero_or_one n with h0 | h0
    · rw [isPrime_even bld w list h0] at h
      rw [isPrime_even bld w list h0]
      injection h with h
      exact ⟨_, rfl, by rw [h]; exact hr⟩
    · cases hd : drawWitnesses draws ((some PrimalityTestConfig.strict).getD .default).sprpRandomTrials
        (list.take ((some PrimalityTestConfig.strict).getD .default).sprpTrials) with
      | panic => exact absurd hd (drawWitnesses_ne_panic _ _ _)
      | timeout => rw [isPrime_large_timeout bld list h0 h2 _ draws hd] at h; simp at h
      | ok wl =>
        rcases isPrime_large bld hstd list h0 h2 hw _ draws wl hd with ⟨h3, _⟩ | ⟨h3, h4, h5, h6⟩
        · rw [h3] at h
          injection h with h
          rw [← h] at hr
          simp [Primality.probably] at hr
        · obtain ⟨ex, rfl, _⟩ := drawWitnesses_spec _ _ _ _ hd
          obtain ⟨v, hv1, hv2⟩ := allSprp_spec (by omega : 2 < n) h0 hw (list.take 1)
          have hv : v = true := hv2.mpr fun b hb => h4 b (List.mem_append_left _ hb)
          subst hv
          have hsl := h5 rfl
          refine ⟨.probable (probability .bpsw), ?_, rfl⟩
          have g0 : ¬ n % 2 = 0 := by omega
          have g1 : ¬ n < 2 ^ 64 := by omega
          simp only [isPrime, g0, g1, if_false, Option.getD_some, PrimalityTestConfig.bpsw, drawWitnesses, Res.bind_ok, hv1,
            hsl, Bool.not_true, Bool.false_eq_true, if_true, Res.pure_def]

-- the hypotheses of C16 are met
example : isPrime .big (some 128) (smallPrimes .big) 18446744073709551653 (some .strict) [12345] =
    .ok (.probable (probability .strict)) := by decide +kernel

/-- **C17** `probably` of a conjunction / disjunction -/
theorem C17_probably (a b : Primality) :
    (a.and b).probably = (a.probably && b.probably) ∧ (a.or b).probably = (a.probably || b.probably) := by
  cases a <;> cases b <;> simp [Primality.and, Primality.or, Primality.probably]

/-- **C18** soundness relative to the test: an answer other than `No` means that both `n` and `(n-1)/2` (that is
`n >> 1`) were accepted by the strict primality test, and `n` is odd (or 2) -/
theorem C18_is_safe_prime_accepts (bld : Build) (w : Width) (n : ℕ) (d1 d2 : List ℕ) (r : Primality)
    (h : isSafePrime bld w n d1 d2 = .ok r) (hr : r.probably = true) :
    (∃ r1, isPrimeNew bld w (n / 2) (some .strict) d1 = .ok r1 ∧ r1.probably = true) ∧
    (∃ r2, isPrimeNew bld w n (some .strict) d2 = .ok r2 ∧ r2.probably = true) ∧ n % 2 = 1 := by
  unfold isSafePrime at h
  rw [Nat.shiftRight_eq_div_pow, pow_one, Res.bind_eq_ok] at h
  obtain ⟨r1, h1, h2⟩ := h
  have h3 : ∃ r2, isPrimeNew bld w n (some .strict) d2 = .ok r2 ∧ r2.probably = true ∧ r1.probably = true := by
    cases r1 with
    | no =>
      simp only [Res.pure_def, Res.ok.injEq] at h2
      subst h2; simp [Primality.probably] at hr
    | yes =>
      simp only [Res.bind_eq_ok] at h2
      obtain ⟨r2, h4, h5⟩ := h2
      simp only [Res.pure_def, Res.ok.injEq] at h5
      subst h5
      rw [(C17_probably _ _).1, Bool.and_eq_true] at hr
      exact ⟨r2, h4, hr.1, hr.2⟩
    | probable p =>
      simp only [Res.bind_eq_ok] at h2
      obtain ⟨r2, h4, h5⟩ := h2
      simp only [Res.pure_def, Res.ok.injEq] at h5
      subst h5
      rw [(C17_probably _ _).1, Bool.and_eq_true] at hr
      exact ⟨r2, h4, hr.1, hr.2⟩
  obtain ⟨r2, h4, h5, h6⟩ := h3
  refine ⟨⟨r1, h1, h6⟩, ⟨r2, h4, h5⟩, ?_⟩
  rcases Nat.mod_two_eq_zero_or_one n with h0 | h0
  · rw [isPrimeNew, isPrime_even bld w _ h0] at h4
    by_cases hn : n = 2
    · subst hn
      rw [isPrimeNew, isPrime_below bld w _ (by norm_num)] at h1
      have : isPrime64 bld (2 / 2) = false := by
        rw [Bool.eq_false_iff]; intro h
        have := C68_table_exact bld 1 (by have := le_smallPrimesNext bld; omega)
        exact Nat.not_prime_one (this.mp h)
      rw [this] at h1
      injection h1 with h1
      rw [← h1] at h6; simp [Primality.probably] at h6
    · rw [if_neg hn] at h4
      injection h4 with h4
      rw [← h4] at h5; simp [Primality.probably] at h5
  · exact h0

/-- **C18** completeness: a safe prime is never answered `No` (random witnesses other than 0) -/
theorem C18_is_safe_prime_complete (bld : Build) (w : Width) (hstd : StdWidth w) (q : ℕ) (hq : q.Prime)
    (hp : (2 * q + 1).Prime) (hw : fits w (2 * q + 1) = true) (d1 d2 : List ℕ) (h1 : ∀ x ∈ d1, 0 < x ∧ x < 2 ^ 64)
    (h2 : ∀ x ∈ d2, 0 < x ∧ x < 2 ^ 64) (r : Primality)
    (h : isSafePrime bld w (2 * q + 1) d1 d2 = .ok r) : r.probably = true := by
  unfold isSafePrime at h
  have e : (2 * q + 1) >>> 1 = q := by rw [Nat.shiftRight_eq_div_pow]; omega
  rw [e, Res.bind_eq_ok] at h
  obtain ⟨r1, h3, h4⟩ := h
  have h5 := isPrimeNew_prime bld hstd hq (fits_mono (by omega) hw) _ h1 h3
  have key : ∀ r2, isPrimeNew bld w (2 * q + 1) (some .strict) d2 = .ok r2 → r2.probably = true :=
    fun r2 h6 => isPrimeNew_prime bld hstd hp hw _ h2 h6
  cases r1 with
  | no => simp [Primality.probably] at h5
  | yes =>
    simp only [Res.bind_eq_ok] at h4
    obtain ⟨r2, h6, h7⟩ := h4
    simp only [Res.pure_def, Res.ok.injEq] at h7
    rw [← h7, (C17_probably _ _).1, key r2 h6]; rfl
  | probable p =>
    simp only [Res.bind_eq_ok] at h4
    obtain ⟨r2, h6, h7⟩ := h4
    simp only [Res.pure_def, Res.ok.injEq] at h7
    rw [← h7, (C17_probably _ _).1, key r2 h6]; rfl

theorem isSafePrime_exact (bld : Build) (w : Width) (n : ℕ) (h64 : n < 2 ^ 64)
    (hexact : ∀ m ≤ n, (isPrime64 bld m = true ↔ m.Prime)) (d1 d2 : List ℕ) :
    (isSafePrime bld w n d1 d2 = .ok .yes ∧ n.Prime ∧ ((n - 1) / 2).Prime) ∨
    (isSafePrime bld w n d1 d2 = .ok .no ∧ ¬ (n.Prime ∧ ((n - 1) / 2).Prime)) := by
  unfold isSafePrime isPrimeNew
  rw [Nat.shiftRight_eq_div_pow, pow_one, isPrime_below bld w _ (by omega), isPrime_below bld w _ h64, Res.bind_ok]
  have h1 := hexact (n / 2) (by omega)
  have h2 := hexact n le_rfl
  have hdiv : n.Prime → n ≠ 2 → (n - 1) / 2 = n / 2 := fun hp hn => by
    rcases hp.eq_two_or_odd with h | h
    · exact absurd h hn
    · omega
  by_cases ha : (n / 2).Prime
  · rw [h1.mpr ha]
    by_cases hb : n.Prime
    · left
      have hne : n ≠ 2 := by rintro rfl; exact Nat.not_prime_one ha
      rw [h2.mpr hb, hdiv hb hne]
      exact ⟨rfl, hb, ha⟩
    · right
      have : isPrime64 bld n = false := by rw [Bool.eq_false_iff]; exact fun h => hb (h2.mp h)
      rw [this]
      exact ⟨rfl, fun h => hb h.1⟩
  · right
    have : isPrime64 bld (n / 2) = false := by rw [Bool.eq_false_iff]; exact fun h => ha (h1.mp h)
    rw [this]
    refine ⟨rfl, ?_⟩
    rintro ⟨h3, h4⟩
    by_cases hn : n = 2
    · subst hn; exact Nat.not_prime_zero h4
    · rw [hdiv h3 hn] at h4; exact ha h4

/-- **C18** for `u64` values, given that `is_prime64` is exact: `is_safe_prime(n)` answers `Yes` when `n` and `(n-1)/2` are
both prime, and `No` otherwise -/
theorem C18_is_safe_prime_u64 (bld : Build) (hex : NoPseudoprimes bld) (w : Width) (n : ℕ) (h64 : n < 2 ^ 64) (d1 d2 : List ℕ) :
    (isSafePrime bld w n d1 d2 = .ok .yes ∧ n.Prime ∧ ((n - 1) / 2).Prime) ∨
    (isSafePrime bld w n d1 d2 = .ok .no ∧ ¬ (n.Prime ∧ ((n - 1) / 2).Prime)) :=
  isSafePrime_exact bld w n h64 (fun m hm => (C02_is_prime64_exact_partial bld).mpr hex m (by omega)) d1 d2

/-- **C18** up to `2^16` the same without any assumption -/
theorem C18_is_safe_prime_u16 (bld : Build) (w : Width) (n : ℕ) (h16 : n < 2 ^ 16) (d1 d2 : List ℕ) :
    (isSafePrime bld w n d1 d2 = .ok .yes ∧ n.Prime ∧ ((n - 1) / 2).Prime) ∨
    (isSafePrime bld w n d1 d2 = .ok .no ∧ ¬ (n.Prime ∧ ((n - 1) / 2).Prime)) :=
  isSafePrime_exact bld w n (by omega) (fun m hm => C02_is_prime64_exact_u16_partial bld m (by omega)) d1 d2

example : isSafePrime .big (some 64) 10007 [] [] = .ok .yes ∧ isSafePrime .small (some 64) 10009 [] [] = .ok .no := by decide +kernel

end NumPrime
