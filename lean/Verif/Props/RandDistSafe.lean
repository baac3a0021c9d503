import Verif.Props.RandDistSmall

/-! # C118: from which random words the generators of safe primes return a given one -/

namespace NumPrime
open Spec Tables

theorem isPrime64_even' (bld : Build) {t : ℕ} (h0 : t % 2 = 0) (h64 : t < 2 ^ 64) : isPrime64 bld t = decide (t = 2) := by
  have h1 := isPrime_below bld none (smallPrimes bld) h64 none []
  rw [isPrime_even bld none _ h0] at h1
  injection h1 with h1
  by_cases h : t = 2
  · rw [if_pos h] at h1
    cases hb : isPrime64 bld t
    · simp [hb] at h1
    · simp [h]
  · rw [if_neg h] at h1
    cases hb : isPrime64 bld t
    · simp [h]
    · simp [hb] at h1

theorem testMint_below' (bld : Build) (src : RandSource) (config : Option PrimalityTestConfig) (k t : ℕ) (h64 : t < 2 ^ 64) :
    testMint bld src config k t = .ok (isPrime64 bld t) := by
  rcases Nat.mod_two_eq_zero_or_one t with h0 | h1
  · rw [isPrime64_even' bld h0 h64]
    simp only [testMint, mIsPrime]
    by_cases h : t = 2
    · subst h; rfl
    · simp [Mint.isEven, Mint.value, h0, Mint.eq, Res.bind_ok, h, Res.pure_def, Res.mapR_ok, Primality.probably]
  · exact testMint_below bld src config k t h1 h64

theorem test_iff {bld : Build} {b : ℕ} (hN : TestExactBelow bld (2 ^ b)) {x : ℕ} (hx : x < 2 ^ b) : isPrime64 bld x = true ↔ x.Prime :=
  ⟨hN.2 x hx, fun h => isPrime64_prime bld h⟩

/-- what is used of a generator of primes `G`: it starts at `t` with the word `v` -/
structure Starts (bld : Build) (b : ℕ) (G : RandSource → ℕ → ℕ → Res (ℕ × ℕ)) (v t : ℕ) : Prop where
  yields : ∀ p, IsFirstPrime t p → p < 2 ^ b → ¬ NextPanics bld t → Yields G v p
  ge : ∀ src k fuel p, src.value k = v → G src fuel k = .ok (p, k + 1) → t ≤ p ∧ ¬ NextPanics bld t
  adv : ∀ src k fuel p k', G src fuel k = .ok (p, k') → k < k'

theorem starts_loop {bld : Build} {b : ℕ} (hb : PrimWidth b) (hN : TestExactBelow bld (2 ^ b)) {w : Width} (hw : Wider (some b) w)
    {config : Option PrimalityTestConfig} {mk : RandSource → ℕ → Res ℕ} {test : RandSource → ℕ → ℕ → Res Bool} {v t : ℕ}
    (hmk : ∀ src k, src.value k = v → mk src k = .ok t) (htest : ∀ src k, test src k t = .ok (isPrime64 bld t)) :
    Starts bld b (fun src fuel k => genLoop (mk src) (test src) (fun k t => nextPrime bld w t config (src.draws k) fuel) fuel k) v t where
  yields p h hpb hbad src k hv :=
    genLoop_first_wide (next := fun fuel k t => nextPrime bld w t config (src.draws k) fuel) hb hN hw (hmk src k hv)
      (htest src k) (fun _ => rfl) h hpb hbad
  ge src k fuel p hv h := by
    obtain ⟨j, s, h1, h2, h3, h4⟩ := genLoop_spec _ _ _ _ h
    obtain rfl : j = k := by omega
    rw [hmk src j hv] at h3
    injection h3 with h3
    subst h3
    rw [htest] at h4
    rcases h4 with ⟨h4, h5⟩ | ⟨h4, h5⟩
    · injection h4 with h4
      refine ⟨h5.ge, ?_⟩
      rintro ⟨rfl, c2, c3⟩
      have := (testExact_u16 .small).2 t (by omega) h4
      interval_cases t <;> revert this <;> norm_num
    · refine ⟨(nextPrime_accepted bld w t config _ fuel p h5).1, ?_⟩
      rintro ⟨rfl, c2, c3⟩
      rw [C21_next_prime_panics _ t c2 c3] at h5
      simp at h5
  adv src k fuel p k' h := by
    obtain ⟨j, s, h1, h2, h3, h4⟩ := genLoop_spec _ _ _ _ h
    omega

/-- what is used of a generator of safe primes `S` built on `G`; `dbl` tells whether it also tries `2p + 1` -/
structure SafeGen (bld : Build) (b : ℕ) (dbl : Prop) (G : RandSource → ℕ → ℕ → Res (ℕ × ℕ))
    (S : RandSource → ℕ → ℕ → ℕ → Res (ℕ × ℕ)) : Prop where
  half : ∀ src fuel f k p k', G src fuel k = .ok (p, k') → p < 2 ^ b → (p / 2).Prime → S src fuel (f + 1) k = .ok (p, k')
  double : dbl → ∀ src fuel f k p k', G src fuel k = .ok (p, k') → 2 * p + 1 < 2 ^ b → ¬ (p / 2).Prime → (2 * p + 1).Prime →
    S src fuel (f + 1) k = .ok (2 * p + 1, k')
  conv : ∀ src fuel f k s k'', S src fuel f k = .ok (s, k'') → ∃ p k', G src fuel k = .ok (p, k') ∧
    (s = p ∧ k'' = k' ∧ (p < 2 ^ b → (p / 2).Prime) ∨ dbl ∧ s = 2 * p + 1 ∧ k'' = k' ∧ (p < 2 ^ b → ¬ (p / 2).Prime) ∨
      ∃ f', f = f' + 1 ∧ S src fuel f' k' = .ok (s, k''))

theorem SafeGen.adv {bld : Build} {b : ℕ} {dbl : Prop} {G : RandSource → ℕ → ℕ → Res (ℕ × ℕ)} {S : RandSource → ℕ → ℕ → ℕ → Res (ℕ × ℕ)}
    (hS : SafeGen bld b dbl G S) (hG : ∀ src k fuel p k', G src fuel k = .ok (p, k') → k < k') (src : RandSource) (fuel s k'' : ℕ) (f : ℕ) :
    ∀ k, S src fuel f k = .ok (s, k'') → k < k'' := by
  induction f with
  | zero =>
    intro k h
    obtain ⟨p, k', h1, h2⟩ := hS.conv src fuel _ k s k'' h
    have := hG _ _ _ _ _ h1
    rcases h2 with ⟨-, rfl, -⟩ | ⟨-, -, rfl, -⟩ | ⟨f', h3, -⟩
    · exact this
    · exact this
    · omega
  | succ n ih =>
    intro k h
    obtain ⟨p, k', h1, h2⟩ := hS.conv src fuel _ k s k'' h
    have := hG _ _ _ _ _ h1
    rcases h2 with ⟨-, rfl, -⟩ | ⟨-, -, rfl, -⟩ | ⟨f', h3, h4⟩
    · exact this
    · exact this
    · obtain rfl : n = f' := by omega
      have := ih k' h4
      omega

/-- the words from which a safe prime `2h + 1` is returned -/
theorem safe_yields_iff {bld : Build} {b : ℕ} {dbl : Prop} {G : RandSource → ℕ → ℕ → Res (ℕ × ℕ)}
    {S : RandSource → ℕ → ℕ → ℕ → Res (ℕ × ℕ)} (hS : SafeGen bld b dbl G S) {v t h : ℕ} (hG : Starts bld b G v t)
    (hs : (2 * h + 1).Prime) (hh : h.Prime) (hsb : 2 * h + 1 < 2 ^ b) :
    Yields (fun src fuel k => S src fuel fuel k) v (2 * h + 1) ↔
      IsFirstPrime t (2 * h + 1) ∨ dbl ∧ IsFirstPrime t h ∧ ¬ (h / 2).Prime := by
  have hpan1 : ∀ {t}, IsFirstPrime t (2 * h + 1) → ¬ NextPanics bld t := fun h1 => not_nextPanics h1 (by
    rintro ⟨-, h2⟩
    obtain rfl : h = 128 := by omega
    revert hh; norm_num)
  have hpan2 : ∀ {t}, IsFirstPrime t h → ¬ NextPanics bld t := fun h1 => not_nextPanics h1 (by
    rintro ⟨-, rfl⟩
    revert hs; norm_num)
  have hhalf : (2 * h + 1) / 2 = h := by omega
  constructor
  · intro hy
    obtain ⟨F, hF⟩ := hy ⟨fun _ => v, fun _ _ => []⟩ 0 rfl
    have step : ∀ fuel, F ≤ fuel → ∃ p, G ⟨fun _ => v, fun _ _ => []⟩ fuel 0 = .ok (p, 1) ∧
        (2 * h + 1 = p ∨ dbl ∧ h = p ∧ ¬ (h / 2).Prime) := by
      intro fuel hf
      obtain ⟨p, k', h1, h2⟩ := hS.conv _ _ _ _ _ _ (hF fuel hf)
      have hk := hG.adv _ _ _ _ _ h1
      rcases h2 with ⟨h3, h4, -⟩ | ⟨h0, h3, h4, h5⟩ | ⟨f', -, h3⟩
      · obtain rfl : k' = 1 := by omega
        exact ⟨p, h1, Or.inl h3⟩
      · obtain rfl : k' = 1 := by omega
        obtain rfl : h = p := by omega
        exact ⟨h, h1, Or.inr ⟨h0, rfl, h5 (by omega)⟩⟩
      · have := hS.adv hG.adv _ _ _ _ _ _ h3
        omega
    obtain ⟨p, h1, h2⟩ := step F le_rfl
    obtain ⟨h3, h4⟩ := hG.ge _ _ _ _ rfl h1
    have hpp : p.Prime := by rcases h2 with rfl | ⟨-, rfl, -⟩ <;> assumption
    have hpb : p < 2 ^ b := by omega
    obtain ⟨r, hr⟩ := exists_first t
    have hrp : r ≤ p := hr.2 ⟨hpp, h3⟩
    obtain ⟨F', hF'⟩ := hG.yields r hr (by omega) h4 ⟨fun _ => v, fun _ _ => []⟩ 0 rfl
    obtain ⟨p', h5, h6⟩ := step (max F F') (le_max_left _ _)
    have e := h5.symm.trans (hF' (max F F') (le_max_right _ _))
    injection e with e
    injection e with e1 e2
    subst e1
    rcases h6 with rfl | ⟨h0, rfl, h7⟩
    · exact Or.inl hr
    · exact Or.inr ⟨h0, hr, h7⟩
  · rintro (h1 | ⟨h0, h1, h2⟩) src k hv
    · obtain ⟨F, hF⟩ := hG.yields _ h1 hsb (hpan1 h1) src k hv
      refine ⟨F + 1, fun fuel hf => ?_⟩
      obtain ⟨f, rfl⟩ : ∃ f, fuel = f + 1 := ⟨fuel - 1, by omega⟩
      exact hS.half _ _ _ _ _ _ (hF _ (by omega)) hsb (by rwa [hhalf])
    · obtain ⟨F, hF⟩ := hG.yields _ h1 (by omega) (hpan2 h1) src k hv
      refine ⟨F + 1, fun fuel hf => ?_⟩
      obtain ⟨f, rfl⟩ : ∃ f, fuel = f + 1 := ⟨fuel - 1, by omega⟩
      exact hS.double h0 _ _ _ _ _ _ (hF _ (by omega)) hsb h2 hs

/-! ## the six generators -/

theorem safeGen_prim {bld : Build} {b : ℕ} (hN : TestExactBelow bld (2 ^ b)) (bits : ℕ) :
    SafeGen bld b True (fun src fuel k => genPrimePrim bld src b fuel bits k) (fun src fuel f k => genSafePrimePrim bld src b fuel bits f k) where
  half src fuel f k p k' h hp hh := by
    have : isPrime64 bld (p / 2) = true := (test_iff hN (by omega)).mpr hh
    simp only [genSafePrimePrim, h, Res.bind_ok, Nat.shiftRight_one, this, if_true]
    rfl
  double _ src fuel f k p k' h hp hh hd := by
    have h1 : isPrime64 bld (p / 2) = false := by
      rw [← Bool.not_eq_true, test_iff hN (by omega)]; exact hh
    have h2 : isPrime64 bld (p * 2 + 1) = true := (test_iff hN (by omega)).mpr (by rwa [mul_comm p 2])
    have h3 : fits (some b) (p * 2 + 1) = true := lt_fits (by omega)
    simp only [genSafePrimePrim, h, Res.bind_ok, Nat.shiftRight_one, h1, h2, h3, Bool.false_eq_true, if_false, and_self, if_true]
    rw [mul_comm p 2]; rfl
  conv src fuel f k s k'' h := by
    cases f with
    | zero => simp [genSafePrimePrim] at h
    | succ f =>
      simp only [genSafePrimePrim] at h
      obtain ⟨⟨p, k'⟩, h1, h2⟩ := Res.bind_eq_ok.mp h
      refine ⟨p, k', h1, ?_⟩
      simp only [Nat.shiftRight_one] at h2
      split at h2
      · rename_i hc
        simp only [Res.pure_def, Res.ok.injEq, Prod.mk.injEq] at h2
        exact Or.inl ⟨h2.1.symm, h2.2.symm, fun hp => (test_iff hN (by omega)).mp hc⟩
      · rename_i hc
        split at h2
        · simp only [Res.pure_def, Res.ok.injEq, Prod.mk.injEq] at h2
          exact Or.inr (Or.inl ⟨trivial, by omega, h2.2.symm, fun hp hq => hc ((test_iff hN (by omega)).mpr hq)⟩)
        · exact Or.inr (Or.inr ⟨f, rfl, h2⟩)

theorem safeGen_exactPrim {bld : Build} {b : ℕ} (hN : TestExactBelow bld (2 ^ b)) (bits : ℕ) :
    SafeGen bld b False (fun src fuel k => genPrimeExactPrim bld src b fuel bits k)
      (fun src fuel f k => genSafePrimeExactPrim bld src b fuel bits f k) where
  half src fuel f k p k' h hp hh := by
    have : isPrime64 bld (p / 2) = true := (test_iff hN (by omega)).mpr hh
    simp only [genSafePrimeExactPrim, h, Res.bind_ok, Nat.shiftRight_one, this, if_true]
    rfl
  double h := h.elim
  conv src fuel f k s k'' h := by
    cases f with
    | zero => simp [genSafePrimeExactPrim] at h
    | succ f =>
      simp only [genSafePrimeExactPrim] at h
      obtain ⟨⟨p, k'⟩, h1, h2⟩ := Res.bind_eq_ok.mp h
      refine ⟨p, k', h1, ?_⟩
      simp only [Nat.shiftRight_one] at h2
      split at h2
      · rename_i hc
        simp only [Res.pure_def, Res.ok.injEq, Prod.mk.injEq] at h2
        exact Or.inl ⟨h2.1.symm, h2.2.symm, fun hp => (test_iff hN (by omega)).mp hc⟩
      · exact Or.inr (Or.inr ⟨f, rfl, h2⟩)

theorem safeGen_128 {bld : Build} {b : ℕ} (hb : PrimWidth b) (hN : TestExactBelow bld (2 ^ b)) (bits : ℕ) :
    SafeGen bld b True (fun src fuel k => genPrime128 bld src (some .strict) fuel bits k)
      (fun src fuel f k => genSafePrime128 bld src fuel bits f k) where
  half src fuel f k p k' h hp hh := by
    have h64 : 2 ^ b ≤ 2 ^ 64 := Nat.pow_le_pow_right (by norm_num) hb.le
    have h1 : isPrime64 bld (p / 2) = true := (test_iff hN (by omega)).mpr hh
    have h2 : testMint bld src (some .strict) k' (p / 2) = .ok (isPrime64 bld (p / 2)) := testMint_below' _ _ _ _ _ (by omega)
    simp only [genSafePrime128, h, Res.bind_ok, Nat.shiftRight_one, h2, h1, if_true]
    rfl
  double _ src fuel f k p k' h hp hh hd := by
    have h64 : 2 ^ b ≤ 2 ^ 64 := Nat.pow_le_pow_right (by norm_num) hb.le
    have h1 : isPrime64 bld (p / 2) = false := by
      rw [← Bool.not_eq_true, test_iff hN (by omega)]; exact hh
    have h2 : isPrime64 bld (p * 2 + 1) = true := (test_iff hN (by omega)).mpr (by rwa [mul_comm p 2])
    have h3 : fits (some 128) (p * 2 + 1) = true := lt_fits (by omega)
    have h4 : testMint bld src (some .strict) k' (p / 2) = .ok (isPrime64 bld (p / 2)) := testMint_below' _ _ _ _ _ (by omega)
    have h5 : testPlain bld (some 128) src (some .strict) k' (p * 2 + 1) = .ok (isPrime64 bld (p * 2 + 1)) :=
      testPlain_below _ _ _ _ _ _ (by omega)
    simp only [genSafePrime128, h, Res.bind_ok, Nat.shiftRight_one, h4, h1, h3, h5, h2, Bool.false_eq_true, if_false, if_true]
    rw [mul_comm p 2]; rfl
  conv src fuel f k s k'' h := by
    have h64 : 2 ^ b ≤ 2 ^ 64 := Nat.pow_le_pow_right (by norm_num) hb.le
    cases f with
    | zero => simp [genSafePrime128] at h
    | succ f =>
      simp only [genSafePrime128] at h
      obtain ⟨⟨p, k'⟩, h1, h2⟩ := Res.bind_eq_ok.mp h
      refine ⟨p, k', h1, ?_⟩
      simp only [Nat.shiftRight_one] at h2
      obtain ⟨c, hc, h2⟩ := Res.bind_eq_ok.mp h2
      have hcc : p < 2 ^ b → c = isPrime64 bld (p / 2) := fun hp => by
        rw [testMint_below' _ _ _ _ _ (by omega)] at hc
        injection hc with hc
        exact hc.symm
      split at h2
      · rename_i hct
        simp only [Res.pure_def, Res.ok.injEq, Prod.mk.injEq] at h2
        exact Or.inl ⟨h2.1.symm, h2.2.symm, fun hp => (test_iff hN (by omega)).mp ((hcc hp).symm.trans hct)⟩
      · rename_i hct
        obtain ⟨d, hd, h2⟩ := Res.bind_eq_ok.mp h2
        split at h2
        · simp only [Res.pure_def, Res.ok.injEq, Prod.mk.injEq] at h2
          refine Or.inr (Or.inl ⟨trivial, ?_, h2.2.symm, fun hp hq => hct ((hcc hp).trans ((test_iff hN (by omega)).mpr hq))⟩)
          omega
        · exact Or.inr (Or.inr ⟨f, rfl, h2⟩)

theorem safeGen_exact128 {bld : Build} {b : ℕ} (hb : PrimWidth b) (hN : TestExactBelow bld (2 ^ b)) (bits : ℕ) :
    SafeGen bld b False (fun src fuel k => genPrimeExact128 bld src (some .strict) fuel bits k)
      (fun src fuel f k => genSafePrimeExact128 bld src fuel bits f k) where
  half src fuel f k p k' h hp hh := by
    have h64 : 2 ^ b ≤ 2 ^ 64 := Nat.pow_le_pow_right (by norm_num) hb.le
    have h1 : isPrime64 bld (p / 2) = true := (test_iff hN (by omega)).mpr hh
    have h2 : testMint bld src (some .strict) k' (p / 2) = .ok (isPrime64 bld (p / 2)) := testMint_below' _ _ _ _ _ (by omega)
    simp only [genSafePrimeExact128, h, Res.bind_ok, Nat.shiftRight_one, h2, h1, if_true]
    rfl
  double h := h.elim
  conv src fuel f k s k'' h := by
    have h64 : 2 ^ b ≤ 2 ^ 64 := Nat.pow_le_pow_right (by norm_num) hb.le
    cases f with
    | zero => simp [genSafePrimeExact128] at h
    | succ f =>
      simp only [genSafePrimeExact128] at h
      obtain ⟨⟨p, k'⟩, h1, h2⟩ := Res.bind_eq_ok.mp h
      refine ⟨p, k', h1, ?_⟩
      simp only [Nat.shiftRight_one] at h2
      obtain ⟨c, hc, h2⟩ := Res.bind_eq_ok.mp h2
      have hcc : p < 2 ^ b → c = isPrime64 bld (p / 2) := fun hp => by
        rw [testMint_below' _ _ _ _ _ (by omega)] at hc
        injection hc with hc
        exact hc.symm
      split at h2
      · rename_i hct
        simp only [Res.pure_def, Res.ok.injEq, Prod.mk.injEq] at h2
        exact Or.inl ⟨h2.1.symm, h2.2.symm, fun hp => (test_iff hN (by omega)).mp ((hcc hp).symm.trans hct)⟩
      · exact Or.inr (Or.inr ⟨f, rfl, h2⟩)

theorem safeGen_big {bld : Build} {b : ℕ} (hb : PrimWidth b) (hN : TestExactBelow bld (2 ^ b)) (bits : ℕ) :
    SafeGen bld b True (fun src fuel k => genPrimeBig bld src (some .strict) fuel bits k)
      (fun src fuel f k => genSafePrimeBig bld src fuel bits f k) where
  half src fuel f k p k' h hp hh := by
    have h64 : 2 ^ b ≤ 2 ^ 64 := Nat.pow_le_pow_right (by norm_num) hb.le
    have h1 : isPrime64 bld (p / 2) = true := (test_iff hN (by omega)).mpr hh
    have h2 : testPlain bld none src (some .strict) k' (p / 2) = .ok (isPrime64 bld (p / 2)) := testPlain_below _ _ _ _ _ _ (by omega)
    simp only [genSafePrimeBig, h, Res.bind_ok, Nat.shiftRight_one, h2, h1, if_true]
    rfl
  double _ src fuel f k p k' h hp hh hd := by
    have h64 : 2 ^ b ≤ 2 ^ 64 := Nat.pow_le_pow_right (by norm_num) hb.le
    have h1 : isPrime64 bld (p / 2) = false := by
      rw [← Bool.not_eq_true, test_iff hN (by omega)]; exact hh
    have h2 : isPrime64 bld (p <<< 1 + 1) = true := by
      rw [Nat.shiftLeft_eq, pow_one, mul_comm]; exact (test_iff hN (by omega)).mpr hd
    have hx : p <<< 1 = 2 * p := by rw [Nat.shiftLeft_eq, pow_one, mul_comm]
    have h4 : testPlain bld none src (some .strict) k' (p / 2) = .ok (isPrime64 bld (p / 2)) := testPlain_below _ _ _ _ _ _ (by omega)
    have h5 : testPlain bld none src (some .strict) k' (p <<< 1 + 1) = .ok (isPrime64 bld (p <<< 1 + 1)) :=
      testPlain_below _ _ _ _ _ _ (by omega)
    simp only [genSafePrimeBig, h, Res.bind_ok, Nat.shiftRight_one, h4, h1, h5, h2, Bool.false_eq_true, if_false, if_true]
    rw [hx]; rfl
  conv src fuel f k s k'' h := by
    have h64 : 2 ^ b ≤ 2 ^ 64 := Nat.pow_le_pow_right (by norm_num) hb.le
    cases f with
    | zero => simp [genSafePrimeBig] at h
    | succ f =>
      simp only [genSafePrimeBig] at h
      obtain ⟨⟨p, k'⟩, h1, h2⟩ := Res.bind_eq_ok.mp h
      refine ⟨p, k', h1, ?_⟩
      simp only [Nat.shiftRight_one] at h2
      obtain ⟨c, hc, h2⟩ := Res.bind_eq_ok.mp h2
      have hcc : p < 2 ^ b → c = isPrime64 bld (p / 2) := fun hp => by
        rw [testPlain_below _ _ _ _ _ _ (by omega)] at hc
        injection hc with hc
        exact hc.symm
      split at h2
      · rename_i hct
        simp only [Res.pure_def, Res.ok.injEq, Prod.mk.injEq] at h2
        exact Or.inl ⟨h2.1.symm, h2.2.symm, fun hp => (test_iff hN (by omega)).mp ((hcc hp).symm.trans hct)⟩
      · rename_i hct
        obtain ⟨d, hd, h2⟩ := Res.bind_eq_ok.mp h2
        split at h2
        · simp only [Res.pure_def, Res.ok.injEq, Prod.mk.injEq] at h2
          refine Or.inr (Or.inl ⟨trivial, ?_, h2.2.symm, fun hp hq => hct ((hcc hp).trans ((test_iff hN (by omega)).mpr hq))⟩)
          rw [← h2.1, Nat.shiftLeft_eq, pow_one, mul_comm]
        · exact Or.inr (Or.inr ⟨f, rfl, h2⟩)

theorem safeGen_exactBig {bld : Build} {b : ℕ} (hb : PrimWidth b) (hN : TestExactBelow bld (2 ^ b)) (bits : ℕ) :
    SafeGen bld b False (fun src fuel k => genPrimeExactBig bld src (some .strict) fuel bits k)
      (fun src fuel f k => genSafePrimeExactBig bld src fuel bits f k) where
  half src fuel f k p k' h hp hh := by
    have h64 : 2 ^ b ≤ 2 ^ 64 := Nat.pow_le_pow_right (by norm_num) hb.le
    have h1 : isPrime64 bld (p / 2) = true := (test_iff hN (by omega)).mpr hh
    have h2 : testPlain bld none src (some .strict) k' (p / 2) = .ok (isPrime64 bld (p / 2)) := testPlain_below _ _ _ _ _ _ (by omega)
    simp only [genSafePrimeExactBig, h, Res.bind_ok, Nat.shiftRight_one, h2, h1, if_true]
    rfl
  double h := h.elim
  conv src fuel f k s k'' h := by
    have h64 : 2 ^ b ≤ 2 ^ 64 := Nat.pow_le_pow_right (by norm_num) hb.le
    cases f with
    | zero => simp [genSafePrimeExactBig] at h
    | succ f =>
      simp only [genSafePrimeExactBig] at h
      obtain ⟨⟨p, k'⟩, h1, h2⟩ := Res.bind_eq_ok.mp h
      refine ⟨p, k', h1, ?_⟩
      simp only [Nat.shiftRight_one] at h2
      obtain ⟨c, hc, h2⟩ := Res.bind_eq_ok.mp h2
      have hcc : p < 2 ^ b → c = isPrime64 bld (p / 2) := fun hp => by
        rw [testPlain_below _ _ _ _ _ _ (by omega)] at hc
        injection hc with hc
        exact hc.symm
      split at h2
      · rename_i hct
        simp only [Res.pure_def, Res.ok.injEq, Prod.mk.injEq] at h2
        exact Or.inl ⟨h2.1.symm, h2.2.symm, fun hp => (test_iff hN (by omega)).mp ((hcc hp).symm.trans hct)⟩
      · exact Or.inr (Or.inr ⟨f, rfl, h2⟩)


/-! ## the counts -/

open scoped Classical in
theorem card_safe {B bits h q r : ℕ} {Y : ℕ → Prop} (hB : bits ≤ B) (hs : (2 * h + 1).Prime) (hh : h.Prime) (h3 : 3 < h)
    (hlt : 2 * h + 1 < 2 ^ bits) (hq : IsPrevPrime (2 * h + 1) q) (hr : IsPrevPrime h r)
    (key : ∀ v < 2 ^ B, Y v ↔ IsFirstPrime ((v % 2 ^ B / 2 ^ (B - bits)) ||| 1) (2 * h + 1) ∨
      True ∧ IsFirstPrime ((v % 2 ^ B / 2 ^ (B - bits)) ||| 1) h ∧ ¬ (h / 2).Prime) :
    {v ∈ Finset.range (2 ^ B) | Y v}.card = (2 * h + 1 - q + if (h / 2).Prime then 0 else h - r) * 2 ^ (B - bits) := by
  have c1 := card_leading (Y := fun v => q < (v % 2 ^ B / 2 ^ (B - bits)) ||| 1 ∧ (v % 2 ^ B / 2 ^ (B - bits)) ||| 1 ≤ 2 * h + 1) hB hs
    (by omega) hlt hq (fun _ _ => Iff.rfl)
  have c2 := card_leading (Y := fun v => r < (v % 2 ^ B / 2 ^ (B - bits)) ||| 1 ∧ (v % 2 ^ B / 2 ^ (B - bits)) ||| 1 ≤ h) hB hh
    h3 (by omega) hr (fun _ _ => Iff.rfl)
  have hhq : h ≤ q := hq.2 ⟨hh, by omega⟩
  rw [Nat.add_mul, ← c1]
  split
  · rename_i hsafe
    rw [Nat.zero_mul, Nat.add_zero]
    congr 1
    ext v
    simp only [Finset.mem_filter, Finset.mem_range]
    refine and_congr_right fun hv => ?_
    rw [key v hv, isFirstPrime_iff hs hq]
    simp [hsafe]
  · rename_i hsafe
    rw [← c2, ← Finset.card_union_of_disjoint]
    · congr 1
      ext v
      simp only [Finset.mem_union, Finset.mem_filter, Finset.mem_range]
      rw [← and_or_left]
      refine and_congr_right fun hv => ?_
      rw [key v hv, isFirstPrime_iff hs hq, isFirstPrime_iff hh hr]
      simp [hsafe]
    · rw [Finset.disjoint_left]
      intro v h1 h2
      simp only [Finset.mem_filter] at h1 h2
      omega

open scoped Classical in
/-- **C118** `gen_safe_prime(bits)`: a safe prime `2h + 1 > 7` below `2^bits` is returned from the words between the prime before it and itself, and, if `h` is
not itself a safe prime, also from those between the prime before `h` and `h` -/
theorem C118_safe_prime_words (bld : Build) (b : ℕ) (hb : PrimWidth b) (hN : TestExactBelow bld (2 ^ b)) (bits h q r : ℕ)
    (hbits : bits ≤ b) (hs : (2 * h + 1).Prime) (hh : h.Prime) (h3 : 3 < h) (hlt : 2 * h + 1 < 2 ^ bits)
    (hq : IsPrevPrime (2 * h + 1) q) (hr : IsPrevPrime h r) :
    {v ∈ Finset.range (2 ^ b) | Yields (fun src fuel k => genSafePrimePrim bld src b fuel bits fuel k) v (2 * h + 1)}.card =
      (2 * h + 1 - q + if (h / 2).Prime then 0 else h - r) * 2 ^ (b - bits) := by
  have h64 : b ≤ 64 := hb.le
  have h0 : 0 < bits := pos_of_lt (by omega) hlt
  have hle : 2 ^ bits ≤ 2 ^ b := Nat.pow_le_pow_right (by norm_num) hbits
  have hle2 : 2 ^ bits ≤ 2 ^ 64 := Nat.pow_le_pow_right (by norm_num) (by omega)
  have hst : ∀ v, Starts bld b (fun src fuel k => genPrimePrim bld src b fuel bits k) v ((v % 2 ^ b / 2 ^ (b - bits)) ||| 1) := by
    intro v
    have hl := lead_lt (v := v) (B := b) h0 (by omega)
    have hgt : ¬ bits > b := by omega
    simp only [genPrimePrim, hgt, if_false]
    exact starts_loop (mk := fun src k => drawBits b bits (src.value k)) (test := fun _ _ t => .ok (isPrime64 bld t)) hb hN
      (Or.inr ⟨b, b, rfl, rfl, le_rfl⟩) (fun src k h => by rw [h]; exact drawBits_eq h0 hbits _) (fun _ _ => rfl)
  exact card_safe (B := b) (Y := fun v => Yields (fun src fuel k => genSafePrimePrim bld src b fuel bits fuel k) v (2 * h + 1)) (by omega) hs hh h3 hlt hq hr
    (fun v _ => safe_yields_iff (safeGen_prim hN bits) (hst v) hs hh (by omega))

open scoped Classical in
/-- **C118** the same for `u128` -/
theorem C118_safe_prime_words_u128 (bld : Build) (b : ℕ) (hb : PrimWidth b) (hN : TestExactBelow bld (2 ^ b)) (bits h q r : ℕ)
    (hbits : bits ≤ b) (hs : (2 * h + 1).Prime) (hh : h.Prime) (h3 : 3 < h) (hlt : 2 * h + 1 < 2 ^ bits)
    (hq : IsPrevPrime (2 * h + 1) q) (hr : IsPrevPrime h r) :
    {v ∈ Finset.range (2 ^ 128) | Yields (fun src fuel k => genSafePrime128 bld src fuel bits fuel k) v (2 * h + 1)}.card =
      (2 * h + 1 - q + if (h / 2).Prime then 0 else h - r) * 2 ^ (128 - bits) := by
  have h64 : b ≤ 64 := hb.le
  have h0 : 0 < bits := pos_of_lt (by omega) hlt
  have hle : 2 ^ bits ≤ 2 ^ b := Nat.pow_le_pow_right (by norm_num) hbits
  have hle2 : 2 ^ bits ≤ 2 ^ 64 := Nat.pow_le_pow_right (by norm_num) (by omega)
  have hst : ∀ v, Starts bld b (fun src fuel k => genPrime128 bld src (some .strict) fuel bits k) v ((v % 2 ^ 128 / 2 ^ (128 - bits)) ||| 1) := by
    intro v
    have hl := lead_lt (v := v) (B := 128) h0 (by omega)
    have hgt : ¬ bits > 128 := by omega
    simp only [genPrime128, hgt, if_false]
    exact starts_loop (mk := fun src k => drawBits 128 bits (src.value k)) (test := fun src => testMint bld src (some .strict)) hb hN
      (Or.inr ⟨b, 128, rfl, rfl, by omega⟩) (fun src k h => by rw [h]; exact drawBits_eq h0 (by omega) _)
      (fun src k => testMint_below' bld src _ k _ (by omega))
  exact card_safe (B := 128) (Y := fun v => Yields (fun src fuel k => genSafePrime128 bld src fuel bits fuel k) v (2 * h + 1)) (by omega) hs hh h3 hlt hq hr
    (fun v _ => safe_yields_iff (safeGen_128 hb hN bits) (hst v) hs hh (by omega))

open scoped Classical in
/-- **C118** the same for `BigUint` -/
theorem C118_safe_prime_words_big (bld : Build) (b : ℕ) (hb : PrimWidth b) (hN : TestExactBelow bld (2 ^ b)) (bits h q r : ℕ)
    (hbits : bits ≤ b) (hs : (2 * h + 1).Prime) (hh : h.Prime) (h3 : 3 < h) (hlt : 2 * h + 1 < 2 ^ bits)
    (hq : IsPrevPrime (2 * h + 1) q) (hr : IsPrevPrime h r) :
    {v ∈ Finset.range (2 ^ bits) | Yields (fun src fuel k => genSafePrimeBig bld src fuel bits fuel k) v (2 * h + 1)}.card =
      (2 * h + 1 - q + if (h / 2).Prime then 0 else h - r) := by
  have h64 : b ≤ 64 := hb.le
  have h0 : 0 < bits := pos_of_lt (by omega) hlt
  have hle : 2 ^ bits ≤ 2 ^ b := Nat.pow_le_pow_right (by norm_num) hbits
  have hle2 : 2 ^ bits ≤ 2 ^ 64 := Nat.pow_le_pow_right (by norm_num) (by omega)
  have hst : ∀ v, Starts bld b (fun src fuel k => genPrimeBig bld src (some .strict) fuel bits k) v ((v % 2 ^ bits / 2 ^ (bits - bits)) ||| 1) := by
    intro v
    have hl := lead_lt (v := v) (B := bits) h0 (by omega)
    exact starts_loop (mk := fun src k => .ok ((src.value k % 2 ^ bits) ||| 1))
      (test := fun src => testPlain bld none src (some .strict)) hb hN
      (Or.inl rfl) (fun src k h => by rw [h]; simp)
      (fun src k => testPlain_below bld none src _ k _ (by omega))
  have hc := card_safe (B := bits) (Y := fun v => Yields (fun src fuel k => genSafePrimeBig bld src fuel bits fuel k) v (2 * h + 1)) (by omega) hs hh h3 hlt hq hr
    (fun v _ => safe_yields_iff (safeGen_big hb hN bits) (hst v) hs hh (by omega))
  simpa using hc

open scoped Classical in
/-- **C118** `gen_safe_prime_exact(bits)` returns a safe prime from the words from which `gen_prime_exact` returns it -/
theorem C118_safe_prime_exact_words (bld : Build) (b : ℕ) (hb : PrimWidth b) (hN : TestExactBelow bld (2 ^ b)) (bits h q : ℕ)
    (hbits : bits ≤ b) (hs : (2 * h + 1).Prime) (hh : h.Prime) (hlt : 2 * h + 1 < 2 ^ bits)
    (hq : IsPrevPrime (2 * h + 1) q) :
    {v ∈ Finset.range (2 ^ b) | Yields (fun src fuel k => genSafePrimeExactPrim bld src b fuel bits fuel k) v (2 * h + 1)}.card =
      2 * (2 * h + 1 - max q (2 ^ (bits - 1) - 1)) * 2 ^ (b - bits) := by
  have h64 : b ≤ 64 := hb.le
  have h2 := hh.two_le
  have h0 : 0 < bits := pos_of_lt (by omega) hlt
  have hle : 2 ^ bits ≤ 2 ^ b := Nat.pow_le_pow_right (by norm_num) hbits
  have hle2 : 2 ^ bits ≤ 2 ^ 64 := Nat.pow_le_pow_right (by norm_num) (by omega)
  have hst : ∀ v, Starts bld b (fun src fuel k => genPrimeExactPrim bld src b fuel bits k) v ((v % 2 ^ b / 2 ^ (b - bits)) ||| 1 ||| 2 ^ (bits - 1)) := by
    intro v
    have hl := lead_exact_lt (v := v) (B := b) h0 (by omega)
    have hgt : ¬ bits > b := by omega
    simp only [genPrimeExactPrim, hgt, if_false]
    exact starts_loop (mk := fun src k => drawExact b bits (src.value k)) (test := fun _ _ t => .ok (isPrime64 bld t)) hb hN
      (Or.inr ⟨b, b, rfl, rfl, le_rfl⟩) (fun src k h => by rw [h]; exact drawExact_eq h0 hbits _) (fun _ _ => rfl)
  exact card_leading_exact (b := b) (Y := fun v => Yields (fun src fuel k => genSafePrimeExactPrim bld src b fuel bits fuel k) v (2 * h + 1)) (by omega) hs (by omega) hlt hq
    (fun v _ => (safe_yields_iff (safeGen_exactPrim hN bits) (hst v) hs hh (by omega)).trans (by simp [isFirstPrime_iff hs hq]))

open scoped Classical in
/-- **C118** the same for `u128` -/
theorem C118_safe_prime_exact_words_u128 (bld : Build) (b : ℕ) (hb : PrimWidth b) (hN : TestExactBelow bld (2 ^ b)) (bits h q : ℕ)
    (hbits : bits ≤ b) (hs : (2 * h + 1).Prime) (hh : h.Prime) (hlt : 2 * h + 1 < 2 ^ bits)
    (hq : IsPrevPrime (2 * h + 1) q) :
    {v ∈ Finset.range (2 ^ 128) | Yields (fun src fuel k => genSafePrimeExact128 bld src fuel bits fuel k) v (2 * h + 1)}.card =
      2 * (2 * h + 1 - max q (2 ^ (bits - 1) - 1)) * 2 ^ (128 - bits) := by
  have h64 : b ≤ 64 := hb.le
  have h2 := hh.two_le
  have h0 : 0 < bits := pos_of_lt (by omega) hlt
  have hle : 2 ^ bits ≤ 2 ^ b := Nat.pow_le_pow_right (by norm_num) hbits
  have hle2 : 2 ^ bits ≤ 2 ^ 64 := Nat.pow_le_pow_right (by norm_num) (by omega)
  have hst : ∀ v, Starts bld b (fun src fuel k => genPrimeExact128 bld src (some .strict) fuel bits k) v ((v % 2 ^ 128 / 2 ^ (128 - bits)) ||| 1 ||| 2 ^ (bits - 1)) := by
    intro v
    have hl := lead_exact_lt (v := v) (B := 128) h0 (by omega)
    have hgt : ¬ bits > 128 := by omega
    simp only [genPrimeExact128, hgt, if_false]
    exact starts_loop (mk := fun src k => drawExact 128 bits (src.value k)) (test := fun src => testMint bld src (some .strict)) hb hN
      (Or.inr ⟨b, 128, rfl, rfl, by omega⟩) (fun src k h => by rw [h]; exact drawExact_eq h0 (by omega) _)
      (fun src k => testMint_below' bld src _ k _ (by omega))
  exact card_leading_exact (b := 128) (Y := fun v => Yields (fun src fuel k => genSafePrimeExact128 bld src fuel bits fuel k) v (2 * h + 1)) (by omega) hs (by omega) hlt hq
    (fun v _ => (safe_yields_iff (safeGen_exact128 hb hN bits) (hst v) hs hh (by omega)).trans (by simp [isFirstPrime_iff hs hq]))

open scoped Classical in
/-- **C118** the same for `BigUint` -/
theorem C118_safe_prime_exact_words_big (bld : Build) (b : ℕ) (hb : PrimWidth b) (hN : TestExactBelow bld (2 ^ b)) (bits h q : ℕ)
    (hbits : bits ≤ b) (hs : (2 * h + 1).Prime) (hh : h.Prime) (hlt : 2 * h + 1 < 2 ^ bits)
    (hq : IsPrevPrime (2 * h + 1) q) :
    {v ∈ Finset.range (2 ^ bits) | Yields (fun src fuel k => genSafePrimeExactBig bld src fuel bits fuel k) v (2 * h + 1)}.card =
      2 * (2 * h + 1 - max q (2 ^ (bits - 1) - 1)) := by
  have h64 : b ≤ 64 := hb.le
  have h2 := hh.two_le
  have h0 : 0 < bits := pos_of_lt (by omega) hlt
  have hle : 2 ^ bits ≤ 2 ^ b := Nat.pow_le_pow_right (by norm_num) hbits
  have hle2 : 2 ^ bits ≤ 2 ^ 64 := Nat.pow_le_pow_right (by norm_num) (by omega)
  have hst : ∀ v, Starts bld b (fun src fuel k => genPrimeExactBig bld src (some .strict) fuel bits k) v ((v % 2 ^ bits / 2 ^ (bits - bits)) ||| 1 ||| 2 ^ (bits - 1)) := by
    intro v
    have hl := lead_exact_lt (v := v) (B := bits) h0 (by omega)
    exact starts_loop (mk := fun src k => (csub bits 1).mapR (fun s => ((src.value k % 2 ^ bits) ||| 1) ||| (1 <<< s)))
      (test := fun src => testPlain bld none src (some .strict)) hb hN
      (Or.inl rfl) (fun src k h => by rw [h, csub, if_pos (by omega), Res.mapR_ok, Nat.one_shiftLeft]; simp)
      (fun src k => testPlain_below bld none src _ k _ (by omega))
  have hc := card_leading_exact (b := bits) (Y := fun v => Yields (fun src fuel k => genSafePrimeExactBig bld src fuel bits fuel k) v (2 * h + 1)) (by omega) hs (by omega) hlt hq
    (fun v _ => (safe_yields_iff (safeGen_exactBig hb hN bits) (hst v) hs hh (by omega)).trans (by simp [isFirstPrime_iff hs hq]))
  simpa using hc

open scoped Classical in
theorem card_safe_long {B bits h q r : ℕ} {Y : ℕ → Prop} (hB : bits ≤ B) (hs : (2 * h + 1).Prime) (hh : h.Prime) (h3 : 3 < h)
    (hlt : h < 2 ^ bits) (hq : IsPrevPrime (2 * h + 1) q) (hlong : 2 ^ bits ≤ q) (hr : IsPrevPrime h r)
    (key : ∀ v < 2 ^ B, Y v ↔ IsFirstPrime ((v % 2 ^ B / 2 ^ (B - bits)) ||| 1) (2 * h + 1) ∨
      True ∧ IsFirstPrime ((v % 2 ^ B / 2 ^ (B - bits)) ||| 1) h ∧ ¬ (h / 2).Prime) :
    {v ∈ Finset.range (2 ^ B) | Y v}.card = (if (h / 2).Prime then 0 else h - r) * 2 ^ (B - bits) := by
  have c2 := card_leading (Y := fun v => r < (v % 2 ^ B / 2 ^ (B - bits)) ||| 1 ∧ (v % 2 ^ B / 2 ^ (B - bits)) ||| 1 ≤ h) hB hh
    h3 hlt hr (fun _ _ => Iff.rfl)
  have h0 := pos_of_lt h3 hlt
  have hno : ∀ v, ¬ IsFirstPrime ((v % 2 ^ B / 2 ^ (B - bits)) ||| 1) (2 * h + 1) := by
    intro v hv
    have := (isFirstPrime_iff hs hq).mp hv
    have := lead_lt (v := v) h0 hB
    omega
  split
  · rename_i hsafe
    rw [Nat.zero_mul, Finset.card_eq_zero]
    ext v
    simp only [Finset.mem_filter, Finset.mem_range, Finset.notMem_empty, iff_false, not_and]
    intro hv
    rw [key v hv]
    simp [hsafe, hno v]
  · rename_i hsafe
    rw [← c2]
    congr 1
    ext v
    simp only [Finset.mem_filter, Finset.mem_range]
    refine and_congr_right fun hv => ?_
    rw [key v hv, isFirstPrime_iff hh hr]
    simp [hsafe, hno v]

open scoped Classical in
/-- **C118** `gen_safe_prime(bits)` can return a safe prime `2h + 1` of one bit more: from the words between the prime before `h` and `h`,
unless `h` is a safe prime -/
theorem C118_safe_prime_long_words (bld : Build) (b : ℕ) (hb : PrimWidth b) (hN : TestExactBelow bld (2 ^ b)) (bits h q r : ℕ)
    (hbits : bits ≤ b) (hs : (2 * h + 1).Prime) (hh : h.Prime) (h3 : 3 < h) (hlt : h < 2 ^ bits)
    (hsb : 2 * h + 1 < 2 ^ b) (hq : IsPrevPrime (2 * h + 1) q) (hlong : 2 ^ bits ≤ q) (hr : IsPrevPrime h r) :
    {v ∈ Finset.range (2 ^ b) | Yields (fun src fuel k => genSafePrimePrim bld src b fuel bits fuel k) v (2 * h + 1)}.card =
      (if (h / 2).Prime then 0 else h - r) * 2 ^ (b - bits) := by
  have h64 : b ≤ 64 := hb.le
  have h0 : 0 < bits := pos_of_lt (by omega) hlt
  have hle : 2 ^ bits ≤ 2 ^ b := Nat.pow_le_pow_right (by norm_num) hbits
  have hle2 : 2 ^ bits ≤ 2 ^ 64 := Nat.pow_le_pow_right (by norm_num) (by omega)
  have hst : ∀ v, Starts bld b (fun src fuel k => genPrimePrim bld src b fuel bits k) v ((v % 2 ^ b / 2 ^ (b - bits)) ||| 1) := by
    intro v
    have hl := lead_lt (v := v) (B := b) h0 (by omega)
    have hgt : ¬ bits > b := by omega
    simp only [genPrimePrim, hgt, if_false]
    exact starts_loop (mk := fun src k => drawBits b bits (src.value k)) (test := fun _ _ t => .ok (isPrime64 bld t)) hb hN
      (Or.inr ⟨b, b, rfl, rfl, le_rfl⟩) (fun src k h => by rw [h]; exact drawBits_eq h0 hbits _) (fun _ _ => rfl)
  exact card_safe_long (B := b) (Y := fun v => Yields (fun src fuel k => genSafePrimePrim bld src b fuel bits fuel k) v (2 * h + 1)) (by omega) hs hh h3 hlt hq hlong hr
    (fun v _ => safe_yields_iff (safeGen_prim hN bits) (hst v) hs hh hsb)

open scoped Classical in
/-- **C118** the same for `u128` -/
theorem C118_safe_prime_long_words_u128 (bld : Build) (b : ℕ) (hb : PrimWidth b) (hN : TestExactBelow bld (2 ^ b)) (bits h q r : ℕ)
    (hbits : bits ≤ b) (hs : (2 * h + 1).Prime) (hh : h.Prime) (h3 : 3 < h) (hlt : h < 2 ^ bits)
    (hsb : 2 * h + 1 < 2 ^ b) (hq : IsPrevPrime (2 * h + 1) q) (hlong : 2 ^ bits ≤ q) (hr : IsPrevPrime h r) :
    {v ∈ Finset.range (2 ^ 128) | Yields (fun src fuel k => genSafePrime128 bld src fuel bits fuel k) v (2 * h + 1)}.card =
      (if (h / 2).Prime then 0 else h - r) * 2 ^ (128 - bits) := by
  have h64 : b ≤ 64 := hb.le
  have h0 : 0 < bits := pos_of_lt (by omega) hlt
  have hle : 2 ^ bits ≤ 2 ^ b := Nat.pow_le_pow_right (by norm_num) hbits
  have hle2 : 2 ^ bits ≤ 2 ^ 64 := Nat.pow_le_pow_right (by norm_num) (by omega)
  have hst : ∀ v, Starts bld b (fun src fuel k => genPrime128 bld src (some .strict) fuel bits k) v ((v % 2 ^ 128 / 2 ^ (128 - bits)) ||| 1) := by
    intro v
    have hl := lead_lt (v := v) (B := 128) h0 (by omega)
    have hgt : ¬ bits > 128 := by omega
    simp only [genPrime128, hgt, if_false]
    exact starts_loop (mk := fun src k => drawBits 128 bits (src.value k)) (test := fun src => testMint bld src (some .strict)) hb hN
      (Or.inr ⟨b, 128, rfl, rfl, by omega⟩) (fun src k h => by rw [h]; exact drawBits_eq h0 (by omega) _)
      (fun src k => testMint_below' bld src _ k _ (by omega))
  exact card_safe_long (B := 128) (Y := fun v => Yields (fun src fuel k => genSafePrime128 bld src fuel bits fuel k) v (2 * h + 1)) (by omega) hs hh h3 hlt hq hlong hr
    (fun v _ => safe_yields_iff (safeGen_128 hb hN bits) (hst v) hs hh hsb)

open scoped Classical in
/-- **C118** the same for `BigUint` -/
theorem C118_safe_prime_long_words_big (bld : Build) (b : ℕ) (hb : PrimWidth b) (hN : TestExactBelow bld (2 ^ b)) (bits h q r : ℕ)
    (hbits : bits ≤ b) (hs : (2 * h + 1).Prime) (hh : h.Prime) (h3 : 3 < h) (hlt : h < 2 ^ bits)
    (hsb : 2 * h + 1 < 2 ^ b) (hq : IsPrevPrime (2 * h + 1) q) (hlong : 2 ^ bits ≤ q) (hr : IsPrevPrime h r) :
    {v ∈ Finset.range (2 ^ bits) | Yields (fun src fuel k => genSafePrimeBig bld src fuel bits fuel k) v (2 * h + 1)}.card =
      if (h / 2).Prime then 0 else h - r := by
  have h64 : b ≤ 64 := hb.le
  have h0 : 0 < bits := pos_of_lt (by omega) hlt
  have hle : 2 ^ bits ≤ 2 ^ b := Nat.pow_le_pow_right (by norm_num) hbits
  have hle2 : 2 ^ bits ≤ 2 ^ 64 := Nat.pow_le_pow_right (by norm_num) (by omega)
  have hst : ∀ v, Starts bld b (fun src fuel k => genPrimeBig bld src (some .strict) fuel bits k) v ((v % 2 ^ bits / 2 ^ (bits - bits)) ||| 1) := by
    intro v
    have hl := lead_lt (v := v) (B := bits) h0 (by omega)
    exact starts_loop (mk := fun src k => .ok ((src.value k % 2 ^ bits) ||| 1))
      (test := fun src => testPlain bld none src (some .strict)) hb hN
      (Or.inl rfl) (fun src k h => by rw [h]; simp)
      (fun src k => testPlain_below bld none src _ k _ (by omega))
  have hc := card_safe_long (B := bits) (Y := fun v => Yields (fun src fuel k => genSafePrimeBig bld src fuel bits fuel k) v (2 * h + 1)) (by omega) hs hh h3 hlt hq hlong hr
    (fun v _ => safe_yields_iff (safeGen_big hb hN bits) (hst v) hs hh hsb)
  simpa using hc

/-! ### the safe primes 5 and 7 -/

open scoped Classical in
theorem card_two {B bits c d : ℕ} {Y : ℕ → Prop} (hB : bits ≤ B) (hc : c % 2 = 1) (hd : d % 2 = 1) (hcd : c ≠ d) (hcb : c < 2 ^ bits)
    (hdb : d < 2 ^ bits) (key : ∀ v < 2 ^ B, Y v ↔ (v % 2 ^ B / 2 ^ (B - bits)) ||| 1 = c ∨ (v % 2 ^ B / 2 ^ (B - bits)) ||| 1 = d) :
    {v ∈ Finset.range (2 ^ B) | Y v}.card = 4 * 2 ^ (B - bits) := by
  have c1 := card_one (Y := fun v => (v % 2 ^ B / 2 ^ (B - bits)) ||| 1 = c) hB hc hcb (fun _ _ => Iff.rfl)
  have c2 := card_one (Y := fun v => (v % 2 ^ B / 2 ^ (B - bits)) ||| 1 = d) hB hd hdb (fun _ _ => Iff.rfl)
  rw [show 4 * 2 ^ (B - bits) = 2 * 2 ^ (B - bits) + 2 * 2 ^ (B - bits) by omega]
  nth_rewrite 1 [← c1]
  rw [← c2, ← Finset.card_union_of_disjoint]
  · congr 1
    ext v
    simp only [Finset.mem_union, Finset.mem_filter, Finset.mem_range]
    rw [← and_or_left]
    exact and_congr_right fun hv => key v hv
  · rw [Finset.disjoint_left]
    intro v h1 h2
    simp only [Finset.mem_filter] at h1 h2
    omega

/-- 5 is reached from 5 and, by doubling 2, from 1; 7 from 7 and, by doubling 3, from 3 -/
theorem first_safe_small {t h c : ℕ} (hc : h = 2 ∧ c = 1 ∨ h = 3 ∧ c = 3) (ho : t % 2 = 1) :
    (IsFirstPrime t (2 * h + 1) ∨ True ∧ IsFirstPrime t h ∧ ¬ (h / 2).Prime) ↔ t = 2 * h + 1 ∨ t = c := by
  have p5 : IsPrevPrime (2 * 2 + 1) 3 := ⟨⟨by norm_num, by norm_num⟩, fun q hq => by
    by_contra hc
    obtain rfl : q = 4 := by have := hq.2; omega
    exact absurd hq.1 (by norm_num)⟩
  have p7 : IsPrevPrime (2 * 3 + 1) 5 := ⟨⟨by norm_num, by norm_num⟩, fun q hq => by
    by_contra hc
    obtain rfl : q = 6 := by have := hq.2; omega
    exact absurd hq.1 (by norm_num)⟩
  have p3 : IsPrevPrime 3 2 := ⟨⟨by norm_num, by norm_num⟩, fun q hq => by have := hq.2; omega⟩
  rcases hc with ⟨rfl, rfl⟩ | ⟨rfl, rfl⟩
  · rw [isFirstPrime_iff (by norm_num) p5]
    have h2 : IsFirstPrime t 2 ↔ t = 1 := by
      have := (first_small (bld := .big) ho).1
      rw [← this]
      exact ⟨fun h => ⟨h, fun hn => by have := hn.1; simp at this⟩, fun h => h.1⟩
    have h3 : ¬ (2 / 2 : ℕ).Prime := by norm_num
    rw [h2]
    simp only [h3, not_false_eq_true, and_true, true_and]
    omega
  · rw [isFirstPrime_iff (by norm_num) p7, isFirstPrime_iff (by norm_num) p3]
    have h3 : ¬ (3 / 2 : ℕ).Prime := by norm_num
    simp only [h3, not_false_eq_true, and_true, true_and]
    omega

open scoped Classical in
/-- **C118** the safe primes 5 and 7 come from `4 * 2^(BITS - bits)` words each -/
theorem C118_safe_prime_small_words (bld : Build) (b : ℕ) (hb : PrimWidth b) (hN : TestExactBelow bld (2 ^ b)) (bits h c : ℕ)
    (hbits : bits ≤ b) (hc : h = 2 ∧ c = 1 ∨ h = 3 ∧ c = 3) (hlt : 2 * h + 1 < 2 ^ bits) :
    {v ∈ Finset.range (2 ^ b) | Yields (fun src fuel k => genSafePrimePrim bld src b fuel bits fuel k) v (2 * h + 1)}.card =
      4 * 2 ^ (b - bits) := by
  have hs : (2 * h + 1).Prime := by rcases hc with ⟨rfl, -⟩ | ⟨rfl, -⟩ <;> norm_num
  have hh : h.Prime := by rcases hc with ⟨rfl, -⟩ | ⟨rfl, -⟩ <;> norm_num
  have h64 : b ≤ 64 := hb.le
  have h0 : 0 < bits := pos_of_lt (by have := hh.two_le; omega) hlt
  have hle : 2 ^ bits ≤ 2 ^ b := Nat.pow_le_pow_right (by norm_num) hbits
  have hle2 : 2 ^ bits ≤ 2 ^ 64 := Nat.pow_le_pow_right (by norm_num) (by omega)
  have hst : ∀ v, Starts bld b (fun src fuel k => genPrimePrim bld src b fuel bits k) v ((v % 2 ^ b / 2 ^ (b - bits)) ||| 1) := by
    intro v
    have hl := lead_lt (v := v) (B := b) h0 (by omega)
    have hgt : ¬ bits > b := by omega
    simp only [genPrimePrim, hgt, if_false]
    exact starts_loop (mk := fun src k => drawBits b bits (src.value k)) (test := fun _ _ t => .ok (isPrime64 bld t)) hb hN
      (Or.inr ⟨b, b, rfl, rfl, le_rfl⟩) (fun src k h => by rw [h]; exact drawBits_eq h0 hbits _) (fun _ _ => rfl)
  exact card_two (B := b) (c := 2 * h + 1) (d := c)
    (Y := fun v => Yields (fun src fuel k => genSafePrimePrim bld src b fuel bits fuel k) v (2 * h + 1)) (by omega) (by omega) (by omega) (by omega) hlt (by omega)
    (fun v _ => (safe_yields_iff (safeGen_prim hN bits) (hst v) hs hh (by omega)).trans (first_safe_small hc (lead_odd _)))

open scoped Classical in
/-- **C118** the same for `u128` -/
theorem C118_safe_prime_small_words_u128 (bld : Build) (b : ℕ) (hb : PrimWidth b) (hN : TestExactBelow bld (2 ^ b)) (bits h c : ℕ)
    (hbits : bits ≤ b) (hc : h = 2 ∧ c = 1 ∨ h = 3 ∧ c = 3) (hlt : 2 * h + 1 < 2 ^ bits) :
    {v ∈ Finset.range (2 ^ 128) | Yields (fun src fuel k => genSafePrime128 bld src fuel bits fuel k) v (2 * h + 1)}.card =
      4 * 2 ^ (128 - bits) := by
  have hs : (2 * h + 1).Prime := by rcases hc with ⟨rfl, -⟩ | ⟨rfl, -⟩ <;> norm_num
  have hh : h.Prime := by rcases hc with ⟨rfl, -⟩ | ⟨rfl, -⟩ <;> norm_num
  have h64 : b ≤ 64 := hb.le
  have h0 : 0 < bits := pos_of_lt (by have := hh.two_le; omega) hlt
  have hle : 2 ^ bits ≤ 2 ^ b := Nat.pow_le_pow_right (by norm_num) hbits
  have hle2 : 2 ^ bits ≤ 2 ^ 64 := Nat.pow_le_pow_right (by norm_num) (by omega)
  have hst : ∀ v, Starts bld b (fun src fuel k => genPrime128 bld src (some .strict) fuel bits k) v ((v % 2 ^ 128 / 2 ^ (128 - bits)) ||| 1) := by
    intro v
    have hl := lead_lt (v := v) (B := 128) h0 (by omega)
    have hgt : ¬ bits > 128 := by omega
    simp only [genPrime128, hgt, if_false]
    exact starts_loop (mk := fun src k => drawBits 128 bits (src.value k)) (test := fun src => testMint bld src (some .strict)) hb hN
      (Or.inr ⟨b, 128, rfl, rfl, by omega⟩) (fun src k h => by rw [h]; exact drawBits_eq h0 (by omega) _)
      (fun src k => testMint_below' bld src _ k _ (by omega))
  exact card_two (B := 128) (c := 2 * h + 1) (d := c)
    (Y := fun v => Yields (fun src fuel k => genSafePrime128 bld src fuel bits fuel k) v (2 * h + 1)) (by omega) (by omega) (by omega) (by omega) hlt (by omega)
    (fun v _ => (safe_yields_iff (safeGen_128 hb hN bits) (hst v) hs hh (by omega)).trans (first_safe_small hc (lead_odd _)))

open scoped Classical in
/-- **C118** the same for `BigUint` -/
theorem C118_safe_prime_small_words_big (bld : Build) (b : ℕ) (hb : PrimWidth b) (hN : TestExactBelow bld (2 ^ b)) (bits h c : ℕ)
    (hbits : bits ≤ b) (hc : h = 2 ∧ c = 1 ∨ h = 3 ∧ c = 3) (hlt : 2 * h + 1 < 2 ^ bits) :
    {v ∈ Finset.range (2 ^ bits) | Yields (fun src fuel k => genSafePrimeBig bld src fuel bits fuel k) v (2 * h + 1)}.card =
      4 := by
  have hs : (2 * h + 1).Prime := by rcases hc with ⟨rfl, -⟩ | ⟨rfl, -⟩ <;> norm_num
  have hh : h.Prime := by rcases hc with ⟨rfl, -⟩ | ⟨rfl, -⟩ <;> norm_num
  have h64 : b ≤ 64 := hb.le
  have h0 : 0 < bits := pos_of_lt (by have := hh.two_le; omega) hlt
  have hle : 2 ^ bits ≤ 2 ^ b := Nat.pow_le_pow_right (by norm_num) hbits
  have hle2 : 2 ^ bits ≤ 2 ^ 64 := Nat.pow_le_pow_right (by norm_num) (by omega)
  have hst : ∀ v, Starts bld b (fun src fuel k => genPrimeBig bld src (some .strict) fuel bits k) v ((v % 2 ^ bits / 2 ^ (bits - bits)) ||| 1) := by
    intro v
    have hl := lead_lt (v := v) (B := bits) h0 (by omega)
    exact starts_loop (mk := fun src k => .ok ((src.value k % 2 ^ bits) ||| 1))
      (test := fun src => testPlain bld none src (some .strict)) hb hN
      (Or.inl rfl) (fun src k h => by rw [h]; simp)
      (fun src k => testPlain_below bld none src _ k _ (by omega))
  have hcard := card_two (B := bits) (c := 2 * h + 1) (d := c)
    (Y := fun v => Yields (fun src fuel k => genSafePrimeBig bld src fuel bits fuel k) v (2 * h + 1)) (by omega) (by omega) (by omega) (by omega) hlt (by omega)
    (fun v _ => (safe_yields_iff (safeGen_big hb hN bits) (hst v) hs hh (by omega)).trans (first_safe_small hc (lead_odd _)))
  simpa using hcard

/-! ### concrete cases -/

open scoped Classical in
/-- asked for 7 bits, 59 comes from 12 of the 128 numbers (53 < 54, …, 59 and 23 < 24, …, 29, since 29 is not a safe prime), 47 from 4
(23 is a safe prime itself); of the `u8` words twice as many; with the leading bit set 107 from 8 -/
example (bld : Build) :
    {v ∈ Finset.range (2 ^ 7) | Yields (fun src fuel k => genSafePrimeBig bld src fuel 7 fuel k) v (2 * 29 + 1)}.card = 12 ∧
    {v ∈ Finset.range (2 ^ 8) | Yields (fun src fuel k => genSafePrimePrim bld src 8 fuel 7 fuel k) v (2 * 23 + 1)}.card = 8 ∧
    {v ∈ Finset.range (2 ^ 128) | Yields (fun src fuel k => genSafePrime128 bld src fuel 7 fuel k) v (2 * 29 + 1)}.card = 12 * 2 ^ 121 ∧
    {v ∈ Finset.range (2 ^ 7) | Yields (fun src fuel k => genSafePrimeExactBig bld src fuel 7 fuel k) v (2 * 53 + 1)}.card = 8 := by
  have p59 : IsPrevPrime (2 * 29 + 1) 53 := by
    refine ⟨⟨by norm_num, by norm_num⟩, fun q hq => ?_⟩
    by_contra hc
    have h1 : 54 ≤ q := by omega
    have h2 : q ≤ 58 := by have := hq.2; omega
    interval_cases q <;> exact absurd hq.1 (by norm_num)
  have p29 : IsPrevPrime 29 23 := by
    refine ⟨⟨by norm_num, by norm_num⟩, fun q hq => ?_⟩
    by_contra hc
    have h1 : 24 ≤ q := by omega
    have h2 : q ≤ 28 := by have := hq.2; omega
    interval_cases q <;> exact absurd hq.1 (by norm_num)
  have p47 : IsPrevPrime (2 * 23 + 1) 43 := by
    refine ⟨⟨by norm_num, by norm_num⟩, fun q hq => ?_⟩
    by_contra hc
    have h1 : 44 ≤ q := by omega
    have h2 : q ≤ 46 := by have := hq.2; omega
    interval_cases q <;> exact absurd hq.1 (by norm_num)
  have p23 : IsPrevPrime 23 19 := by
    refine ⟨⟨by norm_num, by norm_num⟩, fun q hq => ?_⟩
    by_contra hc
    have h1 : 20 ≤ q := by omega
    have h2 : q ≤ 22 := by have := hq.2; omega
    interval_cases q <;> exact absurd hq.1 (by norm_num)
  have p107 : IsPrevPrime (2 * 53 + 1) 103 := by
    refine ⟨⟨by norm_num, by norm_num⟩, fun q hq => ?_⟩
    by_contra hc
    have h1 : 104 ≤ q := by omega
    have h2 : q ≤ 106 := by have := hq.2; omega
    interval_cases q <;> exact absurd hq.1 (by norm_num)
  have n14 : ¬ (29 / 2 : ℕ).Prime := by norm_num
  have n11 : (23 / 2 : ℕ).Prime := by norm_num
  have hN : TestExactBelow bld (2 ^ 8) := ⟨by norm_num, fun p hp => (testExact_u16 bld).2 p (by omega)⟩
  refine ⟨?_, ?_, ?_, ?_⟩
  · rw [C118_safe_prime_words_big bld 16 (Or.inr (Or.inl rfl)) (testExact_u16 bld) 7 29 53 23 (by norm_num) (by norm_num) (by norm_num)
      (by norm_num) (by norm_num) p59 p29, if_neg n14]
  · rw [C118_safe_prime_words bld 8 (Or.inl rfl) hN 7 23 43 19 (by norm_num) (by norm_num) (by norm_num)
      (by norm_num) (by norm_num) p47 p23, if_pos n11]
    norm_num
  · rw [C118_safe_prime_words_u128 bld 16 (Or.inr (Or.inl rfl)) (testExact_u16 bld) 7 29 53 23 (by norm_num) (by norm_num) (by norm_num)
      (by norm_num) (by norm_num) p59 p29, if_neg n14]
  · rw [C118_safe_prime_exact_words_big bld 16 (Or.inr (Or.inl rfl)) (testExact_u16 bld) 7 53 103 (by norm_num) (by norm_num) (by norm_num)
      (by norm_num) p107]
    norm_num

open scoped Classical in
/-- asked for 6 bits, 107 (7 bits) comes from 6 of the 64 numbers: 53 is a prime but not a safe one -/
example (bld : Build) : {v ∈ Finset.range (2 ^ 6) | Yields (fun src fuel k => genSafePrimeBig bld src fuel 6 fuel k) v (2 * 53 + 1)}.card = 6 := by
  have p107 : IsPrevPrime (2 * 53 + 1) 103 := by
    refine ⟨⟨by norm_num, by norm_num⟩, fun q hq => ?_⟩
    by_contra hc
    have h1 : 104 ≤ q := by omega
    have h2 : q ≤ 106 := by have := hq.2; omega
    interval_cases q <;> exact absurd hq.1 (by norm_num)
  have p53 : IsPrevPrime 53 47 := by
    refine ⟨⟨by norm_num, by norm_num⟩, fun q hq => ?_⟩
    by_contra hc
    have h1 : 48 ≤ q := by omega
    have h2 : q ≤ 52 := by have := hq.2; omega
    interval_cases q <;> exact absurd hq.1 (by norm_num)
  rw [C118_safe_prime_long_words_big bld 16 (Or.inr (Or.inl rfl)) (testExact_u16 bld) 6 53 103 47 (by norm_num) (by norm_num) (by norm_num)
      (by norm_num) (by norm_num) (by norm_num) p107 (by norm_num) p53, if_neg (by norm_num)]

open scoped Classical in
/-- asked for 3 bits, 7 comes from 4 of the 8 numbers and 5 from the other 4; with the leading bit set 5 from 4 of them -/
example (bld : Build) :
    {v ∈ Finset.range (2 ^ 3) | Yields (fun src fuel k => genSafePrimeBig bld src fuel 3 fuel k) v (2 * 3 + 1)}.card = 4 ∧
    {v ∈ Finset.range (2 ^ 3) | Yields (fun src fuel k => genSafePrimeBig bld src fuel 3 fuel k) v (2 * 2 + 1)}.card = 4 ∧
    {v ∈ Finset.range (2 ^ 8) | Yields (fun src fuel k => genSafePrimePrim bld src 8 fuel 3 fuel k) v (2 * 3 + 1)}.card = 4 * 2 ^ 5 := by
  have hN : TestExactBelow bld (2 ^ 8) := ⟨by norm_num, fun p hp => (testExact_u16 bld).2 p (by omega)⟩
  exact ⟨C118_safe_prime_small_words_big bld 16 (Or.inr (Or.inl rfl)) (testExact_u16 bld) 3 3 3 (by norm_num) (Or.inr ⟨rfl, rfl⟩) (by norm_num),
    C118_safe_prime_small_words_big bld 16 (Or.inr (Or.inl rfl)) (testExact_u16 bld) 3 2 1 (by norm_num) (Or.inl ⟨rfl, rfl⟩) (by norm_num),
    C118_safe_prime_small_words bld 8 (Or.inl rfl) hN 3 3 3 (by norm_num) (Or.inr ⟨rfl, rfl⟩) (by norm_num)⟩

end NumPrime
