import Verif.Props.RandSafeSizes

/-! # The generators of safe primes return as soon as the stream of random words has a word that gives a safe prime -/

namespace NumPrime

/-- the loop does not go past a word that gives a number accepted by the test -/
theorem genLoop_stops {mk : ℕ → Res ℕ} {test : ℕ → ℕ → Res Bool} {next : ℕ → ℕ → Res (Option ℕ)} {t : ℕ} : ∀ f m k p k',
    mk (k + m) = .ok t → test (k + m) t = .ok true → genLoop mk test next f k = .ok (p, k') →
    k < k' ∧ k' ≤ k + m + 1 ∧ (k' = k + m + 1 → p = t)
  | 0, m, k, p, k', _, _, h => by simp [genLoop] at h
  | f + 1, m, k, p, k', hmk, ht, h => by
    rw [genLoop, Res.bind_eq_ok] at h
    obtain ⟨u, h1, h⟩ := h
    rw [Res.bind_eq_ok] at h
    obtain ⟨a, h2, h⟩ := h
    cases m with
    | zero =>
      rw [Nat.add_zero] at hmk ht
      obtain rfl : u = t := by rw [h1] at hmk; exact Res.ok.inj hmk
      obtain rfl : a = true := by rw [h2] at ht; exact Res.ok.inj ht
      simp only [if_true, Res.pure_def, Res.ok.injEq, Prod.mk.injEq] at h
      obtain ⟨rfl, rfl⟩ := h
      exact ⟨by omega, by omega, fun _ => rfl⟩
    | succ m =>
      cases a
      · simp only [Bool.false_eq_true, if_false] at h
        rw [Res.bind_eq_ok] at h
        obtain ⟨o, h3, h⟩ := h
        cases o with
        | none =>
          have e : k + 1 + m = k + (m + 1) := by omega
          obtain ⟨a1, a2, a3⟩ := genLoop_stops f m (k + 1) p k' (by rw [e]; exact hmk) (by rw [e]; exact ht) h
          exact ⟨by omega, by omega, fun hk => a3 (by omega)⟩
        | some q =>
          simp only [Res.pure_def, Res.ok.injEq, Prod.mk.injEq] at h
          obtain ⟨rfl, rfl⟩ := h
          exact ⟨by omega, by omega, fun hk => by omega⟩
      · simp only [if_true, Res.pure_def, Res.ok.injEq, Prod.mk.injEq] at h
        obtain ⟨rfl, rfl⟩ := h
        exact ⟨by omega, by omega, fun hk => by omega⟩

theorem safe_half {s : ℕ} (hs : s.Prime) (h : ((s - 1) / 2).Prime) (h64 : s < 2 ^ 64) (bld : Build) : isPrime64 bld (s >>> 1) = true := by
  have hodd := odd_of_prime hs (by have := h.two_le; omega)
  rw [Nat.shiftRight_eq_div_pow, show s / 2 ^ 1 = (s - 1) / 2 by omega]
  exact C01_is_prime64_prime bld _ h (by omega)

/-- **C121** (default build) `gen_safe_prime_exact(bits)` returns for every stream of random words in which some word, cut to
`bits` bits and with the first and the last bit set, is a safe prime: it needs no more attempts than there are words up to
that one -/
theorem C121_safe_prime_exact_returns (src : RandSource) (b : ℕ) (hb : PrimWidth b) (bits : ℕ) (h0 : 0 < bits) (hbits : bits ≤ b)
    (s : ℕ) (hs : s.Prime) (hsafe : ((s - 1) / 2).Prime) : ∀ m k : ℕ,
    (src.value (k + m) % 2 ^ b / 2 ^ (b - bits)) ||| 1 ||| 2 ^ (bits - 1) = s →
    ∃ F r, ∀ fuel attempts, F ≤ fuel → m < attempts → genSafePrimeExactPrim .big src b fuel bits attempts k = .ok r := by
  intro m
  induction m using Nat.strong_induction_on with
  | _ m ih =>
  intro k hm
  have hd : drawExact b bits (src.value (k + m)) = .ok s := by rw [drawExact_eq h0 hbits, hm]
  have hslt : s < 2 ^ b := lt_of_lt_of_le (drawExact_ok hbits hd).2.2 (Nat.pow_le_pow_right (by norm_num) hbits)
  have h64 : s < 2 ^ 64 := lt_of_lt_of_le hslt (Nat.pow_le_pow_right (by norm_num) hb.le)
  obtain ⟨F, ⟨p, k'⟩, hF⟩ := primLoop_returns (src := src) hb (mk := fun k => drawExact b bits (src.value k))
    (fun j => ⟨_, drawExact_eq h0 hbits _⟩) k m ⟨s, s, hd, hs, le_rfl, hslt⟩
  have hgen : ∀ fuel, F ≤ fuel → genPrimeExactPrim .big src b fuel bits k = .ok (p, k') := by
    intro fuel hf
    rw [genPrimeExactPrim, if_neg (by omega)]
    exact hF fuel hf
  obtain ⟨a1, a2, a3⟩ := genLoop_stops F m k p k' hd (congrArg Res.ok (C01_is_prime64_prime .big s hs h64)) (hF F le_rfl)
  by_cases hp : isPrime64 .big (p >>> 1) = true
  · refine ⟨F, (p, k'), fun fuel attempts hf ha => ?_⟩
    obtain ⟨g, rfl⟩ : ∃ g, attempts = g + 1 := ⟨attempts - 1, by omega⟩
    rw [genSafePrimeExactPrim, hgen fuel hf, Res.bind_ok]
    simp only [hp, if_true]
    rfl
  · have hk : k' ≠ k + m + 1 := fun e => hp (by rw [a3 e]; exact safe_half hs hsafe h64 _)
    obtain ⟨F', r, h⟩ := ih (k + m - k') (by omega) k' (by rw [show k' + (k + m - k') = k + m by omega]; exact hm)
    refine ⟨max F F', r, fun fuel attempts hf ha => ?_⟩
    obtain ⟨g, rfl⟩ : ∃ g, attempts = g + 1 := ⟨attempts - 1, by omega⟩
    rw [genSafePrimeExactPrim, hgen fuel (by omega), Res.bind_ok]
    simp only [hp]
    exact h fuel g (by omega) (by omega)

/-- **C121** (default build) the same for `gen_safe_prime(bits)` -/
theorem C121_safe_prime_returns (src : RandSource) (b : ℕ) (hb : PrimWidth b) (bits : ℕ) (h0 : 0 < bits) (hbits : bits ≤ b)
    (s : ℕ) (hs : s.Prime) (hsafe : ((s - 1) / 2).Prime) : ∀ m k : ℕ,
    (src.value (k + m) % 2 ^ b / 2 ^ (b - bits)) ||| 1 = s →
    ∃ F r, ∀ fuel attempts, F ≤ fuel → m < attempts → genSafePrimePrim .big src b fuel bits attempts k = .ok r := by
  intro m
  induction m using Nat.strong_induction_on with
  | _ m ih =>
  intro k hm
  have hd : drawBits b bits (src.value (k + m)) = .ok s := by rw [drawBits_eq h0 hbits, hm]
  have hslt : s < 2 ^ b := lt_of_lt_of_le (drawBits_ok hbits hd).2.2 (Nat.pow_le_pow_right (by norm_num) hbits)
  have h64 : s < 2 ^ 64 := lt_of_lt_of_le hslt (Nat.pow_le_pow_right (by norm_num) hb.le)
  obtain ⟨F, ⟨p, k'⟩, hF⟩ := primLoop_returns (src := src) hb (mk := fun k => drawBits b bits (src.value k))
    (fun j => ⟨_, drawBits_eq h0 hbits _⟩) k m ⟨s, s, hd, hs, le_rfl, hslt⟩
  have hgen : ∀ fuel, F ≤ fuel → genPrimePrim .big src b fuel bits k = .ok (p, k') := by
    intro fuel hf
    rw [genPrimePrim, if_neg (by omega)]
    exact hF fuel hf
  obtain ⟨a1, a2, a3⟩ := genLoop_stops F m k p k' hd (congrArg Res.ok (C01_is_prime64_prime .big s hs h64)) (hF F le_rfl)
  by_cases hp : isPrime64 .big (p >>> 1) = true
  · refine ⟨F, (p, k'), fun fuel attempts hf ha => ?_⟩
    obtain ⟨g, rfl⟩ : ∃ g, attempts = g + 1 := ⟨attempts - 1, by omega⟩
    rw [genSafePrimePrim, hgen fuel hf, Res.bind_ok]
    simp only [hp, if_true]
    rfl
  by_cases hp2 : fits (some b) (p * 2 + 1) = true ∧ isPrime64 .big (p * 2 + 1) = true
  · refine ⟨F, (p * 2 + 1, k'), fun fuel attempts hf ha => ?_⟩
    obtain ⟨g, rfl⟩ : ∃ g, attempts = g + 1 := ⟨attempts - 1, by omega⟩
    rw [genSafePrimePrim, hgen fuel hf, Res.bind_ok]
    simp only [hp, if_pos hp2]
    rfl
  · have hk : k' ≠ k + m + 1 := fun e => hp (by rw [a3 e]; exact safe_half hs hsafe h64 _)
    obtain ⟨F', r, h⟩ := ih (k + m - k') (by omega) k' (by rw [show k' + (k + m - k') = k + m by omega]; exact hm)
    refine ⟨max F F', r, fun fuel attempts hf ha => ?_⟩
    obtain ⟨g, rfl⟩ : ∃ g, attempts = g + 1 := ⟨attempts - 1, by omega⟩
    rw [genSafePrimePrim, hgen fuel (by omega), Res.bind_ok]
    simp only [hp, if_neg hp2]
    exact h fuel g (by omega) (by omega)

/-- **C121** for every bit size from 3 to the size of the type there is a word such that in the default build both generators
return for every stream in which that word occurs, with at most as many attempts as there are words up to it. (Of independent
uniform words, almost every stream has it.) -/
theorem C121_returns_on_some_word (b : ℕ) (hb : PrimWidth b) (bits : ℕ) (h3 : 3 ≤ bits) (hbits : bits ≤ b) :
    ∃ v < 2 ^ b, ∀ (src : RandSource) (k m : ℕ), src.value (k + m) = v →
      (∃ F r, ∀ fuel attempts, F ≤ fuel → m < attempts → genSafePrimePrim .big src b fuel bits attempts k = .ok r) ∧
      (∃ F r, ∀ fuel attempts, F ≤ fuel → m < attempts → genSafePrimeExactPrim .big src b fuel bits attempts k = .ok r) := by
  obtain ⟨s, hs, hs', hlo, hhi⟩ := exists_safe h3 (le_trans hbits (le_trans hb.le (by norm_num)))
  have hodd := odd_of_prime hs (by have := hs'.two_le; omega)
  have hlt : s * 2 ^ (b - bits) < 2 ^ b := by
    calc s * 2 ^ (b - bits) < 2 ^ bits * 2 ^ (b - bits) := Nat.mul_lt_mul_of_pos_right hhi (by positivity)
      _ = 2 ^ b := by rw [← pow_add]; congr 1; omega
  have hcut : s * 2 ^ (b - bits) % 2 ^ b / 2 ^ (b - bits) = s := by
    rw [Nat.mod_eq_of_lt hlt, Nat.mul_div_cancel _ (by positivity)]
  refine ⟨s * 2 ^ (b - bits), hlt, fun src k m hv => ⟨?_, ?_⟩⟩
  · refine C121_safe_prime_returns src b hb bits (by omega) hbits s hs hs' m k ?_
    rw [hv, hcut, or_one_of_odd hodd]
  · refine C121_safe_prime_exact_returns src b hb bits (by omega) hbits s hs hs' m k ?_
    rw [hv, hcut, or_one_of_odd hodd, or_top hlo (by rwa [Nat.sub_add_cancel (by omega)])]

-- a stream whose third word is the safe prime 23, after two words from which the generator gets 31 and 29
example : ∃ F r, ∀ fuel attempts, F ≤ fuel → 2 < attempts →
    genSafePrimeExactPrim .big ⟨fun i => if i = 0 then 31 * 8 else if i = 1 then 28 * 8 else 23 * 8, fun _ _ => []⟩ 8 fuel 5 attempts 0
      = .ok r :=
  C121_safe_prime_exact_returns _ 8 (Or.inl rfl) 5 (by norm_num) (by norm_num) 23 (by norm_num) (by norm_num) 2 0 rfl
example : genSafePrimeExactPrim .big ⟨fun i => if i = 0 then 31 * 8 else if i = 1 then 28 * 8 else 23 * 8, fun _ _ => []⟩ 8 5 5 3 0
    = .ok (23, 3) := by decide +kernel

end NumPrime
