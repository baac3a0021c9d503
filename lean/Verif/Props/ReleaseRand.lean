import Verif.Model.ReleaseRand
import Verif.Props.ReleasePrime
import Verif.Props.ReleaseMint

/-! # C99: random primes in builds without overflow checks -/

namespace NumPrime
open Spec

theorem drawBitsRel_eq {b bits v : ℕ} (h0 : 0 < bits) (hb : bits ≤ b) : drawBits b bits v = .ok (drawBitsRel b bits v) := by
  have h : b - bits < b := by omega
  simp only [drawBits, cshr, h, if_true, drawBitsRel, wshr, Nat.mod_eq_of_lt h]
  rfl

theorem drawBitsRel_zero {b v : ℕ} : drawBitsRel b 0 v = drawBitsRel b b v := by
  simp [drawBitsRel, wshr]

theorem wshl_one {b s : ℕ} (hs : s < b) : wshl b 1 s = 1 <<< s := by
  rw [wshl, Nat.mod_eq_of_lt hs]
  apply Nat.mod_eq_of_lt
  rw [Nat.one_shiftLeft]
  exact Nat.pow_lt_pow_right (by norm_num) hs

theorem drawExactRel_eq {b bits v : ℕ} (h0 : 0 < bits) (hb : bits ≤ b) (h128 : b ≤ 128) :
    drawExact b bits v = .ok (drawExactRel b bits v) := by
  have hs : wsub 64 bits 1 = bits - 1 := by
    rw [wsub, show bits + 2 ^ 64 - 1 = (bits - 1) + 2 ^ 64 by omega, Nat.add_mod_right]
    exact Nat.mod_eq_of_lt (lt_of_lt_of_le (show bits - 1 < 128 by omega) (by norm_num))
  simp only [drawExact, drawBitsRel_eq h0 hb, csub, drawExactRel, hs, wshl_one (show bits - 1 < b by omega)]
  rw [if_pos (by omega)]
  rfl

theorem drawExactRel_zero {b v : ℕ} (hb : b ∈ [8, 16, 32, 64, 128]) : drawExactRel b 0 v = drawExactRel b b v := by
  have h : wshl b 1 (wsub 64 0 1) = wshl b 1 (wsub 64 b 1) := by
    fin_cases hb <;> decide +kernel
  rw [drawExactRel, drawBitsRel_zero, h, drawExactRel]

theorem primWidth_mem {b : ℕ} (hb : PrimWidth b) : b ∈ [8, 16, 32, 64, 128] := by
  unfold PrimWidth at hb
  simp only [List.mem_cons, List.not_mem_nil, or_false]
  omega

/-- **C99** for a bit size from 1 on the generators of random primes for `u8`…`u64` do the same without overflow checks -/
theorem C99_gen_prime_release_agrees (bld : Build) (src : RandSource) (b : ℕ) (hb : PrimWidth b) (fuel bits f k : ℕ) (h0 : 0 < bits) :
    genPrimePrimRel bld src b fuel bits k = genPrimePrim bld src b fuel bits k ∧
    genPrimeExactPrimRel bld src b fuel bits k = genPrimeExactPrim bld src b fuel bits k ∧
    genSafePrimePrimRel bld src b fuel bits f k = genSafePrimePrim bld src b fuel bits f k ∧
    genSafePrimeExactPrimRel bld src b fuel bits f k = genSafePrimeExactPrim bld src b fuel bits f k := by
  have h1 : ∀ k, genPrimePrimRel bld src b fuel bits k = genPrimePrim bld src b fuel bits k := by
    intro k
    unfold genPrimePrimRel genPrimePrim
    split
    · rfl
    · simp only [drawBitsRel_eq h0 (show bits ≤ b by omega), C102_next_prime_release bld b (primWidth_mem hb)]
  have h2 : ∀ k, genPrimeExactPrimRel bld src b fuel bits k = genPrimeExactPrim bld src b fuel bits k := by
    intro k
    unfold genPrimeExactPrimRel genPrimeExactPrim
    split
    · rfl
    · have : b ≤ 128 := by unfold PrimWidth at hb; omega
      simp only [drawExactRel_eq h0 (show bits ≤ b by omega) this, C102_next_prime_release bld b (primWidth_mem hb)]
  refine ⟨h1 k, h2 k, ?_, ?_⟩
  · induction f generalizing k with
    | zero => rfl
    | succ f ih => simp only [genSafePrimePrimRel, genSafePrimePrim, h1, ih]
  · induction f generalizing k with
    | zero => rfl
    | succ f ih => simp only [genSafePrimeExactPrimRel, genSafePrimeExactPrim, h2, ih]

/-- **C99** finding: for the bit size 0, where the debug build panics, the release build returns what it returns for the full width of
the type: the limit is ignored -/
theorem C99_gen_prime_release_zero (bld : Build) (src : RandSource) (b : ℕ) (hb : PrimWidth b) (fuel f k : ℕ) :
    genPrimePrimRel bld src b fuel 0 k = genPrimePrim bld src b fuel b k ∧
    genPrimeExactPrimRel bld src b fuel 0 k = genPrimeExactPrim bld src b fuel b k ∧
    genSafePrimePrimRel bld src b fuel 0 f k = genSafePrimePrim bld src b fuel b f k ∧
    genSafePrimeExactPrimRel bld src b fuel 0 f k = genSafePrimeExactPrim bld src b fuel b f k ∧
    genPrimePrim bld src b (fuel + 1) 0 k = .panic ∧ genPrimeExactPrim bld src b (fuel + 1) 0 k = .panic := by
  have hpos : 0 < b := by unfold PrimWidth at hb; omega
  have h128 : b ≤ 128 := by unfold PrimWidth at hb; omega
  have h1 : ∀ k, genPrimePrimRel bld src b fuel 0 k = genPrimePrim bld src b fuel b k := by
    intro k
    unfold genPrimePrimRel genPrimePrim
    rw [if_neg (by omega), if_neg (by omega)]
    simp only [drawBitsRel_eq hpos le_rfl, drawBitsRel_zero, C102_next_prime_release bld b (primWidth_mem hb)]
  have h2 : ∀ k, genPrimeExactPrimRel bld src b fuel 0 k = genPrimeExactPrim bld src b fuel b k := by
    intro k
    unfold genPrimeExactPrimRel genPrimeExactPrim
    rw [if_neg (by omega), if_neg (by omega)]
    simp only [drawExactRel_eq hpos le_rfl h128, drawExactRel_zero (primWidth_mem hb), C102_next_prime_release bld b (primWidth_mem hb)]
  refine ⟨h1 k, h2 k, ?_, ?_, ?_, ?_⟩
  · induction f generalizing k with
    | zero => rfl
    | succ f ih => simp only [genSafePrimePrimRel, genSafePrimePrim, h1, ih]
  · induction f generalizing k with
    | zero => rfl
    | succ f ih => simp only [genSafePrimeExactPrimRel, genSafePrimeExactPrim, h2, ih]
  · simp [genPrimePrim, genLoop, drawBits, cshr]
  · simp [genPrimeExactPrim, genLoop, drawExact, drawBits, cshr]

theorem testMint_release (bld : Build) (src : RandSource) (config : Option PrimalityTestConfig) (k : ℕ) {t : ℕ} (ht : t < 2 ^ 128) :
    testMintRel bld src config k t = testMint bld src config k t := by
  rw [testMintRel, testMint, C116_is_prime_release bld 128 (by simp) _ t ht]

theorem genLoop_test {mk : ℕ → Res ℕ} {t1 t2 : ℕ → ℕ → Res Bool} {next : ℕ → ℕ → Res (Option ℕ)}
    (h : ∀ k t, mk k = .ok t → t1 k t = t2 k t) : ∀ f k, genLoop mk t1 next f k = genLoop mk t2 next f k
  | 0, _ => rfl
  | f + 1, k => by
    rw [genLoop, genLoop]
    cases hm : mk k with
    | panic => rfl
    | timeout => rfl
    | ok t => simp only [Res.bind_ok, h k t hm, genLoop_test h f]

theorem drawBitsRel_lt {b bits v : ℕ} (hb : 0 < b) : drawBitsRel b bits v < 2 ^ b := by
  unfold drawBitsRel wshr
  refine Nat.or_lt_two_pow (lt_of_le_of_lt (Nat.shiftRight_le _ _) (Nat.mod_lt _ (by positivity))) ?_
  exact Nat.one_lt_two_pow (by omega)

theorem drawExactRel_lt {b bits v : ℕ} (hb : 0 < b) : drawExactRel b bits v < 2 ^ b :=
  Nat.or_lt_two_pow (drawBitsRel_lt hb) (Nat.mod_lt _ (by positivity))

/-- **C99** the same for `u128` and every configuration of the primality test -/
theorem C99_gen_prime_release_u128 (bld : Build) (src : RandSource) (config : Option PrimalityTestConfig) (fuel bits k : ℕ) :
    (0 < bits → genPrime128Rel bld src config fuel bits k = genPrime128 bld src config fuel bits k ∧
      genPrimeExact128Rel bld src config fuel bits k = genPrimeExact128 bld src config fuel bits k) ∧
    genPrime128Rel bld src config fuel 0 k = genPrime128 bld src config fuel 128 k ∧
    genPrimeExact128Rel bld src config fuel 0 k = genPrimeExact128 bld src config fuel 128 k := by
  have ht : ∀ bits k t, (.ok (drawBitsRel 128 bits (src.value k)) : Res ℕ) = .ok t →
      testMintRel bld src config k t = testMint bld src config k t := by
    intro bits k t h
    injection h with h
    exact testMint_release bld src config k (h ▸ drawBitsRel_lt (by norm_num))
  have he : ∀ bits k t, (.ok (drawExactRel 128 bits (src.value k)) : Res ℕ) = .ok t →
      testMintRel bld src config k t = testMint bld src config k t := by
    intro bits k t h
    injection h with h
    exact testMint_release bld src config k (h ▸ drawExactRel_lt (by norm_num))
  refine ⟨fun h0 => ⟨?_, ?_⟩, ?_, ?_⟩
  · unfold genPrime128Rel genPrime128
    split
    · rfl
    · rw [genLoop_test (ht bits)]
      simp only [drawBitsRel_eq h0 (show bits ≤ 128 by omega), C102_next_prime_release bld 128 (by simp)]
  · unfold genPrimeExact128Rel genPrimeExact128
    split
    · rfl
    · rw [genLoop_test (he bits)]
      simp only [drawExactRel_eq h0 (show bits ≤ 128 by omega) le_rfl, C102_next_prime_release bld 128 (by simp)]
  · unfold genPrime128Rel genPrime128
    rw [if_neg (by omega), if_neg (by omega), genLoop_test (ht 0)]
    simp only [drawBitsRel_eq (b := 128) (by norm_num) le_rfl, drawBitsRel_zero, C102_next_prime_release bld 128 (by simp)]
  · unfold genPrimeExact128Rel genPrimeExact128
    rw [if_neg (by omega), if_neg (by omega), genLoop_test (he 0)]
    simp only [drawExactRel_eq (b := 128) (by norm_num) le_rfl le_rfl, drawExactRel_zero (b := 128) (by simp), C102_next_prime_release bld 128 (by simp)]

theorem genPrime128_lt {bld : Build} {src : RandSource} {config : Option PrimalityTestConfig} {fuel bits k p k' : ℕ} (h0 : 0 < bits)
    (h : genPrime128 bld src config fuel bits k = .ok (p, k') ∨ genPrimeExact128 bld src config fuel bits k = .ok (p, k')) :
    p < 2 ^ 128 := by
  rcases h with h | h
  · unfold genPrime128 at h
    split at h
    · cases h
    · refine (loop128_accepted (fun j t hj => ?_) h).1
      rw [drawBitsRel_eq h0 (by omega)] at hj
      injection hj with hj
      exact hj ▸ drawBitsRel_lt (by norm_num)
  · unfold genPrimeExact128 at h
    split at h
    · cases h
    · refine (loop128_accepted (fun j t hj => ?_) h).1
      rw [drawExactRel_eq h0 (by omega) le_rfl] at hj
      injection hj with hj
      exact hj ▸ drawExactRel_lt (by norm_num)

/-- **C99** what the bit size 0 yields without overflow checks: every odd prime of the type, given a random word equal to it -/
theorem C99_gen_prime_release_zero_any (bld : Build) (b p : ℕ) (hb : PrimWidth b) (hp : p.Prime) (h2 : p ≠ 2) (hpb : p < 2 ^ b)
    (src : RandSource) (k fuel : ℕ) (hs : src.value k = p) : genPrimePrimRel bld src b (fuel + 1) 0 k = .ok (p, k + 1) := by
  have hpos : 0 < b := by unfold PrimWidth at hb; omega
  have h64 : p < 2 ^ 64 := lt_of_lt_of_le hpb (Nat.pow_le_pow_right (by norm_num) (by unfold PrimWidth at hb; omega))
  have hodd : p ||| 1 = p := by
    have := hp.eq_two_or_odd.resolve_left h2
    apply Nat.eq_of_testBit_eq
    intro i
    rw [Nat.testBit_or]
    cases i with
    | zero => simp [Nat.testBit_zero, this]
    | succ i => simp [Nat.testBit_succ]
  have hd : drawBitsRel b 0 (src.value k) = p := by
    rw [hs, drawBitsRel, wshr, Nat.sub_zero, Nat.mod_self, Nat.mod_eq_of_lt hpb, Nat.shiftRight_zero, hodd]
  unfold genPrimePrimRel
  rw [if_neg (by omega)]
  simp only [genLoop, hd, Res.bind_ok, C01_is_prime64_prime bld p hp h64]
  rfl

/-- **C102** the safe primes of `u128`: the same sequence of draws and the same result for bit sizes from 1 on; bit size 0, which
panics with overflow checks, behaves like bit size 128 without -/
theorem C102_gen_safe_prime_release_u128 (bld : Build) (src : RandSource) (fuel bits f k : ℕ) :
    (0 < bits → genSafePrime128Rel bld src fuel bits f k = genSafePrime128 bld src fuel bits f k ∧
      genSafePrimeExact128Rel bld src fuel bits f k = genSafePrimeExact128 bld src fuel bits f k) ∧
    genSafePrime128Rel bld src fuel 0 f k = genSafePrime128 bld src fuel 128 f k ∧
    genSafePrimeExact128Rel bld src fuel 0 f k = genSafePrimeExact128 bld src fuel 128 f k := by
  have key : ∀ b1 b2, 0 < b2 → (∀ k, genPrime128Rel bld src (some .strict) fuel b1 k = genPrime128 bld src (some .strict) fuel b2 k) →
      ∀ f k, genSafePrime128Rel bld src fuel b1 f k = genSafePrime128 bld src fuel b2 f k := by
    intro b1 b2 h0 h f
    induction f with
    | zero => intro k; rfl
    | succ f ih =>
      intro k
      rw [genSafePrime128Rel, genSafePrime128, h k]
      have ht : ∀ k p, (if fits (some 128) (p * 2 + 1) then
          (isPrimeNewRel bld 128 (p * 2 + 1) (some .strict) (src.draws k (p * 2 + 1))).mapR Primality.probably
          else .ok false : Res Bool) =
          (if fits (some 128) (p * 2 + 1) then testPlain bld (some 128) src (some .strict) k (p * 2 + 1) else .ok false) := by
        intro k p
        split
        · rename_i hf
          rw [isPrimeNew_release bld (by simp) (by simpa [fits] using hf)]
          rfl
        · rfl
      cases hg : genPrime128 bld src (some .strict) fuel b2 k with
      | panic => rfl
      | timeout => rfl
      | ok r =>
        simp only [Res.bind_ok, ht, ih, testMint_release bld src _ r.2
          (lt_of_le_of_lt (Nat.shiftRight_le r.1 1) (genPrime128_lt h0 (Or.inl hg)))]
  have key2 : ∀ b1 b2, 0 < b2 → (∀ k, genPrimeExact128Rel bld src (some .strict) fuel b1 k = genPrimeExact128 bld src (some .strict) fuel b2 k) →
      ∀ f k, genSafePrimeExact128Rel bld src fuel b1 f k = genSafePrimeExact128 bld src fuel b2 f k := by
    intro b1 b2 h0 h f
    induction f with
    | zero => intro k; rfl
    | succ f ih =>
      intro k
      rw [genSafePrimeExact128Rel, genSafePrimeExact128, h k]
      cases hg : genPrimeExact128 bld src (some .strict) fuel b2 k with
      | panic => rfl
      | timeout => rfl
      | ok r =>
        simp only [Res.bind_ok, ih, testMint_release bld src _ r.2
          (lt_of_le_of_lt (Nat.shiftRight_le r.1 1) (genPrime128_lt h0 (Or.inr hg)))]
  refine ⟨fun h0 => ⟨?_, ?_⟩, ?_, ?_⟩
  · exact key _ _ h0 (fun k => ((C99_gen_prime_release_u128 bld src _ fuel bits k).1 h0).1) f k
  · exact key2 _ _ h0 (fun k => ((C99_gen_prime_release_u128 bld src _ fuel bits k).1 h0).2) f k
  · exact key _ _ (by norm_num) (fun k => (C99_gen_prime_release_u128 bld src _ fuel bits k).2.1) f k
  · exact key2 _ _ (by norm_num) (fun k => (C99_gen_prime_release_u128 bld src _ fuel bits k).2.2) f k

-- the random word 251 for `u8`: a prime of 8 bits for the bit size 0
example : genPrimePrimRel .big ⟨fun _ => 251, fun _ _ => []⟩ 8 1 0 0 = .ok (251, 1) :=
  C99_gen_prime_release_zero_any .big 8 251 (by unfold PrimWidth; omega) (by norm_num) (by norm_num) (by norm_num) _ 0 0 rfl

end NumPrime
