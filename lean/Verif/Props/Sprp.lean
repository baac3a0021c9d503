import Verif.Proofs.Sprp
import Mathlib.Tactic.NormNum.Prime

/-! # C03 – C06: Fermat and strong probable prime tests -/

namespace NumPrime

/-- **C03** `n.is_prp(b)` is true exactly when `b^(n-1) ≡ 1 (mod n)` (for `n ≥ 2`), and false for `n = 0`. -/
theorem C03_is_prp_iff (n b : ℕ) (hn : 2 ≤ n) : isPrp n b = true ↔ Spec.FermatPRP n b := by
  unfold isPrp Spec.FermatPRP
  have h1 : ¬ n < 1 := by omega
  simp only [h1, if_false, beq_iff_eq, powm_eq, Nat.ModEq]
  rw [Nat.mod_eq_of_lt (by omega : 1 < n)]

/-- **C03** every prime passes for every base it does not divide -/
theorem C03_is_prp_prime (p b : ℕ) (hp : p.Prime) (hb : ¬ p ∣ b) : isPrp p b = true := by
  rw [C03_is_prp_iff _ _ hp.two_le]
  haveI := Fact.mk hp
  unfold Spec.FermatPRP
  rw [← ZMod.natCast_eq_natCast_iff]
  push_cast
  exact ZMod.pow_card_sub_one_eq_one (by rwa [Ne, ZMod.natCast_eq_zero_iff])

/-- **C03** the remaining inputs: zero is rejected, one is rejected (`b^0 mod 1 = 0` is not one) -/
theorem C03_is_prp_small (b : ℕ) : isPrp 0 b = false ∧ isPrp 1 b = false := by
  refine ⟨rfl, ?_⟩
  simp [isPrp, powm_eq, Nat.mod_one]

-- non-vacuity: 341 = 11 * 31 is a Fermat pseudoprime to base 2 but not to base 3
example : isPrp 341 2 = true ∧ isPrp 341 3 = false := by decide +kernel
example : Spec.FermatPRP 341 2 := (C03_is_prp_iff 341 2 (by norm_num)).mp (by decide +kernel)

/-- **C04** for every odd `n ≥ 3` that fits the type and every base, `n.is_sprp(b)` does not panic and is
true exactly when `n` is a strong probable prime to base `b` in the textbook sense (rounds `r < s` only,
although the code does one round more). -/
theorem C04_is_sprp_iff (w : Width) (n b : ℕ) (hn : 3 ≤ n) (hodd : n % 2 = 1) (hw : fits w n = true) :
    ∃ v, isSprp w n b = .ok v ∧ (v = true ↔ Spec.StrongPRP n b) := by
  refine ⟨_, by rw [isSprp, testSprp_ok (by omega) hw, Res.mapR_ok], ?_⟩
  rw [testSprpCore_verdict (by omega) hodd, strongPRP_iff (by omega)]

-- non-vacuity: 2047 = 23 * 89 is the first strong pseudoprime to base 2
example : isSprp (some 64) 2047 2 = .ok true ∧ isSprp (some 16) 2049 2 = .ok false := by decide +kernel

/-- **C05** a prime is never rejected: if `n` is an odd prime not dividing the base, `test_sprp` returns
`Left(true)` and `is_sprp` returns `true`. -/
theorem C05_sprp_complete (w : Width) (p b : ℕ) (hp : p.Prime) (h2 : p ≠ 2) (hb : ¬ p ∣ b)
    (hw : fits w p = true) :
    testSprp w p b = .ok (.left true) ∧ isSprp w p b = .ok true := by
  have hn : 2 < p := lt_of_le_of_ne hp.two_le (Ne.symm h2)
  have h := testSprp_ok hn hw b
  rw [testSprpCore_prime hp hn hb] at h
  exact ⟨h, by rw [isSprp, h]; rfl⟩

example : testSprp (some 32) 4294967291 3 = .ok (.left true) := by decide +kernel

/-- **C06** whenever `test_sprp` reports a factor of an odd `n ≥ 3` it is a proper divisor. -/
theorem C06_test_sprp_factor (w : Width) (n b d : ℕ) (hn : 3 ≤ n) (hw : fits w n = true)
    (h : testSprp w n b = .ok (.right d)) : Spec.ProperDivisor d n := by
  rw [testSprp_ok (by omega) hw] at h
  exact testSprpCore_right (by omega) _ _ _ (by injection h)

-- non-vacuity: 341 has 2^85 ≡ 32, 32² ≡ 1
example : testSprp (some 64) 341 2 = .ok (.right 31) := by decide +kernel

/-- **C04, finding** on machine integers `1.is_sprp(b)` panics (shift by the full width), for every base -/
theorem C04_sprp_one_panics (k b : ℕ) : isSprp (some k) 1 b = .panic := by
  simp [isSprp, testSprp, trailingZeros, cshr]

/-- **C04** zero is rejected -/
theorem C04_is_sprp_zero (w : Width) (b : ℕ) : isSprp w 0 b = .ok false := by simp [isSprp, testSprp, SprpResult.verdict]

/-- **C04** for even `n`, where the textbook test is not defined, the verdict is `b^(n-1) ≡ ±1` modulo `n` -/
theorem C04_is_sprp_even (w : Width) (n b : ℕ) (hn : 3 ≤ n) (he : n % 2 = 0) (hw : fits w n = true) :
    ∃ v, isSprp w n b = .ok v ∧ (v = true ↔ b ^ (n - 1) % n = 1 ∨ b ^ (n - 1) % n = n - 1) := by
  have h0 : tz (n - 1) = 0 := tz_unique (by omega) (by simp) (by simp; omega)
  refine ⟨_, by rw [isSprp, testSprp_ok (by omega) hw, Res.mapR_ok], ?_⟩
  have e1 : 1 % n = 1 := Nat.mod_eq_of_lt (by omega)
  have e2 : negm 1 n = n - 1 := by rw [negm, e1, Nat.mod_eq_of_lt (by omega)]
  simp only [h0, testSprpCore, sprpLoop, powm_eq, Nat.shiftRight_zero, e1, e2]
  split
  · rename_i h
    simp [SprpResult.verdict, h]
  · rename_i h
    have := not_or.mp h
    simp [SprpResult.verdict, this.1, this.2]

-- 2^3 = 8 = 0 and 3^3 = -1 modulo 4
example : isSprp (some 8) 4 2 = .ok false ∧ isSprp (some 8) 4 3 = .ok true ∧ isSprp (some 8) 2 3 = .ok true := by decide +kernel

end NumPrime
