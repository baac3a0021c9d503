import Verif.Model.Primality
import Verif.Proofs.Basic
import Verif.Spec.Probable
import Mathlib.FieldTheory.Finite.Basic

/-! Miller-Rabin: loop characterisation, completeness, divisor. -/

namespace NumPrime

/-- decomposition `n - 1 = (n-1 >> tz) * 2^tz` -/
theorem tz_decomp {m : Nat} (hm : 0 < m) : (m >>> tz m) % 2 = 1 ∧ m = (m >>> tz m) * 2 ^ tz m := by
  obtain ⟨a, b⟩ := tz_spec hm
  rw [Nat.shiftRight_eq_div_pow]
  exact ⟨b, (Nat.div_mul_cancel a).symm⟩

theorem odd_decomp_unique {s t d e : Nat} (hd : d % 2 = 1) (he : e % 2 = 1)
    (h : d * 2 ^ s = e * 2 ^ t) : s = t ∧ d = e := by
  have hpos : 0 < d * 2 ^ s := Nat.mul_pos (by omega) (by positivity)
  have h1 : tz (d * 2 ^ s) = s := tz_unique hpos (Dvd.intro_left _ rfl)
    (by rw [Nat.mul_div_cancel _ (by positivity)]; exact hd)
  have h2 : tz (d * 2 ^ s) = t := tz_unique hpos (by rw [h]; exact Dvd.intro_left _ rfl)
    (by rw [h, Nat.mul_div_cancel _ (by positivity)]; exact he)
  have hst : s = t := h1.symm.trans h2
  subst hst
  exact ⟨rfl, Nat.eq_of_mul_eq_mul_right (by positivity) h⟩

/-- if every prime factor of `n` is `1 mod M` so is `n` -/
theorem mod_eq_one_of_prime_factors {M : Nat} : ∀ n : Nat, n ≠ 0 →
    (∀ p, p.Prime → p ∣ n → p ≡ 1 [MOD M]) → n ≡ 1 [MOD M] := by
  intro n
  induction n using Nat.recOnMul with
  | zero => intro h; exact absurd rfl h
  | one => intro _ _; rfl
  | prime p hp => intro _ h; exact h p hp dvd_rfl
  | mul a b iha ihb =>
    intro h0 h
    have ha : a ≠ 0 := by rintro rfl; simp at h0
    have hb : b ≠ 0 := by rintro rfl; simp at h0
    have := (iha ha fun p hp hd => h p hp (hd.mul_right b)).mul (ihb hb fun p hp hd => h p hp (hd.mul_left a))
    simpa using this

/-- for odd `n > 1`, `b^(n-1)` is never `-1` modulo `n` -/
theorem pow_pred_ne_neg_one {n : Nat} (hn : 1 < n) (hodd : n % 2 = 1) (b : ZMod n) :
    b ^ (n - 1) ≠ -1 := by
  intro h
  obtain ⟨hu, hdec⟩ := tz_decomp (m := n - 1) (by omega)
  set s := tz (n - 1)
  set u := (n - 1) >>> s
  have key : n ≡ 1 [MOD 2 ^ (s + 1)] := by
    apply mod_eq_one_of_prime_factors n (by omega)
    intro p hp hpn
    haveI := Fact.mk hp
    have hp2 : p ≠ 2 := by rintro rfl; omega
    let f := ZMod.castHom hpn (ZMod p)
    have hb : (f b) ^ (n - 1) = -1 := by
      rw [← map_pow, h, map_neg, map_one]
    have hb0 : f b ≠ 0 := by
      intro h0
      rw [h0, zero_pow (by omega)] at hb
      have : (1 : ZMod p) = 0 := by linear_combination hb
      exact one_ne_zero this
    haveI : Fact (2 < p) := ⟨lt_of_le_of_ne hp.two_le (Ne.symm hp2)⟩
    have hne : (-1 : ZMod p) ≠ 1 := ZMod.neg_one_ne_one
    -- c = (f b)^u has c^(2^s) = -1 so order 2^(s+1)
    have hc : ((f b) ^ u) ^ (2 ^ s) = -1 := by rw [← pow_mul, ← hdec, hb]
    have hord : orderOf ((f b) ^ u) = 2 ^ (s + 1) := by
      apply orderOf_eq_prime_pow
      · rw [hc]; exact hne
      · rw [pow_succ, pow_mul, hc]; ring
    have hd : orderOf ((f b) ^ u) ∣ p - 1 := by
      apply orderOf_dvd_of_pow_eq_one
      exact ZMod.pow_card_sub_one_eq_one (pow_ne_zero _ hb0)
    rw [hord] at hd
    exact ((Nat.modEq_iff_dvd' hp.one_le).mpr hd).symm
  have h2 : 2 ^ (s + 1) ∣ n - 1 := (Nat.modEq_iff_dvd' (by omega)).mp key.symm
  obtain ⟨c, hc⟩ := h2
  rw [hdec, pow_succ, mul_comm, mul_assoc] at hc
  have := Nat.eq_of_mul_eq_mul_left (by positivity : 0 < 2 ^ s) hc
  omega

theorem neg_one_ne_one' {n : Nat} (hn : 2 < n) : (-1 : ZMod n) ≠ 1 := by
  haveI : Fact (2 < n) := ⟨hn⟩
  exact ZMod.neg_one_ne_one

theorem one_mod_cast (n : Nat) : ((1 % n : Nat) : ZMod n) = 1 := by
  rw [ZMod.natCast_mod]; simp

/-- loop verdict -/
theorem sprpLoop_verdict {n : Nat} (hn : 2 < n) : ∀ k x, x < n → (x : ZMod n) ≠ 1 →
    ((sprpLoop n (1 % n) (negm (1 % n) n) k x).verdict = true ↔
      ∃ j, 1 ≤ j ∧ j ≤ k ∧ (x : ZMod n) ^ (2 ^ j) = -1) := by
  have hpos : 0 < n := by omega
  intro k
  induction k with
  | zero =>
    intro x hx h1
    have : x ≠ 1 % n := by
      rintro h; apply h1; rw [h]; exact one_mod_cast n
    simp only [sprpLoop, SprpResult.verdict, beq_iff_eq, this, false_iff]
    rintro ⟨j, a, b, _⟩; omega
  | succ k ih =>
    intro x hx h1
    have hy := sqm_cast x n
    have hylt := sqm_lt x hpos
    have hm1 : 1 % n < n := Nat.mod_lt _ hpos
    have hmm1 := negm_lt (1 % n) hpos
    have e1 : sqm x n = 1 % n ↔ (x : ZMod n) ^ 2 = 1 := by
      rw [← natCast_inj_of_lt hylt hm1, hy, one_mod_cast]
    have e2 : sqm x n = negm (1 % n) n ↔ (x : ZMod n) ^ 2 = -1 := by
      rw [← natCast_inj_of_lt hylt hmm1, hy, negm_cast _ hpos, one_mod_cast]
    simp only [sprpLoop]
    split
    · rename_i h
      rw [e1] at h
      simp only [SprpResult.verdict, Bool.false_eq_true, false_iff]
      rintro ⟨j, a, b, hj⟩
      obtain ⟨i, rfl⟩ := Nat.exists_eq_succ_of_ne_zero (by omega : j ≠ 0)
      rw [Nat.succ_eq_add_one, pow_succ', pow_mul, h, one_pow] at hj
      exact neg_one_ne_one' hn hj.symm
    split
    · rename_i h
      rw [e2] at h
      simp only [SprpResult.verdict, true_iff]
      exact ⟨1, le_rfl, by omega, by simpa using h⟩
    · rename_i h h'
      rw [ih _ hylt (by rw [hy]; rwa [e1] at h)]
      rw [hy]
      rw [e2] at h'
      constructor
      · rintro ⟨j, a, b, hj⟩
        exact ⟨j + 1, by omega, by omega, by rw [pow_succ', pow_mul]; exact hj⟩
      · rintro ⟨j, a, b, hj⟩
        obtain ⟨i, rfl⟩ := Nat.exists_eq_succ_of_ne_zero (by omega : j ≠ 0)
        refine ⟨i, ?_, by omega, by rw [← pow_mul, ← pow_succ']; exact hj⟩
        rcases Nat.eq_zero_or_pos i with rfl | h0
        · simp at hj; exact absurd hj h'
        · exact h0

theorem testSprpCore_verdict {n : Nat} (hn : 2 < n) (hodd : n % 2 = 1) (b : Nat) :
    (testSprpCore n b (tz (n - 1))).verdict = true ↔
      ((b : ZMod n) ^ ((n - 1) >>> tz (n - 1)) = 1 ∨
        ∃ r < tz (n - 1), (b : ZMod n) ^ (((n - 1) >>> tz (n - 1)) * 2 ^ r) = -1) := by
  have hpos : 0 < n := by omega
  obtain ⟨hu, hdec⟩ := tz_decomp (m := n - 1) (by omega)
  set s := tz (n - 1) with hs
  set u := (n - 1) >>> s with hu'
  have hspos : 0 < s := by
    rcases Nat.eq_zero_or_pos s with h | h
    · rw [h] at hdec; omega
    · exact h
  have hx := powm_cast b u n
  have hxlt := powm_lt b u hpos
  have hm1 : 1 % n < n := Nat.mod_lt _ hpos
  have hmm1 := negm_lt (1 % n) hpos
  have e1 : powm b u n = 1 % n ↔ (b : ZMod n) ^ u = 1 := by
    rw [← natCast_inj_of_lt hxlt hm1, hx, one_mod_cast]
  have e2 : powm b u n = negm (1 % n) n ↔ (b : ZMod n) ^ u = -1 := by
    rw [← natCast_inj_of_lt hxlt hmm1, hx, negm_cast _ hpos, one_mod_cast]
  simp only [testSprpCore]
  rw [← hu']
  split
  · rename_i h
    simp only [SprpResult.verdict, true_iff]
    rcases h with h | h
    · left; rwa [e1] at h
    · right; rw [e2] at h; exact ⟨0, hspos, by simpa using h⟩
  · rename_i h
    rw [e1, e2] at h
    push Not at h
    rw [sprpLoop_verdict hn _ _ hxlt (by rw [hx]; exact h.1), hx]
    constructor
    · rintro ⟨j, h1, h2, hj⟩
      right
      refine ⟨j, ?_, by rw [pow_mul]; exact hj⟩
      rcases Nat.lt_or_ge j s with h3 | h3
      · exact h3
      · have : j = s := by omega
        subst this
        exfalso
        rw [← pow_mul, ← hdec] at hj
        exact pow_pred_ne_neg_one (by omega) hodd _ hj
    · rintro (h1 | ⟨r, h1, h2⟩)
      · exact absurd h1 h.1
      · refine ⟨r, ?_, by omega, by rw [← pow_mul]; exact h2⟩
        rcases Nat.eq_zero_or_pos r with rfl | h0
        · simp at h2; exact absurd h2 h.2
        · exact h0

theorem strongPRP_iff {n : Nat} (hn : 2 < n) (b : Nat) :
    Spec.StrongPRP n b ↔
      ((b : ZMod n) ^ ((n - 1) >>> tz (n - 1)) = 1 ∨
        ∃ r < tz (n - 1), (b : ZMod n) ^ (((n - 1) >>> tz (n - 1)) * 2 ^ r) = -1) := by
  obtain ⟨hu, hdec⟩ := tz_decomp (m := n - 1) (by omega)
  have c1 : ∀ d, b ^ d ≡ 1 [MOD n] ↔ (b : ZMod n) ^ d = 1 := by
    intro d
    rw [← ZMod.natCast_eq_natCast_iff]; push_cast; rfl
  have c2 : ∀ d, (b : ℤ) ^ d ≡ -1 [ZMOD n] ↔ (b : ZMod n) ^ d = -1 := by
    intro d
    rw [← ZMod.intCast_eq_intCast_iff]; push_cast; rfl
  constructor
  · rintro ⟨s, d, hd, h, h2⟩
    have heq := hdec.symm.trans h
    obtain ⟨rfl, rfl⟩ := odd_decomp_unique hd hu (heq.symm)
    simpa only [c1, c2] using h2
  · intro h
    refine ⟨_, _, hu, hdec, ?_⟩
    simpa only [c1, c2] using h

theorem testSprp_ok {w : Width} {n : Nat} (hn : 2 < n) (hw : fits w n = true) (b : Nat) :
    testSprp w n b = .ok (testSprpCore n b (tz (n - 1))) := by
  have h1 : ¬ n < 1 := by omega
  have h2 : trailingZeros w (n - 1) = tz (n - 1) := by
    unfold trailingZeros; rw [if_neg (by omega)]
  simp only [testSprp, h1, if_false, h2]
  have : cshr w (n - 1) (tz (n - 1)) = .ok ((n - 1) >>> tz (n - 1)) := by
    unfold cshr
    cases w with
    | none => rfl
    | some k =>
      rw [fits_some] at hw
      have : tz (n - 1) < k := by
        have h3 := (tz_spec (n := n - 1) (by omega)).1
        have h4 := Nat.le_of_dvd (by omega) h3
        have : 2 ^ tz (n - 1) < 2 ^ k := by omega
        exact (Nat.pow_lt_pow_iff_right (by norm_num)).mp this
      simp [this]
  simp [this]

/-- square roots of one found by the loop give proper divisors -/
theorem sprpLoop_right {n : Nat} (hn : 2 < n) : ∀ k x d, x < n → (x : ZMod n) ≠ 1 → (x : ZMod n) ≠ -1 →
    sprpLoop n (1 % n) (negm (1 % n) n) k x = .right d → Spec.ProperDivisor d n := by
  have hpos : 0 < n := by omega
  intro k
  induction k with
  | zero => intro x d _ _ _ h; simp [sprpLoop] at h
  | succ k ih =>
    intro x d hx h1 h2 h
    have hy := sqm_cast x n
    have hylt := sqm_lt x hpos
    have hm1 : 1 % n < n := Nat.mod_lt _ hpos
    have hmm1 := negm_lt (1 % n) hpos
    have e1 : sqm x n = 1 % n ↔ (x : ZMod n) ^ 2 = 1 := by
      rw [← natCast_inj_of_lt hylt hm1, hy, one_mod_cast]
    have e2 : sqm x n = negm (1 % n) n ↔ (x : ZMod n) ^ 2 = -1 := by
      rw [← natCast_inj_of_lt hylt hmm1, hy, negm_cast _ hpos, one_mod_cast]
    simp only [sprpLoop] at h
    split at h
    · rename_i hsq
      rw [e1] at hsq
      cases h
      have hx0 : x ≠ 0 := by
        rintro rfl
        have : (0 : ZMod n) = 1 := by simpa using hsq
        have h01 : ((0 : ℕ) : ZMod n) = ((1 : ℕ) : ZMod n) := by simpa using this
        rw [natCast_inj_of_lt (by omega) (by omega)] at h01
        omega
      have hx1 : x ≠ 1 := by rintro rfl; apply h1; simp
      have hxm : x ≠ n - 1 := by
        rintro rfl
        apply h2
        rw [Nat.cast_sub (by omega), ZMod.natCast_self]; simp
      have hdvd : n ∣ (x - 1) * (x + 1) := by
        rw [← ZMod.natCast_eq_zero_iff]
        push_cast [Nat.cast_sub (by omega : 1 ≤ x)]
        linear_combination hsq
      refine ⟨Nat.gcd_dvd_left _ _, ?_, ?_⟩
      · by_contra hle
        have hg : Nat.gcd n (x - 1) = 1 := by
          have := Nat.gcd_pos_of_pos_left (x - 1) hpos
          omega
        have := Nat.Coprime.dvd_of_dvd_mul_left hg hdvd
        have := Nat.le_of_dvd (by omega) this
        omega
      · have : Nat.gcd n (x - 1) ≤ x - 1 := Nat.gcd_le_right _ (by omega)
        omega
    split at h
    · cases h
    · rename_i h3 h4
      exact ih _ _ hylt (by rw [hy]; rwa [e1] at h3) (by rw [hy]; rwa [e2] at h4) h

theorem testSprpCore_right {n : Nat} (hn : 2 < n) (b s d : Nat)
    (h : testSprpCore n b s = .right d) : Spec.ProperDivisor d n := by
  have hpos : 0 < n := by omega
  simp only [testSprpCore] at h
  split at h
  · cases h
  · rename_i h1
    push Not at h1
    have hxlt := powm_lt b ((n - 1) >>> s) hpos
    have hm1 : 1 % n < n := Nat.mod_lt _ hpos
    have hmm1 := negm_lt (1 % n) hpos
    refine sprpLoop_right hn _ _ _ hxlt ?_ ?_ h
    · intro hh; apply h1.1
      rw [← natCast_inj_of_lt hxlt hm1, one_mod_cast]; exact hh
    · intro hh; apply h1.2
      rw [← natCast_inj_of_lt hxlt hmm1, negm_cast _ hpos, one_mod_cast]; exact hh

/-- completeness of the strong test -/
theorem strongPRP_of_prime {n b : Nat} (hp : n.Prime) (hn : 2 < n) (hb : ¬ n ∣ b) : Spec.StrongPRP n b := by
  haveI := Fact.mk hp
  rw [strongPRP_iff hn]
  obtain ⟨hu, hdec⟩ := tz_decomp (m := n - 1) (by omega)
  set s := tz (n - 1)
  set u := (n - 1) >>> s
  have hb0 : (b : ZMod n) ≠ 0 := by rwa [Ne, ZMod.natCast_eq_zero_iff]
  have hf : ((b : ZMod n) ^ u) ^ (2 ^ s) = 1 := by
    rw [← pow_mul, ← hdec]; exact ZMod.pow_card_sub_one_eq_one hb0
  have key : ∀ s, ((b : ZMod n) ^ u) ^ (2 ^ s) = 1 →
      (b : ZMod n) ^ u = 1 ∨ ∃ r < s, (b : ZMod n) ^ (u * 2 ^ r) = -1 := by
    intro s
    induction s with
    | zero => intro h; left; simpa using h
    | succ s ih =>
      intro h
      rw [pow_succ, pow_mul, sq_eq_one_iff] at h
      rcases h with h | h
      · rcases ih h with h | ⟨r, hr, h⟩
        · left; exact h
        · right; exact ⟨r, by omega, h⟩
      · right; exact ⟨s, by omega, by rw [pow_mul]; exact h⟩
  exact key s hf

/-- a prime never yields a factor -/
theorem testSprpCore_prime {n b : Nat} (hp : n.Prime) (hn : 2 < n) (hb : ¬ n ∣ b) :
    testSprpCore n b (tz (n - 1)) = .left true := by
  have hodd : n % 2 = 1 := by
    rcases hp.eq_two_or_odd with h | h <;> omega
  have h := (testSprpCore_verdict hn hodd b).mpr ((strongPRP_iff hn b).mp (strongPRP_of_prime hp hn hb))
  cases hc : testSprpCore n b (tz (n - 1)) with
  | left v => rw [hc] at h; simp [SprpResult.verdict] at h; rw [h]
  | right d =>
    obtain ⟨h1, h2, h3⟩ := testSprpCore_right hn _ _ _ hc
    rcases (Nat.dvd_prime hp).mp h1 with h | h <;> omega

end NumPrime
