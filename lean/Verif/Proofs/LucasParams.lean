import Verif.Proofs.LucasSeq
import Mathlib.Tactic.FieldSimp
import Mathlib.Tactic.IntervalCases
import Mathlib.Tactic.Linarith

/-! Number theory behind the two Lucas parameter searches: for every odd prime a suitable discriminant exists, and the first
one is small. Nothing here mentions the model. -/

namespace NumPrime
open Spec

/-- the signed discriminant tried at `d` -/
def sgn (d : ℕ) (neg : Bool) : ℤ := if neg then -(d : ℤ) else d

theorem selfridge_params {d : ℕ} {neg : Bool} (h : sgn d neg % 4 = 1) :
    1 - 4 * ((1 - sgn d neg).tdiv 4) = sgn d neg := by
  have : (4 : ℤ) ∣ 1 - sgn d neg := by omega
  have := Int.mul_tdiv_cancel' this
  omega

theorem sgn_step {d : ℕ} {neg : Bool} (h : sgn d neg % 4 = 1) : sgn (d + 2) (!neg) % 4 = 1 := by
  cases neg <;> simp [sgn] at * <;> omega

theorem exists_nonresidue {n : ℕ} (hp : n.Prime) (hodd : n ≠ 2) : ∃ c : ℤ, jacobiSym c n = -1 := by
  haveI : Fact n.Prime := ⟨hp⟩
  obtain ⟨a, ha⟩ := FiniteField.exists_nonsquare (F := ZMod n) (by rw [ZMod.ringChar_zmod_n]; exact hodd)
  refine ⟨(a.val : ℤ), ?_⟩
  rw [← jac_of_prime, legendreSym.eq_neg_one_iff]
  simpa using ha

/-- a discriminant `≡ 1 (mod 4)` with Jacobi symbol -1 and `5 ≤ |D| < 3n` for every odd prime `n` -/
theorem exists_selfridge {n : ℕ} (hp : n.Prime) (hn2 : n ≠ 2) :
    ∃ ds negs, 5 ≤ ds ∧ ds < 3 * n ∧ sgn ds negs % 4 = 1 ∧ jacobiSym (sgn ds negs) n = -1 := by
  have hodd : n % 2 = 1 := by
    rcases hp.eq_two_or_odd with h | h
    · exact absurd h hn2
    · exact h
  by_cases h3 : n = 3
  · subst h3
    refine ⟨5, false, by norm_num, by norm_num, by decide, ?_⟩
    simp only [sgn]; decide +kernel
  have hge := hp.two_le
  have hn5 : 5 ≤ n := by
    by_contra h
    have : n = 4 := by omega
    omega
  have key : ∃ c : ℤ, jacobiSym c n = -1 ∧ ¬ c ≡ -3 [ZMOD n] := by
    obtain ⟨c, hc⟩ := exists_nonresidue hp hn2
    by_cases h : c ≡ -3 [ZMOD n]
    · refine ⟨-12, ?_, ?_⟩
      · have h1 : jacobiSym (-3) n = -1 := by rw [← jacobiSym.mod_left' h]; exact hc
        rw [show (-12 : ℤ) = -3 * 2 ^ 2 by norm_num, jacobiSym.mul_left, h1, jacobiSym.sq_one']
        · norm_num
        · rw [Int.gcd_comm]; simp only [Int.gcd]
          have : Nat.Coprime n 2 := (Nat.coprime_primes hp Nat.prime_two).mpr hn2
          simpa using this
      · intro h2
        have h9 : (n : ℤ) ∣ 9 := by
          have := Int.modEq_iff_dvd.mp h2
          simpa using this
        have h9' : n ∣ 3 ^ 2 := by exact_mod_cast h9
        have := (Nat.prime_dvd_prime_iff_eq hp Nat.prime_three).mp (hp.dvd_of_dvd_pow h9')
        exact h3 this
    · exact ⟨c, hc, h⟩
  obtain ⟨c, hc, hc3⟩ := key
  -- pick the representative ≡ c (mod n), ≡ 1 (mod 4) in (-2n, 2n)
  have hcop : Nat.Coprime n 4 := by
    have : Nat.Coprime n 2 := (Nat.coprime_primes hp Nat.prime_two).mpr hn2
    exact Nat.Coprime.pow_right 2 this
  obtain ⟨k, hk1, hk2⟩ := Nat.chineseRemainder hcop (c % n).toNat 1
  have hn0 : (0 : ℤ) < n := by omega
  have hkc : (k : ℤ) ≡ c [ZMOD n] := by
    have h1 : ((k : ℕ) : ℤ) ≡ (((c % n).toNat : ℕ) : ℤ) [ZMOD n] := (Int.natCast_modEq_iff).mpr hk1
    rw [Int.toNat_of_nonneg (Int.emod_nonneg _ (by omega))] at h1
    exact h1.trans (Int.mod_modEq _ _)
  have hk4 : k % 4 = 1 := hk2
  let r : ℕ := k % (4 * n)
  have hr : r < 4 * n := Nat.mod_lt _ (by omega)
  have hr4 : r % 4 = 1 := by
    have : r % 4 = k % 4 := Nat.mod_mod_of_dvd k (Dvd.intro n rfl)
    omega
  have hrn : (r : ℤ) ≡ c [ZMOD n] := by
    refine Int.ModEq.trans ?_ hkc
    have : r % n = k % n := Nat.mod_mod_of_dvd k (Dvd.intro_left 4 rfl)
    exact (Int.natCast_modEq_iff).mpr this
  have fin : ∀ z : ℤ, z ≡ c [ZMOD n] → z % 4 = 1 → -(2 * n : ℤ) < z → z < 2 * n → z = 1 ∨ z = -3 ∨ 
      (∃ ds negs, 5 ≤ ds ∧ ds < 3 * n ∧ sgn ds negs % 4 = 1 ∧ jacobiSym (sgn ds negs) n = -1) := by
    intro z h1 h2 h3 h4
    by_cases h5 : z = 1
    · exact Or.inl h5
    by_cases h6 : z = -3
    · exact Or.inr (Or.inl h6)
    right; right
    have hz : sgn z.natAbs (decide (z < 0)) = z := by
      by_cases h : z < 0
      · simp only [sgn, h, decide_true, if_true]; omega
      · simp only [sgn, h, decide_false, Bool.false_eq_true, if_false]; omega
    refine ⟨z.natAbs, decide (z < 0), by omega, by omega, by rw [hz]; exact h2, ?_⟩
    rw [hz, ← hc]; exact jacobiSym.mod_left' h1
  have bad : ∀ z : ℤ, z ≡ c [ZMOD n] → z ≠ 1 ∧ z ≠ -3 := by
    intro z h
    constructor
    · rintro rfl
      have : jacobiSym 1 n = -1 := by rw [← hc]; exact jacobiSym.mod_left' h
      rw [jacobiSym.one_left] at this; norm_num at this
    · rintro rfl; exact hc3 h.symm
  by_cases h2n : r < 2 * n
  · have := fin r hrn (by omega) (by omega) (by omega)
    have b := bad r hrn
    exact (this.resolve_left b.1).resolve_left b.2
  · have hz : ((r : ℤ) - 4 * n) ≡ c [ZMOD n] := by
      refine Int.ModEq.trans ?_ hrn
      rw [Int.modEq_iff_dvd]; exact ⟨4, by ring⟩
    have := fin (r - 4 * n) hz (by omega) (by omega) (by omega)
    have b := bad _ hz
    exact (this.resolve_left b.1).resolve_left b.2

/-! ### the sharper bound: the first suitable `|D|` is at most 15 or about `2 √n`

`D = star d` is the `±d` that is `≡ 1 (mod 4)`. The symbol `(star d / n)` is multiplicative in `d`, has period `4n` and is
even, so the argument for the least quadratic non-residue applies. -/

/-- the `±d` that is `≡ 1 (mod 4)` -/
def star (d : ℕ) : ℤ := if d % 4 = 1 then d else -d

theorem star_mod {d : ℕ} (h : d % 2 = 1) : star d % 4 = 1 := by
  unfold star; split <;> omega

theorem star_mul {a b : ℕ} (ha : a % 2 = 1) (hb : b % 2 = 1) : star (a * b) = star a * star b := by
  have h : a * b % 4 = (a % 4) * (b % 4) % 4 := Nat.mul_mod a b 4
  have ha' : a % 4 = 1 ∨ a % 4 = 3 := by omega
  have hb' : b % 4 = 1 ∨ b % 4 = 3 := by omega
  unfold star
  rcases ha' with ha' | ha' <;> rcases hb' with hb' | hb' <;> rw [ha', hb'] at h <;> simp [ha', hb', h]

theorem star_shift {n s t : ℕ} (hs : s % 2 = 1) (h : t = 4 * n + s ∨ t + s = 4 * n) : star t ≡ star s [ZMOD n] := by
  unfold star
  rw [Int.modEq_iff_dvd]
  rcases h with h | h
  · by_cases h4 : s % 4 = 1
    · rw [if_pos h4, if_pos (by omega)]; exact ⟨-4, by omega⟩
    · rw [if_neg h4, if_neg (by omega)]; exact ⟨4, by omega⟩
  · by_cases h4 : s % 4 = 1
    · rw [if_pos h4, if_neg (by omega)]; exact ⟨4, by omega⟩
    · rw [if_neg h4, if_pos (by omega)]; exact ⟨-4, by omega⟩

theorem star_zero {n : ℕ} (hp : n.Prime) {d : ℕ} : jacobiSym (star d) n = 0 ↔ n ∣ d := by
  haveI : Fact n.Prime := ⟨hp⟩
  rw [← jac_of_prime, legendreSym.eq_zero_iff, ZMod.intCast_zmod_eq_zero_iff_dvd]
  unfold star; split
  · exact Int.natCast_dvd_natCast
  · rw [Int.dvd_neg]; exact Int.natCast_dvd_natCast

theorem star_one_or {n : ℕ} (hp : n.Prime) {d : ℕ} (h : ¬ n ∣ d) (h' : jacobiSym (star d) n ≠ -1) :
    jacobiSym (star d) n = 1 := by
  rcases jacobiSym.trichotomy (star d) n with h1 | h1 | h1
  · exact absurd ((star_zero hp).mp h1) h
  · exact h1
  · exact absurd h1 h'

/-- for an odd prime `n` a discriminant `≡ 1 (mod 4)` with symbol -1 and `5 ≤ |D|`, where `|D| ≤ 15` or
`|D| (|D| - 1) < 4 n` -/
theorem exists_selfridge_small {n : ℕ} (hp : n.Prime) (hn2 : n ≠ 2) :
    ∃ ds negs, 5 ≤ ds ∧ ds < 3 * n ∧ (ds ≤ 15 ∨ ds * (ds - 1) < 4 * n) ∧ sgn ds negs % 4 = 1 ∧
      jacobiSym (sgn ds negs) n = -1 := by
  have hge := hp.two_le
  have mk : ∀ d, d % 2 = 1 → 5 ≤ d → d < 3 * n → (d ≤ 15 ∨ d * (d - 1) < 4 * n) → jacobiSym (star d) n = -1 →
      ∃ ds negs, 5 ≤ ds ∧ ds < 3 * n ∧ (ds ≤ 15 ∨ ds * (ds - 1) < 4 * n) ∧ sgn ds negs % 4 = 1 ∧
        jacobiSym (sgn ds negs) n = -1 := by
    intro d h1 h2 h3 h4 h5
    have e : sgn d (decide (d % 4 ≠ 1)) = star d := by
      unfold sgn star
      by_cases h : d % 4 = 1 <;> simp [h]
    exact ⟨d, decide (d % 4 ≠ 1), h2, h3, h4, by rw [e]; exact star_mod h1, by rw [e]; exact h5⟩
  by_cases h3 : n = 3
  · subst h3; exact mk 5 (by norm_num) (by norm_num) (by norm_num) (by norm_num) (by decide +kernel)
  by_cases h5 : n = 5
  · subst h5; exact mk 7 (by norm_num) (by norm_num) (by norm_num) (by norm_num) (by decide +kernel)
  have hn7 : 7 ≤ n := by
    by_contra h
    have : n = 4 ∨ n = 6 := by omega
    rcases this with rfl | rfl <;> revert hp <;> decide
  have dvd_small : ∀ d, 0 < d → d < n → ¬ n ∣ d := fun d h1 h2 h => by
    have := Nat.le_of_dvd h1 h; omega
  by_cases j3 : jacobiSym (star 3) n = -1
  · by_cases j5 : jacobiSym (star 5) n = -1
    · exact mk 5 (by norm_num) (by norm_num) (by omega) (by norm_num) j5
    · have j5' := star_one_or hp (dvd_small 5 (by norm_num) (by omega)) j5
      refine mk 15 (by norm_num) (by norm_num) (by omega) (by norm_num) ?_
      rw [show (15 : ℕ) = 3 * 5 by norm_num, star_mul (by norm_num) (by norm_num), jacobiSym.mul_left, j3, j5']
      norm_num
  have hex : ∃ d, d % 2 = 1 ∧ 5 ≤ d ∧ d < 3 * n ∧ jacobiSym (star d) n = -1 := by
    obtain ⟨ds, negs, a1, a2, a3, a4⟩ := exists_selfridge hp hn2
    refine ⟨ds, ?_, a1, a2, ?_⟩
    · cases negs <;> simp [sgn] at a3 <;> omega
    · have : sgn ds negs = star ds := by
        unfold star
        cases negs <;> simp [sgn] at a3 ⊢ <;> omega
      rw [← this]; exact a4
  let q := Nat.find hex
  obtain ⟨q1, q2, q3, q4⟩ : q % 2 = 1 ∧ 5 ≤ q ∧ q < 3 * n ∧ jacobiSym (star q) n = -1 := Nat.find_spec hex
  have hmin : ∀ d, d % 2 = 1 → d < q → jacobiSym (star d) n ≠ -1 := by
    intro d h1 h2 h
    by_cases h7 : 5 ≤ d
    · exact Nat.find_min hex h2 ⟨h1, h7, by omega, h⟩
    · have : d = 1 ∨ d = 3 := by omega
      rcases this with rfl | rfl
      · simp [star] at h
      · exact j3 h
  refine mk q q1 q2 q3 ?_ q4
  by_cases hq7 : q < 7
  · left; omega
  right
  have hqn : ¬ q ∣ 4 * n := by
    intro h
    have h4 : Nat.Coprime q 4 := by
      have : Nat.Coprime q 2 := Nat.Coprime.symm ((Nat.Prime.coprime_iff_not_dvd Nat.prime_two).mpr (by omega))
      exact Nat.Coprime.pow_right 2 this
    have h' := h4.dvd_of_dvd_mul_left h
    rcases (Nat.dvd_prime hp).mp h' with h | h
    · omega
    · rw [h] at q4
      rw [(star_zero hp).mpr dvd_rfl] at q4; norm_num at q4
  have hdm := Nat.div_add_mod (4 * n) q
  have hml := Nat.mod_lt (4 * n) (show 0 < q by omega)
  have hm0 : 0 < 4 * n % q := by
    by_contra h
    exact hqn (Nat.dvd_of_mod_eq_zero (by omega))
  have hnsmall : ∀ c, c < 7 → c % 2 = 1 → q ∣ c * n → False := by
    intro c hc hc2 h
    have hcop : Nat.Coprime q n := by
      rw [Nat.coprime_comm, Nat.Prime.coprime_iff_not_dvd hp]
      intro h'
      rw [(star_zero hp).mpr h'] at q4; norm_num at q4
    have := Nat.le_of_dvd (by omega) (hcop.dvd_of_dvd_mul_right h)
    omega
  generalize hk : 4 * n / q = k at hdm
  generalize hr : 4 * n % q = r at hdm hml hm0
  -- `q k + r = 4 n` with `0 < r < q`
  have hkq : q ≤ k + 1 := by
    by_contra hlt
    rcases Nat.mod_two_eq_zero_or_one k with hk2 | hk2
    · -- `k + 1` odd: `q (k+1) = 4 n + (q - r)`
      have hr2 : r % 2 = 0 := by
        have : (q * k) % 2 = 0 := by rw [Nat.mul_mod, hk2]; simp
        omega
      have e : q * (k + 1) = 4 * n + (q - r) := by rw [Nat.mul_succ]; omega
      have hs : (q - r) % 2 = 1 := by omega
      have h1 : ¬ n ∣ q - r := by
        rintro ⟨c, hc⟩
        have hc3 : c < 3 := by
          have : n * c < n * 3 := by omega
          exact Nat.lt_of_mul_lt_mul_left this
        have hc1 : c = 1 := by
          interval_cases c
          · omega
          · rfl
          · omega
        subst hc1
        exact hnsmall 5 (by norm_num) (by norm_num) ⟨k + 1, by omega⟩
      have h2 := star_one_or hp h1 (hmin _ hs (by omega))
      rw [← jacobiSym.mod_left' (star_shift hs (Or.inl e)), star_mul q1 (by omega), jacobiSym.mul_left, q4] at h2
      exact hmin (k + 1) (by omega) (by omega) (by linarith)
    · have hr2 : r % 2 = 1 := by
        have : (q * k) % 2 = 1 := by rw [Nat.mul_mod, hk2, q1]
        omega
      have h1 : ¬ n ∣ r := by
        rintro ⟨c, hc⟩
        have hc3 : c < 3 := by
          have : n * c < n * 3 := by omega
          exact Nat.lt_of_mul_lt_mul_left this
        have hc1 : c = 1 := by
          interval_cases c
          · omega
          · rfl
          · omega
        subst hc1
        exact hnsmall 3 (by norm_num) (by norm_num) ⟨k, by omega⟩
      have h2 := star_one_or hp h1 (hmin _ hr2 (by omega))
      rw [← jacobiSym.mod_left' (star_shift hr2 (Or.inr hdm)), star_mul q1 hk2, jacobiSym.mul_left, q4] at h2
      exact hmin k hk2 (by omega) (by linarith)
  have : q * (q - 1) ≤ q * k := Nat.mul_le_mul_left _ (by omega)
  omega

/-! ### extra strong parameters -/

theorem exists_bruteforce {n : ℕ} (hp : n.Prime) (hn : 7 < n) :
    ∃ p, 3 ≤ p ∧ p + 3 ≤ n ∧ jacobiSym ((p * p - 4 : ℕ) : ℤ) n = -1 := by
  haveI : Fact n.Prime := ⟨hp⟩
  have hn2 : n ≠ 2 := by omega
  obtain ⟨t0, ht0⟩ := FiniteField.exists_nonsquare (F := ZMod n) (by rw [ZMod.ringChar_zmod_n]; exact hn2)
  have ndvd : ∀ k : ℕ, k ≠ 0 → (∀ q, q.Prime → q ∣ k → q ≤ 7) → (k : ZMod n) ≠ 0 := by
    intro k hk h h0
    rw [ZMod.natCast_eq_zero_iff] at h0
    have := h n hp h0
    omega
  have small : ∀ k : ℕ, k ∈ [1, 2, 3, 4, 5, 7, 8, 12, 15] → (k : ZMod n) ≠ 0 := by
    intro k hk
    apply ndvd k
    · rintro rfl; simp at hk
    · intro q hq hd
      have hm : ∃ a b c e, k ∣ 2 ^ a * 3 ^ b * 5 ^ c * 7 ^ e := by
        refine ⟨3, 1, 1, 1, ?_⟩
        simp at hk
        rcases hk with h | h | h | h | h | h | h | h | h <;> subst h <;> decide
      obtain ⟨a, b, c, e, hm⟩ := hm
      have hd' := hd.trans hm
      rcases (Nat.Prime.dvd_mul hq).mp hd' with h | h
      · rcases (Nat.Prime.dvd_mul hq).mp h with h | h
        · rcases (Nat.Prime.dvd_mul hq).mp h with h | h
          · have := Nat.le_of_dvd (by norm_num) (hq.dvd_of_dvd_pow h); omega
          · have := Nat.le_of_dvd (by norm_num) (hq.dvd_of_dvd_pow h); omega
        · have := Nat.le_of_dvd (by norm_num) (hq.dvd_of_dvd_pow h); omega
      · exact Nat.le_of_dvd (by norm_num) (hq.dvd_of_dvd_pow h)
  have c2 : (2 : ZMod n) ≠ 0 := by simpa using small 2 (by simp)
  have c3 : (3 : ZMod n) ≠ 0 := by simpa using small 3 (by simp)
  have c4 : (4 : ZMod n) ≠ 0 := by simpa using small 4 (by simp)
  have c5 : (5 : ZMod n) ≠ 0 := by simpa using small 5 (by simp)
  have c7 : (7 : ZMod n) ≠ 0 := by simpa using small 7 (by simp)
  have c8 : (8 : ZMod n) ≠ 0 := by simpa using small 8 (by simp)
  have c12 : (12 : ZMod n) ≠ 0 := by simpa using small 12 (by simp)
  have c15 : (15 : ZMod n) ≠ 0 := by simpa using small 15 (by simp)
  have ht00 : t0 ≠ 0 := by rintro rfl; exact ht0 ⟨0, by ring⟩
  have nsq : ∀ k : ZMod n, k ≠ 0 → ¬ IsSquare (k ^ 2 * t0) := by
    rintro k hk ⟨r, hr⟩
    apply ht0
    refine ⟨r / k, ?_⟩
    field_simp
    linear_combination hr
  -- a nonresidue avoiding -1, -3, -1/3
  have pick : ∃ t : ZMod n, ¬ IsSquare t ∧ t + 1 ≠ 0 ∧ t + 3 ≠ 0 ∧ 3 * t + 1 ≠ 0 := by
    by_contra hcon
    push Not at hcon
    have f : ∀ k : ZMod n, k ≠ 0 → k ^ 2 * t0 = -1 ∨ k ^ 2 * t0 = -3 ∨ 3 * (k ^ 2 * t0) = -1 := by
      intro k hk
      by_cases a : k ^ 2 * t0 + 1 = 0
      · left; linear_combination a
      by_cases b : k ^ 2 * t0 + 3 = 0
      · right; left; linear_combination b
      · right; right; linear_combination hcon _ (nsq k hk) a b
    have g : ∀ a b : ZMod n, a - b ≠ 0 → ∀ v : ZMod n, a * t0 = v → b * t0 = v → False := by
      intro a b hab v h1 h2
      have : (a - b) * t0 = 0 := by linear_combination h1 - h2
      rcases mul_eq_zero.mp this with h | h
      · exact hab h
      · exact ht00 h
    have g3 : ∀ a b : ZMod n, a - b ≠ 0 → 3 * (a * t0) = -1 → 3 * (b * t0) = -1 → False := by
      intro a b hab h1 h2
      have : (a - b) * (3 * t0) = 0 := by linear_combination h1 - h2
      rcases mul_eq_zero.mp this with h | h
      · exact hab h
      · exact mul_ne_zero c3 ht00 h
    have d12 : (1 : ZMod n) ^ 2 - 2 ^ 2 ≠ 0 := by
      intro h; apply c3; linear_combination -h
    have d13 : (1 : ZMod n) ^ 2 - 3 ^ 2 ≠ 0 := by
      intro h; apply c8; linear_combination -h
    have d14 : (1 : ZMod n) ^ 2 - 4 ^ 2 ≠ 0 := by
      intro h; apply c15; linear_combination -h
    have d23 : (2 : ZMod n) ^ 2 - 3 ^ 2 ≠ 0 := by
      intro h; apply c5; linear_combination -h
    have d24 : (2 : ZMod n) ^ 2 - 4 ^ 2 ≠ 0 := by
      intro h; apply c12; linear_combination -h
    have d34 : (3 : ZMod n) ^ 2 - 4 ^ 2 ≠ 0 := by
      intro h; apply c7; linear_combination -h
    have f1 := f 1 one_ne_zero
    have f2 := f 2 c2
    have f3 := f 3 c3
    have f4 := f 4 c4
    rcases f1 with a1 | a1 | a1 <;> rcases f2 with a2 | a2 | a2 <;>
      first
      | exact g _ _ d12 _ a1 a2
      | exact g3 _ _ d12 a1 a2
      | (rcases f3 with a3 | a3 | a3 <;>
          first
          | exact g _ _ d13 _ a1 a3
          | exact g3 _ _ d13 a1 a3
          | exact g _ _ d23 _ a2 a3
          | exact g3 _ _ d23 a2 a3
          | (rcases f4 with a4 | a4 | a4 <;>
              first
              | exact g _ _ d14 _ a1 a4
              | exact g3 _ _ d14 a1 a4
              | exact g _ _ d24 _ a2 a4
              | exact g3 _ _ d24 a2 a4
              | exact g _ _ d34 _ a3 a4
              | exact g3 _ _ d34 a3 a4))
  obtain ⟨t, ht, t1, t3, t3'⟩ := pick
  have ht1 : t - 1 ≠ 0 := by
    intro h
    apply ht
    exact ⟨1, by linear_combination h⟩
  let x : ZMod n := 2 * (t + 1) / (t - 1)
  have hx : x * (t - 1) = 2 * (t + 1) := div_mul_cancel₀ _ ht1
  have hxsq : (x ^ 2 - 4) * (t - 1) ^ 2 = 4 ^ 2 * t := by
    linear_combination (x * (t - 1) + 2 * (t + 1)) * hx
  have hxns : ¬ IsSquare (x ^ 2 - 4) := by
    rintro ⟨r, hr⟩
    apply ht
    refine ⟨r * (t - 1) / 4, ?_⟩
    field_simp
    rw [hr] at hxsq
    linear_combination -hxsq
  have hx0 : x ≠ 0 := by
    intro h; rw [h] at hx
    have : 2 * (t + 1) = 0 := by linear_combination -hx
    rcases mul_eq_zero.mp this with h | h
    · exact c2 h
    · exact t1 h
  have hx1 : x ≠ 1 := by
    intro h; rw [h] at hx
    apply t3; linear_combination -hx
  have hxm1 : x ≠ -1 := by
    intro h; rw [h] at hx
    apply t3'; linear_combination -hx
  have hx2 : x ≠ 2 := by
    intro h; apply hxns; rw [h]; exact ⟨0, by ring⟩
  have hxm2 : x ≠ -2 := by
    intro h; apply hxns; rw [h]; exact ⟨0, by ring⟩
  have hlt := ZMod.val_lt x
  have hv : ((x.val : ℕ) : ZMod n) = x := by simp
  have e0 : x.val ≠ 0 := by intro h; rw [h] at hv; apply hx0; rw [← hv]; simp
  have e1 : x.val ≠ 1 := by intro h; rw [h] at hv; apply hx1; rw [← hv]; simp
  have e2 : x.val ≠ 2 := by intro h; rw [h] at hv; apply hx2; rw [← hv]; simp
  have em1 : x.val ≠ n - 1 := by
    intro h; rw [h, Nat.cast_sub (by omega)] at hv; apply hxm1; rw [← hv]; simp
  have em2 : x.val ≠ n - 2 := by
    intro h; rw [h, Nat.cast_sub (by omega)] at hv; apply hxm2; rw [← hv]; simp
  refine ⟨x.val, by omega, by omega, ?_⟩
  rw [← jac_of_prime, legendreSym.eq_neg_one_iff]
  have : (((x.val * x.val - 4 : ℕ) : ℤ) : ZMod n) = x ^ 2 - 4 := by
    have h4 : 4 ≤ x.val * x.val := by
      have : 3 ≤ x.val := by omega
      nlinarith
    rw [Int.cast_natCast, Nat.cast_sub h4, Nat.cast_mul, hv]; push_cast; ring
  rw [this]; exact hxns

/-- for a prime `n > 7` an extra strong parameter `p` with `p ≤ 6` or `p^2 < n` -/
theorem exists_bruteforce_small {n : ℕ} (hp : n.Prime) (hn : 7 < n) :
    ∃ p, 3 ≤ p ∧ p + 3 ≤ n ∧ (p ≤ 6 ∨ p * p < n) ∧ jacobiSym ((p * p - 4 : ℕ) : ℤ) n = -1 := by
  haveI : Fact n.Prime := ⟨hp⟩
  have hex := exists_bruteforce hp hn
  let p := Nat.find hex
  obtain ⟨p1, p2, p3⟩ : 3 ≤ p ∧ p + 3 ≤ n ∧ jacobiSym ((p * p - 4 : ℕ) : ℤ) n = -1 := Nat.find_spec hex
  refine ⟨p, p1, p2, ?_, p3⟩
  by_cases h6 : p ≤ 6
  · exact Or.inl h6
  right
  have nz : ∀ x : ℕ, 0 < x → x < n → jacobiSym (x : ℤ) n = 1 ∨ jacobiSym (x : ℤ) n = -1 := by
    intro x h1 h2
    rcases jacobiSym.trichotomy (x : ℤ) n with h | h
    · rw [← jac_of_prime, legendreSym.eq_zero_iff, ZMod.intCast_zmod_eq_zero_iff_dvd] at h
      have := Nat.le_of_dvd h1 (Int.natCast_dvd_natCast.mp h)
      omega
    · exact h
  have fac : ∀ x : ℕ, 3 ≤ x → ((x * x - 4 : ℕ) : ℤ) = ((x - 2 : ℕ) : ℤ) * ((x + 2 : ℕ) : ℤ) := by
    intro x hx
    rw [Nat.cast_sub (by nlinarith), Nat.cast_sub (by omega)]; push_cast; ring
  have step : ∀ x, 3 ≤ x → x < p → jacobiSym ((x + 2 : ℕ) : ℤ) n = jacobiSym ((x - 2 : ℕ) : ℤ) n := by
    intro x h1 h2
    have h3 : ¬ jacobiSym ((x * x - 4 : ℕ) : ℤ) n = -1 := fun h => Nat.find_min hex h2 ⟨h1, by omega, h⟩
    rw [fac x h1, jacobiSym.mul_left] at h3
    rcases nz (x + 2) (by omega) (by omega) with a | a <;> rcases nz (x - 2) (by omega) (by omega) with b | b <;>
      rw [a, b] at h3 <;> rw [a, b] <;> norm_num at h3
  have e4 : jacobiSym (4 : ℕ) n = jacobiSym (2 : ℕ) n * jacobiSym (2 : ℕ) n := by
    rw [← jacobiSym.mul_left]; norm_num
  have e8 : jacobiSym (8 : ℕ) n = jacobiSym (2 : ℕ) n * jacobiSym (4 : ℕ) n := by
    rw [← jacobiSym.mul_left]; norm_num
  have e6 : jacobiSym (6 : ℕ) n = jacobiSym (2 : ℕ) n * jacobiSym (3 : ℕ) n := by
    rw [← jacobiSym.mul_left]; norm_num
  have s6 : jacobiSym (8 : ℕ) n = jacobiSym (4 : ℕ) n := step 6 (by norm_num) (by omega)
  have s4 : jacobiSym (6 : ℕ) n = jacobiSym (2 : ℕ) n := step 4 (by norm_num) (by omega)
  have j4 : jacobiSym (4 : ℕ) n = 1 := by
    rcases nz 2 (by norm_num) (by omega) with h | h <;> rw [e4, h] <;> norm_num
  have j2 : jacobiSym (2 : ℕ) n = 1 := by rw [e8, j4] at s6; linarith
  have j3 : jacobiSym (3 : ℕ) n = 1 := by rw [e6, j2] at s4; linarith
  have all : ∀ x : ℕ, 1 ≤ x → x ≤ p + 1 → jacobiSym (x : ℤ) n = 1 := by
    intro x
    induction x using Nat.strong_induction_on with
    | _ x ih =>
      intro h1 h2
      by_cases h5 : x < 5
      · interval_cases x
        · simp
        · exact j2
        · exact j3
        · exact j4
      · have := step (x - 2) (by omega) (by omega)
        rw [show x - 2 + 2 = x by omega, show x - 2 - 2 = x - 4 by omega] at this
        rw [this]
        exact ih (x - 4) (by omega) (by omega) (by omega)
  have hr : jacobiSym ((p + 2 : ℕ) : ℤ) n = -1 := by
    rw [fac p p1, jacobiSym.mul_left, all (p - 2) (by omega) (by omega)] at p3
    linarith
  have hdm := Nat.div_add_mod n (p + 2)
  have hml := Nat.mod_lt n (show 0 < p + 2 by omega)
  have hm0 : 0 < n % (p + 2) := by
    by_contra h
    rcases (Nat.dvd_prime hp).mp (Nat.dvd_of_mod_eq_zero (by omega : n % (p + 2) = 0)) with h | h <;> omega
  generalize hk : n / (p + 2) = k at hdm
  generalize ht : n % (p + 2) = t at hdm hml hm0
  have hkp : p + 2 ≤ k + 1 := by
    by_contra hlt
    have e : (((p + 2) * (k + 1) : ℕ) : ℤ) ≡ ((p + 2 - t : ℕ) : ℤ) [ZMOD n] := by
      rw [Int.natCast_modEq_iff]
      have : (p + 2) * (k + 1) = n + (p + 2 - t) := by rw [Nat.mul_succ]; omega
      rw [this]; exact Nat.add_modEq_left
    have h2 := jacobiSym.mod_left' e
    rw [all (p + 2 - t) (by omega) (by omega), Nat.cast_mul, jacobiSym.mul_left, hr, all (k + 1) (by omega) (by omega)] at h2
    norm_num at h2
  nlinarith

end NumPrime
