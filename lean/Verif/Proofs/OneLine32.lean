import Verif.Props.OneLineComplete
import Mathlib.NumberTheory.DiophantineApproximation.Basic

/-! # `one_line` with the multiplier 480 does not overflow on 32 bit numbers without small factors -/

namespace NumPrime
open Spec

/-- Dirichlet's approximation theorem for natural numbers -/
theorem dirichlet_nat (x y N : ℕ) (hy : 0 < y) (hN : 0 < N) :
    ∃ u v t, 0 < u ∧ u ≤ N ∧ (u * x = v * y + t ∨ v * y = u * x + t) ∧ (N + 1) * t ≤ y := by
  obtain ⟨u, hu0, huN, h⟩ := Real.exists_nat_abs_mul_sub_round_le ((x : ℝ) / y) hN
  have hy' : (0 : ℝ) < y := by exact_mod_cast hy
  have hr : 0 ≤ round ((u : ℝ) * (x / y)) := by
    rw [round_eq]
    apply Int.floor_nonneg.mpr
    positivity
  obtain ⟨v, hv⟩ := Int.eq_ofNat_of_zero_le hr
  rw [hv] at h
  have key : ((N : ℝ) + 1) * |(u : ℝ) * x - v * y| ≤ y := by
    have e : (u : ℝ) * x - v * y = (u * (x / y) - ((v : ℤ) : ℝ)) * y := by
      push_cast; field_simp
    rw [e, abs_mul, abs_of_pos hy', ← mul_assoc]
    have hN1 : (0 : ℝ) < N + 1 := by positivity
    have : ((N : ℝ) + 1) * |(u : ℝ) * (x / y) - ((v : ℤ) : ℝ)| ≤ 1 := by
      calc _ ≤ ((N : ℝ) + 1) * (1 / (N + 1)) := mul_le_mul_of_nonneg_left h hN1.le
        _ = 1 := by field_simp
    nlinarith
  rcases le_total (v * y) (u * x) with hle | hle
  · obtain ⟨t, ht⟩ := Nat.exists_eq_add_of_le hle
    refine ⟨u, v, t, hu0, huN, Or.inl ht, ?_⟩
    have h1 : (u : ℝ) * x - v * y = t := by
      have : (u : ℝ) * x = v * y + t := by exact_mod_cast ht
      rw [this]; ring
    rw [h1, abs_of_nonneg (by positivity)] at key
    exact_mod_cast key
  · obtain ⟨t, ht⟩ := Nat.exists_eq_add_of_le hle
    refine ⟨u, v, t, hu0, huN, Or.inr ht, ?_⟩
    have h1 : (u : ℝ) * x - v * y = -t := by
      have : (v : ℝ) * y = u * x + t := by exact_mod_cast ht
      rw [this]; ring
    rw [h1, abs_neg, abs_of_nonneg (by positivity)] at key
    exact_mod_cast key

/-- a good approximation leads to a factor -/
theorem oneLine_approx {a b α β u v t : ℕ} (hab : Nat.Coprime a b) (ha : Nat.Coprime a 30) (hb : Nat.Coprime b 30) (h1a : 1 < a)
    (h1b : 1 < b) (hαβ : α * β = 120) (hu0 : 0 < u) (hub : u < b) (_hv0 : 0 < v) (hta : t < a)
    (he : u * (α * a) = v * (β * b) + t ∨ v * (β * b) = u * (α * a) + t)
    (ht2 : t ^ 2 + 1 ≤ 2 * (u * (α * a) + v * (β * b))) :
    ∃ d, OneLineFinds (a * b) (480 * (a * b)) (u * v) d := by
  have hα : α ∣ 30 ^ 3 := (Dvd.intro _ hαβ).trans (by norm_num)
  have hβ : β ∣ 30 ^ 3 := (Dvd.intro_left _ hαβ).trans (by norm_num)
  have h2 : 2 ∣ 30 ^ 3 := by norm_num
  have hcb : ∀ {x}, x ∣ 30 ^ 3 → Nat.Coprime b x := fun hx => Nat.Coprime.coprime_dvd_right hx (Nat.Coprime.pow_right 3 hb)
  have hca : ∀ {x}, x ∣ 30 ^ 3 → Nat.Coprime a x := fun hx => Nat.Coprime.coprime_dvd_right hx (Nat.Coprime.pow_right 3 ha)
  -- `b` does not divide `2 α u`, `a` does not divide `2 β v`
  have hbu : ¬ b ∣ 2 * α * u := fun h => by
    have := ((hcb h2).mul_right (hcb hα)).dvd_of_dvd_mul_left h
    have := Nat.le_of_dvd hu0 this
    omega
  have ht0 : 0 < t := by
    rcases Nat.eq_zero_or_pos t with h | h
    · exfalso
      subst h
      have he' : u * (α * a) = v * (β * b) := by rcases he with h | h <;> omega
      apply hbu
      have : b ∣ (2 * α * u) * a := ⟨2 * v * β, by linear_combination 2 * he'⟩
      exact hab.symm.dvd_of_dvd_mul_right this
    · exact h
  have hav : ¬ a ∣ 2 * β * v := fun h => by
    have hv := ((hca h2).mul_right (hca hβ)).dvd_of_dvd_mul_left h
    have hat : a ∣ t := by
      have e1 : a ∣ u * (α * a) := ⟨u * α, by ring⟩
      have e2 : a ∣ v * (β * b) := Dvd.dvd.mul_right hv _
      rcases he with he | he
      · exact (Nat.dvd_add_right e2).mp (he ▸ e1)
      · exact (Nat.dvd_add_right e1).mp (he ▸ e2)
    have := Nat.le_of_dvd ht0 hat
    omega
  have hsq : (u * (α * a) + v * (β * b)) ^ 2 = u * v * (480 * (a * b)) + t ^ 2 := by
    have e : u * v * (480 * (a * b)) = 4 * ((u * (α * a)) * (v * (β * b))) := by
      have : 4 * ((u * (α * a)) * (v * (β * b))) = 4 * (α * β) * (u * v * (a * b)) := by ring
      rw [this, hαβ]; ring
    rw [e]
    rcases he with he | he <;> rw [he] <;> ring
  have hst : u * (α * a) + v * (β * b) - t = 2 * α * u * a ∨ u * (α * a) + v * (β * b) - t = 2 * β * v * b := by
    rcases he with he | he
    · right
      have : 2 * β * v * b = 2 * (v * (β * b)) := by ring
      omega
    · left
      have : 2 * α * u * a = 2 * (u * (α * a)) := by ring
      omega
  refine ⟨_, oneLine_find_of hsq ht0 ht2 ?_ ?_⟩
  · intro h
    rcases hst with e | e
    · rw [e] at h
      have : a ∣ Nat.gcd (a * b) (2 * α * u * a) := Nat.dvd_gcd ⟨b, rfl⟩ ⟨2 * α * u, by ring⟩
      rw [h, Nat.dvd_one] at this; omega
    · rw [e] at h
      have : b ∣ Nat.gcd (a * b) (2 * β * v * b) := Nat.dvd_gcd ⟨a, by ring⟩ ⟨2 * β * v, by ring⟩
      rw [h, Nat.dvd_one] at this; omega
  · intro h
    have hd : a * b ∣ u * (α * a) + v * (β * b) - t := by
      conv_lhs => rw [← h]
      exact Nat.gcd_dvd_right _ _
    rcases hst with e | e
    · rw [e, Nat.mul_comm a b] at hd
      exact hbu (Nat.dvd_of_mul_dvd_mul_right (by omega) hd)
    · rw [e] at hd
      exact hav (Nat.dvd_of_mul_dvd_mul_right (by omega) hd)

/-- products of two coprime factors, both at least 257, below `2^32` -/
theorem oneLine_u32 {a b : ℕ} (hab : Nat.Coprime a b) (ha : Nat.Coprime a 30) (hb : Nat.Coprime b 30) (hb0 : 257 ≤ b) (hle : b ≤ a)
    (hlt : a * b < 2 ^ 32) : ∃ i d, 1 ≤ i ∧ i * (480 * (a * b)) < (2 ^ 32 - 1) ^ 2 ∧ OneLineFinds (a * b) (480 * (a * b)) i d := by
  have hbb : b < 2 ^ 16 := by
    by_contra hc
    have := Nat.mul_le_mul (show 2 ^ 16 ≤ a by omega) (show 2 ^ 16 ≤ b by omega)
    omega
  have haa : a * 257 < 2 ^ 32 := lt_of_le_of_lt (Nat.mul_le_mul_left _ hb0) hlt
  by_cases h1 : 2 * b ^ 2 ≤ a
  · -- one approximation by multiples of `15 b`
    obtain ⟨u, v, t, hu0, hu1, he, ht⟩ := dirichlet_nat (8 * a) (15 * b) 1 (by omega) one_pos
    obtain rfl : u = 1 := by omega
    have ht' : 2 * t ≤ 15 * b := by omega
    have hv : v * (15 * b) ≤ 8 * a + 8 * b := by rcases he with he | he <;> omega
    have hv' : 8 * a ≤ v * (15 * b) + 8 * b := by rcases he with he | he <;> omega
    have hv0 : 0 < v := by
      rcases Nat.eq_zero_or_pos v with h | h
      · subst h
        have : 257 * b ≤ b ^ 2 := by nlinarith
        omega
      · exact h
    have hb2 : 257 * b ≤ b ^ 2 := by nlinarith
    obtain ⟨d, hd⟩ := oneLine_approx (α := 8) (β := 15) hab ha hb (by omega) (by omega) (by norm_num) hu0 (by omega) hv0 (by omega) he (by
      have : (2 * t) ^ 2 ≤ (15 * b) ^ 2 := Nat.pow_le_pow_left ht' 2
      nlinarith)
    refine ⟨1 * v, d, by omega, ?_, hd⟩
    have e : 1 * v * (480 * (a * b)) = 32 * a * (v * (15 * b)) := by ring
    rw [e]
    have : 32 * a * (v * (15 * b)) ≤ 32 * a * (16 * a) := Nat.mul_le_mul_left _ (by omega)
    have : a < 2 ^ 24 := by omega
    have : a * a ≤ 2 ^ 24 * 2 ^ 24 := Nat.mul_le_mul (by omega) (by omega)
    have : 32 * a * (16 * a) = 512 * (a * a) := by ring
    omega
  · push Not at h1
    by_cases h2 : b ^ 2 ≤ 1900 * a
    · obtain ⟨u, v, t, hu0, hu1, he, ht⟩ := dirichlet_nat (120 * a) (1 * b) 1 (by omega) one_pos
      obtain rfl : u = 1 := by omega
      have ht' : 2 * t ≤ b := by omega
      have hv : v * (1 * b) ≤ 120 * a + b := by rcases he with he | he <;> omega
      have hv' : 120 * a ≤ v * (1 * b) + b := by rcases he with he | he <;> omega
      have hv0 : 0 < v := by
        rcases Nat.eq_zero_or_pos v with h | h
        · subst h; omega
        · exact h
      obtain ⟨d, hd⟩ := oneLine_approx (α := 120) (β := 1) hab ha hb (by omega) (by omega) (by norm_num) hu0 (by omega) hv0 (by omega) he (by
        have : (2 * t) ^ 2 ≤ b ^ 2 := Nat.pow_le_pow_left ht' 2
        nlinarith)
      refine ⟨1 * v, d, by omega, ?_, hd⟩
      have e : 1 * v * (480 * (a * b)) = 480 * a * (v * (1 * b)) := by ring
      rw [e]
      have h3 : 480 * a * (v * (1 * b)) ≤ 480 * a * (121 * a) := Nat.mul_le_mul_left _ (by omega)
      -- `a < 2 b^2` bounds `a`
      have h4 : a < 2 ^ 22 := by
        by_contra hc
        have hbl : b < 2 ^ 10 := by
          by_contra hc2
          have := Nat.mul_le_mul (show 2 ^ 22 ≤ a by omega) (show 2 ^ 10 ≤ b by omega)
          omega
        have : b ^ 2 < 2 ^ 20 := by nlinarith
        omega
      have : a * a ≤ 2 ^ 22 * 2 ^ 22 := Nat.mul_le_mul (by omega) (by omega)
      have : 480 * a * (121 * a) = 58080 * (a * a) := by ring
      omega
    · push Not at h2
      obtain ⟨u, v, t, hu0, hu1, he, ht⟩ := dirichlet_nat (120 * a) (1 * b) 16 (by omega) (by norm_num)
      have ht' : 17 * t ≤ b := by omega
      have hua : 1 * (120 * a) ≤ u * (120 * a) := Nat.mul_le_mul_right _ hu0
      have hua' : u * (120 * a) ≤ 16 * (120 * a) := Nat.mul_le_mul_right _ hu1
      have hv : v * (1 * b) ≤ 1920 * a + b := by rcases he with he | he <;> omega
      have hv' : 120 * a ≤ v * (1 * b) + b := by rcases he with he | he <;> omega
      have hv0 : 0 < v := by
        rcases Nat.eq_zero_or_pos v with h | h
        · subst h; omega
        · exact h
      obtain ⟨d, hd⟩ := oneLine_approx (α := 120) (β := 1) hab ha hb (by omega) (by omega) (by norm_num) hu0 (by omega) hv0 (by omega) he (by
        have : (17 * t) ^ 2 ≤ b ^ 2 := Nat.pow_le_pow_left ht' 2
        have : b ^ 2 ≤ 2 ^ 16 * a := by nlinarith
        nlinarith)
      refine ⟨u * v, d, Nat.mul_pos hu0 hv0, ?_, hd⟩
      have e : u * v * (480 * (a * b)) = u * (480 * a * (v * (1 * b))) := by ring
      rw [e]
      have h3 : 480 * a * (v * (1 * b)) ≤ 480 * a * (1921 * a) := Nat.mul_le_mul_left _ (by omega)
      have h4 : u * (480 * a * (v * (1 * b))) ≤ 16 * (480 * a * (1921 * a)) := Nat.mul_le_mul hu1 h3
      -- `1900 a < b^2` bounds `a`
      have h5 : a < 2 ^ 19 := by
        by_contra hc
        have hbl : b < 2 ^ 13 := by
          by_contra hc2
          have := Nat.mul_le_mul (show 2 ^ 19 ≤ a by omega) (show 2 ^ 13 ≤ b by omega)
          omega
        have : b ^ 2 < 2 ^ 26 := by nlinarith
        omega
      have : a * a ≤ 2 ^ 19 * 2 ^ 19 := Nat.mul_le_mul (by omega) (by omega)
      have : 16 * (480 * a * (1921 * a)) = 14753280 * (a * a) := by ring
      omega

end NumPrime
