import Verif.Proofs.FloatFar
import Verif.Proofs.PrimeList
import Mathlib.Analysis.SpecialFunctions.Log.Monotone
import Mathlib.NumberTheory.Chebyshev

/-! # Chebyshev's estimates of the number of primes, with constants -/

namespace NumPrime
open Spec

theorem cheb_lower {x : ℕ} (hx : 11534336 ≤ x) : 69 / 100 * (x : ℝ) ≤ Nat.primeCounting x * Real.log x := by
  have hx0 : (11534336 : ℝ) ≤ x := by exact_mod_cast hx
  have h := Chebyshev.pi_ge x
  have hl : 0 < Real.log x := Real.log_pos (by linarith)
  rw [div_le_iff₀ hl] at h
  have h2 := Real.log_two_gt_d9
  have h3 : Real.log ((x : ℝ) + 1) ≤ x / 10000 := by
    have h4 := Real.log_le_sub_one_of_pos (x := ((x : ℝ) + 1) / 2 ^ 15) (by positivity)
    rw [Real.log_div (by linarith) (by norm_num), Real.log_pow] at h4
    have := Real.log_two_lt_d9
    push_cast at h4
    linarith
  have : (x : ℝ) * (69314718 / 10 ^ 8) ≤ x * Real.log 2 := mul_le_mul_of_nonneg_left (by linarith) (by linarith)
  linarith

theorem cheb_upper {x : ℕ} (hx : 11534336 ≤ x) : Nat.primeCounting x * Real.log x ≤ 278 / 100 * (x : ℝ) := by
  have hx0 : (11534336 : ℝ) ≤ x := by exact_mod_cast hx
  have h := Chebyshev.pi_le_log4_mul_div (x := x) (by linarith)
  rw [Nat.floor_natCast] at h
  have hl : 0 < Real.log x := Real.log_pos (by linarith)
  rw [Real.log_sqrt (by linarith)] at h
  have hs : (3396 : ℝ) ≤ √x := by
    rw [Real.le_sqrt (by norm_num) (by linarith)]
    linarith
  have h4 : Real.log 4 = 2 * Real.log 2 := by
    rw [show (4 : ℝ) = 2 ^ 2 by norm_num, Real.log_pow]
    norm_num
  have h2 := Real.log_two_lt_d9
  have hsl : √x * Real.log x ≤ 5 / 1000 * x := by
    have h5 := Real.log_div_self_antitoneOn (a := 3396) (b := √x) (by
      rw [Set.mem_Ici]
      have := Real.exp_one_lt_d9
      linarith) (by
      rw [Set.mem_Ici]
      have := Real.exp_one_lt_d9
      linarith) hs
    dsimp only at h5
    rw [Real.log_sqrt (by linarith)] at h5
    have h6 : Real.log 3396 ≤ 12 * Real.log 2 := by
      have : Real.log 3396 ≤ Real.log (2 ^ 12) := Real.log_le_log (by norm_num) (by norm_num)
      rw [Real.log_pow] at this
      exact_mod_cast this
    have h7 : Real.log 3396 / 3396 ≤ 245 / 100000 := by
      rw [div_le_iff₀ (by norm_num)]
      linarith
    have h8 : Real.log x / 2 ≤ 245 / 100000 * √x := by
      rw [← div_le_iff₀ (by linarith)]
      linarith
    have h9 : √x * √x = x := Real.mul_self_sqrt (by linarith)
    nlinarith
  have h10 : (Nat.primeCounting x : ℝ) * Real.log x ≤ (Real.log 4 * x / (Real.log x / 2) + √x) * Real.log x :=
    mul_le_mul_of_nonneg_right h hl.le
  have h11 : (Real.log 4 * x / (Real.log x / 2) + √x) * Real.log x = 4 * Real.log 2 * x + √x * Real.log x := by
    rw [h4]
    field_simp
    ring
  rw [h11] at h10
  have : 4 * Real.log 2 * x ≤ 27726 / 10000 * x := mul_le_mul_of_nonneg_right (by linarith) (by linarith)
  linarith

theorem log_le_of_ge_eight {y : ℝ} (hy : 8 ≤ y) : Real.log y ≤ 26 / 100 * y := by
  have h5 := Real.log_div_self_antitoneOn (a := 8) (b := y) (by
    rw [Set.mem_Ici]
    have := Real.exp_one_lt_d9
    linarith) (by
    rw [Set.mem_Ici]
    have := Real.exp_one_lt_d9
    linarith) hy
  dsimp only at h5
  have h6 : Real.log 8 = 3 * Real.log 2 := by
    rw [show (8 : ℝ) = 2 ^ 3 by norm_num, Real.log_pow]
    norm_num
  have h2 := Real.log_two_lt_d9
  rw [← div_le_iff₀ (by linarith)]
  linarith

theorem log_le_of_ge_sixteen {y : ℝ} (hy : 16 ≤ y) : Real.log y ≤ 174 / 1000 * y := by
  have h5 := Real.log_div_self_antitoneOn (a := 16) (b := y) (by
    rw [Set.mem_Ici]
    have := Real.exp_one_lt_d9
    linarith) (by
    rw [Set.mem_Ici]
    have := Real.exp_one_lt_d9
    linarith) hy
  dsimp only at h5
  have h6 : Real.log 16 = 4 * Real.log 2 := by
    rw [show (16 : ℝ) = 2 ^ 4 by norm_num, Real.log_pow]
    norm_num
  have h2 := Real.log_two_lt_d9
  rw [← div_le_iff₀ (by linarith)]
  linarith

/-- Chebyshev's estimates of the `n`-th prime -/
theorem cheb_nth {n p : ℕ} (hn : 759401 < n) (hp : 11534336 ≤ p) (hpi : Nat.primeCounting p = n) :
    n * (Real.log n + Real.log (Real.log n) + 1) ≤ 375 / 100 * p ∧ (p : ℝ) ≤ 24 / 10 * (n * (Real.log n + Real.log (Real.log n) - 3)) := by
  have hlog := log_ge_of (n := 13) (c := 759401) (by norm_num) hn.le (by omega)
  push_cast at hlog
  have hlogp := log_ge_of (n := 16) (c := 11534336) (by norm_num) hp (by omega)
  push_cast at hlogp
  have hn0 : (759401 : ℝ) ≤ n := by exact_mod_cast hn.le
  have hp0 : (11534336 : ℝ) ≤ p := by exact_mod_cast hp
  have h1 := cheb_lower hp
  have h2 := cheb_upper hp
  rw [hpi] at h1 h2
  have hnp : (n : ℝ) ≤ p := by
    have := primeCounting_le p
    rw [← hpi]
    exact_mod_cast this
  have hLL : Real.log n ≤ Real.log p := Real.log_le_log (by linarith) hnp
  have hll := log_le_of_ge_eight (y := Real.log n) (by linarith)
  have hll0 : 0 ≤ Real.log (Real.log n) := Real.log_nonneg (by linarith)
  have hlp := log_le_of_ge_sixteen (y := Real.log p) (by linarith)
  constructor
  · have h3 : (n : ℝ) * (Real.log n + Real.log (Real.log n) + 1) ≤ n * (134 / 100 * Real.log p) :=
      mul_le_mul_of_nonneg_left (by linarith) (by linarith)
    linarith
  · have h4 : Real.log (69 / 100 * p) ≤ Real.log (n * Real.log p) := Real.log_le_log (by positivity) h1
    rw [Real.log_mul (by norm_num) (by linarith), Real.log_mul (by linarith) (by linarith)] at h4
    have h5 : -(45 / 100) ≤ Real.log (69 / 100) := by
      have := Real.one_sub_inv_le_log_of_pos (x := 69 / 100) (by norm_num)
      norm_num at this ⊢
      linarith
    have h6 : Real.log p ≤ 1211 / 1000 * Real.log n + 55 / 100 := by linarith
    have h7 : (n : ℝ) * Real.log p ≤ n * (1211 / 1000 * Real.log n + 55 / 100) := mul_le_mul_of_nonneg_left h6 (by linarith)
    have h8 : (n : ℝ) * (1211 / 1000 * Real.log n + 55 / 100) ≤ n * (69 / 100 * (24 / 10) * (Real.log n + Real.log (Real.log n) - 3)) :=
      mul_le_mul_of_nonneg_left (by linarith) (by linarith)
    linarith

/-- the primes between `y` and `x` contribute at least `log y` each to Chebyshev's function -/
theorem pi_split {x y : ℕ} (hy : 1 ≤ y) (hyx : y ≤ x) :
    (Nat.primeCounting x : ℝ) * Real.log y ≤ Real.log 4 * x + Nat.primeCounting y * Real.log y := by
  have h1 := Chebyshev.theta_le_log4_mul_x (x := (x : ℝ)) (Nat.cast_nonneg _)
  have h2 : ((Nat.primeCounting x : ℝ) - Nat.primeCounting y) * Real.log y ≤ Chebyshev.theta x := by
    rw [Chebyshev.theta_eq_sum_Icc, Nat.floor_natCast]
    have hsub : (Finset.Ioc y x).filter Nat.Prime ⊆ (Finset.Icc 0 x).filter Nat.Prime := by
      intro p; simp only [Finset.mem_filter, Finset.mem_Ioc, Finset.mem_Icc]
      exact fun ⟨h, hp⟩ => ⟨⟨by omega, h.2⟩, hp⟩
    have hcard : Nat.primeCounting x = Nat.primeCounting y + ((Finset.Ioc y x).filter Nat.Prime).card := by
      simp only [Nat.primeCounting, Nat.primeCounting', Nat.count_eq_card_filter_range]
      rw [← Finset.card_union_of_disjoint]
      · congr 1; ext p
        simp only [Finset.mem_filter, Finset.mem_range, Finset.mem_union, Finset.mem_Ioc]; 
        constructor
        · rintro ⟨h, hp⟩; by_cases h' : p < y + 1
          · exact Or.inl ⟨h', hp⟩
          · exact Or.inr ⟨by omega, hp⟩
        · rintro (⟨h, hp⟩ | ⟨h, hp⟩) <;> exact ⟨by omega, hp⟩
      · rw [Finset.disjoint_left]; intro p
        simp only [Finset.mem_filter, Finset.mem_range, Finset.mem_Ioc]; omega
    rw [hcard]
    push_cast
    rw [add_sub_cancel_left]
    calc _ = ∑ p ∈ (Finset.Ioc y x).filter Nat.Prime, Real.log y := by rw [Finset.sum_const, nsmul_eq_mul]
      _ ≤ ∑ p ∈ (Finset.Ioc y x).filter Nat.Prime, Real.log p := by
        apply Finset.sum_le_sum
        intro p hp
        simp only [Finset.mem_filter, Finset.mem_Ioc] at hp
        exact Real.log_le_log (by exact_mod_cast hy) (by exact_mod_cast hp.1.1.le)
      _ ≤ _ := Finset.sum_le_sum_of_subset_of_nonneg hsub (fun p _ _ => Real.log_natCast_nonneg p)
  linarith

/-- at most `18 * 10^7` primes are below `2^31` -/
theorem pi_31 : Nat.primeCounting (2 ^ 31) ≤ 18 * 10 ^ 7 := by
  have h1 := pi_split (x := 2 ^ 31) (y := 2 ^ 26) (by norm_num) (by norm_num)
  have h2 := cheb_upper (x := 2 ^ 26) (by norm_num)
  have h3 := Real.log_two_lt_d9
  have h4 := Real.log_two_gt_d9
  have e4 : Real.log 4 = 2 * Real.log 2 := by
    rw [show (4 : ℝ) = 2 ^ 2 by norm_num, Real.log_pow]; norm_num
  have e26 : Real.log ((2 ^ 26 : ℕ) : ℝ) = 26 * Real.log 2 := by
    rw [Nat.cast_pow, Real.log_pow]; norm_num
  rw [e4, e26] at h1
  rw [e26] at h2
  push_cast at h1 h2
  generalize Nat.primeCounting (2 ^ 31) = P at *
  generalize (Nat.primeCounting (2 ^ 26) : ℝ) = Q at *
  have h5 : (P : ℝ) * (26 * (69314718 / 10 ^ 8)) ≤ P * (26 * Real.log 2) :=
    mul_le_mul_of_nonneg_left (by linarith) (Nat.cast_nonneg _)
  have h6 : (P : ℝ) < 18 * 10 ^ 7 + 1 := by
    norm_num at h1 h2 h5
    linarith
  exact_mod_cast Nat.lt_succ_iff.mp (by exact_mod_cast h6)

/-- more than `13 * 10^7` primes are below `2^32` -/
theorem pi_32 : 13 * 10 ^ 7 ≤ Nat.primeCounting (2 ^ 32 - 1) := by
  have h := cheb_lower (x := 2 ^ 32 - 1) (by norm_num)
  have hl : Real.log ((2 ^ 32 - 1 : ℕ) : ℝ) ≤ 32 * (6931472 / 10 ^ 7) := by
    have h1 : Real.log ((2 ^ 32 - 1 : ℕ) : ℝ) ≤ Real.log ((2 : ℝ) ^ 32) := Real.log_le_log (by norm_num) (by norm_num)
    rw [Real.log_pow] at h1
    have := Real.log_two_lt_d9
    push_cast at h1 ⊢
    linarith
  have h2 : (Nat.primeCounting (2 ^ 32 - 1) : ℝ) * Real.log ((2 ^ 32 - 1 : ℕ) : ℝ) ≤
      Nat.primeCounting (2 ^ 32 - 1) * (32 * (6931472 / 10 ^ 7)) := mul_le_mul_of_nonneg_left hl (Nat.cast_nonneg _)
  generalize Nat.primeCounting (2 ^ 32 - 1) = P at *
  have h3 : (13 * 10 ^ 7 : ℝ) ≤ P := by
    have h4 := h.trans h2
    norm_num at h4
    linarith
  exact_mod_cast h3
end NumPrime
