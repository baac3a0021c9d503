import Verif.Model.Float
import Verif.Proofs.ZetaTable
import Mathlib.Analysis.SpecialFunctions.Exp
import Mathlib.Analysis.Complex.ExponentialBounds

/-! # Rounding errors of the Gram series (`prime_pi_est` of the big-table build) -/

namespace NumPrime
open Spec Finset

variable {F : FloatOps}

theorem Rounds.le {e a M : ℝ} (h : Rounds e a) (hM : |e| ≤ M) (hM2 : M ≤ 2 ^ 1000) : |a - e| ≤ M / 2 ^ 48 + 1 / 2 ^ 1000 := by
  refine (h (hM.trans hM2)).trans ?_
  gcongr

theorem tiny_le : (1 : ℝ) / 2 ^ 1000 ≤ 1 / 2 ^ 60 :=
  one_div_le_one_div_of_le (by positivity) (pow_le_pow_right₀ (by norm_num) (by norm_num))

theorem big_le {M : ℝ} (h : M ≤ 10 ^ 6) : M ≤ 2 ^ 1000 :=
  h.trans (le_trans (by norm_num : (10 : ℝ) ^ 6 ≤ 2 ^ 20) (pow_le_pow_right₀ (by norm_num) (by norm_num)))

theorem log_near {y y' d : ℝ} (hy : 0 < y) (h : |y' - y| ≤ d * y) (hd : d ≤ 1 / 2) :
    0 < y' ∧ |Real.log y' - Real.log y| ≤ 2 * d := by
  obtain ⟨h1, h2⟩ := abs_le.mp h
  have hd0 : 0 ≤ d := by
    by_contra hc
    have : d * y < 0 := mul_neg_of_neg_of_pos (not_le.mp hc) hy
    have := abs_nonneg (y' - y)
    linarith
  have hdy : d * y ≤ 1 / 2 * y := mul_le_mul_of_nonneg_right hd hy.le
  have hy' : y / 2 ≤ y' := by linarith
  have hp : 0 < y' := by linarith
  refine ⟨hp, abs_le.mpr ⟨?_, ?_⟩⟩
  · have := Real.log_le_sub_one_of_pos (div_pos hy hp)
    rw [Real.log_div hy.ne' hp.ne'] at this
    have h3 : y / y' - 1 ≤ 2 * d := by
      rw [sub_le_iff_le_add, div_le_iff₀ hp]
      have : 2 * d * (y / 2) ≤ 2 * d * y' := mul_le_mul_of_nonneg_left hy' (by linarith)
      linarith
    linarith
  · have := Real.log_le_sub_one_of_pos (div_pos hp hy)
    rw [Real.log_div hp.ne' hy.ne'] at this
    have h3 : y' / y - 1 ≤ 2 * d := by
      rw [sub_le_iff_le_add, div_le_iff₀ hy]
      have : 0 ≤ d * y := mul_nonneg hd0 hy.le
      linarith
    linarith

/-- the logarithm of a converted integer -/
theorem fln_near (hF : F.Accurate) {x : ℕ} (hx : 1 ≤ x) {M : ℝ} (hM : Real.log x + 1 ≤ M) (hM2 : M ≤ 10 ^ 6) (hx2 : (x : ℝ) ≤ 2 ^ 1000) :
    0 < F.ofNat x ∧ |F.ln (F.ofNat x) - Real.log x| ≤ 1 / 2 ^ 46 + M / 2 ^ 48 + 1 / 2 ^ 1000 := by
  have hx' : (1 : ℝ) ≤ x := by exact_mod_cast hx
  have h1 := hF.ofNat x
  have h2 := h1.le (M := x) (by rw [abs_of_nonneg (by linarith)]) hx2
  have ht := tiny_le
  have h3 : |F.ofNat x - x| ≤ 1 / 2 ^ 47 * x := by
    have : (1 : ℝ) / 2 ^ 60 ≤ x / 2 ^ 48 := by
      rw [div_le_div_iff₀ (by positivity) (by positivity)]
      nlinarith
    have e : (1 : ℝ) / 2 ^ 47 * x = x / 2 ^ 48 + x / 2 ^ 48 := by ring
    rw [e]
    linarith
  obtain ⟨hp, h4⟩ := log_near (by linarith) h3 (by norm_num)
  refine ⟨hp, ?_⟩
  have h0 := Real.log_nonneg hx'
  have h5 : |Real.log (F.ofNat x)| ≤ M := by
    rw [abs_le] at h4 ⊢
    have : (2 : ℝ) * (1 / 2 ^ 47) ≤ 1 := by norm_num
    constructor <;> linarith [h4.1, h4.2]
  have h6 := (hF.ln _ hp).le h5 (big_le hM2)
  have : F.ln (F.ofNat x) - Real.log x = (F.ln (F.ofNat x) - Real.log (F.ofNat x)) + (Real.log (F.ofNat x) - Real.log x) := by ring
  rw [this]
  refine (abs_add_le _ _).trans ?_
  have e : (2 : ℝ) * (1 / 2 ^ 47) = 1 / 2 ^ 46 := by norm_num
  rw [e] at h4
  linarith

/-! ## the exact terms -/

/-- the entry of the table for `k`, zero beyond -/
noncomputable def lnZetaTab (k : ℕ) : ℝ :=
  if k > 64 then 0 else (Tables.zetaLogTable[k - 1]?).elim 0 fun (a, e) => (a : ℝ) / ((10 ^ e : ℕ) : ℝ)

theorem zetaTable_small : ∀ p ∈ Tables.zetaLogTable, 2 * p.1 ≤ 10 ^ p.2 := by decide +kernel

theorem zetaTable_length : Tables.zetaLogTable.length = 64 := by decide +kernel

theorem lnZetaTab_bounds (k : ℕ) : 0 ≤ lnZetaTab k ∧ lnZetaTab k ≤ 1 / 2 := by
  unfold lnZetaTab
  split
  · norm_num
  · cases h : Tables.zetaLogTable[k - 1]? with
    | none => simp
    | some p =>
      have h2 := zetaTable_small p (List.mem_of_getElem? h)
      have h3 : (2 : ℝ) * p.1 ≤ ((10 ^ p.2 : ℕ) : ℝ) := by exact_mod_cast h2
      have h4 : (0 : ℝ) < ((10 ^ p.2 : ℕ) : ℝ) := by positivity
      refine ⟨by simp only [Option.elim]; positivity, ?_⟩
      simp only [Option.elim]
      rw [div_le_iff₀ h4]
      linarith

theorem lnZetaTab_near {k : ℕ} (hk : 1 ≤ k) : |lnZetaTab k - Real.log (zeta (k + 1))| ≤ 1 / 10 ^ 9 := by
  unfold lnZetaTab
  split
  · obtain ⟨h1, h2⟩ := log_zeta_small (k := k) (by omega)
    rw [abs_le]
    constructor <;> linarith
  · have hlt : k - 1 < Tables.zetaLogTable.length := by rw [zetaTable_length]; omega
    have := zetaTable_sound k (Tables.zetaLogTable[k - 1]).1 (Tables.zetaLogTable[k - 1]).2 hk (by rw [List.getElem?_eq_getElem hlt])
    rw [List.getElem?_eq_getElem hlt]
    simpa using this

theorem fLnZeta_near (hF : F.Accurate) (k : ℕ) : |fLnZeta F k - lnZetaTab k| ≤ 1 / 2 ^ 48 := by
  have hb := lnZetaTab_bounds k
  have ht := tiny_le
  unfold fLnZeta
  unfold lnZetaTab at hb ⊢
  by_cases hk : k > 64
  · simp only [hk, if_true]
    norm_num
  · simp only [hk, if_false] at hb ⊢
    cases h : Tables.zetaLogTable[k - 1]? with
    | none => simp
    | some p =>
      rw [h] at hb
      simp only [Option.elim] at hb ⊢
      have := (hF.lit p.1 (10 ^ p.2)).le (M := 1 / 2) (by rw [abs_of_nonneg hb.1]; exact hb.2) (big_le (by norm_num))
      have h2 : (1 : ℝ) / 2 / 2 ^ 48 + 1 / 2 ^ 60 ≤ 1 / 2 ^ 48 := by norm_num
      linarith

/-- the terms of the series with the entries of the table -/
noncomputable def gramB (L : ℝ) (k : ℕ) : ℝ := L ^ k / (k * k.factorial) * Real.exp (-lnZetaTab k)

/-- the sum of the first `m` terms -/
noncomputable def gramS (L : ℝ) (m : ℕ) : ℝ := ∑ i ∈ range m, gramB L (i + 1)

theorem gramB_exp {L : ℝ} (hL : 0 < L) {k : ℕ} (hk : 1 ≤ k) :
    Real.exp (k * Real.log L - Real.log k - Real.log k.factorial - lnZetaTab k) = gramB L k := by
  have hk' : (0 : ℝ) < k := by exact_mod_cast hk
  have hf : (0 : ℝ) < k.factorial := by exact_mod_cast k.factorial_pos
  rw [gramB, sub_eq_add_neg, Real.exp_add]
  congr 1
  rw [Real.exp_sub, Real.exp_sub, Real.exp_log hk', Real.exp_log hf, div_div]
  congr 1
  rw [← Real.log_pow, Real.exp_log (by positivity)]

theorem gramB_nonneg {L : ℝ} (hL : 0 ≤ L) (k : ℕ) : 0 ≤ gramB L k := by
  unfold gramB
  positivity

theorem gramB_le {L : ℝ} (hL : 0 ≤ L) (k : ℕ) : gramB L k ≤ L ^ k / (k * k.factorial) := by
  unfold gramB
  have h1 : Real.exp (-lnZetaTab k) ≤ 1 := Real.exp_le_one_iff.mpr (by have := (lnZetaTab_bounds k).1; linarith)
  exact mul_le_of_le_one_right (by positivity) h1

theorem gramS_nonneg {L : ℝ} (hL : 0 ≤ L) (m : ℕ) : 0 ≤ gramS L m := sum_nonneg fun _ _ => gramB_nonneg hL _

theorem gramS_succ (L : ℝ) (m : ℕ) : gramS L (m + 1) = gramS L m + gramB L (m + 1) := sum_range_succ _ _

/-- the sums are at most `2 e^L / L` -/
theorem gramS_le {L : ℝ} (hL : 0 < L) (m : ℕ) : gramS L m ≤ 2 / L * Real.exp L := by
  have h1 : ∀ i ∈ range m, gramB L (i + 1) ≤ 2 / L * (L ^ (i + 2) / (i + 2).factorial) := by
    intro i _
    refine (gramB_le hL.le _).trans ?_
    have hf : (0 : ℝ) < (i + 1).factorial := by exact_mod_cast (i + 1).factorial_pos
    have e : ((i + 2).factorial : ℝ) = (i + 2) * (i + 1).factorial := by
      rw [Nat.factorial_succ]; push_cast; ring
    rw [e, show L ^ (i + 2) = L * L ^ (i + 1) by ring]
    have e2 : 2 / L * (L * L ^ (i + 1) / ((i + 2) * (i + 1).factorial)) = 2 * L ^ (i + 1) / ((i + 2) * (i + 1).factorial) := by
      field_simp
    rw [e2, div_le_div_iff₀ (by positivity) (by positivity)]
    have : (0 : ℝ) ≤ L ^ (i + 1) * (i + 1).factorial := by positivity
    push_cast
    nlinarith
  refine (sum_le_sum h1).trans ?_
  rw [← mul_sum]
  apply mul_le_mul_of_nonneg_left _ (by positivity)
  have h2 := Real.sum_le_exp_of_nonneg hL.le (m + 2)
  rw [sum_range_succ', sum_range_succ'] at h2
  refine le_trans ?_ h2
  simp only [pow_zero, Nat.factorial_zero, Nat.cast_one, zero_add, pow_one, Nat.factorial_one, div_one]
  linarith

theorem exp_near {t τ : ℝ} (h : |t - τ| ≤ 1 / 2 ^ 29) : |Real.exp t - Real.exp τ| ≤ Real.exp τ * (3 / 2 / 2 ^ 29) := by
  have h1 := Real.abs_exp_sub_one_sub_id_le (x := t - τ) (h.trans (by norm_num))
  have h2 : (t - τ) ^ 2 ≤ (1 / 2 ^ 29) ^ 2 := by rw [← sq_abs]; gcongr
  have e : Real.exp t - Real.exp τ = Real.exp τ * (Real.exp (t - τ) - 1) := by
    rw [mul_sub, ← Real.exp_add]; ring_nf
  rw [e, abs_mul, abs_of_pos (Real.exp_pos τ)]
  apply mul_le_mul_of_nonneg_left _ (Real.exp_pos τ).le
  have : Real.exp (t - τ) - 1 = (Real.exp (t - τ) - 1 - (t - τ)) + (t - τ) := by ring
  rw [this]
  refine (abs_add_le _ _).trans ?_
  have : ((1 : ℝ) / 2 ^ 29) ^ 2 + 1 / 2 ^ 29 ≤ 3 / 2 / 2 ^ 29 := by norm_num
  linarith

theorem exp_neg_four : Real.exp (-4 + 1 / 2 ^ 29) ≤ 19 / 1000 := by
  have h1 := Real.exp_one_gt_d9
  have h4 : (54 : ℝ) ≤ Real.exp (4 - 1 / 2 ^ 29) := by
    have e : (4 - 1 / 2 ^ 29 : ℝ) = ((4 : ℕ) : ℝ) * 1 + (-(1 / 2 ^ 29)) := by norm_num
    rw [e, Real.exp_add, Real.exp_nat_mul]
    have h2 : (1 : ℝ) - 1 / 2 ^ 29 ≤ Real.exp (-(1 / 2 ^ 29)) := by
      have := Real.add_one_le_exp (-(1 / 2 ^ 29) : ℝ)
      linarith
    calc (54 : ℝ) ≤ 2.7182818283 ^ 4 * (1 - 1 / 2 ^ 29) := by norm_num
      _ ≤ _ := by gcongr
  rw [show (-4 + 1 / 2 ^ 29 : ℝ) = -(4 - 1 / 2 ^ 29) by ring, Real.exp_neg]
  rw [inv_le_comm₀ (Real.exp_pos _) (by norm_num)]
  refine le_trans ?_ h4
  norm_num

theorem log_le_five {k : ℕ} (h1 : 1 ≤ k) (h : k ≤ 99) : 0 ≤ Real.log k ∧ Real.log k ≤ 5 := by
  have hk : (1 : ℝ) ≤ k := by exact_mod_cast h1
  refine ⟨Real.log_nonneg hk, ?_⟩
  rw [Real.log_le_iff_le_exp (by linarith)]
  have h2 := Real.exp_one_gt_d9
  have e : Real.exp 5 = Real.exp 1 ^ 5 := by rw [← Real.exp_nat_mul]; norm_num
  rw [e]
  have : (k : ℝ) ≤ 99 := by exact_mod_cast h
  calc (k : ℝ) ≤ 99 := this
    _ ≤ 2.7182818283 ^ 5 := by norm_num
    _ ≤ _ := by gcongr

theorem log_factorial_bounds (j : ℕ) (h : j ≤ 99) : 0 ≤ Real.log j.factorial ∧ Real.log j.factorial ≤ 5 * j := by
  induction j with
  | zero => simp
  | succ j ih =>
    obtain ⟨i1, i2⟩ := ih (by omega)
    obtain ⟨l1, l2⟩ := log_le_five (k := j + 1) (by omega) h
    rw [Nat.factorial_succ, Nat.cast_mul, Real.log_mul (by positivity) (by exact_mod_cast j.factorial_ne_zero)]
    push_cast at *
    constructor <;> linarith

theorem abs_add3 {a b c x y z : ℝ} (h1 : |a| ≤ x) (h2 : |b| ≤ y) (h3 : |c| ≤ z) : |a + b + c| ≤ x + y + z :=
  (abs_add_le _ _).trans (add_le_add ((abs_add_le _ _).trans (add_le_add h1 h2)) h3)

/-- one rounded sum: errors add up -/
theorem fadd_near (hF : F.Accurate) {a b a' b' d d' M : ℝ} (ha : |a' - a| ≤ d) (hb : |b' - b| ≤ d') (hM : |a| + |b| + d + d' ≤ M)
    (hM2 : M ≤ 2 ^ 1000) : |F.add a' b' - (a + b)| ≤ d + d' + M / 2 ^ 48 + 1 / 2 ^ 1000 := by
  have h1 : |a' + b'| ≤ M := by
    have e : a' + b' = (a + b) + (a' - a) + (b' - b) := by ring
    rw [e]
    exact (abs_add3 (abs_add_le a b) ha hb).trans hM
  have h2 := (hF.add a' b').le h1 hM2
  have e : F.add a' b' - (a + b) = (F.add a' b' - (a' + b')) + (a' - a) + (b' - b) := by ring
  rw [e]
  exact (abs_add3 h2 ha hb).trans (by linarith)

theorem fsub_near (hF : F.Accurate) {a b a' b' d d' M : ℝ} (ha : |a' - a| ≤ d) (hb : |b' - b| ≤ d') (hM : |a| + |b| + d + d' ≤ M)
    (hM2 : M ≤ 2 ^ 1000) : |F.sub a' b' - (a - b)| ≤ d + d' + M / 2 ^ 48 + 1 / 2 ^ 1000 := by
  have hb2 : |b - b'| ≤ d' := by rw [abs_sub_comm]; exact hb
  have h1 : |a' - b'| ≤ M := by
    have e : a' - b' = (a - b) + (a' - a) + (b - b') := by ring
    rw [e]
    exact (abs_add3 (abs_sub a b) ha hb2).trans hM
  have h2 := (hF.sub a' b').le h1 hM2
  have e : F.sub a' b' - (a - b) = (F.sub a' b' - (a' - b')) + (a' - a) + (b - b') := by ring
  rw [e]
  exact (abs_add3 h2 ha hb2).trans (by linarith)

theorem gram_sum (hF : F.Accurate) {L : ℝ} (hL : 9 ≤ L) (hX : Real.exp L ≤ 2 ^ 990) {j : ℕ} (hj98 : j ≤ 98) {t total : ℝ}
    (t3' : |t - (((j + 1 : ℕ) : ℝ) * Real.log L - Real.log (j + 1 : ℕ) - Real.log ((j + 1).factorial : ℕ) - lnZetaTab (j + 1))| ≤ 1 / 2 ^ 29)
    (htot : |total - gramS L j| ≤ (1 / 2 ^ 28 + j / 2 ^ 40) * gramS L j) :
    |F.add total (F.exp t) - gramS L (j + 1)| ≤ (1 / 2 ^ 28 + ((j + 1 : ℕ) : ℝ) / 2 ^ 40) * gramS L (j + 1) := by
  have hL0 : 0 < L := by linarith
  have ht := tiny_le
  have hj' : (j : ℝ) ≤ 98 := by exact_mod_cast hj98
  have hB := gramB_exp hL0 (k := j + 1) (by omega)
  have he := exp_near t3'
  rw [hB] at he
  have hS0 := gramS_nonneg hL0.le j
  have hB0 := gramB_nonneg hL0.le (j + 1)
  have hSS := gramS_le hL0 (j + 1)
  rw [gramS_succ] at hSS
  have hSX : gramS L j + gramB L (j + 1) ≤ 2 ^ 990 := by
    refine hSS.trans ?_
    have : 2 / L * Real.exp L ≤ 1 * Real.exp L := by
      apply mul_le_mul_of_nonneg_right _ (Real.exp_pos L).le
      rw [div_le_one hL0]
      linarith
    linarith
  have h990 : (4 : ℝ) * 2 ^ 990 ≤ 2 ^ 1000 := by
    rw [show (2 : ℝ) ^ 1000 = 2 ^ 10 * 2 ^ 990 by rw [← pow_add]]
    exact mul_le_mul_of_nonneg_right (by norm_num) (by positivity)
  have hb1000 : 2 * (gramS L j + gramB L (j + 1)) ≤ 2 ^ 1000 :=
    (mul_le_mul_of_nonneg_left hSX zero_le_two).trans
      ((mul_le_mul_of_nonneg_right (by norm_num) (by positivity)).trans h990)
  have hS1 : 1 ≤ gramS L j + gramB L (j + 1) := by
    have h1 : gramB L 1 ≤ gramS L j + gramB L (j + 1) := by
      rw [← gramS_succ]
      exact single_le_sum (f := fun i => gramB L (i + 1)) (fun i _ => gramB_nonneg hL0.le _) (mem_range.mpr (Nat.succ_pos j))
    refine le_trans ?_ h1
    unfold gramB
    have h2 : (1 : ℝ) - 1 / 2 ≤ Real.exp (-lnZetaTab 1) := by
      have := Real.add_one_le_exp (-lnZetaTab 1)
      have := (lnZetaTab_bounds 1).2
      linarith
    simp only [pow_one, Nat.cast_one, Nat.factorial_one, mul_one, div_one]
    nlinarith
  -- the exponential
  have c1 : (3 : ℝ) / 2 / 2 ^ 29 ≤ 1 := by norm_num
  have hexp2 : |Real.exp t| ≤ 2 * gramB L (j + 1) := by
    have e1 : gramB L (j + 1) * (3 / 2 / 2 ^ 29) ≤ gramB L (j + 1) * 1 := mul_le_mul_of_nonneg_left c1 hB0
    rw [abs_of_pos (Real.exp_pos t)]
    have := (abs_le.mp he).2
    linarith
  have hfe := (hF.exp t).le hexp2 (le_trans (by linarith) hb1000)
  have hfe2 : |F.exp t - gramB L (j + 1)| ≤ gramB L (j + 1) / 2 ^ 28 + 1 / 2 ^ 1000 := by
    have e : F.exp t - gramB L (j + 1) = (F.exp t - Real.exp t) + (Real.exp t - gramB L (j + 1)) := by ring
    rw [e]
    refine (abs_add_le _ _).trans ?_
    have c2 : gramB L (j + 1) * (2 / 2 ^ 48 + 3 / 2 / 2 ^ 29) ≤ gramB L (j + 1) * (1 / 2 ^ 28) :=
      mul_le_mul_of_nonneg_left (by norm_num) hB0
    have c3 : 2 * gramB L (j + 1) / 2 ^ 48 + gramB L (j + 1) * (3 / 2 / 2 ^ 29) = gramB L (j + 1) * (2 / 2 ^ 48 + 3 / 2 / 2 ^ 29) := by ring
    have c4 : gramB L (j + 1) * (1 / 2 ^ 28) = gramB L (j + 1) / 2 ^ 28 := by ring
    linarith
  -- the sum
  have hrel : (1 : ℝ) / 2 ^ 28 + j / 2 ^ 40 ≤ 1 / 2 := by
    have : (j : ℝ) / 2 ^ 40 ≤ 98 / 2 ^ 40 := by gcongr
    have : (1 : ℝ) / 2 ^ 28 + 98 / 2 ^ 40 ≤ 1 / 2 := by norm_num
    linarith
  have m1 : (1 / 2 ^ 28 + (j : ℝ) / 2 ^ 40) * gramS L j ≤ 1 / 2 * gramS L j := mul_le_mul_of_nonneg_right hrel hS0
  have m2 : gramB L (j + 1) / 2 ^ 28 ≤ 1 / 4 * gramB L (j + 1) := by
    rw [div_le_iff₀ (by positivity)]
    have : gramB L (j + 1) * 1 ≤ gramB L (j + 1) * (1 / 4 * 2 ^ 28) := mul_le_mul_of_nonneg_left (by norm_num) hB0
    linarith
  have n60 : (1 : ℝ) / 2 ^ 60 ≤ 1 / 4 := by norm_num
  have hadd := fadd_near hF (M := 2 * (gramS L j + gramB L (j + 1))) htot hfe2 (by
    rw [abs_of_nonneg hS0, abs_of_nonneg hB0]
    linarith) hb1000
  rw [gramS_succ]
  refine hadd.trans ?_
  set S := gramS L j + gramB L (j + 1) with hSdef
  have d1 : (1 / 2 ^ 28 + (j : ℝ) / 2 ^ 40) * gramS L j + gramB L (j + 1) / 2 ^ 28 ≤ (1 / 2 ^ 28 + (j : ℝ) / 2 ^ 40) * S := by
    have : 0 ≤ (j : ℝ) / 2 ^ 40 * gramB L (j + 1) := by positivity
    rw [hSdef, mul_add, add_mul _ _ (gramB L (j + 1))]
    linarith
  have d2 : 2 * S / 2 ^ 48 + 1 / 2 ^ 60 + 1 / 2 ^ 60 ≤ 1 / 2 ^ 40 * S := by
    have : 2 * S / 2 ^ 48 = (2 / 2 ^ 48) * S := by ring
    rw [this]
    have : (1 : ℝ) / 2 ^ 60 + 1 / 2 ^ 60 ≤ (1 / 2 ^ 40 - 2 / 2 ^ 48) * 1 := by norm_num
    have : (1 / 2 ^ 40 - 2 / 2 ^ 48 : ℝ) * 1 ≤ (1 / 2 ^ 40 - 2 / 2 ^ 48) * S := mul_le_mul_of_nonneg_left hS1 (by norm_num)
    linarith
  have d3 : (1 / 2 ^ 28 + ((j + 1 : ℕ) : ℝ) / 2 ^ 40) * S = (1 / 2 ^ 28 + (j : ℝ) / 2 ^ 40) * S + 1 / 2 ^ 40 * S := by
    push_cast
    ring
  rw [d3]
  linarith

/-- the loop computes a partial sum up to a relative error below `2^-27`; it stops after 99 terms or where the next term is small -/
theorem gram_loop (hF : F.Accurate) {L lam : ℝ} (hL : 9 ≤ L) (hX : Real.exp L ≤ 2 ^ 990) (hl7 : Real.log L ≤ 7)
    (hlam : |lam - Real.log L| ≤ 1 / 2 ^ 39) : ∀ (f j : ℕ) (lnp lnfac total : ℝ), f + j = 99 →
    |lnp - j * Real.log L| ≤ j / 2 ^ 37 → |lnfac - Real.log j.factorial| ≤ j / 2 ^ 37 →
    |total - gramS L j| ≤ (1 / 2 ^ 28 + j / 2 ^ 40) * gramS L j →
    ∃ m ≤ 99, |fGramLoop F lam f (j + 1) lnp lnfac total - gramS L m| ≤ (1 / 2 ^ 28 + m / 2 ^ 40) * gramS L m ∧
      (m = 99 ∨ gramB L (m + 1) ≤ 19 / 1000) := by
  have hL0 : 0 < L := by linarith
  have hl0 : 0 ≤ Real.log L := Real.log_nonneg (by linarith)
  have ht := tiny_le
  intro f
  induction f with
  | zero =>
    intro j lnp lnfac total hj _ _ h
    exact ⟨j, by omega, h, Or.inl (by omega)⟩
  | succ f ih =>
    intro j lnp lnfac total hj hp hf htot
    have hj98 : j ≤ 98 := by omega
    have hj' : (j : ℝ) ≤ 98 := by exact_mod_cast hj98
    have hj0 : (0 : ℝ) ≤ j := by positivity
    simp only [fGramLoop]
    -- lnp
    have hjl : (j : ℝ) * Real.log L ≤ 98 * 7 := mul_le_mul hj' hl7 hl0 (by norm_num)
    have hjl0 : 0 ≤ (j : ℝ) * Real.log L := mul_nonneg hj0 hl0
    have hj37 : (j : ℝ) / 2 ^ 37 ≤ 1 / 2 ^ 30 := by
      rw [div_le_div_iff₀ (by positivity) (by positivity)]
      linarith
    have hp1 := fadd_near hF (M := 700) hp hlam (by
      rw [abs_of_nonneg hjl0, abs_of_nonneg hl0]
      have : (1 : ℝ) / 2 ^ 30 + 1 / 2 ^ 39 ≤ 1 := by norm_num
      linarith) (big_le (by norm_num))
    have hp2 : |F.add lnp lam - ((j + 1 : ℕ) : ℝ) * Real.log L| ≤ ((j + 1 : ℕ) : ℝ) / 2 ^ 37 := by
      have e : ((j + 1 : ℕ) : ℝ) * Real.log L = j * Real.log L + Real.log L := by push_cast; ring
      rw [e]
      refine hp1.trans ?_
      push_cast
      have : (1 : ℝ) / 2 ^ 39 + 700 / 2 ^ 48 + 1 / 2 ^ 60 ≤ 1 / 2 ^ 37 := by norm_num
      rw [add_div]
      linarith
    -- ln k
    obtain ⟨lk0, lk5⟩ := log_le_five (k := j + 1) (by omega) (by omega)
    have hk := (fln_near hF (x := j + 1) (by omega) (M := 6) (by linarith) (by norm_num) (by
      have : ((j + 1 : ℕ) : ℝ) ≤ 99 := by push_cast; linarith
      exact this.trans (big_le (by norm_num)))).2
    have hk2 : |F.ln (F.ofNat (j + 1)) - Real.log (j + 1 : ℕ)| ≤ 1 / 2 ^ 44 := by
      refine hk.trans ?_
      have : (1 : ℝ) / 2 ^ 46 + 6 / 2 ^ 48 + 1 / 2 ^ 60 ≤ 1 / 2 ^ 44 := by norm_num
      linarith
    -- ln k!
    obtain ⟨lf0, lf5⟩ := log_factorial_bounds j (by omega)
    have hf1 := fadd_near hF (M := 500) hf hk2 (by
      rw [abs_of_nonneg lf0, abs_of_nonneg lk0]
      have : (1 : ℝ) / 2 ^ 30 + 1 / 2 ^ 44 ≤ 1 := by norm_num
      linarith) (big_le (by norm_num))
    have elf : Real.log ((j + 1).factorial : ℕ) = Real.log j.factorial + Real.log (j + 1 : ℕ) := by
      rw [Nat.factorial_succ, Nat.cast_mul, Real.log_mul (by positivity) (by exact_mod_cast j.factorial_ne_zero), add_comm]
    have hf2 : |F.add lnfac (F.ln (F.ofNat (j + 1))) - Real.log ((j + 1).factorial : ℕ)| ≤ ((j + 1 : ℕ) : ℝ) / 2 ^ 37 := by
      rw [elf]
      refine hf1.trans ?_
      push_cast
      have : (1 : ℝ) / 2 ^ 44 + 500 / 2 ^ 48 + 1 / 2 ^ 60 ≤ 1 / 2 ^ 37 := by norm_num
      rw [add_div]
      linarith
    obtain ⟨lg0, lg5⟩ := log_factorial_bounds (j + 1) (by omega)
    have hk37 : ((j + 1 : ℕ) : ℝ) / 2 ^ 37 ≤ 99 / 2 ^ 37 := by
      gcongr
      push_cast
      linarith
    generalize F.add lnp lam = lnp' at *
    generalize F.ln (F.ofNat (j + 1)) = lnk at *
    generalize F.add lnfac lnk = lnfac' at *
    -- the exponent
    have hz := fLnZeta_near hF (j + 1)
    obtain ⟨z0, z1⟩ := lnZetaTab_bounds (j + 1)
    generalize fLnZeta F (j + 1) = z at *
    have hkl : ((j + 1 : ℕ) : ℝ) * Real.log L ≤ 99 * 7 := by
      push_cast
      exact mul_le_mul (by linarith) hl7 hl0 (by norm_num)
    have hkl0 : 0 ≤ ((j + 1 : ℕ) : ℝ) * Real.log L := by positivity
    have lg500 : Real.log ((j + 1).factorial : ℕ) ≤ 495 := by
      refine lg5.trans ?_
      push_cast
      linarith
    have n1 : (99 : ℝ) / 2 ^ 37 + 1 / 2 ^ 44 ≤ 1 / 2 := by norm_num
    have t1 := fsub_near hF (M := 700) (hp2.trans hk37) hk2 (by
      rw [abs_of_nonneg hkl0, abs_of_nonneg lk0]
      linarith) (big_le (by norm_num))
    have t1' : |F.sub lnp' lnk - (((j + 1 : ℕ) : ℝ) * Real.log L - Real.log (j + 1 : ℕ))| ≤ 101 / 2 ^ 37 := by
      refine t1.trans ?_
      have : (99 : ℝ) / 2 ^ 37 + 1 / 2 ^ 44 + 700 / 2 ^ 48 + 1 / 2 ^ 60 ≤ 101 / 2 ^ 37 := by norm_num
      linarith
    have a1 : |((j + 1 : ℕ) : ℝ) * Real.log L - Real.log (j + 1 : ℕ)| ≤ 99 * 7 + 5 := by
      rw [abs_le]
      constructor <;> linarith
    have t2 := fsub_near hF (M := 1200) t1' (hf2.trans hk37) (by
      rw [abs_of_nonneg lg0]
      have : (101 : ℝ) / 2 ^ 37 + 99 / 2 ^ 37 ≤ 1 := by norm_num
      linarith) (big_le (by norm_num))
    have t2' : |F.sub (F.sub lnp' lnk) lnfac' -
        (((j + 1 : ℕ) : ℝ) * Real.log L - Real.log (j + 1 : ℕ) - Real.log ((j + 1).factorial : ℕ))| ≤ 201 / 2 ^ 37 := by
      refine t2.trans ?_
      have : (101 : ℝ) / 2 ^ 37 + 99 / 2 ^ 37 + 1200 / 2 ^ 48 + 1 / 2 ^ 60 ≤ 201 / 2 ^ 37 := by norm_num
      linarith
    have a2 : |((j + 1 : ℕ) : ℝ) * Real.log L - Real.log (j + 1 : ℕ) - Real.log ((j + 1).factorial : ℕ)| ≤ 99 * 7 + 5 + 495 := by
      rw [abs_le]
      constructor <;> linarith
    have t3 := fsub_near hF (M := 1200) t2' hz (by
      rw [abs_of_nonneg z0]
      have : (201 : ℝ) / 2 ^ 37 + 1 / 2 ^ 48 ≤ 1 := by norm_num
      linarith) (big_le (by norm_num))
    have t3' : |F.sub (F.sub (F.sub lnp' lnk) lnfac') z -
        (((j + 1 : ℕ) : ℝ) * Real.log L - Real.log (j + 1 : ℕ) - Real.log ((j + 1).factorial : ℕ) - lnZetaTab (j + 1))| ≤ 1 / 2 ^ 29 := by
      refine t3.trans ?_
      have : (201 : ℝ) / 2 ^ 37 + 1 / 2 ^ 48 + 1200 / 2 ^ 48 + 1 / 2 ^ 60 ≤ 1 / 2 ^ 29 := by norm_num
      linarith
    have hB := gramB_exp hL0 (k := j + 1) (by omega)
    generalize F.sub (F.sub (F.sub lnp' lnk) lnfac') z = t at *
    split
    · rename_i hlt
      refine ⟨j, by omega, htot, Or.inr ?_⟩
      rw [← hB]
      refine le_trans (Real.exp_le_exp.mpr ?_) exp_neg_four
      have := (abs_le.mp t3').1
      linarith
    · exact ih (j + 1) _ _ _ (by omega) hp2 hf2 (gram_sum hF hL hX hj98 t3' htot)

theorem exp_nine_le : Real.exp 9 ≤ 8162 := by
  have h := Real.exp_one_lt_d9
  have e : Real.exp 9 = Real.exp 1 ^ 9 := by rw [← Real.exp_nat_mul]; norm_num
  rw [e]
  calc Real.exp 1 ^ 9 ≤ 2.7182818286 ^ 9 := by gcongr
    _ ≤ 8162 := by norm_num

theorem log_ge_nine {x : ℕ} (h : 8162 ≤ x) : 9 ≤ Real.log x := by
  have hx : (8162 : ℝ) ≤ x := by exact_mod_cast h
  rw [Real.le_log_iff_exp_le (by linarith)]
  exact exp_nine_le.trans hx

theorem log_le_687 {x : ℕ} (h0 : 1 ≤ x) (h : x ≤ 2 ^ 990) : Real.log x ≤ 687 := by
  have hx : (x : ℝ) ≤ 2 ^ 990 := by exact_mod_cast h
  have h1 : (0 : ℝ) < x := by exact_mod_cast h0
  have := Real.log_le_log h1 hx
  rw [Real.log_pow] at this
  have h2 := Real.log_two_lt_d9
  push_cast at this
  linarith

theorem log_log_le {L : ℝ} (h0 : 0 < L) (h : L ≤ 700) : Real.log L ≤ 7 := by
  rw [Real.log_le_iff_le_exp h0]
  have h2 := Real.exp_one_gt_d9
  have e : Real.exp 7 = Real.exp 1 ^ 7 := by rw [← Real.exp_nat_mul]; norm_num
  rw [e]
  calc L ≤ 700 := h
    _ ≤ 2.7182818283 ^ 7 := by norm_num
    _ ≤ _ := by gcongr

/-- `ln` of the argument and its logarithm -/
theorem fln_arg (hF : F.Accurate) {x : ℕ} (h : 3 ≤ x) (hx : x ≤ 2 ^ 990) : 0 < F.ofNat x ∧
    |F.ln (F.ofNat x) - Real.log x| ≤ 1 / 2 ^ 38 := by
  have hL := log_le_687 (by omega) hx
  obtain ⟨h1, h2⟩ := fln_near hF (x := x) (by omega) (M := 700) (by linarith) (by norm_num) (by
    have : (x : ℝ) ≤ 2 ^ 990 := by exact_mod_cast hx
    exact this.trans (pow_le_pow_right₀ (by norm_num) (by norm_num)))
  refine ⟨h1, h2.trans ?_⟩
  have := tiny_le
  have : (1 : ℝ) / 2 ^ 46 + 700 / 2 ^ 48 + 1 / 2 ^ 60 ≤ 1 / 2 ^ 38 := by norm_num
  linarith

theorem flnln_arg (hF : F.Accurate) {x : ℕ} (h : 8162 ≤ x) (hx : x ≤ 2 ^ 990) :
    |F.ln (F.ln (F.ofNat x)) - Real.log (Real.log x)| ≤ 1 / 2 ^ 39 := by
  have hL9 := log_ge_nine h
  have hL := log_le_687 (by omega) hx
  obtain ⟨h1, h2⟩ := fln_arg hF (by omega) hx
  obtain ⟨h3, h4⟩ := log_near (y := Real.log x) (y' := F.ln (F.ofNat x)) (d := 1 / 2 ^ 41) (by linarith) (h2.trans (by
    have : (1 : ℝ) / 2 ^ 41 * 9 ≤ 1 / 2 ^ 41 * Real.log x := mul_le_mul_of_nonneg_left hL9 (by norm_num)
    have : (1 : ℝ) / 2 ^ 38 ≤ 1 / 2 ^ 41 * 9 := by norm_num
    linarith)) (by norm_num)
  have hl := log_log_le (L := Real.log x) (by linarith) (by linarith)
  have hl0 : 0 ≤ Real.log (Real.log x) := Real.log_nonneg (by linarith)
  have h5 := (hF.ln _ h3).le (M := 8) (by
    rw [abs_le] at h4 ⊢
    have : (2 : ℝ) * (1 / 2 ^ 41) ≤ 1 := by norm_num
    constructor <;> linarith [h4.1, h4.2]) (big_le (by norm_num))
  have e : F.ln (F.ln (F.ofNat x)) - Real.log (Real.log x) = (F.ln (F.ln (F.ofNat x)) - Real.log (F.ln (F.ofNat x))) +
    (Real.log (F.ln (F.ofNat x)) - Real.log (Real.log x)) := by ring
  rw [e]
  refine (abs_add_le _ _).trans ?_
  have := tiny_le
  have : (8 : ℝ) / 2 ^ 48 + 1 / 2 ^ 60 + 2 * (1 / 2 ^ 41) ≤ 1 / 2 ^ 39 := by norm_num
  linarith

/-- the Gram series computed in floating point -/
theorem fPiEst_near (hF : F.Accurate) {x : ℕ} (h : 8162 ≤ x) (hx : x ≤ 2 ^ 990) : ∃ m ≤ 99,
    |fPiEst F x - (1 + gramS (Real.log x) m)| ≤ (1 + gramS (Real.log x) m) / 2 ^ 27 ∧
      (m = 99 ∨ gramB (Real.log x) (m + 1) ≤ 19 / 1000) := by
  have hL9 := log_ge_nine h
  have hL := log_le_687 (by omega) hx
  have hx0 : (0 : ℝ) < x := by exact_mod_cast (by omega : 0 < x)
  have hx990 : (x : ℝ) ≤ 2 ^ 990 := by exact_mod_cast hx
  have hexp : Real.exp (Real.log x) ≤ 2 ^ 990 := by rw [Real.exp_log hx0]; exact hx990
  obtain ⟨m, hm, h1, h2⟩ := gram_loop hF hL9 hexp (log_log_le (by linarith) (by linarith)) (flnln_arg hF h hx) 99 0 0 0 0 (by norm_num)
    (by simp) (by simp) (by simp [gramS])
  refine ⟨m, hm, ?_, h2⟩
  have hS0 := gramS_nonneg (L := Real.log x) (by linarith) m
  have hSX := gramS_le (L := Real.log x) (by linarith) m
  have hSX2 : gramS (Real.log x) m ≤ 2 ^ 990 := by
    refine hSX.trans (le_trans ?_ hexp)
    have : 2 / Real.log x * Real.exp (Real.log x) ≤ 1 * Real.exp (Real.log x) := by
      apply mul_le_mul_of_nonneg_right _ (Real.exp_pos _).le
      rw [div_le_one (by linarith)]
      linarith
    linarith
  have h990 : (4 : ℝ) * 2 ^ 990 ≤ 2 ^ 1000 := by
    rw [show (2 : ℝ) ^ 1000 = 2 ^ 10 * 2 ^ 990 by rw [← pow_add]]
    exact mul_le_mul_of_nonneg_right (by norm_num) (by positivity)
  have h1990 : (1 : ℝ) ≤ 2 ^ 990 := one_le_pow₀ (by norm_num)
  have hb1000 : 2 * (1 + gramS (Real.log x) m) ≤ 2 ^ 1000 :=
    (mul_le_mul_of_nonneg_left (add_le_add h1990 hSX2) zero_le_two).trans ((le_of_eq (by ring)).trans h990)
  have hm' : (m : ℝ) ≤ 99 := by exact_mod_cast hm
  have hrel : (1 : ℝ) / 2 ^ 28 + m / 2 ^ 40 ≤ 5 / 4 / 2 ^ 28 := by
    have : (m : ℝ) / 2 ^ 40 ≤ 99 / 2 ^ 40 := by gcongr
    have : (1 : ℝ) / 2 ^ 28 + 99 / 2 ^ 40 ≤ 5 / 4 / 2 ^ 28 := by norm_num
    linarith
  have h1' := h1.trans (mul_le_mul_of_nonneg_right hrel hS0)
  have ht := tiny_le
  have hone : |F.lit 1 1 - 1| ≤ 1 / 2 ^ 47 := by
    have := (hF.lit 1 1).le (M := 1) (by norm_num) (big_le (by norm_num))
    rw [Nat.cast_one, div_one] at this
    have h2 : (1 : ℝ) / 2 ^ 48 + 1 / 2 ^ 60 ≤ 1 / 2 ^ 47 := by norm_num
    exact this.trans (le_trans (add_le_add_right ht _) h2)
  have hadd := fadd_near hF (M := 2 * (1 + gramS (Real.log x) m)) h1' hone (by
    rw [abs_of_nonneg hS0, abs_one]
    have : (5 : ℝ) / 4 / 2 ^ 28 * gramS (Real.log x) m ≤ 1 * gramS (Real.log x) m := mul_le_mul_of_nonneg_right (by norm_num) hS0
    have : (1 : ℝ) / 2 ^ 47 ≤ 1 := by norm_num
    linarith) hb1000
  unfold fPiEst
  rw [add_comm 1 (gramS (Real.log x) m)]
  refine hadd.trans ?_
  have e1 : 2 * (1 + gramS (Real.log x) m) / 2 ^ 48 = (2 / 2 ^ 48) * (1 + gramS (Real.log x) m) := by ring
  have e2 : (gramS (Real.log x) m + 1) / 2 ^ 27 = (1 / 2 ^ 27) * (1 + gramS (Real.log x) m) := by ring
  rw [e1, e2]
  have e3 : ((5 : ℝ) / 4 / 2 ^ 28 + 2 / 2 ^ 48) * gramS (Real.log x) m ≤ 1 / 2 ^ 27 * gramS (Real.log x) m :=
    mul_le_mul_of_nonneg_right (by norm_num) hS0
  have e4 : (1 : ℝ) / 2 ^ 47 + 2 / 2 ^ 48 + 1 / 2 ^ 60 ≤ 1 / 2 ^ 27 := by norm_num
  linarith

/-- the estimate lies between 1/2 and the argument -/
theorem fPiEst_bounds (hF : F.Accurate) {x : ℕ} (h : 8162 ≤ x) (hx : x ≤ 2 ^ 990) : 1 / 2 ≤ fPiEst F x ∧ fPiEst F x < x / 2 := by
  obtain ⟨m, hm, h1, -⟩ := fPiEst_near hF h hx
  have hL9 := log_ge_nine h
  have hx0 : (8162 : ℝ) ≤ x := by exact_mod_cast h
  have hS0 := gramS_nonneg (L := Real.log x) (by linarith) m
  have hSX := gramS_le (L := Real.log x) (by linarith) m
  rw [Real.exp_log (by linarith)] at hSX
  have h2 : 2 / Real.log x * x ≤ 2 / 9 * x :=
    mul_le_mul_of_nonneg_right (div_le_div_of_nonneg_left (by norm_num) (by norm_num) hL9) (by linarith)
  obtain ⟨a, b⟩ := abs_le.mp h1
  have h3 : (1 + gramS (Real.log x) m) / 2 ^ 27 ≤ (1 + gramS (Real.log x) m) / 4 :=
    div_le_div_of_nonneg_left (by linarith) (by norm_num) (by norm_num)
  constructor <;> linarith

end NumPrime
