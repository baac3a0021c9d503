import Verif.Proofs.Gram
import Mathlib.Analysis.SpecialFunctions.Exponential
import Mathlib.NumberTheory.Chebyshev

/-! # The Gram series of the code and Riemann's R function -/

namespace NumPrime
open Spec Finset

variable {F : FloatOps}

/-- the terms `L^k / (k * k!)` -/
noncomputable def gramC (L : ℝ) (k : ℕ) : ℝ := L ^ k / (k * k.factorial)

/-- the terms of the series of `R`, from `k = 1` on -/
noncomputable def gramA (L : ℝ) (k : ℕ) : ℝ := L ^ (k + 1) / ((k + 1 : ℕ) * (k + 1).factorial * zeta (k + 2))

theorem riemannR_eq (x : ℝ) : riemannR x = 1 + ∑' k, gramA (Real.log x) k := rfl

theorem gramC_nonneg {L : ℝ} (hL : 0 ≤ L) (k : ℕ) : 0 ≤ gramC L k := by
  unfold gramC
  positivity

theorem gramA_eq (L : ℝ) (k : ℕ) : gramA L k = gramC L (k + 1) * Real.exp (-Real.log (zeta (k + 2))) := by
  have hz : 0 < zeta (k + 2) := lt_of_lt_of_le one_pos (one_le_zeta (by omega))
  rw [Real.exp_neg, Real.exp_log hz, gramA, gramC, ← div_eq_mul_inv, div_div]

theorem gramA_nonneg {L : ℝ} (hL : 0 ≤ L) (k : ℕ) : 0 ≤ gramA L k := by
  rw [gramA_eq]
  exact mul_nonneg (gramC_nonneg hL _) (Real.exp_pos _).le

theorem gramA_le {L : ℝ} (hL : 0 ≤ L) (k : ℕ) : gramA L k ≤ gramC L (k + 1) := by
  rw [gramA_eq]
  refine mul_le_of_le_one_right (gramC_nonneg hL _) (Real.exp_le_one_iff.mpr ?_)
  have := Real.log_nonneg (one_le_zeta (s := k + 2) (by omega))
  linarith

theorem gramA_summable {L : ℝ} (hL : 0 ≤ L) : Summable (gramA L) := by
  have h := (summable_nat_add_iff 1).mpr (Real.summable_pow_div_factorial L)
  refine Summable.of_nonneg_of_le (gramA_nonneg hL) (fun k => (gramA_le hL k).trans ?_) h
  unfold gramC
  have hf : (0 : ℝ) < (k + 1).factorial := by exact_mod_cast (k + 1).factorial_pos
  apply div_le_div_of_nonneg_left (by positivity) hf
  have : (1 : ℝ) ≤ (k + 1 : ℕ) := by exact_mod_cast Nat.succ_pos k
  nlinarith

/-- the terms with the table entries are those of `R` up to a relative error of `2 * 10^-9` -/
theorem gramB_near {L : ℝ} (hL : 0 ≤ L) (k : ℕ) : |gramB L (k + 1) - gramA L k| ≤ gramA L k * (2 / 10 ^ 9) := by
  have h := lnZetaTab_near (k := k + 1) (by omega)
  have e : gramB L (k + 1) = gramA L k * Real.exp (Real.log (zeta (k + 2)) - lnZetaTab (k + 1)) := by
    rw [gramA_eq, mul_assoc, ← Real.exp_add, gramB, gramC]
    congr 2
    ring
  rw [show k + 1 + 1 = k + 2 from rfl, abs_sub_comm] at h
  set d := Real.log (zeta (k + 2)) - lnZetaTab (k + 1) with hd
  have h1 := Real.abs_exp_sub_one_sub_id_le (x := d) (h.trans (by norm_num))
  have h2 : d ^ 2 ≤ (1 / 10 ^ 9) ^ 2 := by rw [← sq_abs]; gcongr
  rw [e, show gramA L k * Real.exp d - gramA L k = gramA L k * (Real.exp d - 1) by ring, abs_mul, abs_of_nonneg (gramA_nonneg hL k)]
  apply mul_le_mul_of_nonneg_left _ (gramA_nonneg hL k)
  rw [show Real.exp d - 1 = (Real.exp d - 1 - d) + d by ring]
  refine (abs_add_le _ _).trans ?_
  have : ((1 : ℝ) / 10 ^ 9) ^ 2 + 1 / 10 ^ 9 ≤ 2 / 10 ^ 9 := by norm_num
  linarith

theorem gramS_near {L : ℝ} (hL : 0 ≤ L) (m : ℕ) :
    |gramS L m - ∑ k ∈ range m, gramA L k| ≤ (∑ k ∈ range m, gramA L k) * (2 / 10 ^ 9) := by
  rw [gramS, ← sum_sub_distrib, sum_mul]
  exact (abs_sum_le_sum_abs _ _).trans (sum_le_sum fun k _ => gramB_near hL k)

/-- from `3/2 L` terms on the rest of the series is bounded by its first term -/
theorem gram_tail {L : ℝ} (hL : 0 ≤ L) {m : ℕ} (hm : 3 * L ≤ 2 * (m + 2)) :
    ∑' k, gramA L k ≤ ∑ k ∈ range m, gramA L k + 3 * gramC L (m + 1) := by
  have hs := gramA_summable hL
  rw [← hs.sum_add_tsum_nat_add m]
  gcongr
  have hg : ∀ i, gramC L (m + 1 + i) ≤ gramC L (m + 1) * (2 / 3) ^ i := by
    intro i
    induction i with
    | zero => simp
    | succ i ih =>
      have h1 : gramC L (m + 1 + (i + 1)) ≤ gramC L (m + 1 + i) * (2 / 3) := by
        unfold gramC
        rw [show m + 1 + (i + 1) = (m + 1 + i) + 1 by ring, Nat.factorial_succ, pow_succ]
        have hn : (0 : ℝ) < ((m + 1 + i : ℕ) : ℝ) := by exact_mod_cast (by omega : 0 < m + 1 + i)
        have hf : (0 : ℝ) < ((m + 1 + i).factorial : ℝ) := by exact_mod_cast Nat.factorial_pos _
        have hLn : 3 * L ≤ 2 * (((m + 1 + i : ℕ) : ℝ) + 1) := by push_cast; linarith [(Nat.cast_nonneg i : (0 : ℝ) ≤ i)]
        have hq : 0 ≤ L ^ (m + 1 + i) := by positivity
        generalize L ^ (m + 1 + i) = q at *
        rw [Nat.cast_mul]
        generalize ((m + 1 + i).factorial : ℝ) = fa at *
        push_cast at *
        generalize (m : ℝ) + 1 + i = n at *
        rw [div_mul_eq_mul_div, div_le_div_iff₀ (by positivity) (by positivity)]
        have : q * L * (n * fa) ≤ q * (2 / 3 * (n + 1)) * (n * fa) := by gcongr; linarith
        have h5 : q * (2 / 3 * (n + 1)) * (n * fa) ≤ q * (2 / 3) * ((n + 1) * ((n + 1) * fa)) := by
          have : 0 ≤ q * (2 / 3) * (n + 1) * fa := by positivity
          nlinarith
        linarith
      calc _ ≤ gramC L (m + 1 + i) * (2 / 3) := h1
        _ ≤ gramC L (m + 1) * (2 / 3) ^ i * (2 / 3) := by gcongr
        _ = _ := by ring
  have hgeo : HasSum (fun i : ℕ => gramC L (m + 1) * (2 / 3 : ℝ) ^ i) (gramC L (m + 1) * 3) := by
    have := (hasSum_geometric_of_lt_one (r := (2 / 3 : ℝ)) (by norm_num) (by norm_num)).mul_left (gramC L (m + 1))
    norm_num at this
    exact this
  rw [mul_comm, ← hgeo.tsum_eq]
  refine Summable.tsum_le_tsum (fun i => ?_) ((summable_nat_add_iff m).mpr hs) hgeo.summable
  refine (gramA_le hL _).trans ?_
  rw [show i + m + 1 = m + 1 + i by ring]
  exact hg i

/-- a small term comes late -/
theorem gram_late_check : ∀ K < 67, 1 ≤ K → 9 ^ K * 25 ≥ K * K.factorial ∨ (2 * (K + 1)) ^ K * 25 ≥ 3 ^ K * (K * K.factorial) := by
  decide +kernel

theorem gram_late {L : ℝ} (h9 : 9 ≤ L) (h44 : L ≤ 444 / 10) {K : ℕ} (hK : 1 ≤ K) (h : gramC L K < 1 / 25) :
    3 * L ≤ 2 * (K + 1) := by
  by_contra hc
  rw [not_le] at hc
  have hK66 : K < 67 := by
    by_contra h'
    have : (67 : ℝ) ≤ K := by exact_mod_cast not_lt.mp h'
    linarith
  have hf : (0 : ℝ) < (K * K.factorial : ℕ) := by
    exact_mod_cast Nat.mul_pos (by omega) K.factorial_pos
  have h2 : ∀ M : ℝ, 0 ≤ M → M ≤ L → M ^ K / (K * K.factorial) < 1 / 25 := by
    intro M h0 hM
    refine lt_of_le_of_lt ?_ h
    unfold gramC
    gcongr
  rcases gram_late_check K hK66 hK with h3 | h3
  · have := h2 9 (by norm_num) h9
    have h3' : ((K * K.factorial : ℕ) : ℝ) ≤ 9 ^ K * 25 := by exact_mod_cast h3
    push_cast at h3' hf
    rw [div_lt_div_iff₀ hf (by norm_num)] at this
    linarith
  · have := h2 (2 * (K + 1) / 3) (by positivity) (by linarith)
    have h3' : (3 : ℝ) ^ K * (K * K.factorial) ≤ (2 * (K + 1)) ^ K * 25 := by exact_mod_cast h3
    push_cast at hf
    rw [div_pow, div_div, div_lt_div_iff₀ (by positivity) (by norm_num)] at this
    linarith

/-- after 99 terms the rest is negligible for 64-bit arguments -/
theorem gram_last {L : ℝ} (h9 : 9 ≤ L) (h44 : L ≤ 444 / 10) : 3 * gramC L 100 ≤ gramA L 39 / 10 ^ 9 := by
  have hz : zeta 41 ≤ 2 := by
    have := zeta_le 40 1 (by norm_num) le_rfl
    norm_num [zpart] at this
    linarith
  have hz0 : 0 < zeta 41 := lt_of_lt_of_le one_pos (one_le_zeta (by norm_num))
  have h1 : gramC L 40 / 2 ≤ gramA L 39 := by
    unfold gramA gramC
    rw [div_div]
    apply div_le_div_of_nonneg_left (by positivity) (by positivity)
    push_cast
    exact mul_le_mul_of_nonneg_left hz (by positivity)
  have h2 : gramC L 100 = gramC L 40 * (L ^ 60 * (40 * (40).factorial) / (100 * (100).factorial)) := by
    unfold gramC
    rw [show L ^ 100 = L ^ 40 * L ^ 60 by rw [← pow_add]]
    push_cast
    field_simp
  have h3 : L ^ 60 * (40 * ((40).factorial : ℝ)) / (100 * (100).factorial) ≤ 1 / 6 / 10 ^ 9 := by
    have h4 : L ^ 60 ≤ (444 / 10) ^ 60 := by gcongr
    rw [div_le_iff₀ (by positivity)]
    calc L ^ 60 * (40 * ((40).factorial : ℝ)) ≤ (444 / 10) ^ 60 * (40 * ((40).factorial : ℝ)) := by gcongr
      _ ≤ _ := by norm_num [Nat.factorial]
  have h0 := gramC_nonneg (L := L) (by linarith) 40
  have h5 : gramC L 100 ≤ gramC L 40 * (1 / 6 / 10 ^ 9) := by
    rw [h2]
    exact mul_le_mul_of_nonneg_left h3 h0
  linarith

/-- for 64-bit arguments the computed estimate is Riemann's function -/
theorem fPiEst_riemann (hF : F.Accurate) {x : ℕ} (h : 8162 ≤ x) (hx : x < 2 ^ 64) :
    |fPiEst F x - riemannR x| ≤ 1 / 2 + riemannR x / 10 ^ 7 := by
  obtain ⟨m, hm, h1, h2⟩ := fPiEst_near hF h (hx.le.trans (Nat.pow_le_pow_right (by norm_num) (by norm_num)))
  have hL9 := log_ge_nine h
  have hL44 : Real.log x ≤ 444 / 10 := by
    have hx' : (x : ℝ) ≤ 2 ^ 64 := by exact_mod_cast hx.le
    have := Real.log_le_log (by exact_mod_cast (by omega : 0 < x)) hx'
    rw [Real.log_pow] at this
    have h2 := Real.log_two_lt_d9
    push_cast at this
    linarith
  rw [riemannR_eq]
  have hL0 : 0 ≤ Real.log x := by linarith
  generalize Real.log x = L at *
  have hs := gramA_summable hL0
  have hpart := hs.sum_le_tsum (range m) fun i _ => gramA_nonneg hL0 i
  have hA0 : 0 ≤ ∑ k ∈ range m, gramA L k := sum_nonneg fun k _ => gramA_nonneg hL0 k
  have hS := gramS_near hL0 m
  have htail : ∑' k, gramA L k ≤ ∑ k ∈ range m, gramA L k + (1 / 8 + (∑' k, gramA L k) / 10 ^ 9) := by
    rcases h2 with rfl | h2
    · have t1 := gram_tail hL0 (m := 99) (by norm_num; linarith)
      have t2 := gram_last hL9 hL44
      have t3 : gramA L 39 ≤ ∑' k, gramA L k := hs.le_tsum 39 fun i _ => gramA_nonneg hL0 i
      have t4 : gramA L 39 / 10 ^ 9 ≤ (∑' k, gramA L k) / 10 ^ 9 := by gcongr
      norm_num at t1 t2 t4 ⊢
      linarith
    · have hC : gramC L (m + 1) < 1 / 25 := by
        have e : gramC L (m + 1) = gramB L (m + 1) * Real.exp (lnZetaTab (m + 1)) := by
          rw [gramB, mul_assoc, ← Real.exp_add, neg_add_cancel, Real.exp_zero, mul_one, gramC]
        have h5 : Real.exp (lnZetaTab (m + 1)) ≤ 2 := by
          have h6 : Real.exp (lnZetaTab (m + 1)) ≤ Real.exp (1 / 2) := Real.exp_le_exp.mpr (lnZetaTab_bounds _).2
          have h7 : Real.exp (1 / 2) ^ 2 = Real.exp 1 := by rw [← Real.exp_nat_mul]; norm_num
          have h8 := Real.exp_one_lt_d9
          have h9 := Real.exp_pos (1 / 2)
          nlinarith
        rw [e]
        calc _ ≤ 19 / 1000 * (2 : ℝ) := mul_le_mul h2 h5 (Real.exp_pos _).le (by norm_num)
          _ < 1 / 25 := by norm_num
      have hlate := gram_late hL9 hL44 (by omega) hC
      push_cast at hlate
      have t1 := gram_tail hL0 (m := m) (by linarith)
      have t0 : 0 ≤ (∑' k, gramA L k) / 10 ^ 9 := div_nonneg (hA0.trans hpart) (by norm_num)
      linarith
  generalize ∑' k, gramA L k = T at *
  generalize ∑ k ∈ range m, gramA L k = A at *
  generalize gramS L m = S at *
  generalize fPiEst F x = v at *
  rw [abs_le] at *
  obtain ⟨a1, a2⟩ := h1
  obtain ⟨b1, b2⟩ := hS
  constructor <;> linarith

/-! ## far beyond 64 bits the series is cut off too early -/

theorem gramS_cut {L : ℝ} (h1 : 99 ≤ L) {M : ℝ} (h2 : L ≤ M) {m : ℕ} (hm : m ≤ 99) : gramS L m ≤ 99 * (M ^ 99 / (99).factorial) := by
  have hL : 0 ≤ L := by linarith
  have hup : ∀ j ≤ 98, L ^ (99 - j) / (99 - j).factorial ≤ L ^ 99 / (99).factorial := by
    intro j
    induction j with
    | zero => intro _; exact le_rfl
    | succ j ih =>
      intro hj
      refine le_trans ?_ (ih (by omega))
      obtain ⟨k, hk⟩ : ∃ k, 99 - j = k + 1 := ⟨98 - j, by omega⟩
      rw [hk, show 99 - (j + 1) = k by omega, Nat.factorial_succ, pow_succ, Nat.cast_mul]
      have hf : (0 : ℝ) < (k.factorial : ℝ) := by exact_mod_cast Nat.factorial_pos _
      have hkL : ((k + 1 : ℕ) : ℝ) ≤ L := by
        have : ((k + 1 : ℕ) : ℝ) ≤ 99 := by exact_mod_cast (by omega : k + 1 ≤ 99)
        linarith
      have hk0 : (0 : ℝ) < ((k + 1 : ℕ) : ℝ) := by exact_mod_cast Nat.succ_pos k
      rw [div_le_div_iff₀ hf (by positivity)]
      have hq : 0 ≤ L ^ k := by positivity
      generalize L ^ k = q at *
      generalize (k.factorial : ℝ) = fa at *
      generalize ((k + 1 : ℕ) : ℝ) = n at *
      have : q * fa * n ≤ q * fa * L := mul_le_mul_of_nonneg_left hkL (by positivity)
      linarith
  have hterm : ∀ i ∈ range m, gramB L (i + 1) ≤ M ^ 99 / (99).factorial := by
    intro i hi
    have hi' := mem_range.mp hi
    refine (gramB_le hL _).trans ?_
    have hf : (0 : ℝ) < ((i + 1).factorial : ℝ) := by exact_mod_cast Nat.factorial_pos _
    have h3 : L ^ (i + 1) / ((i + 1 : ℕ) * (i + 1).factorial) ≤ L ^ (i + 1) / (i + 1).factorial := by
      apply div_le_div_of_nonneg_left (by positivity) hf
      have : (1 : ℝ) ≤ (i + 1 : ℕ) := by exact_mod_cast Nat.succ_pos i
      nlinarith
    have h4 := hup (98 - i) (by omega)
    rw [show 99 - (98 - i) = i + 1 by omega] at h4
    refine h3.trans (h4.trans ?_)
    gcongr
  refine (sum_le_sum hterm).trans ?_
  rw [sum_const, card_range, nsmul_eq_mul]
  have : (m : ℝ) ≤ 99 := by exact_mod_cast hm
  have hM : 0 ≤ M ^ 99 / ((99).factorial : ℝ) := div_nonneg (pow_nonneg (by linarith) _) (by positivity)
  exact mul_le_mul_of_nonneg_right this hM

/-- at `2^300` the estimate is below `10^76` -/
theorem fPiEst_two_pow_300 (hF : F.Accurate) : fPiEst F (2 ^ 300) < 10 ^ 76 := by
  obtain ⟨m, hm, h1, -⟩ := fPiEst_near hF (x := 2 ^ 300) (le_trans (by norm_num : 8162 ≤ 2 ^ 13) (Nat.pow_le_pow_right (by norm_num) (by norm_num)))
    (Nat.pow_le_pow_right (by norm_num) (by norm_num))
  have e : Real.log ((2 ^ 300 : ℕ) : ℝ) = 300 * Real.log 2 := by push_cast; rw [Real.log_pow]; norm_num
  rw [e] at h1
  have l1 := Real.log_two_lt_d9
  have l2 := Real.log_two_gt_d9
  have h2 := gramS_cut (L := 300 * Real.log 2) (by linarith) (M := 208) (by linarith) hm
  have h3 : 99 * ((208 : ℝ) ^ 99 / (99).factorial) ≤ 10 ^ 75 * 4 := by
    rw [← mul_div_assoc, div_le_iff₀ (by positivity)]
    norm_num [Nat.factorial]
  have h4 := gramS_nonneg (L := 300 * Real.log 2) (by linarith) m
  have := (abs_le.mp h1).2
  generalize gramS (300 * Real.log 2) m = S at *
  have h5 : (1 + S) / 2 ^ 27 ≤ (1 + S) / 4 := div_le_div_of_nonneg_left (by linarith) (by norm_num) (by norm_num)
  have : (10 : ℝ) ^ 76 = 10 * 10 ^ 75 := by norm_num
  have : (1 : ℝ) ≤ 10 ^ 75 := by norm_num
  linarith

/-- `π(2^300)` is at least `10^87` -/
theorem primeCounting_two_pow_300 : 10 ^ 87 ≤ Nat.primeCounting (2 ^ 300) := by
  have h := Chebyshev.pi_ge (2 ^ 300)
  have l1 := Real.log_two_lt_d9
  have l2 := Real.log_two_gt_d9
  have e : Real.log ((2 ^ 300 : ℕ) : ℝ) = 300 * Real.log 2 := by push_cast; rw [Real.log_pow]; norm_num
  have h2 : Real.log (((2 ^ 300 : ℕ) : ℝ) + 1) ≤ 301 * Real.log 2 := by
    have h3 : ((2 ^ 300 : ℕ) : ℝ) + 1 ≤ 2 ^ 301 := by
      push_cast
      have : (1 : ℝ) ≤ 2 ^ 300 := one_le_pow₀ (by norm_num)
      rw [pow_succ (2 : ℝ) 300]
      generalize (2 : ℝ) ^ 300 = q at *
      linarith
    have := Real.log_le_log (by positivity) h3
    rw [Real.log_pow] at this
    push_cast at this ⊢
    exact this
  rw [e] at h
  have h4 : (10 : ℝ) ^ 87 ≤ (((2 ^ 300 : ℕ) : ℝ) * Real.log 2 - Real.log (((2 ^ 300 : ℕ) : ℝ) + 1)) / (300 * Real.log 2) := by
    rw [le_div_iff₀ (by linarith)]
    have h5 : (10 : ℝ) ^ 87 * 300 + 301 ≤ ((2 ^ 300 : ℕ) : ℝ) := by
      push_cast
      rw [show (2 : ℝ) ^ 300 = 2 ^ 150 * 2 ^ 150 by rw [← pow_add]]
      norm_num
    have : ((10 : ℝ) ^ 87 * 300 + 301) * Real.log 2 ≤ ((2 ^ 300 : ℕ) : ℝ) * Real.log 2 := mul_le_mul_of_nonneg_right h5 (by linarith)
    linarith
  exact_mod_cast h4.trans h

/-! ## already for 128-bit arguments the series is cut off too early -/

/-- the terms that the code leaves out at `2^127` -/
theorem gram_missing {L : ℝ} (h1 : 8802 / 100 ≤ L) : 10 ^ 35 ≤ ∑ k ∈ range 5, gramA L (99 + k) := by
  have hz : ∀ k : ℕ, 0 < zeta (99 + k + 2) ∧ zeta (99 + k + 2) ≤ 101 / 100 := by
    intro k
    refine ⟨lt_of_lt_of_le one_pos (one_le_zeta (by omega)), ?_⟩
    have := zeta_le (99 + k + 1) 1 (by omega) le_rfl
    have h2 : zpart (99 + k + 1 + 1) 1 = 1 := by simp [zpart]
    rw [h2] at this
    refine this.trans ?_
    have h3 : (1 : ℝ) / (((99 + k + 1 : ℕ) : ℝ) * ((1 : ℕ) : ℝ) ^ (99 + k + 1)) ≤ 1 / 100 := by
      apply div_le_div_of_nonneg_left zero_le_one (by norm_num)
      push_cast
      rw [one_pow, mul_one]
      linarith [(Nat.cast_nonneg k : (0 : ℝ) ≤ k)]
    linarith
  have ht : ∀ k : ℕ, (8802 / 100 : ℝ) ^ (99 + k + 1) / ((99 + k + 1 : ℕ) * (99 + k + 1).factorial * (101 / 100)) ≤ gramA L (99 + k) := by
    intro k
    obtain ⟨z1, z2⟩ := hz k
    have hf : (0 : ℝ) < ((99 + k + 1).factorial : ℝ) := by exact_mod_cast Nat.factorial_pos _
    unfold gramA
    apply div_le_div₀ (by positivity) (pow_le_pow_left₀ (by norm_num) h1 _) (by positivity)
    exact mul_le_mul_of_nonneg_left z2 (by positivity)
  refine le_trans ?_ (sum_le_sum fun k _ => ht k)
  norm_num [sum_range_succ, Nat.factorial]

/-- at `2^127` the estimate is less than 98 percent of `R` -/
theorem fPiEst_two_pow_127 (hF : F.Accurate) : fPiEst F (2 ^ 127) ≤ 98 / 100 * riemannR ((2 ^ 127 : ℕ) : ℝ) := by
  obtain ⟨m, hm, h1, -⟩ := fPiEst_near hF (x := 2 ^ 127) (by norm_num) (Nat.pow_le_pow_right (by norm_num) (by norm_num))
  have e : Real.log ((2 ^ 127 : ℕ) : ℝ) = 127 * Real.log 2 := by rw [Nat.cast_pow, Real.log_pow]; norm_num
  have l1 := Real.log_two_lt_d9
  have l2 := Real.log_two_gt_d9
  have hX : Real.exp (Real.log ((2 ^ 127 : ℕ) : ℝ)) = 2 ^ 127 := by rw [Real.exp_log (by positivity)]; norm_num
  rw [riemannR_eq]
  have hL1 : 8802 / 100 ≤ Real.log ((2 ^ 127 : ℕ) : ℝ) := by rw [e]; linarith
  generalize Real.log ((2 ^ 127 : ℕ) : ℝ) = L at *
  have hL : 0 ≤ L := by linarith
  have hs := gramA_summable hL
  have h2 := gramS_le (L := L) (by linarith) m
  rw [hX] at h2
  obtain ⟨h3', h3⟩ := abs_le.mp (gramS_near hL m)
  have hmono : ∑ k ∈ range m, gramA L k ≤ ∑ k ∈ range 99, gramA L k :=
    sum_le_sum_of_subset_of_nonneg (range_mono hm) fun k _ _ => gramA_nonneg hL k
  have hT := gram_missing hL1
  have htot : ∑ k ∈ range 99, gramA L k + ∑ k ∈ range 5, gramA L (99 + k) ≤ ∑' k, gramA L k := by
    rw [← sum_range_add]
    exact hs.sum_le_tsum _ fun k _ => gramA_nonneg hL k
  have hS0 := gramS_nonneg hL m
  have h4 := (abs_le.mp h1).2
  have h5 : 2 / L * (2 : ℝ) ^ 127 ≤ 39 * 10 ^ 35 := by
    rw [div_mul_eq_mul_div, div_le_iff₀ (by linarith)]
    have : (39 * 10 ^ 35 : ℝ) * (8802 / 100) ≤ 39 * 10 ^ 35 * L := mul_le_mul_of_nonneg_left hL1 (by norm_num)
    have : 2 * (2 : ℝ) ^ 127 ≤ 39 * 10 ^ 35 * (8802 / 100) := by norm_num
    linarith
  have hA0 : 0 ≤ ∑ k ∈ range m, gramA L k := sum_nonneg fun k _ => gramA_nonneg hL k
  generalize gramS L m = S at *
  generalize ∑ k ∈ range m, gramA L k = A at *
  generalize ∑ k ∈ range 99, gramA L k = B at *
  generalize ∑ k ∈ range 5, gramA L (99 + k) = T at *
  generalize ∑' k, gramA L k = R at *
  have h6 : (1 + S) / 2 ^ 27 ≤ (1 + 39 * 10 ^ 35) / 2 ^ 27 := by gcongr; linarith
  have h7 : (1 + 39 * 10 ^ 35 : ℝ) / 2 ^ 27 ≤ 10 ^ 31 := by norm_num
  have h8 : A * (2 / 10 ^ 9) ≤ R * (2 / 10 ^ 9) := by
    have : A ≤ R := by
      have : (0 : ℝ) ≤ 10 ^ 35 := by norm_num
      linarith
    exact mul_le_mul_of_nonneg_right this (by norm_num)
  norm_num at *
  linarith

end NumPrime
