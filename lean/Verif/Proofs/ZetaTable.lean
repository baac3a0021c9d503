import Verif.Spec.Riemann
import Verif.Tables.ZetaLog
import Verif.Proofs.LnFix
import Mathlib.Analysis.PSeries
import Mathlib.Topology.Order.LiminfLimsup
import Mathlib.Analysis.SpecificLimits.Basic

/-! # The entries of ZETA_LOG_TABLE are logarithms of values of the zeta function -/

namespace NumPrime
open Spec Finset

theorem zeta_summable {s : ℕ} (hs : 2 ≤ s) : Summable fun n : ℕ => 1 / ((n : ℝ) + 1) ^ s := by
  have h := (Real.summable_one_div_nat_pow (p := s)).mpr (by omega)
  have := (summable_nat_add_iff 1).mpr h
  refine this.congr fun n => ?_
  push_cast
  rfl

/-- the telescoping comparison of `1/m^(r+1)` with the integral -/
theorem tele_le (m r : ℕ) (hm : 1 ≤ m) :
    (r : ℝ) / ((m : ℝ) + 1) ^ (r + 1) ≤ 1 / (m : ℝ) ^ r - 1 / ((m : ℝ) + 1) ^ r := by
  have hm' : (1 : ℝ) ≤ m := by exact_mod_cast hm
  have h0 : (0 : ℝ) ≤ 1 / m := by positivity
  have hb := one_add_mul_le_pow (a := 1 / (m : ℝ)) (by linarith) r
  have e : (1 + 1 / (m : ℝ)) ^ r = ((m : ℝ) + 1) ^ r / (m : ℝ) ^ r := by
    rw [← div_pow]; congr 1; field_simp
  rw [e] at hb
  have h1 : 1 / (m : ℝ) ^ r - 1 / ((m : ℝ) + 1) ^ r = (((m : ℝ) + 1) ^ r / (m : ℝ) ^ r - 1) / ((m : ℝ) + 1) ^ r := by
    field_simp
  rw [h1, pow_succ, mul_comm, ← div_div]
  apply div_le_div_of_nonneg_right _ (by positivity)
  have : (r : ℝ) / (m + 1) ≤ r * (1 / m) := by
    rw [mul_one_div]
    exact div_le_div_of_nonneg_left (by positivity) (by positivity) (by linarith)
  linarith

theorem le_tele (m r : ℕ) (hm : 1 ≤ m) :
    1 / (m : ℝ) ^ r - 1 / ((m : ℝ) + 1) ^ r ≤ (r : ℝ) / (m : ℝ) ^ (r + 1) := by
  have hm' : (1 : ℝ) ≤ m := by exact_mod_cast hm
  have hb := one_add_mul_le_pow (a := -(1 / ((m : ℝ) + 1))) (by
    have : 1 / ((m : ℝ) + 1) ≤ 1 := by rw [div_le_one (by positivity)]; linarith
    linarith) r
  have e : (1 + -(1 / ((m : ℝ) + 1))) ^ r = (m : ℝ) ^ r / ((m : ℝ) + 1) ^ r := by
    rw [← div_pow]; congr 1; field_simp; ring
  rw [e] at hb
  have h1 : 1 / (m : ℝ) ^ r - 1 / ((m : ℝ) + 1) ^ r = (1 - (m : ℝ) ^ r / ((m : ℝ) + 1) ^ r) / (m : ℝ) ^ r := by
    field_simp
  rw [h1, pow_succ, mul_comm, ← div_div]
  apply div_le_div_of_nonneg_right _ (by positivity)
  have : (r : ℝ) * (1 / (m + 1)) ≤ r / m := by
    rw [mul_one_div]
    exact div_le_div_of_nonneg_left (by positivity) (by positivity) (by linarith)
  linarith

/-- partial sums of the zeta series -/
noncomputable def zpart (s N : ℕ) : ℝ := ∑ n ∈ range N, 1 / ((n : ℝ) + 1) ^ s

theorem zpart_le (r N M : ℕ) (hr : 1 ≤ r) (hN : 1 ≤ N) (hM : N ≤ M) :
    zpart (r + 1) M ≤ zpart (r + 1) N + (1 / (N : ℝ) ^ r - 1 / (M : ℝ) ^ r) / r := by
  have hr' : (0 : ℝ) < r := by exact_mod_cast hr
  induction M, hM using Nat.le_induction with
  | base => simp
  | succ M hM ih =>
    have h := tele_le M r (by omega)
    rw [zpart, sum_range_succ, ← zpart]
    push_cast
    have : 1 / ((M : ℝ) + 1) ^ (r + 1) ≤ (1 / (M : ℝ) ^ r - 1 / ((M : ℝ) + 1) ^ r) / r := by
      rw [le_div_iff₀ hr']
      calc _ = (r : ℝ) / ((M : ℝ) + 1) ^ (r + 1) := by ring
        _ ≤ _ := h
    have e : (1 / (N : ℝ) ^ r - 1 / ((M : ℝ) + 1) ^ r) / r =
      (1 / (N : ℝ) ^ r - 1 / (M : ℝ) ^ r) / r + (1 / (M : ℝ) ^ r - 1 / ((M : ℝ) + 1) ^ r) / r := by ring
    rw [e]
    linarith

theorem le_zpart (r N M : ℕ) (hr : 1 ≤ r) (hM : N ≤ M) :
    zpart (r + 1) N + (1 / ((N : ℝ) + 1) ^ r - 1 / ((M : ℝ) + 1) ^ r) / r ≤ zpart (r + 1) M := by
  have hr' : (0 : ℝ) < r := by exact_mod_cast hr
  induction M, hM using Nat.le_induction with
  | base => simp
  | succ M hM ih =>
    have h := le_tele (M + 1) r (by omega)
    rw [zpart, zpart, sum_range_succ, ← zpart, ← zpart]
    push_cast at h ⊢
    have : (1 / ((M : ℝ) + 1) ^ r - 1 / ((M : ℝ) + 1 + 1) ^ r) / r ≤ 1 / ((M : ℝ) + 1) ^ (r + 1) := by
      rw [div_le_iff₀ hr']
      calc _ ≤ (r : ℝ) / ((M : ℝ) + 1) ^ (r + 1) := h
        _ = _ := by ring
    have e : (1 / ((N : ℝ) + 1) ^ r - 1 / ((M : ℝ) + 1 + 1) ^ r) / r =
      (1 / ((N : ℝ) + 1) ^ r - 1 / ((M : ℝ) + 1) ^ r) / r + (1 / ((M : ℝ) + 1) ^ r - 1 / ((M : ℝ) + 1 + 1) ^ r) / r := by ring
    rw [e]
    linarith

theorem zeta_le (r N : ℕ) (hr : 1 ≤ r) (hN : 1 ≤ N) : zeta (r + 1) ≤ zpart (r + 1) N + 1 / (r * (N : ℝ) ^ r) := by
  have hr' : (0 : ℝ) < r := by exact_mod_cast hr
  have hN' : (0 : ℝ) < N := by exact_mod_cast hN
  apply Real.tsum_le_of_sum_range_le (fun n => by positivity)
  intro M
  have h1 : zpart (r + 1) M ≤ zpart (r + 1) (max N M) := by
    apply sum_le_sum_of_subset_of_nonneg (range_mono (le_max_right _ _))
    intro i _ _
    positivity
  have h2 := zpart_le r N (max N M) hr hN (le_max_left _ _)
  have h3 : (0 : ℝ) ≤ 1 / ((max N M : ℕ) : ℝ) ^ r := by positivity
  have h4 : (1 / (N : ℝ) ^ r - 1 / ((max N M : ℕ) : ℝ) ^ r) / r ≤ 1 / (r * (N : ℝ) ^ r) := by
    rw [div_le_iff₀ hr', show 1 / (r * (N : ℝ) ^ r) * r = 1 / (N : ℝ) ^ r by field_simp]
    linarith
  exact h1.trans (h2.trans (by linarith))

theorem le_zeta (r N : ℕ) (hr : 1 ≤ r) : zpart (r + 1) N + 1 / (r * ((N : ℝ) + 1) ^ r) ≤ zeta (r + 1) := by
  have hr' : (0 : ℝ) < r := by exact_mod_cast hr
  have hsum := zeta_summable (s := r + 1) (by omega)
  have hlim : Filter.Tendsto (fun M : ℕ => 1 / ((M : ℝ) + 1) ^ r) Filter.atTop (nhds 0) := by
    have h := tendsto_one_div_add_atTop_nhds_zero_nat (𝕜 := ℝ)
    have := h.pow r
    rw [zero_pow (by omega)] at this
    refine this.congr fun M => ?_
    rw [div_pow, one_pow]
  have h2 : Filter.Tendsto (fun M : ℕ => zpart (r + 1) N + (1 / ((N : ℝ) + 1) ^ r - 1 / ((M : ℝ) + 1) ^ r) / r) Filter.atTop
      (nhds (zpart (r + 1) N + (1 / ((N : ℝ) + 1) ^ r - 0) / r)) :=
    ((hlim.const_sub _).div_const _).const_add _
  have h3 : zpart (r + 1) N + (1 / ((N : ℝ) + 1) ^ r - 0) / r ≤ zeta (r + 1) := by
    refine le_of_tendsto h2 (Filter.eventually_atTop.mpr ⟨N, fun M hM => ?_⟩)
    refine (le_zpart r N M hr hM).trans ?_
    exact hsum.sum_le_tsum _ fun n _ => by positivity
  refine le_trans (le_of_eq ?_) h3
  rw [sub_zero, div_div, mul_comm]

theorem one_le_zeta {s : ℕ} (hs : 2 ≤ s) : 1 ≤ zeta s := by
  obtain ⟨r, rfl⟩ : ∃ r, s = r + 1 := ⟨s - 1, by omega⟩
  have := le_zeta r 1 (by omega)
  have h0 : zpart (r + 1) 1 = 1 := by simp [zpart]
  rw [h0] at this
  have h1 : (0 : ℝ) ≤ 1 / (r * (((1 : ℕ) : ℝ) + 1) ^ r) := by positivity
  linarith

/-! ## the certified table -/

/-- the scale of the sums -/
def zScale : ℕ := 10 ^ 24

/-- `∑ n ≤ N, ⌊zScale / n^s⌋` added to an accumulator, from `n = i` on -/
def zsumF (s : ℕ) : ℕ → ℕ → ℕ → ℕ
  | 0, _, acc => acc
  | f + 1, i, acc => forceN (Nat.add acc (Nat.div zScale (Nat.pow i s))) fun acc => zsumF s f (Nat.succ i) acc

theorem zsumF_eq (s : ℕ) : ∀ f i acc, zsumF s f i acc = acc + ∑ n ∈ range f, zScale / (i + n) ^ s
  | 0, i, acc => by simp [zsumF]
  | f + 1, i, acc => by
    rw [zsumF, forceN_eq, zsumF_eq s f, sum_range_succ']
    have : ∀ n, i + (n + 1) = Nat.succ i + n := fun n => by omega
    simp only [this, Nat.add_zero]
    show acc + zScale / i ^ s + _ = _
    ring

theorem zsum_bounds (s N : ℕ) : (zsumF s N 1 0 : ℝ) ≤ zScale * zpart s N ∧ zScale * zpart s N ≤ (zsumF s N 1 0 : ℝ) + N := by
  rw [zsumF_eq, zpart]
  induction N with
  | zero => simp
  | succ N ih =>
    rw [sum_range_succ, sum_range_succ, mul_add]
    have h0 : (0 : ℝ) < ((1 + N) ^ s : ℕ) := by positivity
    have h1 : ((zScale / (1 + N) ^ s : ℕ) : ℝ) ≤ zScale * (1 / ((N : ℝ) + 1) ^ s) := by
      refine Nat.cast_div_le.trans (le_of_eq ?_)
      push_cast
      rw [mul_one_div, add_comm]
    have h2 : zScale * (1 / ((N : ℝ) + 1) ^ s) ≤ ((zScale / (1 + N) ^ s : ℕ) : ℝ) + 1 := by
      have : zScale < (zScale / (1 + N) ^ s + 1) * (1 + N) ^ s := by
        rw [mul_comm]
        exact Nat.lt_mul_div_succ _ (by positivity)
      have h3 : (zScale : ℝ) ≤ (((zScale / (1 + N) ^ s : ℕ) : ℝ) + 1) * ((1 + N) ^ s : ℕ) := by exact_mod_cast this.le
      rw [mul_one_div, div_le_iff₀ (by positivity)]
      refine h3.trans (le_of_eq ?_)
      push_cast
      ring
    push_cast at ih ⊢
    constructor <;> linarith [ih.1, ih.2]

/-- the entry `a / 10^e` is within `10^-9` of `ln ζ(r + 1)`; `N` is the number of terms summed -/
def zetaCheck (r N a e : ℕ) : Bool :=
  forceN (zsumF (Nat.succ r) N 1 0) fun z =>
    forceN (Nat.add z (Nat.div zScale (Nat.mul r (Nat.pow (Nat.succ N) r)))) fun zlo =>
      forceN (Nat.succ (Nat.add (Nat.add z N) (Nat.div zScale (Nat.mul r (Nat.pow N r))))) fun zhi =>
        Nat.ble 1 r && Nat.ble 1 N && Nat.ble zScale zlo && Nat.ble zhi (Nat.mul 2 zScale) &&
          Nat.ble (Nat.mul (Nat.mul a (10 ^ 9)) fixS) (Nat.mul (10 ^ e) (Nat.add (Nat.mul (mantLo 14 zlo zScale) (10 ^ 9)) fixS)) &&
          Nat.ble (Nat.mul (Nat.mul (mantHi 14 zhi zScale) (10 ^ 9)) (10 ^ e)) (Nat.mul fixS (Nat.add (Nat.mul a (10 ^ 9)) (10 ^ e)))

theorem zetaCheck_sound {r N a e : ℕ} (h : zetaCheck r N a e = true) :
    |(a : ℝ) / 10 ^ e - Real.log (zeta (r + 1))| ≤ 1 / 10 ^ 9 := by
  simp only [zetaCheck, forceN_eq, Bool.and_eq_true, Nat.ble_eq, Nat.add_eq, Nat.mul_eq, Nat.succ_eq_add_one] at h
  obtain ⟨⟨⟨⟨⟨hr, hN⟩, h1⟩, h2⟩, h3⟩, h4⟩ := h
  obtain ⟨b1, b2⟩ := zsum_bounds (r + 1) N
  generalize zsumF (r + 1) N 1 0 = z at *
  have hS : (0 : ℝ) < zScale := by norm_num [zScale]
  have hf : (0 : ℝ) < fixS := by norm_num [fixS]
  have hr' : (0 : ℝ) < r := by exact_mod_cast hr
  have hN' : (0 : ℝ) < N := by exact_mod_cast hN
  set zlo := z + Nat.div zScale (r * Nat.pow (N + 1) r) with hzlo
  set zhi := z + N + Nat.div zScale (r * Nat.pow N r) + 1 with hzhi
  have c1 : (zlo : ℝ) ≤ zScale * zeta (r + 1) := by
    have t1 : ((Nat.div zScale (r * Nat.pow (N + 1) r) : ℕ) : ℝ) ≤ zScale * (1 / (r * ((N : ℝ) + 1) ^ r)) := by
      refine (Nat.cast_div_le (m := zScale) (n := r * (N + 1) ^ r)).trans (le_of_eq ?_)
      push_cast
      rw [mul_one_div]
    have t2 := mul_le_mul_of_nonneg_left (le_zeta r N hr) hS.le
    rw [mul_add] at t2
    rw [hzlo]
    push_cast
    linarith
  have c2 : zScale * zeta (r + 1) ≤ (zhi : ℝ) := by
    have t1 : zScale * (1 / (r * (N : ℝ) ^ r)) ≤ ((Nat.div zScale (r * Nat.pow N r) : ℕ) : ℝ) + 1 := by
      have hp : 0 < r * N ^ r := by positivity
      have : zScale < (r * N ^ r) * (zScale / (r * N ^ r) + 1) := Nat.lt_mul_div_succ _ hp
      have h3 : (zScale : ℝ) ≤ ((r * N ^ r : ℕ) : ℝ) * (((zScale / (r * N ^ r) : ℕ) : ℝ) + 1) := by exact_mod_cast this.le
      rw [mul_one_div, div_le_iff₀ (by positivity), mul_comm]
      refine h3.trans (le_of_eq ?_)
      push_cast
      rfl
    have t2 := mul_le_mul_of_nonneg_left (zeta_le r N hr hN) hS.le
    rw [mul_add] at t2
    rw [hzhi]
    push_cast
    linarith
  have hz : 0 < zeta (r + 1) := lt_of_lt_of_le one_pos (one_le_zeta (by omega))
  have hpos : 0 < zScale := by norm_num [zScale]
  have l1 : (mantLo 14 zlo zScale : ℝ) ≤ fixS * Real.log (zeta (r + 1)) := by
    refine (mantLo_le 14 hpos h1).trans (mul_le_mul_of_nonneg_left (Real.log_le_log ?_ ?_) hf.le)
    · have : (0 : ℝ) < zlo := by exact_mod_cast hpos.trans_le h1
      positivity
    · rw [div_le_iff₀ hS, mul_comm]
      exact c1
  have l2 : fixS * Real.log (zeta (r + 1)) ≤ (mantHi 14 zhi zScale : ℝ) := by
    have hzz : zScale ≤ zhi := h1.trans (by
      have : ((zlo : ℕ) : ℝ) ≤ zhi := c1.trans c2
      exact_mod_cast this)
    refine le_trans (mul_le_mul_of_nonneg_left (Real.log_le_log hz ?_) hf.le) (le_mantHi 14 hpos hzz h2)
    rw [le_div_iff₀ hS, mul_comm]
    exact c2
  generalize mantLo 14 zlo zScale = ml at *
  generalize mantHi 14 zhi zScale = mh at *
  have h3' : (a : ℝ) * 10 ^ 9 * fixS ≤ 10 ^ e * (ml * 10 ^ 9 + fixS) := by exact_mod_cast h3
  have h4' : (mh : ℝ) * 10 ^ 9 * 10 ^ e ≤ fixS * (a * 10 ^ 9 + 10 ^ e) := by exact_mod_cast h4
  have he : (0 : ℝ) < 10 ^ e := by positivity
  rw [abs_le]
  constructor
  · have : Real.log (zeta (r + 1)) ≤ (a : ℝ) / 10 ^ e + 1 / 10 ^ 9 := by
      rw [div_add_div _ _ he.ne' (by norm_num), le_div_iff₀ (by positivity)]
      have : fixS * (Real.log (zeta (r + 1)) * (10 ^ e * 10 ^ 9)) ≤ fixS * (a * 10 ^ 9 + 10 ^ e * 1) := by
        calc _ = (fixS * Real.log (zeta (r + 1))) * (10 ^ 9 * 10 ^ e) := by ring
          _ ≤ mh * (10 ^ 9 * 10 ^ e) := mul_le_mul_of_nonneg_right l2 (by positivity)
          _ ≤ _ := by linarith
      exact le_of_mul_le_mul_left this hf
    linarith
  · have : (a : ℝ) / 10 ^ e ≤ Real.log (zeta (r + 1)) + 1 / 10 ^ 9 := by
      rw [div_le_iff₀ he]
      have : fixS * (10 ^ 9 * (a : ℝ)) ≤ fixS * (10 ^ 9 * ((Real.log (zeta (r + 1)) + 1 / 10 ^ 9) * 10 ^ e)) := by
        calc _ = (a : ℝ) * 10 ^ 9 * fixS := by ring
          _ ≤ 10 ^ e * (ml * 10 ^ 9 + fixS) := h3'
          _ ≤ 10 ^ e * (fixS * Real.log (zeta (r + 1)) * 10 ^ 9 + fixS) := by gcongr
          _ = _ := by ring
      exact le_of_mul_le_mul_left (le_of_mul_le_mul_left this hf) (by norm_num)
    linarith

/-- the checks for the entries from number `r - 1` on -/
def zetaChecks : ℕ → List (ℕ × ℕ) → Bool
  | _, [] => true
  | r, (a, e) :: l => zetaCheck r (bif Nat.beq r 1 then 40000 else bif Nat.beq r 2 then 1500 else 200) a e && zetaChecks (Nat.succ r) l

theorem zetaChecks_sound : ∀ (l : List (ℕ × ℕ)) (r : ℕ), zetaChecks r l = true → ∀ (i a e : ℕ), l[i]? = some (a, e) →
    |(a : ℝ) / 10 ^ e - Real.log (zeta (r + i + 1))| ≤ 1 / 10 ^ 9
  | [], r, _, i, a, e, h => by simp at h
  | (b, f) :: l, r, hc, i, a, e, h => by
    rw [zetaChecks, Bool.and_eq_true] at hc
    cases i with
    | zero =>
      simp only [List.getElem?_cons_zero, Option.some.injEq, Prod.mk.injEq] at h
      obtain ⟨rfl, rfl⟩ := h
      exact zetaCheck_sound hc.1
    | succ i =>
      rw [List.getElem?_cons_succ] at h
      have := zetaChecks_sound l (r + 1) hc.2 i a e h
      rw [show r + (i + 1) + 1 = r + 1 + i + 1 by ring]
      exact this

theorem zetaTable_checks : zetaChecks 1 Tables.zetaLogTable = true := by decide +kernel

/-- every entry of the table is the logarithm of the value of the zeta function it stands for, to nine decimals -/
theorem zetaTable_sound (k a e : ℕ) (hk : 1 ≤ k) (h : Tables.zetaLogTable[k - 1]? = some (a, e)) :
    |(a : ℝ) / 10 ^ e - Real.log (zeta (k + 1))| ≤ 1 / 10 ^ 9 := by
  have := zetaChecks_sound _ 1 zetaTable_checks (k - 1) a e h
  rwa [show 1 + (k - 1) + 1 = k + 1 by omega] at this

/-- beyond the table the logarithm is negligible -/
theorem log_zeta_small {k : ℕ} (hk : 64 < k) : 0 ≤ Real.log (zeta (k + 1)) ∧ Real.log (zeta (k + 1)) ≤ 1 / 10 ^ 9 := by
  have h1 := one_le_zeta (s := k + 1) (by omega)
  refine ⟨Real.log_nonneg h1, ?_⟩
  have h2 := zeta_le k 2 (by omega) (by norm_num)
  have h3 : zpart (k + 1) 2 = 1 + 1 / 2 ^ (k + 1) := by
    simp [zpart, sum_range_succ]
    norm_num
  rw [h3] at h2
  have hk' : (1 : ℝ) ≤ k := by exact_mod_cast (by omega : 1 ≤ k)
  have h4 : (2 : ℝ) ^ 64 ≤ 2 ^ k := pow_le_pow_right₀ (by norm_num) hk.le
  have h5 : 1 / ((k : ℝ) * ((2 : ℕ) : ℝ) ^ k) ≤ 1 / 2 ^ 64 := by
    apply one_div_le_one_div_of_le (by norm_num)
    push_cast
    calc (2 : ℝ) ^ 64 ≤ 2 ^ k := h4
      _ = 1 * 2 ^ k := by ring
      _ ≤ _ := by gcongr
  have h6 : 1 / (2 : ℝ) ^ (k + 1) ≤ 1 / 2 ^ 64 := by
    apply one_div_le_one_div_of_le (by norm_num)
    exact pow_le_pow_right₀ (by norm_num) (by omega)
  have h7 := Real.log_le_sub_one_of_pos (lt_of_lt_of_le one_pos h1)
  have : (1 : ℝ) / 2 ^ 64 + 1 / 2 ^ 64 ≤ 1 / 10 ^ 9 := by norm_num
  linarith

end NumPrime
