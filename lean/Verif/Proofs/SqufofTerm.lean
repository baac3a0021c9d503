import Verif.Proofs.Minima
import Verif.Proofs.Divisors
import Mathlib.Data.Real.Sqrt

/-! Termination of the backward loop of SQUFOF. -/

namespace NumPrime
open Minima

/-- the states `(u, v, vm1)` of the backward loop -/
def backSeq (D rd : ℕ) (s : ℕ × ℕ × ℕ) : ℕ → ℕ × ℕ × ℕ
  | 0 => s
  | n + 1 =>
    let t := backSeq D rd s n
    let p' := (rd + t.1) / t.2.1 * t.2.1 - t.1
    (p', (D - p' * p') / t.2.1, t.2.1)

section
variable {w : Width} {D rd : ℕ} (hrd : rd * rd < D) (hrd2 : D < (rd + 1) * (rd + 1)) (hw : fits w D = true)
  (hw2 : fits w (rd + rd) = true)

include hrd hrd2 hw hw2 in
theorem backSeq_spec {s : ℕ × ℕ × ℕ} (h : SqInv D rd s.1 s.2.1 s.2.2) (hred : rd < s.1 + s.2.2) (n : ℕ) :
    SqInv D rd (backSeq D rd s n).1 (backSeq D rd s n).2.1 (backSeq D rd s n).2.2 ∧
    rd < (backSeq D rd s n).1 + (backSeq D rd s n).2.2 ∧
    squfofRho w rd (backSeq D rd s n).1 (backSeq D rd s n).2.1 (backSeq D rd s n).2.2 = .ok (backSeq D rd s (n + 1)) ∧
    (rd + (backSeq D rd s n).1) / (backSeq D rd s n).2.1 * (backSeq D rd s n).2.1 =
      (backSeq D rd s (n + 1)).1 + (backSeq D rd s n).1 ∧
    1 ≤ (rd + (backSeq D rd s n).1) / (backSeq D rd s n).2.1 := by
  have step : ∀ t : ℕ × ℕ × ℕ, SqInv D rd t.1 t.2.1 t.2.2 →
      squfofRho w rd t.1 t.2.1 t.2.2 = .ok ((rd + t.1) / t.2.1 * t.2.1 - t.1,
        (D - ((rd + t.1) / t.2.1 * t.2.1 - t.1) * ((rd + t.1) / t.2.1 * t.2.1 - t.1)) / t.2.1, t.2.1) ∧
      SqInv D rd ((rd + t.1) / t.2.1 * t.2.1 - t.1)
        ((D - ((rd + t.1) / t.2.1 * t.2.1 - t.1) * ((rd + t.1) / t.2.1 * t.2.1 - t.1)) / t.2.1) t.2.1 ∧
      rd < ((rd + t.1) / t.2.1 * t.2.1 - t.1) + t.2.1 ∧
      (rd + t.1) / t.2.1 * t.2.1 = ((rd + t.1) / t.2.1 * t.2.1 - t.1) + t.1 ∧ 1 ≤ (rd + t.1) / t.2.1 := by
    intro t ht
    obtain ⟨p', q', h1, h2, h3, h4, h5⟩ := squfofRho_step hrd hrd2 ht hw hw2
    have e1 : (rd + t.1) / t.2.1 * t.2.1 - t.1 = p' := by omega
    rw [e1]
    have e2 : (D - p' * p') / t.2.1 = q' := by
      have := h2.disc
      rw [show D - p' * p' = q' * t.2.1 by omega, Nat.mul_div_cancel _ ht.qpos]
    rw [e2]
    exact ⟨h1, h2, h4, h3, h5⟩
  have hinv : SqInv D rd (backSeq D rd s n).1 (backSeq D rd s n).2.1 (backSeq D rd s n).2.2 ∧
    rd < (backSeq D rd s n).1 + (backSeq D rd s n).2.2 := by
    induction n with
    | zero => exact ⟨h, hred⟩
    | succ n ih =>
      obtain ⟨-, h2, h3, -⟩ := step _ ih.1
      exact ⟨h2, h3⟩
  obtain ⟨h1, -, -, h4, h5⟩ := step _ hinv.1
  exact ⟨hinv.1, hinv.2, h1, h4, h5⟩

include hrd hrd2 hw hw2 in
/-- the loop stops when two consecutive states have the same first component -/
theorem squfofBack_of_eq {s : ℕ × ℕ × ℕ} (h : SqInv D rd s.1 s.2.1 s.2.2) (hred : rd < s.1 + s.2.2) {k : ℕ}
    (hk : (backSeq D rd s (k + 1)).1 = (backSeq D rd s k).1) : ∀ d j f, j + d = k → d < f →
    ∃ u', squfofBack w rd f (backSeq D rd s j).1 (backSeq D rd s j).2.1 (backSeq D rd s j).2.2 = .ok u' := by
  intro d
  induction d with
  | zero =>
    intro j f hj hf
    obtain ⟨f, rfl⟩ := Nat.exists_eq_add_of_lt hf
    rw [show 0 + f + 1 = f + 1 by omega]
    obtain ⟨-, -, h3, -⟩ := backSeq_spec hrd hrd2 hw hw2 h hred j
    have : j = k := by omega
    subst this
    simp only [squfofBack, h3, Res.bind_ok]
    rw [if_pos hk]
    exact ⟨_, rfl⟩
  | succ d ih =>
    intro j f hj hf
    obtain ⟨f, rfl⟩ : ∃ g, f = g + 1 := ⟨f - 1, by omega⟩
    obtain ⟨-, -, h3, -⟩ := backSeq_spec hrd hrd2 hw hw2 h hred j
    simp only [squfofBack, h3, Res.bind_ok]
    split
    · exact ⟨_, rfl⟩
    · exact ih (j + 1) f (by omega) (by omega)

/-- absolute values of the chain of minima -/
noncomputable def chainX (D rd : ℕ) (s : ℕ × ℕ × ℕ) : ℕ → ℝ
  | 0 => s.2.2
  | n + 1 => chainX D rd s n * (√(D : ℝ) - (backSeq D rd s n).1) / (backSeq D rd s n).2.2

noncomputable def chainY (D rd : ℕ) (s : ℕ × ℕ × ℕ) : ℕ → ℝ
  | 0 => s.2.2
  | n + 1 => chainY D rd s n * (√(D : ℝ) + (backSeq D rd s n).1) / (backSeq D rd s n).2.2

include hrd hrd2 in
theorem sqrt_between : (rd : ℝ) < √(D : ℝ) ∧ √(D : ℝ) < rd + 1 ∧ √(D : ℝ) * √(D : ℝ) = D := by
  refine ⟨?_, ?_, Real.mul_self_sqrt (Nat.cast_nonneg _)⟩
  · rw [Real.lt_sqrt (Nat.cast_nonneg _), sq]
    exact_mod_cast hrd
  · rw [Real.sqrt_lt' (by positivity), sq]
    exact_mod_cast hrd2

include hrd hrd2 hw hw2 in
theorem chain_ok {s : ℕ × ℕ × ℕ} (h : SqInv D rd s.1 s.2.1 s.2.2) (hred : rd < s.1 + s.2.2) (hm : s.2.2 ≤ rd) :
    Chain (chainX D rd s) (chainY D rd s)
      (fun n => (((rd + (backSeq D rd s n).1) / (backSeq D rd s n).2.1 : ℕ) : ℤ)) := by
  obtain ⟨r1, r2, r3⟩ := sqrt_between hrd hrd2
  have fact : ∀ n, 0 < √(D : ℝ) - (backSeq D rd s n).1 ∧ 0 < √(D : ℝ) + (backSeq D rd s n).1 ∧
      (0 : ℝ) < (backSeq D rd s n).2.2 ∧ (0 : ℝ) < (backSeq D rd s n).2.1 ∧
      ((backSeq D rd s n).2.1 : ℝ) * (backSeq D rd s n).2.2 =
        (√(D : ℝ) - (backSeq D rd s n).1) * (√(D : ℝ) + (backSeq D rd s n).1) ∧
      √(D : ℝ) - (backSeq D rd s n).1 < (backSeq D rd s n).2.2 ∧
      (((rd + (backSeq D rd s n).1) / (backSeq D rd s n).2.1 : ℕ) : ℝ) * (backSeq D rd s n).2.1 =
        (backSeq D rd s (n + 1)).1 + (backSeq D rd s n).1 := by
    intro n
    obtain ⟨h1, h2, -, h4, -⟩ := backSeq_spec hrd hrd2 hw hw2 h hred n
    generalize backSeq D rd s n = t at *
    have e1 : (t.1 : ℝ) ≤ rd := by exact_mod_cast h1.ple
    have e2 : (0 : ℝ) ≤ t.1 := Nat.cast_nonneg _
    have e3 : (0 : ℝ) ≤ rd := Nat.cast_nonneg _
    have e4 : (rd : ℝ) + 1 ≤ t.1 + t.2.2 := by exact_mod_cast h2
    have e5 : (t.2.1 : ℝ) * t.2.2 + t.1 * t.1 = D := by exact_mod_cast h1.disc
    refine ⟨by linarith, by linarith, by exact_mod_cast h1.mpos, by exact_mod_cast h1.qpos, ?_, by linarith, by exact_mod_cast h4⟩
    have : (√(D : ℝ) - t.1) * (√(D : ℝ) + t.1) = √(D : ℝ) * √(D : ℝ) - t.1 * t.1 := by ring
    rw [this, r3]; linarith
  have hx : ∀ n, 0 < chainX D rd s n := by
    intro n
    induction n with
    | zero => rw [chainX]; exact_mod_cast h.mpos
    | succ n ih =>
      obtain ⟨f1, f2, f3, -⟩ := fact n
      rw [chainX]; positivity
  have hy : ∀ n, 0 < chainY D rd s n := by
    intro n
    induction n with
    | zero => rw [chainY]; exact_mod_cast h.mpos
    | succ n ih =>
      obtain ⟨f1, f2, f3, -⟩ := fact n
      rw [chainY]; positivity
  refine ⟨hx, hy, fun n => ?_, fun n => ?_, fun n => ?_, fun n => ?_, ?_⟩
  · obtain ⟨-, -, -, -, h5⟩ := backSeq_spec hrd hrd2 hw hw2 h hred n
    exact_mod_cast h5
  · obtain ⟨f1, f2, f3, f4, f5, f6, f7⟩ := fact n
    have e2 : (backSeq D rd s (n + 1)).2.2 = (backSeq D rd s n).2.1 := rfl
    rw [chainX, chainX, e2]
    rw [Int.cast_natCast]
    generalize ((rd + (backSeq D rd s n).1) / (backSeq D rd s n).2.1 : ℕ) = b at *
    have e3 : ((backSeq D rd s (n + 1)).1 : ℝ) = b * (backSeq D rd s n).2.1 - (backSeq D rd s n).1 := by linarith
    rw [e3]
    generalize ((backSeq D rd s n).1 : ℝ) = u at *
    generalize ((backSeq D rd s n).2.1 : ℝ) = v at *
    generalize ((backSeq D rd s n).2.2 : ℝ) = m at *
    generalize √(D : ℝ) = r at *
    generalize chainX D rd s n = x at *
    field_simp
    linear_combination (-x) * f5
  · obtain ⟨f1, f2, f3, f4, f5, f6, f7⟩ := fact n
    have e2 : (backSeq D rd s (n + 1)).2.2 = (backSeq D rd s n).2.1 := rfl
    rw [chainY, chainY, e2]
    rw [Int.cast_natCast]
    generalize ((rd + (backSeq D rd s n).1) / (backSeq D rd s n).2.1 : ℕ) = b at *
    have e3 : ((backSeq D rd s (n + 1)).1 : ℝ) = b * (backSeq D rd s n).2.1 - (backSeq D rd s n).1 := by linarith
    rw [e3]
    generalize ((backSeq D rd s n).1 : ℝ) = u at *
    generalize ((backSeq D rd s n).2.1 : ℝ) = v at *
    generalize ((backSeq D rd s n).2.2 : ℝ) = m at *
    generalize √(D : ℝ) = r at *
    generalize chainY D rd s n = x at *
    field_simp
    linear_combination (-x) * f5
  · obtain ⟨f1, f2, f3, f4, f5, f6, f7⟩ := fact n
    rw [chainX, div_lt_iff₀ f3]
    exact mul_lt_mul_of_pos_left f6 (hx n)
  · obtain ⟨f1, f2, f3, f4, f5, f6, f7⟩ := fact 0
    show chainY D rd s 0 < chainY D rd s 0 * (√(D : ℝ) + (backSeq D rd s 0).1) / (backSeq D rd s 0).2.2
    rw [lt_div_iff₀ f3]
    refine mul_lt_mul_of_pos_left ?_ (hy 0)
    have e1 : ((backSeq D rd s 0).2.2 : ℝ) ≤ rd := by exact_mod_cast hm
    have e2 : (0 : ℝ) ≤ (backSeq D rd s 0).1 := Nat.cast_nonneg _
    linarith

include hrd hrd2 hw hw2 in
/-- the backward loop terminates when it starts from the root of a square form that belongs to the principal cycle -/
theorem squfofBack_returns {u v m : ℕ} (h : SqInv D rd u v m) (hred : rd < u + m) (hm : m ≤ rd) {A B t c : ℤ}
    (hA0 : 0 ≤ A) (hB : 0 < B) (hA : A = u * B + m * t) (hn : A * A - D * (B * B) = m * m) (hc : m * c = B * v - 2 * u * t)
    (f : ℕ) (hf : A + B * (rd + 1) ≤ 2 ^ f) : ∃ u', squfofBack w rd f u v m = .ok u' := by
  have hch := chain_ok hrd hrd2 hw hw2 (s := (u, v, m)) h hred hm
  obtain ⟨r1, r2, r3⟩ := sqrt_between hrd hrd2
  set r := √(D : ℝ) with hr
  have hmpos : (0 : ℝ) < m := by exact_mod_cast h.mpos
  have hBr : (1 : ℝ) ≤ B := by exact_mod_cast hB
  have hAr : (0 : ℝ) ≤ A := by exact_mod_cast hA0
  have hrpos : 0 < r := lt_of_le_of_lt (Nat.cast_nonneg _) r1
  have hnorm : ((A : ℝ) + B * r) * (A - B * r) = m * m := by
    have : (A : ℝ) * A - D * (B * B) = m * m := by exact_mod_cast hn
    rw [← this, ← r3]; ring
  have hAe : (A : ℝ) = u * B + m * t := by exact_mod_cast hA
  have hce : (m : ℝ) * c = B * v - 2 * u * t := by exact_mod_cast hc
  have hdisc : (v : ℝ) * m + u * u = r * r := by rw [r3]; exact_mod_cast h.disc
  have hα : 0 < (A : ℝ) + B * r := by nlinarith
  have hgt : (m : ℝ) < A + B * r := by
    by_contra hle
    have h1 : (A : ℝ) - B * r < A + B * r := by nlinarith
    have h2 : ((A : ℝ) + B * r) * (A - B * r) < (A + B * r) * (A + B * r) := mul_lt_mul_of_pos_left h1 hα
    rw [hnorm] at h2
    nlinarith
  have hx0 : chainX D rd (u, v, m) 0 = m := rfl
  have hy0 : chainY D rd (u, v, m) 0 = m := rfl
  have hx1 : chainX D rd (u, v, m) 1 = r - u := by
    show (m : ℝ) * (r - u) / m = _
    field_simp
  have hy1 : chainY D rd (u, v, m) 1 = r + u := by
    show (m : ℝ) * (r + u) / m = _
    field_simp
  have k1 : (m : ℝ) * (c * m - t * (r - u)) = -((r + u) * (A - B * r)) := by
    linear_combination (m : ℝ) * hce + (r + u) * hAe + B * hdisc
  have k2 : ((c : ℝ) * m - t * (r - u)) * (A + B * r) = -((r + u) * m) := by
    apply mul_left_cancel₀ hmpos.ne'
    linear_combination (A + B * r) * k1 - (r + u) * hnorm
  have k3 : (m : ℝ) * (c * m + t * (r + u)) = (r - u) * (A + B * r) := by
    linear_combination (m : ℝ) * hce - (r - u) * hAe + B * hdisc
  obtain ⟨k, hk1, hk2⟩ := hch.symmetric (c := (A + B * r) / m) (by rw [one_lt_div hmpos]; exact hgt) (by rw [hx0, hy0]) (by
    rintro a a' ⟨x, y, rfl, rfl⟩
    refine ⟨t * x + c * y, -B * x - t * y, ?_, ?_⟩
    · rw [hx0, hy0, hx1, hy1, div_div_eq_mul_div, div_eq_iff hα.ne']
      push_cast
      linear_combination (-(x : ℝ)) * hnorm - y * k2 + (x : ℝ) * (A + B * r) * hAe
    · rw [hx0, hy0, hx1, hy1, div_mul_eq_mul_div, div_eq_iff hmpos.ne']
      push_cast
      linear_combination (x : ℝ) * m * hAe - y * k3)
  have hck : (2 : ℝ) ^ (k + 1) ≤ (A + B * r) / m := by
    have h1 := hch.half_pow (k + 1)
    rw [hk1, hx0] at h1
    have h2 : (0 : ℝ) < (A + B * r) / m := div_pos hα hmpos
    rw [div_le_div_iff_of_pos_left hmpos h2 (by positivity)] at h1
    exact h1
  have hkf : k < f := by
    have h1 : (A : ℝ) + B * r ≤ 2 ^ f := by
      have : (A : ℝ) + B * (rd + 1) ≤ 2 ^ f := by exact_mod_cast hf
      nlinarith
    have h2 : (A + B * r) / m ≤ A + B * r := by
      apply div_le_self hα.le
      exact_mod_cast h.mpos
    have h3 : (2 : ℝ) ^ (k + 1) ≤ 2 ^ f := by linarith
    have := (pow_le_pow_iff_right₀ (one_lt_two (α := ℝ))).mp h3
    omega
  refine squfofBack_of_eq hrd hrd2 hw hw2 (s := (u, v, m)) h hred (k := k) ?_ k 0 f (by omega) hkf
  obtain ⟨g1, g2, -, -⟩ := backSeq_spec hrd hrd2 hw hw2 (s := (u, v, m)) h hred k
  have xk := hch.xpos k
  have yk := hch.ypos (k + 1)
  rw [show chainY D rd (u, v, m) (k + 2) = chainY D rd (u, v, m) (k + 1) * (r + (backSeq D rd (u, v, m) (k + 1)).1) /
    (backSeq D rd (u, v, m) k).2.1 from rfl, show chainX D rd (u, v, m) (k + 1) = chainX D rd (u, v, m) k *
    (r - (backSeq D rd (u, v, m) k).1) / (backSeq D rd (u, v, m) k).2.2 from rfl] at hk2
  have d1 : ((backSeq D rd (u, v, m) k).2.1 : ℝ) * (backSeq D rd (u, v, m) k).2.2 + (backSeq D rd (u, v, m) k).1 *
    (backSeq D rd (u, v, m) k).1 = r * r := by rw [r3]; exact_mod_cast g1.disc
  have d2 : (0 : ℝ) < (backSeq D rd (u, v, m) k).2.1 := by exact_mod_cast g1.qpos
  have d3 : (0 : ℝ) < (backSeq D rd (u, v, m) k).2.2 := by exact_mod_cast g1.mpos
  have d4 : ((backSeq D rd (u, v, m) k).1 : ℝ) ≤ rd := by exact_mod_cast g1.ple
  rw [← Nat.cast_inj (R := ℝ)]
  generalize ((backSeq D rd (u, v, m) k).1 : ℝ) = uk at *
  generalize ((backSeq D rd (u, v, m) k).2.1 : ℝ) = vk at *
  generalize ((backSeq D rd (u, v, m) k).2.2 : ℝ) = mk at *
  generalize ((backSeq D rd (u, v, m) (k + 1)).1 : ℝ) = un at *
  generalize chainX D rd (u, v, m) k = x at *
  generalize chainY D rd (u, v, m) (k + 1) = y at *
  have e1 : (r + un) * (r - uk) = vk * mk := by
    field_simp at hk2
    linarith
  have e2 : (r - uk) * (un - uk) = 0 := by
    have : (r + un) * (r - uk) - (r + uk) * (r - uk) = (r - uk) * (un - uk) := by ring
    rw [← this, e1]
    linarith
  rcases mul_eq_zero.mp e2 with h | h
  · linarith
  · linarith
end

/-- the convergents of the forward loop after `j` steps -/
def FwInv (D rd p q j : ℕ) : Prop := ∃ A B A' B' : ℤ, 0 ≤ A ∧ 0 < B ∧ 0 ≤ A' ∧ 0 ≤ B' ∧ A = p * B + q * B' ∧
  (D : ℤ) * B = p * A + q * A' ∧ A * B' - A' * B = (-1) ^ (j + 1) ∧ A' + B' * (rd + 1) ≤ A + B * (rd + 1) ∧
  A + B * (rd + 1) ≤ (2 * rd + 2) ^ (j + 1)

theorem FwInv.init {D rd : ℕ} (hrd : rd * rd < D) : FwInv D rd rd (D - rd * rd) 0 := by
  refine ⟨rd, 1, 1, 0, by positivity, one_pos, by norm_num, le_rfl, by ring, ?_, by norm_num, ?_, ?_⟩
  · push_cast [Nat.cast_sub hrd.le]; ring
  · have : (0 : ℤ) ≤ rd := by positivity
    linarith
  · rw [zero_add, pow_one]; linarith

theorem FwInv.step {D rd p q qm1 p' q' j : ℕ} (h : FwInv D rd p q j) (hi : SqInv D rd p q qm1) (hi' : SqInv D rd p' q' q)
    (hb : (rd + p) / q * q = p' + p) : FwInv D rd p' q' (j + 1) := by
  obtain ⟨A, B, A', B', h1, h2, h3, h4, h5, h6, h7, h8, h9⟩ := h
  have hble : (rd + p) / q ≤ 2 * rd := by
    have := Nat.div_le_self (rd + p) q
    have := hi.ple
    omega
  generalize (rd + p) / q = b at *
  have hq : (0 : ℤ) < q := by exact_mod_cast hi.qpos
  have e1 : (b : ℤ) * q = p' + p := by exact_mod_cast hb
  have e2 : (q : ℤ) * qm1 + p * p = D := by exact_mod_cast hi.disc
  have e3 : (q' : ℤ) * q + p' * p' = D := by exact_mod_cast hi'.disc
  have e4 : A' = qm1 * B - p * B' := by
    apply mul_left_cancel₀ hq.ne'
    linear_combination (-1 : ℤ) * h6 - p * h5 - B * e2
  have e5 : (q' : ℤ) = qm1 + b * (p - p') := by
    apply mul_left_cancel₀ hq.ne'
    linear_combination e3 - e2 - (p - p') * e1
  have e6 : b * A + A' = p' * (b * B + B') + q' * B := by
    have : (p' : ℤ) = b * q - p := by linarith
    rw [e5, e4, h5, this]; ring
  have hb0 : (0 : ℤ) ≤ b := by positivity
  have hb2 : (b : ℤ) ≤ 2 * rd := by exact_mod_cast hble
  have hbpos : (1 : ℤ) ≤ b := by
    have : 0 < b := by
      rcases Nat.eq_zero_or_pos b with h | h
      · subst h; have := hi'.ppos; omega
      · exact h
    exact_mod_cast this
  have hrd0 : (0 : ℤ) ≤ rd := by positivity
  refine ⟨b * A + A', b * B + B', A, B, by positivity, by positivity, h1, h2.le, e6, ?_, ?_, ?_, ?_⟩
  · -- multiply by q
    have e7 : (D : ℤ) * B' = qm1 * A - p * A' := by
      apply mul_left_cancel₀ hq.ne'
      linear_combination (-(q : ℤ) * B') * e2 + (q : ℤ) * p * e4 - (q : ℤ) * qm1 * h5
    have : (p' : ℤ) = b * q - p := by linarith
    rw [e5, this]
    linear_combination b * h6 + e7
  · rw [pow_succ, ← h7]; ring
  · have hT : (0 : ℤ) ≤ A + B * (rd + 1) := by positivity
    have hT' : (0 : ℤ) ≤ A' + B' * (rd + 1) := by positivity
    have := mul_nonneg (show (0 : ℤ) ≤ b - 1 by linarith) hT
    linarith
  · have e8 : b * A + A' + (b * B + B') * (rd + 1) ≤ (b + 1) * (A + B * (rd + 1)) := by nlinarith
    have e9 : (0 : ℤ) ≤ A + B * (rd + 1) := by positivity
    calc b * A + A' + (b * B + B') * (rd + 1) ≤ (b + 1) * (A + B * (rd + 1)) := e8
      _ ≤ (2 * rd + 2) * (2 * rd + 2) ^ (j + 1) := by
        apply mul_le_mul (by linarith) h9 e9 (by linarith)
      _ = (2 * rd + 2) ^ (j + 1 + 1) := by rw [pow_succ _ (j + 1)]; ring

theorem squfofForward_returns {bld : Build} {w : Width} {fuel n D rd maxIter : ℕ} (hrd : rd * rd < D)
    (hrd2 : D < (rd + 1) * (rd + 1)) (hw : fits w D = true) (hw2 : fits w (rd + rd) = true)
    (hf : (2 * rd + 2) ^ maxIter ≤ 2 ^ fuel) : ∀ (f i p q qm1 : ℕ), SqInv D rd p q qm1 → FwInv D rd p q (i - 1) → 1 ≤ i →
      i + f ≤ maxIter → ∃ r, squfofForward bld w fuel n D rd maxIter f i p q qm1 = .ok r := by
  intro f
  induction f with
  | zero => intro i p q qm1 _ _ _ _; exact ⟨_, rfl⟩
  | succ f ih =>
    intro i p q qm1 h hfw hi1 hi2
    obtain ⟨p', q', h1, h2, h3, -⟩ := squfofRho_step hrd hrd2 h hw hw2
    have hfw' := hfw.step h h2 h3
    rw [show i - 1 + 1 = i by omega] at hfw'
    have hrec : ∃ r, squfofForward bld w fuel n D rd maxIter f (i + 1) p' q' q = .ok r :=
      ih (i + 1) p' q' q h2 (by rw [show i + 1 - 1 = i by omega]; exact hfw') (by omega) (by omega)
    simp only [squfofForward, h1, Res.bind_ok]
    have hqf : fits w q' = true := fits_mono (by have := h2.qle; have := h2.ple; omega) hw2
    have hsq := sqrtExact_spec bld w h2.qpos hqf
    obtain ⟨o, ho, hroot⟩ : ∃ o, (if i % 2 = 1 then sqrtExact bld w q' else .ok none : Res (Option ℕ)) = .ok o ∧
        ∀ rq, o = some rq → rq ^ 2 = q' ∧ i % 2 = 1 := by
      by_cases hi : i % 2 = 1
      · obtain ⟨o, ho1, ho2⟩ := hsq
        exact ⟨o, by simp [hi, ho1], fun rq hrq => by subst hrq; exact ⟨(ho2 rq).mp rfl, hi⟩⟩
      · exact ⟨none, by simp [hi], by simp⟩
    rw [ho, Res.bind_ok]
    cases o with
    | none => exact hrec
    | some rq =>
      obtain ⟨hr, hodd⟩ := hroot rq rfl
      have hinv := h2.root hrd hrd2 hr
      have hrq : 0 < rq := hinv.mpos
      simp only [csub_ok h2.ple, Res.bind_ok, cdiv_ok hrq.ne']
      have hple := h2.ple
      have hb2 : rd - p' < (rd - p') / rq * rq + rq := by
        have := Nat.lt_div_mul_add (a := rd - p') hrq
        linarith
      generalize hb : (rd - p') / rq = b at *
      generalize hu : b * rq + p' = u at hinv
      have hule := hinv.ple
      have huu : u * u ≤ D := by have := Nat.mul_le_mul hule hule; omega
      rw [cmul_ok (fits_mono (show b * rq ≤ rd + rd by omega) hw2), Res.bind_ok,
        cadd_ok (by rw [hu]; exact fits_mono (by omega) hw2), Res.bind_ok, hu, cmul_ok (fits_mono huu hw), Res.bind_ok,
        csub_ok huu, Res.bind_ok]
      have hback : ∃ u', squfofBack w rd fuel u ((D - u * u) / rq) rq = .ok u' := by
        obtain ⟨A, B, A', B', g1, g2, g3, g4, g5, g6, g7, g8, g9⟩ := hfw'
        have hs : (-1 : ℤ) ^ (i + 1) = 1 := Even.neg_one_pow (by rw [Nat.even_iff]; omega)
        rw [hs] at g7
        generalize (D - u * u) / rq = v at *
        have hqz : (q' : ℤ) = rq * rq := by rw [← hr]; push_cast; ring
        have huz : (u : ℤ) = b * rq + p' := by rw [← hu]; push_cast; ring
        have hdz : (v : ℤ) * rq + u * u = D := by exact_mod_cast hinv.disc
        rw [hqz] at g5 g6
        have hrz : (0 : ℤ) < rq := by exact_mod_cast hrq
        have hA : A = u * B + rq * (rq * B' - b * B) := by rw [g5, huz]; ring
        have hnorm : A * A - D * (B * B) = rq * rq := by
          linear_combination A * g5 - B * g6 + (rq * rq : ℤ) * g7
        generalize ht : (rq : ℤ) * B' - b * B = t at *
        have hBw : B * (B * v - 2 * u * t) = rq * (t * t - 1) := by
          apply mul_left_cancel₀ hrz.ne'
          rw [hA] at hnorm
          linear_combination (-1 : ℤ) * hnorm + B * B * hdz
        have hcop : IsCoprime (rq : ℤ) B := ⟨rq * B' * B', p' * B' - A', by linear_combination g7 - B' * g5⟩
        obtain ⟨c, hc⟩ : (rq : ℤ) ∣ B * v - 2 * u * t := hcop.dvd_of_dvd_mul_left ⟨_, hBw⟩
        have hle : rq ≤ rd := by
          by_contra hgt
          have h1 : (rd + 1) * (rd + 1) ≤ rq * rq := Nat.mul_le_mul (by omega) (by omega)
          have h2 : rq * rq ≤ rd + p' := by rw [← sq, hr]; exact h2.qle
          nlinarith
        refine squfofBack_returns hrd hrd2 hw hw2 hinv (by omega) hle g1 g2 hA hnorm hc.symm fuel (g9.trans ?_)
        have : ((2 * rd + 2) ^ (i + 1) : ℕ) ≤ 2 ^ fuel :=
          (Nat.pow_le_pow_right (by omega) (by omega)).trans hf
        exact_mod_cast this
      obtain ⟨u', hu'⟩ := hback
      rw [hu', Res.bind_ok]
      split
      · exact ⟨_, rfl⟩
      · exact hrec

theorem squfof_returns {bld : Build} {w : Width} {fuel n D maxIter : ℕ} (hn : 0 < n) (hdvd : n ∣ D)
    (hw : fits w D = true) (hw2 : fits w (isqrt D + isqrt D) = true) (hf : (2 * isqrt D + 2) ^ maxIter ≤ 2 ^ fuel) :
    ∃ r, squfof bld w fuel n D maxIter = .ok r := by
  obtain ⟨h1, h2⟩ := isqrt_spec D
  have hc : ¬ (n = 0 ∨ D % n ≠ 0) := by
    have := Nat.mod_eq_zero_of_dvd hdvd
    omega
  simp only [squfof, hc, if_false]
  generalize hrd : isqrt D = rd at *
  rw [cmul_ok (fits_mono h1 hw), Res.bind_ok, csub_ok h1, Res.bind_ok]
  by_cases hq : D - rd * rd = 0
  · rw [if_pos hq]; exact ⟨_, rfl⟩
  · rw [if_neg hq]
    have hlt : rd * rd < D := by omega
    have hpos : 0 < rd := by
      rcases Nat.eq_zero_or_pos rd with h0 | h0
      · subst h0; omega
      · exact h0
    have hinv : SqInv D rd rd (D - rd * rd) 1 := by
      refine ⟨hpos, le_rfl, by omega, ?_, one_pos, by omega⟩
      have : (rd + 1) * (rd + 1) = rd * rd + rd + rd + 1 := by ring
      omega
    rcases Nat.eq_zero_or_pos maxIter with h0 | h0
    · subst h0; exact ⟨_, rfl⟩
    · exact squfofForward_returns hlt h2 hw hw2 hf (maxIter - 1) 1 rd (D - rd * rd) 1 hinv (FwInv.init hlt) le_rfl (by omega)

end NumPrime
