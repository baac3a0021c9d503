import Mathlib.Analysis.SpecialFunctions.Log.Deriv
import Mathlib.Tactic.Positivity
import Mathlib.Tactic.Linarith
import Mathlib.Tactic.FieldSimp
import Mathlib.Tactic.NormNum

/-! # Fixed-point bounds of the logarithm

`lnLo n ≤ fixS * log n ≤ lnHi n`, computed with natural numbers only (series of the inverse hyperbolic tangent). -/

namespace NumPrime
open Finset

/-- the scale of the fixed-point numbers, `3^40` (an odd number, because multiples of `fixS` collide in the hash tables of the
kernel) -/
def fixS : ℕ := 12157665459056928801

/-- lower bound of `fixS * ∑ j < k, (a2/b2)^j / (2*(i+j)+1)` -/
def hornerLo (a2 b2 : ℕ) : ℕ → ℕ → ℕ
  | 0, _ => 0
  | k + 1, i => Nat.add (Nat.div fixS (Nat.succ (Nat.mul 2 i))) (Nat.div (Nat.mul (hornerLo a2 b2 k (Nat.succ i)) a2) b2)

/-- upper bound of `fixS * (∑ j < k, (a2/b2)^j / (2*(i+j)+1) + 2*(a2/b2)^k)` -/
def hornerHi (a2 b2 : ℕ) : ℕ → ℕ → ℕ
  | 0, _ => 2 * fixS
  | k + 1, i =>
    Nat.add (Nat.add (Nat.div fixS (Nat.succ (Nat.mul 2 i))) (Nat.div (Nat.mul (hornerHi a2 b2 k (Nat.succ i)) a2) b2)) 2

theorem hornerLo_succ (a2 b2 k i : ℕ) :
    hornerLo a2 b2 (k + 1) i = fixS / (2 * i + 1) + hornerLo a2 b2 k (i + 1) * a2 / b2 := rfl

theorem hornerHi_succ (a2 b2 k i : ℕ) :
    hornerHi a2 b2 (k + 1) i = fixS / (2 * i + 1) + hornerHi a2 b2 k (i + 1) * a2 / b2 + 2 := rfl

theorem hornerLo_le (a2 b2 : ℕ) (k i : ℕ) :
    (hornerLo a2 b2 k i : ℝ) ≤ fixS * ∑ j ∈ range k, ((a2 : ℝ) / b2) ^ j / (2 * ((i + j : ℕ) : ℝ) + 1) := by
  induction k generalizing i with
  | zero => simp [hornerLo]
  | succ k ih =>
    rw [sum_range_succ', hornerLo_succ, Nat.cast_add]
    have h1 : ((fixS / (2 * i + 1) : ℕ) : ℝ) ≤ fixS / (2 * (i : ℝ) + 1) := by
      have := @Nat.cast_div_le ℝ _ _ _ fixS (2 * i + 1)
      push_cast at this
      exact this
    have h2 : ((hornerLo a2 b2 k (i + 1) * a2 / b2 : ℕ) : ℝ) ≤
        fixS * ∑ j ∈ range k, ((a2 : ℝ) / b2) ^ (j + 1) / (2 * ((i + (j + 1) : ℕ) : ℝ) + 1) := by
      have h := @Nat.cast_div_le ℝ _ _ _ (hornerLo a2 b2 k (i + 1) * a2) b2
      refine h.trans ?_
      rw [Nat.cast_mul, mul_div_assoc]
      refine (mul_le_mul_of_nonneg_right (ih (i + 1)) (by positivity)).trans (le_of_eq ?_)
      rw [mul_assoc, sum_mul]
      congr 1
      refine sum_congr rfl fun j _ => ?_
      rw [pow_succ]
      have : ((i + 1 + j : ℕ) : ℝ) = ((i + (j + 1) : ℕ) : ℝ) := by push_cast; ring
      rw [this]
      ring
    rw [mul_add]
    simp only [pow_zero, add_zero]
    rw [mul_one_div]
    linarith

theorem le_hornerHi (a2 b2 : ℕ) (k i : ℕ) :
    fixS * (∑ j ∈ range k, ((a2 : ℝ) / b2) ^ j / (2 * ((i + j : ℕ) : ℝ) + 1) + 2 * ((a2 : ℝ) / b2) ^ k) ≤
      (hornerHi a2 b2 k i : ℝ) := by
  induction k generalizing i with
  | zero => simp [hornerHi]; linarith
  | succ k ih =>
    have hdiv : ∀ x y : ℕ, ((x : ℝ) / y) ≤ ((x / y : ℕ) : ℝ) + 1 := by
      intro x y
      rcases Nat.eq_zero_or_pos y with rfl | hy
      · simp
      rw [div_le_iff₀ (by exact_mod_cast hy)]
      have h : x ≤ (x / y + 1) * y := by
        have := Nat.div_add_mod x y
        have := Nat.mod_lt x hy
        nlinarith
      exact_mod_cast h
    rw [sum_range_succ', hornerHi_succ]
    have h1 : (fixS : ℝ) / (2 * (i : ℝ) + 1) ≤ ((fixS / (2 * i + 1) : ℕ) : ℝ) + 1 := by
      have := hdiv fixS (2 * i + 1)
      push_cast at this ⊢
      exact this
    have h2 : fixS * (∑ j ∈ range k, ((a2 : ℝ) / b2) ^ (j + 1) / (2 * ((i + (j + 1) : ℕ) : ℝ) + 1) +
        2 * ((a2 : ℝ) / b2) ^ (k + 1)) ≤ ((hornerHi a2 b2 k (i + 1) * a2 / b2 : ℕ) : ℝ) + 1 := by
      refine le_trans ?_ (hdiv _ _)
      rw [Nat.cast_mul, mul_div_assoc]
      refine le_trans (le_of_eq ?_) (mul_le_mul_of_nonneg_right (ih (i + 1)) (by positivity))
      rw [mul_assoc, add_mul, sum_mul]
      congr 1
      congr 1
      · refine sum_congr rfl fun j _ => ?_
        rw [pow_succ]
        have : ((i + 1 + j : ℕ) : ℝ) = ((i + (j + 1) : ℕ) : ℝ) := by push_cast; ring
        rw [this]
        ring
      · rw [pow_succ]; ring
    have h4 : ((fixS / (2 * i + 1) + hornerHi a2 b2 k (i + 1) * a2 / b2 + 2 : ℕ) : ℝ) =
        ((fixS / (2 * i + 1) : ℕ) : ℝ) + ((hornerHi a2 b2 k (i + 1) * a2 / b2 : ℕ) : ℝ) + 2 := by
      rw [Nat.cast_add, Nat.cast_add]; norm_num
    rw [h4]
    simp only [pow_zero, add_zero]
    have h3 : (fixS : ℝ) * (∑ j ∈ range k, ((a2 : ℝ) / b2) ^ (j + 1) / (2 * ((i + (j + 1) : ℕ) : ℝ) + 1) +
        1 / (2 * (i : ℝ) + 1) + 2 * ((a2 : ℝ) / b2) ^ (k + 1)) = fixS / (2 * (i : ℝ) + 1) +
        fixS * (∑ j ∈ range k, ((a2 : ℝ) / b2) ^ (j + 1) / (2 * ((i + (j + 1) : ℕ) : ℝ) + 1) +
        2 * ((a2 : ℝ) / b2) ^ (k + 1)) := by ring
    rw [h3]
    linarith

/-- evaluates `x` before going on -/
@[inline] def forceN {α : Type} (x : ℕ) (k : ℕ → α) : α :=
  match x with
  | 0 => k 0
  | n + 1 => k (n + 1)

theorem forceN_eq {α : Type} (x : ℕ) (k : ℕ → α) : forceN x k = k x := by
  unfold forceN
  split <;> rfl

/-- lower bound of `fixS * log (n / m)` for `m ≤ n` -/
def mantLo (t n m : ℕ) : ℕ :=
  forceN (Nat.sub n m) fun d => forceN (Nat.add n m) fun e => forceN (Nat.mul d d) fun a => forceN (Nat.mul e e) fun b =>
    Nat.div (Nat.mul (Nat.mul 2 d) (hornerLo a b t 0)) e

/-- upper bound of `fixS * log (n / m)` for `m ≤ n ≤ 2m` -/
def mantHi (t n m : ℕ) : ℕ :=
  forceN (Nat.sub n m) fun d => forceN (Nat.add n m) fun e => forceN (Nat.mul d d) fun a => forceN (Nat.mul e e) fun b =>
    Nat.succ (Nat.div (Nat.mul (Nat.mul 2 d) (hornerHi a b t 0)) e)

theorem mantLo_def (t n m : ℕ) : mantLo t n m = 2 * (n - m) * hornerLo ((n - m) ^ 2) ((n + m) ^ 2) t 0 / (n + m) := by
  simp only [mantLo, forceN_eq, sq]
  rfl

theorem mantHi_def (t n m : ℕ) : mantHi t n m = 2 * (n - m) * hornerHi ((n - m) ^ 2) ((n + m) ^ 2) t 0 / (n + m) + 1 := by
  simp only [mantHi, forceN_eq, sq]
  rfl

theorem log_ratio {n m : ℕ} (hm : 0 < m) (hmn : m ≤ n) :
    Real.log ((n : ℝ) / m) = Real.log ((1 + ((n - m : ℕ) : ℝ) / ((n + m : ℕ) : ℝ)) /
      (1 - ((n - m : ℕ) : ℝ) / ((n + m : ℕ) : ℝ))) := by
  congr 1
  have h1 : (0 : ℝ) < m := by exact_mod_cast hm
  have h2 : (0 : ℝ) < n := by exact_mod_cast lt_of_lt_of_le hm hmn
  rw [Nat.cast_sub hmn, Nat.cast_add]
  have h3 : (n : ℝ) + m ≠ 0 := by positivity
  have h4 : 1 + ((n : ℝ) - m) / (n + m) = 2 * n / (n + m) := by field_simp; ring
  have h5 : 1 - ((n : ℝ) - m) / (n + m) = 2 * m / (n + m) := by field_simp; ring
  rw [h4, h5]
  field_simp

theorem mantLo_le (t : ℕ) {n m : ℕ} (hm : 0 < m) (hmn : m ≤ n) : (mantLo t n m : ℝ) ≤ fixS * Real.log ((n : ℝ) / m) := by
  have h1 : (0 : ℝ) < m := by exact_mod_cast hm
  set y : ℝ := ((n - m : ℕ) : ℝ) / ((n + m : ℕ) : ℝ) with hy
  have hb : (0 : ℝ) < ((n + m : ℕ) : ℝ) := by exact_mod_cast (by omega : 0 < n + m)
  have hy0 : 0 ≤ y := by positivity
  have hy1 : y < 1 := by
    rw [hy, div_lt_one hb]
    exact_mod_cast (by omega : n - m < n + m)
  have hs := Real.sum_range_le_log_div hy0 hy1 t
  rw [log_ratio hm hmn, ← hy]
  have hh := hornerLo_le ((n - m) ^ 2) ((n + m) ^ 2) t 0
  have hd : ((mantLo t n m : ℕ) : ℝ) ≤ 2 * y * hornerLo ((n - m) ^ 2) ((n + m) ^ 2) t 0 := by
    have := @Nat.cast_div_le ℝ _ _ _ (2 * (n - m) * hornerLo ((n - m) ^ 2) ((n + m) ^ 2) t 0) (n + m)
    rw [mantLo_def]
    refine this.trans (le_of_eq ?_)
    rw [hy]
    push_cast
    ring
  have he : ∀ j : ℕ, (((((n - m) ^ 2 : ℕ) : ℝ)) / (((n + m) ^ 2 : ℕ) : ℝ)) ^ j = y ^ (2 * j) := by
    intro j
    rw [hy, pow_mul, Nat.cast_pow, Nat.cast_pow, ← div_pow]
  have hsum : y * ∑ j ∈ range t, (((((n - m) ^ 2 : ℕ) : ℝ)) / (((n + m) ^ 2 : ℕ) : ℝ)) ^ j / (2 * ((0 + j : ℕ) : ℝ) + 1) =
      ∑ i ∈ range t, y ^ (2 * i + 1) / (2 * i + 1) := by
    rw [mul_sum]
    refine sum_congr rfl fun j _ => ?_
    rw [he, pow_succ, zero_add]
    ring
  have hS : (0 : ℝ) ≤ fixS := by positivity
  calc (mantLo t n m : ℝ) ≤ 2 * y * hornerLo ((n - m) ^ 2) ((n + m) ^ 2) t 0 := hd
    _ ≤ 2 * y * (fixS * ∑ j ∈ range t, (((((n - m) ^ 2 : ℕ) : ℝ)) / (((n + m) ^ 2 : ℕ) : ℝ)) ^ j /
        (2 * ((0 + j : ℕ) : ℝ) + 1)) := mul_le_mul_of_nonneg_left hh (by positivity)
    _ = 2 * fixS * ∑ i ∈ range t, y ^ (2 * i + 1) / (2 * i + 1) := by rw [← hsum]; ring
    _ ≤ 2 * fixS * (1 / 2 * Real.log ((1 + y) / (1 - y))) := mul_le_mul_of_nonneg_left hs (by positivity)
    _ = fixS * Real.log ((1 + y) / (1 - y)) := by ring

theorem le_mantHi (t : ℕ) {n m : ℕ} (hm : 0 < m) (hmn : m ≤ n) (hn : n ≤ 2 * m) :
    fixS * Real.log ((n : ℝ) / m) ≤ (mantHi t n m : ℝ) := by
  have h1 : (0 : ℝ) < m := by exact_mod_cast hm
  set y : ℝ := ((n - m : ℕ) : ℝ) / ((n + m : ℕ) : ℝ) with hy
  have hb : (0 : ℝ) < ((n + m : ℕ) : ℝ) := by exact_mod_cast (by omega : 0 < n + m)
  have hy0 : 0 ≤ y := by positivity
  have hy3 : y ≤ 1 / 3 := by
    rw [hy, div_le_iff₀ hb]
    have : 3 * (n - m) ≤ n + m := by omega
    have h : (3 : ℝ) * ((n - m : ℕ) : ℝ) ≤ ((n + m : ℕ) : ℝ) := by exact_mod_cast this
    linarith
  have hy1 : y < 1 := by linarith
  have hs := Real.log_div_le_sum_range_add hy0 hy1 t
  rw [log_ratio hm hmn, ← hy]
  have hh := le_hornerHi ((n - m) ^ 2) ((n + m) ^ 2) t 0
  have hd : 2 * y * hornerHi ((n - m) ^ 2) ((n + m) ^ 2) t 0 ≤ ((mantHi t n m : ℕ) : ℝ) := by
    have h : ((2 * (n - m) * hornerHi ((n - m) ^ 2) ((n + m) ^ 2) t 0 : ℕ) : ℝ) / ((n + m : ℕ) : ℝ) ≤
        ((mantHi t n m : ℕ) : ℝ) := by
      rw [div_le_iff₀ hb]
      have h' : 2 * (n - m) * hornerHi ((n - m) ^ 2) ((n + m) ^ 2) t 0 ≤ mantHi t n m * (n + m) := by
        rw [mantHi_def]
        generalize 2 * (n - m) * hornerHi ((n - m) ^ 2) ((n + m) ^ 2) t 0 = X
        have h1 := Nat.div_add_mod X (n + m)
        have h2 := Nat.mod_lt X (show 0 < n + m by omega)
        nlinarith
      exact_mod_cast h'
    refine le_trans (le_of_eq ?_) h
    rw [hy]
    push_cast
    ring
  have he : ∀ j : ℕ, (((((n - m) ^ 2 : ℕ) : ℝ)) / (((n + m) ^ 2 : ℕ) : ℝ)) ^ j = y ^ (2 * j) := by
    intro j
    rw [hy, pow_mul, Nat.cast_pow, Nat.cast_pow, ← div_pow]
  have hsum : y * ∑ j ∈ range t, (((((n - m) ^ 2 : ℕ) : ℝ)) / (((n + m) ^ 2 : ℕ) : ℝ)) ^ j / (2 * ((0 + j : ℕ) : ℝ) + 1) =
      ∑ i ∈ range t, y ^ (2 * i + 1) / (2 * i + 1) := by
    rw [mul_sum]
    refine sum_congr rfl fun j _ => ?_
    rw [he, pow_succ, zero_add]
    ring
  have hrem : y ^ (2 * t + 1) / (1 - y ^ 2) ≤ 2 * y ^ (2 * t) * y := by
    have : (1 : ℝ) / 2 ≤ 1 - y ^ 2 := by nlinarith
    rw [div_le_iff₀ (by linarith), pow_succ]
    have hp : 0 ≤ y ^ (2 * t) * y := by positivity
    nlinarith
  have hS : (0 : ℝ) ≤ fixS := by positivity
  calc fixS * Real.log ((1 + y) / (1 - y)) = 2 * fixS * (1 / 2 * Real.log ((1 + y) / (1 - y))) := by ring
    _ ≤ 2 * fixS * (∑ i ∈ range t, y ^ (2 * i + 1) / (2 * i + 1) + y ^ (2 * t + 1) / (1 - y ^ 2)) :=
        mul_le_mul_of_nonneg_left hs (by positivity)
    _ ≤ 2 * fixS * (∑ i ∈ range t, y ^ (2 * i + 1) / (2 * i + 1) + 2 * y ^ (2 * t) * y) := by
        gcongr
    _ = 2 * y * (fixS * (∑ j ∈ range t, (((((n - m) ^ 2 : ℕ) : ℝ)) / (((n + m) ^ 2 : ℕ) : ℝ)) ^ j /
        (2 * ((0 + j : ℕ) : ℝ) + 1) + 2 * (((((n - m) ^ 2 : ℕ) : ℝ)) / (((n + m) ^ 2 : ℕ) : ℝ)) ^ t)) := by
        rw [he t, ← hsum]; ring
    _ ≤ 2 * y * hornerHi ((n - m) ^ 2) ((n + m) ^ 2) t 0 := mul_le_mul_of_nonneg_left hh (by positivity)
    _ ≤ mantHi t n m := hd

/-- `fixS * log 2`, rounded down and up -/
def ln2Lo : ℕ := 8427051535136320000
def ln2Hi : ℕ := 8427051535137040000

theorem ln2Lo_le : (ln2Lo : ℝ) ≤ fixS * Real.log 2 := by
  have h := mantLo_le 14 (n := 2) (m := 1) (by norm_num) (by norm_num)
  have h2 : ln2Lo ≤ mantLo 14 2 1 := by decide +kernel
  have h3 : (ln2Lo : ℝ) ≤ (mantLo 14 2 1 : ℕ) := by exact_mod_cast h2
  simpa using h3.trans h

theorem le_ln2Hi : fixS * Real.log 2 ≤ (ln2Hi : ℝ) := by
  have h := le_mantHi 14 (n := 2) (m := 1) (by norm_num) (by norm_num) (by norm_num)
  have h2 : mantHi 14 2 1 ≤ ln2Hi := by decide +kernel
  have h3 : ((mantHi 14 2 1 : ℕ) : ℝ) ≤ (ln2Hi : ℝ) := by exact_mod_cast h2
  simpa using h.trans h3

/-- lower bound of `fixS * log n` -/
def lnLo (n : ℕ) : ℕ := Nat.add (Nat.mul n.log2 ln2Lo) (mantLo 14 n (Nat.pow 2 n.log2))

/-- upper bound of `fixS * log n` -/
def lnHi (n : ℕ) : ℕ := Nat.add (Nat.mul n.log2 ln2Hi) (mantHi 14 n (Nat.pow 2 n.log2))

theorem log_split {n : ℕ} (e : ℕ) (hn : 0 < n) : Real.log n = e * Real.log 2 + Real.log ((n : ℝ) / (2 ^ e : ℕ)) := by
  have h1 : (n : ℝ) ≠ 0 := by exact_mod_cast hn.ne'
  have h2 : ((2 ^ e : ℕ) : ℝ) ≠ 0 := by positivity
  rw [Real.log_div h1 h2]
  push_cast
  rw [Real.log_pow]
  ring

theorem lnLo_def (n : ℕ) : lnLo n = n.log2 * ln2Lo + mantLo 14 n (2 ^ n.log2) := rfl
theorem lnHi_def (n : ℕ) : lnHi n = n.log2 * ln2Hi + mantHi 14 n (2 ^ n.log2) := rfl

theorem lnLo_le {n : ℕ} (hn : 0 < n) : (lnLo n : ℝ) ≤ fixS * Real.log n := by
  rw [log_split n.log2 hn, lnLo_def]
  have h1 := mantLo_le 14 (n := n) (m := 2 ^ n.log2) (by positivity) (Nat.log2_self_le hn.ne')
  have h2 := ln2Lo_le
  have h3 : ((n.log2 : ℕ) : ℝ) * ln2Lo ≤ n.log2 * (fixS * Real.log 2) :=
    mul_le_mul_of_nonneg_left h2 (by positivity)
  push_cast at h1 ⊢
  linarith

theorem le_lnHi {n : ℕ} (hn : 0 < n) : fixS * Real.log n ≤ (lnHi n : ℝ) := by
  rw [log_split n.log2 hn, lnHi_def]
  have hlt : n ≤ 2 * 2 ^ n.log2 := by
    have := Nat.lt_log2_self (n := n)
    rw [pow_succ] at this
    omega
  have h1 := le_mantHi 14 (n := n) (m := 2 ^ n.log2) (by positivity) (Nat.log2_self_le hn.ne') hlt
  have h2 := le_ln2Hi
  have h3 : ((n.log2 : ℕ) : ℝ) * (fixS * Real.log 2) ≤ n.log2 * ln2Hi :=
    mul_le_mul_of_nonneg_left h2 (by positivity)
  push_cast at h1 ⊢
  linarith

/-- bounds of `fixS * log fixS` -/
def lnSLo : ℕ := 534262426993428800000
def lnSHi : ℕ := 534262426993480000000

theorem lnSLo_le : (lnSLo : ℝ) ≤ fixS * Real.log fixS := by
  have h2 : lnSLo ≤ lnLo fixS := by decide +kernel
  have h3 : (lnSLo : ℝ) ≤ (lnLo fixS : ℕ) := by exact_mod_cast h2
  exact h3.trans (lnLo_le (by decide +kernel))

theorem le_lnSHi : fixS * Real.log fixS ≤ (lnSHi : ℝ) := by
  have h2 : lnHi fixS ≤ lnSHi := by decide +kernel
  have h3 : ((lnHi fixS : ℕ) : ℝ) ≤ (lnSHi : ℝ) := by exact_mod_cast h2
  exact (le_lnHi (by decide +kernel)).trans h3

end NumPrime
