import Mathlib.Tactic.Linarith
import Mathlib.Tactic.Ring
import Mathlib.Tactic.FieldSimp
import Mathlib.Data.Real.Basic
import Mathlib.Data.Real.Archimedean
import Mathlib.Algebra.Order.Archimedean.Basic
import Mathlib.Algebra.Ring.Parity

/-! The chain of minima of a lattice in the plane, and a symmetry that reverses it. Used for the termination of the backward loop
of SQUFOF: `X n` and `Y n` are the absolute values of an element of a quadratic lattice and of its conjugate. -/

namespace NumPrime.Minima

/-- a chain of points `(X n, ± Y n)` in which each point is the last but one minus a multiple of the last -/
structure Chain (X Y : ℕ → ℝ) (b : ℕ → ℤ) : Prop where
  xpos : ∀ n, 0 < X n
  ypos : ∀ n, 0 < Y n
  bpos : ∀ n, 1 ≤ b n
  xrec : ∀ n, X (n + 2) = X n - b n * X (n + 1)
  yrec : ∀ n, Y (n + 2) = Y n + b n * Y (n + 1)
  xlt : ∀ n, X (n + 1) < X n
  ylt : Y 0 < Y 1

/-- the lattice generated by the first two points -/
def InL (X Y : ℕ → ℝ) (a a' : ℝ) : Prop := ∃ x y : ℤ, a = x * X 0 + y * X 1 ∧ a' = x * Y 0 - y * Y 1

variable {X Y : ℕ → ℝ} {b : ℕ → ℤ}

theorem Chain.ylt_succ (h : Chain X Y b) (n : ℕ) : Y n < Y (n + 1) := by
  cases n with
  | zero => exact h.ylt
  | succ n =>
    have h1 := h.yrec n
    have h2 : (1 : ℝ) ≤ b n := by exact_mod_cast h.bpos n
    have h3 := h.ypos n
    have h4 := h.ypos (n + 1)
    show Y (n + 1) < Y (n + 2)
    nlinarith

theorem Chain.ymono (h : Chain X Y b) : StrictMono Y := strictMono_nat_of_lt_succ h.ylt_succ
theorem Chain.xanti (h : Chain X Y b) : StrictAnti X := strictAnti_nat_of_succ_lt h.xlt

theorem Chain.half (h : Chain X Y b) (n : ℕ) : X (n + 2) ≤ X n / 2 := by
  have h1 := h.xrec n
  have h2 : (1 : ℝ) ≤ b n := by exact_mod_cast h.bpos n
  have h3 := h.xpos (n + 1)
  have h4 : X (n + 2) < X (n + 1) := h.xlt (n + 1)
  nlinarith

theorem Chain.half_pow (h : Chain X Y b) (n : ℕ) : X (2 * n) ≤ X 0 / 2 ^ n := by
  induction n with
  | zero => simp
  | succ n ih =>
    have := h.half (2 * n)
    rw [show 2 * (n + 1) = 2 * n + 2 by ring, pow_succ]
    calc X (2 * n + 2) ≤ X (2 * n) / 2 := this
      _ ≤ (X 0 / 2 ^ n) / 2 := by linarith
      _ = X 0 / (2 ^ n * 2) := by rw [div_div]

theorem Chain.exists_lt (h : Chain X Y b) {e : ℝ} (he : 0 < e) : ∃ n, X n < e := by
  obtain ⟨n, hn⟩ := pow_unbounded_of_one_lt (X 0 / e) (one_lt_two)
  refine ⟨2 * n, lt_of_le_of_lt (h.half_pow n) ?_⟩
  rw [div_lt_iff₀ he] at hn
  rw [div_lt_iff₀ (by positivity)]
  linarith

theorem Chain.bracket (h : Chain X Y b) {e : ℝ} (he : 0 < e) (h0 : e ≤ X 0) : ∃ n, X (n + 1) < e ∧ e ≤ X n := by
  classical
  have hex := h.exists_lt he
  have hf := Nat.find_spec hex
  cases hn : Nat.find hex with
  | zero => rw [hn] at hf; linarith
  | succ n =>
    refine ⟨n, by rw [hn] at hf; exact hf, ?_⟩
    have := Nat.find_min hex (show n < Nat.find hex by omega)
    exact not_lt.mp this

/-- every point of the lattice in terms of two consecutive points of the chain -/
theorem Chain.basis (h : Chain X Y b) {a a' : ℝ} (hL : InL X Y a a') (n : ℕ) :
    ∃ i j : ℤ, a = i * X n + j * X (n + 1) ∧ a' = (-1) ^ n * (i * Y n - j * Y (n + 1)) := by
  induction n with
  | zero =>
    obtain ⟨x, y, h1, h2⟩ := hL
    exact ⟨x, y, h1, by rw [h2]; ring⟩
  | succ n ih =>
    obtain ⟨i, j, h1, h2⟩ := ih
    refine ⟨i * b n + j, i, ?_, ?_⟩
    · rw [h1, show n + 1 + 1 = n + 2 from rfl, h.xrec]; push_cast; ring
    · rw [h2, show n + 1 + 1 = n + 2 from rfl, h.yrec, pow_succ]; push_cast; ring

/-- the points of the chain belong to the lattice -/
theorem Chain.mem (h : Chain X Y b) (n : ℕ) : InL X Y (X n) ((-1) ^ n * Y n) ∧
    InL X Y (X (n + 1)) ((-1) ^ (n + 1) * Y (n + 1)) := by
  induction n with
  | zero => exact ⟨⟨1, 0, by simp, by simp⟩, ⟨0, 1, by simp, by simp⟩⟩
  | succ n ih =>
    refine ⟨ih.2, ?_⟩
    obtain ⟨⟨x, y, h1, h2⟩, ⟨x', y', h3, h4⟩⟩ := ih
    refine ⟨x - b n * x', y - b n * y', ?_, ?_⟩
    · rw [show n + 1 + 1 = n + 2 from rfl, h.xrec, h1, h3]; push_cast; ring
    · rw [show n + 1 + 1 = n + 2 from rfl, h.yrec]
      have e : (-1 : ℝ) ^ (n + 2) * (Y n + b n * Y (n + 1)) = (-1) ^ n * Y n - b n * ((-1) ^ (n + 1) * Y (n + 1)) := by ring
      rw [e, h2, h4]; push_cast; ring

/-- no other point of the lattice is smaller in both coordinates -/
def Minimal (X Y : ℕ → ℝ) (a a' : ℝ) : Prop :=
  InL X Y a a' ∧ ∀ e e', InL X Y e e' → |e| < |a| → |e'| < |a'| → e = 0 ∧ e' = 0

theorem abs_same {i j : ℤ} {P Q : ℝ} (hP : 0 < P) (hQ : 0 < Q) (h : 0 ≤ i * j) :
    |(i : ℝ) * P + j * Q| = |(i : ℝ)| * P + |(j : ℝ)| * Q := by
  have h1 : (0 : ℝ) ≤ i * j := by exact_mod_cast h
  have h2 : 0 ≤ (i * P) * (j * Q) := by
    have : (i * P) * (j * Q) = (i * j) * (P * Q) := by ring
    rw [this]; positivity
  rw [(abs_add_eq_add_abs_iff _ _).mpr (mul_nonneg_iff.mp h2), abs_mul, abs_mul, abs_of_pos hP, abs_of_pos hQ]

theorem abs_opp {i j : ℤ} {P Q : ℝ} (hP : 0 < P) (hQ : 0 < Q) (h : i * j ≤ 0) :
    |(i : ℝ) * P - j * Q| = |(i : ℝ)| * P + |(j : ℝ)| * Q := by
  have := abs_same (i := i) (j := -j) hP hQ (by linarith)
  push_cast at this
  rw [abs_neg] at this
  rw [← this]; congr 1; ring

theorem abs_int_cases (i : ℤ) : i = 0 ∨ |(i : ℝ)| = 1 ∨ 2 ≤ |(i : ℝ)| := by
  rcases eq_or_ne i 0 with h | h
  · exact Or.inl h
  · right
    have h1 : 1 ≤ |i| := Int.one_le_abs h
    rcases eq_or_lt_of_le h1 with h2 | h2
    · left; rw [← Int.cast_abs, ← h2]; simp
    · right; rw [← Int.cast_abs]; exact_mod_cast h2

theorem neg_one_abs (n : ℕ) (y : ℝ) : |(-1) ^ n * y| = |y| := by
  rw [abs_mul, abs_pow, abs_neg, abs_one, one_pow, one_mul]

theorem Chain.minimal (h : Chain X Y b) (n : ℕ) : Minimal X Y (X n) ((-1) ^ n * Y n) := by
  refine ⟨(h.mem n).1, fun e e' hL h1 h2 => ?_⟩
  obtain ⟨i, j, rfl, rfl⟩ := h.basis hL n
  have x0 := h.xpos n
  have x1 := h.xpos (n + 1)
  have y0 := h.ypos n
  have y1 := h.ypos (n + 1)
  have y2 := h.ylt_succ n
  rw [neg_one_abs, neg_one_abs, abs_of_pos y0] at h2
  rw [abs_of_pos x0] at h1
  have i0 := abs_nonneg (i : ℝ)
  have j0 := abs_nonneg (j : ℝ)
  rcases le_total 0 (i * j) with hs | hs
  · rw [abs_same x0 x1 hs] at h1
    rcases abs_int_cases i with rfl | hi | hi
    · have h3 := abs_opp (i := 0) (j := j) y0 y1 (by simp)
      rw [h3] at h2
      rcases abs_int_cases j with rfl | hj | hj
      · simp
      · rw [hj] at h2; simp at h2; nlinarith
      · simp at h2; nlinarith
    · rw [hi] at h1; nlinarith
    · nlinarith
  · rw [abs_opp y0 y1 hs] at h2
    rcases abs_int_cases j with rfl | hj | hj
    · rcases abs_int_cases i with rfl | hi | hi
      · simp
      · rw [hi] at h2; simp at h2
      · simp at h2; nlinarith
    · rw [hj] at h2; nlinarith
    · nlinarith

/-- a minimal point with first coordinate at most `X 0` is, up to sign, a point of the chain -/
theorem Chain.cover (h : Chain X Y b) {a a' : ℝ} (hm : Minimal X Y a a') (h0 : a ≠ 0) (hle : |a| ≤ X 0) :
    ∃ n, |a| = X n ∧ |a'| = Y n ∧ a * a' = (-1) ^ n * (X n * Y n) := by
  obtain ⟨n, h1, h2⟩ := h.bracket (abs_pos.mpr h0) hle
  refine ⟨n, ?_⟩
  obtain ⟨i, j, ha, ha'⟩ := h.basis hm.1 n
  have x0 := h.xpos n
  have x1 := h.xpos (n + 1)
  have y0 := h.ypos n
  have y1 := h.ypos (n + 1)
  have y2 := h.ylt_succ n
  have i0 := abs_nonneg (i : ℝ)
  have j0 := abs_nonneg (j : ℝ)
  have hno : ¬ Y (n + 1) < |a'| := by
    intro hlt
    have := hm.2 _ _ (h.mem n).2 (by rw [abs_of_pos x1]; exact h1) (by rw [neg_one_abs, abs_of_pos y1]; exact hlt)
    linarith [this.1]
  have key : j = 0 ∧ |(i : ℝ)| = 1 := by
    rcases le_total 0 (i * j) with hs | hs
    · have e1 : |a| = |(i : ℝ)| * X n + |(j : ℝ)| * X (n + 1) := by rw [ha]; exact abs_same x0 x1 hs
      rcases abs_int_cases i with rfl | hi | hi
      · exfalso
        have e2 : |a'| = |((0 : ℤ) : ℝ)| * Y n + |(j : ℝ)| * Y (n + 1) := by
          rw [ha', neg_one_abs]; exact abs_opp y0 y1 (by simp)
        rcases abs_int_cases j with rfl | hj | hj
        · simp at e1; exact h0 e1
        · rw [hj] at e1; simp at e1; linarith
        · simp at e2; apply hno; nlinarith
      · rcases abs_int_cases j with rfl | hj | hj
        · exact ⟨rfl, hi⟩
        · rw [hi, hj] at e1; linarith
        · rw [hi] at e1; nlinarith
      · nlinarith [abs_nonneg (j : ℝ)]
    · have e2 : |a'| = |(i : ℝ)| * Y n + |(j : ℝ)| * Y (n + 1) := by rw [ha', neg_one_abs]; exact abs_opp y0 y1 hs
      rcases abs_int_cases j with rfl | hj | hj
      · refine ⟨rfl, ?_⟩
        have e1 : |a| = |(i : ℝ)| * X n := by rw [ha]; simp [abs_mul, abs_of_pos x0]
        rcases abs_int_cases i with rfl | hi | hi
        · simp at e1; exact absurd e1 h0
        · exact hi
        · nlinarith
      · exfalso
        rcases abs_int_cases i with rfl | hi | hi
        · have e1 : |a| = |(j : ℝ)| * X (n + 1) := by rw [ha]; simp [abs_mul, abs_of_pos x1]
          rw [hj] at e1; linarith
        · apply hno; rw [e2, hi, hj]; linarith
        · apply hno; rw [e2, hj]; nlinarith
      · exfalso
        apply hno; rw [e2]; nlinarith
  obtain ⟨rfl, hi⟩ := key
  have hii : (i : ℝ) * i = 1 := by rw [← abs_mul_abs_self, hi]; ring
  refine ⟨by rw [ha]; simp [abs_mul, hi, abs_of_pos x0], by rw [ha', neg_one_abs]; simp [abs_mul, hi, abs_of_pos y0], ?_⟩
  rw [ha, ha']
  calc ((i : ℝ) * X n + (0 : ℤ) * X (n + 1)) * ((-1) ^ n * (i * Y n - (0 : ℤ) * Y (n + 1)))
      = (-1) ^ n * ((i * i) * (X n * Y n)) := by push_cast; ring
    _ = _ := by rw [hii, one_mul]

theorem neg_pow_eq {m n : ℕ} {P Q : ℝ} (hP : 0 < P) (hQ : 0 < Q) (h : (-1 : ℝ) ^ m * P = (-1) ^ n * Q) : m % 2 = n % 2 := by
  rcases Nat.even_or_odd m with hm | hm <;> rcases Nat.even_or_odd n with hn | hn
  · rw [Nat.even_iff.mp hm, Nat.even_iff.mp hn]
  · rw [hm.neg_one_pow, hn.neg_one_pow] at h; linarith
  · rw [hm.neg_one_pow, hn.neg_one_pow] at h; linarith
  · rw [Nat.odd_iff.mp hm, Nat.odd_iff.mp hn]

/-- a symmetry of the lattice that exchanges the coordinates up to a factor and maps the first point forward has a fixed point,
next to which the chain is symmetric -/
theorem Chain.symmetric (h : Chain X Y b) {c : ℝ} (hc : 1 < c) (h0 : X 0 = Y 0)
    (hφ : ∀ a a', InL X Y a a' → InL X Y (a' / c) (c * a)) :
    ∃ k, X (2 * (k + 1)) = X 0 / c ∧ Y (k + 2) * X (k + 1) = X k * Y (k + 1) := by
  have hc0 : 0 < c := by linarith
  -- the image of a point of the chain
  have himg : ∀ n, Y n / c ≤ X 0 → ∃ m, Y n / c = X m ∧ c * X n = Y m ∧ m % 2 = n % 2 := by
    intro n hn
    have hmin : Minimal X Y ((-1) ^ n * Y n / c) (c * X n) := by
      refine ⟨hφ _ _ (h.mem n).1, fun e e' hL h1 h2 => ?_⟩
      have h3 := hφ _ _ hL
      rw [abs_div, abs_of_pos hc0, neg_one_abs, abs_of_pos (h.ypos n), lt_div_iff₀ hc0] at h1
      rw [abs_of_pos (mul_pos hc0 (h.xpos n))] at h2
      obtain ⟨h4, h5⟩ := (h.minimal n).2 _ _ h3
        (by rw [abs_div, abs_of_pos hc0, abs_of_pos (h.xpos n), div_lt_iff₀ hc0]; linarith)
        (by rw [abs_mul, abs_of_pos hc0, neg_one_abs, abs_of_pos (h.ypos n)]; linarith)
      constructor
      · rcases mul_eq_zero.mp h5 with h | h
        · linarith
        · exact h
      · rcases div_eq_zero_iff.mp h4 with h | h
        · exact h
        · linarith
    have hy := div_pos (h.ypos n) hc0
    have habs : |(-1) ^ n * Y n / c| = Y n / c := by rw [mul_div_assoc, neg_one_abs, abs_of_pos hy]
    obtain ⟨m, h1, h2, h3⟩ := h.cover hmin (by rw [← abs_pos, habs]; exact hy) (by rw [habs]; exact hn)
    rw [habs] at h1
    rw [abs_of_pos (mul_pos hc0 (h.xpos n))] at h2
    refine ⟨m, h1, h2, ?_⟩
    have h4 : (-1 : ℝ) ^ n * Y n / c * (c * X n) = (-1) ^ n * (X n * Y n) := by field_simp
    rw [h4] at h3
    exact (neg_pow_eq (mul_pos (h.xpos n) (h.ypos n)) (mul_pos (h.xpos m) (h.ypos m)) h3).symm
  -- the image of the first point
  obtain ⟨m, m1, m2, m3⟩ := himg 0 (by
    rw [← h0, div_le_iff₀ hc0]
    have := h.xpos 0
    nlinarith)
  have hm0 : m ≠ 0 := by
    rintro rfl
    rw [← h0, div_eq_iff hc0.ne'] at m1
    have := h.xpos 0
    nlinarith
  have hall : ∀ n, n ≤ m → ∃ s, Y n / c = X s ∧ c * X n = Y s := by
    intro n hn
    obtain ⟨s, s1, s2, -⟩ := himg n (by
      rw [div_le_iff₀ hc0]
      have := h.ymono.monotone hn
      linarith)
    exact ⟨s, s1, s2⟩
  choose! σ σ1 σ2 using hall
  have hanti : ∀ n, n + 1 ≤ m → σ (n + 1) < σ n := by
    intro n hn
    have h1 := σ1 n (by omega)
    have h2 := σ1 (n + 1) hn
    have h3 : Y n / c < Y (n + 1) / c := div_lt_div_of_pos_right (h.ylt_succ n) hc0
    rw [h1, h2] at h3
    exact h.xanti.lt_iff_gt.mp h3
  have hσ0 : σ 0 = m := h.xanti.injective ((σ1 0 (by omega)).symm.trans m1)
  have hup : ∀ n, n ≤ m → σ n + n ≤ m := by
    intro n
    induction n with
    | zero => intro _; omega
    | succ n ih => intro hn; have := ih (by omega); have := hanti n hn; omega
  have hdown : ∀ d, d ≤ m → d ≤ σ (m - d) := by
    intro d
    induction d with
    | zero => intro _; omega
    | succ d ih =>
      intro hd
      have h1 := ih (by omega)
      have h2 := hanti (m - (d + 1)) (by omega)
      rw [show m - (d + 1) + 1 = m - d by omega] at h2
      omega
  have heq : ∀ n, n ≤ m → σ n = m - n := by
    intro n hn
    have h1 := hup n hn
    have h2 := hdown (m - n) (by omega)
    rw [show m - (m - n) = n by omega] at h2
    omega
  obtain ⟨k, rfl⟩ : ∃ k, m = 2 * (k + 1) := ⟨m / 2 - 1, by omega⟩
  refine ⟨k, by rw [← m1, ← h0], ?_⟩
  have e1 := σ2 (k + 1) (by omega)
  have e2 := σ1 (k + 2) (by omega)
  rw [heq _ (by omega), show 2 * (k + 1) - (k + 1) = k + 1 by omega] at e1
  rw [heq _ (by omega), show 2 * (k + 1) - (k + 2) = k by omega, div_eq_iff hc0.ne'] at e2
  rw [e2, ← e1]; ring

end NumPrime.Minima
