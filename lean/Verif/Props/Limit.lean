import Verif.Props.Profile

/-! # C106: the iteration limit of `squfof` and `one_line` -/

namespace NumPrime

theorem squfofForward_cut {bld : Build} {w : Width} {fuel n D rd m j : ℕ} {o : Option ℕ} : ∀ (f i p q qm1 : ℕ),
    squfofForward bld w fuel n D rd m f i p q qm1 = .ok (o, j) → (o = none → i + f ≤ m) →
    ∀ m' f', i + f' ≤ j → f' ≤ f → squfofForward bld w fuel n D rd m' f' i p q qm1 = .ok (none, m')
  | f, i, p, q, qm1, _, _, m', 0, _, _ => rfl
  | 0, i, p, q, qm1, h, hm, m', f' + 1, hj, hf => by omega
  | f + 1, i, p, q, qm1, h, hm, m', f' + 1, hj, hf => by
    have hrec := fun p q qm1 h => squfofForward_cut (bld := bld) (w := w) (fuel := fuel) (n := n) (D := D) (rd := rd) (m := m)
      (j := j) (o := o) f (i + 1) p q qm1 h (fun ho => by have := hm ho; omega) m' f' (by omega) (by omega)
    rw [squfofForward, Res.bind_eq_ok] at h
    obtain ⟨⟨p1, q1, qm2⟩, e1, h⟩ := h
    simp only at h
    rw [Res.bind_eq_ok] at h
    obtain ⟨r, e2, h⟩ := h
    simp only [squfofForward, e1, e2, Res.bind_ok]
    cases r with
    | none => exact hrec _ _ _ h
    | some rq =>
      simp only at h ⊢
      simp only [Res.bind_eq_ok] at h
      obtain ⟨x1, y1, x2, y2, x3, y3, x4, y4, x5, y5, x6, y6, x7, y7, u, y8, h⟩ := h
      simp only [y1, y2, y3, y4, y5, y6, y7, y8, Res.bind_ok]
      split at h
      · simp only [Res.pure_def, Res.ok.injEq, Prod.mk.injEq] at h
        omega
      · rename_i hc
        rw [if_neg hc]
        exact hrec _ _ _ h

/-- **C106** `squfof`: a factor found after `i` iterations is found after `i` iterations under every larger limit, and under every limit
up to `i` the answer is `None` with the limit as the count (`i = 0`: perfect squares are recognised before the first iteration) -/
theorem C106_squfof_found (bld : Build) (w : Width) (fuel n D m d i : ℕ) (h : squfof bld w fuel n D m = .ok (some d, i)) (m' : ℕ) :
    squfof bld w fuel n D m' = .ok (if i = 0 ∨ i < m' then (some d, i) else (none, m')) := by
  by_cases hi : i < m'
  · rw [if_pos (Or.inr hi)]
    exact (limitOnly_squfof bld w fuel n D m d i h).2 m' hi
  · simp only [squfof] at h ⊢
    split at h
    · simp at h
    · rename_i hc
      rw [if_neg hc]
      simp only [Res.bind_eq_ok] at h
      obtain ⟨rr, e1, q, e2, h⟩ := h
      simp only [e1, e2, Res.bind_ok]
      split at h
      · rename_i h0
        simp only [Res.pure_def, Res.ok.injEq, Prod.mk.injEq] at h
        obtain ⟨h1, rfl⟩ := h
        rw [if_pos h0, if_pos (Or.inl rfl)]
        simp [Res.pure_def, h1]
      · rename_i h0
        obtain ⟨h1, h2, -⟩ := squfofForward_limit _ _ _ _ _ h
        rw [if_neg h0, if_neg (by omega)]
        exact squfofForward_cut _ _ _ _ _ h (by simp) m' (m' - 1) (by omega) (by omega)

/-- **C106** `squfof`: without a factor the count is the limit, and no smaller limit gives a factor -/
theorem C106_squfof_not_found (bld : Build) (w : Width) (fuel n D m j : ℕ) (h : squfof bld w fuel n D m = .ok (none, j)) :
    j = m ∧ ∀ m' ≤ m, squfof bld w fuel n D m' = .ok (none, m') := by
  simp only [squfof] at h ⊢
  split at h
  · simp at h
  · rename_i hc
    simp only [Res.bind_eq_ok] at h
    obtain ⟨rr, e1, q, e2, h⟩ := h
    split at h
    · simp [Res.pure_def] at h
    · rename_i h0
      have hj := squfofForward_none _ _ _ _ _ h
      refine ⟨hj, fun m' hm' => ?_⟩
      rw [if_neg hc]
      simp only [e1, e2, Res.bind_ok]
      rw [if_neg h0]
      rcases Nat.eq_zero_or_pos m' with rfl | h1
      · rfl
      · exact squfofForward_cut _ _ _ _ _ h (fun _ => by omega) m' (m' - 1) (by omega) (by omega)

theorem oneLineLoop_cut {bld : Build} {w : Width} {n D m j : ℕ} {o : Option ℕ} : ∀ (f i x : ℕ),
    oneLineLoop bld w n D m f i x = .ok (o, j) → i + f = m →
    ∀ m' f', i + f' = m' → (m' ≤ j → f' ≤ f → oneLineLoop bld w n D m' f' i x = .ok (none, m')) ∧
      (o = none → j < m → j < m' → oneLineLoop bld w n D m' f' i x = .ok (none, j))
  | f, i, x, h, hm, m', 0, hm' => by
    refine ⟨fun _ _ => rfl, fun ho hj hj' => ?_⟩
    exfalso
    subst ho
    have : i ≤ j := by
      clear hm' hj' hj
      induction f generalizing i x with
      | zero =>
        simp only [oneLineLoop, Res.ok.injEq, Prod.mk.injEq] at h
        omega
      | succ f ih =>
        simp only [oneLineLoop, Res.bind_eq_ok] at h
        obtain ⟨s, e1, ss, e2, mm, e3, r, e4, g, e5, h⟩ := h
        split at h
        · simp only [Res.pure_def, Res.ok.injEq, Prod.mk.injEq] at h
          omega
        · split at h
          · have := ih (i + 1) _ (by omega) h; omega
          · simp only [Res.pure_def, Res.ok.injEq, Prod.mk.injEq] at h
            omega
    omega
  | 0, i, x, h, hm, m', f' + 1, hm' => by
    refine ⟨fun _ _ => by omega, fun _ hj _ => ?_⟩
    simp only [oneLineLoop, Res.ok.injEq, Prod.mk.injEq] at h
    omega
  | f + 1, i, x, h, hm, m', f' + 1, hm' => by
    have hrec := fun h => oneLineLoop_cut (bld := bld) (w := w) (n := n) (D := D) (m := m) (j := j) (o := o) f (i + 1) (x + D) h
      (by omega) m' f' (by omega)
    simp only [oneLineLoop, Res.bind_eq_ok] at h
    obtain ⟨s, e1, ss, e2, mm, e3, r, e4, g, e5, h⟩ := h
    have step : oneLineLoop bld w n D m' (f' + 1) i x =
        (if g.isSome ∧ g ≠ some 1 ∧ g ≠ some n then pure (g, i)
          else if fits w (x + D) then oneLineLoop bld w n D m' f' (i + 1) (x + D) else pure (none, i)) := by
      simp only [oneLineLoop, e1, e2, e3, e4, Res.bind_ok]
      rw [e5, Res.bind_ok]
    rw [step]
    split at h
    · rename_i hc
      simp only [Res.pure_def, Res.ok.injEq, Prod.mk.injEq] at h
      refine ⟨fun _ _ => by omega, fun ho => ?_⟩
      rw [h.1, ho] at hc
      simp at hc
    · rename_i hc
      rw [if_neg hc]
      split at h
      · rename_i hf
        rw [if_pos hf]
        exact ⟨fun h1 h2 => (hrec h).1 h1 (by omega), (hrec h).2⟩
      · rename_i hf
        rw [if_neg hf]
        simp only [Res.pure_def, Res.ok.injEq, Prod.mk.injEq] at h
        refine ⟨fun _ _ => by omega, fun _ _ _ => ?_⟩
        simp only [Res.pure_def, Res.ok.injEq, Prod.mk.injEq, true_and]
        omega

/-- **C106** `one_line`: a factor found after `i` iterations is found after `i` iterations under every larger limit, and under every limit
up to `i` the answer is `None` with the limit as the count -/
theorem C106_one_line_found (bld : Build) (w : Width) (n D m d i : ℕ) (h : oneLine bld w n D m = .ok (some d, i)) (m' : ℕ) (hm' : 0 < m') :
    oneLine bld w n D m' = .ok (if i < m' then (some d, i) else (none, m')) := by
  by_cases hi : i < m'
  · rw [if_pos hi]
    exact (limitOnly_oneLine bld w n D m d i h).2 m' hi
  · rw [if_neg hi]
    simp only [oneLine] at h ⊢
    split at h
    · simp at h
    · rename_i hc
      rw [if_neg hc]
      obtain ⟨h1, h2, -⟩ := oneLineLoop_limit _ _ _ h
      exact (oneLineLoop_cut _ _ _ h (by omega) m' (m' - 1) (by omega)).1 (by omega) (by omega)

/-- **C106** `one_line`: without a factor the count is the limit, or the iteration at which the next multiple leaves the type; a smaller
limit gives no factor either, and in the second case no larger limit does -/
theorem C106_one_line_not_found (bld : Build) (w : Width) (n D m j : ℕ) (hm : 0 < m) (h : oneLine bld w n D m = .ok (none, j)) :
    j ≤ m ∧ ∀ m', 0 < m' → (m' ≤ m ∨ j < m) → oneLine bld w n D m' = .ok (none, min j m') := by
  have hj := oneLine_iters hm h
  refine ⟨hj, fun m' h0 hc' => ?_⟩
  simp only [oneLine] at h ⊢
  split at h
  · simp at h
  · rename_i hc
    rw [if_neg hc]
    obtain ⟨c1, c2⟩ := oneLineLoop_cut _ _ _ h (by omega) m' (m' - 1) (by omega)
    rcases Nat.lt_or_ge j m' with h1 | h1
    · rw [min_eq_left h1.le]
      exact c2 rfl (by omega) h1
    · rw [min_eq_right h1]
      exact c1 h1 (by omega)

example : squfof .big (some 64) 100 11111 11111 30 = .ok (some 41, 5) ∧ squfof .big (some 64) 100 11111 11111 5 = .ok (none, 5) ∧
    squfof .big (some 64) 100 11111 11111 6 = .ok (some 41, 5) := by decide +kernel
example : oneLine .big (some 64) 8061 (480 * 8061) 100 = .ok (some 2687, 30) ∧ oneLine .big (some 64) 8061 (480 * 8061) 30 = .ok (none, 30) := by
  decide +kernel
-- the next multiple does not fit `u8`
example : oneLine .big (some 8) 53 53 100 = .ok (none, 4) := by decide +kernel

end NumPrime
