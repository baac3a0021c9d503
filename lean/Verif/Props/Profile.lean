import Verif.Model.Profile
import Verif.Props.Rho
import Verif.Props.Rand
import Verif.Props.Termination

/-! # C105: the profiling example -/

namespace NumPrime

/-! ## the iteration limit only cuts a run off -/

/-- runs that find a factor end below the limit, and end in the same way under every larger limit -/
def LimitOnly (run : Method) : Prop :=
  ∀ m d i, run m = .ok (some d, i) → i ≤ m ∧ ∀ m', i < m' → run m' = .ok (some d, i)

theorem limitOnly_rho (n start offset : ℕ) : LimitOnly (fun m => pollardRho n start offset m) := by
  intro m d i h
  have hn : 0 < n := by
    rcases Nat.eq_zero_or_pos n with rfl | hn
    · simp [pollardRho] at h
    · exact hn
  obtain ⟨o, k, h1, h2, -⟩ := C39_pollard_rho n start offset m hn
  simp only at h
  rw [h1] at h
  simp only [Res.ok.injEq, Prod.mk.injEq] at h
  obtain ⟨rfl, rfl⟩ := h
  exact ⟨h2, fun m' hm' => (C90_rho_limit n start offset m _ _ h1 (Or.inl rfl) m').1 hm'.le⟩

theorem squfofForward_limit {bld : Build} {w : Width} {fuel n D rd m d j : ℕ} : ∀ (f i p q qm1 : ℕ),
    squfofForward bld w fuel n D rd m f i p q qm1 = .ok (some d, j) →
    i ≤ j ∧ j < i + f ∧ ∀ m' f', j < i + f' → squfofForward bld w fuel n D rd m' f' i p q qm1 = .ok (some d, j)
  | 0, i, p, q, qm1, h => by simp [squfofForward] at h
  | f + 1, i, p, q, qm1, h => by
    have hrec := fun p q qm1 => squfofForward_limit (bld := bld) (w := w) (fuel := fuel) (n := n) (D := D) (rd := rd) (m := m) (d := d)
      (j := j) f (i + 1) p q qm1
    have key : ∀ p q qm1, squfofForward bld w fuel n D rd m f (i + 1) p q qm1 = .ok (some d, j) →
        i ≤ j ∧ j < i + (f + 1) ∧
        ∀ m' f', j < i + (f' + 1) → squfofForward bld w fuel n D rd m' f' (i + 1) p q qm1 = .ok (some d, j) := by
      intro p q qm1 h
      obtain ⟨h1, h2, h3⟩ := hrec p q qm1 h
      exact ⟨by omega, by omega, fun m' f' hf => h3 m' f' (by omega)⟩
    rw [squfofForward, Res.bind_eq_ok] at h
    obtain ⟨⟨p1, q1, qm2⟩, e1, h⟩ := h
    simp only at h
    rw [Res.bind_eq_ok] at h
    obtain ⟨r, e2, h⟩ := h
    have fin : ∀ x : Res (Option ℕ × ℕ), (i ≤ j ∧ j < i + (f + 1) ∧ ∀ m' f', j < i + (f' + 1) →
        squfofForward bld w fuel n D rd m' (f' + 1) i p q qm1 = .ok (some d, j)) →
        (i ≤ j ∧ j < i + (f + 1) ∧ ∀ m' f', j < i + f' → squfofForward bld w fuel n D rd m' f' i p q qm1 = .ok (some d, j)) := by
      rintro - ⟨h1, h2, h3⟩
      refine ⟨h1, h2, fun m' f' hf => ?_⟩
      cases f' with
      | zero => omega
      | succ f' => exact h3 m' f' hf
    apply fin .panic
    have step : ∀ m' f', squfofForward bld w fuel n D rd m' (f' + 1) i p q qm1 = (match r with
        | none => squfofForward bld w fuel n D rd m' f' (i + 1) p1 q1 qm2
        | some rq => do
          let d ← csub rd p1
          let b ← cdiv d rq
          let t ← cmul w b rq
          let u ← cadd w t p1
          let uu ← cmul w u u
          let n' ← csub D uu
          let v ← cdiv n' rq
          let u ← squfofBack w rd fuel u v rq
          let d := Nat.gcd n u
          if d > 1 ∧ d < n then return (some d, i)
          else squfofForward bld w fuel n D rd m' f' (i + 1) p1 q1 qm2) := by
      intro m' f'
      simp only [squfofForward, e1, e2, Res.bind_ok]
      cases r <;> rfl
    simp only [step]
    cases r with
    | none => exact key _ _ _ h
    | some rq =>
      simp only at h ⊢
      simp only [Res.bind_eq_ok] at h
      obtain ⟨x1, y1, x2, y2, x3, y3, x4, y4, x5, y5, x6, y6, x7, y7, u, y8, h⟩ := h
      simp only [y1, y2, y3, y4, y5, y6, y7, y8, Res.bind_ok]
      split at h
      · rename_i hc
        simp only [Res.pure_def, Res.ok.injEq, Prod.mk.injEq] at h
        obtain ⟨h1, rfl⟩ := h
        refine ⟨le_rfl, by omega, fun m' f' _ => ?_⟩
        rw [if_pos hc]
        simp [Res.pure_def, h1]
      · rename_i hc
        simp only [if_neg hc]
        exact key _ _ _ h

theorem limitOnly_squfof (bld : Build) (w : Width) (fuel n D : ℕ) : LimitOnly (fun m => squfof bld w fuel n D m) := by
  intro m d i h
  simp only [squfof] at h ⊢
  split at h
  · simp at h
  · rename_i hc
    simp only [if_neg hc]
    simp only [Res.bind_eq_ok] at h
    obtain ⟨rr, e1, q, e2, h⟩ := h
    simp only [e1, e2, Res.bind_ok]
    split at h
    · rename_i h0
      simp only [Res.pure_def, Res.ok.injEq, Prod.mk.injEq] at h
      obtain ⟨h1, rfl⟩ := h
      refine ⟨Nat.zero_le _, fun m' _ => ?_⟩
      rw [if_pos h0]
      simp [Res.pure_def, h1]
    · rename_i h0
      obtain ⟨h1, h2, h3⟩ := squfofForward_limit _ _ _ _ _ h
      exact ⟨by omega, fun m' hm => by rw [if_neg h0]; exact h3 m' _ (by omega)⟩

theorem oneLineLoop_limit {bld : Build} {w : Width} {n D m d j : ℕ} : ∀ (f i x : ℕ),
    oneLineLoop bld w n D m f i x = .ok (some d, j) →
    i ≤ j ∧ j < i + f ∧ ∀ m' f', j < i + f' → oneLineLoop bld w n D m' f' i x = .ok (some d, j)
  | 0, i, x, h => by simp [oneLineLoop] at h
  | f + 1, i, x, h => by
    have hrec := oneLineLoop_limit (bld := bld) (w := w) (n := n) (D := D) (m := m) (d := d) (j := j) f (i + 1) (x + D)
    simp only [oneLineLoop, Res.bind_eq_ok] at h
    obtain ⟨s, e1, ss, e2, mm, e3, r, e4, g, e5, h⟩ := h
    have step : ∀ m' f', oneLineLoop bld w n D m' (f' + 1) i x =
        (if g.isSome ∧ g ≠ some 1 ∧ g ≠ some n then pure (g, i)
          else if fits w (x + D) then oneLineLoop bld w n D m' f' (i + 1) (x + D) else pure (none, i)) := by
      intro m' f'
      simp only [oneLineLoop, e1, e2, e3, e4, Res.bind_ok]
      rw [e5, Res.bind_ok]
    have fin : (i ≤ j ∧ j < i + (f + 1) ∧ ∀ m' f', j < i + (f' + 1) → oneLineLoop bld w n D m' (f' + 1) i x = .ok (some d, j)) →
        (i ≤ j ∧ j < i + (f + 1) ∧ ∀ m' f', j < i + f' → oneLineLoop bld w n D m' f' i x = .ok (some d, j)) := by
      rintro ⟨h1, h2, h3⟩
      refine ⟨h1, h2, fun m' f' hf => ?_⟩
      cases f' with
      | zero => omega
      | succ f' => exact h3 m' f' hf
    apply fin
    simp only [step]
    split at h
    · rename_i hc
      simp only [Res.pure_def, Res.ok.injEq, Prod.mk.injEq] at h
      obtain ⟨rfl, rfl⟩ := h
      exact ⟨le_rfl, by omega, fun m' f' _ => by rw [if_pos hc]; rfl⟩
    · rename_i hc
      split at h
      · rename_i hf
        obtain ⟨h1, h2, h3⟩ := hrec h
        exact ⟨by omega, by omega, fun m' f' hj => by rw [if_neg hc, if_pos hf]; exact h3 m' f' (by omega)⟩
      · simp [Res.pure_def] at h

theorem limitOnly_oneLine (bld : Build) (w : Width) (n D : ℕ) : LimitOnly (fun m => oneLine bld w n D m) := by
  intro m d i h
  simp only [oneLine] at h ⊢
  split at h
  · simp at h
  · rename_i hc
    obtain ⟨h1, h2, h3⟩ := oneLineLoop_limit _ _ _ h
    exact ⟨by omega, fun m' hm => by rw [if_neg hc]; exact h3 m' _ (by omega)⟩

/-! ## the best count -/

/-- what the example reports for a list of runs: the least number of iterations after which one of them finds a factor within `limit`
iterations, or `limit` if none does (the second conjunct with an iteration number equal to the limit is harmless) -/
def IsBest (runs : List Method) (limit v : ℕ) : Prop :=
  v ≤ limit ∧ (∀ run ∈ runs, ∀ d i, run limit = .ok (some d, i) → v ≤ i) ∧
  (v = limit ∨ ∃ run ∈ runs, ∃ d, run limit = .ok (some d, v))

theorem pairMin_fst (a b : ℕ × ℕ) : (pairMin a b).1 = min a.1 b.1 := by
  unfold pairMin
  split <;> omega

theorem profileBest_spec (clock : ℕ → ℕ) (limit : ℕ) : ∀ (runs : List Method) (j : ℕ) (best r : ℕ × ℕ), (∀ run ∈ runs, LimitOnly run) →
    best.1 ≤ limit → profileBest clock runs j best = .ok r →
    r.1 ≤ best.1 ∧ (∀ run ∈ runs, ∀ d i, run limit = .ok (some d, i) → r.1 ≤ i) ∧
    (r.1 = best.1 ∨ ∃ run ∈ runs, ∃ d, run limit = .ok (some d, r.1))
  | [], j, best, r, _, _, h => by
    simp only [profileBest, Res.ok.injEq] at h
    subst h
    exact ⟨le_rfl, by simp, Or.inl rfl⟩
  | run :: t, j, best, r, hl, hb, h => by
    simp only [profileBest, Res.bind_eq_ok] at h
    obtain ⟨⟨o, iters⟩, e1, h⟩ := h
    have hrun := hl run List.mem_cons_self
    -- the new best count
    have hnew : ∃ b' : ℕ × ℕ, profileBest clock t (j + 1) b' = .ok r ∧ b'.1 ≤ best.1 ∧
        (∀ d i, run limit = .ok (some d, i) → b'.1 ≤ i) ∧ (b'.1 = best.1 ∨ ∃ d, run limit = .ok (some d, b'.1)) := by
      cases o with
      | none =>
        refine ⟨best, by simpa using h, le_rfl, fun d i hi => ?_, Or.inl rfl⟩
        by_contra hlt
        have := (hrun limit d i hi).2 best.1 (by omega)
        rw [e1] at this
        simp at this
      | some d0 =>
        refine ⟨_, by simpa using h, ?_, fun d i hi => ?_, ?_⟩
        · rw [pairMin_fst]; omega
        · rw [pairMin_fst]
          by_contra hlt
          have := (hrun limit d i hi).2 best.1 (by simp only at hlt; omega)
          rw [e1] at this
          simp only [Res.ok.injEq, Prod.mk.injEq] at this
          simp only at hlt
          omega
        · rw [pairMin_fst]
          obtain ⟨h1, h2⟩ := hrun best.1 d0 iters e1
          simp only
          rcases Nat.eq_or_lt_of_le h1 with rfl | h3
          · exact Or.inl (min_self _)
          · right
            rw [min_eq_right h1]
            exact ⟨d0, h2 limit (by omega)⟩
    obtain ⟨b', g1, g2, g3, g4⟩ := hnew
    obtain ⟨a1, a2, a3⟩ := profileBest_spec clock limit t (j + 1) b' r (fun x hx => hl x (List.mem_cons_of_mem _ hx)) (by omega) g1
    refine ⟨by omega, ?_, ?_⟩
    · intro x hx d i hi
      rcases List.mem_cons.mp hx with rfl | hx
      · exact a1.trans (g3 d i hi)
      · exact a2 x hx d i hi
    · rcases a3 with a3 | ⟨x, hx, d, hd⟩
      · rcases g4 with g4 | ⟨d, hd⟩
        · exact Or.inl (a3.trans g4)
        · exact Or.inr ⟨run, List.mem_cons_self, d, by rw [a3]; exact hd⟩
      · exact Or.inr ⟨x, List.mem_cons_of_mem _ hx, d, hd⟩

theorem limitOnly_rhoRuns (start offset : ℕ → ℕ) (r n : ℕ) : ∀ run ∈ rhoRuns start offset r n, LimitOnly run := by
  intro run h
  obtain ⟨x, -, rfl⟩ := List.mem_map.mp h
  exact limitOnly_rho n _ _

theorem limitOnly_multRuns {method : ℕ → ℕ → Method} (hm : ∀ n D, LimitOnly (method n D)) (n : ℕ) (ks : List ℕ) :
    ∀ run ∈ multRuns method n ks, LimitOnly run := by
  intro run h
  obtain ⟨x, -, rfl⟩ := List.mem_map.mp h
  exact hm _ _

/-- **C105** what `profile_n_min` reports, whatever the random arguments and the clock: for each method the least number of iterations with
which a run succeeds below 2^24, although later runs are cut off at the best count so far. The last entry repeats the time of `squfof`. -/
theorem C105_profile_min (bld : Build) (fuel : ℕ) (start offset c1 c2 c3 : ℕ → ℕ) (n : ℕ) (l : List (String × ℕ))
    (h : profileNMin bld fuel start offset c1 c2 c3 n = .ok l) :
    ∃ rho t1 sq t2 ol, l = [("pollard_rho", rho), ("time_pollard_rho", t1), ("squfof", sq), ("time_squfof", t2), ("one_line", ol),
      ("time_one_line", t2)] ∧
    IsBest (rhoRuns start offset 4 n) (2 ^ 24) rho ∧
    IsBest (multRuns (squfof bld (some 128) fuel) n squfofMultipliers) (2 ^ 24) sq ∧
    IsBest (multRuns (oneLine bld (some 128)) n [1, 360, 480]) (2 ^ 24) ol := by
  simp only [profileNMin, Res.bind_eq_ok] at h
  obtain ⟨a, e1, b, e2, c, e3, h⟩ := h
  simp only [Res.pure_def, Res.ok.injEq] at h
  have h1 := profileBest_spec c1 (2 ^ 24) _ _ _ _ (limitOnly_rhoRuns start offset 4 n) le_rfl e1
  have h2 := profileBest_spec c2 (2 ^ 24) _ _ _ _ (limitOnly_multRuns (limitOnly_squfof bld (some 128) fuel) n squfofMultipliers) le_rfl e2
  have h3 := profileBest_spec c3 (2 ^ 24) _ _ _ _ (limitOnly_multRuns (limitOnly_oneLine bld (some 128)) n kOneline) le_rfl e3
  exact ⟨_, _, _, _, _, h.symm, h1, h2, h3⟩

example : IsBest (rhoRuns (fun _ => 3) (fun r => r + 1) 4 8051) 50 8 := by
  have h0 : pollardRho 8051 3 1 50 = .ok (some 97, 16) := by decide +kernel
  have h1 : pollardRho 8051 3 2 50 = .ok (some 83, 11) := by decide +kernel
  have h2 : pollardRho 8051 3 3 50 = .ok (some 83, 8) := by decide +kernel
  have h3 : pollardRho 8051 3 4 50 = .ok (some 83, 30) := by decide +kernel
  refine ⟨by norm_num, ?_, Or.inr ⟨_, List.mem_map.mpr ⟨2, by decide, rfl⟩, 83, h2⟩⟩
  intro run hrun d i hi
  obtain ⟨r, hr, rfl⟩ := List.mem_map.mp hrun
  have hr' := List.mem_range.mp hr
  clear hrun hr
  interval_cases r <;> simp_all

/-! ## when the example returns -/

theorem profileBest_returns (clock : ℕ → ℕ) : ∀ (runs : List Method) (j : ℕ) (best : ℕ × ℕ), (∀ run ∈ runs, LimitOnly run) →
    (∀ run ∈ runs, ∀ m ≤ best.1, ∃ v, run m = .ok v) → ∃ r, profileBest clock runs j best = .ok r
  | [], _, best, _, _ => ⟨best, rfl⟩
  | run :: t, j, best, hl, h => by
    obtain ⟨⟨o, i⟩, e⟩ := h run List.mem_cons_self best.1 le_rfl
    have hb : ∀ b' : ℕ × ℕ, b'.1 ≤ best.1 → ∃ r, profileBest clock t (j + 1) b' = .ok r := fun b' hb' =>
      profileBest_returns clock t (j + 1) b' (fun x hx => hl x (List.mem_cons_of_mem _ hx))
        (fun x hx m hm => h x (List.mem_cons_of_mem _ hx) m (hm.trans hb'))
    simp only [profileBest, e, Res.bind_ok]
    apply hb
    split
    · rw [pairMin_fst]; omega
    · exact le_rfl

theorem oneLine128_returns (bld : Build) (n k m : ℕ) (hn : 0 < n) (hk : 0 < k) (h : k * n * (m - 1) < (2 ^ 64 - 1) ^ 2)
    (hkn : k * n < 2 ^ 128) : ∃ v, oneLine bld (some 128) n (k * n) m = .ok v := by
  have hc : ¬ (n = 0 ∨ k * n % n ≠ 0) := by simp; omega
  simp only [oneLine, hc, if_false]
  refine oneLineLoop_ne_panic _ _ _ (Nat.mul_pos hk hn) (fun j hj _ => ?_) (fits_some.mpr hkn)
  have e : k * n + j * (k * n) = k * n * (j + 1) := by ring
  rw [e]
  have hle : k * n * (j + 1) ≤ k * n * (m - 1) := Nat.mul_le_mul_left _ (by omega)
  have hs := (isqrt_spec (k * n * (j + 1))).1
  generalize isqrt (k * n * (j + 1)) = s at *
  have : s < 2 ^ 64 - 1 := by
    by_contra hge
    have h2 : (2 ^ 64 - 1) * (2 ^ 64 - 1) ≤ s * s := Nat.mul_le_mul (by omega) (by omega)
    rw [pow_two] at h
    omega
  refine fits_some.mpr (lt_of_le_of_lt (Nat.mul_le_mul (show s + 1 ≤ 2 ^ 64 - 1 by omega) (show s + 1 ≤ 2 ^ 64 - 1 by omega)) ?_)
  norm_num

theorem squfof128_returns (bld : Build) (fuel n k m M : ℕ) (hn : 0 < n) (hkn : k * n < 2 ^ 128) (hm : m ≤ M) (hf : M * 130 ≤ fuel) :
    ∃ r, squfof bld (some 128) fuel n (k * n) m = .ok r := by
  refine C78_squfof_returns bld (some 128) fuel n k m (by intro b hb; injection hb with hb; omega) hn (fits_some.mpr hkn) ?_
  have : Nat.log 2 (k * n) < 128 := by
    rcases Nat.eq_zero_or_pos (k * n) with h0 | h0
    · rw [h0]; simp
    · exact Nat.log_lt_of_lt_pow h0.ne' hkn
  exact (Nat.mul_le_mul hm (show Nat.log 2 (k * n) + 2 ≤ 130 by omega)).trans hf

/-- **C105** for positive numbers below `2^94` `profile_n_min` returns (no overflow, no endless loop) -/
theorem C105_profile_returns (bld : Build) (fuel : ℕ) (start offset c1 c2 c3 : ℕ → ℕ) (n : ℕ) (hn : 0 < n) (hlt : n < 2 ^ 94)
    (hf : 2 ^ 24 * 130 ≤ fuel) : ∃ l, profileNMin bld fuel start offset c1 c2 c3 n = .ok l := by
  have hrho : ∀ run ∈ rhoRuns start offset 4 n, ∀ m ≤ 2 ^ 24, ∃ v, run m = .ok v := by
    intro run hr m _
    obtain ⟨r, -, rfl⟩ := List.mem_map.mp hr
    obtain ⟨o, k, h, -⟩ := C39_pollard_rho n (start r) (offset r) m hn
    exact ⟨_, h⟩
  have hsq : ∀ run ∈ multRuns (squfof bld (some 128) fuel) n squfofMultipliers, ∀ m ≤ 2 ^ 24, ∃ v, run m = .ok v := by
    intro run hr m hm
    obtain ⟨k, hk, rfl⟩ := List.mem_map.mp hr
    have hk2 := fits_some.mp (List.mem_filter.mp hk).2
    rw [Nat.mul_comm] at hk2 ⊢
    exact squfof128_returns bld fuel n k m (2 ^ 24) hn hk2 hm hf
  have hol : ∀ run ∈ multRuns (oneLine bld (some 128)) n kOneline, ∀ m ≤ 2 ^ 24, ∃ v, run m = .ok v := by
    intro run hr m hm
    obtain ⟨k, hk, rfl⟩ := List.mem_map.mp hr
    have hk2 := fits_some.mp (List.mem_filter.mp hk).2
    have hk3 : ∀ k ∈ kOneline, 0 < k ∧ k ≤ 480 := by decide
    obtain ⟨h0, h480⟩ := hk3 k (List.mem_filter.mp hk).1
    rw [Nat.mul_comm] at hk2 ⊢
    refine oneLine128_returns bld n k m hn h0 ?_ hk2
    calc k * n * (m - 1) ≤ 480 * 2 ^ 94 * 2 ^ 24 := Nat.mul_le_mul (Nat.mul_le_mul h480 hlt.le) (by omega)
      _ < (2 ^ 64 - 1) ^ 2 := by norm_num
  obtain ⟨a, ha⟩ := profileBest_returns c1 _ 0 (2 ^ 24, 2 ^ 128 - 1) (limitOnly_rhoRuns start offset 4 n) hrho
  obtain ⟨b, hb⟩ := profileBest_returns c2 _ 0 (2 ^ 24, 2 ^ 128 - 1)
    (limitOnly_multRuns (limitOnly_squfof bld (some 128) fuel) n squfofMultipliers) hsq
  obtain ⟨c, hc⟩ := profileBest_returns c3 _ 0 (2 ^ 24, 2 ^ 128 - 1)
    (limitOnly_multRuns (limitOnly_oneLine bld (some 128)) n kOneline) hol
  simp only [profileNMin, ha, hb, hc, Res.bind_ok]
  exact ⟨_, rfl⟩

/-! ## the counts of `profile_n` -/

theorem squfofForward_none {bld : Build} {w : Width} {fuel n D rd m j : ℕ} : ∀ (f i p q qm1 : ℕ),
    squfofForward bld w fuel n D rd m f i p q qm1 = .ok (none, j) → j = m
  | 0, i, p, q, qm1, h => by
    simp only [squfofForward, Res.ok.injEq, Prod.mk.injEq] at h
    exact h.2.symm
  | f + 1, i, p, q, qm1, h => by
    rw [squfofForward, Res.bind_eq_ok] at h
    obtain ⟨⟨p1, q1, qm2⟩, e1, h⟩ := h
    simp only at h
    rw [Res.bind_eq_ok] at h
    obtain ⟨r, e2, h⟩ := h
    cases r with
    | none => exact squfofForward_none f _ _ _ _ h
    | some rq =>
      simp only [Res.bind_eq_ok] at h
      obtain ⟨x1, y1, x2, y2, x3, y3, x4, y4, x5, y5, x6, y6, x7, y7, u, y8, h⟩ := h
      split at h
      · simp [Res.pure_def] at h
      · exact squfofForward_none f _ _ _ _ h

theorem squfof_iters {bld : Build} {w : Width} {fuel n D m i : ℕ} {o : Option ℕ} (h : squfof bld w fuel n D m = .ok (o, i)) : i ≤ m := by
  cases o with
  | some d => exact (limitOnly_squfof bld w fuel n D m d i h).1
  | none =>
    simp only [squfof] at h
    split at h
    · simp at h
    · simp only [Res.bind_eq_ok] at h
      obtain ⟨rr, e1, q, e2, h⟩ := h
      split at h
      · simp [Res.pure_def] at h
      · exact (squfofForward_none _ _ _ _ _ h).le

theorem oneLineLoop_none {bld : Build} {w : Width} {n D m j : ℕ} : ∀ (f i x : ℕ), i + f ≤ m →
    oneLineLoop bld w n D m f i x = .ok (none, j) → j ≤ m
  | 0, i, x, _, h => by
    simp only [oneLineLoop, Res.ok.injEq, Prod.mk.injEq] at h
    exact h.2.symm.le
  | f + 1, i, x, hi, h => by
    simp only [oneLineLoop, Res.bind_eq_ok] at h
    obtain ⟨s, e1, ss, e2, mm, e3, r, e4, g, e5, h⟩ := h
    split at h
    · rename_i hc
      simp only [Res.pure_def, Res.ok.injEq, Prod.mk.injEq] at h
      simp [h.1] at hc
    · split at h
      · exact oneLineLoop_none f _ _ (by omega) h
      · simp only [Res.pure_def, Res.ok.injEq, Prod.mk.injEq] at h
        omega

theorem oneLine_iters {bld : Build} {w : Width} {n D m i : ℕ} {o : Option ℕ} (hm : 0 < m) (h : oneLine bld w n D m = .ok (o, i)) :
    i ≤ m := by
  cases o with
  | some d => exact (limitOnly_oneLine bld w n D m d i h).1
  | none =>
    simp only [oneLine] at h
    split at h
    · simp at h
    · exact oneLineLoop_none _ _ _ (by omega) h

theorem profileMults_spec {method : ℕ → ℕ → Method} {n m : ℕ} (hm : ∀ D o i, method n D m = .ok (o, i) → i ≤ m) :
    ∀ (ks l : List ℕ), profileMults method n m ks = .ok l → List.Forall₂ (fun k x => x ≤ m ∧
      (n * k < 2 ^ 128 → ∃ o, method n (n * k) m = .ok (o, x)) ∧ (2 ^ 128 ≤ n * k → x = m)) ks l
  | [], l, h => by
    simp only [profileMults, Res.ok.injEq] at h
    subst h
    exact .nil
  | k :: t, l, h => by
    simp only [profileMults, Res.bind_eq_ok] at h
    obtain ⟨x, e1, xs, e2, h⟩ := h
    simp only [Res.pure_def, Res.ok.injEq] at h
    subst h
    refine .cons ?_ (profileMults_spec hm t xs e2)
    split at e1
    · rename_i hf
      have hf := fits_some.mp hf
      rw [mapR_ok_iff] at e1
      obtain ⟨⟨o, i⟩, h1, rfl⟩ := e1
      exact ⟨hm _ _ _ h1, fun _ => ⟨o, h1⟩, fun h => by omega⟩
    · rename_i hf
      simp only [Res.ok.injEq] at e1
      subst e1
      refine ⟨le_rfl, fun h => absurd (fits_some.mpr h) hf, fun _ => rfl⟩

theorem profileRho_spec (m : ℕ) : ∀ (runs : List Method) (l : List ℕ), (∀ run ∈ runs, ∀ o i, run m = .ok (o, i) → i ≤ m) →
    profileRho m runs = .ok l → List.Forall₂ (fun run x => x ≤ m ∧ ∃ o, run m = .ok (o, x)) runs l
  | [], l, _, h => by
    simp only [profileRho, Res.ok.injEq] at h
    subst h
    exact .nil
  | run :: t, l, hr, h => by
    simp only [profileRho, Res.bind_eq_ok] at h
    obtain ⟨x, e1, xs, e2, h⟩ := h
    simp only [Res.pure_def, Res.ok.injEq] at h
    subst h
    refine .cons ?_ (profileRho_spec m t xs (fun r h => hr r (List.mem_cons_of_mem _ h)) e2)
    rw [mapR_ok_iff] at e1
    obtain ⟨⟨o, i⟩, h1, rfl⟩ := e1
    exact ⟨hr run List.mem_cons_self _ _ h1, o, h1⟩

/-- **C105** what `profile_n` reports: two counts of Pollard's rho, ten of `squfof`, three of `one_line`, each at most 2^20; a count is the
number of iterations of the call, and 2^20 for a multiplier whose product overflows `u128` -/
theorem C105_profile_n (bld : Build) (fuel : ℕ) (start offset : ℕ → ℕ) (n : ℕ) (l : List ℕ)
    (h : profileN bld fuel start offset n = .ok l) :
    ∃ a b c, l = a ++ b ++ c ∧
    List.Forall₂ (fun r x => x ≤ 2 ^ 20 ∧ ∃ o, pollardRho n (start r) (offset r) (2 ^ 20) = .ok (o, x)) [0, 1] a ∧
    List.Forall₂ (fun k x => x ≤ 2 ^ 20 ∧ (n * k < 2 ^ 128 → ∃ o, squfof bld (some 128) fuel n (n * k) (2 ^ 20) = .ok (o, x)) ∧
      (2 ^ 128 ≤ n * k → x = 2 ^ 20)) (squfofMultipliers.take 10) b ∧
    List.Forall₂ (fun k x => x ≤ 2 ^ 20 ∧ (n * k < 2 ^ 128 → ∃ o, oneLine bld (some 128) n (n * k) (2 ^ 20) = .ok (o, x)) ∧
      (2 ^ 128 ≤ n * k → x = 2 ^ 20)) [1, 360, 480] c := by
  simp only [profileN, Res.bind_eq_ok] at h
  obtain ⟨a, e1, b, e2, c, e3, h⟩ := h
  simp only [Res.pure_def, Res.ok.injEq] at h
  refine ⟨a, b, c, h.symm, ?_, profileMults_spec (fun D o i => squfof_iters) _ _ e2,
    profileMults_spec (fun D o i => oneLine_iters (by norm_num)) _ _ e3⟩
  have hr : ∀ run ∈ rhoRuns start offset 2 n, ∀ o i, run (2 ^ 20) = .ok (o, i) → i ≤ 2 ^ 20 := by
    intro run hr o i hi
    obtain ⟨r, -, rfl⟩ := List.mem_map.mp hr
    have hn : 0 < n := by
      rcases Nat.eq_zero_or_pos n with rfl | hn
      · simp [pollardRho] at hi
      · exact hn
    obtain ⟨o', k, h1, h2, -⟩ := C39_pollard_rho n (start r) (offset r) (2 ^ 20) hn
    simp only at hi
    rw [h1] at hi
    simp only [Res.ok.injEq, Prod.mk.injEq] at hi
    omega
  have := profileRho_spec (2 ^ 20) _ _ hr e1
  unfold rhoRuns at this
  rw [List.forall₂_map_left_iff] at this
  exact this

theorem profileMults_returns {method : ℕ → ℕ → Method} {n m : ℕ} : ∀ (ks : List ℕ),
    (∀ k ∈ ks, n * k < 2 ^ 128 → ∃ v, method n (n * k) m = .ok v) → ∃ l, profileMults method n m ks = .ok l
  | [], _ => ⟨[], rfl⟩
  | k :: t, h => by
    obtain ⟨xs, e⟩ := profileMults_returns t fun k hk => h k (List.mem_cons_of_mem _ hk)
    simp only [profileMults]
    split
    · rename_i hf
      obtain ⟨v, hv⟩ := h k List.mem_cons_self (fits_some.mp hf)
      rw [hv, Res.mapR_ok, Res.bind_ok, e, Res.bind_ok]
      exact ⟨_, rfl⟩
    · rw [Res.bind_ok, e, Res.bind_ok]
      exact ⟨_, rfl⟩

theorem profileRho_returns (m : ℕ) : ∀ runs : List Method, (∀ run ∈ runs, ∃ v, run m = .ok v) → ∃ l, profileRho m runs = .ok l
  | [], _ => ⟨[], rfl⟩
  | run :: t, h => by
    obtain ⟨xs, e⟩ := profileRho_returns m t fun r hr => h r (List.mem_cons_of_mem _ hr)
    obtain ⟨v, hv⟩ := h run List.mem_cons_self
    rw [profileRho, hv, Res.mapR_ok, Res.bind_ok, e, Res.bind_ok]
    exact ⟨_, rfl⟩

/-- **C105** for positive numbers below `2^94` `profile_n` returns -/
theorem C105_profile_n_returns (bld : Build) (fuel : ℕ) (start offset : ℕ → ℕ) (n : ℕ) (hn : 0 < n) (hlt : n < 2 ^ 94)
    (hf : 2 ^ 20 * 130 ≤ fuel) : ∃ l, profileN bld fuel start offset n = .ok l := by
  have hrho : ∀ run ∈ rhoRuns start offset 2 n, ∃ v, run (2 ^ 20) = .ok v := by
    intro run hr
    obtain ⟨r, -, rfl⟩ := List.mem_map.mp hr
    obtain ⟨o, k, h, -⟩ := C39_pollard_rho n (start r) (offset r) (2 ^ 20) hn
    exact ⟨_, h⟩
  have hol : ∀ k ∈ kOneline, n * k < 2 ^ 128 → ∃ v, oneLine bld (some 128) n (n * k) (2 ^ 20) = .ok v := by
    intro k hk hk2
    have hk3 : ∀ k ∈ kOneline, 0 < k ∧ k ≤ 480 := by decide
    obtain ⟨h0, h480⟩ := hk3 k hk
    rw [Nat.mul_comm] at hk2 ⊢
    refine oneLine128_returns bld n k _ hn h0 ?_ hk2
    calc k * n * (2 ^ 20 - 1) ≤ 480 * 2 ^ 94 * 2 ^ 24 := Nat.mul_le_mul (Nat.mul_le_mul h480 hlt.le) (by norm_num)
      _ < (2 ^ 64 - 1) ^ 2 := by norm_num
  obtain ⟨a, ha⟩ := profileRho_returns (2 ^ 20) _ hrho
  obtain ⟨b, hb⟩ := profileMults_returns (method := squfof bld (some 128) fuel) (n := n) (m := 2 ^ 20) (squfofMultipliers.take 10)
    fun k _ hk => by
      rw [Nat.mul_comm] at hk ⊢
      exact squfof128_returns bld fuel n k _ (2 ^ 20) hn hk le_rfl hf
  obtain ⟨c, hc⟩ := profileMults_returns (method := oneLine bld (some 128)) (n := n) (m := 2 ^ 20) kOneline hol
  simp only [profileN, ha, hb, hc, Res.bind_ok]
  exact ⟨_, rfl⟩

example : ∃ l, profileN .big (2 ^ 20 * 130) (fun r => r + 2) (fun _ => 1) (1000003 * 1000033) = .ok l :=
  C105_profile_n_returns _ _ _ _ _ (by norm_num) (by norm_num) le_rfl

/-! ## the numbers that are profiled -/

theorem isPrime64_of_accepted128 {bld : Build} {config : Option PrimalityTestConfig} {draws : ℕ → List ℕ} {p : ℕ} (hp : p < 2 ^ 64)
    (h : Accepted bld (some 128) config draws p) : isPrime64 bld p = true := by
  obtain ⟨r, h1, h2⟩ := h
  unfold isPrimeNew at h1
  rw [isPrime_below bld _ _ hp] at h1
  simp only [Res.ok.injEq] at h1
  subst h1
  revert h2
  split <;> simp_all [Primality.probably]

/-- **C105** the number chosen for `total_bits` (20 to 119): it is the product of two different numbers, the first at most
`total_bits / 2 + 1` bits long and accepted by `is_prime64`, the second accepted by the generic primality test, and it has at least
`total_bits - 1` and at most `total_bits + 1` bits; the multiplication never overflows -/
theorem C105_semiprime (bld : Build) (src : RandSource) (hdr : ∀ k, GoodDraws (src.draws k)) (fuel tb k p q k1 k2 : ℕ) (h20 : 20 ≤ tb)
    (h119 : tb < 120) (hp : genPrime128 bld src none fuel (tb / 2) k = .ok (p, k1))
    (hq : genPrimeExact128 bld src none fuel (tb - bitLen p) k1 = .ok (q, k2)) :
    profileSemiprime bld src fuel tb k = .ok (if p = q then none else some (p * q), k2) ∧
    p < 2 ^ (tb / 2 + 1) ∧ isPrime64 bld p = true ∧ (∃ j, Accepted bld (some 128) none (src.draws j) q) ∧
    2 ^ (tb - 2) ≤ p * q ∧ p * q < 2 ^ (tb + 1) := by
  have hp1 := (C60_gen_prime_u128_partial bld src hdr none fuel _ k p k1 hp).1.1
  obtain ⟨hq1, ⟨hq2, -⟩, -⟩ := C61_gen_prime_exact_u128_partial bld src hdr none fuel _ k1 q k2 hq
  obtain ⟨-, jp, ap⟩ := C59_gen_prime_u128 bld src none fuel _ k p k1 (Or.inl hp)
  obtain ⟨-, jq, aq⟩ := C59_gen_prime_u128 bld src none fuel _ k1 q k2 (Or.inr hq)
  rw [or_self] at ap aq
  have p2 := (accepted_ge_two ap).1
  have b1 : p < 2 ^ 64 := lt_of_lt_of_le hp1 (Nat.pow_le_pow_right (by norm_num) (by omega))
  have hbl : bitLen p = p.size := bitLen_eq_size p
  have s1 : p.size ≤ tb / 2 + 1 := Nat.size_le.mpr hp1
  have s2 : p < 2 ^ p.size := Nat.lt_size_self p
  have s0 : 1 < p.size := Nat.lt_size.mpr (by simpa using p2)
  have s3 : 2 ^ (p.size - 1) ≤ p := Nat.lt_size.mp (by omega)
  have lo : 2 ^ (tb - 2) ≤ p * q := by
    have : 2 ^ (p.size - 1) * 2 ^ (tb - bitLen p - 1) ≤ p * q := Nat.mul_le_mul s3 hq1
    rwa [← pow_add, hbl, show p.size - 1 + (tb - p.size - 1) = tb - 2 by omega] at this
  have hi : p * q < 2 ^ (tb + 1) := by
    have : p * q < 2 ^ p.size * 2 ^ (tb - bitLen p + 1) := Nat.mul_lt_mul'' s2 hq2
    rwa [← pow_add, hbl, show p.size + (tb - p.size + 1) = tb + 1 by omega] at this
  refine ⟨?_, hp1, isPrime64_of_accepted128 b1 ap, ⟨jq, aq⟩, lo, hi⟩
  have h1 : csub tb (bitLen p) = .ok (tb - bitLen p) := csub_ok (by omega)
  have h2 : cmul (some 128) p q = .ok (p * q) :=
    cmul_ok (fits_some.mpr (lt_of_lt_of_le hi (Nat.pow_le_pow_right (by norm_num) (by omega))))
  simp only [profileSemiprime, hp, h1, hq, h2, Res.bind_ok]
  split <;> rfl

-- 10 bits were asked for, the next prime 1031 has 11, and the product has 19 bits instead of 20
example : genPrime128 .big ⟨fun k => if k = 0 then 2 ^ 128 - 2 ^ 119 else 0, fun _ _ => []⟩ none 5 10 0 = .ok (1031, 1) ∧
    profileSemiprime .big ⟨fun k => if k = 0 then 2 ^ 128 - 2 ^ 119 else 0, fun _ _ => []⟩ 5 20 0 = .ok (some (1031 * 257), 2) := by
  decide +kernel

/-! ## a number on which the example panics -/

/-- the first prime of `panicN` -/
def panicP : ℕ := 486114388538610691
/-- the second prime of `panicN` -/
def panicQ : ℕ := 1458343168740925871
/-- a product of two primes of 59 and 61 bits -/
def panicN : ℕ := 708921597751955132165211631359086861

theorem panicN_spec : panicP.Prime ∧ panicQ.Prime ∧ panicN = panicP * panicQ ∧ panicN < 2 ^ 120 := by
  refine ⟨?_, ?_, by decide +kernel, by decide +kernel⟩
  · refine pratt (a := 3) [2, 3, 3, 5, 449, 6277, 18451, 103867] (by decide) ?_ (by decide +kernel) (by decide +kernel) (by decide +kernel)
    intro f hf
    simp only [List.mem_cons, List.not_mem_nil, or_false] at hf
    rcases hf with rfl | rfl | rfl | rfl | rfl | rfl | rfl | rfl <;> norm_num
  · refine pratt (a := 17) [2, 5, 13, 29, 131, 3779, 12277, 63647] (by decide) ?_ (by decide +kernel) (by decide +kernel) (by decide +kernel)
    intro f hf
    simp only [List.mem_cons, List.not_mem_nil, or_false] at hf
    rcases hf with rfl | rfl | rfl | rfl | rfl | rfl | rfl | rfl <;> norm_num

theorem panic_runs (bld : Build) : oneLine bld (some 128) panicN (panicN * 1) 4 = .ok (some panicP, 3) ∧
    oneLine bld (some 128) panicN (panicN * 360) 3 = .ok (none, 1) ∧
    oneLine bld (some 128) panicN (panicN * 480) 3 = .panic := by
  cases bld <;> decide +kernel

/-- **C105, finding** the example can panic on a product of two primes of the size it draws (here 120 bits): the square of the rounded up
root in `one_line` overflows `u128`. The random arguments and the clock do not matter. -/
theorem C105_profile_panics (bld : Build) (fuel : ℕ) (start offset c1 c2 c3 : ℕ → ℕ) (hf : 2 ^ 24 * 130 ≤ fuel) :
    profileNMin bld fuel start offset c1 c2 c3 panicN = .panic := by
  have hn : 0 < panicN := by decide
  have hrho : ∀ run ∈ rhoRuns start offset 4 panicN, ∀ m ≤ 2 ^ 24, ∃ v, run m = .ok v := by
    intro run hr m _
    obtain ⟨r, -, rfl⟩ := List.mem_map.mp hr
    obtain ⟨o, k, h, -⟩ := C39_pollard_rho panicN (start r) (offset r) m hn
    exact ⟨_, h⟩
  have hsq : ∀ run ∈ multRuns (squfof bld (some 128) fuel) panicN squfofMultipliers, ∀ m ≤ 2 ^ 24, ∃ v, run m = .ok v := by
    intro run hr m hm
    obtain ⟨k, hk, rfl⟩ := List.mem_map.mp hr
    have hk2 := fits_some.mp (List.mem_filter.mp hk).2
    rw [Nat.mul_comm] at hk2 ⊢
    exact squfof128_returns bld fuel panicN k m (2 ^ 24) hn hk2 hm hf
  obtain ⟨a, ha⟩ := profileBest_returns c1 _ 0 (2 ^ 24, 2 ^ 128 - 1) (limitOnly_rhoRuns start offset 4 panicN) hrho
  obtain ⟨b, hb⟩ := profileBest_returns c2 _ 0 (2 ^ 24, 2 ^ 128 - 1)
    (limitOnly_multRuns (limitOnly_squfof bld (some 128) fuel) panicN squfofMultipliers) hsq
  obtain ⟨r1, r2, r3⟩ := panic_runs bld
  have r1' : oneLine bld (some 128) panicN (panicN * 1) (2 ^ 24) = .ok (some panicP, 3) :=
    (limitOnly_oneLine bld (some 128) panicN (panicN * 1) 4 panicP 3 r1).2 (2 ^ 24) (by norm_num)
  have hf : kOneline.filter (fun k => fits (some 128) (panicN * k)) = [1, 360, 480] := by decide +kernel
  have hc : profileBest c3 (multRuns (oneLine bld (some 128)) panicN kOneline) 0 (2 ^ 24, 2 ^ 128 - 1) = .panic := by
    unfold multRuns
    rw [hf]
    have hm : pairMin (2 ^ 24, 2 ^ 128 - 1) (3, c3 0) = (3, c3 0) := if_pos (Or.inl (by norm_num))
    simp only [List.map_cons, List.map_nil, profileBest, r1', Res.bind_ok, Option.isSome_some, if_true, hm, r2, Option.isSome_none, Bool.false_eq_true,
      if_false, r3]
    rfl
  simp only [profileNMin, ha, hb, hc, Res.bind_ok]
  rfl

end NumPrime
