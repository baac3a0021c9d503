import Verif.Proofs.Trial
import Verif.Spec.Probable

/-! Pollard's rho, SQUFOF and the one-line method. -/

namespace NumPrime
open Spec

theorem rhoLoop_iters (n c : ℕ) : ∀ (f : ℕ) (st : RhoState), st.i ≤ (rhoLoop n c f st).2 ∧
    (rhoLoop n c f st).2 ≤ st.i + f := by
  intro f
  induction f with
  | zero => intro st; simp [rhoLoop]
  | succ f ih =>
    intro st
    simp only [rhoLoop]
    generalize addm (sqm st.a n) c n = a
    generalize (if st.b > a then st.b - a else a - st.b) = diff
    generalize mulm st.z diff n = z
    have key : ∀ st' : RhoState, st'.i = st.i + 1 → st.i ≤ (rhoLoop n c f st').2 ∧
        (rhoLoop n c f st').2 ≤ st.i + (f + 1) := by
      intro st' h
      have := ih st'
      omega
    split
    · exact ⟨by simp, by simp⟩
    split
    · split
      · exact ⟨by simp, by simp⟩
      · exact key _ rfl
    split
    · exact ⟨by simp, by simp⟩
    · split
      · exact key _ rfl
      · exact key _ rfl

theorem rhoLoop_divisor {n c : ℕ} (hn : 0 < n) : ∀ (f : ℕ) (st : RhoState) (d : ℕ),
    (rhoLoop n c f st).1 = some d → ProperDivisor d n := by
  intro f
  induction f with
  | zero => intro st d h; simp [rhoLoop] at h
  | succ f ih =>
    intro st d h
    simp only [rhoLoop] at h
    generalize addm (sqm st.a n) c n = a at h
    generalize (if st.b > a then st.b - a else a - st.b) = diff at h
    generalize mulm st.z diff n = z at h
    split at h
    · simp at h
    split at h
    · split at h
      · simp at h
      · exact ih _ _ h
    split at h
    · rename_i hc
      simp only [Option.some.injEq] at h
      simp only [Bool.and_eq_true, bne_iff_ne, ne_eq] at hc
      rw [h] at hc
      have hdvd : d ∣ n := by rw [← h]; exact Nat.gcd_dvd_right _ _
      have hpos := Nat.pos_of_dvd_of_pos hdvd hn
      have hle := Nat.le_of_dvd hn hdvd
      exact ⟨hdvd, by omega, by omega⟩
    · split at h
      · exact ih _ _ h
      · exact ih _ _ h

/-! ## SQUFOF -/

/-- the invariant of both loops: a reduced form of discriminant `D` (`q`, `qm1` not both needed reduced) -/
structure SqInv (D rd p q qm1 : ℕ) : Prop where
  ppos : 0 < p
  ple : p ≤ rd
  qpos : 0 < q
  qle : q ≤ rd + p
  mpos : 0 < qm1
  disc : q * qm1 + p * p = D

theorem form_bound {D rd p q Q : ℕ} (h1 : rd < p + q) (h2 : p ≤ rd) (h3 : q * Q + p * p = D)
    (h4 : D < (rd + 1) * (rd + 1)) : Q ≤ rd + p := by
  by_contra hc
  obtain ⟨s, hs⟩ : ∃ s, rd + 1 = p + s := ⟨rd + 1 - p, by omega⟩
  have h5 : s * (s + 2 * p) ≤ q * Q := Nat.mul_le_mul (by omega) (by omega)
  have h6 : (p + s) * (p + s) = s * (s + 2 * p) + p * p := by ring
  rw [hs, h6] at h4
  omega

/-- the new values computed by one step -/
theorem squfofRho_step {w : Width} {D rd p q qm1 : ℕ} (hrd : rd * rd < D) (hrd2 : D < (rd + 1) * (rd + 1))
    (h : SqInv D rd p q qm1) (hw : fits w D = true) (hw2 : fits w (rd + rd) = true) :
    ∃ p' q', squfofRho w rd p q qm1 = .ok (p', q', q) ∧ SqInv D rd p' q' q ∧ (rd + p) / q * q = p' + p ∧ rd < p' + q ∧
      1 ≤ (rd + p) / q := by
  obtain ⟨h1, h2, h3, h4, h5, h6⟩ := h
  set b := (rd + p) / q with hb
  have hb1 : 1 ≤ b := (Nat.one_le_div_iff h3).mpr h4
  have hbq : b * q ≤ rd + p := Nat.div_mul_le_self _ _
  have hbq2 : rd + p < b * q + q := by
    have := Nat.lt_div_mul_add (a := rd + p) h3
    rw [hb]; linarith
  have hq1 : q ≤ b * q := Nat.le_mul_of_pos_left _ hb1
  have hpb : p < b * q := by
    by_cases hc : q ≤ rd
    · omega
    · omega
  obtain ⟨p', hp'⟩ : ∃ p', b * q = p' + p := ⟨b * q - p, by omega⟩
  have hp'pos : 0 < p' := by omega
  have hp'le : p' ≤ rd := by omega
  have hp'q : rd < p' + q := by omega
  -- the new q as an integer
  have hz : (q : ℤ) * ((qm1 : ℤ) + b * ((p : ℤ) - p')) = D - p' * p' := by
    have e1 : (b : ℤ) * q = p' + p := by exact_mod_cast hp'
    have e2 : (q : ℤ) * qm1 + p * p = D := by exact_mod_cast h6
    calc (q : ℤ) * ((qm1 : ℤ) + b * ((p : ℤ) - p')) = q * qm1 + (b * q) * (p - p') := by ring
      _ = (D - p * p) + (p' + p) * (p - p') := by rw [e1]; linarith
      _ = D - p' * p' := by ring
  have hDp : (p' : ℤ) * p' < D := by
    have : p' * p' ≤ rd * rd := Nat.mul_le_mul hp'le hp'le
    exact_mod_cast lt_of_le_of_lt this hrd
  have hQpos : 0 < (qm1 : ℤ) + b * ((p : ℤ) - p') := by
    have h7 : 0 < (q : ℤ) * ((qm1 : ℤ) + b * ((p : ℤ) - p')) := by rw [hz]; linarith
    exact pos_of_mul_pos_right h7 (by positivity)
  obtain ⟨Q, hQ⟩ := Int.eq_ofNat_of_zero_le hQpos.le
  rw [hQ] at hz hQpos
  have hQD : q * Q + p' * p' = D := by
    have : (q : ℤ) * Q + p' * p' = D := by linarith
    exact_mod_cast this
  have hQpos' : 0 < Q := by exact_mod_cast hQpos
  have hQle : Q ≤ rd + p' := form_bound hp'q hp'le hQD hrd2
  have hinv : SqInv D rd p' Q q := ⟨hp'pos, hp'le, hQpos', hQle, h3, by rw [Nat.mul_comm]; exact hQD⟩
  refine ⟨p', Q, ?_, hinv, hp', hp'q, hb1⟩
  have hf1 : fits w (rd + p) = true := fits_mono (by omega) hw2
  have hf2 : fits w (b * q) = true := fits_mono (by omega) hw2
  have hf3 : fits w Q = true := fits_mono (by omega) hw2
  have hQleD : qm1 ≤ D := by
    have := Nat.le_mul_of_pos_left qm1 h3
    omega
  simp only [squfofRho, cadd_ok hf1, Res.bind_ok, cdiv_ok h3.ne', ← hb]
  rw [cmul_ok hf2, Res.bind_ok, csub_ok hpb.le, Res.bind_ok]
  have hsub : b * q - p = p' := by omega
  rw [hsub]
  by_cases hlt : p > p'
  · simp only [hlt, if_true, csub_ok hlt.le, Res.bind_ok]
    obtain ⟨t, ht⟩ : ∃ t, p = p' + t := ⟨p - p', by omega⟩
    have ht2 : p - p' = t := by omega
    have hQe : Q = qm1 + b * t := by
      have : (Q : ℤ) = qm1 + b * t := by rw [← hQ, ht]; push_cast; ring
      exact_mod_cast this
    rw [ht2, cmul_ok (fits_mono (by omega) hf3), Res.bind_ok, cadd_ok (by rw [← hQe]; exact hf3), ← hQe]
    rfl
  · simp only [hlt, if_false, csub_ok (show p ≤ p' by omega), Res.bind_ok]
    obtain ⟨t, ht⟩ : ∃ t, p' = p + t := ⟨p' - p, by omega⟩
    have ht2 : p' - p = t := by omega
    have hQe : Q + b * t = qm1 := by
      have : (Q : ℤ) + b * t = qm1 := by rw [← hQ, ht]; push_cast; ring
      exact_mod_cast this
    rw [ht2, cmul_ok (fits_mono (show b * t ≤ D by omega) hw), Res.bind_ok, csub_ok (by omega), Res.bind_ok]
    have : qm1 - b * t = Q := by omega
    rw [this]; rfl

theorem squfofRho_ok {w : Width} {D rd p q qm1 : ℕ} (hrd : rd * rd < D) (hrd2 : D < (rd + 1) * (rd + 1))
    (h : SqInv D rd p q qm1) (hw : fits w D = true) (hw2 : fits w (rd + rd) = true) :
    ∃ p' q', squfofRho w rd p q qm1 = .ok (p', q', q) ∧ SqInv D rd p' q' q := by
  obtain ⟨p', q', h1, h2, -⟩ := squfofRho_step hrd hrd2 h hw hw2
  exact ⟨p', q', h1, h2⟩

theorem squfofBack_ne_panic {w : Width} {D rd : ℕ} (hrd : rd * rd < D) (hrd2 : D < (rd + 1) * (rd + 1))
    (hw : fits w D = true) (hw2 : fits w (rd + rd) = true) : ∀ (f u v vm1 : ℕ), SqInv D rd u v vm1 →
    squfofBack w rd f u v vm1 ≠ .panic := by
  intro f
  induction f with
  | zero => intro u v vm1 _; simp [squfofBack]
  | succ f ih =>
    intro u v vm1 h
    obtain ⟨p', q', h1, h2⟩ := squfofRho_ok hrd hrd2 h hw hw2
    simp only [squfofBack, h1, Res.bind_ok]
    split
    · simp
    · exact ih _ _ _ h2

/-- the form with the square root of the last coefficient -/
theorem SqInv.root {D rd p q qm1 rq : ℕ} (hrd : rd * rd < D) (hrd2 : D < (rd + 1) * (rd + 1)) (h : SqInv D rd p q qm1)
    (hq : rq ^ 2 = q) :
    SqInv D rd ((rd - p) / rq * rq + p) ((D - ((rd - p) / rq * rq + p) * ((rd - p) / rq * rq + p)) / rq) rq := by
  obtain ⟨h1, h2, h3, h4, h5, h6⟩ := h
  have hrq : 0 < rq := Nat.pos_of_ne_zero (by rintro rfl; simp at hq; omega)
  set b := (rd - p) / rq with hb
  have hb1 : b * rq ≤ rd - p := Nat.div_mul_le_self _ _
  have hb2 : rd - p < b * rq + rq := by
    have := Nat.lt_div_mul_add (a := rd - p) hrq
    rw [hb]; linarith
  obtain ⟨u, hu⟩ : ∃ u, u = b * rq + p := ⟨_, rfl⟩
  rw [← hu]
  have hule : u ≤ rd := by omega
  have huu : u * u < D := lt_of_le_of_lt (Nat.mul_le_mul hule hule) hrd
  have hdvd : rq ∣ D - u * u := by
    have : (rq : ℤ) ∣ (D : ℤ) - u * u := by
      have e : (D : ℤ) - u * u = rq * (rq * qm1 - b * (u + p)) := by
        have e1 : (D : ℤ) = rq ^ 2 * qm1 + p * p := by rw [← h6, ← hq]; push_cast; ring
        have e2 : (u : ℤ) = b * rq + p := by rw [hu]; push_cast; ring
        rw [e1, e2]; ring
      rw [e]; exact dvd_mul_right _ _
    have h7 : ((D - u * u : ℕ) : ℤ) = (D : ℤ) - u * u := by push_cast [Nat.cast_sub huu.le]; ring
    rw [← h7] at this
    exact_mod_cast this
  obtain ⟨v, hv⟩ := hdvd
  have hv2 : (D - u * u) / rq = v := by rw [hv, Nat.mul_div_cancel_left _ hrq]
  rw [hv2]
  have hD : rq * v + u * u = D := by omega
  have hvpos : 0 < v := Nat.pos_of_ne_zero (by rintro rfl; simp at hD; omega)
  refine ⟨by omega, hule, hvpos, ?_, hrq, by rw [Nat.mul_comm]; exact hD⟩
  exact form_bound (by omega) hule hD hrd2

theorem squfofForward_spec {bld : Build} {w : Width} {fuel n D rd maxIter : ℕ} (hrd : rd * rd < D)
    (hrd2 : D < (rd + 1) * (rd + 1)) (hw : fits w D = true) (hw2 : fits w (rd + rd) = true) :
    ∀ (f i p q qm1 : ℕ), SqInv D rd p q qm1 →
    squfofForward bld w fuel n D rd maxIter f i p q qm1 ≠ .panic ∧
    ∀ d k, squfofForward bld w fuel n D rd maxIter f i p q qm1 = .ok (some d, k) →
      d ∣ n ∧ 1 < d ∧ d < n := by
  intro f
  induction f with
  | zero => intro i p q qm1 _; simp [squfofForward]
  | succ f ih =>
    intro i p q qm1 h
    obtain ⟨p', q', h1, h2⟩ := squfofRho_ok hrd hrd2 h hw hw2
    simp only [squfofForward, h1, Res.bind_ok]
    have hqf : fits w q' = true := fits_mono (by have := h2.qle; have := h2.ple; omega) hw2
    have hsq := sqrtExact_spec bld w h2.qpos hqf
    obtain ⟨o, ho, hroot⟩ : ∃ o, (if i % 2 = 1 then sqrtExact bld w q' else .ok none : Res (Option ℕ)) = .ok o ∧
        ∀ rq, o = some rq → rq ^ 2 = q' := by
      by_cases hi : i % 2 = 1
      · obtain ⟨o, ho1, ho2⟩ := hsq
        exact ⟨o, by simp [hi, ho1], fun rq hrq => by subst hrq; exact (ho2 rq).mp rfl⟩
      · exact ⟨none, by simp [hi], by simp⟩
    rw [ho, Res.bind_ok]
    cases o with
    | none => exact ih _ _ _ _ h2
    | some rq =>
      have hr := hroot rq rfl
      have hinv := h2.root hrd hrd2 hr
      have hrq : 0 < rq := hinv.mpos
      simp only [csub_ok h2.ple, Res.bind_ok, cdiv_ok hrq.ne']
      generalize hu : (rd - p') / rq * rq + p' = u at hinv
      have hule := hinv.ple
      have huu : u * u ≤ D := by have := Nat.mul_le_mul hule hule; omega
      rw [cmul_ok (fits_mono (show (rd - p') / rq * rq ≤ rd + rd by omega) hw2), Res.bind_ok,
        cadd_ok (by rw [hu]; exact fits_mono (by omega) hw2), Res.bind_ok, hu, cmul_ok (fits_mono huu hw), Res.bind_ok,
        csub_ok huu, Res.bind_ok]
      have hnp := squfofBack_ne_panic hrd hrd2 hw hw2 fuel _ _ _ hinv
      cases hbk : squfofBack w rd fuel u ((D - u * u) / rq) rq with
      | panic => exact absurd hbk hnp
      | timeout => simp
      | ok u' =>
        simp only [Res.bind_ok]
        by_cases hg : Nat.gcd n u' > 1 ∧ Nat.gcd n u' < n
        · simp only [hg, and_self, if_true, Res.pure_def, ne_eq, reduceCtorEq, not_false_iff, true_and]
          intro d k hd
          simp only [Res.ok.injEq, Prod.mk.injEq, Option.some.injEq] at hd
          rw [← hd.1]
          exact ⟨Nat.gcd_dvd_left _ _, hg.1, hg.2⟩
        · rw [if_neg hg]
          exact ih _ _ _ _ h2

theorem oneLineLoop_divisor {bld : Build} {w : Width} {n D maxIter : ℕ} (hn : 0 < n) : ∀ (f i ikn d k : ℕ),
    oneLineLoop bld w n D maxIter f i ikn = .ok (some d, k) → ProperDivisor d n := by
  intro f
  induction f with
  | zero => intro i ikn d k h; simp [oneLineLoop] at h
  | succ f ih =>
    intro i ikn d k h
    simp only [oneLineLoop, Res.bind_eq_ok] at h
    obtain ⟨s, h1, ss, h2, m, h3, r, h4, g, h5, h⟩ := h
    by_cases hg : g.isSome ∧ g ≠ some 1 ∧ g ≠ some n
    · rw [if_pos hg] at h
      simp only [Res.pure_def, Res.ok.injEq, Prod.mk.injEq] at h
      obtain ⟨rfl, -⟩ := h
      cases r with
      | none => simp at h5
      | some t =>
        simp only [Res.mapR_eq_ok] at h5
        obtain ⟨x, h6, h7⟩ := h5
        simp only [Option.some.injEq] at h7
        have hdvd : d ∣ n := by rw [← h7]; exact Nat.gcd_dvd_left _ _
        have hpos := Nat.pos_of_dvd_of_pos hdvd hn
        have hle := Nat.le_of_dvd hn hdvd
        have h8 : d ≠ 1 := fun hc => hg.2.1 (by rw [hc])
        have h9 : d ≠ n := fun hc => hg.2.2 (by rw [hc])
        exact ⟨hdvd, by omega, by omega⟩
    · rw [if_neg hg] at h
      split at h
      · exact ih _ _ _ _ h
      · simp at h

/-- one round of `one_line` does not panic unless `s * s` overflows -/
theorem oneLineLoop_ne_panic {bld : Build} {w : Width} {n D maxIter : ℕ} : ∀ (f i ikn : ℕ), 0 < ikn →
    (∀ j < f, fits w (ikn + j * D) = true →
      fits w ((isqrt (ikn + j * D) + 1) * (isqrt (ikn + j * D) + 1)) = true) → fits w ikn = true →
    ∃ v, oneLineLoop bld w n D maxIter f i ikn = .ok v := by
  intro f
  induction f with
  | zero => intro i ikn _ _ _; exact ⟨_, rfl⟩
  | succ f ih =>
    intro i ikn hpos hf hfit
    have h0 := hf 0 (by omega) (by simpa using hfit)
    simp only [zero_mul, add_zero] at h0
    obtain ⟨hs1, hs2⟩ := isqrt_spec ikn
    generalize hs : isqrt ikn = s at *
    have hf1 : fits w (s + 1) = true := fits_mono (by nlinarith) h0
    have hm : 0 < (s + 1) * (s + 1) - ikn := by omega
    obtain ⟨o, ho1, ho2⟩ := sqrtExact_spec bld w hm (fits_mono (Nat.sub_le _ _) h0)
    simp only [oneLineLoop, hs, cadd_ok hf1, Res.bind_ok]
    rw [cmul_ok h0, Res.bind_ok, csub_ok hs2.le, Res.bind_ok, ho1, Res.bind_ok]
    have hcont : ∀ g : Option ℕ, ∃ v, (if g.isSome = true ∧ g ≠ some 1 ∧ g ≠ some n then pure (g, i)
        else if fits w (ikn + D) = true then oneLineLoop bld w n D maxIter f (i + 1) (ikn + D)
        else pure (none, i) : Res (Option ℕ × ℕ)) = .ok v := by
      intro g
      split
      · exact ⟨_, rfl⟩
      · split
        · rename_i hfit2
          refine ih _ _ (by omega) (fun j hj hfj => ?_) hfit2
          have h1 := hf (j + 1) (by omega)
          have e : ikn + (j + 1) * D = ikn + D + j * D := by ring
          rw [e] at h1
          exact h1 hfj
        · exact ⟨_, rfl⟩
    cases o with
      | none => exact hcont none
      | some t =>
        have ht := (ho2 t).mp rfl
        have : t ≤ s + 1 := by
          by_contra hc
          have : (s + 1) * (s + 1) < t * t := Nat.mul_self_lt_mul_self (by omega)
          rw [pow_two] at ht
          omega
        simp only [csub_ok this, Res.mapR_ok, Res.bind_ok]
        exact hcont _

end NumPrime
