import Verif.Model.Release
import Verif.Proofs.Worklist128
import Verif.Props.Factorize
import Verif.Props.Termination

/-! # C80: factorization in builds without overflow checks -/

namespace NumPrime
open Spec Tables

/-! ## the one-line method -/

theorem sqrtExactRel_spec {b m : ℕ} (hm : 0 < m) (hb : m < 2 ^ b) (r : ℕ) : sqrtExactRel b m = some r ↔ r ^ 2 = m := by
  obtain ⟨o, h1, h2⟩ := sqrtExactPrim_spec hm hb
  rw [← h2 r]
  have htz : trailingZeros (some b) m < b := by
    have h0 : trailingZeros (some b) m = tz m := by simp [trailingZeros, hm.ne']
    rw [h0]
    exact tz_lt hm hb
  unfold sqrtExactPrim at h1
  unfold sqrtExactRel
  dsimp only at h1 ⊢
  rw [Nat.mod_eq_of_lt htz]
  by_cases c1 : trailingZeros (some b) m &&& 1 = 1
  · rw [if_pos c1] at h1 ⊢
    simp only [Res.pure_def, Res.ok.injEq] at h1
    rw [← h1]
  · rw [if_neg c1] at h1 ⊢
    simp only [cshr, htz, if_true, Res.bind_ok] at h1
    by_cases c2 : m >>> trailingZeros (some b) m &&& 7 ≠ 1
    · rw [if_pos c2] at h1 ⊢
      simp only [Res.pure_def, Res.ok.injEq] at h1
      rw [← h1]
    · rw [if_neg c2] at h1 ⊢
      simp only [Res.pure_def, Res.ok.injEq] at h1
      rw [← h1]

/-- the wrapped difference is the true one: `s * s - ikn` is at most `2 * sqrt(ikn) + 1` -/
theorem wrap_round {b ikn : ℕ} (hb : 2 ≤ b) (h : ikn < 2 ^ b) :
    wadd b (isqrt ikn) 1 = isqrt ikn + 1 ∧
    wsub b (wmul b (isqrt ikn + 1) (isqrt ikn + 1)) ikn = (isqrt ikn + 1) * (isqrt ikn + 1) - ikn ∧
    (isqrt ikn + 1) * (isqrt ikn + 1) - ikn < 2 ^ b := by
  have h1 := sqrt_fits hb h
  obtain ⟨h2, h3⟩ := isqrt_spec ikn
  have h4 : 4 ≤ 2 ^ b := by
    calc 4 = 2 ^ 2 := rfl
      _ ≤ 2 ^ b := Nat.pow_le_pow_right (by norm_num) hb
  have heven : 2 ^ b % 2 = 0 := by
    obtain ⟨c, rfl⟩ := Nat.exists_eq_add_of_le hb
    rw [pow_add]; omega
  generalize isqrt ikn = r at *
  have e : (r + 1) * (r + 1) = r * r + 2 * r + 1 := by ring
  have h5 : (r + 1) * (r + 1) - ikn < 2 ^ b := by rw [e] at h3 ⊢; omega
  refine ⟨Nat.mod_eq_of_lt (by omega), ?_, h5⟩
  unfold wsub wmul
  generalize (r + 1) * (r + 1) = ss at *
  rcases Nat.lt_or_ge ss (2 ^ b) with hlt | hge
  · rw [Nat.mod_eq_of_lt hlt, show ss + 2 ^ b - ikn = (ss - ikn) + 2 ^ b by omega, Nat.add_mod_right, Nat.mod_eq_of_lt h5]
  · have hss : ss % 2 ^ b = ss - 2 ^ b := by
      rw [Nat.mod_eq_sub_mod hge, Nat.mod_eq_of_lt (by omega)]
    rw [hss, show ss - 2 ^ b + 2 ^ b - ikn = ss - ikn by omega, Nat.mod_eq_of_lt h5]

theorem wsub_le {b x y : ℕ} (h : y ≤ x) (hx : x < 2 ^ b) : wsub b x y = x - y := by
  unfold wsub
  rw [show x + 2 ^ b - y = (x - y) + 2 ^ b by omega, Nat.add_mod_right, Nat.mod_eq_of_lt (by omega)]

/-- one round computes what the round of the exact method computes -/
theorem round_exact {b ikn n : ℕ} (hb : 2 ≤ b) (h : ikn < 2 ^ b) (bld : Build) :
    (do
      let s ← cadd none (isqrt ikn) 1
      let ss ← cmul none s s
      let m ← csub ss ikn
      let r ← sqrtExact bld none m
      (match r with
        | some t => (csub s t).mapR (fun d => some (Nat.gcd n d))
        | none => .ok none : Res (Option Nat))) =
    .ok ((sqrtExactRel b (wsub b (wmul b (wadd b (isqrt ikn) 1) (wadd b (isqrt ikn) 1)) ikn)).map
      (fun t => Nat.gcd n (wsub b (wadd b (isqrt ikn) 1) t))) := by
  obtain ⟨h1, h2, h3⟩ := wrap_round hb h
  have h4 := (isqrt_spec ikn).2
  have h5 := sqrt_fits hb h
  rw [h1, h2]
  generalize hs : isqrt ikn + 1 = s at *
  have hm : 0 < s * s - ikn := by omega
  obtain ⟨o, ho1, ho2⟩ := sqrtExact_spec bld none hm rfl
  have heq : sqrtExactRel b (s * s - ikn) = o := by
    ext r
    rw [sqrtExactRel_spec hm h3, ho2 r]
  simp only [cadd_ok (show fits none (isqrt ikn + 1) = true from rfl), hs, Res.bind_ok, cmul_ok (show fits none (s * s) = true from rfl),
    csub_ok h4.le, ho1, heq]
  cases o with
  | none => rfl
  | some t =>
    have ht := (ho2 t).mp rfl
    have hle : t ≤ s := by
      by_contra hc
      have : s * s < t * t := Nat.mul_lt_mul'' (by omega) (by omega)
      rw [pow_two] at ht
      omega
    have hslt : s < 2 ^ b := by
      have : 4 ≤ 2 ^ b := by
        calc 4 = 2 ^ 2 := rfl
          _ ≤ 2 ^ b := Nat.pow_le_pow_right (by norm_num) hb
      omega
    simp only [csub_ok hle, Res.mapR_ok, Option.map_some, wsub_le hle hslt]

theorem oneLineLoopRel_exact {b n D maxIter : ℕ} (hb : 2 ≤ b) (bld : Build) : ∀ f i ikn, ikn < 2 ^ b →
    ((∃ d, (oneLineLoopRel b n D maxIter f i ikn).1 = some d) ∨ ikn + f * D < 2 ^ b) →
    oneLineLoop bld none n D maxIter f i ikn = .ok (oneLineLoopRel b n D maxIter f i ikn) := by
  intro f
  induction f with
  | zero => intro i ikn _ _; rfl
  | succ f ih =>
    intro i ikn h hor
    have hr := round_exact (n := n) hb h bld
    have key : oneLineLoop bld none n D maxIter (f + 1) i ikn =
        (do
          let g ← (do
            let s ← cadd none (isqrt ikn) 1
            let ss ← cmul none s s
            let m ← csub ss ikn
            let r ← sqrtExact bld none m
            (match r with
              | some t => (csub s t).mapR (fun d => some (Nat.gcd n d))
              | none => .ok none : Res (Option Nat)) : Res (Option ℕ))
          if g.isSome ∧ g ≠ some 1 ∧ g ≠ some n then pure (g, i)
          else if fits none (ikn + D) then oneLineLoop bld none n D maxIter f (i + 1) (ikn + D)
          else pure (none, i)) := by
      simp only [oneLineLoop, bind_assoc]
      rfl
    rw [key, hr, Res.bind_ok]
    simp only [oneLineLoopRel] at hor ⊢
    generalize (sqrtExactRel b (wsub b (wmul b (wadd b (isqrt ikn) 1) (wadd b (isqrt ikn) 1)) ikn)).map
      (fun t => Nat.gcd n (wsub b (wadd b (isqrt ikn) 1) t)) = g at *
    by_cases hg : g.isSome ∧ g ≠ some 1 ∧ g ≠ some n
    · rw [if_pos hg, if_pos hg]; rfl
    · rw [if_neg hg] at hor
      rw [if_neg hg, if_neg hg, if_pos (show fits none (ikn + D) = true from rfl)]
      by_cases hfit : fits (some b) (ikn + D) = true
      · rw [if_pos hfit] at hor ⊢
        refine ih _ _ (fits_some.mp hfit) ?_
        rcases hor with hor | hor
        · exact Or.inl hor
        · exact Or.inr (by rw [Nat.succ_mul] at hor; omega)
      · rw [if_neg hfit] at hor
        exfalso
        rcases hor with ⟨d, hd⟩ | hor
        · simp at hd
        · apply hfit
          rw [fits_some]
          rw [Nat.succ_mul] at hor
          omega

theorem oneLineLoopRel_debug {b n D maxIter : ℕ} (hb : 2 ≤ b) (bld : Build) : ∀ f i ikn v, ikn < 2 ^ b →
    oneLineLoop bld (some b) n D maxIter f i ikn = .ok v → oneLineLoopRel b n D maxIter f i ikn = v := by
  intro f
  induction f with
  | zero => intro i ikn v _ h; simpa [oneLineLoop, oneLineLoopRel] using h
  | succ f ih =>
    intro i ikn v hlt h
    simp only [oneLineLoop, Res.bind_eq_ok] at h
    obtain ⟨s, h1, ss, h2, m, h3, r, h4, g, h5, h⟩ := h
    obtain ⟨w1, w2, w3⟩ := wrap_round hb hlt
    have e1 : s = isqrt ikn + 1 := by
      unfold cadd at h1; split at h1
      · simpa using h1.symm
      · cases h1
    have e2 : ss = s * s := by
      unfold cmul at h2; split at h2
      · simpa using h2.symm
      · cases h2
    have e3 : m = ss - ikn := by
      unfold csub at h3; split at h3
      · simpa using h3.symm
      · cases h3
    rw [← e1, ← e2, ← e3] at w2 w3
    have hm : 0 < m := by
      have := (isqrt_spec ikn).2
      rw [← e1] at this
      omega
    obtain ⟨o, ho1, ho2⟩ := sqrtExact_spec bld (some b) hm (fits_some.mpr w3)
    have hro : r = o := by rw [ho1] at h4; simpa using h4.symm
    have heq : sqrtExactRel b m = r := by
      ext x
      rw [sqrtExactRel_spec hm w3, hro, ho2 x]
    have hg : g = r.map (fun t => Nat.gcd n (wsub b s t)) := by
      cases r with
      | none => simpa using h5.symm
      | some t =>
        simp only [Res.mapR_eq_ok] at h5
        obtain ⟨x, h6, h7⟩ := h5
        rw [← h7]
        have hslt : s < 2 ^ b := by
          unfold cadd at h1; split at h1
          · rename_i hf; rw [e1]; exact fits_some.mp hf
          · cases h1
        unfold csub at h6
        split at h6
        · rename_i hle
          simp only [Res.ok.injEq] at h6
          rw [Option.map_some, wsub_le hle hslt, h6]
        · cases h6
    simp only [oneLineLoopRel, w1, ← e1]
    rw [w2, heq, ← hg]
    by_cases hc : g.isSome ∧ g ≠ some 1 ∧ g ≠ some n
    · rw [if_pos hc] at h ⊢
      simpa using h
    · rw [if_neg hc] at h ⊢
      by_cases hfit : fits (some b) (ikn + D) = true
      · rw [if_pos hfit] at h ⊢
        exact ih _ _ _ (fits_some.mp hfit) h
      · rw [if_neg hfit] at h ⊢
        simpa using h

theorem oneLineLoopRel_divisor {b n D maxIter : ℕ} (hn : 0 < n) : ∀ f i ikn d,
    (oneLineLoopRel b n D maxIter f i ikn).1 = some d → ProperDivisor d n := by
  intro f
  induction f with
  | zero => intro i ikn d h; simp [oneLineLoopRel] at h
  | succ f ih =>
    intro i ikn d h
    simp only [oneLineLoopRel] at h
    generalize hg : (sqrtExactRel b (wsub b (wmul b (wadd b (isqrt ikn) 1) (wadd b (isqrt ikn) 1)) ikn)).map
      (fun t => Nat.gcd n (wsub b (wadd b (isqrt ikn) 1) t)) = g at h
    by_cases hc : g.isSome ∧ g ≠ some 1 ∧ g ≠ some n
    · rw [if_pos hc] at h
      simp only at h
      rw [h, Option.map_eq_some_iff] at hg
      obtain ⟨t, -, ht⟩ := hg
      have hdvd : d ∣ n := by rw [← ht]; exact Nat.gcd_dvd_left _ _
      have hpos := Nat.pos_of_dvd_of_pos hdvd hn
      have hle := Nat.le_of_dvd hn hdvd
      have h8 : d ≠ 1 := fun hx => hc.2.1 (by rw [h, hx])
      have h9 : d ≠ n := fun hx => hc.2.2 (by rw [h, hx])
      exact ⟨hdvd, by omega, by omega⟩
    · rw [if_neg hc] at h
      split at h
      · exact ih _ _ _ h
      · simp at h

theorem oneLineRel_ok {b n k : ℕ} (maxIter : ℕ) (hn : 0 < n) :
    oneLineRel b n (k * n) maxIter = .ok (oneLineLoopRel b n (k * n) maxIter (maxIter - 1) 1 (k * n)) := by
  have hc : ¬ (n = 0 ∨ k * n % n ≠ 0) := by simp; omega
  rw [oneLineRel, if_neg hc]

/-- **C80** `one_line` on a machine integer type always returns when overflow checks are off, although `s * s` may wrap
around: whatever it finds is what the same method finds with unbounded integers, in the same number of rounds; if all multiples
`i * k * n` fit the type, the outcome is the same also when nothing is found -/
theorem C80_one_line_release (bld : Build) (b n k maxIter : ℕ) (hb : 2 ≤ b) (hn : 0 < n) (hkn : k * n < 2 ^ b) :
    ∃ v, oneLineRel b n (k * n) maxIter = .ok v ∧
      (v.1.isSome ∨ maxIter * (k * n) < 2 ^ b → oneLine bld none n (k * n) maxIter = .ok v) ∧
      ∀ d, v.1 = some d → ProperDivisor d n := by
  have hc : ¬ (n = 0 ∨ k * n % n ≠ 0) := by simp; omega
  have h1 : (oneLineLoopRel b n (k * n) maxIter (maxIter - 1) 1 (k * n)).1.isSome ∨ maxIter * (k * n) < 2 ^ b →
      oneLine bld none n (k * n) maxIter = .ok (oneLineLoopRel b n (k * n) maxIter (maxIter - 1) 1 (k * n)) := by
    intro h
    rw [oneLine, if_neg hc]
    refine oneLineLoopRel_exact hb bld _ _ _ hkn ?_
    rcases h with h | h
    · exact Or.inl (Option.isSome_iff_exists.mp h)
    · right
      rcases Nat.eq_zero_or_pos maxIter with h0 | h0
      · subst h0; simpa using hkn
      · obtain ⟨j, rfl⟩ := Nat.exists_eq_add_of_le' h0
        rw [Nat.succ_mul] at h
        simp only [Nat.add_sub_cancel]
        omega
  refine ⟨_, oneLineRel_ok maxIter hn, h1, fun d hd => ?_⟩
  have h2 := h1 (Or.inl (by rw [hd]; rfl))
  generalize oneLineLoopRel b n (k * n) maxIter (maxIter - 1) 1 (k * n) = v at *
  obtain ⟨o, i⟩ := v
  simp only at hd
  subst hd
  exact C42_one_line bld none n (k * n) maxIter d i h2

-- the first round on this target overflows (C43_one_line_overflow); without checks the method goes on and finds the factor
example : oneLine .big (some 64) (4294967281 * 4294967311) (1 * (4294967281 * 4294967311)) 3 = .panic ∧
    oneLineRel 64 (4294967281 * 4294967311) (1 * (4294967281 * 4294967311)) 3 = .ok (some 4294967281, 1) := by decide +kernel

/-- **C80** with overflow checks the outcome, if there is one, is the same -/
theorem C80_one_line_checked (bld : Build) (b n k maxIter : ℕ) (hb : 2 ≤ b) (hn : 0 < n) (hkn : k * n < 2 ^ b) (v : Option ℕ × ℕ)
    (h : oneLine bld (some b) n (k * n) maxIter = .ok v) : oneLineRel b n (k * n) maxIter = .ok v := by
  have hc : ¬ (n = 0 ∨ k * n % n ≠ 0) := by simp; omega
  rw [oneLine, if_neg hc] at h
  rw [oneLineRel_ok maxIter hn, oneLineLoopRel_debug hb bld _ _ _ _ hkn h]

/-! ## the divisor search -/

theorem trySqufofRel_spec {bld : Build} {b fuel n ratio : ℕ} (hb : 2 ≤ b) (hn : 0 < n) : ∀ ks : List ℕ,
    trySqufofRel bld b fuel n ratio ks ≠ .panic ∧
    ((∀ k ∈ ks, ¬ IsSquare (k * n)) → ∀ d, trySqufofRel bld b fuel n ratio ks = .ok (some d) → ProperDivisor d n) ∧
    ∀ v, trySqufof bld b fuel n ratio ks = .ok v → trySqufofRel bld b fuel n ratio ks = .ok v := by
  intro ks
  induction ks with
  | nil => exact ⟨by simp [trySqufofRel], fun _ d h => by simp [trySqufofRel] at h, fun v h => h⟩
  | cons k ks ih =>
    obtain ⟨i1, i2, i3⟩ := ih
    have hb' : ∀ c, (some b : Width) = some c → 2 ≤ c := fun c hc => by simp only [Option.some.injEq] at hc; omega
    by_cases hfit : fits (some b) (n * k) = true
    · have hfit' := hfit
      rw [Nat.mul_comm n k] at hfit'
      simp only [trySqufofRel, trySqufof, hfit, if_true]
      refine ⟨?_, fun hks d h => ?_, fun v h => ?_⟩
      · have hnp := C41_squfof_no_panic bld (some b) fuel n k
          (wmul 64 (wmul 64 ratio 2) (isqrt (isqrt (n * k)) % 2 ^ 64)) hb' hn hfit'
        rw [Nat.mul_comm k n] at hnp
        cases hs : squfof bld (some b) fuel n (n * k) (wmul 64 (wmul 64 ratio 2) (isqrt (isqrt (n * k)) % 2 ^ 64)) with
        | panic => exact absurd hs hnp
        | timeout => intro h; cases h
        | ok v =>
          obtain ⟨o, j⟩ := v
          simp only [Res.bind_ok]
          cases o with
          | none => exact i1
          | some d => intro h; cases h
      · rw [Res.bind_eq_ok] at h
        obtain ⟨⟨o, j⟩, h1, h2⟩ := h
        cases o with
        | none => exact i2 (fun k hk => hks k (List.mem_cons_of_mem _ hk)) d h2
        | some d' =>
          simp only [Res.pure_def, Res.ok.injEq, Option.some.injEq] at h2
          subst h2
          rw [Nat.mul_comm n k] at h1
          exact C40_squfof_partial bld (some b) fuel n k _ d' j hb' hn hfit' (hks k (by simp)) h1
      · simp only [Res.bind_eq_ok] at h
        obtain ⟨r2, h1, mi, h2, ⟨o, j⟩, h3, h4⟩ := h
        have e1 : wmul 64 ratio 2 = r2 := by
          unfold cmul at h1; split at h1
          · rename_i hf
            simp only [Res.ok.injEq] at h1
            rw [← h1, wmul, Nat.mod_eq_of_lt (fits_some.mp hf)]
          · cases h1
        have e2 : wmul 64 r2 (isqrt (isqrt (n * k)) % 2 ^ 64) = mi := by
          unfold cmul at h2; split at h2
          · rename_i hf
            simp only [Res.ok.injEq] at h2
            rw [← h2, wmul, Nat.mod_eq_of_lt (fits_some.mp hf)]
          · cases h2
        rw [e1, e2, h3, Res.bind_ok]
        cases o with
        | none => exact i3 v h4
        | some d => exact h4
    · simp only [trySqufofRel, trySqufof, hfit, if_false]
      exact ⟨i1, fun hks => i2 (fun k hk => hks k (List.mem_cons_of_mem _ hk)), i3⟩

theorem mulTarget_eq (b n : ℕ) : ∃ k, (if fits (some b) (n * 480) = true then n * 480 else n) = k * n ∧
    (n < 2 ^ b → k * n < 2 ^ b) := by
  split
  · rename_i h
    exact ⟨480, Nat.mul_comm _ _, fun _ => by rw [Nat.mul_comm]; exact fits_some.mp h⟩
  · exact ⟨1, (Nat.one_mul n).symm, fun h => by rwa [Nat.one_mul]⟩

section
variable (bld : Build) (b : ℕ) (rng : Rng) (fuel n k i ratio : ℕ)

theorem tryMethodRel_0 (h : i % 3 = 0) : tryMethodRel bld b rng fuel n k i ratio =
    (tryRho rng k n ((ratio <<< (bits n / 6)) % 2 ^ 64)).mapR (fun d => (d, k + 2)) := by unfold tryMethodRel; rw [h]; rfl
theorem tryMethod_0 (h : i % 3 = 0) : tryMethod bld b rng fuel n k i ratio =
    (tryRho rng k n ((ratio <<< (bits n / 6)) % 2 ^ 64)).mapR (fun d => (d, k + 2)) := by unfold tryMethod; rw [h]; rfl
theorem tryMethodRel_1 (h : i % 3 = 1) {m : ℕ} (hm : (if fits (some b) (n * 480) = true then n * 480 else n) = m) :
    tryMethodRel bld b rng fuel n k i ratio =
    (oneLineRel b n m ((ratio <<< (bits m / 6)) % 2 ^ 64)).mapR (fun d => (d.1, k)) := by
  unfold tryMethodRel; rw [h]; subst hm; rfl
theorem tryMethod_1 (h : i % 3 = 1) {m : ℕ} (hm : (if fits (some b) (n * 480) = true then n * 480 else n) = m) :
    tryMethod bld b rng fuel n k i ratio =
    (oneLine bld (some b) n m ((ratio <<< (bits m / 6)) % 2 ^ 64)).mapR (fun d => (d.1, k)) := by
  unfold tryMethod; rw [h]; subst hm; rfl
theorem tryMethodRel_2 (h : i % 3 = 2) : tryMethodRel bld b rng fuel n k i ratio =
    (trySqufofRel bld b fuel n ratio squfofMultipliers).mapR (fun d => (d, k)) := by unfold tryMethodRel; rw [h]; rfl
theorem tryMethod_2 (h : i % 3 = 2) : tryMethod bld b rng fuel n k i ratio =
    (trySqufof bld b fuel n ratio squfofMultipliers).mapR (fun d => (d, k)) := by unfold tryMethod; rw [h]; rfl
end

theorem tryMethodRel_spec {bld : Build} {b fuel n k i ratio : ℕ} {rng : Rng} (hb : 2 ≤ b) (hn : n % 2 = 1) :
    tryMethodRel bld b rng fuel n k i ratio ≠ .panic ∧
    (Rough bld n → ¬ IsSquare n → ∀ d k', tryMethodRel bld b rng fuel n k i ratio = .ok (some d, k') → ProperDivisor d n) ∧
    (n < 2 ^ b → ∀ v, tryMethod bld b rng fuel n k i ratio = .ok v → tryMethodRel bld b rng fuel n k i ratio = .ok v) := by
  have hn0 : 0 < n := by omega
  have hc3 : i % 3 = 0 ∨ i % 3 = 1 ∨ i % 3 = 2 := by omega
  rcases hc3 with h3 | h3 | h3
  · rw [tryMethodRel_0 _ _ _ _ _ _ _ _ h3, tryMethod_0 _ _ _ _ _ _ _ _ h3]
    refine ⟨?_, fun _ _ d k' h => ?_, fun _ v h => h⟩
    · rw [tryRho, if_neg (by omega)]
      obtain ⟨o, j, h1, -⟩ := C39_pollard_rho n (rng.word k % n) (rng.word (k + 1) % n) ((ratio <<< (bits n / 6)) % 2 ^ 64) hn0
      rw [h1]
      intro h; cases h
    · rw [Res.mapR_eq_ok] at h
      obtain ⟨o, h1, h2⟩ := h
      simp only [Prod.mk.injEq] at h2
      rw [h2.1] at h1
      exact tryRho_divisor h1
  · obtain ⟨c, hc1, hc2⟩ := mulTarget_eq b n
    rw [tryMethodRel_1 _ _ _ _ _ _ _ _ h3 hc1, tryMethod_1 _ _ _ _ _ _ _ _ h3 hc1]
    refine ⟨?_, fun _ _ d k' h => ?_, fun hlt x h => ?_⟩
    · rw [oneLineRel_ok _ hn0]; intro h; cases h
    · rw [oneLineRel_ok _ hn0, Res.mapR_ok] at h
      simp only [Res.ok.injEq, Prod.mk.injEq] at h
      exact oneLineLoopRel_divisor hn0 _ _ _ d h.1
    · rw [Res.mapR_eq_ok] at h
      obtain ⟨y, h1, h2⟩ := h
      rw [C80_one_line_checked bld b n c _ hb hn0 (hc2 hlt) y h1, Res.mapR_ok, h2]
  · rw [tryMethodRel_2 _ _ _ _ _ _ _ _ h3, tryMethod_2 _ _ _ _ _ _ _ _ h3]
    obtain ⟨s1, s2, s3⟩ := trySqufofRel_spec (bld := bld) (fuel := fuel) (ratio := ratio) hb hn0 squfofMultipliers
    refine ⟨?_, fun hr hsq d k' h => ?_, fun _ x h => ?_⟩
    · intro h
      cases hs : trySqufofRel bld b fuel n ratio squfofMultipliers with
      | panic => exact s1 hs
      | ok v => rw [hs] at h; cases h
      | timeout => rw [hs] at h; cases h
    · rw [Res.mapR_eq_ok] at h
      obtain ⟨o, h1, h2⟩ := h
      simp only [Prod.mk.injEq] at h2
      rw [h2.1] at h1
      refine s2 (fun k hk hs => hsq ?_) d h1
      rw [Nat.mul_comm] at hs
      exact isSquare_of_mul_isSquare (multiplier_coprime hr hk) hs
    · rw [Res.mapR_eq_ok] at h
      obtain ⟨y, h1, h2⟩ := h
      rw [s3 y h1, Res.mapR_ok, h2]

theorem findDivisorRel_spec {bld : Build} {b fuel n : ℕ} {rng : Rng} (hb : 2 ≤ b) (hn : n % 2 = 1) :
    ∀ f k i ratio, findDivisorRel bld b rng fuel n f k i ratio ≠ .panic ∧
    (Rough bld n → ¬ IsSquare n → ∀ d k', findDivisorRel bld b rng fuel n f k i ratio = .ok (d, k') → ProperDivisor d n) ∧
    (n < 2 ^ b → ∀ v, findDivisor bld b rng fuel n f k i ratio = .ok v → findDivisorRel bld b rng fuel n f k i ratio = .ok v) := by
  intro f
  induction f with
  | zero =>
    intro k i ratio
    exact ⟨by simp [findDivisorRel], fun _ _ d k' h => by simp [findDivisorRel] at h, fun _ v h => by simp [findDivisor] at h⟩
  | succ f ih =>
    intro k i ratio
    obtain ⟨t1, t2, t3⟩ := tryMethodRel_spec (bld := bld) (fuel := fuel) (k := k) (i := i) (ratio := ratio) (rng := rng) hb hn
    simp only [findDivisorRel, findDivisor]
    refine ⟨?_, fun hr hsq d k' h => ?_, fun hlt v h => ?_⟩
    · cases hs : tryMethodRel bld b rng fuel n k i ratio with
      | panic => exact absurd hs t1
      | timeout => intro h; cases h
      | ok v =>
        obtain ⟨o, k1⟩ := v
        rw [Res.bind_ok]
        cases o with
        | some d => intro h; cases h
        | none => exact (ih _ _ _).1
    · rw [Res.bind_eq_ok] at h
      obtain ⟨⟨o, k1⟩, h1, h2⟩ := h
      cases o with
      | some d' =>
        simp only [Res.pure_def, Res.ok.injEq, Prod.mk.injEq] at h2
        rw [← h2.1]
        exact t2 hr hsq d' k1 h1
      | none => exact (ih _ _ _).2.1 hr hsq d k' h2
    · rw [Res.bind_eq_ok] at h
      obtain ⟨⟨o, k1⟩, h1, h2⟩ := h
      rw [t3 hlt _ h1, Res.bind_ok]
      cases o with
      | some d' => exact h2
      | none =>
        simp only [Res.bind_eq_ok] at h2
        obtain ⟨r, h3, h4⟩ := h2
        have e : (if (i + 1) % 3 = 0 then wmul 64 ratio 2 else ratio) = r := by
          by_cases hi : (i + 1) % 3 = 0
          · rw [if_pos hi] at h3 ⊢
            unfold cmul at h3; split at h3
            · rename_i hf
              simp only [Res.ok.injEq] at h3
              rw [← h3, wmul, Nat.mod_eq_of_lt (fits_some.mp hf)]
            · cases h3
          · rw [if_neg hi] at h3 ⊢
            simpa using h3
        dsimp only
        rw [e]
        exact (ih _ _ _).2.2 hlt v h4

theorem searchRel_ok (bld : Build) (b : ℕ) (hb : 2 ≤ b) (rng : Rng) (fuel : ℕ) : FindOk bld (searchRel bld b rng fuel) :=
  fun _ _ d k' _ h2 h3 h5 => (findDivisorRel_spec hb h2.odd _ _ _ _).2.1 h2 h3 d k' h5

theorem searchRel_no_panic (bld : Build) (b : ℕ) (hb : 2 ≤ b) (rng : Rng) (fuel n k : ℕ) (hr : Rough bld n) :
    searchRel bld b rng fuel n k ≠ .panic := (findDivisorRel_spec hb hr.odd _ _ _ _).1

theorem searchRel_agrees (bld : Build) (b : ℕ) (hb : 2 ≤ b) (rng : Rng) (fuel n k : ℕ) (hr : Rough bld n) (hlt : n < 2 ^ b)
    (v : ℕ × ℕ) (h : search bld b rng fuel n k = .ok v) : searchRel bld b rng fuel n k = .ok v :=
  (findDivisorRel_spec hb hr.odd _ _ _ _).2.2 hlt v h

/-! ## the worklists -/

/-- the second search does not panic and refines the first -/
structure Refines (bld : Build) (b : ℕ) (find find' : ℕ → ℕ → Res (ℕ × ℕ)) : Prop where
  ok : FindOk bld find'
  no_panic : ∀ n k, Rough bld n → find' n k ≠ .panic
  agrees : ∀ n k v, Rough bld n → n < 2 ^ b → find n k = .ok v → find' n k = .ok v

theorem search_refines (bld : Build) (b : ℕ) (hb : 2 ≤ b) (rng : Rng) (fuel : ℕ) :
    Refines bld b (search bld b rng fuel) (searchRel bld b rng fuel) where
  ok := searchRel_ok bld b hb rng fuel
  no_panic := fun n k hr => searchRel_no_panic bld b hb rng fuel n k hr
  agrees := fun n k v hr hlt h => searchRel_agrees bld b hb rng fuel n k hr hlt v h

theorem advanced64Loop_refines {bld : Build} {find find' : ℕ → ℕ → Res (ℕ × ℕ)} (hF : Refines bld 64 find find') :
    ∀ (f k : ℕ) (todo done : List (ℕ × ℕ)), (∀ x ∈ todo, Todo64 bld x) →
    advanced64Loop bld find' f k todo done ≠ .panic ∧
    ∀ v, advanced64Loop bld find f k todo done = .ok v → advanced64Loop bld find' f k todo done = .ok v := by
  intro f
  induction f with
  | zero =>
    intro k todo done ht
    cases todo with
    | nil => exact ⟨by simp [advanced64Loop], fun v h => h⟩
    | cons x t => exact ⟨by simp [advanced64Loop], fun v h => by simp [advanced64Loop] at h⟩
  | succ f ih =>
    intro k todo done ht
    cases todo with
    | nil => exact ⟨by simp [advanced64Loop], fun v h => h⟩
    | cons x t =>
      obtain ⟨n, e⟩ := x
      obtain ⟨h1, h64, hr, he⟩ := ht (n, e) (by simp)
      simp only at h1 h64 hr he
      have ht' : ∀ x ∈ t, Todo64 bld x := fun x hx => ht x (List.mem_cons_of_mem _ hx)
      simp only [advanced64Loop]
      split
      · exact ih _ _ _ ht'
      · obtain ⟨o, h2, ho2⟩ := sqrtExact_spec bld (some 64) (show 0 < n by omega) (fits_some.mpr h64)
        simp only [h2, Res.bind_ok]
        cases o with
        | some d =>
          have hd2 := (ho2 d).mp rfl
          obtain ⟨a1, a2, a3⟩ := root_todo h1 (by norm_num) hd2
          exact ih _ _ _ (by
            intro x hx
            rcases List.mem_cons.mp hx with rfl | hx
            · exact ⟨a1, by simp only; omega, hr.of_dvd a3, by simp only; omega⟩
            · exact ht' x hx)
        | none =>
          have hns := not_isSquare_of (by omega) (fits_some.mpr h64) h2
          cases hc : cbrtExact bld (some 64) n with
          | some d =>
            have hd2 := (cbrtExact_spec bld (some 64) n d).mp hc
            obtain ⟨a1, a2, a3⟩ := root_todo h1 (by norm_num) hd2
            exact ih _ _ _ (by
              intro x hx
              rcases List.mem_cons.mp hx with rfl | hx
              · exact ⟨a1, by simp only; omega, hr.of_dvd a3, by simp only; omega⟩
              · exact ht' x hx)
          | none =>
            dsimp only
            have step : ∀ d k1, find' n k = .ok (d, k1) → ∀ x ∈ (n / d, e) :: (d, e) :: t, Todo64 bld x := by
              intro d k1 hfd x hx
              obtain ⟨b1, b2, b3⟩ := hF.ok n k d k1 h1 hr hns hfd
              obtain ⟨hq1, hqlt, hqn, hq⟩ := cofactor h1 ⟨b1, b2, b3⟩
              rcases List.mem_cons.mp hx with rfl | hx
              · exact ⟨hq1, by simp only; omega, hr.of_dvd hqn, he⟩
              · rcases List.mem_cons.mp hx with rfl | hx
                · exact ⟨b2, by simp only; omega, hr.of_dvd b1, he⟩
                · exact ht' x hx
            constructor
            · cases h3 : find' n k with
              | panic => exact absurd h3 (hF.no_panic n k hr)
              | timeout => intro h; cases h
              | ok v =>
                obtain ⟨d, k1⟩ := v
                have b2 := (hF.ok n k d k1 h1 hr hns h3).2.1
                simp only [Res.bind_ok, cdiv_ok (show d ≠ 0 by omega)]
                exact (ih _ _ _ (step d k1 h3)).1
            · intro v h
              rw [Res.bind_eq_ok] at h
              obtain ⟨⟨d, k1⟩, h3, h4⟩ := h
              have h5 := hF.agrees n k _ hr h64 h3
              have b2 := (hF.ok n k d k1 h1 hr hns h5).2.1
              simp only [cdiv_ok (show d ≠ 0 by omega), Res.bind_ok] at h4
              simp only [h5, Res.bind_ok, cdiv_ok (show d ≠ 0 by omega)]
              exact (ih _ _ _ (step d k1 h5)).2 v h4

theorem advanced128Loop_refines {bld : Build} {find find' : ℕ → ℕ → Res (ℕ × ℕ)} (hF : Refines bld 128 find find') :
    ∀ (f k : ℕ) (t : List (ℕ × ℕ) × List (ℕ × ℕ)) (done : List (ℕ × ℕ)), Lists bld t →
    advanced128Loop bld find' f k t done ≠ .panic ∧
    ∀ v, advanced128Loop bld find f k t done = .ok v → advanced128Loop bld find' f k t done = .ok v := by
  intro f
  induction f with
  | zero =>
    rintro k ⟨t1, t2⟩ done hL
    cases t1 with
    | nil => exact ⟨by simp [advanced128Loop], fun v h => by simpa [advanced128Loop] using h⟩
    | cons x t => exact ⟨by simp [advanced128Loop], fun v h => by simp [advanced128Loop] at h⟩
  | succ f ih =>
    rintro k ⟨t1, t2⟩ done hL
    cases t1 with
    | nil => exact ⟨by simp [advanced128Loop], fun v h => by simpa [advanced128Loop] using h⟩
    | cons x t =>
      obtain ⟨n, e⟩ := x
      obtain ⟨⟨h1, h128, hr, he⟩, h64⟩ := hL.1 (n, e) (by simp)
      simp only at h1 h128 hr he h64
      have hL' : Lists bld (t, t2) := ⟨fun x hx => hL.1 x (List.mem_cons_of_mem _ hx), hL.2⟩
      obtain ⟨v, hv⟩ := isPrimeNew128_total bld h128
      simp only [advanced128Loop, hv, Res.bind_ok]
      by_cases hm : v.probably = true
      · simp only [hm, if_true]
        exact ih _ _ _ hL'
      · simp only [hm, Bool.false_eq_true, if_false]
        obtain ⟨o, h2, ho2⟩ := sqrtExact_spec bld (some 128) (show 0 < n by omega) (fits_some.mpr h128)
        simp only [h2, Res.bind_ok]
        cases o with
        | some d =>
          have hd2 := (ho2 d).mp rfl
          obtain ⟨a1, a2, a3⟩ := root_todo h1 (by norm_num) hd2
          exact ih _ _ _ (hL'.push (x := (d, e * 2)) ⟨a1, by simp only; omega, hr.of_dvd a3, by simp only; omega⟩).1
        | none =>
          have hns := not_isSquare_of (by omega) (fits_some.mpr h128) h2
          cases hc : cbrtExact bld (some 128) n with
          | some d =>
            have hd2 := (cbrtExact_spec bld (some 128) n d).mp hc
            obtain ⟨a1, a2, a3⟩ := root_todo h1 (by norm_num) hd2
            exact ih _ _ _ (hL'.push (x := (d, e * 3)) ⟨a1, by simp only; omega, hr.of_dvd a3, by simp only; omega⟩).1
          | none =>
            dsimp only
            have step : ∀ d k1, find' n k = .ok (d, k1) → Lists bld (pushCofactor (n / d, e) (pushCofactor (d, e) (t, t2))) := by
              intro d k1 hfd
              obtain ⟨b1, b2, b3⟩ := hF.ok n k d k1 h1 hr hns hfd
              obtain ⟨hq1, hqlt, hqn, hq⟩ := cofactor h1 ⟨b1, b2, b3⟩
              have hx1 : Todo bld (d, e) := ⟨b2, by simp only; omega, hr.of_dvd b1, he⟩
              have hx2 : Todo bld (n / d, e) := ⟨hq1, by simp only; omega, hr.of_dvd hqn, he⟩
              exact ((hL'.push hx1).1.push hx2).1
            constructor
            · cases h3 : find' n k with
              | panic => exact absurd h3 (hF.no_panic n k hr)
              | timeout => intro h; cases h
              | ok v =>
                obtain ⟨d, k1⟩ := v
                have b2 := (hF.ok n k d k1 h1 hr hns h3).2.1
                simp only [Res.bind_ok, cdiv_ok (show d ≠ 0 by omega)]
                exact (ih _ _ _ (step d k1 h3)).1
            · intro v h
              rw [Res.bind_eq_ok] at h
              obtain ⟨⟨d, k1⟩, h3, h4⟩ := h
              have h5 := hF.agrees n k _ hr h128 h3
              have b2 := (hF.ok n k d k1 h1 hr hns h5).2.1
              simp only [cdiv_ok (show d ≠ 0 by omega), Res.bind_ok] at h4
              simp only [h5, Res.bind_ok, cdiv_ok (show d ≠ 0 by omega)]
              exact (ih _ _ _ (step d k1 h5)).2 v h4

/-! ## the factorization functions -/

theorem mapR_ne_panic {α β : Type} {x : Res α} (f : α → β) (hx : x ≠ .panic) : x.mapR f ≠ .panic := by
  cases x with
  | ok a => intro h; cases h
  | timeout => intro h; cases h
  | panic => exact absurd rfl hx

/-- **C80** without overflow checks `factorize64` never panics on a positive target; a map it returns is a factorization into
numbers that pass the primality test, whatever the random source returns and whatever wrapped around on the way -/
theorem C80_factorize64_release (bld : Build) (rng : Rng) (fuel k n : ℕ) (hn : 1 ≤ n) (h64 : n < 2 ^ 64) :
    factorize64Rel bld rng fuel k n ≠ .panic ∧
    ∀ m k', factorize64Rel bld rng fuel k n = .ok (m, k') →
      product m = n ∧ Ordered m ∧ ∀ x ∈ m, isPrime64 bld x.1 = true ∧ 0 < x.2 := by
  have hF := search_refines bld 64 (by norm_num) rng fuel
  rcases factorize64With_cases (bld := bld) (fuel := fuel) (k := k) hn h64 with ⟨m', h1, h2⟩ | ⟨m', r, h1, h2, h3⟩
  · rw [factorize64Rel, h1]
    refine ⟨by simp, fun m k' h => ?_⟩
    simp only [Res.ok.injEq, Prod.mk.injEq] at h
    rw [← h.1]; exact ⟨h2.prod, h2.ordered, fun x hx => ⟨h2.key x hx, h2.pos x hx⟩⟩
  · rw [factorize64Rel, h3]
    refine ⟨mapR_ne_panic _ (advanced64Loop_refines hF _ _ _ _ (by simpa using h2)).1, fun m k' h => ?_⟩
    rw [Res.mapR_eq_ok] at h
    obtain ⟨⟨l, k1⟩, h4, h5⟩ := h
    simp only [Prod.mk.injEq] at h5
    rw [← h5.1]
    obtain ⟨g1, g2⟩ := advanced64Loop_spec hF.ok _ _ _ _ _ _ (by simpa using h2) (by simp) h4
    have key := fmap_merged h1 (P := fun p => isPrime64 bld p = true) (by rw [g2]; simp) (fun p hp => isPrime64_prime bld hp)
      (fun x hx => (g1 x hx).2.1) (fun x hx => (g1 x hx).2.2)
    exact ⟨key.prod, key.ordered, fun x hx => ⟨key.key x hx, key.pos x hx⟩⟩

/-- **C80** given exactness of the 64 bit primality test (see C02), the map is the prime factorization -/
theorem C80_factorize64_release_exact (bld : Build) (hex : NoPseudoprimes bld) (rng : Rng) (fuel k n : ℕ) (hn : 1 ≤ n)
    (h64 : n < 2 ^ 64) (m : List (ℕ × ℕ)) (k' : ℕ) (h : factorize64Rel bld rng fuel k n = .ok (m, k')) :
    IsFactorization m n := by
  obtain ⟨h1, h2, h3⟩ := (C80_factorize64_release bld rng fuel k n hn h64).2 m k' h
  have hkey : ∀ x ∈ m, x.1 < 2 ^ 64 := by
    intro x hx
    have hd : x.1 ∣ n := by
      rw [← h1]
      refine (dvd_pow_self x.1 (h3 x hx).2.ne').trans ?_
      exact List.dvd_prod (List.mem_map_of_mem (f := fun x : ℕ × ℕ => x.1 ^ x.2) hx)
    exact lt_of_le_of_lt (Nat.le_of_dvd hn hd) h64
  exact isFactorization_of h2
    (fun x hx => ((C02_is_prime64_exact_partial bld).mpr hex x.1 (hkey x hx)).mp (h3 x hx).1) (fun x hx => (h3 x hx).2) h1

/-- **C80** what `factorize64` returns with overflow checks it returns without them -/
theorem C80_factorize64_agrees (bld : Build) (rng : Rng) (fuel k n : ℕ) (hn : 1 ≤ n) (h64 : n < 2 ^ 64) (v : List (ℕ × ℕ) × ℕ)
    (h : factorize64 bld rng fuel k n = .ok v) : factorize64Rel bld rng fuel k n = .ok v := by
  have hF := search_refines bld 64 (by norm_num) rng fuel
  rcases factorize64With_cases (bld := bld) (fuel := fuel) (k := k) hn h64 with ⟨m', h1, h2⟩ | ⟨m', r, h1, h2, h3⟩
  · rw [factorize64, h1] at h
    rw [factorize64Rel, h1, h]
  · rw [factorize64, h3, Res.mapR_eq_ok] at h
    obtain ⟨y, h4, h5⟩ := h
    rw [factorize64Rel, h3]
    unfold factorize64Advanced at h4 ⊢
    rw [(advanced64Loop_refines hF _ _ _ _ (by simpa using h2)).2 y h4, Res.mapR_ok, h5]

/-- **C80** the same for `factorize128` -/
theorem C80_factorize128_release (bld : Build) (rng : Rng) (fuel k n : ℕ) (hn : 1 ≤ n) (h128 : n < 2 ^ 128) :
    factorize128Rel bld rng fuel k n ≠ .panic ∧
    ∀ m k', factorize128Rel bld rng fuel k n = .ok (m, k') →
      product m = n ∧ Ordered m ∧ ∀ x ∈ m, 0 < x.2 ∧
        ∃ v, isPrimeNew bld (some 128) x.1 (some .bpsw) [] = .ok v ∧ v.probably = true := by
  have hF := search_refines bld 64 (by norm_num) rng fuel
  have hF2 := search_refines bld 128 (by norm_num) rng fuel
  rcases Nat.lt_or_ge n (2 ^ 64) with h64 | h64
  · rw [factorize128Rel, factorize128With, if_pos h64]
    obtain ⟨g1, g2⟩ := C80_factorize64_release bld rng fuel k n hn h64
    refine ⟨g1, fun m k' h => ?_⟩
    obtain ⟨h1, h2, h3⟩ := g2 m k' h
    refine ⟨h1, h2, fun x hx => ⟨(h3 x hx).2, (accepted128_below ?_).mpr (h3 x hx).1⟩⟩
    have hd : x.1 ∣ n := by
      rw [← h1]
      refine (dvd_pow_self x.1 (h3 x hx).2.ne').trans ?_
      exact List.dvd_prod (List.mem_map_of_mem (f := fun x : ℕ × ℕ => x.1 ^ x.2) hx)
    exact lt_of_le_of_lt (Nat.le_of_dvd hn hd) h64
  · rcases factorize128With_cases (bld := bld) (fuel := fuel) (k := k) h64 h128 with ⟨m', h1, h2⟩ | ⟨m', r, h1, h2, h3⟩
    · rw [factorize128Rel, h1]
      refine ⟨by simp, fun m k' h => ?_⟩
      simp only [Res.ok.injEq, Prod.mk.injEq] at h
      rw [← h.1]; exact ⟨h2.prod, h2.ordered, fun x hx => ⟨h2.pos x hx, h2.key x hx⟩⟩
    · rw [factorize128Rel, h3]
      have hL : Lists bld ([], []) := ⟨by simp, by simp⟩
      constructor
      · refine mapR_ne_panic _ ?_
        unfold factorize128Advanced
        cases h4 : advanced128Loop bld (searchRel bld 128 rng fuel) fuel k (pushCofactor (r, 1) ([], [])) [] with
        | panic => exact absurd h4 (advanced128Loop_refines hF2 _ _ _ _ (hL.push h2).1).1
        | timeout => intro h; cases h
        | ok v =>
          obtain ⟨t64, d, k1⟩ := v
          obtain ⟨-, a2, -⟩ := advanced128Loop_spec hF2.ok _ _ _ _ _ _ _ (hL.push h2).1 (by simp) h4
          rw [Res.bind_ok]
          unfold factorize64Advanced
          cases h5 : advanced64Loop bld (searchRel bld 64 rng fuel) fuel k1 t64 [] with
          | panic => exact absurd h5 (advanced64Loop_refines hF _ _ _ _ a2).1
          | timeout => intro h; simp only [h5] at h; cases h
          | ok y => intro h; simp only [h5] at h; cases h
      · intro m k' h
        rw [Res.mapR_eq_ok] at h
        obtain ⟨⟨l, k1⟩, h4, h5⟩ := h
        simp only [Prod.mk.injEq] at h5
        rw [← h5.1]
        obtain ⟨g1, g2⟩ := factorize128Advanced_spec hF.ok hF2.ok h2 h4
        have key : FactorMap (Accepted128 bld) (mergeFactors m' l) n := by
          refine ⟨mergeFactors_sorted l m' h1.sorted, by rw [product_eq, mergeFactors_prod, g2, ← h1.prod],
            mergeFactors_keys l m' (fun x hx => ?_) (fun x hx => (g1 x hx).2.1),
            mergeFactors_pos l m' h1.pos (fun x hx => (g1 x hx).2.2)⟩
          exact accepted128_prime (h1.prime x hx) (lt_of_le_of_lt (Nat.le_of_dvd hn (h1.dvd hx)) h128)
        exact ⟨key.prod, key.ordered, fun x hx => ⟨key.pos x hx, key.key x hx⟩⟩

/-- **C80** what `factorize128` returns with overflow checks it returns without them -/
theorem C80_factorize128_agrees (bld : Build) (rng : Rng) (fuel k n : ℕ) (hn : 1 ≤ n) (h128 : n < 2 ^ 128)
    (v : List (ℕ × ℕ) × ℕ) (h : factorize128 bld rng fuel k n = .ok v) : factorize128Rel bld rng fuel k n = .ok v := by
  have hF := search_refines bld 64 (by norm_num) rng fuel
  have hF2 := search_refines bld 128 (by norm_num) rng fuel
  rcases Nat.lt_or_ge n (2 ^ 64) with h64 | h64
  · rw [factorize128, factorize128With, if_pos h64] at h
    rw [factorize128Rel, factorize128With, if_pos h64]
    exact C80_factorize64_agrees bld rng fuel k n hn h64 v h
  · rcases factorize128With_cases (bld := bld) (fuel := fuel) (k := k) h64 h128 with ⟨m', h1, h2⟩ | ⟨m', r, h1, h2, h3⟩
    · rw [factorize128, h1] at h
      rw [factorize128Rel, h1, h]
    · rw [factorize128, h3, Res.mapR_eq_ok] at h
      obtain ⟨y, h4, h5⟩ := h
      rw [factorize128Rel, h3]
      have hL : Lists bld ([], []) := ⟨by simp, by simp⟩
      simp only [factorize128Advanced, factorize64Advanced, Res.bind_eq_ok] at h4
      obtain ⟨⟨t64, d, k1⟩, g1, ⟨l2, k2⟩, g2, g3⟩ := h4
      have e1 := (advanced128Loop_refines hF2 _ _ _ _ (hL.push h2).1).2 _ g1
      obtain ⟨-, a2, -⟩ := advanced128Loop_spec hF2.ok _ _ _ _ _ _ _ (hL.push h2).1 (by simp) e1
      have e2 := (advanced64Loop_refines hF _ _ _ _ a2).2 _ g2
      simp only [factorize128Advanced, factorize64Advanced, e1, Res.bind_ok, e2]
      rw [g3, Res.mapR_ok, h5]

/-- **C80, finding** where the checked build panics, the unchecked one answers wrongly: `sqrt_exact(0)` is `None` on the even
machine widths, although 0 is a square -/
theorem C80_sqrt_exact_zero (b : ℕ) (hb : b % 2 = 0) : sqrtExactRel b 0 = none := by
  have h : b &&& 1 ≠ 1 := by rw [Nat.and_one_is_mod]; omega
  simp [sqrtExactRel, trailingZeros, h]

-- a product of two primes on which the checked build panics when Pollard's rho has no luck
example : factorize64 .small ⟨fun _ => 0, fun _ => []⟩ 1000 0 (4294967029 * 4294967563) = .panic ∧
    factorize64Rel .small ⟨fun _ => 0, fun _ => []⟩ 1000 0 (4294967029 * 4294967563) =
      .ok ([(4294967029, 1), (4294967563, 1)], 2) := by decide +kernel

end NumPrime
