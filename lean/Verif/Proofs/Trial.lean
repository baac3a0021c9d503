import Verif.Model.Factor
import Verif.Proofs.FactorMap
import Verif.Proofs.Roots

/-! Trial division. -/

namespace NumPrime
open Spec

theorem isqrt_spec (n : ℕ) : isqrt n * isqrt n ≤ n ∧ n < (isqrt n + 1) * (isqrt n + 1) := by
  have := iroot_spec (e := 2) (by norm_num) n
  simp only [isqrt, pow_two] at *
  exact this

/-- the division loop removes the full power of `p` -/
theorem divOutMap_spec {p : ℕ} (hp : 2 ≤ p) : ∀ (f r : ℕ) (m : List (ℕ × ℕ)), 0 < r → r < f →
    ∃ r' e, divOutMap p f r m = .ok (r', if e = 0 then m else mapAdd m p e) ∧ r = r' * p ^ e ∧ ¬ p ∣ r' := by
  intro f
  induction f with
  | zero => intro r m _ h; omega
  | succ f ih =>
    intro r m hr hf
    have hp0 : ¬ p = 0 := by omega
    simp only [divOutMap, hp0, if_false]
    by_cases hd : r % p = 0
    · simp only [hd, if_true]
      have hdvd : p ∣ r := Nat.dvd_of_mod_eq_zero hd
      have hlt : r / p < r := Nat.div_lt_self hr (by omega)
      have hpos : 0 < r / p := Nat.div_pos (Nat.le_of_dvd hr hdvd) (by omega)
      obtain ⟨r', e, h1, h2, h3⟩ := ih (r / p) (mapAdd m p 1) hpos (by omega)
      refine ⟨r', e + 1, ?_, ?_, h3⟩
      · rw [h1]
        congr 2
        by_cases he : e = 0
        · simp [he]
        · simp only [he, if_false, Nat.succ_ne_zero, mapAdd_add]
          rw [Nat.add_comm]
      · rw [← Nat.div_mul_cancel hdvd, h2, pow_succ, mul_assoc]
    · simp only [hd, if_false]
      exact ⟨r, 0, by simp, by simp, fun hc => hd (Nat.mod_eq_zero_of_dvd hc)⟩

theorem unwrapFit_ok {w : Width} {x y : ℕ} : unwrapFit w x = .ok y ↔ fits w x = true ∧ y = x := by
  unfold unwrapFit
  split
  · rename_i h; simp [h, eq_comm]
  · rename_i h; simp [h]

/-- the loop of `trial_division` -/
theorem trialLoop_spec {w : Width} {tsqrt limit n : ℕ} (hle : limit ≤ tsqrt) : ∀ (ps done : List ℕ) (r : ℕ)
    (m : List (ℕ × ℕ)) (m' : List (ℕ × ℕ)) (r' : ℕ) (b : Bool), (∀ p ∈ ps, p.Prime) → FMap m r n →
    (∀ x ∈ m, x.1 ∈ done) → (∀ p ∈ done, ¬ p ∣ r) → trialLoop w tsqrt limit ps r m = .ok (m', r', b) →
    FMap m' r' n ∧ ∃ tried rest, ps = tried ++ rest ∧ (∀ x ∈ m', x.1 ∈ done ++ tried) ∧
      (∀ p ∈ done ++ tried, ¬ p ∣ r') ∧
      (∀ p ∈ tried, p ≤ limit) ∧
      (rest = [] ∨ r' = 1 ∨ ∃ q t, rest = q :: t ∧ limit < q) ∧
      (b = true → r' = 1 ∨ ∃ q t, rest = q :: t ∧ tsqrt < q) ∧
      (b = false → rest = [] ∨ ∃ q t, rest = q :: t ∧ limit < q ∧ q ≤ tsqrt) := by
  intro ps
  induction ps with
  | nil =>
    intro done r m m' r' b _ hF hk hd h
    simp only [trialLoop, Res.ok.injEq, Prod.mk.injEq] at h
    obtain ⟨rfl, rfl, rfl⟩ := h
    exact ⟨hF, [], [], rfl, by simpa using hk, by simpa using hd, by simp, Or.inl rfl, by simp, by simp⟩
  | cons p ps ih =>
    intro done r m m' r' b hps hF hk hd h
    have hp := hps p (by simp)
    have hps' : ∀ q ∈ ps, q.Prime := fun q hq => hps q (List.mem_cons_of_mem _ hq)
    simp only [trialLoop, Res.bind_eq_ok] at h
    obtain ⟨pt, h1, h⟩ := h
    obtain ⟨hfit, rfl⟩ := unwrapFit_ok.mp h1
    by_cases hpl : pt > limit
    · simp only [hpl, if_true, Res.pure_def, Res.ok.injEq, Prod.mk.injEq] at h
      obtain ⟨rfl, rfl, rfl⟩ := h
      refine ⟨hF, [], pt :: ps, rfl, by simpa using hk, by simpa using hd, by simp, Or.inr (Or.inr ⟨pt, ps, rfl, hpl⟩),
        fun hb => Or.inr ⟨pt, ps, rfl, by simpa using hb⟩, fun hb => Or.inr ⟨pt, ps, rfl, hpl, by simpa using hb⟩⟩
    · simp only [hpl, if_false, Res.bind_eq_ok] at h
      obtain ⟨⟨r1, m1⟩, h2, h⟩ := h
      obtain ⟨r2, e, h3, h4, h5⟩ := divOutMap_spec hp.two_le (r + 1) r m hF.rpos (by omega)
      rw [h3] at h2
      simp only [Res.ok.injEq, Prod.mk.injEq] at h2
      obtain ⟨rfl, h2⟩ := h2
      have hd12 : r2 ∣ r := ⟨pt ^ e, h4⟩
      have hF1 : FMap m1 r2 n := by
        by_cases he : e = 0
        · subst he
          simp only [if_true] at h2
          simp only [pow_zero, mul_one] at h4
          rw [← h2, ← h4]; exact hF
        · simp only [he, if_false] at h2
          rw [← h2]
          exact hF.step hp h4 h5 (Nat.pos_of_ne_zero he)
      have hk1 : ∀ x ∈ m1, x.1 ∈ done ++ [pt] := by
        intro x hx
        have : x.1 ∈ m1.map Prod.fst := List.mem_map_of_mem hx
        rw [← h2] at this
        split at this
        · obtain ⟨y, hy, hy2⟩ := List.mem_map.mp this
          rw [← hy2]; exact List.mem_append_left _ (hk y hy)
        · rw [mem_keys_mapAdd] at this
          rcases this with h6 | h6
          · simp [h6]
          · obtain ⟨y, hy, hy2⟩ := List.mem_map.mp h6
            rw [← hy2]; exact List.mem_append_left _ (hk y hy)
      have hd1 : ∀ q ∈ done ++ [pt], ¬ q ∣ r2 := by
        intro q hq
        rcases List.mem_append.mp hq with hq | hq
        · exact fun hc => hd q hq (hc.trans hd12)
        · simp only [List.mem_singleton] at hq; subst hq; exact h5
      by_cases hr1 : r2 = 1
      · simp only [hr1, if_true, Res.pure_def, Res.ok.injEq, Prod.mk.injEq] at h
        obtain ⟨rfl, rfl, rfl⟩ := h
        rw [hr1] at hF1 hd1
        exact ⟨hF1, [pt], ps, rfl, hk1, hd1, by simpa using hpl, Or.inr (Or.inl rfl), fun _ => Or.inl rfl, by simp⟩
      · simp only [hr1, if_false, Res.bind_eq_ok] at h
        obtain ⟨⟨m3, r3, b3⟩, h6, h⟩ := h
        simp only [Res.pure_def, Res.ok.injEq, Prod.mk.injEq] at h
        obtain ⟨rfl, rfl, h⟩ := h
        have hb : b3 = b := by
          have : ¬ pt > tsqrt := by omega
          simpa [this] using h
        subst hb
        obtain ⟨g1, tried, rest, g2, g3, g4, g5, g6, g7, g8⟩ := ih (done ++ [pt]) r2 m1 m3 r3 b3 hps' hF1 hk1 hd1 h6
        refine ⟨g1, pt :: tried, rest, by rw [g2]; rfl, ?_, ?_, ?_, g6, g7, g8⟩
        · simpa using g3
        · simpa using g4
        · intro q hq
          rcases List.mem_cons.mp hq with rfl | hq
          · omega
          · exact g5 q hq

/-- the loop returns when every tried value fits the type -/
theorem trialLoop_returns {w : Width} {tsqrt limit : ℕ} : ∀ (ps : List ℕ) (r : ℕ) (m : List (ℕ × ℕ)),
    (∀ p ∈ ps, 2 ≤ p) → (∀ p ∈ ps, fits w p = true) → 0 < r → ∃ v, trialLoop w tsqrt limit ps r m = .ok v := by
  intro ps
  induction ps with
  | nil => intro r m _ _ _; exact ⟨_, rfl⟩
  | cons p ps ih =>
    intro r m h2 hf hr
    simp only [trialLoop, unwrapFit, hf p (by simp), if_true, Res.bind_ok]
    split
    · exact ⟨_, rfl⟩
    · obtain ⟨r', e, h3, h4, h5⟩ := divOutMap_spec (h2 p (by simp)) (r + 1) r m hr (by omega)
      rw [h3]
      simp only [Res.bind_ok]
      split
      · exact ⟨_, rfl⟩
      · have hr' : 0 < r' := Nat.pos_of_ne_zero (by rintro rfl; simp at h5)
        obtain ⟨v, hv⟩ := ih r' (if e = 0 then m else mapAdd m p e) (fun q hq => h2 q (List.mem_cons_of_mem _ hq))
          (fun q hq => hf q (List.mem_cons_of_mem _ hq)) hr'
        rw [hv]
        exact ⟨_, rfl⟩

/-- a number with no prime factor up to its square root -/
theorem one_or_prime_of_no_small {r n q : ℕ} (hr : 0 < r) (hrn : r ≤ n) (hq : isqrt n + 1 < q)
    (h : ∀ p, p.Prime → p < q → ¬ p ∣ r) : r = 1 ∨ r.Prime := by
  by_contra hc
  push Not at hc
  obtain ⟨h1, h2⟩ := hc
  have hmf := Nat.minFac_prime h1
  have hle : r.minFac ^ 2 ≤ r := Nat.minFac_sq_le_self hr h2
  have hs := (isqrt_spec n).2
  have : r.minFac < isqrt n + 1 := by
    by_contra hge
    have : (isqrt n + 1) * (isqrt n + 1) ≤ r.minFac * r.minFac := Nat.mul_le_mul (by omega) (by omega)
    rw [pow_two] at hle; omega
  exact h _ hmf (by omega) (Nat.minFac_dvd r)

end NumPrime
