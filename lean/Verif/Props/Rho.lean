import Verif.Props.Factor

/-! # C90: what Pollard's rho finds -/

namespace NumPrime
open Spec

namespace Spec

/-- the walk `x_0 = start`, `x_{k+1} = x_k² + offset mod n` -/
def rhoWalk (n start offset : ℕ) : ℕ → ℕ
  | 0 => start
  | k + 1 => (rhoWalk n start offset k ^ 2 + offset) % n

/-- Brent's stops: the position `x_i` is compared with is 0 for `i = 1` and the largest power of two below `i` after that -/
def rhoStop (i : ℕ) : ℕ := if i ≤ 1 then 0 else 2 ^ Nat.log2 (i - 1)

/-- the distance `|x_i - x_{stop(i)}|` -/
def rhoDist (n start offset i : ℕ) : ℕ :=
  ((rhoWalk n start offset i : ℤ) - rhoWalk n start offset (rhoStop i)).natAbs

/-- the product of the first `i` distances -/
def rhoProd (n start offset i : ℕ) : ℕ := ∏ l ∈ Finset.range i, rhoDist n start offset (l + 1)

/-- the greatest common divisor is computed at the powers of two and the multiples of 128 -/
def RhoCheck (i : ℕ) : Prop := (∃ e, i = 2 ^ e) ∨ 128 ∣ i

end Spec

/-- the anchor: next stop of the hare after `i` rounds -/
def rhoNext (i : ℕ) : ℕ := if i = 0 then 1 else 2 ^ (Nat.log2 i + 1)

theorem rhoNext_eq_iff (i : ℕ) : i + 1 = rhoNext i ↔ ∃ e, i + 1 = 2 ^ e := by
  unfold rhoNext
  by_cases h : i = 0
  · subst h; simp; exact ⟨0, rfl⟩
  · rw [if_neg h]
    have h1 := Nat.log2_self_le h
    have h2 : i < 2 ^ (Nat.log2 i + 1) := Nat.lt_log2_self
    constructor
    · exact fun h => ⟨_, h⟩
    · rintro ⟨e, he⟩
      have : Nat.log2 i + 1 = e := by
        apply le_antisymm
        · by_contra hc
          have : 2 ^ e ≤ 2 ^ Nat.log2 i := Nat.pow_le_pow_right (by norm_num) (by omega)
          omega
        · by_contra hc
          have : 2 ^ (Nat.log2 i + 1) * 2 ≤ 2 ^ e := by rw [← pow_succ]; exact Nat.pow_le_pow_right (by norm_num) (by omega)
          omega
      rw [this, he]

theorem rhoNext_succ_pow {i : ℕ} (h : i + 1 = rhoNext i) : rhoNext (i + 1) = 2 * rhoNext i ∧ rhoStop (i + 2) = i + 1 := by
  obtain ⟨e, he⟩ := (rhoNext_eq_iff i).mp h
  have hl : Nat.log2 (i + 1) = e := by rw [he]; exact Nat.log2_two_pow
  constructor
  · rw [← h, rhoNext, if_neg (by omega), hl, he]; ring
  · unfold rhoStop
    rw [if_neg (by omega), show i + 2 - 1 = i + 1 by omega, hl, he]

theorem rhoNext_succ {i : ℕ} (h : i + 1 ≠ rhoNext i) : rhoNext (i + 1) = rhoNext i ∧ rhoStop (i + 2) = rhoStop (i + 1) := by
  have h0 : i ≠ 0 := by rintro rfl; exact h rfl
  have hl : Nat.log2 (i + 1) = Nat.log2 i := by
    rw [Nat.log2_eq_iff (by omega)]
    have h1 := Nat.log2_self_le h0
    have h2 : i < 2 ^ (Nat.log2 i + 1) := Nat.lt_log2_self
    refine ⟨by omega, ?_⟩
    unfold rhoNext at h
    rw [if_neg h0] at h
    omega
  constructor
  · unfold rhoNext; rw [if_neg (by omega), if_neg h0, hl]
  · unfold rhoStop
    rw [if_neg (by omega), if_neg (by omega), show i + 2 - 1 = i + 1 by omega, hl, show i + 1 - 1 = i by omega]

/-- the saved position after `i` rounds: the last check -/
def rhoSaved : ℕ → ℕ
  | 0 => 0
  | i + 1 => if (i + 1 == rhoNext i || (i + 1) &&& 127 == 0) then i + 1 else rhoSaved i

/-- the state after `i` rounds without backtracking -/
def rhoSt (n start offset i : ℕ) : RhoState :=
  ⟨i, rhoNext i, rhoWalk n start offset i, rhoWalk n start offset (rhoStop (i + 1)), rhoProd n start offset i % n,
    rhoWalk n start offset (rhoSaved i), false⟩

theorem land127 (i : ℕ) : (i &&& 127 == 0) = true ↔ 128 ∣ i := by
  have : i &&& 127 = i % 128 := Nat.and_two_pow_sub_one_eq_mod i 7
  rw [beq_iff_eq, this]
  omega

theorem rhoCheck_iff (i : ℕ) : (i + 1 == rhoNext i || (i + 1) &&& 127 == 0) = true ↔ RhoCheck (i + 1) := by
  rw [Bool.or_eq_true, land127, beq_iff_eq, rhoNext_eq_iff]
  rfl

theorem gcd_mod_self (a n : ℕ) : Nat.gcd (a % n) n = Nat.gcd a n := (Nat.mod_modEq a n).gcd_eq

theorem natAbs_diff (a b : ℕ) : (if b > a then b - a else a - b) = ((a : ℤ) - b).natAbs := by
  split <;> omega

theorem rhoProd_succ (n start offset i : ℕ) :
    rhoProd n start offset (i + 1) = rhoProd n start offset i * rhoDist n start offset (i + 1) := Finset.prod_range_succ _ _

theorem rhoProd_dvd (n start offset : ℕ) {i k : ℕ} (h : i ≤ k) : rhoProd n start offset i ∣ rhoProd n start offset k :=
  Finset.prod_dvd_prod_of_subset _ _ _ (Finset.range_subset_range.mpr h)

theorem rhoWalk_step (n start offset i : ℕ) :
    addm (sqm (rhoWalk n start offset i) n) offset n = rhoWalk n start offset (i + 1) := by
  simp [addm, sqm, rhoWalk, sq]

theorem rhoLoop_next {n start offset i f : ℕ} (h63 : i + 1 < 2 ^ 63) (hP : ¬ n ∣ rhoProd n start offset (i + 1))
    (hg : RhoCheck (i + 1) → Nat.gcd (rhoProd n start offset (i + 1)) n = 1) :
    rhoLoop n offset (f + 1) (rhoSt n start offset i) = rhoLoop n offset f (rhoSt n start offset (i + 1)) := by
  have hne : rhoWalk n start offset (i + 1) ≠ rhoWalk n start offset (rhoStop (i + 1)) := by
    intro hc
    apply hP
    rw [rhoProd_succ, rhoDist, hc]
    simp
  have hz : mulm (rhoProd n start offset i % n) (rhoDist n start offset (i + 1)) n = rhoProd n start offset (i + 1) % n := by
    rw [mulm, rhoProd_succ, Nat.mod_mul_mod]
  have hz0 : rhoProd n start offset (i + 1) % n ≠ 0 := fun h => hP (Nat.dvd_of_mod_eq_zero h)
  rw [rhoSt, rhoLoop]
  simp only [rhoWalk_step, natAbs_diff]
  rw [show ((rhoWalk n start offset (i + 1) : ℤ) - rhoWalk n start offset (rhoStop (i + 1))).natAbs =
    rhoDist n start offset (i + 1) from rfl]
  simp only [hz, hne, hz0, if_false, Bool.or_false, gcd_mod_self]
  have hck : (i + 1 == rhoNext i || (i + 1) &&& 127 == 0) = true → Nat.gcd (rhoProd n start offset (i + 1)) n = 1 :=
    fun h => hg ((rhoCheck_iff i).mp h)
  have hnot : ¬ ((i + 1 == rhoNext i || (i + 1) &&& 127 == 0) && (rhoProd n start offset (i + 1)).gcd n != 1 &&
      (rhoProd n start offset (i + 1)).gcd n != n) = true := by
    intro h
    simp only [Bool.and_eq_true, bne_iff_ne] at h
    exact h.1.2 (hck h.1.1)
  rw [if_neg hnot]
  have hs : (if (i + 1 == rhoNext i || (i + 1) &&& 127 == 0) = true then rhoWalk n start offset (i + 1)
      else rhoWalk n start offset (rhoSaved i)) = rhoWalk n start offset (rhoSaved (i + 1)) := by
    rw [rhoSaved]
    split <;> rfl
  rw [hs]
  by_cases hj : i + 1 = rhoNext i
  · obtain ⟨e1, e2⟩ := rhoNext_succ_pow hj
    rw [if_pos hj, rhoSt, e1, show i + 1 + 1 = i + 2 from rfl, e2]
    rw [show (rhoNext i <<< 1) % 2 ^ 64 = 2 * rhoNext i by rw [Nat.shiftLeft_eq]; omega]
  · obtain ⟨e1, e2⟩ := rhoNext_succ hj
    rw [if_neg hj, rhoSt, e1, show i + 1 + 1 = i + 2 from rfl, e2]

theorem rhoLoop_hit {n start offset i f : ℕ} (hP : ¬ n ∣ rhoProd n start offset (i + 1)) (hc : RhoCheck (i + 1))
    (hg : Nat.gcd (rhoProd n start offset (i + 1)) n ≠ 1) :
    rhoLoop n offset (f + 1) (rhoSt n start offset i) = (some (Nat.gcd (rhoProd n start offset (i + 1)) n), i + 1) := by
  have hne : rhoWalk n start offset (i + 1) ≠ rhoWalk n start offset (rhoStop (i + 1)) := by
    intro hc
    apply hP
    rw [rhoProd_succ, rhoDist, hc]
    simp
  have hz : mulm (rhoProd n start offset i % n) (rhoDist n start offset (i + 1)) n = rhoProd n start offset (i + 1) % n := by
    rw [mulm, rhoProd_succ, Nat.mod_mul_mod]
  have hz0 : rhoProd n start offset (i + 1) % n ≠ 0 := fun h => hP (Nat.dvd_of_mod_eq_zero h)
  have hgn : Nat.gcd (rhoProd n start offset (i + 1)) n ≠ n := fun h => hP (Nat.gcd_eq_right_iff_dvd.mp h)
  rw [rhoSt, rhoLoop]
  simp only [rhoWalk_step, natAbs_diff]
  rw [show ((rhoWalk n start offset (i + 1) : ℤ) - rhoWalk n start offset (rhoStop (i + 1))).natAbs =
    rhoDist n start offset (i + 1) from rfl]
  simp only [hz, hne, hz0, if_false, Bool.or_false, gcd_mod_self]
  rw [if_pos]
  simp only [Bool.and_eq_true, bne_iff_ne]
  exact ⟨⟨(rhoCheck_iff i).mpr hc, hg⟩, hgn⟩

theorem rhoLoop_run {n start offset M : ℕ} : ∀ i, i ≤ M → i < 2 ^ 63 → ¬ n ∣ rhoProd n start offset i →
    (∀ c, 1 ≤ c → c ≤ i → RhoCheck c → Nat.gcd (rhoProd n start offset c) n = 1) →
    rhoLoop n offset M (rhoSt n start offset 0) = rhoLoop n offset (M - i) (rhoSt n start offset i) := by
  intro i
  induction i with
  | zero => intros; rfl
  | succ i ih =>
    intro h1 h2 h3 h4
    rw [ih (by omega) (by omega) (fun h => h3 (h.trans (rhoProd_dvd _ _ _ (by omega)))) (fun c a b => h4 c a (by omega)),
      show M - i = (M - (i + 1)) + 1 by omega]
    exact rhoLoop_next h2 h3 (h4 (i + 1) (by omega) le_rfl)

theorem pollardRho_eq {n start offset M : ℕ} (hn : n ≠ 0) :
    pollardRho n start offset M = .ok (rhoLoop n offset M (rhoSt n start offset 0)) := by
  simp [pollardRho, hn, rhoSt, rhoNext, rhoWalk, rhoStop, rhoProd, rhoSaved]

/-- **C90** `pollard_rho` finds a factor at the first check that reveals one: if `c` is the first power of two or multiple of 128 for
which the product of the distances walked so far has a common factor with `n`, and the product is not a multiple of `n`, the
result is that common factor, after `c` iterations -/
theorem C90_rho_finds (n start offset maxIter c : ℕ) (hn : 0 < n) (h1 : 1 ≤ c) (hM : c ≤ maxIter) (h63 : c ≤ 2 ^ 63) (hc : RhoCheck c)
    (hfirst : ∀ c', 1 ≤ c' → c' < c → RhoCheck c' → Nat.gcd (rhoProd n start offset c') n = 1)
    (hg : Nat.gcd (rhoProd n start offset c) n ≠ 1) (hP : ¬ n ∣ rhoProd n start offset c) :
    pollardRho n start offset maxIter = .ok (some (Nat.gcd (rhoProd n start offset c) n), c) := by
  obtain ⟨i, rfl⟩ : ∃ i, c = i + 1 := ⟨c - 1, by omega⟩
  rw [pollardRho_eq hn.ne', rhoLoop_run i (by omega) (by omega) (fun h => hP (h.trans (rhoProd_dvd _ _ _ (by omega))))
    (fun c' a b => hfirst c' a (by omega)), show maxIter - i = (maxIter - i - 1) + 1 by omega, rhoLoop_hit hP hc hg]

/-! ## backtracking -/

theorem rhoLoop_back {n start offset j b : ℕ} : ∀ (T f i c z s : ℕ), Nat.gcd z n = 1 →
    (∀ t, t < T → Nat.gcd ((rhoWalk n start offset (c + t + 1) : ℤ) - b).natAbs n = 1) →
    Nat.gcd ((rhoWalk n start offset (c + T + 1) : ℤ) - b).natAbs n ≠ 1 →
    ¬ n ∣ ((rhoWalk n start offset (c + T + 1) : ℤ) - b).natAbs →
    (∀ t, t < T → i + t + 1 ≠ j) →
    rhoLoop n offset (f + T + 1) ⟨i, j, rhoWalk n start offset c, b, z % n, s, true⟩ =
      (some (Nat.gcd ((rhoWalk n start offset (c + T + 1) : ℤ) - b).natAbs n), i + T + 1) := by
  intro T
  induction T with
  | zero =>
    intro f i c z s hz _ hg hd _
    have hne : rhoWalk n start offset (c + 1) ≠ b := by
      intro hc
      apply hd
      rw [Nat.add_zero, hc]
      simp
    have hgz : Nat.gcd (z * ((rhoWalk n start offset (c + 1) : ℤ) - b).natAbs) n =
        Nat.gcd ((rhoWalk n start offset (c + 1) : ℤ) - b).natAbs n := Nat.Coprime.gcd_mul_left_cancel _ hz
    have hgn : Nat.gcd ((rhoWalk n start offset (c + 1) : ℤ) - b).natAbs n ≠ n := fun h => hd (Nat.gcd_eq_right_iff_dvd.mp h)
    have hz0 : z * ((rhoWalk n start offset (c + 1) : ℤ) - b).natAbs % n ≠ 0 := by
      intro h
      apply hgn
      rw [← hgz]
      exact Nat.gcd_eq_right (Nat.dvd_of_mod_eq_zero h)
    rw [Nat.add_zero, rhoLoop]
    simp only [rhoWalk_step, natAbs_diff, mulm, Nat.mod_mul_mod, hne, hz0, if_false, gcd_mod_self, Bool.or_true, Bool.true_and]
    rw [if_pos]
    · rw [hgz]
    · simp only [Bool.and_eq_true, bne_iff_ne]
      rw [hgz]
      exact ⟨hg, hgn⟩
  | succ T ih =>
    intro f i c z s hz hall hg hd hij
    have h0 := hall 0 (by omega)
    rw [Nat.add_zero] at h0
    have hn1 : n ≠ 1 := by rintro rfl; simp at hg
    have hgz : Nat.gcd (z * ((rhoWalk n start offset (c + 1) : ℤ) - b).natAbs) n = 1 := Nat.Coprime.mul_left hz h0
    have hne : rhoWalk n start offset (c + 1) ≠ b := by
      intro hc
      rw [hc] at h0
      simp at h0
      exact hn1 h0
    have hz0 : z * ((rhoWalk n start offset (c + 1) : ℤ) - b).natAbs % n ≠ 0 := by
      intro h
      have := Nat.gcd_eq_right (Nat.dvd_of_mod_eq_zero h)
      omega
    rw [show f + (T + 1) + 1 = (f + T + 1) + 1 by omega, rhoLoop]
    simp only [rhoWalk_step, natAbs_diff, mulm, Nat.mod_mul_mod, hne, hz0, if_false, gcd_mod_self, Bool.or_true, Bool.true_and]
    rw [if_neg (by rw [hgz]; simp), if_neg (hij 0 (by omega)), ih f (i + 1) (c + 1) _ _ hgz]
    · rw [show c + 1 + T + 1 = c + (T + 1) + 1 by omega, show i + 1 + T + 1 = i + (T + 1) + 1 by omega]
    · intro t ht
      rw [show c + 1 + t + 1 = c + (t + 1) + 1 by omega]
      exact hall (t + 1) (by omega)
    · rwa [show c + 1 + T + 1 = c + (T + 1) + 1 by omega]
    · rwa [show c + 1 + T + 1 = c + (T + 1) + 1 by omega]
    · intro t ht
      have := hij (t + 1) (by omega)
      omega

theorem rhoLoop_overshoot {n start offset i f : ℕ} (hP : n ∣ rhoProd n start offset (i + 1))
    (hd : rhoDist n start offset (i + 1) ≠ 0) :
    rhoLoop n offset (f + 1) (rhoSt n start offset i) = rhoLoop n offset f ⟨i + 1, rhoNext i,
      rhoWalk n start offset (rhoSaved i), rhoWalk n start offset (rhoStop (i + 1)), 1 % n, 1, true⟩ := by
  have hne : rhoWalk n start offset (i + 1) ≠ rhoWalk n start offset (rhoStop (i + 1)) := by
    intro hc
    apply hd
    rw [rhoDist, hc]
    simp
  have hz : mulm (rhoProd n start offset i % n) (rhoDist n start offset (i + 1)) n = rhoProd n start offset (i + 1) % n := by
    rw [mulm, rhoProd_succ, Nat.mod_mul_mod]
  have hz0 : rhoProd n start offset (i + 1) % n = 0 := Nat.mod_eq_zero_of_dvd hP
  rw [rhoSt, rhoLoop]
  simp only [rhoWalk_step, natAbs_diff]
  rw [show ((rhoWalk n start offset (i + 1) : ℤ) - rhoWalk n start offset (rhoStop (i + 1))).natAbs =
    rhoDist n start offset (i + 1) from rfl]
  simp only [hz, hne, hz0, if_false, if_true, Bool.false_eq_true]

theorem rhoSaved_eq : ∀ {i c : ℕ}, c ≤ i → (c = 0 ∨ RhoCheck c) → (∀ l, c < l → l ≤ i → ¬ RhoCheck l) → rhoSaved i = c := by
  intro i
  induction i with
  | zero => intro c h _ _; simp [rhoSaved]; omega
  | succ i ih =>
    intro c h1 h2 h3
    rw [rhoSaved]
    by_cases hc : c = i + 1
    · rw [if_pos]
      · exact hc.symm
      · rw [rhoCheck_iff, ← hc]
        exact h2.resolve_left (by omega)
    · rw [if_neg]
      · exact ih (by omega) h2 (fun l a b => h3 l a (by omega))
      · rw [rhoCheck_iff]
        exact h3 (i + 1) (by omega) le_rfl

theorem rhoStop_eq {i c : ℕ} (hc : c ≤ i) (h3 : ∀ l, c < l → l ≤ i → ¬ RhoCheck l) :
    ∀ l, c < l → l ≤ i + 1 → rhoStop l = rhoStop (i + 1) := by
  have key : ∀ k, k + c ≤ i → rhoStop (c + k + 1) = rhoStop (c + 1) := by
    intro k
    induction k with
    | zero => intro _; rfl
    | succ k ih =>
      intro h
      rw [← ih (by omega)]
      have hn : c + k + 1 ≠ rhoNext (c + k) := by
        intro hc
        exact h3 (c + k + 1) (by omega) (by omega) (Or.inl ((rhoNext_eq_iff _).mp hc))
      exact (rhoNext_succ hn).2
  intro l h1 h2
  have a := key (l - c - 1) (by omega)
  have b := key (i - c) (by omega)
  rw [show c + (l - c - 1) + 1 = l by omega] at a
  rw [show c + (i - c) + 1 = i + 1 by omega] at b
  rw [a, b]

/-- **C90** and it recovers the factor after an overshoot: let `m` be the first iteration at which the product becomes a multiple of
`n` (without the walk having returned to the stop), let no check before have revealed anything and let `c` be the last check
before `m`. If the tortoise does not reach the hare's next stop while it walks the last stretch again, a proper divisor is
returned, at the latest after `2 m - c` iterations. -/
theorem C90_rho_backtrack (n start offset maxIter m c : ℕ) (hn : 1 < n) (hstart : start < n) (hm : 1 ≤ m) (h63 : m ≤ 2 ^ 63)
    (hP : n ∣ rhoProd n start offset m) (hP' : ¬ n ∣ rhoProd n start offset (m - 1)) (hd : rhoDist n start offset m ≠ 0)
    (hfirst : ∀ c', 1 ≤ c' → c' < m → RhoCheck c' → Nat.gcd (rhoProd n start offset c') n = 1)
    (hcm : c < m) (hc : c = 0 ∨ RhoCheck c) (hlast : ∀ l, c < l → l < m → ¬ RhoCheck l)
    (hM : 2 * m - c ≤ maxIter) (hroom : (∃ e, m = 2 ^ e) ∨ ∀ e, m ≤ 2 ^ e → 2 * m - c ≤ 2 ^ e) :
    ∃ d k, pollardRho n start offset maxIter = .ok (some d, k) ∧ ProperDivisor d n ∧ m < k ∧ k ≤ 2 * m - c := by
  obtain ⟨i, rfl⟩ : ∃ i, m = i + 1 := ⟨m - 1, by omega⟩
  simp only [Nat.add_sub_cancel] at hP'
  have hgc : Nat.gcd (rhoProd n start offset c) n = 1 := by
    rcases Nat.eq_zero_or_pos c with rfl | h0
    · simp [rhoProd]
    · exact hfirst c h0 hcm (hc.resolve_left (by omega))
  -- some distance of the last stretch has a common factor with `n`
  have hex : ∃ t, t < i + 1 - c ∧ Nat.gcd (rhoDist n start offset (c + t + 1)) n ≠ 1 := by
    by_contra hno
    push Not at hno
    have : ∀ k, k ≤ i + 1 - c → Nat.gcd (rhoProd n start offset (c + k)) n = 1 := by
      intro k
      induction k with
      | zero => intro _; exact hgc
      | succ k ih =>
        intro h
        rw [← Nat.add_assoc, rhoProd_succ]
        exact Nat.Coprime.mul_left (ih (by omega)) (hno k (by omega))
    have h1 := this (i + 1 - c) le_rfl
    rw [show c + (i + 1 - c) = i + 1 by omega, Nat.gcd_eq_right hP] at h1
    omega
  classical
  obtain ⟨T, ⟨hT1, hT2⟩, hTmin⟩ : ∃ T, (T < i + 1 - c ∧ Nat.gcd (rhoDist n start offset (c + T + 1)) n ≠ 1) ∧
      ∀ t < T, ¬ (t < i + 1 - c ∧ Nat.gcd (rhoDist n start offset (c + t + 1)) n ≠ 1) :=
    ⟨Nat.find hex, Nat.find_spec hex, fun t ht => Nat.find_min hex ht⟩
  clear hex
  have hij : ∀ t, t < T → i + 1 + t + 1 ≠ rhoNext i := by
    intro t ht
    rcases hroom with ⟨e, he⟩ | hroom
    · have := (rhoNext_eq_iff i).mpr ⟨e, he⟩
      omega
    · obtain ⟨e, he, hle⟩ : ∃ e, rhoNext i = 2 ^ e ∧ i + 1 ≤ 2 ^ e := by
        unfold rhoNext
        by_cases h0 : i = 0
        · exact ⟨0, by simp [h0], by simp [h0]⟩
        · exact ⟨Nat.log2 i + 1, by simp [h0], Nat.lt_log2_self⟩
      have := hroom e hle
      omega
  clear hroom
  have hstop := rhoStop_eq (i := i) (c := c) (by omega) (fun l a b => hlast l a (by omega))
  have hdist : ∀ t, t < i + 1 - c → ((rhoWalk n start offset (c + t + 1) : ℤ) - rhoWalk n start offset (rhoStop (i + 1))).natAbs =
      rhoDist n start offset (c + t + 1) := by
    intro t ht
    rw [rhoDist, hstop (c + t + 1) (by omega) (by omega)]
  have hlt : ∀ k, rhoWalk n start offset k < n := by
    intro k
    cases k with
    | zero => exact hstart
    | succ k => exact Nat.mod_lt _ (by omega)
  have hnd : ¬ n ∣ rhoDist n start offset (c + T + 1) := by
    intro h
    rcases Nat.lt_or_ge (c + T) i with h1 | h1
    · exact hP' ((h.trans (Dvd.intro_left _ (rhoProd_succ n start offset (c + T)).symm)).trans (rhoProd_dvd _ _ _ (by omega)))
    · have e : c + T = i := by omega
      rw [e] at h
      have := Nat.le_of_dvd (Nat.pos_of_ne_zero hd) h
      unfold rhoDist at this
      have l1 := hlt (i + 1)
      have l2 := hlt (rhoStop (i + 1))
      omega
  have hrun : rhoLoop n offset maxIter (rhoSt n start offset 0) =
      (some (Nat.gcd (rhoDist n start offset (c + T + 1)) n), i + 1 + T + 1) := by
    rw [rhoLoop_run i (by omega) (by omega) hP' (fun c' a b => hfirst c' a (by omega)),
      show maxIter - i = (maxIter - i - 1) + 1 by omega, rhoLoop_overshoot hP hd,
      rhoSaved_eq (i := i) (c := c) (by omega) hc (fun l a b => hlast l a (by omega)),
      show maxIter - i - 1 = (maxIter - i - 1 - T - 1) + T + 1 by omega]
    rw [rhoLoop_back T _ (i + 1) c 1 1 (by simp)]
    · rw [hdist T hT1]
    · intro t ht
      rw [hdist t (by omega)]
      by_contra hne
      exact hTmin t ht ⟨by omega, hne⟩
    · rw [hdist T hT1]; exact hT2
    · rw [hdist T hT1]; exact hnd
    · intro t ht
      exact hij t ht
  refine ⟨_, _, by rw [pollardRho_eq (by omega), hrun], ?_, by omega, by omega⟩
  obtain ⟨o, k, h1, _, h2⟩ := C39_pollard_rho n start offset maxIter (by omega)
  rw [pollardRho_eq (by omega), hrun] at h1
  simp only [Res.ok.injEq, Prod.mk.injEq] at h1
  exact h2 _ h1.1.symm

/-! ## the iteration limit -/

/-- one round of the loop: the result, or the next state -/
def rhoStep (n offset : ℕ) (st : RhoState) : (Option ℕ × ℕ) ⊕ RhoState :=
  let i := st.i + 1
  let a := addm (sqm st.a n) offset n
  if a = st.b then .inl (none, i)
  else
    let z := mulm st.z ((a : ℤ) - st.b).natAbs n
    if z = 0 then
      if st.backtrace then .inl (none, i) else .inr { st with i := i, a := st.s, s := 1, z := 1 % n, backtrace := true }
    else if (i == st.j || i &&& 127 == 0 || st.backtrace) && Nat.gcd z n != 1 && Nat.gcd z n != n then .inl (some (Nat.gcd z n), i)
    else
      let s := if i == st.j || i &&& 127 == 0 || st.backtrace then a else st.s
      if i = st.j then .inr ⟨i, (st.j <<< 1) % 2 ^ 64, a, a, z, s, st.backtrace⟩
      else .inr ⟨i, st.j, a, st.b, z, s, st.backtrace⟩

theorem rhoLoop_step (n offset f : ℕ) (st : RhoState) :
    rhoLoop n offset (f + 1) st = match rhoStep n offset st with
      | .inl r => r
      | .inr st' => rhoLoop n offset f st' := by
  rw [rhoLoop, rhoStep]
  simp only [natAbs_diff]
  by_cases h1 : addm (sqm st.a n) offset n = st.b
  · simp only [h1, if_true]
  · simp only [h1, if_false]
    by_cases h2 : mulm st.z ((addm (sqm st.a n) offset n : ℤ) - st.b).natAbs n = 0
    · simp only [h2, if_true]
      by_cases h3 : st.backtrace = true
      · simp only [h3, if_true]
      · simp only [h3, if_false, Bool.false_eq_true]
    · simp only [h2, if_false]
      split
      · rfl
      · by_cases h4 : st.i + 1 = st.j
        · simp only [h4, if_true]
        · simp only [h4, if_false]

theorem rhoStep_i {n offset : ℕ} {st : RhoState} : (∀ r, rhoStep n offset st = .inl r → r.2 = st.i + 1) ∧
    ∀ st', rhoStep n offset st = .inr st' → st'.i = st.i + 1 := by
  constructor
  · intro r h
    unfold rhoStep at h
    dsimp only at h
    split at h
    · cases h; rfl
    · split at h
      · split at h <;> cases h
        rfl
      · split at h
        · cases h; rfl
        · split at h <;> cases h
  · intro st' h
    unfold rhoStep at h
    dsimp only at h
    split at h
    · cases h
    · split at h
      · split at h <;> cases h
        rfl
      · split at h
        · cases h
        · split at h <;> cases h <;> rfl

theorem rhoLoop_stops {n offset : ℕ} : ∀ (f : ℕ) (st : RhoState) (o : Option ℕ) (k : ℕ), rhoLoop n offset f st = (o, k) →
    (o.isSome = true ∨ k < st.i + f) → ∀ f', (k ≤ st.i + f' → rhoLoop n offset f' st = (o, k)) ∧
      (st.i + f' < k → rhoLoop n offset f' st = (none, st.i + f')) := by
  intro f
  induction f with
  | zero =>
    intro st o k h hs
    simp only [rhoLoop, Prod.mk.injEq] at h
    rcases hs with hs | hs
    · rw [← h.1] at hs; simp at hs
    · omega
  | succ f ih =>
    intro st o k h hs f'
    rw [rhoLoop_step] at h
    cases hst : rhoStep n offset st with
    | inl r =>
      rw [hst] at h
      have hk := rhoStep_i.1 r hst
      simp only at h
      rw [h] at hk
      simp only at hk
      cases f' with
      | zero => exact ⟨fun h => by omega, fun _ => by simp [rhoLoop]⟩
      | succ f' =>
        rw [rhoLoop_step, hst]
        exact ⟨fun _ => h, fun h => by omega⟩
    | inr st' =>
      rw [hst] at h
      have hi := rhoStep_i.2 st' hst
      simp only at h
      have hih := ih st' o k h (hs.imp id (fun h => by omega))
      cases f' with
      | zero =>
        refine ⟨fun hk => ?_, fun _ => by simp [rhoLoop]⟩
        have := (hih 0).2
        have := (rhoLoop_iters n offset f st').1
        rw [h] at this
        simp only at this
        omega
      | succ f' =>
        rw [rhoLoop_step, hst]
        simp only
        refine ⟨fun hk => (hih f').1 (by omega), fun hk => ?_⟩
        rw [(hih f').2 (by omega)]
        congr 1
        omega

/-- **C90** the limit only cuts the search off: when a run ends by itself after `k` iterations, every larger limit gives the same
result, and every smaller limit gives `None` after exactly that many iterations -/
theorem C90_rho_limit (n start offset maxIter : ℕ) (o : Option ℕ) (k : ℕ) (h : pollardRho n start offset maxIter = .ok (o, k))
    (hs : o.isSome = true ∨ k < maxIter) (maxIter' : ℕ) :
    (k ≤ maxIter' → pollardRho n start offset maxIter' = .ok (o, k)) ∧
    (maxIter' < k → pollardRho n start offset maxIter' = .ok (none, maxIter')) := by
  unfold pollardRho at h ⊢
  split at h
  · simp at h
  · rename_i hn
    rw [if_neg hn]
    simp only [Res.ok.injEq] at h ⊢
    have := rhoLoop_stops maxIter _ o k h (by simpa using hs) maxIter'
    simpa using this

/-- **C90, finding** a factor that a distance has revealed is lost when the walk returns to its stop before the next check:
`pollard_rho(21, 1, 2, max_iter)` gives `None` for every limit, although the third distance is 7 -/
theorem C90_rho_misses (maxIter : ℕ) : (∃ k, pollardRho 21 1 2 maxIter = .ok (none, k)) ∧ rhoDist 21 1 2 3 = 7 := by
  refine ⟨?_, by decide +kernel⟩
  have h := C90_rho_limit 21 1 2 100 none 4 (by decide +kernel) (Or.inr (by norm_num)) maxIter
  rcases Nat.lt_or_ge maxIter 4 with h4 | h4
  · exact ⟨_, h.2 h4⟩
  · exact ⟨_, h.1 h4⟩

/-- **C90, finding** backtracking can fail too, when the hare jumps while the last stretch is walked again -/
theorem C90_rho_backtrack_misses (maxIter : ℕ) : ∃ k, pollardRho 6859 4468 5683 maxIter = .ok (none, k) := by
  have h := C90_rho_limit 6859 4468 5683 100 none 19 (by decide +kernel) (Or.inr (by norm_num)) maxIter
  rcases Nat.lt_or_ge maxIter 19 with h4 | h4
  · exact ⟨_, h.2 h4⟩
  · exact ⟨_, h.1 h4⟩

/-- the hypotheses of `C90_rho_finds` hold for 8051, start 2, offset 1: the check after 8 iterations finds 97 -/
example : pollardRho 8051 2 1 100 = .ok (some 97, 8) := by
  have h : Nat.gcd (rhoProd 8051 2 1 8) 8051 = 97 := by decide +kernel
  rw [← h]
  refine C90_rho_finds 8051 2 1 100 8 (by norm_num) (by norm_num) (by norm_num) (by norm_num) (Or.inl ⟨3, by norm_num⟩) ?_
    (by rw [h]; norm_num) (by decide +kernel)
  intro c h1 h2 hc
  have hall : ∀ c < 5, Nat.gcd (rhoProd 8051 2 1 c) 8051 = 1 := by decide +kernel
  refine hall c ?_
  rcases hc with ⟨e, rfl⟩ | hc
  · have he : e < 3 := (Nat.pow_lt_pow_iff_right (by norm_num : 1 < 2)).mp (show 2 ^ e < 2 ^ 3 from h2)
    interval_cases e <;> norm_num
  · have := Nat.le_of_dvd (by omega) hc
    omega

/-- the hypotheses of `C90_rho_backtrack` hold for 143, start 1, offset 14: both factors appear between the checks after 4 and 8
iterations, and walking that stretch again separates them -/
example : ∃ d k, pollardRho 143 1 14 100 = .ok (some d, k) ∧ ProperDivisor d 143 ∧ 8 < k ∧ k ≤ 12 := by
  have hlow : ∀ c, 1 ≤ c → c < 8 → RhoCheck c → c < 5 := by
    intro c h1 h2 hc
    rcases hc with ⟨e, rfl⟩ | hc
    · have he : e < 3 := (Nat.pow_lt_pow_iff_right (by norm_num : 1 < 2)).mp (show 2 ^ e < 2 ^ 3 from h2)
      interval_cases e <;> norm_num
    · have := Nat.le_of_dvd (by omega) hc
      omega
  have hall : ∀ c < 5, Nat.gcd (rhoProd 143 1 14 c) 143 = 1 := by decide +kernel
  exact C90_rho_backtrack 143 1 14 100 8 4 (by norm_num) (by norm_num) (by norm_num) (by norm_num) (by decide +kernel)
    (by decide +kernel) (by decide +kernel) (fun c a b h => hall c (hlow c a b h)) (by norm_num) (Or.inr (Or.inl ⟨2, by norm_num⟩))
    (fun l a b h => by have := hlow l (by omega) b h; omega) (by norm_num) (Or.inl ⟨3, by norm_num⟩)

end NumPrime
