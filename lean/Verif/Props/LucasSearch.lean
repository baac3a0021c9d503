import Verif.Props.IsPrimeGen

/-! # C89: the Lucas tests without explicit parameters are the standard ones

Baillie's method A* (Selfridge's method A with the modification for common factors) and method C. -/

namespace NumPrime
open Spec Tables

namespace Spec

/-- Selfridge's sequence `5, -7, 9, -11, 13, …` of discriminants -/
def selfridgeD (k : ℕ) : ℤ := (-1) ^ k * (2 * k + 5)

/-- `D` is the discriminant that method A chooses for `n`: the first of the sequence with Jacobi symbol -1. The search is given
up at a discriminant that has a common factor with `n`, unless it is `±n`. -/
def MethodA (n : ℕ) (D : ℤ) : Prop :=
  ∃ k, D = selfridgeD k ∧ jacobiSym D n = -1 ∧ ∀ j < k, jacobiSym (selfridgeD j) n = 1 ∨ 2 * j + 5 = n

/-- `P` is the parameter that method C chooses for `n`: the first `P ≥ 3` for which `P² - 4` has Jacobi symbol -1. The search is
given up at a `P² - 4` that has a common factor with `n`, unless it is `n`. -/
def MethodC (n : ℕ) (P : ℕ) : Prop :=
  3 ≤ P ∧ jacobiSym ((P : ℤ) ^ 2 - 4) n = -1 ∧
    ∀ p : ℕ, 3 ≤ p → p < P → jacobiSym ((p : ℤ) ^ 2 - 4) n = 1 ∨ (p : ℤ) ^ 2 - 4 = n

end Spec

/-! ## the searches -/

theorem sgn_selfridge (k : ℕ) : sgn (2 * k + 5) (k % 2 == 1) = selfridgeD k := by
  unfold selfridgeD sgn
  rcases Nat.even_or_odd k with h | h
  · have h2 : k % 2 = 0 := Nat.even_iff.mp h
    rw [h.neg_one_pow]
    simp [h2]
  · have h2 : k % 2 = 1 := Nat.odd_iff.mp h
    rw [h.neg_one_pow]
    simp [h2]

theorem selfridgeD_mod (k : ℕ) : selfridgeD k % 4 = 1 := by
  unfold selfridgeD
  rcases Nat.even_or_odd k with h | h
  · obtain ⟨j, rfl⟩ := h
    rw [Even.neg_one_pow ⟨j, rfl⟩]; push_cast; omega
  · obtain ⟨j, rfl⟩ := h
    rw [Odd.neg_one_pow ⟨j, rfl⟩]; push_cast; omega

theorem jac_square_ne {n : ℕ} (hn : 0 < n) (h : IsSquare n) (a : ℤ) : jacobiSym a n ≠ -1 := by
  obtain ⟨m, rfl⟩ := h
  have hm : m ≠ 0 := by rintro rfl; simp at hn
  rw [jacobiSym.mul_right' a hm hm]
  intro hc
  rcases jacobi_trichotomy a m with h | h | h <;> rw [h] at hc <;> norm_num at hc

theorem jac_self_zero {n : ℕ} (hn : 1 < n) {a : ℤ} (h : (n : ℤ) ∣ a) : jacobiSym a n = 0 := by
  have : NeZero n := ⟨by omega⟩
  rw [jacobiSym.eq_zero_iff_not_coprime]
  intro hc
  have : (Int.gcd a n : ℤ) = n := Int.gcd_eq_right_iff_dvd (by omega) |>.mpr h
  omega

theorem selfridgeD_natAbs (k : ℕ) : (selfridgeD k).natAbs = 2 * k + 5 := by
  rw [← sgn_selfridge]
  unfold sgn
  split <;> omega

/-- what the search returns, from round `k` on -/
theorem selfridge_first (bld : Build) {w : Width} {n : ℕ} (hodd : n % 2 = 1) (hw : fits w n = true) :
    ∀ (f k : ℕ) (P : ℕ) (Q : ℤ), (∀ j < k, jacobiSym (selfridgeD j) n = 1 ∨ 2 * j + 5 = n) →
    pqSelfridgeLoop bld w n f (2 * k + 5) (k % 2 == 1) = .ok (P, Q) →
    (P = 1 ∧ MethodA n (1 - 4 * Q)) ∨ (P = 0 ∧ Q = 0 ∧ ∀ D, ¬ MethodA n D) := by
  intro f
  induction f with
  | zero => intro k P Q _ h; simp [pqSelfridgeLoop] at h
  | succ f ih =>
    intro k P Q hk h
    have hn : 0 < n := by omega
    simp only [pqSelfridgeLoop, sgn_jacobi hodd, sgn_selfridge] at h
    obtain ⟨v, hv, hvs⟩ := isSquare_spec bld w hn hw
    have hsq : ∃ v', (if 2 * k + 5 = 13 then NumPrime.isSquare bld w n else .ok false) = Res.ok v' ∧
        (v' = true → IsSquare n) := by
      by_cases h : 2 * k + 5 = 13
      · exact ⟨v, by simp [h, hv], hvs.mp⟩
      · exact ⟨false, by simp [h], by simp⟩
    obtain ⟨v', hv', hvs'⟩ := hsq
    rw [hv'] at h
    simp only [Res.bind_ok] at h
    have hno : ∀ k', k' < k → jacobiSym (selfridgeD k') n ≠ -1 := by
      intro k' hk' hc
      rcases hk k' hk' with h1 | h1
      · rw [h1] at hc; norm_num at hc
      · have : jacobiSym (selfridgeD k') n = 0 := by
          refine jac_self_zero (by omega) ?_
          rw [Int.natCast_dvd, selfridgeD_natAbs, h1]
        rw [this] at hc; norm_num at hc
    cases v' with
    | true =>
      simp only [if_true, Res.pure_def, Res.ok.injEq, Prod.mk.injEq] at h
      refine Or.inr ⟨h.1.symm, h.2.symm, ?_⟩
      rintro D ⟨k', rfl, h1, _⟩
      exact jac_square_ne hn (hvs' rfl) _ h1
    | false =>
      simp only [Bool.false_eq_true, if_false] at h
      by_cases h0 : jacobiSym (selfridgeD k) n = 0 ∧ 2 * k + 5 ≠ n
      · rw [if_pos h0] at h
        simp only [Res.pure_def, Res.ok.injEq, Prod.mk.injEq] at h
        refine Or.inr ⟨h.1.symm, h.2.symm, ?_⟩
        rintro D ⟨k', rfl, h1, h2⟩
        rcases lt_trichotomy k' k with h3 | h3 | h3
        · exact hno k' h3 h1
        · rw [h3, h0.1] at h1; norm_num at h1
        · rcases h2 k h3 with h4 | h4
          · rw [h0.1] at h4; norm_num at h4
          · exact h0.2 h4
      rw [if_neg h0] at h
      by_cases hm : jacobiSym (selfridgeD k) n = -1
      · rw [if_pos hm] at h
        simp only [Res.pure_def, Res.ok.injEq, Prod.mk.injEq] at h
        have hq := selfridge_params (d := 2 * k + 5) (neg := k % 2 == 1) (by rw [sgn_selfridge]; exact selfridgeD_mod k)
        rw [sgn_selfridge] at hq
        have h2 := h.2
        rw [show (if (k % 2 == 1) = true then -((2 * k + 5 : ℕ) : ℤ) else ((2 * k + 5 : ℕ) : ℤ)) = selfridgeD k from
          sgn_selfridge k] at h2
        rw [h2] at hq
        exact Or.inl ⟨h.1.symm, k, hq, by rw [hq]; exact hm, hk⟩
      rw [if_neg hm] at h
      simp only [Res.bind_eq_ok] at h
      obtain ⟨d', hd', h⟩ := h
      have e : d' = 2 * (k + 1) + 5 := by
        unfold cadd at hd'
        split at hd'
        · injection hd' with hd'; omega
        · simp at hd'
      have e2 : (!(k % 2 == 1)) = ((k + 1) % 2 == 1) := by
        rcases Nat.mod_two_eq_zero_or_one k with h | h
        · have : (k + 1) % 2 = 1 := by omega
          simp [h, this]
        · have : (k + 1) % 2 = 0 := by omega
          simp [h, this]
      rw [e, e2] at h
      refine ih (k + 1) P Q ?_ h
      intro j hj
      rcases Nat.lt_or_ge j k with h1 | h1
      · exact hk j h1
      · have : j = k := by omega
        subst this
        rcases jacobi_trichotomy (selfridgeD j) n with h2 | h2 | h2
        · right
          by_contra hc
          exact h0 ⟨h2, hc⟩
        · exact Or.inl h2
        · exact absurd h2 hm

/-- what the brute force search returns, from `p` on -/
theorem bruteforce_first (bld : Build) {w : Width} {n : ℕ} (hodd : n % 2 = 1) (hw : fits w n = true) :
    ∀ (f p : ℕ) (P : ℕ), 3 ≤ p → (∀ q : ℕ, 3 ≤ q → q < p → jacobiSym ((q : ℤ) ^ 2 - 4) n = 1 ∨ (q : ℤ) ^ 2 - 4 = n) →
    pBruteforceLoop bld w n f p = .ok P →
    MethodC n P ∨ (P = 0 ∧ ∀ P', ¬ MethodC n P') := by
  intro f
  induction f with
  | zero => intro p P _ _ h; simp [pBruteforceLoop] at h
  | succ f ih =>
    intro p P h3 hp h
    have hn : 0 < n := by omega
    have hcast : ((p * p - 4 : ℕ) : ℤ) = (p : ℤ) ^ 2 - 4 := by
      rw [Nat.cast_sub (by nlinarith)]; push_cast; ring
    simp only [pBruteforceLoop] at h
    obtain ⟨v, hv, hvs⟩ := isSquare_spec bld w hn hw
    have hsq : ∃ v', (if p = 10 then NumPrime.isSquare bld w n else .ok false) = Res.ok v' ∧ (v' = true → IsSquare n) := by
      by_cases h : p = 10
      · exact ⟨v, by simp [h, hv], hvs.mp⟩
      · exact ⟨false, by simp [h], by simp⟩
    obtain ⟨v', hv', hvs'⟩ := hsq
    rw [hv'] at h
    simp only [Res.bind_ok] at h
    have hno : ∀ q : ℕ, 3 ≤ q → q < p → jacobiSym ((q : ℤ) ^ 2 - 4) n ≠ -1 := by
      intro q hq hq' hc
      rcases hp q hq hq' with h1 | h1
      · rw [h1] at hc; norm_num at hc
      · have : jacobiSym ((q : ℤ) ^ 2 - 4) n = 0 := by
          rw [h1]
          refine jac_self_zero ?_ (dvd_refl _)
          have : (3 : ℤ) ≤ q := by exact_mod_cast hq
          have : (1 : ℤ) < n := by nlinarith
          exact_mod_cast this
        rw [this] at hc; norm_num at hc
    cases v' with
    | true =>
      simp only [if_true, Res.pure_def, Res.ok.injEq] at h
      refine Or.inr ⟨h.symm, ?_⟩
      rintro P' ⟨_, h1, _⟩
      exact jac_square_ne hn (hvs' rfl) _ h1
    | false =>
      simp only [Bool.false_eq_true, if_false, Res.bind_eq_ok] at h
      obtain ⟨d, hd, h⟩ := h
      have e : d = p * p - 4 := by
        unfold fromWord at hd
        split at hd
        · injection hd with hd; exact hd.symm
        · simp at hd
      subst e
      rw [jacobi_eq hodd, hcast] at h
      have hne : p * p - 4 ≠ n ↔ (p : ℤ) ^ 2 - 4 ≠ n := by rw [← hcast]; norm_cast
      simp only [hne] at h
      by_cases h0 : jacobiSym ((p : ℤ) ^ 2 - 4) n = 0 ∧ (p : ℤ) ^ 2 - 4 ≠ n
      · rw [if_pos h0] at h
        simp only [Res.pure_def, Res.ok.injEq] at h
        refine Or.inr ⟨h.symm, ?_⟩
        rintro P' ⟨h4, h1, h2⟩
        rcases lt_trichotomy P' p with h5 | h5 | h5
        · exact hno P' h4 h5 h1
        · rw [h5, h0.1] at h1; norm_num at h1
        · rcases h2 p h3 h5 with h6 | h6
          · rw [h0.1] at h6; norm_num at h6
          · exact h0.2 h6
      rw [if_neg h0] at h
      by_cases hm : jacobiSym ((p : ℤ) ^ 2 - 4) n = -1
      · rw [if_pos hm] at h
        simp only [Res.pure_def, Res.ok.injEq] at h
        subst h
        exact Or.inl ⟨h3, hm, hp⟩
      rw [if_neg hm] at h
      refine ih (p + 1) P (by omega) ?_ h
      intro q hq hq'
      rcases Nat.lt_or_ge q p with h1 | h1
      · exact hp q hq h1
      · have : q = p := by omega
        subst this
        rcases jacobi_trichotomy ((q : ℤ) ^ 2 - 4) n with h2 | h2 | h2
        · right
          by_contra hc
          exact h0 ⟨h2, hc⟩
        · exact Or.inl h2
        · exact absurd h2 hm

/-! ## the default tests -/

/-- **C89** `pq_selfridge` finds the discriminant of method A: it returns `(1, Q)` with `1 - 4 Q` that discriminant, or `(0, 0)` if
method A gives up -/
theorem C89_pq_selfridge_method_a (bld : Build) (w : Width) (hstd : StdWidth w) (n : ℕ) (hodd : n % 2 = 1) (hw : fits w n = true) :
    ∃ P Q, pqSelfridge bld w n = .ok (P, Q) ∧ ((P = 1 ∧ MethodA n (1 - 4 * Q)) ∨ (P = 0 ∧ Q = 0 ∧ ∀ D, ¬ MethodA n D)) := by
  obtain ⟨P, Q, h1, _⟩ := pqSelfridge_total bld hstd hodd hw
  exact ⟨P, Q, h1, selfridge_first bld hodd hw _ 0 P Q (by simp) (by simpa [pqSelfridge] using h1)⟩

/-- **C89** `p_bruteforce` finds the parameter of method C, or returns 0 if method C gives up -/
theorem C89_p_bruteforce_method_c (bld : Build) (w : Width) (hstd : StdWidth w) (n : ℕ) (hodd : n % 2 = 1)
    (hw : fits w n = true) :
    ∃ P, pBruteforce bld w n = .ok P ∧ (MethodC n P ∨ (P = 0 ∧ ∀ P', ¬ MethodC n P')) := by
  obtain ⟨P, h1, _⟩ := pBruteforce_total bld hstd hodd hw
  exact ⟨P, h1, bruteforce_first bld hodd hw _ 3 P le_rfl (fun q h h' => by omega) h1⟩

/-- **C89** the methods choose at most one parameter -/
theorem C89_methods_unique (n : ℕ) : (∀ D D', MethodA n D → MethodA n D' → D = D') ∧ (∀ P P', MethodC n P → MethodC n P' → P = P') := by
  constructor
  · rintro _ _ ⟨k, rfl, h1, h2⟩ ⟨k', rfl, h1', h2'⟩
    have key : ∀ a b, jacobiSym (selfridgeD a) n = -1 → (∀ j < b, jacobiSym (selfridgeD j) n = 1 ∨ 2 * j + 5 = n) → b ≤ a := by
      intro a b ha hb
      by_contra hc
      rcases hb a (by omega) with h | h
      · rw [h] at ha; norm_num at ha
      · have : jacobiSym (selfridgeD a) n = 0 := by
          refine jac_self_zero (by omega) ?_
          rw [Int.natCast_dvd, selfridgeD_natAbs, h]
        rw [this] at ha; norm_num at ha
    rw [le_antisymm (key k' k h1' h2) (key k k' h1 h2')]
  · rintro P P' ⟨h0, h1, h2⟩ ⟨h0', h1', h2'⟩
    have key : ∀ a b : ℕ, 3 ≤ a → jacobiSym ((a : ℤ) ^ 2 - 4) n = -1 →
        (∀ j : ℕ, 3 ≤ j → j < b → jacobiSym ((j : ℤ) ^ 2 - 4) n = 1 ∨ (j : ℤ) ^ 2 - 4 = n) → b ≤ a := by
      intro a b ha3 ha hb
      by_contra hc
      rcases hb a ha3 (by omega) with h | h
      · rw [h] at ha; norm_num at ha
      · have : jacobiSym ((a : ℤ) ^ 2 - 4) n = 0 := by
          rw [h]
          refine jac_self_zero ?_ (dvd_refl _)
          have : (3 : ℤ) ≤ a := by exact_mod_cast ha3
          have : (1 : ℤ) < n := by nlinarith
          exact_mod_cast this
        rw [this] at ha; norm_num at ha
    exact le_antisymm (key P' P h0' h1' h2) (key P P' h0 h1 h2')

/-- **C89** `is_lprp(None, None)` on an odd number is the Lucas test with the parameters of method A: the verdict is `true` exactly
if method A finds a discriminant `D` and the number is a Lucas probable prime for `P = 1`, `Q = (1 - D)/4` -/
theorem C89_is_lprp_default (bld : Build) (w : Width) (hstd : StdWidth w) (n : ℕ) (hodd : n % 2 = 1) (hw : fits w (n + 1) = true) :
    ∃ v, isLprp bld w n none none = .ok v ∧ (v = true ↔ ∃ Q : ℤ, MethodA n (1 - 4 * Q) ∧ LucasPRP n 1 Q) := by
  have hwn := fits_mono (Nat.le_succ n) hw
  obtain ⟨P, Q, h1, h2⟩ := C89_pq_selfridge_method_a bld w hstd n hodd hwn
  rcases h2 with ⟨rfl, hA⟩ | ⟨rfl, rfl, hno⟩
  · obtain ⟨P', Q', h3, h4⟩ := pqSelfridge_total bld hstd hodd hwn
    rw [h1] at h3
    simp only [Res.ok.injEq, Prod.mk.injEq] at h3
    rcases h4 with ⟨h5, _⟩ | ⟨_, _, h5⟩
    · omega
    · rw [← h3.2] at h5
      obtain ⟨v, h6, h7⟩ := lprpWith_spec hodd hw 1 Q (selfridge_conv hstd hwn h5)
      refine ⟨v, by rw [isLprp_none bld hodd h1, h6], h7.trans ⟨fun h => ⟨Q, hA, by simpa using h⟩, ?_⟩⟩
      rintro ⟨Q2, g1, g2⟩
      have := (C89_methods_unique n).1 _ _ hA g1
      have e : Q = Q2 := by omega
      subst e
      simpa using g2
  · refine ⟨false, ?_, by simp [hno]⟩
    have h4 : ¬ n < 1 := by omega
    simp [isLprp, lucasParams, h1, h4, hodd]

theorem lucasV_of_dvd {p : ℕ} {Q : ℤ} (h : (p : ℤ) ∣ Q) : ∀ k, lucasV 1 Q (k + 1) ≡ 1 [ZMOD p] := by
  intro k
  induction k with
  | zero => simp [lucasV]
  | succ k ih =>
    rw [lucasV, one_mul]
    have h2 : Q * lucasV 1 Q k ≡ 0 [ZMOD p] := Int.modEq_zero_iff_dvd.mpr (h.mul_right _)
    simpa using ih.sub h2

/-- **C89** `is_slprp(None, None)` on an odd number is the strong Lucas test with the parameters of method A -/
theorem C89_is_slprp_default (bld : Build) (w : Width) (hstd : StdWidth w) (n : ℕ) (hodd : n % 2 = 1)
    (hw : fits w (n + 1) = true) :
    ∃ v, isSlprp bld w n none none = .ok v ∧ (v = true ↔ ∃ Q : ℤ, MethodA n (1 - 4 * Q) ∧ StrongLucasPRP n 1 Q) := by
  have hwn := fits_mono (Nat.le_succ n) hw
  obtain ⟨P, Q, h1, h2⟩ := C89_pq_selfridge_method_a bld w hstd n hodd hwn
  obtain ⟨P', Q', v, h3, h4, h5⟩ := isSlprp_none_spec bld hstd hodd hw
  rw [h1] at h3
  simp only [Res.ok.injEq, Prod.mk.injEq] at h3
  obtain ⟨rfl, rfl⟩ := h3
  refine ⟨v, h4, ?_⟩
  rcases h2 with ⟨rfl, hA⟩ | ⟨rfl, rfl, hno⟩
  · rcases h5 with ⟨h6, _⟩ | ⟨_, hJ, h6⟩
    · omega
    rw [h6]
    constructor
    · rintro (h7 | h7)
      · exact ⟨Q, hA, h7⟩
      · exfalso
        have hn1 : n ≠ 1 := by rintro rfl; simp at hJ
        by_cases hg : Int.gcd Q n = 1
        · have := lucasV_index_ne_zero 1 Q (by omega : 1 < n) hodd hg
          rw [lucasIndex_eq_neg (by simpa using hJ)] at this
          exact this h7
        · obtain ⟨p, hp, hd⟩ := Nat.exists_prime_and_dvd hg
          have d1 : (p : ℤ) ∣ Q := dvd_trans (Int.natCast_dvd_natCast.mpr hd) (Int.gcd_dvd_left ..)
          have d2 : (p : ℤ) ∣ n := dvd_trans (Int.natCast_dvd_natCast.mpr hd) (Int.gcd_dvd_right ..)
          have e1 := lucasV_of_dvd d1 n
          have e2 : lucasV 1 Q (n + 1) ≡ 0 [ZMOD p] := h7.of_dvd d2
          have e3 : (p : ℤ) ∣ 1 := Int.modEq_zero_iff_dvd.mp (e1.symm.trans e2)
          have := hp.one_lt
          have e4 : p ∣ 1 := by exact_mod_cast e3
          have := Nat.le_of_dvd one_pos e4
          omega
    · rintro ⟨Q2, g1, g2⟩
      have := (C89_methods_unique n).1 _ _ hA g1
      have e : Q = Q2 := by omega
      subst e
      exact Or.inl g2
  · rcases h5 with ⟨_, _, rfl⟩ | ⟨h6, _⟩
    · simp [hno]
    · omega

/-- **C89** `is_eslprp(None)` on an odd number is the extra strong Lucas test with the parameter of method C -/
theorem C89_is_eslprp_default (bld : Build) (w : Width) (hstd : StdWidth w) (n : ℕ) (hodd : n % 2 = 1)
    (hw : fits w (n + 1) = true) :
    ∃ v, isEslprp bld w n none = .ok v ∧ (v = true ↔ ∃ P, MethodC n P ∧ ExtraStrongLucasPRP n P) := by
  have hwn := fits_mono (Nat.le_succ n) hw
  obtain ⟨P, h1, h2⟩ := C89_p_bruteforce_method_c bld w hstd n hodd hwn
  obtain ⟨P', v, h3, h4, h5⟩ := isEslprp_none_spec bld hstd hodd hw
  rw [h1] at h3
  simp only [Res.ok.injEq] at h3
  subst h3
  refine ⟨v, h4, ?_⟩
  rcases h2 with hC | ⟨rfl, hno⟩
  · rcases h5 with ⟨h6, _⟩ | ⟨_, hJ, h6⟩
    · have := hC.1; omega
    rw [h6]
    constructor
    · exact fun h => ⟨P, hC, h⟩
    · rintro ⟨P2, g1, g2⟩
      rwa [(C89_methods_unique n).2 _ _ hC g1]
  · rcases h5 with ⟨_, _, rfl⟩ | ⟨h6, _⟩
    · simp [hno]
    · omega

/-- **C89** so the verdicts depend neither on the integer type nor on the build -/
theorem C89_default_agree (bld bld' : Build) (w w' : Width) (hstd : StdWidth w) (hstd' : StdWidth w') (n : ℕ) (hodd : n % 2 = 1)
    (hw : fits w (n + 1) = true) (hw' : fits w' (n + 1) = true) :
    isLprp bld w n none none = isLprp bld' w' n none none ∧ isSlprp bld w n none none = isSlprp bld' w' n none none ∧
    isEslprp bld w n none = isEslprp bld' w' n none := by
  refine ⟨?_, ?_, ?_⟩
  · obtain ⟨v, h1, h2⟩ := C89_is_lprp_default bld w hstd n hodd hw
    obtain ⟨v', h1', h2'⟩ := C89_is_lprp_default bld' w' hstd' n hodd hw'
    rw [h1, h1', Bool.eq_iff_iff.mpr (h2.trans h2'.symm)]
  · obtain ⟨v, h1, h2⟩ := C89_is_slprp_default bld w hstd n hodd hw
    obtain ⟨v', h1', h2'⟩ := C89_is_slprp_default bld' w' hstd' n hodd hw'
    rw [h1, h1', Bool.eq_iff_iff.mpr (h2.trans h2'.symm)]
  · obtain ⟨v, h1, h2⟩ := C89_is_eslprp_default bld w hstd n hodd hw
    obtain ⟨v', h1', h2'⟩ := C89_is_eslprp_default bld' w' hstd' n hodd hw'
    rw [h1, h1', Bool.eq_iff_iff.mpr (h2.trans h2'.symm)]

/-! ## the generic test -/

/-- **C16** the verdict of `is_prime` above `2^64`: with enough random draws there is a list of `sprp_random_trials` distinct random
bases, the same for every number tested with these draws, such that an odd number is accepted exactly if it is a strong probable
prime to the first `sprp_trials` primes of the buffer and to those bases, and passes the Lucas tests switched on, with the
parameters of methods A and C -/
theorem C16_accepted_iff (bld : Build) (w : Width) (hstd : StdWidth w) (list : List ℕ) (config : PrimalityTestConfig)
    (draws : List ℕ) (hen : config.sprpRandomTrials ≤ (draws.toFinset \ (list.take config.sprpTrials).toFinset).card) :
    ∃ ex : List ℕ, ex.length = config.sprpRandomTrials ∧ ex.Nodup ∧ (∀ b ∈ ex, b ∈ draws ∧ b ∉ list.take config.sprpTrials) ∧
    ∀ n : ℕ, n % 2 = 1 → 2 ^ 64 ≤ n → fits w (n + 1) = true →
      ∃ r, isPrime bld w list n (some config) draws = .ok r ∧
        (r.probably = true ↔ (∀ b ∈ list.take config.sprpTrials ++ ex, StrongPRP n b) ∧
          (config.slprpTest = true → ∃ Q : ℤ, MethodA n (1 - 4 * Q) ∧ StrongLucasPRP n 1 Q) ∧
          (config.eslprpTest = true → ∃ P, MethodC n P ∧ ExtraStrongLucasPRP n P)) := by
  obtain ⟨wl, hwl⟩ := drawWitnesses_ok _ _ _ hen
  obtain ⟨ex, rfl, x2, x3, x4⟩ := drawWitnesses_spec _ _ _ _ hwl
  refine ⟨ex, x2, x4, x3, ?_⟩
  intro n hodd h64 hw
  have hwn := fits_mono (Nat.le_succ n) hw
  obtain ⟨a, ha, hb⟩ := allSprp_spec (by omega : 2 < n) hodd hwn (list.take config.sprpTrials ++ ex)
  obtain ⟨s, hs, hs'⟩ := C89_is_slprp_default bld w hstd n hodd hw
  obtain ⟨e, he, he'⟩ := C89_is_eslprp_default bld w hstd n hodd hw
  have h0 : ¬ n % 2 = 0 := by omega
  have h1 : ¬ n < 2 ^ 64 := by omega
  unfold isPrime
  simp only [h0, h1, if_false, Option.getD_some, hwl, Res.bind_ok, ha, hs, he, Res.pure_def]
  rw [← hb, ← hs', ← he']
  cases a <;> cases s <;> cases e <;> cases config.slprpTest <;> cases config.eslprpTest <;>
    exact ⟨_, rfl, by simp [Primality.probably]⟩

/-- **C16** the configuration `bpsw()` is the Baillie-PSW test: from `2^64` on an odd number is accepted exactly if it is a strong
probable prime to base 2 and a strong Lucas probable prime with the parameters of method A, whatever the random draws -/
theorem C16_bpsw_iff (bld : Build) (w : Width) (hstd : StdWidth w) (n : ℕ) (hodd : n % 2 = 1) (h64 : 2 ^ 64 ≤ n)
    (hw : fits w (n + 1) = true) (draws : List ℕ) :
    ∃ r, isPrimeNew bld w n (some .bpsw) draws = .ok r ∧
      (r.probably = true ↔ StrongPRP n 2 ∧ ∃ Q : ℤ, MethodA n (1 - 4 * Q) ∧ StrongLucasPRP n 1 Q) := by
  obtain ⟨ex, h1, _, _, h⟩ := C16_accepted_iff bld w hstd (smallPrimes bld) .bpsw draws (by simp [PrimalityTestConfig.bpsw])
  obtain ⟨r, h2, h3⟩ := h n hodd h64 hw
  refine ⟨r, h2, h3.trans ?_⟩
  have e1 : ex = [] := List.length_eq_zero_iff.mp (by rw [h1]; rfl)
  have e2 : (smallPrimes bld).take PrimalityTestConfig.bpsw.sprpTrials = [2] := by cases bld <;> decide +kernel
  rw [e1, e2]
  simp [PrimalityTestConfig.bpsw]

/-- `2^64 + 13` is accepted, `2^64 + 15` is not -/
example : isPrimeNew .big (some 128) 18446744073709551629 (some .bpsw) [] = .ok (.probable (probability .bpsw)) ∧
    isPrimeNew .big (some 128) 18446744073709551631 (some .bpsw) [] = .ok .no := by decide +kernel

example : isSlprp .big (some 64) 5459 none none = .ok true ∧ isSlprp .small (some 16) 5459 none none = .ok true ∧
    isEslprp .big (some 64) 989 none = .ok true := by decide +kernel
/-- method A chooses -7 for 53·103 and 13 for 71, method C chooses 4 for 23·43 -/
example : pqSelfridge .big (some 64) 5459 = .ok (1, 2) ∧ pqSelfridge .small (some 8) 71 = .ok (1, -3) ∧
    pBruteforce .big (some 16) 989 = .ok 4 := by decide +kernel
example : MethodA 71 13 := by
  obtain ⟨P, Q, h1, h2⟩ := C89_pq_selfridge_method_a .small (some 8) (Or.inr ⟨8, by simp, rfl⟩) 71 rfl rfl
  rw [show pqSelfridge .small (some 8) 71 = .ok (1, -3) by decide +kernel] at h1
  simp only [Res.ok.injEq, Prod.mk.injEq] at h1
  rcases h2 with ⟨_, h⟩ | ⟨h, _⟩
  · rwa [← h1.2] at h
  · omega

end NumPrime
