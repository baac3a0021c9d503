import Verif.Props.Termination
import Mathlib.NumberTheory.Real.Irrational

/-! # C108: `squfof` is Shanks' square forms factorization -/

namespace NumPrime
namespace Spec

/-- the complete quotients of the continued fraction of `x`: `x_0 = x`, `x_{k+1} = 1 / (x_k - floor x_k)` -/
noncomputable def completeQuotient (x : ℝ) : ℕ → ℝ
  | 0 => x
  | k + 1 => 1 / (completeQuotient x k - ⌊completeQuotient x k⌋)

/-- Shanks' method at step `i` of the principal cycle gives `g`. The complete quotient of index `i + 1` of `√D` is `(√D + P) / r²`: its
denominator is a perfect square. With `u` the largest number below `√D` congruent to `P` modulo `r`, and `u² + r v = D`, follow the
continued fraction of `(√D + u) / v` to the first place where two consecutive complete quotients `(√D + U) / V` and `(√D + U) / V'` have
the same numerator. Then `g` is the greatest common divisor of `n` and `U`. -/
def ShanksAt (n D i g : ℕ) : Prop := ∃ P r u v j U V V' : ℕ,
  completeQuotient (√(D : ℝ)) (i + 1) = (√(D : ℝ) + P) / (r ^ 2 : ℕ) ∧
  u ≡ P [MOD r] ∧ (u : ℝ) < √(D : ℝ) ∧ √(D : ℝ) < u + r ∧ u ^ 2 + r * v = D ∧
  0 < V ∧ completeQuotient ((√(D : ℝ) + u) / v) j = (√(D : ℝ) + U) / V ∧
  completeQuotient ((√(D : ℝ) + u) / v) (j + 1) = (√(D : ℝ) + U) / V' ∧
  (∀ j' < j, ∀ A B C : ℕ, completeQuotient ((√(D : ℝ) + u) / v) j' = (√(D : ℝ) + A) / B →
    completeQuotient ((√(D : ℝ) + u) / v) (j' + 1) ≠ (√(D : ℝ) + A) / C) ∧
  g = Nat.gcd n U

end Spec

open Spec

theorem completeQuotient_shift (x : ℝ) : ∀ k, completeQuotient (completeQuotient x 1) k = completeQuotient x (k + 1)
  | 0 => rfl
  | k + 1 => by rw [completeQuotient, completeQuotient_shift x k]; rfl

theorem surd_unique {r : ℝ} (hr : Irrational r) (h0 : 0 < r) {A B U V : ℕ} (hB : 0 < B) (h : (r + A) / B = (r + U) / V) :
    A = U ∧ B = V := by
  have hBr : (0 : ℝ) < B := by exact_mod_cast hB
  have hpos : 0 < (r + A) / B := div_pos (by positivity) hBr
  have hV : (V : ℝ) ≠ 0 := by
    intro hV; rw [h, hV, div_zero] at hpos; exact lt_irrefl _ hpos
  rw [div_eq_div_iff hBr.ne' hV] at h
  have hBV : B = V := by
    by_contra hne
    have h1 : (V : ℝ) - B ≠ 0 := by
      intro h2; exact hne (by have : (V : ℝ) = B := by linarith
                              exact_mod_cast this.symm)
    have h3 : r = ((((U : ℤ) * B - A * V : ℤ) : ℚ) / (((V : ℤ) - B : ℤ) : ℚ) : ℚ) := by
      push_cast
      rw [eq_div_iff h1]; linarith
    exact hr ⟨_, h3.symm⟩
  subst hBV
  have : (A : ℝ) = U := by
    have := mul_right_cancel₀ hBr.ne' h
    linarith
  exact ⟨by exact_mod_cast this, rfl⟩

section
variable {D rd : ℕ} (hrd : rd * rd < D) (hrd2 : D < (rd + 1) * (rd + 1))

include hrd hrd2 in
theorem sqrt_irrational : Irrational √(D : ℝ) := by
  rw [irrational_sqrt_natCast_iff]
  rintro ⟨a, rfl⟩
  have h1 := Nat.mul_self_lt_mul_self_iff.mp hrd
  have h2 := Nat.mul_self_lt_mul_self_iff.mp hrd2
  omega

include hrd hrd2 in
/-- one step of the continued fraction -/
theorem surd_step {p q qm1 p' q' : ℕ} (h : SqInv D rd p q qm1) (h' : SqInv D rd p' q' q) (hb : (rd + p) / q * q = p' + p) :
    1 / ((√(D : ℝ) + p) / q - ⌊(√(D : ℝ) + p) / q⌋) = (√(D : ℝ) + p') / q' := by
  obtain ⟨r1, r2, r3⟩ := sqrt_between hrd hrd2
  set r := √(D : ℝ)
  have hq : (0 : ℝ) < q := by exact_mod_cast h.qpos
  have hq' : (0 : ℝ) < q' := by exact_mod_cast h'.qpos
  have hb2 : rd + p < (rd + p) / q * q + q := by
    have := Nat.lt_div_mul_add (a := rd + p) h.qpos
    linarith
  have hb1 := Nat.div_mul_le_self (rd + p) q
  generalize (rd + p) / q = b at *
  have e1 : (b : ℝ) * q = p' + p := by exact_mod_cast hb
  have e2 : (b : ℝ) * q ≤ rd + p := by exact_mod_cast hb1
  have e3 : (rd : ℝ) + p + 1 ≤ b * q + q := by exact_mod_cast hb2
  have hfl : ⌊(r + p) / q⌋ = (b : ℤ) := by
    rw [Int.floor_eq_iff]
    constructor
    · rw [le_div_iff₀ hq]; push_cast; linarith
    · rw [div_lt_iff₀ hq]; push_cast; nlinarith
  rw [hfl]
  have hp' : (p' : ℝ) ≤ rd := by exact_mod_cast h'.ple
  have hd : (q' : ℝ) * q + p' * p' = r * r := by rw [r3]; exact_mod_cast h'.disc
  have e4 : (r + p) / q - ((b : ℤ) : ℝ) = (r - p') / q := by
    push_cast; field_simp; linarith
  have hne : r - p' ≠ 0 := by have : p' < r := by linarith
                              linarith
  rw [e4, one_div_div, div_eq_div_iff hne hq'.ne']
  linear_combination hd

include hrd hrd2 in
theorem surd_next {x : ℝ} {k p q qm1 p' q' : ℕ} (hx : completeQuotient x k = (√(D : ℝ) + p) / q) (h : SqInv D rd p q qm1)
    (h' : SqInv D rd p' q' q) (hb : (rd + p) / q * q = p' + p) : completeQuotient x (k + 1) = (√(D : ℝ) + p') / q' := by
  rw [completeQuotient, hx]; exact surd_step hrd hrd2 h h' hb

variable {w : Width} (hw : fits w D = true) (hw2 : fits w (rd + rd) = true)

include hrd hrd2 hw hw2 in
/-- the backward loop stops at the first repeated numerator -/
theorem squfofBack_surd {U : ℕ} : ∀ (f u v m : ℕ), SqInv D rd u v m → squfofBack w rd f u v m = .ok U →
    ∃ j V V' : ℕ, 0 < V ∧ completeQuotient ((√(D : ℝ) + u) / v) j = (√(D : ℝ) + U) / V ∧
      completeQuotient ((√(D : ℝ) + u) / v) (j + 1) = (√(D : ℝ) + U) / V' ∧
      ∀ j' < j, ∀ A B C : ℕ, completeQuotient ((√(D : ℝ) + u) / v) j' = (√(D : ℝ) + A) / B →
        completeQuotient ((√(D : ℝ) + u) / v) (j' + 1) ≠ (√(D : ℝ) + A) / C
  | 0, u, v, m, _, h => by simp [squfofBack] at h
  | f + 1, u, v, m, hi, h => by
    obtain ⟨p', q', h1, h2, h3, -⟩ := squfofRho_step hrd hrd2 hi hw hw2
    have hs : completeQuotient ((√(D : ℝ) + u) / v) 1 = (√(D : ℝ) + p') / q' := surd_next hrd hrd2 rfl hi h2 h3
    simp only [squfofBack, h1, Res.bind_ok] at h
    split at h
    · rename_i he
      simp only [Res.pure_def, Res.ok.injEq] at h
      subst h
      exact ⟨0, v, q', hi.qpos, rfl, by rw [hs, he], by simp⟩
    · rename_i hne
      obtain ⟨j, V, V', g0, g1, g2, g3⟩ := squfofBack_surd f p' q' v h2 h
      rw [← hs, completeQuotient_shift] at g1 g2
      refine ⟨j + 1, V, V', g0, g1, g2, fun j' hj A B C hA => ?_⟩
      cases j' with
      | zero =>
        intro hC
        have hirr := sqrt_irrational hrd hrd2
        have hpos : 0 < √(D : ℝ) := lt_of_le_of_lt (Nat.cast_nonneg _) (sqrt_between hrd hrd2).1
        have e1 := (surd_unique hirr hpos hi.qpos hA).1
        rw [hs] at hC
        have e2 := (surd_unique hirr hpos h2.qpos hC).1
        exact hne (by rw [e1, e2])
      | succ j' =>
        have := g3 j' (by omega) A B C
        rw [← hs, completeQuotient_shift, completeQuotient_shift] at this
        exact this hA

include hrd hrd2 in
/-- Shanks' method has one result for each step -/
theorem ShanksAt.unique {n i g g' : ℕ} (h : ShanksAt n D i g) (h' : ShanksAt n D i g') : g = g' := by
  have hirr := sqrt_irrational hrd hrd2
  have hpos : 0 < √(D : ℝ) := lt_of_le_of_lt (Nat.cast_nonneg _) (sqrt_between hrd hrd2).1
  obtain ⟨P, r, u, v, j, U, V, V', a1, a2, a3, a4, a5, a0, a6, a7, a8, rfl⟩ := h
  obtain ⟨P', r', u', v', j', U', W, W', b1, b2, b3, b4, b5, -, b6, b7, b8, rfl⟩ := h'
  have hr : 0 < r := by
    rcases Nat.eq_zero_or_pos r with h | h
    · subst h; push_cast at a4; linarith
    · exact h
  obtain ⟨rfl, hrr⟩ := surd_unique hirr hpos (by positivity : 0 < r ^ 2) (a1.symm.trans b1)
  have : r = r' := Nat.pow_left_injective (n := 2) (by norm_num) hrr
  subst this
  have hu : u = u' := by
    have h1 : u < u' + r := by have : (u : ℝ) < u' + r := by linarith
                               exact_mod_cast this
    have h2 : u' < u + r := by have : (u' : ℝ) < u + r := by linarith
                               exact_mod_cast this
    have hm : u ≡ u' [MOD r] := a2.trans b2.symm
    rcases le_total u u' with hle | hle
    · have := (Nat.modEq_iff_dvd' hle).mp hm
      have := Nat.eq_zero_of_dvd_of_lt this (by omega)
      omega
    · have := (Nat.modEq_iff_dvd' hle).mp hm.symm
      have := Nat.eq_zero_of_dvd_of_lt this (by omega)
      omega
  subst hu
  have hv : v = v' := Nat.eq_of_mul_eq_mul_left hr (by omega)
  subst hv
  have hj : j = j' := by
    rcases lt_trichotomy j j' with hlt | he | hlt
    · exact absurd a7 (b8 j hlt U V V' a6)
    · exact he
    · exact absurd b7 (a8 j' hlt U' W W' b6)
  subst hj
  rw [(surd_unique hirr hpos a0 (a6.symm.trans b6)).1]

include hrd hrd2 hw hw2 in
/-- the forward loop from step `i` on: `i + f` is the limit -/
theorem squfofForward_surd {bld : Build} {fuel n maxIter : ℕ} (hn : 0 < n) {o : Option ℕ} {c : ℕ} : ∀ (f i p q qm1 : ℕ),
    SqInv D rd p q qm1 → completeQuotient (√(D : ℝ)) i = (√(D : ℝ) + p) / q →
    squfofForward bld w fuel n D rd maxIter f i p q qm1 = .ok (o, c) →
    (∀ d, o = some d → i ≤ c ∧ c < i + f ∧ c % 2 = 1 ∧ ShanksAt n D c d ∧ 1 < d ∧ d < n ∧
      ∀ i' < c, i ≤ i' → i' % 2 = 1 → ∀ g, ShanksAt n D i' g → g = 1 ∨ g = n) ∧
    (o = none → c = maxIter ∧ ∀ i' < i + f, i ≤ i' → i' % 2 = 1 → ∀ g, ShanksAt n D i' g → g = 1 ∨ g = n)
  | 0, i, p, q, qm1, _, _, h => by
    simp only [squfofForward, Res.ok.injEq, Prod.mk.injEq] at h
    obtain ⟨rfl, rfl⟩ := h
    exact ⟨by simp, fun _ => ⟨rfl, by omega⟩⟩
  | f + 1, i, p, q, qm1, hi, hx, h => by
    have hirr := sqrt_irrational hrd hrd2
    have hbet := sqrt_between hrd hrd2
    have hpos : 0 < √(D : ℝ) := lt_of_le_of_lt (Nat.cast_nonneg _) hbet.1
    obtain ⟨p', q', h1, h2, h3, -⟩ := squfofRho_step hrd hrd2 hi hw hw2
    have hx' := surd_next hrd hrd2 hx hi h2 h3
    have hrec : (i % 2 = 1 → ∀ g, ShanksAt n D i g → g = 1 ∨ g = n) →
        squfofForward bld w fuel n D rd maxIter f (i + 1) p' q' q = .ok (o, c) → 
        ((∀ d, o = some d → i ≤ c ∧ c < i + (f + 1) ∧ c % 2 = 1 ∧ ShanksAt n D c d ∧ 1 < d ∧ d < n ∧
          ∀ i' < c, i ≤ i' → i' % 2 = 1 → ∀ g, ShanksAt n D i' g → g = 1 ∨ g = n) ∧
        (o = none → c = maxIter ∧ ∀ i' < i + (f + 1), i ≤ i' → i' % 2 = 1 → ∀ g, ShanksAt n D i' g → g = 1 ∨ g = n)) := fun ht h' => by
      obtain ⟨g1, g2⟩ := squfofForward_surd hn f (i + 1) p' q' q h2 hx' h'
      constructor
      · intro d hd
        obtain ⟨k1, k2, k3, k4, k5, k6, k7⟩ := g1 d hd
        refine ⟨by omega, by omega, k3, k4, k5, k6, fun i' hi' hle hodd => ?_⟩
        rcases Nat.eq_or_lt_of_le hle with he | hlt
        · subst he; exact ht hodd
        · exact k7 i' hi' hlt hodd
      · intro ho
        obtain ⟨k1, k2⟩ := g2 ho
        refine ⟨k1, fun i' hi' hle hodd => ?_⟩
        rcases Nat.eq_or_lt_of_le hle with he | hlt
        · subst he; exact ht hodd
        · exact k2 i' (by omega) hlt hodd
    simp only [squfofForward, h1, Res.bind_ok] at h
    have hqf : fits w q' = true := fits_mono (by have := h2.qle; have := h2.ple; omega) hw2
    obtain ⟨o', ho, hroot⟩ : ∃ o, (if i % 2 = 1 then sqrtExact bld w q' else .ok none : Res (Option ℕ)) = .ok o ∧
        (∀ rq, o = some rq → rq ^ 2 = q' ∧ i % 2 = 1) ∧ (o = none → i % 2 = 1 → ∀ r, r ^ 2 ≠ q') := by
      by_cases hi : i % 2 = 1
      · obtain ⟨o, ho1, ho2⟩ := sqrtExact_spec bld w h2.qpos hqf
        exact ⟨o, by simp [hi, ho1], fun rq hrq => by subst hrq; exact ⟨(ho2 rq).mp rfl, hi⟩,
          fun hn _ r hr => by have := (ho2 r).mpr hr; rw [hn] at this; simp at this⟩
      · exact ⟨none, by simp [hi], by simp, fun _ h => absurd h hi⟩
    rw [ho, Res.bind_ok] at h
    cases o' with
    | none =>
      refine hrec (fun hodd g hg => ?_) h
      obtain ⟨P, r, -, -, -, -, -, -, a1, -⟩ := hg
      exact absurd (surd_unique hirr hpos h2.qpos (hx'.symm.trans a1)).2.symm (hroot.2 rfl hodd r)
    | some rq =>
      obtain ⟨hr, hodd⟩ := hroot.1 rq rfl
      have hinv := h2.root hrd hrd2 hr
      have hrq : 0 < rq := hinv.mpos
      simp only [csub_ok h2.ple, Res.bind_ok, cdiv_ok hrq.ne'] at h
      have hple := h2.ple
      have hb2 : rd - p' < (rd - p') / rq * rq + rq := by
        have := Nat.lt_div_mul_add (a := rd - p') hrq
        linarith
      generalize hb : (rd - p') / rq = b at *
      generalize hu : b * rq + p' = u at hinv
      have hule := hinv.ple
      have huu : u * u ≤ D := by have := Nat.mul_le_mul hule hule; omega
      rw [cmul_ok (fits_mono (show b * rq ≤ rd + rd by omega) hw2), Res.bind_ok,
        cadd_ok (by rw [hu]; exact fits_mono (by omega) hw2), Res.bind_ok, hu, cmul_ok (fits_mono huu hw), Res.bind_ok,
        csub_ok huu, Res.bind_ok] at h
      rw [Res.bind_eq_ok] at h
      obtain ⟨U, hU, h⟩ := h
      generalize (D - u * u) / rq = v at *
      obtain ⟨j, V, V', c1, c2, c3, c4⟩ := squfofBack_surd hrd hrd2 hw hw2 fuel u v rq hinv hU
      have hsh : ShanksAt n D i (Nat.gcd n U) := by
        refine ⟨p', rq, u, v, j, U, V, V', by rw [hx', hr], ?_, ?_, ?_, ?_, c1, c2, c3, c4, rfl⟩
        · rw [← hu, Nat.ModEq, Nat.add_comm, Nat.add_mul_mod_self_right]
        · have : (u : ℝ) ≤ rd := by exact_mod_cast hule
          linarith [hbet.1]
        · have : (rd : ℝ) + 1 ≤ u + rq := by
            have : rd + 1 ≤ u + rq := by omega
            exact_mod_cast this
          linarith [hbet.2.1]
        · have := hinv.disc
          rw [sq, Nat.mul_comm rq v]; omega
      split at h
      · rename_i hc
        simp only [Res.pure_def, Res.ok.injEq, Prod.mk.injEq] at h
        obtain ⟨rfl, rfl⟩ := h
        exact ⟨fun d hd => by
          simp only [Option.some.injEq] at hd
          subst hd
          exact ⟨le_rfl, by omega, hodd, hsh, hc.1, hc.2, by omega⟩, by simp⟩
      · rename_i hc
        refine hrec (fun _ g hg => ?_) h
        rw [ShanksAt.unique hrd hrd2 hg hsh]
        have hg0 := Nat.gcd_pos_of_pos_left U hn
        have hgn := Nat.le_of_dvd hn (Nat.gcd_dvd_left n U)
        omega

end

theorem squfof_surd {bld : Build} {w : Width} {fuel n D maxIter : ℕ} (hn : 0 < n) (hdvd : n ∣ D) (hsq : ¬ IsSquare D)
    (hw : fits w D = true) (hw2 : fits w (isqrt D + isqrt D) = true) {o : Option ℕ} {c : ℕ}
    (h : squfof bld w fuel n D maxIter = .ok (o, c)) :
    (∀ d, o = some d → c < maxIter ∧ c % 2 = 1 ∧ ShanksAt n D c d ∧ 1 < d ∧ d < n ∧
      ∀ i < c, i % 2 = 1 → ∀ g, ShanksAt n D i g → g = 1 ∨ g = n) ∧
    (o = none → c = maxIter ∧ ∀ i < maxIter, i % 2 = 1 → ∀ g, ShanksAt n D i g → g = 1 ∨ g = n) := by
  obtain ⟨h1, h2⟩ := isqrt_spec D
  have hc : ¬ (n = 0 ∨ D % n ≠ 0) := by
    have := Nat.mod_eq_zero_of_dvd hdvd
    omega
  simp only [squfof, hc, if_false] at h
  generalize hrd : isqrt D = rd at *
  rw [cmul_ok (fits_mono h1 hw), Res.bind_ok, csub_ok h1, Res.bind_ok] at h
  have hne : rd * rd ≠ D := fun he => hsq ⟨rd, he.symm⟩
  have hq : D - rd * rd ≠ 0 := by omega
  rw [if_neg hq] at h
  have hlt : rd * rd < D := by omega
  have hpos : 0 < rd := by
    rcases Nat.eq_zero_or_pos rd with h0 | h0
    · subst h0; exact absurd ⟨1, by omega⟩ hsq
    · exact h0
  have hinv : SqInv D rd rd (D - rd * rd) 1 := by
    refine ⟨hpos, le_rfl, by omega, ?_, one_pos, by omega⟩
    have : (rd + 1) * (rd + 1) = rd * rd + rd + rd + 1 := by ring
    omega
  have hx : completeQuotient (√(D : ℝ)) 1 = (√(D : ℝ) + rd) / (D - rd * rd : ℕ) := by
    obtain ⟨r1, r2, r3⟩ := sqrt_between hlt h2
    have hfl : ⌊√(D : ℝ)⌋ = (rd : ℤ) := by
      rw [Int.floor_eq_iff]; push_cast; exact ⟨r1.le, r2⟩
    rw [completeQuotient, completeQuotient, hfl, Nat.cast_sub hlt.le]
    push_cast
    have e1 : √(D : ℝ) - rd ≠ 0 := by linarith
    have e2 : (D : ℝ) - rd * rd ≠ 0 := by
      have : (rd : ℝ) * rd < D := by exact_mod_cast hlt
      linarith
    rw [div_eq_div_iff e1 e2]; linear_combination -r3
  obtain ⟨g1, g2⟩ := squfofForward_surd hlt h2 hw hw2 hn _ _ _ _ _ hinv hx h
  constructor
  · intro d hd
    obtain ⟨k1, k2, k3, k4, k5, k6, k7⟩ := g1 d hd
    exact ⟨by omega, k3, k4, k5, k6, fun i hi hodd => k7 i hi (by omega) hodd⟩
  · intro ho
    obtain ⟨k1, k2⟩ := g2 ho
    exact ⟨k1, fun i hi hodd => k2 i (by omega) (by omega) hodd⟩

theorem two_sqrt_fits {w : Width} {D : ℕ} (hb : ∀ b, w = some b → 2 ≤ b) (hw : fits w D = true) :
    fits w (isqrt D + isqrt D) = true := by
  cases w with
  | none => rfl
  | some b => exact fits_some.mpr (sqrt_fits (hb b rfl) (fits_some.mp hw))

/-- **C108** a factor found by `squfof` is the one of Shanks' method at the reported step, an odd number below the limit (so that the
index of the complete quotient is even), and at every earlier odd step there is either no square denominator or the greatest common
divisor is trivial -/
theorem C108_squfof_found (bld : Build) (w : Width) (fuel n k maxIter d i : ℕ) (hb : ∀ b, w = some b → 2 ≤ b) (hn : 0 < n)
    (hw : fits w (k * n) = true) (hsq : ¬ IsSquare (k * n)) (h : squfof bld w fuel n (k * n) maxIter = .ok (some d, i)) :
    i < maxIter ∧ i % 2 = 1 ∧ ShanksAt n (k * n) i d ∧ 1 < d ∧ d < n ∧
      ∀ i' < i, i' % 2 = 1 → ∀ g, ShanksAt n (k * n) i' g → g = 1 ∨ g = n :=
  (squfof_surd hn ⟨k, Nat.mul_comm _ _⟩ hsq hw (two_sqrt_fits hb hw) h).1 d rfl

/-- **C108** if `squfof` finds nothing, the reported count is the limit and Shanks' method gives no proper divisor at any odd step below it -/
theorem C108_squfof_none (bld : Build) (w : Width) (fuel n k maxIter c : ℕ) (hb : ∀ b, w = some b → 2 ≤ b) (hn : 0 < n)
    (hw : fits w (k * n) = true) (hsq : ¬ IsSquare (k * n)) (h : squfof bld w fuel n (k * n) maxIter = .ok (none, c)) :
    c = maxIter ∧ ∀ i < maxIter, i % 2 = 1 → ∀ g, ShanksAt n (k * n) i g → g = 1 ∨ g = n :=
  (squfof_surd hn ⟨k, Nat.mul_comm _ _⟩ hsq hw (two_sqrt_fits hb hw) h).2 rfl

/-- **C108** `squfof` finds a factor under a limit exactly if Shanks' method does at some odd step below it, and it returns the first one -/
theorem C108_squfof_iff (bld : Build) (w : Width) (fuel n k maxIter d i : ℕ) (hb : ∀ b, w = some b → 2 ≤ b) (hn : 0 < n)
    (hw : fits w (k * n) = true) (hsq : ¬ IsSquare (k * n)) (hf : maxIter * (Nat.log 2 (k * n) + 2) ≤ fuel) :
    squfof bld w fuel n (k * n) maxIter = .ok (some d, i) ↔
      i < maxIter ∧ i % 2 = 1 ∧ ShanksAt n (k * n) i d ∧ 1 < d ∧ d < n ∧
        ∀ i' < i, i' % 2 = 1 → ∀ g, ShanksAt n (k * n) i' g → g = 1 ∨ g = n := by
  refine ⟨C108_squfof_found bld w fuel n k maxIter d i hb hn hw hsq, fun ⟨h1, h2, h3, h4, h5, h6⟩ => ?_⟩
  obtain ⟨⟨o, c⟩, hr⟩ := C78_squfof_returns bld w fuel n k maxIter hb hn hw hf
  cases o with
  | none => have := (C108_squfof_none bld w fuel n k maxIter c hb hn hw hsq hr).2 i h1 h2 d h3; omega
  | some d' =>
    obtain ⟨g1, g2, g3, g4, g5, g6⟩ := C108_squfof_found bld w fuel n k maxIter d' c hb hn hw hsq hr
    have hci : c = i := by
      rcases lt_trichotomy c i with hlt | he | hlt
      · have := h6 c hlt g2 d' g3; omega
      · exact he
      · have := g6 i hlt h2 d h3; omega
    subst hci
    obtain ⟨e1, e2⟩ := isqrt_spec (k * n)
    have hne : isqrt (k * n) * isqrt (k * n) ≠ k * n := fun he => hsq ⟨_, he.symm⟩
    rw [hr, ShanksAt.unique (by omega) e2 g3 h3]

theorem not_square_11111 : ¬ IsSquare (1 * 11111) := by
  rintro ⟨r, hr⟩
  have h1 : r < 106 := by nlinarith
  have h2 : 105 < r := by nlinarith
  omega

-- 11111 = 41 * 271: the first success is at step 5
example : ShanksAt 11111 (1 * 11111) 5 41 :=
  ((C108_squfof_iff .big (some 64) (30 * 15) 11111 1 30 41 5 (by simp) (by norm_num) (by decide) not_square_11111
    (by decide +kernel)).mp (by decide +kernel)).2.2.1
example : ∀ i < 5, i % 2 = 1 → ∀ g, ShanksAt 11111 (1 * 11111) i g → g = 1 ∨ g = 11111 :=
  (C108_squfof_none .big (some 64) 100 11111 1 5 5 (by simp) (by norm_num) (by decide) not_square_11111 (by decide +kernel)).2

end NumPrime
