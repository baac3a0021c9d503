import Verif.Spec.Probable
import Mathlib.Algebra.QuadraticAlgebra.Basic
import Mathlib.Algebra.CharP.Lemmas
import Mathlib.Algebra.CharP.Algebra
import Mathlib.FieldTheory.Finite.Basic
import Mathlib.NumberTheory.LegendreSymbol.JacobiSymbol
import Mathlib.GroupTheory.OrderOfElement
import Mathlib.Tactic.LinearCombination
import Mathlib.Tactic.Ring

/-! Facts about Lucas sequences (no reference to the model). -/

namespace NumPrime
open Spec

section ident
variable (P Q : ℤ)

theorem lucasU_succ (k : ℕ) : lucasU P Q (k + 2) = P * lucasU P Q (k + 1) - Q * lucasU P Q k := rfl
theorem lucasV_succ (k : ℕ) : lucasV P Q (k + 2) = P * lucasV P Q (k + 1) - Q * lucasV P Q k := rfl

theorem lucasU_add (m n : ℕ) :
    lucasU P Q (m + n + 1) = lucasU P Q (m + 1) * lucasU P Q (n + 1) - Q * lucasU P Q m * lucasU P Q n := by
  induction m using Nat.strong_induction_on with
  | _ m ih =>
    match m with
    | 0 => simp [lucasU]
    | 1 =>
      rw [show 1 + n + 1 = n + 2 by ring]
      simp [lucasU]
    | m + 2 =>
      have h1 := ih (m + 1) (by omega)
      have h0 := ih m (by omega)
      rw [show m + 2 + n + 1 = (m + n + 1) + 2 by ring, lucasU_succ,
        show m + n + 1 + 1 = m + 1 + n + 1 by ring, h1, h0]
      rw [lucasU_succ P Q (m + 1), lucasU_succ P Q m]
      ring

theorem lucasV_eq (k : ℕ) : lucasV P Q k = 2 * lucasU P Q (k + 1) - P * lucasU P Q k := by
  induction k using Nat.strong_induction_on with
  | _ k ih =>
    match k with
    | 0 => simp [lucasU, lucasV]
    | 1 => simp [lucasU, lucasV]; ring
    | k + 2 =>
      rw [lucasV_succ, ih (k + 1) (by omega), ih k (by omega), lucasU_succ P Q (k + 1), lucasU_succ P Q k]
      ring

theorem lucasU_norm (k : ℕ) :
    lucasU P Q (k + 1) ^ 2 - P * lucasU P Q (k + 1) * lucasU P Q k + Q * lucasU P Q k ^ 2 = Q ^ k := by
  induction k with
  | zero => simp [lucasU]
  | succ k ih => rw [lucasU_succ, pow_succ Q k, ← ih]; ring

theorem lucasU_odd (k : ℕ) : lucasU P Q (2 * k + 1) = lucasU P Q (k + 1) ^ 2 - Q * lucasU P Q k ^ 2 := by
  have := lucasU_add P Q k k
  rw [show 2 * k + 1 = k + k + 1 by ring, this]; ring

theorem lucasU_even_succ (k : ℕ) :
    lucasU P Q (2 * k + 2) = P * lucasU P Q (k + 1) ^ 2 - 2 * (Q * lucasU P Q (k + 1) * lucasU P Q k) := by
  have := lucasU_add P Q (k + 1) k
  rw [show 2 * k + 2 = k + 1 + k + 1 by ring, this, lucasU_succ]; ring

theorem lucasU_even (k : ℕ) :
    lucasU P Q (2 * k) = 2 * (lucasU P Q (k + 1) * lucasU P Q k) - P * lucasU P Q k ^ 2 := by
  cases k with
  | zero => simp [lucasU]
  | succ k =>
    rw [show 2 * (k + 1) = 2 * k + 2 by ring, lucasU_even_succ, lucasU_succ]; ring

theorem lucasU_two_mul (k : ℕ) : lucasU P Q (2 * k) = lucasU P Q k * lucasV P Q k := by
  rw [lucasU_even, lucasV_eq]; ring

theorem lucasV_two_mul (k : ℕ) : lucasV P Q (2 * k) = lucasV P Q k ^ 2 - 2 * Q ^ k := by
  rw [lucasV_eq, lucasV_eq, lucasU_odd, lucasU_even, ← lucasU_norm P Q k]; ring

theorem lucas_norm (k : ℕ) :
    lucasV P Q k ^ 2 - (P ^ 2 - 4 * Q) * lucasU P Q k ^ 2 = 4 * Q ^ k := by
  rw [lucasV_eq, ← lucasU_norm P Q k]; ring

/-- doubling `s` times: `U_{d 2^s} = U_d ∏_{r<s} V_{d 2^r}` in the form needed -/
theorem lucasU_descent {R : Type*} [CommRing R] [NoZeroDivisors R] (d : ℕ) : ∀ s : ℕ,
    (lucasU P Q (d * 2 ^ s) : R) = 0 → (lucasU P Q d : R) = 0 ∨ ∃ r < s, (lucasV P Q (d * 2 ^ r) : R) = 0 := by
  intro s
  induction s with
  | zero => intro h; left; simpa using h
  | succ s ih =>
    intro h
    rw [pow_succ, show d * (2 ^ s * 2) = 2 * (d * 2 ^ s) by ring, lucasU_two_mul] at h
    push_cast at h
    rcases mul_eq_zero.mp h with h | h
    · rcases ih h with h | ⟨r, hr, h⟩
      · exact Or.inl h
      · exact Or.inr ⟨r, by omega, h⟩
    · exact Or.inr ⟨s, by omega, h⟩

end ident

/-! ## prime moduli -/

section prime
variable {n : ℕ} (P Q : ℤ)

/-- the ring `(Z/n)[ω]`, `ω² = Pω - Q` -/
abbrev LRing (n : ℕ) (P Q : ℤ) := QuadraticAlgebra (ZMod n) (-(Q : ZMod n)) (P : ZMod n)

theorem omega_pow (k : ℕ) : (QuadraticAlgebra.omega : LRing n P Q) ^ (k + 1) =
    ⟨-(Q : ZMod n) * (lucasU P Q k : ZMod n), (lucasU P Q (k + 1) : ZMod n)⟩ := by
  induction k with
  | zero => ext <;> simp [lucasU]
  | succ k ih =>
    rw [pow_succ', ih, QuadraticAlgebra.omega_mul_mk]
    ext <;> simp [lucasU_succ]
    ring

theorem frob_coeffs [hp : Fact n.Prime] (hn : n ≠ 2) :
    (lucasU P Q n : ZMod n) = ((legendreSym n (P ^ 2 - 4 * Q) : ℤ) : ZMod n) ∧
    2 * (Q : ZMod n) * (lucasU P Q (n - 1) : ZMod n) =
      (P : ZMod n) * (((legendreSym n (P ^ 2 - 4 * Q) : ℤ) : ZMod n) - 1) := by
  set J : ZMod n := ((legendreSym n (P ^ 2 - 4 * Q) : ℤ) : ZMod n) with hJ
  have hn1 : 1 ≤ n := hp.out.one_lt.le
  have hodd : n % 2 = 1 := by
    rcases hp.out.eq_two_or_odd with h | h
    · exact absurd h hn
    · exact h
  haveI : CharP (LRing n P Q) n :=
    charP_of_injective_algebraMap (QuadraticAlgebra.algebraMap_injective) n
  let w : LRing n P Q := QuadraticAlgebra.omega
  let δ : LRing n P Q := 2 * w - (P : ℤ)
  have hδ2 : δ ^ 2 = algebraMap (ZMod n) _ ((P ^ 2 - 4 * Q : ℤ) : ZMod n) := by
    ext
    · simp [δ, w, pow_two, QuadraticAlgebra.re_ofNat, QuadraticAlgebra.im_ofNat]; ring
    · simp [δ, w, pow_two, QuadraticAlgebra.re_ofNat, QuadraticAlgebra.im_ofNat]; ring
  have hδn : δ ^ n = algebraMap (ZMod n) _ J * δ := by
    have h : n = 2 * (n / 2) + 1 := by omega
    calc δ ^ n = δ ^ (2 * (n / 2) + 1) := congrArg (δ ^ ·) h
      _ = _ := by rw [pow_succ, pow_mul, hδ2, ← map_pow, hJ, legendreSym.eq_pow]
  have h2w : (2 * w) ^ n = (P : LRing n P Q) + algebraMap (ZMod n) _ J * δ := by
    have : 2 * w = δ + (P : LRing n P Q) := by simp [δ]
    rw [this, add_pow_char, hδn]
    have hP : ((P : LRing n P Q)) ^ n = P := by
      have : (P : LRing n P Q) = algebraMap (ZMod n) _ (P : ZMod n) := by simp
      rw [this, ← map_pow, ZMod.pow_card]
    rw [hP]; ring
  have h2 : (2 * w) ^ n = 2 * w ^ n := by
    have : (2 : LRing n P Q) = algebraMap (ZMod n) _ (2 : ZMod n) := (map_ofNat _ 2).symm
    rw [mul_pow, this, ← map_pow, ZMod.pow_card]
  have hwn : w ^ n = ⟨-(Q : ZMod n) * (lucasU P Q (n - 1) : ZMod n), (lucasU P Q n : ZMod n)⟩ := by
    have := omega_pow (n := n) P Q (n - 1)
    rw [Nat.sub_add_cancel hn1] at this
    exact this
  have key := h2.symm.trans h2w
  rw [hwn] at key
  have hre := congrArg QuadraticAlgebra.re key
  have him := congrArg QuadraticAlgebra.im key
  simp [δ, w, QuadraticAlgebra.re_ofNat, QuadraticAlgebra.im_ofNat] at hre him
  have h2ne : (2 : ZMod n) ≠ 0 := by
    have : ((2 : ℕ) : ZMod n) ≠ 0 := by
      rw [Ne, ZMod.natCast_eq_zero_iff]
      intro h
      have := Nat.le_of_dvd (by norm_num) h
      have := hp.out.two_le
      omega
    simpa using this
  constructor
  · apply mul_left_cancel₀ h2ne
    rw [him]; ring
  · linear_combination -hre

theorem jac_of_prime [hp : Fact n.Prime] (D : ℤ) : legendreSym n D = jacobiSym D n :=
  jacobiSym.legendreSym.to_jacobiSym n D

theorem two_ne_zero_zmod (hn : n % 2 = 1) (h1 : 1 < n) : (2 : ZMod n) ≠ 0 := by
  have : ((2 : ℕ) : ZMod n) ≠ 0 := by
    rw [Ne, ZMod.natCast_eq_zero_iff]
    intro h
    have := Nat.le_of_dvd (by norm_num) h
    have : n = 2 := by omega
    omega
  simpa using this

theorem lucasIndex_eq_zero_case {D : ℤ} (h : jacobiSym D n = 0) : lucasIndex n D = n := by
  simp [lucasIndex, h]
theorem lucasIndex_eq_neg {D : ℤ} (h : jacobiSym D n = -1) : lucasIndex n D = n + 1 := by
  simp [lucasIndex, h]
theorem lucasIndex_eq_pos {D : ℤ} (h : jacobiSym D n = 1) : lucasIndex n D = n - 1 := by
  simp [lucasIndex, h]

theorem jacobi_trichotomy (D : ℤ) (n : ℕ) : jacobiSym D n = 0 ∨ jacobiSym D n = 1 ∨ jacobiSym D n = -1 := by
  have := jacobiSym.trichotomy D n
  tauto

/-- For an odd prime `n ∤ Q`: `U_{n-(D/n)} ≡ 0`, and if `n ∤ D` then `V_{n-(D/n)} ≡ 2` resp. `2Q`. -/
theorem lucas_prime (hp : n.Prime) (hn : n ≠ 2) (hQ : (Q : ZMod n) ≠ 0) :
    (lucasU P Q (lucasIndex n (P ^ 2 - 4 * Q)) : ZMod n) = 0 ∧
    (jacobiSym (P ^ 2 - 4 * Q) n = 1 → (lucasV P Q (n - 1) : ZMod n) = 2) ∧
    (jacobiSym (P ^ 2 - 4 * Q) n = -1 → (lucasV P Q (n + 1) : ZMod n) = 2 * Q) := by
  haveI : Fact n.Prime := ⟨hp⟩
  obtain ⟨h1, h2⟩ := frob_coeffs (n := n) P Q hn
  have hodd : n % 2 = 1 := by
    rcases hp.eq_two_or_odd with h | h
    · exact absurd h hn
    · exact h
  have h2ne := two_ne_zero_zmod hodd hp.one_lt
  rw [jac_of_prime] at h1 h2
  have hn1 : n - 1 + 1 = n := Nat.sub_add_cancel hp.one_lt.le
  rcases jacobi_trichotomy (P ^ 2 - 4 * Q) n with hJ | hJ | hJ
  · refine ⟨?_, by simp [hJ], by simp [hJ]⟩
    rw [lucasIndex_eq_zero_case hJ, h1, hJ]; simp
  · have hU : (lucasU P Q (n - 1) : ZMod n) = 0 := by
      rw [hJ] at h2
      have h3 : (2 * (Q : ZMod n)) * (lucasU P Q (n - 1) : ZMod n) = 0 := by rw [h2]; simp
      rcases mul_eq_zero.mp h3 with h | h
      · rcases mul_eq_zero.mp h with h | h
        · exact absurd h h2ne
        · exact absurd h hQ
      · exact h
    refine ⟨by rw [lucasIndex_eq_pos hJ]; exact hU, ?_, by simp [hJ]⟩
    intro _
    rw [lucasV_eq, hn1]; push_cast
    rw [h1, hU, hJ]; simp
  · have e := lucasU_succ P Q (n - 1)
    rw [show n - 1 + 2 = n + 1 by omega, hn1] at e
    have e' := congrArg (Int.cast : ℤ → ZMod n) e
    push_cast at e'
    rw [h1, hJ] at e'
    rw [hJ] at h2
    push_cast at e' h2
    have hU : (lucasU P Q (n + 1) : ZMod n) = 0 := by
      apply mul_left_cancel₀ h2ne
      rw [e']; linear_combination -h2
    refine ⟨by rw [lucasIndex_eq_neg hJ]; exact hU, by simp [hJ], ?_⟩
    intro _
    rw [lucasV_eq, lucasU_succ]; push_cast
    rw [h1, hU, hJ]; push_cast; ring

end prime

/-! ## `V_{n-(D/n)}` is never 0 modulo `n` -/

section twoadic
variable (P Q : ℤ)

theorem V_zero_order {l : ℕ} [hp : Fact l.Prime] (hl : l ≠ 2) (hQ : (Q : ZMod l) ≠ 0) {d s : ℕ}
    (hd : 0 < d * 2 ^ s) (hV : (lucasV P Q (d * 2 ^ s) : ZMod l) = 0) :
    (2 : ℤ) ^ (s + 1) ∣ (l : ℤ) - jacobiSym (P ^ 2 - 4 * Q) l := by
  have hodd : l % 2 = 1 := by
    rcases hp.out.eq_two_or_odd with h | h
    · exact absurd h hl
    · exact h
  have h2ne := two_ne_zero_zmod hodd hp.out.one_lt
  -- l does not divide D
  have hJ0 : jacobiSym (P ^ 2 - 4 * Q) l ≠ 0 := by
    intro h
    have hD : ((P ^ 2 - 4 * Q : ℤ) : ZMod l) = 0 := by
      rw [← jac_of_prime] at h
      exact (legendreSym.eq_zero_iff l _).mp h
    have e := congrArg (Int.cast : ℤ → ZMod l) (lucas_norm P Q (d * 2 ^ s))
    rw [Int.cast_sub, Int.cast_mul, hD] at e
    push_cast at e
    rw [hV] at e
    have : (4 : ZMod l) * (Q : ZMod l) ^ (d * 2 ^ s) ≠ 0 := by
      rw [show (4 : ZMod l) = 2 * 2 by norm_num]
      exact mul_ne_zero (mul_ne_zero h2ne h2ne) (pow_ne_zero _ hQ)
    apply this; rw [← e]; ring
  -- the element τ = ω² / Q
  let w : LRing l P Q := QuadraticAlgebra.omega
  let τ : LRing l P Q := w ^ 2 * algebraMap (ZMod l) _ ((Q : ZMod l)⁻¹)
  have τpow : ∀ k, τ ^ k = w ^ (2 * k) * algebraMap (ZMod l) _ (((Q : ZMod l) ^ k)⁻¹) := by
    intro k
    simp only [τ, mul_pow, ← pow_mul, ← map_pow, inv_pow]
  -- V_k ω^k = ω^{2k} + Q^k
  have hVω : ∀ k, algebraMap (ZMod l) (LRing l P Q) (lucasV P Q (k + 1) : ZMod l) * w ^ (k + 1) =
      w ^ (2 * (k + 1)) + algebraMap (ZMod l) _ ((Q : ZMod l) ^ (k + 1)) := by
    intro k
    have e1 := omega_pow (n := l) P Q k
    have e2 := omega_pow (n := l) P Q (2 * k + 1)
    rw [show 2 * (k + 1) = 2 * k + 1 + 1 by ring, e1, e2]
    have n1 := congrArg (Int.cast : ℤ → ZMod l) (lucasU_norm P Q (k + 1))
    have n0 := congrArg (Int.cast : ℤ → ZMod l) (lucasU_norm P Q k)
    have v1 := congrArg (Int.cast : ℤ → ZMod l) (lucasV_eq P Q (k + 1))
    have u1 := congrArg (Int.cast : ℤ → ZMod l) (lucasU_odd P Q k)
    have u2 := congrArg (Int.cast : ℤ → ZMod l) (lucasU_two_mul P Q (k + 1))
    have u3 := congrArg (Int.cast : ℤ → ZMod l) (lucasU_succ P Q k)
    push_cast at n1 n0 v1 u1 u2 u3
    ext
    · simp [-map_pow, -map_intCast]
      rw [u1, v1, pow_succ (Q : ZMod l) k, ← n0, u3]
      ring
    · simp [-map_pow, -map_intCast]
      rw [show 2 * k + 1 + 1 = 2 * (k + 1) by ring, u2]; ring
  have hτneg : τ ^ (d * 2 ^ s) = -1 := by
    obtain ⟨k, hk⟩ : ∃ k, d * 2 ^ s = k + 1 := ⟨d * 2 ^ s - 1, by omega⟩
    have e := hVω k
    rw [← hk, hV, map_zero, zero_mul] at e
    rw [τpow]
    have : w ^ (2 * (d * 2 ^ s)) = - algebraMap (ZMod l) _ ((Q : ZMod l) ^ (d * 2 ^ s)) := by
      linear_combination -e
    rw [this, neg_mul, ← map_mul, mul_inv_cancel₀ (pow_ne_zero _ hQ), map_one]
  -- τ^e = 1 for e = l - (D/l)
  set e := lucasIndex l (P ^ 2 - 4 * Q) with he
  have he_pos : 0 < e := by
    have := hp.out.two_le
    rcases jacobi_trichotomy (P ^ 2 - 4 * Q) l with h | h | h
    · exact absurd h hJ0
    · rw [he, lucasIndex_eq_pos h]; omega
    · rw [he, lucasIndex_eq_neg h]; omega
  have hU := (lucas_prime P Q hp.out hl hQ).1
  rw [← he] at hU
  have hτe : τ ^ e = 1 := by
    obtain ⟨k, hk⟩ : ∃ k, e = k + 1 := ⟨e - 1, by omega⟩
    have e1 := omega_pow (n := l) P Q k
    rw [hk] at hU
    rw [hU] at e1
    have n0 := congrArg (Int.cast : ℤ → ZMod l) (lucasU_norm P Q k)
    push_cast at n0
    rw [hU] at n0
    rw [τpow, hk, mul_comm 2, pow_mul, e1]
    have : (⟨-(Q : ZMod l) * (lucasU P Q k : ZMod l), 0⟩ : LRing l P Q) ^ 2 =
        algebraMap (ZMod l) _ ((Q : ZMod l) ^ (k + 1)) := by
      rw [pow_succ (Q : ZMod l) k, ← n0]
      ext
      · simp [pow_two, -map_mul, -map_intCast, -map_add]; ring
      · simp [pow_two, -map_mul, -map_intCast, -map_add]
    rw [this, ← map_mul, mul_inv_cancel₀ (pow_ne_zero _ hQ), map_one]
  -- order argument
  have hord : orderOf (τ ^ d) = 2 ^ (s + 1) := by
    apply orderOf_eq_prime_pow
    · rw [← pow_mul, hτneg]
      intro h
      have := congrArg QuadraticAlgebra.re h
      simp [QuadraticAlgebra.re_one] at this
      apply h2ne
      linear_combination -this
    · rw [← pow_mul, pow_succ, ← mul_assoc, pow_mul, hτneg]; simp
  have hdvd : 2 ^ (s + 1) ∣ e := by
    rw [← hord]
    exact (orderOf_pow_dvd d).trans (orderOf_dvd_of_pow_eq_one hτe)
  have : ((e : ℕ) : ℤ) = (l : ℤ) - jacobiSym (P ^ 2 - 4 * Q) l := by
    rw [he, lucasIndex, Int.toNat_of_nonneg]
    have := hp.out.two_le
    rcases jacobi_trichotomy (P ^ 2 - 4 * Q) l with h | h | h <;> rw [h] <;> omega
  rw [← this]
  exact_mod_cast hdvd

theorem dvd_sub_jacobi (D M : ℤ) : ∀ n : ℕ, n ≠ 0 → (∀ l, l.Prime → l ∣ n → M ∣ (l : ℤ) - jacobiSym D l) →
    M ∣ (n : ℤ) - jacobiSym D n := by
  intro n
  induction n using Nat.recOnMul with
  | zero => intro h; exact absurd rfl h
  | one => intro _ _; simp
  | prime p hp => intro _ h; exact h p hp dvd_rfl
  | mul a b iha ihb =>
    intro h0 h
    have ha : a ≠ 0 := left_ne_zero_of_mul h0
    have hb : b ≠ 0 := right_ne_zero_of_mul h0
    have h1 := iha ha (fun l hl hd => h l hl (hd.mul_right b))
    have h2 := ihb hb (fun l hl hd => h l hl (hd.mul_left a))
    haveI : NeZero a := ⟨ha⟩
    haveI : NeZero b := ⟨hb⟩
    rw [jacobiSym.mul_right]
    push_cast
    have : (a : ℤ) * b - jacobiSym D a * jacobiSym D b =
      (a - jacobiSym D a) * b + jacobiSym D a * (b - jacobiSym D b) := by ring
    rw [this]
    exact dvd_add (h1.mul_right _) (h2.mul_left _)

/-- for odd `n > 1` and `gcd(Q, n) = 1`: `V_{n-(D/n)}` is not 0 modulo `n` -/
theorem lucasV_index_ne_zero {n : ℕ} (hn : 1 < n) (hodd : n % 2 = 1) (hQ : Int.gcd Q n = 1) :
    ¬ lucasV P Q (lucasIndex n (P ^ 2 - 4 * Q)) ≡ 0 [ZMOD n] := by
  intro hV
  set e := lucasIndex n (P ^ 2 - 4 * Q) with he
  have hcast : ((e : ℕ) : ℤ) = (n : ℤ) - jacobiSym (P ^ 2 - 4 * Q) n := by
    rw [he, lucasIndex, Int.toNat_of_nonneg]
    rcases jacobi_trichotomy (P ^ 2 - 4 * Q) n with h | h | h <;> rw [h] <;> omega
  have hpos : 0 < e := by
    rcases jacobi_trichotomy (P ^ 2 - 4 * Q) n with h | h | h <;> rw [h] at hcast <;> omega
  obtain ⟨s, d, hd, hed⟩ := Nat.exists_eq_two_pow_mul_odd hpos.ne'
  rw [mul_comm] at hed
  have key := dvd_sub_jacobi (P ^ 2 - 4 * Q) (2 ^ (s + 1)) n (by omega) (by
    intro l hl hdvd
    haveI : Fact l.Prime := ⟨hl⟩
    apply V_zero_order (P := P) (Q := Q) (l := l) (d := d) (s := s)
    · rintro rfl; omega
    · intro h
      rw [ZMod.intCast_zmod_eq_zero_iff_dvd] at h
      have : (l : ℤ) ∣ Int.gcd Q n := Int.dvd_coe_gcd h (by exact_mod_cast hdvd)
      rw [hQ] at this
      have : l ∣ 1 := by exact_mod_cast this
      exact hl.one_lt.ne' (Nat.dvd_one.mp this)
    · omega
    · rw [← hed]
      rw [ZMod.intCast_zmod_eq_zero_iff_dvd]
      have h1 : (n : ℤ) ∣ lucasV P Q e := Int.modEq_zero_iff_dvd.mp hV
      exact dvd_trans (by exact_mod_cast hdvd) h1)
  rw [← hcast, hed] at key
  have key' : 2 ^ (s + 1) ∣ d * 2 ^ s := by exact_mod_cast key
  rw [pow_succ, mul_comm d] at key'
  have := Nat.dvd_of_mul_dvd_mul_left (by positivity) key'
  obtain ⟨c, hc⟩ := hd
  omega

end twoadic

end NumPrime

namespace NumPrime
open Spec

/-- the case `Q = 1` -/
theorem V_zero_order_one (P : ℤ) {l : ℕ} [hp : Fact l.Prime] (hl : l ≠ 2) {d s : ℕ}
    (hd : 0 < d * 2 ^ s) (hV : (lucasV P 1 (d * 2 ^ s) : ZMod l) = 0) :
    (2 : ℤ) ^ (s + 2) ∣ (l : ℤ) - jacobiSym (P ^ 2 - 4) l := by
  have hodd : l % 2 = 1 := by
    rcases hp.out.eq_two_or_odd with h | h
    · exact absurd h hl
    · exact h
  have h2ne := two_ne_zero_zmod hodd hp.out.one_lt
  have hQ1 : ((1 : ℤ) : ZMod l) ≠ 0 := by simp
  have hJ0 : jacobiSym (P ^ 2 - 4) l ≠ 0 := by
    intro h
    have hD : ((P ^ 2 - 4 : ℤ) : ZMod l) = 0 := by
      rw [← jac_of_prime] at h
      exact (legendreSym.eq_zero_iff l _).mp h
    have e := congrArg (Int.cast : ℤ → ZMod l) (lucas_norm P 1 (d * 2 ^ s))
    rw [Int.cast_sub, Int.cast_mul, mul_one, hD] at e
    push_cast at e
    rw [hV] at e
    have : (4 : ZMod l) ≠ 0 := by
      rw [show (4 : ZMod l) = 2 * 2 by norm_num]
      exact mul_ne_zero h2ne h2ne
    apply this
    simpa using e.symm
  let w : LRing l P 1 := QuadraticAlgebra.omega
  have hwneg : w ^ (d * 2 ^ (s + 1)) = -1 := by
    obtain ⟨k, hk⟩ : ∃ k, d * 2 ^ s = k + 1 := ⟨d * 2 ^ s - 1, by omega⟩
    have e2 := omega_pow (n := l) P 1 (2 * k + 1)
    have n1 := congrArg (Int.cast : ℤ → ZMod l) (lucasU_norm P 1 (k + 1))
    have n0 := congrArg (Int.cast : ℤ → ZMod l) (lucasU_norm P 1 k)
    have v1 := congrArg (Int.cast : ℤ → ZMod l) (lucasV_eq P 1 (k + 1))
    have u1 := congrArg (Int.cast : ℤ → ZMod l) (lucasU_odd P 1 k)
    have u2 := congrArg (Int.cast : ℤ → ZMod l) (lucasU_two_mul P 1 (k + 1))
    have u3 := congrArg (Int.cast : ℤ → ZMod l) (lucasU_succ P 1 k)
    rw [hk] at hV
    push_cast at n1 n0 v1 u1 u2 u3
    rw [hV] at v1 u2
    rw [show d * 2 ^ (s + 1) = 2 * k + 1 + 1 by rw [pow_succ, ← mul_assoc, hk]; ring]
    rw [show 2 * k + 1 + 1 = 2 * (k + 1) by ring] at e2 ⊢
    have e2' : w ^ (2 * (k + 1)) = _ := e2
    rw [e2', u1, u2]
    ext
    · simp [QuadraticAlgebra.re_one]
      simp at n0
      rw [u3] at v1
      linear_combination (-1) * n0 + (lucasU P 1 k : ZMod l) * v1
    · simp [QuadraticAlgebra.im_one]
  set e := lucasIndex l (P ^ 2 - 4) with he
  have he_pos : 0 < e := by
    have := hp.out.two_le
    rcases jacobi_trichotomy (P ^ 2 - 4) l with h | h | h
    · exact absurd h hJ0
    · rw [he, lucasIndex_eq_pos h]; omega
    · rw [he, lucasIndex_eq_neg h]; omega
  obtain ⟨hU, hVp, hVm⟩ := lucas_prime P 1 hp.out hl hQ1
  rw [mul_one, ← he] at hU
  have hVe : (lucasV P 1 e : ZMod l) = 2 := by
    rw [mul_one] at hVp hVm
    rcases jacobi_trichotomy (P ^ 2 - 4) l with h | h | h
    · exact absurd h hJ0
    · rw [he, lucasIndex_eq_pos h]; exact hVp h
    · rw [he, lucasIndex_eq_neg h]; simpa using hVm h
  have hwe : w ^ e = 1 := by
    obtain ⟨k, hk⟩ : ∃ k, e = k + 1 := ⟨e - 1, by omega⟩
    have e1 := omega_pow (n := l) P 1 k
    have v1 := congrArg (Int.cast : ℤ → ZMod l) (lucasV_eq P 1 (k + 1))
    have u3 := congrArg (Int.cast : ℤ → ZMod l) (lucasU_succ P 1 k)
    push_cast at v1 u3
    rw [hk] at hU hVe ⊢
    rw [hVe, u3, hU] at v1
    have e1' : w ^ (k + 1) = _ := e1
    rw [e1', hU]
    ext
    · simp [QuadraticAlgebra.re_one]
      apply mul_left_cancel₀ h2ne
      linear_combination -v1
    · simp [QuadraticAlgebra.im_one]
  have hord : orderOf (w ^ d) = 2 ^ (s + 1 + 1) := by
    apply orderOf_eq_prime_pow
    · rw [← pow_mul, hwneg]
      intro h
      have := congrArg QuadraticAlgebra.re h
      simp [QuadraticAlgebra.re_one] at this
      apply h2ne
      linear_combination -this
    · rw [← pow_mul, pow_succ 2 (s + 1), ← mul_assoc, pow_mul, hwneg]; simp
  have hdvd : 2 ^ (s + 2) ∣ e := by
    rw [show s + 2 = s + 1 + 1 by ring, ← hord]
    exact (orderOf_pow_dvd d).trans (orderOf_dvd_of_pow_eq_one hwe)
  have : ((e : ℕ) : ℤ) = (l : ℤ) - jacobiSym (P ^ 2 - 4) l := by
    rw [he, lucasIndex, Int.toNat_of_nonneg]
    have := hp.out.two_le
    rcases jacobi_trichotomy (P ^ 2 - 4) l with h | h | h <;> rw [h] <;> omega
  rw [← this]
  exact_mod_cast hdvd

/-- `Q = 1`: if `V_{d 2^r} ≡ 0 (mod n)` where `n - (D/n) = d 2^s`, `d` odd, then `r + 2 ≤ s` -/
theorem lucasV_one_index {n : ℕ} (P : ℤ) (hn : 1 < n) (hodd : n % 2 = 1) {d s r : ℕ} (hd : d % 2 = 1)
    (he : lucasIndex n (P ^ 2 - 4) = d * 2 ^ s) (hV : lucasV P 1 (d * 2 ^ r) ≡ 0 [ZMOD n]) : r + 2 ≤ s := by
  have hcast : ((lucasIndex n (P ^ 2 - 4) : ℕ) : ℤ) = (n : ℤ) - jacobiSym (P ^ 2 - 4) n := by
    rw [lucasIndex, Int.toNat_of_nonneg]
    rcases jacobi_trichotomy (P ^ 2 - 4) n with h | h | h <;> rw [h] <;> omega
  have key := dvd_sub_jacobi (P ^ 2 - 4) (2 ^ (r + 2)) n (by omega) (by
    intro l hl hdvd
    haveI : Fact l.Prime := ⟨hl⟩
    apply V_zero_order_one (P := P) (l := l) (d := d) (s := r)
    · rintro rfl; omega
    · have : 0 < d := by omega
      positivity
    · rw [ZMod.intCast_zmod_eq_zero_iff_dvd]
      have h1 : (n : ℤ) ∣ lucasV P 1 (d * 2 ^ r) := Int.modEq_zero_iff_dvd.mp hV
      exact dvd_trans (by exact_mod_cast hdvd) h1)
  rw [← hcast, he] at key
  have key' : 2 ^ (r + 2) ∣ d * 2 ^ s := by exact_mod_cast key
  have hc : Nat.Coprime (2 ^ (r + 2)) d := by
    apply Nat.Coprime.pow_left
    rw [Nat.coprime_two_left]
    exact Nat.odd_iff.mpr hd
  have := hc.dvd_of_dvd_mul_left key'
  exact (Nat.pow_dvd_pow_iff_le_right (by norm_num)).mp this

end NumPrime
