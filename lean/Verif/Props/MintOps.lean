import Verif.Props.Mint
import Mathlib.Data.ZMod.Basic

/-! # C77: the operators of `SmallMint`

`Over m a`: `a` is a plain number or a number reduced modulo `m`. Arithmetic modulo `m` is arithmetic in `ZMod m`. -/

namespace NumPrime
open Mint Spec

/-- a plain number, or one that is reduced modulo `m` -/
def Over (m : ℕ) : Mint → Prop
  | left _ => True
  | right r m' => m' = m ∧ r < m

/-- is the number in reduced form -/
def Mint.isReduced : Mint → Bool
  | left _ => false
  | right _ _ => true

theorem cast_addm (a b m : ℕ) : ((NumPrime.addm a b m : ℕ) : ZMod m) = a + b := by simp [NumPrime.addm]
theorem cast_mulm (a b m : ℕ) : ((NumPrime.mulm a b m : ℕ) : ZMod m) = a * b := by simp [NumPrime.mulm]
theorem cast_negm {m : ℕ} (h : 0 < m) (a : ℕ) : ((NumPrime.negm a m : ℕ) : ZMod m) = -a := by
  have := (Nat.mod_lt a h).le
  simp [NumPrime.negm, Nat.cast_sub this]
theorem cast_subm {m : ℕ} (h : 0 < m) (a b : ℕ) : ((NumPrime.subm a b m : ℕ) : ZMod m) = a - b := by
  have := (Nat.mod_lt b h).le
  simp [NumPrime.subm, Nat.cast_sub this, sub_eq_add_neg]
theorem cast_powm {m : ℕ} (h : 0 < m) (a e : ℕ) : ((NumPrime.powm a e m : ℕ) : ZMod m) = (a : ZMod m) ^ e := by
  rw [powm_eq]
  simp

/-- **C77** if at least one operand is reduced modulo `m`, the operators `+`, `-` and `*` give a reduced number: the sum, difference and
product modulo `m` -/
theorem C77_reduced_ops (w : Width) (m : ℕ) (hm : 0 < m) (a b : Mint) (ha : Over m a) (hb : Over m b)
    (h : a.isReduced = true ∨ b.isReduced = true) :
    ∃ s d p, add w a b = .ok (right s m) ∧ sub a b = .ok (right d m) ∧ mul w a b = .ok (right p m) ∧
      s < m ∧ d < m ∧ p < m ∧
      (s : ZMod m) = a.value + b.value ∧ (d : ZMod m) = a.value - b.value ∧ (p : ZMod m) = a.value * b.value := by
  have k1 : ∀ x y, NumPrime.addm x y m < m := fun x y => Nat.mod_lt _ hm
  have k2 : ∀ x y, NumPrime.subm x y m < m := fun x y => Nat.mod_lt _ hm
  have k3 : ∀ x y, NumPrime.mulm x y m < m := fun x y => Nat.mod_lt _ hm
  cases a with
  | left a =>
    cases b with
    | left b => simp [Mint.isReduced] at h
    | right b m' =>
      obtain ⟨rfl, hb⟩ := hb
      refine ⟨_, _, _, rfl, rfl, rfl, k1 _ _, k2 _ _, k3 _ _, ?_, ?_, ?_⟩
      · rw [cast_addm, ZMod.natCast_mod]; rfl
      · rw [cast_subm hm, ZMod.natCast_mod]; rfl
      · rw [cast_mulm, ZMod.natCast_mod]; rfl
  | right a m1 =>
    obtain ⟨rfl, ha⟩ := ha
    cases b with
    | left b =>
      refine ⟨_, _, _, rfl, rfl, rfl, k1 _ _, k2 _ _, k3 _ _, ?_, ?_, ?_⟩
      · rw [cast_addm, ZMod.natCast_mod]; rfl
      · rw [cast_subm hm, ZMod.natCast_mod]; rfl
      · rw [cast_mulm, ZMod.natCast_mod]; rfl
    | right b m' =>
      obtain ⟨rfl, hb⟩ := hb
      refine ⟨NumPrime.addm a b _, NumPrime.subm a b _, NumPrime.mulm a b _, by simp only [add, if_true], by simp only [sub, if_true],
        by simp only [mul, if_true], k1 _ _, k2 _ _, k3 _ _,
        ?_, ?_, ?_⟩
      · rw [cast_addm]; rfl
      · rw [cast_subm hm]; rfl
      · rw [cast_mulm]; rfl

-- plain 20 and 5 modulo 7
example : add (some 8) (left 20) (right 5 7) = .ok (right 4 7) ∧ sub (left 20) (right 5 7) = .ok (right 1 7) ∧
    mul (some 8) (right 5 7) (left 20) = .ok (right 2 7) := by decide

/-- **C77** on plain numbers the operators are those of the integer type: they return the exact result if it is not negative and fits the
type, and panic otherwise; `/`, `div_rem` and `mod_floor` panic for the divisor zero only -/
theorem C77_plain_ops (w : Width) (a b : ℕ) :
    (add w (left a) (left b) = if fits w (a + b) then .ok (left (a + b)) else .panic) ∧
    (sub (left a) (left b) = if b ≤ a then .ok (left (a - b)) else .panic) ∧
    (mul w (left a) (left b) = if fits w (a * b) then .ok (left (a * b)) else .panic) ∧
    (div (left a) (left b) = if b = 0 then .panic else .ok (left (a / b))) ∧
    (modFloor (left a) (left b) = if b = 0 then .panic else .ok (left (a % b))) ∧
    (divRem (left a) (left b) = if b = 0 then .panic else .ok (left (a / b), left (a % b))) ∧
    (isMultipleOf (left a) (left b) = .ok (decide (b ∣ a))) ∧
    (Mint.lcm w (left a) (left b) = if fits w (Nat.lcm a b) then .ok (left (Nat.lcm a b)) else .panic) := by
  refine ⟨?_, ?_, ?_, ?_, rfl, rfl, ?_, ?_⟩
  · simp only [add, cadd]; split <;> rfl
  · simp only [sub, csub]; split <;> rfl
  · simp only [mul, cmul]; split <;> rfl
  · simp only [div, cdiv]; split <;> rfl
  · simp only [isMultipleOf, Res.ok.injEq]
    split
    · rename_i h; subst h; rw [Bool.eq_iff_iff]; simp
    · rw [Bool.eq_iff_iff, beq_iff_eq, decide_eq_true_iff]; exact (Nat.dvd_iff_mod_eq_zero).symm
  · simp only [Mint.lcm]
    split
    · rename_i h
      obtain ⟨rfl, rfl⟩ := h
      have : fits w 0 = true := by cases w <;> simp [fits]
      simp [this]
    · have e : a * (b / Nat.gcd a b) = Nat.lcm a b := by
        rw [Nat.lcm, Nat.mul_div_assoc _ (Nat.gcd_dvd_right a b)]
      rw [cmul, e]
      split <;> rfl

/-- **C77** `a % m` of plain numbers is the number `a mod m` in reduced form, for odd `m`; division with remainder holds modulo `m`:
`(a / m) * m + a % m` is `a` -/
theorem C77_rem (w : Width) (a m : ℕ) (ho : m % 2 = 1) (hw : fits w a = true) :
    rem (left a) (left m) = .ok (right (a % m) m) ∧
      ∃ q t r, div (left a) (left m) = .ok q ∧ mul w q (left m) = .ok t ∧ add w t (right (a % m) m) = .ok (right r m) ∧
        r = a % m := by
  have h0 : ¬ m = 0 := by omega
  have f : fits w (a / m * m) = true := fits_mono (Nat.div_mul_le_self a m) hw
  refine ⟨by simp only [rem, reduced, ho, if_true], left (a / m), left (a / m * m), _, by simp only [div, cdiv, h0, if_false]; rfl,
    by simp only [mul, cmul, f, if_true]; rfl, rfl, ?_⟩
  simp [NumPrime.addm]

/-- **C77** finding: `%` panics for an even divisor, where the remainder of plain integers is defined -/
theorem C77_rem_even_panics (a m : ℕ) (he : m % 2 = 0) : rem (left a) (left m) = .panic := by
  simp [rem, reduced, he]

/-- **C77** the modular operations `addm`, `subm`, `mulm` on numbers reduced modulo `m` -/
theorem C77_modular_ops (m a b : ℕ) (hm : 0 < m) :
    ∃ s d p, maddm (right a m) (right b m) (left m) = .ok (right s m) ∧ msubm (right a m) (right b m) (left m) = .ok (right d m) ∧
      mmulm (right a m) (right b m) (left m) = .ok (right p m) ∧ s < m ∧ d < m ∧ p < m ∧
      (s : ZMod m) = a + b ∧ (d : ZMod m) = a - b ∧ (p : ZMod m) = a * b :=
  ⟨NumPrime.addm a b m, NumPrime.subm a b m, NumPrime.mulm a b m, by simp only [maddm, and_self, if_true], by simp only [msubm, and_self, if_true],
    by simp only [mmulm, and_self, if_true], Nat.mod_lt _ hm, Nat.mod_lt _ hm, Nat.mod_lt _ hm, cast_addm _ _ _, cast_subm hm _ _, cast_mulm _ _ _⟩

/-- **C77** the modular operations `negm`, `dblm`, `sqm`, `powm` on a number that is plain or reduced modulo the odd number `m` -/
theorem C77_modular_unary_ops (m : ℕ) (ho : m % 2 = 1) (a : Mint) (ha : Over m a) (e : ℕ) :
    ∃ n d s p, mnegm a (left m) = .ok (right n m) ∧ mdblm a (left m) = .ok (right d m) ∧ msqm a (left m) = .ok (right s m) ∧
      mpowm a (left e) (left m) = .ok (right p m) ∧ n < m ∧ d < m ∧ s < m ∧ p < m ∧
      (n : ZMod m) = -a.value ∧ (d : ZMod m) = 2 * a.value ∧ (s : ZMod m) = a.value ^ 2 ∧ (p : ZMod m) = a.value ^ e := by
  have hm : 0 < m := by omega
  have hu : ∃ v, unary a (left m) = .ok (v, m) ∧ (v : ZMod m) = a.value := by
    cases a with
    | left v => exact ⟨v % m, by simp only [unary, ho, if_true], by rw [ZMod.natCast_mod]; rfl⟩
    | right v m' =>
      obtain ⟨rfl, -⟩ := ha
      exact ⟨v, by simp only [unary, if_true], rfl⟩
  have hp : mpowm a (left e) (left m) = .ok (right (NumPrime.powm a.value e m) m) := by
    cases a with
    | left v => simp only [mpowm, ho, if_true]; rfl
    | right v m' =>
      obtain ⟨rfl, -⟩ := ha
      simp only [mpowm, if_true]; rfl
  obtain ⟨v, hv, hc⟩ := hu
  refine ⟨NumPrime.negm v m, NumPrime.dblm v m, NumPrime.sqm v m, _, by simp only [mnegm, hv, Res.mapR_ok], by simp only [mdblm, hv, Res.mapR_ok], by simp only [msqm, hv, Res.mapR_ok],
    hp, Nat.mod_lt _ hm, Nat.mod_lt _ hm, Nat.mod_lt _ hm, ?_, ?_, ?_, ?_, cast_powm hm _ _⟩
  · rw [powm_eq]; exact Nat.mod_lt _ hm
  · rw [cast_negm hm, hc]
  · simp [NumPrime.dblm, hc, two_mul]
  · simp [NumPrime.sqm, hc, sq]

example : mnegm (left 20) (left 7) = .ok (right 1 7) ∧ mdblm (right 5 7) (left 7) = .ok (right 3 7) ∧
    msqm (left 20) (left 7) = .ok (right 1 7) ∧ mpowm (left 20) (left 3) (left 7) = .ok (right 6 7) := by decide +kernel

/-- **C77** `cmp` is the order of the values, and `partial_cmp` agrees with it where it returns: always, unless both numbers are
reduced with different moduli; `<` is derived from it -/
theorem C77_order (a b : Mint) :
    (Mint.cmp a b = .lt ↔ a.value < b.value) ∧ (Mint.cmp a b = .eq ↔ a.value = b.value) ∧
    (∀ r, partialCmp a b = .ok r → r = Mint.cmp a b) ∧
    (partialCmp a b = .panic ↔ ∃ x m y m', a = right x m ∧ b = right y m' ∧ m ≠ m') ∧
    (∀ r, partialCmp a b = .ok r → lt a b = .ok (r == .lt)) := by
  refine ⟨by simp only [Mint.cmp, Nat.compare_eq_lt], by simp only [Mint.cmp, Nat.compare_eq_eq], ?_, ?_, ?_⟩
  · cases a <;> cases b <;> simp only [partialCmp, Mint.cmp, value] <;> (try split) <;> simp <;> exact fun _ h => h.symm
  · cases a <;> cases b <;> simp [partialCmp]
  · have key : ∀ x y : ℕ, decide (x < y) = (compare x y == Ordering.lt) := by
      intro x y
      rw [Bool.eq_iff_iff, beq_iff_eq, decide_eq_true_iff, Nat.compare_eq_lt]
    cases a <;> cases b <;> simp only [partialCmp, lt, value] <;> (try split) <;> simp [key]

/-- **C77** finding: `==` of a plain and a reduced number always panics, also where `cmp` says they are equal -/
theorem C77_eq_mixed_panics (a r m : ℕ) : eq (left a) (right r m) = .panic ∧ eq (right r m) (left a) = .panic ∧
    (a = r → Mint.cmp (left a) (right r m) = .eq) :=
  ⟨rfl, rfl, fun h => by subst h; simp [Mint.cmp, value]⟩

/-- **C77** otherwise `==` is equality, and panics for different moduli -/
theorem C77_eq (a b : Mint) (h : a.isReduced = b.isReduced) :
    (∀ v, eq a b = .ok v → (v = true ↔ a = b)) ∧ (eq a b = .panic ↔ ∃ x m y m', a = right x m ∧ b = right y m' ∧ m ≠ m') := by
  cases a <;> cases b <;> simp [Mint.isReduced] at h
  · simp [eq]
  · rename_i x m y m'
    simp only [eq]
    split
    · rename_i hm
      subst hm
      simp
    · rename_i hm
      simp [hm]

/-- **C77** `gcd` and the tests `is_zero`, `is_one`, `is_even` are those of the values, whatever the forms -/
theorem C77_value_ops (a b : Mint) :
    Mint.gcd a b = left (Nat.gcd a.value b.value) ∧ (a.isZero = true ↔ a.value = 0) ∧ (a.isOne = true ↔ a.value = 1) ∧
      (a.isEven = true ↔ 2 ∣ a.value) := by
  refine ⟨rfl, by simp [isZero], by simp [isOne], ?_⟩
  simp only [isEven, beq_iff_eq]
  exact (Nat.dvd_iff_mod_eq_zero).symm

example : Mint.gcd (right 12 35) (left 18) = left 6 := by decide

end NumPrime
