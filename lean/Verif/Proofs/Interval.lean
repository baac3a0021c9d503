import Verif.Model.Float
import Verif.Proofs.LnFix
import Mathlib.Tactic.Ring

/-! # Interval arithmetic in fixed point for the floating point formulas

Intervals have integer end points at the scale `fixS`; every operation is widened by the rounding error of
`FloatOps.Accurate`. The definitions are made to be evaluated by the kernel. -/

namespace NumPrime

/-- evaluates `x` before going on -/
@[inline] def forceI {α : Type} (x : ℤ) (k : ℤ → α) : α :=
  match x with
  | .ofNat 0 => k (.ofNat 0)
  | .ofNat (n + 1) => k (.ofNat (n + 1))
  | .negSucc 0 => k (.negSucc 0)
  | .negSucc (n + 1) => k (.negSucc (n + 1))

theorem forceI_eq {α : Type} (x : ℤ) (k : ℤ → α) : forceI x k = k x := by
  unfold forceI
  split <;> rfl

theorem fixS_pos : (0 : ℝ) < fixS := by unfold fixS; norm_num

theorem fixS_one : (1 : ℝ) ≤ fixS := by unfold fixS; norm_num

/-- an interval -/
structure Iv where
  lo : ℤ
  hi : ℤ

/-- membership -/
def Iv.has (i : Iv) (x : ℝ) : Prop := (i.lo : ℝ) ≤ x * fixS ∧ x * fixS ≤ i.hi

/-- the interval of the rounded values of the members of `[a, b]` -/
def Iv.round (a b : ℤ) : Option Iv :=
  forceI a fun a => forceI b fun b =>
    let m := a.natAbs.max b.natAbs
    let w : ℤ := .ofNat (m / 281474976710656 + 2)
    bif Nat.ble m 1606938044258990275541962092341162602522202993782792835301376 then
      forceI w fun w => forceI (a - w) fun a => forceI (b + w) fun b => some ⟨a, b⟩
    else none

/-- `Iv.round` for natural numbers -/
def Iv.roundN (a b : ℕ) : Option Iv :=
  forceN b fun b => forceN a fun a => forceN (Nat.add (Nat.div b 281474976710656) 2) fun w =>
    bif Nat.ble w a then
      bif Nat.ble b 1606938044258990275541962092341162602522202993782792835301376 then
        forceN (Nat.sub a w) fun a => forceN (Nat.add b w) fun b => some ⟨.ofNat a, .ofNat b⟩
      else none
    else Iv.round (.ofNat a) (.ofNat b)

def imin (a b : ℤ) : ℤ := if a ≤ b then a else b
def imax (a b : ℤ) : ℤ := if a ≤ b then b else a

theorem imin_eq (a b : ℤ) : imin a b = min a b := by unfold imin; split <;> omega
theorem imax_eq (a b : ℤ) : imax a b = max a b := by unfold imax; split <;> omega

theorem Iv.round_sound {a b : ℤ} {i : Iv} (h : Iv.round a b = some i) {e x : ℝ} (h1 : (a : ℝ) ≤ e * fixS)
    (h2 : e * fixS ≤ b) (hr : Rounds e x) : i.has x := by
  unfold Iv.round at h
  simp only [forceI_eq] at h
  rw [Bool.cond_eq_ite] at h
  split at h
  · rename_i hb
    rw [Nat.ble_eq] at hb
    injection h with h
    subst h
    have hm1 : (a.natAbs : ℤ) ≤ ((a.natAbs.max b.natAbs : ℕ) : ℤ) := by exact_mod_cast Nat.le_max_left _ _
    have hm2 : (b.natAbs : ℤ) ≤ ((a.natAbs.max b.natAbs : ℕ) : ℤ) := by exact_mod_cast Nat.le_max_right _ _
    generalize a.natAbs.max b.natAbs = m at *
    have ha : -(m : ℤ) ≤ a := by omega
    have hb' : b ≤ (m : ℤ) := by omega
    have ha' : -(m : ℝ) ≤ a := by exact_mod_cast ha
    have hb'' : (b : ℝ) ≤ m := by exact_mod_cast hb'
    have hm : (m : ℝ) ≤ 2 ^ 200 := by
      have : ((m : ℕ) : ℝ) ≤ ((2 ^ 200 : ℕ) : ℝ) := by exact_mod_cast hb
      refine this.trans (le_of_eq ?_)
      norm_num
    have hS0 := fixS_pos
    have hS1 := fixS_one
    have hS2 : (fixS : ℝ) ≤ 2 ^ 64 := by unfold fixS; norm_num
    have hcases : ∀ w : ℕ, (w : ℝ) = ((m / 281474976710656 + 2 : ℕ) : ℝ) → (((.ofNat w : ℤ)) : ℝ) =
        ((m / 281474976710656 : ℕ) : ℝ) + 2 := by
      intro w hw
      rw [Int.ofNat_eq_natCast, Int.cast_natCast, hw, Nat.cast_add]
      norm_num
    have hdiv : (m : ℝ) / 2 ^ 48 ≤ ((m / 281474976710656 : ℕ) : ℝ) + 1 := by
      rw [div_le_iff₀ (by positivity)]
      have h : m ≤ (m / 281474976710656 + 1) * 2 ^ 48 := by omega
      exact_mod_cast h
    have hw := hcases _ rfl
    generalize m / 281474976710656 = q at *
    unfold Iv.has
    dsimp only
    generalize (fixS : ℝ) = S at *
    have habs : |e| * S ≤ m := by
      rw [← abs_of_pos hS0, ← abs_mul, abs_le]
      constructor <;> linarith
    have hle : |e| ≤ 2 ^ 1000 := by
      have h3 : (0 : ℝ) ≤ |e| := abs_nonneg e
      have h4 : (2 : ℝ) ^ 200 ≤ 2 ^ 1000 := pow_le_pow_right₀ (by norm_num) (by norm_num)
      have h5 : |e| * 1 ≤ |e| * S := mul_le_mul_of_nonneg_left hS1 h3
      rw [mul_one] at h5
      exact h5.trans (habs.trans (hm.trans h4))
    have hx := abs_le.mp (hr hle)
    have htiny : (1 : ℝ) / 2 ^ 1000 * S ≤ 1 := by
      rw [one_div, ← div_eq_inv_mul, div_le_one (by positivity)]
      exact hS2.trans (pow_le_pow_right₀ (by norm_num) (by norm_num))
    generalize (1 : ℝ) / 2 ^ 1000 = t at *
    have herr : (|e| / 2 ^ 48 + t) * S ≤ (q : ℝ) + 2 := by
      have : |e| / 2 ^ 48 * S ≤ m / 2 ^ 48 := by
        rw [div_mul_eq_mul_div]
        exact div_le_div_of_nonneg_right habs (by positivity)
      rw [add_mul]
      linarith
    constructor
    · show ((a - .ofNat (q + 2) : ℤ) : ℝ) ≤ _
      rw [Int.cast_sub, hw]
      have : (e - (|e| / 2 ^ 48 + t)) * S ≤ x * S :=
        mul_le_mul_of_nonneg_right (by linarith [hx.1]) hS0.le
      rw [sub_mul] at this
      linarith
    · show _ ≤ ((b + .ofNat (q + 2) : ℤ) : ℝ)
      rw [Int.cast_add, hw]
      have : x * S ≤ (e + (|e| / 2 ^ 48 + t)) * S :=
        mul_le_mul_of_nonneg_right (by linarith [hx.2]) hS0.le
      rw [add_mul] at this
      linarith
  · simp at h

def Iv.addS (i j : Iv) : Option Iv := Iv.round (i.lo + j.lo) (i.hi + j.hi)
def Iv.subS (i j : Iv) : Option Iv := Iv.round (i.lo - j.hi) (i.hi - j.lo)
def Iv.mulS (i j : Iv) : Option Iv :=
  forceI (i.lo * j.lo) fun a => forceI (i.lo * j.hi) fun b => forceI (i.hi * j.lo) fun c => forceI (i.hi * j.hi) fun d =>
    forceI (imin (imin a b) (imin c d)) fun l => forceI (imax (imax a b) (imax c d)) fun h =>
      Iv.round (l / .ofNat fixS) (h / .ofNat fixS + 1)
def Iv.divS (i j : Iv) : Option Iv :=
  if 0 < j.lo then
    forceI (if 0 ≤ i.lo then i.lo * .ofNat fixS / j.hi else i.lo * .ofNat fixS / j.lo) fun l =>
    forceI (if 0 ≤ i.hi then i.hi * .ofNat fixS / j.lo + 1 else i.hi * .ofNat fixS / j.hi + 1) fun h =>
      Iv.round l h
  else none
def Iv.add : Iv → Iv → Option Iv
  | ⟨.ofNat a, .ofNat b⟩, ⟨.ofNat c, .ofNat d⟩ => Iv.roundN (Nat.add a c) (Nat.add b d)
  | i, j => i.addS j
def Iv.sub : Iv → Iv → Option Iv
  | ⟨.ofNat a, .ofNat b⟩, ⟨.ofNat c, .ofNat d⟩ =>
    bif Nat.ble d a then Iv.roundN (Nat.sub a d) (Nat.sub b c) else Iv.subS ⟨.ofNat a, .ofNat b⟩ ⟨.ofNat c, .ofNat d⟩
  | i, j => i.subS j
def Iv.mul : Iv → Iv → Option Iv
  | ⟨.ofNat a, .ofNat b⟩, ⟨.ofNat c, .ofNat d⟩ =>
    Iv.roundN (Nat.div (Nat.mul a c) fixS) (Nat.succ (Nat.div (Nat.mul b d) fixS))
  | i, j => i.mulS j
def Iv.div : Iv → Iv → Option Iv
  | ⟨.ofNat a, .ofNat b⟩, ⟨.ofNat c, .ofNat d⟩ =>
    bif Nat.ble 1 c then Iv.roundN (Nat.div (Nat.mul a fixS) d) (Nat.succ (Nat.div (Nat.mul b fixS) c)) else none
  | i, j => i.divS j
def Iv.lit (a b : ℕ) : Option Iv :=
  if 0 < b then Iv.round (.ofNat (a * fixS / b)) (.ofNat (a * fixS / b + 1)) else none
/-- members between `a` and `b` -/
def Iv.ofNat (a b : ℕ) : Option Iv := Iv.roundN (Nat.mul a fixS) (Nat.mul b fixS)
/-- logarithms of the members of `[a, b]` -/
def Iv.lnNat (a b : ℕ) : Option Iv :=
  Iv.round (.ofNat (lnLo a) - .ofNat (lnSHi)) (.ofNat (lnHi b) - .ofNat (lnSLo))
def Iv.ln (i : Iv) : Option Iv :=
  match i.lo with
  | .ofNat a => bif Nat.ble 1 a then Iv.lnNat a i.hi.toNat else none
  | .negSucc _ => none

theorem ediv_le_real (a b : ℤ) (hb : 0 < b) : ((a / b : ℤ) : ℝ) ≤ (a : ℝ) / b := by
  have hb' : (0 : ℝ) < b := by exact_mod_cast hb
  rw [le_div_iff₀ hb']
  exact_mod_cast Int.ediv_mul_le a hb.ne'

theorem real_le_ediv (a b : ℤ) (hb : 0 < b) : (a : ℝ) / b ≤ ((a / b + 1 : ℤ) : ℝ) := by
  have hb' : (0 : ℝ) < b := by exact_mod_cast hb
  rw [div_le_iff₀ hb']
  exact_mod_cast (Int.lt_ediv_add_one_mul_self a hb).le

theorem real_le_div_succ (a : ℕ) {b : ℕ} (hb : 0 < b) : (a : ℝ) / b ≤ ((Nat.succ (Nat.div a b) : ℕ) : ℝ) := by
  have := real_le_ediv (a : ℤ) b (by exact_mod_cast hb)
  rw [Int.cast_natCast, Int.cast_natCast] at this
  refine this.trans (le_of_eq ?_)
  norm_cast

theorem fixS_nat : 0 < fixS := by unfold fixS; norm_num

theorem Iv.roundN_sound {a b : ℕ} {i : Iv} (h : Iv.roundN a b = some i) {e x : ℝ} (h1 : (a : ℝ) ≤ e * fixS)
    (h2 : e * fixS ≤ b) (hr : Rounds e x) : i.has x := by
  refine Iv.round_sound (a := .ofNat a) (b := .ofNat b) ?_ (by simpa using h1) (by simpa using h2) hr
  have hab : a ≤ b := by
    have := h1.trans h2
    exact_mod_cast this
  unfold Iv.roundN at h
  simp only [forceN_eq] at h
  rw [Bool.cond_eq_ite, Bool.cond_eq_ite] at h
  split at h
  · rename_i hw
    split at h
    · rename_i hb
      rw [← h]
      unfold Iv.round
      simp only [forceI_eq]
      have hm : (Int.ofNat a).natAbs.max (Int.ofNat b).natAbs = b := Nat.max_eq_right hab
      rw [hm, Bool.cond_eq_ite, if_pos hb]
      rw [Nat.ble_eq] at hw
      have : (Int.ofNat a - Int.ofNat (b / 281474976710656 + 2)) =
          Int.ofNat (Nat.sub a (Nat.add (Nat.div b 281474976710656) 2)) := by
        rw [Nat.sub_eq, Int.ofNat_eq_natCast, Int.ofNat_eq_natCast, Int.ofNat_eq_natCast, Int.ofNat_sub hw]
        rfl
      rw [this]
      rfl
    · simp at h
  · exact h

theorem mul_bounds {a b c d x y : ℝ} (h1 : a ≤ x) (h2 : x ≤ b) (h3 : c ≤ y) (h4 : y ≤ d) :
    min (min (a * c) (a * d)) (min (b * c) (b * d)) ≤ x * y ∧ x * y ≤ max (max (a * c) (a * d)) (max (b * c) (b * d)) := by
  have ha : min (a * c) (a * d) ≤ a * y ∧ a * y ≤ max (a * c) (a * d) := by
    rcases le_total 0 a with h | h
    · exact ⟨(min_le_left _ _).trans (mul_le_mul_of_nonneg_left h3 h), (mul_le_mul_of_nonneg_left h4 h).trans (le_max_right _ _)⟩
    · exact ⟨(min_le_right _ _).trans (mul_le_mul_of_nonpos_left h4 h), (mul_le_mul_of_nonpos_left h3 h).trans (le_max_left _ _)⟩
  have hb : min (b * c) (b * d) ≤ b * y ∧ b * y ≤ max (b * c) (b * d) := by
    rcases le_total 0 b with h | h
    · exact ⟨(min_le_left _ _).trans (mul_le_mul_of_nonneg_left h3 h), (mul_le_mul_of_nonneg_left h4 h).trans (le_max_right _ _)⟩
    · exact ⟨(min_le_right _ _).trans (mul_le_mul_of_nonpos_left h4 h), (mul_le_mul_of_nonpos_left h3 h).trans (le_max_left _ _)⟩
  rcases le_total 0 y with h | h
  · exact ⟨((min_le_left _ _).trans ha.1).trans (mul_le_mul_of_nonneg_right h1 h),
      (mul_le_mul_of_nonneg_right h2 h).trans (hb.2.trans (le_max_right _ _))⟩
  · exact ⟨((min_le_right _ _).trans hb.1).trans (mul_le_mul_of_nonpos_right h2 h),
      (mul_le_mul_of_nonpos_right h1 h).trans (ha.2.trans (le_max_left _ _))⟩

theorem neg_div_le {a b c : ℝ} (ha : a ≤ 0) (hb : 0 < b) (h : b ≤ c) : a / b ≤ a / c := by
  have := div_le_div_of_nonneg_left (neg_nonneg.mpr ha) hb h
  rw [neg_div, neg_div] at this
  linarith

section
variable {F : FloatOps} (hF : F.Accurate) {i j k : Iv} {x y : ℝ}
include hF

theorem Iv.addS_sound (hx : i.has x) (hy : j.has y) (h : i.addS j = some k) : k.has (F.add x y) := by
  refine Iv.round_sound h ?_ ?_ (hF.add x y) <;> (push_cast; rw [add_mul]; linarith [hx.1, hx.2, hy.1, hy.2])

theorem Iv.subS_sound (hx : i.has x) (hy : j.has y) (h : i.subS j = some k) : k.has (F.sub x y) := by
  refine Iv.round_sound h ?_ ?_ (hF.sub x y) <;> (push_cast; rw [sub_mul]; linarith [hx.1, hx.2, hy.1, hy.2])

theorem Iv.mulS_sound (hx : i.has x) (hy : j.has y) (h : i.mulS j = some k) : k.has (F.mul x y) := by
  unfold Iv.mulS at h
  simp only [forceI_eq, imin_eq, imax_eq] at h
  have hS0 := fixS_pos
  have hSi : (0 : ℤ) < .ofNat fixS := by unfold fixS; norm_num
  unfold Iv.has at hx hy
  obtain ⟨p1, p2⟩ := mul_bounds hx.1 hx.2 hy.1 hy.2
  have hq : x * y * fixS = (x * fixS) * (y * fixS) / fixS := by field_simp
  refine Iv.round_sound h ?_ ?_ (hF.mul x y) <;> rw [hq]
  · refine (ediv_le_real _ _ hSi).trans ?_
    rw [Int.ofNat_eq_natCast, Int.cast_natCast]
    refine div_le_div_of_nonneg_right ?_ hS0.le
    simp only [Int.cast_min, Int.cast_mul]
    exact p1
  · refine le_trans ?_ (real_le_ediv _ _ hSi)
    rw [Int.ofNat_eq_natCast, Int.cast_natCast]
    refine div_le_div_of_nonneg_right ?_ hS0.le
    simp only [Int.cast_max, Int.cast_mul]
    exact p2

theorem Iv.divS_sound (hx : i.has x) (hy : j.has y) (h : i.divS j = some k) : k.has (F.div x y) := by
  unfold Iv.divS at h
  split at h
  swap
  · simp at h
  rename_i hj
  simp only [forceI_eq] at h
  have hS0 := fixS_pos
  unfold Iv.has at hx hy
  have hjl : (0 : ℝ) < j.lo := by exact_mod_cast hj
  have hy64 : 0 < y * fixS := lt_of_lt_of_le hjl hy.1
  have hy0 : 0 < y := by
    by_contra hc
    have := mul_nonpos_of_nonpos_of_nonneg (not_lt.mp hc) hS0.le
    linarith
  have hjh : (0 : ℝ) < j.hi := lt_of_lt_of_le hy64 hy.2
  have hjh' : 0 < j.hi := by exact_mod_cast hjh
  have hq : x / y * fixS = x * fixS * fixS / (y * fixS) := by field_simp
  have hlo : i.lo * fixS / (y * fixS) ≤ x / y * fixS := by
    rw [hq]; exact div_le_div_of_nonneg_right (mul_le_mul_of_nonneg_right hx.1 hS0.le) hy64.le
  have hhi : x / y * fixS ≤ i.hi * fixS / (y * fixS) := by
    rw [hq]; exact div_le_div_of_nonneg_right (mul_le_mul_of_nonneg_right hx.2 hS0.le) hy64.le
  refine Iv.round_sound h ?_ ?_ (hF.div x y hy0.ne')
  · refine le_trans ?_ hlo
    split
    · rename_i hp
      have hp : (0 : ℝ) ≤ i.lo := by exact_mod_cast hp
      refine (ediv_le_real _ _ hjh').trans ?_
      rw [Int.cast_mul, Int.ofNat_eq_natCast, Int.cast_natCast]
      exact div_le_div_of_nonneg_left (mul_nonneg hp hS0.le) hy64 hy.2
    · rename_i hp
      have hp : (i.lo : ℝ) ≤ 0 := by exact_mod_cast (not_le.mp hp).le
      refine (ediv_le_real _ _ hj).trans ?_
      rw [Int.cast_mul, Int.ofNat_eq_natCast, Int.cast_natCast]
      exact neg_div_le (mul_nonpos_of_nonpos_of_nonneg hp hS0.le) hjl hy.1
  · refine hhi.trans ?_
    split
    · rename_i hp
      have hp : (0 : ℝ) ≤ i.hi := by exact_mod_cast hp
      refine le_trans ?_ (real_le_ediv _ _ hj)
      rw [Int.cast_mul, Int.ofNat_eq_natCast, Int.cast_natCast]
      exact div_le_div_of_nonneg_left (mul_nonneg hp hS0.le) hjl hy.1
    · rename_i hp
      have hp : (i.hi : ℝ) ≤ 0 := by exact_mod_cast (not_le.mp hp).le
      refine le_trans ?_ (real_le_ediv _ _ hjh')
      rw [Int.cast_mul, Int.ofNat_eq_natCast, Int.cast_natCast]
      exact neg_div_le (mul_nonpos_of_nonpos_of_nonneg hp hS0.le) hy64 hy.2

theorem Iv.lit_sound {a b : ℕ} (h : Iv.lit a b = some k) : k.has (F.lit a b) := by
  unfold Iv.lit at h
  split at h
  swap
  · simp at h
  rename_i hb
  have hq : (a : ℝ) / b * fixS = ((a * fixS : ℕ) : ℝ) / b := by rw [Nat.cast_mul]; ring
  refine Iv.round_sound h ?_ ?_ (hF.lit a b) <;> rw [hq, Int.ofNat_eq_natCast, Int.cast_natCast]
  · exact Nat.cast_div_le
  · have := real_le_ediv ((a * fixS : ℕ) : ℤ) b (by exact_mod_cast hb)
    rw [Int.cast_natCast, Int.cast_natCast] at this
    exact_mod_cast this

theorem Iv.ofNat_sound {a b n : ℕ} (ha : a ≤ n) (hb : n ≤ b) (h : Iv.ofNat a b = some k) : k.has (F.ofNat n) := by
  refine Iv.roundN_sound h ?_ ?_ (hF.ofNat n) <;> rw [Nat.mul_eq, Nat.cast_mul]
  · exact mul_le_mul_of_nonneg_right (by exact_mod_cast ha) fixS_pos.le
  · exact mul_le_mul_of_nonneg_right (by exact_mod_cast hb) fixS_pos.le

theorem Iv.add_sound (hx : i.has x) (hy : j.has y) (h : i.add j = some k) : k.has (F.add x y) := by
  unfold Iv.add at h
  split at h
  · rename_i a b c d
    obtain ⟨x1, x2⟩ := hx
    obtain ⟨y1, y2⟩ := hy
    simp only [Int.ofNat_eq_natCast, Int.cast_natCast] at x1 x2 y1 y2
    refine Iv.roundN_sound h ?_ ?_ (hF.add x y) <;> rw [Nat.add_eq, Nat.cast_add, add_mul] <;> linarith
  · exact Iv.addS_sound hF hx hy h

theorem Iv.sub_sound (hx : i.has x) (hy : j.has y) (h : i.sub j = some k) : k.has (F.sub x y) := by
  unfold Iv.sub at h
  split at h
  · rename_i a b c d
    rw [Bool.cond_eq_ite] at h
    split at h
    · rename_i hda
      rw [Nat.ble_eq] at hda
      obtain ⟨x1, x2⟩ := hx
      obtain ⟨y1, y2⟩ := hy
      simp only [Int.ofNat_eq_natCast, Int.cast_natCast] at x1 x2 y1 y2
      have hcb : c ≤ b := by
        have : (d : ℝ) ≤ a := by exact_mod_cast hda
        have : (c : ℝ) ≤ b := by linarith
        exact_mod_cast this
      refine Iv.roundN_sound h ?_ ?_ (hF.sub x y) <;> rw [Nat.sub_eq, sub_mul]
      · rw [Nat.cast_sub hda]; linarith
      · rw [Nat.cast_sub hcb]; linarith
    · exact Iv.subS_sound hF hx hy h
  · exact Iv.subS_sound hF hx hy h

theorem Iv.mul_sound (hx : i.has x) (hy : j.has y) (h : i.mul j = some k) : k.has (F.mul x y) := by
  unfold Iv.mul at h
  split at h
  · rename_i a b c d
    obtain ⟨x1, x2⟩ := hx
    obtain ⟨y1, y2⟩ := hy
    simp only [Int.ofNat_eq_natCast, Int.cast_natCast] at x1 x2 y1 y2
    have hS0 := fixS_pos
    have hq : x * y * fixS = (x * fixS) * (y * fixS) / fixS := by field_simp
    have ha : (0 : ℝ) ≤ a := by positivity
    have hc : (0 : ℝ) ≤ c := by positivity
    refine Iv.roundN_sound h ?_ ?_ (hF.mul x y) <;> rw [hq]
    · rw [Nat.mul_eq]
      refine Nat.cast_div_le.trans ?_
      rw [Nat.cast_mul]
      exact div_le_div_of_nonneg_right (mul_le_mul x1 y1 hc (ha.trans x1)) hS0.le
    · refine le_trans ?_ (real_le_div_succ _ fixS_nat)
      rw [Nat.mul_eq, Nat.cast_mul]
      exact div_le_div_of_nonneg_right (mul_le_mul x2 y2 (hc.trans y1) (by positivity)) hS0.le
  · exact Iv.mulS_sound hF hx hy h

theorem Iv.div_sound (hx : i.has x) (hy : j.has y) (h : i.div j = some k) : k.has (F.div x y) := by
  unfold Iv.div at h
  split at h
  · rename_i a b c d
    rw [Bool.cond_eq_ite] at h
    split at h
    · rename_i hc1
      rw [Nat.ble_eq] at hc1
      obtain ⟨x1, x2⟩ := hx
      obtain ⟨y1, y2⟩ := hy
      simp only [Int.ofNat_eq_natCast, Int.cast_natCast] at x1 x2 y1 y2
      have hS0 := fixS_pos
      have hc : (0 : ℝ) < c := by exact_mod_cast hc1
      have hyS : 0 < y * fixS := lt_of_lt_of_le hc y1
      have hy0 : 0 < y := by
        by_contra hcc
        have := mul_nonpos_of_nonpos_of_nonneg (not_lt.mp hcc) hS0.le
        linarith
      have hq : x / y * fixS = x * fixS * fixS / (y * fixS) := by field_simp
      have ha : (0 : ℝ) ≤ a := by positivity
      have hxS : 0 ≤ x * fixS := ha.trans x1
      refine Iv.roundN_sound h ?_ ?_ (hF.div x y hy0.ne') <;> rw [hq]
      · refine Nat.cast_div_le.trans ?_
        rw [Nat.mul_eq, Nat.cast_mul]
        exact div_le_div₀ (mul_nonneg hxS hS0.le) (mul_le_mul_of_nonneg_right x1 hS0.le) hyS y2
      · refine le_trans ?_ (real_le_div_succ _ hc1)
        rw [Nat.mul_eq, Nat.cast_mul]
        exact div_le_div₀ (by positivity) (mul_le_mul_of_nonneg_right x2 hS0.le) hc y1
    · simp at h
  · exact Iv.divS_sound hF hx hy h

theorem Iv.lnNat_sound {a b : ℕ} (ha : 0 < a) (hx1 : (a : ℝ) ≤ x * fixS) (hx2 : x * fixS ≤ (b : ℝ))
    (h : Iv.lnNat a b = some k) : k.has (F.ln x) := by
  have hS0 := fixS_pos
  have ha0 : (0 : ℝ) < (a : ℝ) := by exact_mod_cast ha
  have hx0 : 0 < x := by
    by_contra hc
    have := mul_nonpos_of_nonpos_of_nonneg (not_lt.mp hc) hS0.le
    linarith
  have hb0 : 0 < b := by
    have : (0 : ℝ) < b := by linarith
    exact_mod_cast this
  have hsplit : Real.log x * fixS = fixS * Real.log (x * fixS) - fixS * Real.log fixS := by
    rw [Real.log_mul hx0.ne' hS0.ne']
    ring
  have l1 := lnLo_le ha
  have l2 := le_lnHi hb0
  have l3 : fixS * Real.log (a : ℝ) ≤ fixS * Real.log (x * fixS) :=
    mul_le_mul_of_nonneg_left (Real.log_le_log ha0 hx1) hS0.le
  have l4 : fixS * Real.log (x * fixS) ≤ fixS * Real.log (b : ℝ) :=
    mul_le_mul_of_nonneg_left (Real.log_le_log (by positivity) hx2) hS0.le
  have l5 := lnSLo_le
  have l6 := le_lnSHi
  unfold Iv.lnNat at h
  generalize lnLo a = u1 at h l1
  generalize lnHi b = u2 at h l2
  generalize lnSLo = u3 at h l5
  generalize lnSHi = u4 at h l6
  have hc : ∀ u v : ℕ, ((.ofNat u - .ofNat v : ℤ) : ℝ) = (u : ℝ) - (v : ℝ) := by
    intro u v
    simp
  refine Iv.round_sound h ?_ ?_ (hF.ln x hx0)
  · rw [hc, hsplit]
    clear h
    linarith only [l1, l3, l6]
  · rw [hc, hsplit]
    clear h
    linarith only [l2, l4, l5]

theorem Iv.ln_sound (hx : i.has x) (h : i.ln = some k) : k.has (F.ln x) := by
  unfold Iv.ln at h
  split at h
  · rename_i a h1
    rw [Bool.cond_eq_ite] at h
    split at h
    · rename_i ha
      rw [Nat.ble_eq] at ha
      have hx1 := hx.1
      rw [h1, Int.ofNat_eq_natCast, Int.cast_natCast] at hx1
      refine Iv.lnNat_sound hF ha hx1 (hx.2.trans ?_) h
      have : ((i.hi : ℤ) : ℝ) ≤ ((i.hi.toNat : ℤ) : ℝ) := by exact_mod_cast Int.self_le_toNat _
      exact_mod_cast this
    · simp at h
  · simp at h

end

/-! ## logarithms near a reference point -/

/-- a reference point with bounds of its logarithm -/
structure LnRef where
  m : ℕ
  lo : ℕ
  hi : ℕ

structure LnRef.Valid (r : LnRef) : Prop where
  pos : 0 < r.m
  lo : (r.lo : ℝ) ≤ fixS * Real.log r.m
  hi : fixS * Real.log r.m ≤ r.hi

def LnRef.new (m : ℕ) : LnRef :=
  forceN m fun m => forceN (lnLo m) fun l => forceN (lnHi m) fun h => ⟨m, l, h⟩

theorem LnRef.new_valid {m : ℕ} (h : 0 < m) : (LnRef.new m).Valid := by
  unfold LnRef.new
  simp only [forceN_eq]
  exact ⟨h, lnLo_le h, le_lnHi h⟩

/-- the logarithm by three terms of the series around the reference point -/
def Iv.lnR (r : LnRef) : Iv → Option Iv
  | ⟨.ofNat a, .ofNat b⟩ =>
    bif Nat.ble r.m a then
      bif Nat.ble b (Nat.mul 2 r.m) then
        forceN (Nat.add r.lo (mantLo 3 a r.m)) fun l => forceN (Nat.add r.hi (mantHi 3 b r.m)) fun h =>
          bif Nat.ble lnSHi l then Iv.roundN (Nat.sub l lnSHi) (Nat.sub h lnSLo) else none
      else none
    else none
  | _ => none

theorem Iv.lnR_sound {F : FloatOps} (hF : F.Accurate) {r : LnRef} (hr : r.Valid) {i k : Iv} {x : ℝ} (hx : i.has x)
    (h : Iv.lnR r i = some k) : k.has (F.ln x) := by
  unfold Iv.lnR at h
  split at h
  swap
  · simp at h
  rename_i a b
  rw [Bool.cond_eq_ite, Bool.cond_eq_ite] at h
  split at h
  swap
  · simp at h
  rename_i hma
  rw [Nat.ble_eq] at hma
  split at h
  swap
  · simp at h
  rename_i hb2
  rw [Nat.ble_eq] at hb2
  simp only [forceN_eq] at h
  rw [Bool.cond_eq_ite] at h
  split at h
  swap
  · simp at h
  rename_i hl
  rw [Nat.ble_eq] at hl
  obtain ⟨x1, x2⟩ := hx
  simp only [Int.ofNat_eq_natCast, Int.cast_natCast] at x1 x2
  have hS0 := fixS_pos
  have hm := hr.pos
  have ha : 0 < a := lt_of_lt_of_le hm hma
  have ha0 : (0 : ℝ) < (a : ℝ) := by exact_mod_cast ha
  have hm0 : (0 : ℝ) < (r.m : ℝ) := by exact_mod_cast hm
  have hx0 : 0 < x := by
    by_contra hc
    have := mul_nonpos_of_nonpos_of_nonneg (not_lt.mp hc) hS0.le
    linarith
  have hb0 : 0 < b := by
    have : (0 : ℝ) < b := by linarith
    exact_mod_cast this
  have hb0' : (0 : ℝ) < b := by exact_mod_cast hb0
  have hab : a ≤ b := by
    have := x1.trans x2
    exact_mod_cast this
  have hsplit : Real.log x * fixS = fixS * Real.log (x * fixS) - fixS * Real.log fixS := by
    rw [Real.log_mul hx0.ne' hS0.ne']
    ring
  have l1 := mantLo_le 3 hm hma
  have l2 := le_mantHi 3 hm (hma.trans hab) hb2
  rw [Real.log_div ha0.ne' hm0.ne', mul_sub] at l1
  rw [Real.log_div hb0'.ne' hm0.ne', mul_sub] at l2
  have l3 : fixS * Real.log (a : ℝ) ≤ fixS * Real.log (x * fixS) :=
    mul_le_mul_of_nonneg_left (Real.log_le_log ha0 x1) hS0.le
  have l4 : fixS * Real.log (x * fixS) ≤ fixS * Real.log (b : ℝ) :=
    mul_le_mul_of_nonneg_left (Real.log_le_log (by positivity) x2) hS0.le
  have l5 := lnSLo_le
  have l6 := le_lnSHi
  have l7 := hr.lo
  have l8 := hr.hi
  generalize mantLo 3 a r.m = u1 at *
  generalize mantHi 3 b r.m = u2 at *
  generalize lnSLo = u3 at *
  generalize lnSHi = u4 at *
  have hsub : ∀ u v : ℕ, (u : ℝ) - v ≤ ((Nat.sub u v : ℕ) : ℝ) := by
    intro u v
    rw [sub_le_iff_le_add]
    have : u ≤ Nat.sub u v + v := by rw [Nat.sub_eq]; omega
    exact_mod_cast this
  refine Iv.roundN_sound h ?_ ?_ (hF.ln x hx0)
  · rw [hsplit, Nat.sub_eq, Nat.cast_sub hl, Nat.add_eq, Nat.cast_add]
    clear h
    linarith only [l1, l3, l6, l7]
  · rw [hsplit]
    refine le_trans ?_ (hsub _ _)
    rw [Nat.add_eq, Nat.cast_add]
    clear h
    linarith only [l2, l4, l5, l8]

/-! ## expressions -/

/-- the expressions of the estimates: the argument `n`, its logarithm, a further variable (`1 / ln n` or `ln (ln n)`) -/
inductive FE where
  | n | ln | aux
  | lit (a b : ℕ)
  | add (e f : FE) | sub (e f : FE) | mul (e f : FE) | div (e f : FE)

noncomputable def FE.eval (F : FloatOps) (x y z : ℝ) : FE → ℝ
  | .n => x
  | .ln => y
  | .aux => z
  | .lit a b => F.lit a b
  | .add e f => F.add (e.eval F x y z) (f.eval F x y z)
  | .sub e f => F.sub (e.eval F x y z) (f.eval F x y z)
  | .mul e f => F.mul (e.eval F x y z) (f.eval F x y z)
  | .div e f => F.div (e.eval F x y z) (f.eval F x y z)

/-- intervals of the variables -/
structure Box where
  n : Iv
  ln : Iv
  aux : Iv

/-- the variables lie in the box -/
structure Box.has (b : Box) (x y z : ℝ) : Prop where
  n : b.n.has x
  ln : b.ln.has y
  aux : b.aux.has z

def FE.ieval (b : Box) : FE → Option Iv
  | .n => some b.n
  | .ln => some b.ln
  | .aux => some b.aux
  | .lit a b => Iv.lit a b
  | .add e f => (e.ieval b).bind fun i => (f.ieval b).bind fun j => i.add j
  | .sub e f => (e.ieval b).bind fun i => (f.ieval b).bind fun j => i.sub j
  | .mul e f => (e.ieval b).bind fun i => (f.ieval b).bind fun j => i.mul j
  | .div e f => (e.ieval b).bind fun i => (f.ieval b).bind fun j => i.div j

theorem FE.ieval_sound {F : FloatOps} (hF : F.Accurate) {B : Box} {x y z : ℝ} (hB : B.has x y z) (e : FE) :
    ∀ {k : Iv}, e.ieval B = some k → k.has (e.eval F x y z) := by
  induction e with
  | n => intro k h; injection h with h; exact h ▸ hB.n
  | ln => intro k h; injection h with h; exact h ▸ hB.ln
  | aux => intro k h; injection h with h; exact h ▸ hB.aux
  | lit a b => intro k h; exact Iv.lit_sound hF h
  | add e f h1 h2 =>
    intro k h
    simp only [FE.ieval, Option.bind_eq_some_iff] at h
    obtain ⟨i, hi, j, hj, h⟩ := h
    exact Iv.add_sound hF (h1 hi) (h2 hj) h
  | sub e f h1 h2 =>
    intro k h
    simp only [FE.ieval, Option.bind_eq_some_iff] at h
    obtain ⟨i, hi, j, hj, h⟩ := h
    exact Iv.sub_sound hF (h1 hi) (h2 hj) h
  | mul e f h1 h2 =>
    intro k h
    simp only [FE.ieval, Option.bind_eq_some_iff] at h
    obtain ⟨i, hi, j, hj, h⟩ := h
    exact Iv.mul_sound hF (h1 hi) (h2 hj) h
  | div e f h1 h2 =>
    intro k h
    simp only [FE.ieval, Option.bind_eq_some_iff] at h
    obtain ⟨i, hi, j, hj, h⟩ := h
    exact Iv.div_sound hF (h1 hi) (h2 hj) h

end NumPrime
