import Verif.Model.Basic
import Mathlib.NumberTheory.LegendreSymbol.JacobiSymbol
import Mathlib.NumberTheory.Padics.PadicVal.Basic
import Mathlib.Algebra.BigOperators.Group.List.Basic
import Mathlib.Data.Nat.Sqrt
import Mathlib.Data.Nat.Size
import Mathlib.Tactic.Ring
import Mathlib.Tactic.Linarith
import Mathlib.Tactic.NormNum

/-! Lemmas about the basic vocabulary. -/

namespace NumPrime

/-! ## Res -/
namespace Res
@[simp] theorem bind_ok {α β} (a : α) (f : α → Res β) : (Res.ok a >>= f) = f a := rfl
@[simp] theorem bind_panic {α β} (f : α → Res β) : (Res.panic >>= f) = Res.panic := rfl
@[simp] theorem bind_timeout {α β} (f : α → Res β) : (Res.timeout >>= f) = Res.timeout := rfl
@[simp] theorem pure_def {α} (a : α) : (pure a : Res α) = Res.ok a := rfl
@[simp] theorem mapR_ok {α β} (f : α → β) (a : α) : mapR f (ok a) = ok (f a) := rfl
@[simp] theorem mapR_panic {α β} (f : α → β) : mapR f (panic) = panic := rfl
@[simp] theorem mapR_timeout {α β} (f : α → β) : mapR f (timeout) = timeout := rfl

theorem bind_eq_ok {α β} {x : Res α} {f : α → Res β} {b : β} :
    (x >>= f) = ok b ↔ ∃ a, x = ok a ∧ f a = ok b := by
  cases x <;> simp

theorem mapR_eq_ok {α β} {x : Res α} {f : α → β} {b : β} :
    mapR f x = ok b ↔ ∃ a, x = ok a ∧ f a = b := by
  cases x <;> simp [mapR]

instance : LawfulMonad Res := LawfulMonad.mk' Res
  (id_map := by intro α x; cases x <;> rfl)
  (pure_bind := by intros; rfl)
  (bind_assoc := by intro α β γ x f g; cases x <;> rfl)
end Res

theorem csub_ok {a b : Nat} (h : b ≤ a) : csub a b = .ok (a - b) := by simp [csub, h]
theorem cadd_ok {w : Width} {a b : Nat} (h : fits w (a + b) = true) : cadd w a b = .ok (a + b) := by
  simp [cadd, h]
theorem cmul_ok {w : Width} {a b : Nat} (h : fits w (a * b) = true) : cmul w a b = .ok (a * b) := by
  simp [cmul, h]
theorem cdiv_ok {a b : Nat} (h : b ≠ 0) : cdiv a b = .ok (a / b) := by simp [cdiv, h]

theorem fits_mono {w : Width} {a b : Nat} (h : a ≤ b) (hb : fits w b = true) : fits w a = true := by
  cases w with
  | none => rfl
  | some k => simp [fits] at *; omega

@[simp] theorem fits_none (x : Nat) : fits none x = true := rfl
theorem fits_some {b x : Nat} : fits (some b) x = true ↔ x < 2 ^ b := by simp [fits]

/-- the small constants of the code fit into every integer type -/
theorem std_fits {w : Width} (h : StdWidth w) {x : Nat} (hx : x < 256) : fits w x = true := by
  rcases h with rfl | ⟨b, hb, rfl⟩
  · rfl
  · simp only [List.mem_cons, List.not_mem_nil, or_false] at hb
    rw [fits_some]
    rcases hb with rfl | rfl | rfl | rfl | rfl <;> omega

/-! ## binary search -/

theorem takeWhile_lt_length_le (l : List Nat) (x : Nat) : (l.takeWhile (· < x)).length ≤ l.length :=
  (List.takeWhile_sublist _).length_le

theorem mem_takeWhile_lt {l : List Nat} (hs : l.Pairwise (· < ·)) {x y : Nat} :
    y ∈ l.takeWhile (· < x) ↔ y ∈ l ∧ y < x := by
  induction l with
  | nil => simp
  | cons a t ih =>
    rw [List.pairwise_cons] at hs
    by_cases h : a < x
    · simp [h, ih hs.2]
      constructor
      · rintro (rfl | h1)
        · exact ⟨Or.inl rfl, h⟩
        · exact ⟨Or.inr h1.1, h1.2⟩
      · rintro ⟨rfl | h1, h2⟩
        · exact Or.inl rfl
        · exact Or.inr ⟨h1, h2⟩
    · simp only [List.takeWhile_cons, h, decide_false, List.mem_cons, Bool.false_eq_true, if_false,
        List.not_mem_nil, false_iff]
      rintro ⟨rfl | h1, h2⟩
      · exact h h2
      · exact h (lt_trans (hs.1 _ h1) h2)

theorem takeWhile_lt_eq_filter {l : List Nat} (hs : l.Pairwise (· < ·)) (x : Nat) :
    l.takeWhile (· < x) = l.filter (· < x) := by
  induction l with
  | nil => simp
  | cons a t ih =>
    rw [List.pairwise_cons] at hs
    by_cases h : a < x
    · simp [h, ih hs.2]
    · simp only [List.takeWhile_cons, h, decide_false, List.filter_cons]
      symm
      rw [if_neg (by simp), if_neg (by simp)]
      rw [List.filter_eq_nil_iff]
      intro b hb
      have := hs.1 b hb
      simp; omega

/-- number of elements `≤ x` -/
theorem binarySearch_upper {l : List Nat} (hs : l.Pairwise (· < ·)) (x : Nat) :
    (binarySearch l x).upper = (l.filter (· ≤ x)).length := by
  induction l with
  | nil => simp [binarySearch, Search.upper]
  | cons a t ih =>
    rw [List.pairwise_cons] at hs
    have ih := ih hs.2
    by_cases h : a < x
    · have h' : a ≤ x := h.le
      simp only [List.filter_cons, h', decide_true, if_true, List.length_cons, ← ih]
      simp only [binarySearch, List.takeWhile_cons, h, decide_true, if_true, List.length_cons,
        List.getElem?_cons_succ]
      split <;> simp [Search.upper]
    · have hf : t.filter (· ≤ x) = [] := by
        rw [List.filter_eq_nil_iff]; intro b hb; have := hs.1 b hb; simp; omega
      by_cases h2 : a = x
      · subst h2
        simp [binarySearch, Search.upper, hf]
      · have h3 : ¬ a ≤ x := by omega
        simp [binarySearch, Search.upper, hf, h, h2, h3, List.takeWhile_cons]

theorem binarySearch_isOk {l : List Nat} (hs : l.Pairwise (· < ·)) (x : Nat) :
    (binarySearch l x).isOk = true ↔ x ∈ l := by
  induction l with
  | nil => simp [binarySearch, Search.isOk]
  | cons a t ih =>
    rw [List.pairwise_cons] at hs
    have ih := ih hs.2
    by_cases h : a < x
    · rw [List.mem_cons]
      have : ¬ x = a := by omega
      simp only [this, false_or, ← ih]
      simp only [binarySearch, List.takeWhile_cons, h, decide_true, if_true, List.length_cons,
        List.getElem?_cons_succ]
      split <;> simp [Search.isOk]
    · by_cases h2 : a = x
      · subst h2
        simp [binarySearch, Search.isOk]
      · have h3 : x ∉ t := by
          intro hb; have := hs.1 x hb; omega
        have h4 : ¬ x = a := fun e => h2 e.symm
        simp [binarySearch, Search.isOk, h, h2, h3, h4, List.takeWhile_cons]

theorem binarySearch_found {l : List Nat} {x p : Nat} (h : binarySearch l x = .found p) :
    l[p]? = some x := by
  simp only [binarySearch] at h
  split at h
  · cases h; assumption
  · cases h

theorem binarySearch_pos {l : List Nat} (hs : l.Pairwise (· < ·)) (x : Nat) :
    ∃ p, (binarySearch l x = .found p ∧ x ∈ l ∨ binarySearch l x = .missing p ∧ x ∉ l) ∧
      p = (l.filter (· < x)).length := by
  refine ⟨_, ?_, rfl⟩
  rw [← takeWhile_lt_eq_filter hs]
  have := binarySearch_isOk hs x
  by_cases h : l[(l.takeWhile (· < x)).length]? = some x
  · left
    have e : binarySearch l x = .found (l.takeWhile (· < x)).length := by
      simp only [binarySearch, h, if_true]
    refine ⟨e, ?_⟩
    rw [← this, e]; rfl
  · right
    have e : binarySearch l x = .missing (l.takeWhile (· < x)).length := by
      simp only [binarySearch, h, if_false]
    refine ⟨e, ?_⟩
    rw [← this, e]; simp [Search.isOk]

/-! ## ranges -/

theorem mem_rangeStep {start stop step x : Nat} (hstep : 0 < step) :
    x ∈ rangeStep start stop step ↔ ∃ i, x = start + step * i ∧ x < stop := by
  simp only [rangeStep, List.mem_map, List.mem_range]
  constructor
  · rintro ⟨i, hi, rfl⟩
    refine ⟨i, rfl, ?_⟩
    rw [Nat.lt_div_iff_mul_lt hstep] at hi
    have : i * step = step * i := Nat.mul_comm _ _
    omega
  · rintro ⟨i, rfl, h⟩
    refine ⟨i, ?_, rfl⟩
    rw [Nat.lt_div_iff_mul_lt hstep]
    have : i * step = step * i := Nat.mul_comm _ _
    omega

/-! ## integer roots -/

theorem irootAux_spec (e n : Nat) : ∀ k r, r ^ e ≤ n → n < (r + 2 ^ k) ^ e →
    (irootAux e n k r) ^ e ≤ n ∧ n < (irootAux e n k r + 1) ^ e := by
  intro k
  induction k with
  | zero => intro r h1 h2; simpa [irootAux] using ⟨h1, h2⟩
  | succ k ih =>
    intro r h1 h2
    simp only [irootAux]
    split
    · rename_i h
      apply ih _ h
      rwa [Nat.add_assoc, ← Nat.two_mul, ← Nat.pow_succ']
    · rename_i h
      exact ih _ h1 (by omega)

theorem iroot_spec {e : Nat} (he : e ≠ 0) (n : Nat) :
    (iroot e n) ^ e ≤ n ∧ n < (iroot e n + 1) ^ e := by
  apply irootAux_spec
  · rw [Nat.zero_pow (Nat.pos_of_ne_zero he)]; omega
  · rw [Nat.zero_add, ← Nat.pow_mul]
    calc n < 2 ^ (n.log2 + 1) := Nat.lt_log2_self
      _ ≤ 2 ^ ((n.log2 / e + 1) * e) := by
        apply Nat.pow_le_pow_right (by norm_num)
        have := Nat.div_add_mod n.log2 e
        have h2 := Nat.mod_lt n.log2 (Nat.pos_of_ne_zero he)
        rw [Nat.add_mul, Nat.one_mul, Nat.mul_comm (n.log2 / e) e]
        omega

theorem iroot_eq_of {e n r : Nat} (h1 : r ^ e ≤ n) (h2 : n < (r + 1) ^ e) : iroot e n = r := by
  have he : e ≠ 0 := by
    rintro rfl; simp at h1 h2; omega
  obtain ⟨a, b⟩ := iroot_spec he n
  have c1 := lt_of_le_of_lt a h2
  have c2 := lt_of_le_of_lt h1 b
  have d1 := lt_of_pow_lt_pow_left₀ e (by omega) c1
  have d2 := lt_of_pow_lt_pow_left₀ e (by omega) c2
  omega

theorem iroot_pow {e : Nat} (he : e ≠ 0) (r : Nat) : iroot e (r ^ e) = r :=
  iroot_eq_of le_rfl (Nat.pow_lt_pow_left (by omega) he)

theorem isqrt_eq (n : Nat) : isqrt n = Nat.sqrt n := by
  apply iroot_eq_of
  · exact Nat.sqrt_le' n
  · exact Nat.lt_succ_sqrt' n

theorem icbrt_spec (n : Nat) : (icbrt n) ^ 3 ≤ n ∧ n < (icbrt n + 1) ^ 3 := iroot_spec (by norm_num) n

/-! ## trailing zeros and bit length -/

theorem tzAux_spec : ∀ f n, 0 < n → n.log2 ≤ f →
    2 ^ (tzAux f n) ∣ n ∧ (n / 2 ^ (tzAux f n)) % 2 = 1 := by
  intro f
  induction f with
  | zero =>
    intro n hn h
    have h1 : n.log2 = 0 := by omega
    have : n < 2 ^ (n.log2 + 1) := Nat.lt_log2_self
    rw [h1] at this
    have : n = 1 := by omega
    subst this; simp [tzAux]
  | succ f ih =>
    intro n hn h
    simp only [tzAux]
    split
    · rename_i h1; simp [h1]
    · rename_i h1
      have h2 : 0 < n / 2 := by omega
      have h3 : (n / 2).log2 ≤ f := by
        have : n.log2 = (n / 2).log2 + 1 := by
          conv_lhs => rw [Nat.log2_def]
          simp; omega
        omega
      obtain ⟨a, b⟩ := ih (n / 2) h2 h3
      have e2 : n = 2 * (n / 2) := by omega
      constructor
      · rw [Nat.pow_succ, Nat.mul_comm]
        rw [e2] ; exact Nat.mul_dvd_mul_left 2 (by simpa using a)
      · rw [Nat.pow_succ, Nat.mul_comm, ← Nat.div_div_eq_div_mul]; exact b

theorem tz_spec {n : Nat} (hn : 0 < n) : 2 ^ (tz n) ∣ n ∧ (n / 2 ^ (tz n)) % 2 = 1 :=
  tzAux_spec _ n hn le_rfl

theorem tz_unique {n s : Nat} (hn : 0 < n) (h1 : 2 ^ s ∣ n) (h2 : (n / 2 ^ s) % 2 = 1) : tz n = s := by
  obtain ⟨a, b⟩ := tz_spec hn
  have key : ∀ s t, s < t → 2 ^ t ∣ n → (n / 2 ^ s) % 2 = 1 → False := by
    intro s t hst h1 h2
    have : 2 ^ (s + 1) ∣ n := (Nat.pow_dvd_pow 2 (by omega)).trans h1
    obtain ⟨c, rfl⟩ := this
    rw [Nat.pow_succ, Nat.mul_assoc, Nat.mul_div_cancel_left _ (by positivity)] at h2
    omega
  rcases lt_trichotomy (tz n) s with h | h | h
  · exact (key _ _ h h1 b).elim
  · exact h
  · exact (key _ _ h a h2).elim

theorem tz_eq_padicValNat {n : Nat} (hn : 0 < n) : tz n = padicValNat 2 n := by
  apply tz_unique hn
  · exact pow_padicValNat_dvd
  · have h : ¬ 2 ∣ n / 2 ^ padicValNat 2 n := by
      intro ⟨c, hc⟩
      have : n = 2 ^ (padicValNat 2 n + 1) * c := by
        rw [pow_succ, mul_assoc, ← hc, Nat.mul_div_cancel' pow_padicValNat_dvd]
      exact pow_succ_padicValNat_not_dvd hn.ne' ⟨c, this⟩
    omega

theorem bitLen_eq_size (n : Nat) : bitLen n = n.size := by
  unfold bitLen
  split
  · rename_i h; simp [h]
  · rename_i h
    apply le_antisymm
    · rw [Nat.succ_le_iff, Nat.lt_size]
      exact Nat.log2_self_le h
    · rw [Nat.size_le]; exact Nat.lt_log2_self

/-! ## modular powers -/

theorem powmAux_spec : ∀ f b e m, e < 2 ^ f → powmAux f b e m = b ^ e % m := by
  intro f
  induction f with
  | zero => intro b e m h; have : e = 0 := by simpa using h
            subst this; simp [powmAux]
  | succ f ih =>
    intro b e m h
    simp only [powmAux]
    split
    · rename_i h0; subst h0; simp
    · have he : e / 2 < 2 ^ f := by rw [pow_succ] at h; omega
      rw [ih _ _ _ he]
      have hp : (b * b % m) ^ (e / 2) % m = b ^ (2 * (e / 2)) % m := by
        rw [← Nat.pow_mod, pow_mul, pow_two]
      rw [hp]
      split
      · rename_i h1
        have : e = 2 * (e / 2) + 1 := by omega
        conv_rhs => rw [this, pow_succ, Nat.mul_mod]
        rw [Nat.mul_mod, Nat.mod_mod]
      · rename_i h1
        have : e = 2 * (e / 2) := by omega
        conv_rhs => rw [this]

theorem powm_eq (b e m : Nat) : powm b e m = b ^ e % m := by
  unfold powm
  rw [powmAux_spec _ _ _ _ Nat.lt_log2_self, ← Nat.pow_mod]

/-! ## Jacobi symbol -/

theorem jacobiAux_spec : ∀ f a n, n % 2 = 1 → a < n → a * n < 2 ^ f →
    jacobiAux (f + 1) a n = jacobiSym a n := by
  intro f
  induction f using Nat.strong_induction_on with
  | _ f ih =>
    intro a n hn han hf
    rw [jacobiAux]
    split
    · rename_i h; subst h; simp
    split
    · rename_i h1 h; subst h
      have : 1 < n := by omega
      simp [jacobiSym.zero_left this]
    rename_i h1 h0
    have hapos : 0 < a := Nat.pos_of_ne_zero h0
    have hfpos : f ≠ 0 := by
      rintro rfl
      have : 0 < a * n := Nat.mul_pos hapos (by omega)
      simp at hf; omega
    obtain ⟨g, rfl⟩ := Nat.exists_eq_succ_of_ne_zero hfpos
    split
    · rename_i h2
      have e2 : a = 2 * (a / 2) := by omega
      have hrec : jacobiAux (g + 1) (a / 2) n = jacobiSym (a / 2 : ℕ) n := by
        apply ih g (by omega) _ _ hn (by omega)
        have : 2 * (a / 2 * n) = a * n := by rw [← Nat.mul_assoc, ← e2]
        rw [Nat.pow_succ] at hf
        omega
      have hsym : jacobiSym (a : ℤ) n = (if n % 8 = 3 ∨ n % 8 = 5 then -1 else 1) * jacobiSym (a / 2 : ℕ) n := by
        conv_lhs => rw [e2]
        push_cast
        rw [jacobiSym.mul_left, jacobiSym.at_two (Nat.odd_iff.mpr hn)]
        congr 1
        rw [ZMod.χ₈_nat_eq_if_mod_eight]
        have : n % 8 = 1 ∨ n % 8 = 3 ∨ n % 8 = 5 ∨ n % 8 = 7 := by omega
        rcases this with h | h | h | h <;> simp [h] <;> omega
      rw [hsym]
      show (if n % 8 = 3 ∨ n % 8 = 5 then -jacobiAux (g+1) (a / 2) n else jacobiAux (g+1) (a / 2) n) = _
      rw [hrec]
      split <;> simp
    · rename_i h2
      have ha2 : a % 2 = 1 := by omega
      have hrec : jacobiAux (g + 1) (n % a) a = jacobiSym (n % a : ℕ) a := by
        apply ih g (by omega) _ _ ha2 (Nat.mod_lt _ hapos)
        have h3 : 2 * (n % a) ≤ n := by
          have := Nat.mod_lt n hapos
          have := Nat.div_add_mod n a
          have : 1 ≤ n / a := Nat.div_pos han.le hapos
          nlinarith
        rw [Nat.pow_succ] at hf
        nlinarith
      have hrec' : jacobiAux (g + 1) (n % a) a = jacobiSym (n : ℤ) a := by
        rw [hrec]
        push_cast
        rw [← jacobiSym.mod_left]
      have hrecip := jacobiSym.quadratic_reciprocity_if (a := a) (b := n) ha2 hn
      rw [← hrecip, ← hrec']

theorem jacobi_eq {n : Nat} (hn : n % 2 = 1) (a : Nat) : jacobi a n = jacobiSym a n := by
  unfold jacobi
  have hpos : 0 < n := by omega
  have hlt := Nat.mod_lt a hpos
  have := jacobiAux_spec (2 * (n.log2 + a.log2) + 7) (a % n) n hn hlt (by
    have h1 : n < 2 ^ (n.log2 + 1) := Nat.lt_log2_self
    calc a % n * n < n * n := by nlinarith
      _ ≤ 2 ^ (n.log2 + 1) * 2 ^ (n.log2 + 1) := Nat.mul_le_mul h1.le h1.le
      _ = 2 ^ (2 * n.log2 + 2) := by rw [← pow_add]; congr 1; ring
      _ ≤ _ := Nat.pow_le_pow_right (by norm_num) (by omega))
  rw [this]
  push_cast
  rw [← jacobiSym.mod_left]

/-! ## modular operations -/

theorem subm_cast (a b : Nat) {m : Nat} (hm : 0 < m) : ((subm a b m : Nat) : ZMod m) = (a : ZMod m) - b := by
  unfold subm
  rw [ZMod.natCast_mod, Nat.cast_add, ZMod.natCast_mod, Nat.cast_sub (Nat.mod_lt _ hm).le, ZMod.natCast_self, ZMod.natCast_mod]
  ring
theorem negm_cast (a : Nat) {m : Nat} (hm : 0 < m) : ((negm a m : Nat) : ZMod m) = - (a : ZMod m) := by
  unfold negm
  rw [ZMod.natCast_mod, Nat.cast_sub (Nat.mod_lt _ hm).le, ZMod.natCast_self, ZMod.natCast_mod]
  ring
theorem addm_cast (a b m : Nat) : ((addm a b m : Nat) : ZMod m) = (a : ZMod m) + b := by
  unfold addm; rw [ZMod.natCast_mod]; push_cast; ring
theorem mulm_cast (a b m : Nat) : ((mulm a b m : Nat) : ZMod m) = (a : ZMod m) * b := by
  unfold mulm; rw [ZMod.natCast_mod]; push_cast; ring
theorem sqm_cast (a m : Nat) : ((sqm a m : Nat) : ZMod m) = (a : ZMod m) ^ 2 := by
  unfold sqm; rw [ZMod.natCast_mod]; push_cast; ring
theorem dblm_cast (a m : Nat) : ((dblm a m : Nat) : ZMod m) = 2 * (a : ZMod m) := by
  unfold dblm; rw [ZMod.natCast_mod]; push_cast; ring
theorem powm_cast (b e m : Nat) : ((powm b e m : Nat) : ZMod m) = (b : ZMod m) ^ e := by
  rw [powm_eq, ZMod.natCast_mod]; push_cast; ring

theorem subm_lt (a b : Nat) {m : Nat} (hm : 0 < m) : subm a b m < m := Nat.mod_lt _ hm
theorem negm_lt (a : Nat) {m : Nat} (hm : 0 < m) : negm a m < m := Nat.mod_lt _ hm
theorem addm_lt (a b : Nat) {m : Nat} (hm : 0 < m) : addm a b m < m := Nat.mod_lt _ hm
theorem mulm_lt (a b : Nat) {m : Nat} (hm : 0 < m) : mulm a b m < m := Nat.mod_lt _ hm
theorem sqm_lt (a : Nat) {m : Nat} (hm : 0 < m) : sqm a m < m := Nat.mod_lt _ hm
theorem dblm_lt (a : Nat) {m : Nat} (hm : 0 < m) : dblm a m < m := Nat.mod_lt _ hm
theorem powm_lt (a b : Nat) {m : Nat} (hm : 0 < m) : powm a b m < m := by rw [powm_eq]; exact Nat.mod_lt _ hm

theorem natCast_inj_of_lt {m a b : Nat} (ha : a < m) (hb : b < m) : (a : ZMod m) = b ↔ a = b := by
  rw [ZMod.natCast_eq_natCast_iff, Nat.ModEq, Nat.mod_eq_of_lt ha, Nat.mod_eq_of_lt hb]

/-! ## ordered association lists -/

/-- product of `p ^ e` over a factor map -/
def mapProd (m : List (Nat × Nat)) : Nat := (m.map (fun x => x.1 ^ x.2)).prod

@[simp] theorem mapProd_nil : mapProd [] = 1 := rfl
@[simp] theorem mapProd_cons (x) (m) : mapProd (x :: m) = x.1 ^ x.2 * mapProd m := by simp [mapProd]

/-- keys strictly increasing -/
def MapSorted (m : List (Nat × Nat)) : Prop := (m.map Prod.fst).Pairwise (· < ·)

/-- value stored under a key (0 if absent) -/
def mapGet (m : List (Nat × Nat)) (k : Nat) : Nat :=
  match m with
  | [] => 0
  | (k', v) :: t => if k = k' then v else mapGet t k

theorem mapAdd_prod (m : List (Nat × Nat)) (k e : Nat) : mapProd (mapAdd m k e) = mapProd m * k ^ e := by
  induction m with
  | nil => simp [mapAdd]
  | cons x t ih =>
    obtain ⟨k', v'⟩ := x
    simp only [mapAdd]
    split
    · simp; ring
    split
    · rename_i h; subst h; simp [pow_add]; ring
    · simp [ih]; ring

theorem mem_keys_mapAdd (m : List (Nat × Nat)) (k e x : Nat) :
    x ∈ (mapAdd m k e).map Prod.fst ↔ x = k ∨ x ∈ m.map Prod.fst := by
  induction m with
  | nil => simp [mapAdd]
  | cons y t ih =>
    obtain ⟨k', v'⟩ := y
    simp only [mapAdd]
    split
    · simp
    split
    · rename_i h; subst h; simp
    · simp only [List.map_cons, List.mem_cons, ih]; tauto

theorem mem_keys_mapInsert (m : List (Nat × Nat)) (k e x : Nat) :
    x ∈ (mapInsert m k e).map Prod.fst ↔ x = k ∨ x ∈ m.map Prod.fst := by
  induction m with
  | nil => simp [mapInsert]
  | cons y t ih =>
    obtain ⟨k', v'⟩ := y
    simp only [mapInsert]
    split
    · simp
    split
    · rename_i h; subst h; simp
    · simp only [List.map_cons, List.mem_cons, ih]; tauto

theorem mapAdd_sorted {m : List (Nat × Nat)} (h : MapSorted m) (k e : Nat) : MapSorted (mapAdd m k e) := by
  induction m with
  | nil => simp [mapAdd, MapSorted]
  | cons y t ih =>
    obtain ⟨k', v'⟩ := y
    simp only [MapSorted, List.map_cons, List.pairwise_cons] at h
    simp only [mapAdd]
    split
    · rename_i hk
      simp only [MapSorted, List.map_cons, List.pairwise_cons, List.mem_cons]
      refine ⟨?_, h.1, h.2⟩
      rintro a (rfl | ha)
      · exact hk
      · exact lt_trans hk (h.1 a ha)
    split
    · rename_i h1 h2; subst h2
      simpa [MapSorted] using h
    · rename_i h1 h2
      simp only [MapSorted, List.map_cons, List.pairwise_cons]
      refine ⟨?_, ih h.2⟩
      intro a ha
      rw [mem_keys_mapAdd] at ha
      rcases ha with rfl | ha
      · omega
      · exact h.1 a ha

theorem mapInsert_sorted {m : List (Nat × Nat)} (h : MapSorted m) (k e : Nat) : MapSorted (mapInsert m k e) := by
  induction m with
  | nil => simp [mapInsert, MapSorted]
  | cons y t ih =>
    obtain ⟨k', v'⟩ := y
    simp only [MapSorted, List.map_cons, List.pairwise_cons] at h
    simp only [mapInsert]
    split
    · rename_i hk
      simp only [MapSorted, List.map_cons, List.pairwise_cons, List.mem_cons]
      refine ⟨?_, h.1, h.2⟩
      rintro a (rfl | ha)
      · exact hk
      · exact lt_trans hk (h.1 a ha)
    split
    · rename_i h1 h2; subst h2
      simpa [MapSorted] using h
    · rename_i h1 h2
      simp only [MapSorted, List.map_cons, List.pairwise_cons]
      refine ⟨?_, ih h.2⟩
      intro a ha
      rw [mem_keys_mapInsert] at ha
      rcases ha with rfl | ha
      · omega
      · exact h.1 a ha

/-- inserting a fresh key is the same as adding to it -/
theorem mapInsert_eq_mapAdd {m : List (Nat × Nat)} {k : Nat} (e : Nat) (h : k ∉ m.map Prod.fst) :
    mapInsert m k e = mapAdd m k e := by
  induction m with
  | nil => rfl
  | cons y t ih =>
    obtain ⟨k', v'⟩ := y
    simp only [List.map_cons, List.mem_cons, not_or] at h
    simp only [mapInsert, mapAdd]
    rw [ih h.2]
    simp [h.1]

theorem mapAdd_pos {m : List (Nat × Nat)} {k e : Nat} (he : 0 < e) (h : ∀ x ∈ m, 0 < x.2) :
    ∀ x ∈ mapAdd m k e, 0 < x.2 := by
  induction m with
  | nil => simpa [mapAdd] using he
  | cons y t ih =>
    obtain ⟨k', v'⟩ := y
    have h1 := h (k', v') (by simp)
    have h2 : ∀ x ∈ t, 0 < x.2 := fun x hx => h x (by simp [hx])
    simp only [mapAdd]
    split
    · intro x hx; simp only [List.mem_cons] at hx
      rcases hx with rfl | rfl | hx
      · exact he
      · exact h1
      · exact h2 x hx
    split
    · intro x hx; simp only [List.mem_cons] at hx
      rcases hx with rfl | hx
      · simp at *; omega
      · exact h2 x hx
    · intro x hx; simp only [List.mem_cons] at hx
      rcases hx with rfl | hx
      · exact h1
      · exact ih h2 x hx

end NumPrime
