import Verif.Model.Primality
import Verif.Proofs.Basic
import Verif.Proofs.Roots
import Verif.Proofs.Sprp
import Verif.Proofs.LucasParams

/-! The Lucas part of the model. -/

namespace NumPrime
open Spec

/-! ## lucasm -/

theorem reduceQ_cast (q : ℤ) {m : ℕ} (hm : 0 < m) : ((reduceQ q m : ℕ) : ZMod m) = (q : ZMod m) := by
  unfold reduceQ
  split
  · rename_i h
    rw [ZMod.natCast_mod]
    have : ((q.toNat : ℤ)) = q := Int.toNat_of_nonneg h
    calc ((q.toNat : ℕ) : ZMod m) = ((q.toNat : ℤ) : ZMod m) := (Int.cast_natCast _).symm
      _ = q := by rw [this]
  · rename_i h
    rw [negm_cast _ hm]
    have : (((-q).toNat : ℤ)) = -q := Int.toNat_of_nonneg (by omega)
    calc -(((-q).toNat : ℕ) : ZMod m) = -(((-q).toNat : ℤ) : ZMod m) := by rw [Int.cast_natCast]
      _ = q := by rw [this]; push_cast; ring

theorem lucasStep_cast {m : ℕ} (hm : 0 < m) (P Q : ℤ) (p q k : ℕ) (b : Bool) (s : ℕ × ℕ)
    (hp : (p : ZMod m) = P) (hq : (q : ZMod m) = Q)
    (h0 : (s.1 : ZMod m) = lucasU P Q k) (h1 : (s.2 : ZMod m) = lucasU P Q (k + 1)) :
    ((lucasStep p q m b s).1 : ZMod m) = lucasU P Q (2 * k + b.toNat) ∧
    ((lucasStep p q m b s).2 : ZMod m) = lucasU P Q (2 * k + b.toNat + 1) := by
  have u0 := congrArg (Int.cast : ℤ → ZMod m) (lucasU_even P Q k)
  have u1 := congrArg (Int.cast : ℤ → ZMod m) (lucasU_odd P Q k)
  have u2 := congrArg (Int.cast : ℤ → ZMod m) (lucasU_even_succ P Q k)
  push_cast at u0 u1 u2
  unfold lucasStep
  cases b
  · simp only [Bool.false_eq_true, if_false, Bool.toNat_false, add_zero, subm_cast _ _ hm, sqm_cast, mulm_cast, dblm_cast, h0, h1, hp, hq, u0, u1]
    constructor <;> ring
  · simp only [if_true, Bool.toNat_true, subm_cast _ _ hm, sqm_cast, mulm_cast, dblm_cast, h0, h1, hp, hq, u1]
    constructor
    · trivial
    · rw [show 2 * k + 1 + 1 = 2 * k + 2 by ring, u2]

theorem shiftRight_step (n i : ℕ) : n >>> i = 2 * (n >>> (i + 1)) + (n.testBit i).toNat := by
  rw [Nat.testBit_eq_decide_div_mod_eq, Nat.shiftRight_eq_div_pow, Nat.shiftRight_eq_div_pow, pow_succ, ← Nat.div_div_eq_div_mul]
  by_cases h : n / 2 ^ i % 2 = 1
  · simp [h]; omega
  · simp [h]; omega

theorem lucasLoop_cast {m : ℕ} (hm : 0 < m) (P Q : ℤ) (p q n : ℕ)
    (hp : (p : ZMod m) = P) (hq : (q : ZMod m) = Q) : ∀ (i : ℕ) (s : ℕ × ℕ),
    (s.1 : ZMod m) = lucasU P Q (n >>> i) → (s.2 : ZMod m) = lucasU P Q (n >>> i + 1) →
    ((lucasLoop p q m n i s).1 : ZMod m) = lucasU P Q n ∧
    ((lucasLoop p q m n i s).2 : ZMod m) = lucasU P Q (n + 1) := by
  intro i
  induction i with
  | zero => intro s h0 h1; simpa [lucasLoop] using ⟨h0, h1⟩
  | succ i ih =>
    intro s h0 h1
    have := lucasStep_cast hm P Q p q (n >>> (i + 1)) (n.testBit i) s hp hq h0 h1
    rw [← shiftRight_step n i] at this
    exact ih _ this.1 this.2

theorem lucasStep_lt {m : ℕ} (hm : 0 < m) (p q : ℕ) (b : Bool) (s : ℕ × ℕ) :
    (lucasStep p q m b s).1 < m ∧ (lucasStep p q m b s).2 < m := by
  unfold lucasStep
  cases b <;> exact ⟨subm_lt _ _ hm, subm_lt _ _ hm⟩

theorem lucasLoop_lt {m : ℕ} (hm : 0 < m) (p q n : ℕ) : ∀ (i : ℕ) (s : ℕ × ℕ), s.1 < m → s.2 < m →
    (lucasLoop p q m n i s).1 < m ∧ (lucasLoop p q m n i s).2 < m := by
  intro i
  induction i with
  | zero => intro s h0 h1; exact ⟨h0, h1⟩
  | succ i ih => intro s _ _; exact ih _ (lucasStep_lt hm p q _ s).1 (lucasStep_lt hm p q _ s).2

theorem lucasm_cast (p : ℕ) (q : ℤ) {m : ℕ} (hm : 0 < m) (n : ℕ) :
    (((lucasm p q m n).1 : ℕ) : ZMod m) = (lucasU p q n : ZMod m) ∧
    (((lucasm p q m n).2 : ℕ) : ZMod m) = (lucasV p q n : ZMod m) ∧
    (lucasm p q m n).1 < m ∧ (lucasm p q m n).2 < m := by
  have hp : ((p % m : ℕ) : ZMod m) = ((p : ℤ) : ZMod m) := by rw [ZMod.natCast_mod]; simp
  have hq := reduceQ_cast q hm
  have h := lucasLoop_cast hm p q (p % m) (reduceQ q m) n hp hq (bits n) (0 % m, 1 % m)
    (by
      have : n >>> bits n = 0 := by
        rw [Nat.shiftRight_eq_div_pow, Nat.div_eq_zero_iff]
        right; unfold bits; rw [bitLen_eq_size]; exact Nat.lt_size_self n
      rw [this]; simp [lucasU])
    (by
      have : n >>> bits n = 0 := by
        rw [Nat.shiftRight_eq_div_pow, Nat.div_eq_zero_iff]
        right; unfold bits; rw [bitLen_eq_size]; exact Nat.lt_size_self n
      rw [this]; simp only [zero_add]; rw [ZMod.natCast_mod]; simp [lucasU])
  have hl := lucasLoop_lt hm (p % m) (reduceQ q m) n (bits n) (0 % m, 1 % m) (Nat.mod_lt _ hm) (Nat.mod_lt _ hm)
  refine ⟨h.1, ?_, hl.1, subm_lt _ _ hm⟩
  simp only [lucasm, subm_cast _ _ hm, dblm_cast, mulm_cast, h.1, h.2, hp]
  rw [lucasV_eq]; push_cast; ring

theorem cast_lt_eq_emod {m a : ℕ} {z : ℤ} (h : (a : ZMod m) = (z : ZMod m)) (ha : a < m) : (a : ℤ) = z % m := by
  have h' : ((a : ℤ) : ZMod m) = (z : ZMod m) := by simpa using h
  rw [ZMod.intCast_eq_intCast_iff] at h'
  rw [← h', Int.emod_eq_of_lt (by positivity) (by exact_mod_cast ha)]

theorem lucasm_U_zero (p : ℕ) (q : ℤ) {m : ℕ} (hm : 0 < m) (n : ℕ) :
    (lucasm p q m n).1 = 0 ↔ lucasU p q n ≡ 0 [ZMOD m] := by
  obtain ⟨h1, _, h3, _⟩ := lucasm_cast p q hm n
  have := cast_lt_eq_emod h1 h3
  rw [Int.ModEq, ← this]
  simp

theorem lucasm_V_zero (p : ℕ) (q : ℤ) {m : ℕ} (hm : 0 < m) (n : ℕ) :
    (lucasm p q m n).2 = 0 ↔ lucasV p q n ≡ 0 [ZMOD m] := by
  obtain ⟨_, h1, _, h3⟩ := lucasm_cast p q hm n
  have := cast_lt_eq_emod h1 h3
  rw [Int.ModEq, ← this]
  simp

/-! ## delta -/

theorem negm_jacobi {n : ℕ} (hodd : n % 2 = 1) (a : ℕ) : jacobi (negm a n) n = jacobiSym (-(a : ℤ)) n := by
  rw [jacobi_eq hodd]
  have hm : 0 < n := by omega
  have := negm_cast a hm
  apply jacobiSym.mod_left'
  have h' : (((negm a n : ℕ) : ℤ) : ZMod n) = ((-(a : ℤ) : ℤ) : ZMod n) := by push_cast; exact this
  exact (ZMod.intCast_eq_intCast_iff _ _ _).mp h'

theorem reduceD_jacobi {n : ℕ} (hodd : n % 2 = 1) (d : ℤ) : jacobi (reduceD d n) n = jacobiSym d n := by
  unfold reduceD
  split
  · rw [jacobi_eq hodd, Int.toNat_of_nonneg (by omega)]
  · rw [negm_jacobi hodd, Int.toNat_of_nonneg (by omega)]; simp

theorem lucasIndex_pos {n : ℕ} (hn : 1 < n) (D : ℤ) : 0 < lucasIndex n D := by
  unfold lucasIndex
  rcases jacobi_trichotomy D n with h | h | h <;> rw [h] <;> omega

theorem lucasIndex_le (n : ℕ) (D : ℤ) : lucasIndex n D ≤ n + 1 := by
  unfold lucasIndex
  rcases jacobi_trichotomy D n with h | h | h <;> rw [h] <;> omega

theorem lucasDelta_eq {w : Width} {n : ℕ} (hodd : n % 2 = 1) (hw : fits w (n + 1) = true) (d : ℤ) :
    lucasDelta w n d = .ok (lucasIndex n d) := by
  unfold lucasDelta
  rw [reduceD_jacobi hodd]
  rcases jacobi_trichotomy d n with h | h | h
  · simp [h, lucasIndex_eq_zero_case h]
  · rw [lucasIndex_eq_pos h]
    simp [h, csub]; omega
  · rw [lucasIndex_eq_neg h]
    simp [h, cadd, hw]

/-- without room for `n + 1` the delta computation still works when the Jacobi symbol is not -1 -/
theorem lucasDelta_eq' {w : Width} {n : ℕ} (hodd : n % 2 = 1) (d : ℤ) (h : jacobiSym d n ≠ -1) :
    lucasDelta w n d = .ok (lucasIndex n d) := by
  unfold lucasDelta
  rw [reduceD_jacobi hodd]
  rcases jacobi_trichotomy d n with h | h | h
  · simp [h, lucasIndex_eq_zero_case h]
  · rw [lucasIndex_eq_pos h]
    simp [h, csub]; omega
  · contradiction

/-! ## strong Lucas test -/

theorem slprpLoop_spec {n : ℕ} (hn : 0 < n) (P Q : ℤ) (d : ℕ) : ∀ (k r qk vd : ℕ),
    (vd : ZMod n) = lucasV P Q (d * 2 ^ r) → (qk : ZMod n) ^ 2 = (Q : ZMod n) ^ (d * 2 ^ r) →
    (slprpLoop n k qk vd = true ↔ ∃ j, r < j ∧ j ≤ r + k ∧ lucasV P Q (d * 2 ^ j) ≡ 0 [ZMOD n]) := by
  intro k
  induction k with
  | zero =>
    intro r qk vd _ _
    simp only [slprpLoop, Bool.false_eq_true, false_iff]
    rintro ⟨j, h1, h2, _⟩; omega
  | succ k ih =>
    intro r qk vd hv hq
    have hv' : ((subm (sqm vd n) (dblm (sqm qk n) n) n : ℕ) : ZMod n) = lucasV P Q (d * 2 ^ (r + 1)) := by
      rw [subm_cast _ _ hn, sqm_cast, dblm_cast, sqm_cast, hv, hq, pow_succ 2 r,
        show d * (2 ^ r * 2) = 2 * (d * 2 ^ r) by ring, lucasV_two_mul]
      push_cast; ring
    have hq' : ((sqm qk n : ℕ) : ZMod n) ^ 2 = (Q : ZMod n) ^ (d * 2 ^ (r + 1)) := by
      rw [sqm_cast, hq, ← pow_mul, pow_succ]; ring_nf
    have hz : subm (sqm vd n) (dblm (sqm qk n) n) n = 0 ↔ lucasV P Q (d * 2 ^ (r + 1)) ≡ 0 [ZMOD n] := by
      have := cast_lt_eq_emod hv' (subm_lt _ _ hn)
      rw [Int.ModEq, ← this]; simp
    simp only [slprpLoop]
    split
    · rename_i h
      simp only [true_iff]
      exact ⟨r + 1, by omega, by omega, hz.mp h⟩
    · rename_i h
      rw [ih (r + 1) _ _ hv' hq']
      constructor
      · rintro ⟨j, h1, h2, h3⟩; exact ⟨j, by omega, by omega, h3⟩
      · rintro ⟨j, h1, h2, h3⟩
        refine ⟨j, ?_, by omega, h3⟩
        rcases Nat.lt_or_ge (r + 1) j with h4 | h4
        · exact h4
        · have : j = r + 1 := by omega
          subst this
          exact absurd (hz.mpr h3) h

theorem shift_ok {w : Width} {x : ℕ} (hx : 0 < x) (hw : fits w x = true) :
    trailingZeros w x = tz x ∧ cshr w x (tz x) = .ok (x >>> tz x) := by
  refine ⟨by simp [trailingZeros, hx.ne'], ?_⟩
  cases w with
  | none => rfl
  | some b => simp [cshr, tz_lt hx (fits_some.mp hw)]

theorem odd_neg_pow {R : Type*} [CommRing R] {d : ℕ} (hd : d % 2 = 1) (x : R) : (-x) ^ d = -(x ^ d) :=
  Odd.neg_pow (Nat.odd_iff.mpr hd) x

/-- the strong Lucas loop as coded tests `U_d`, `V_d` and then `V_{d 2^r}` for `r = 1..s` -/
theorem slprpTail_spec {w : Width} {n : ℕ} (hn : 1 < n) (p : ℕ) (q : ℤ) {delta : ℕ}
    (hd : 0 < delta) (hw : fits w delta = true) :
    ∃ v, slprpTail w n p q delta = .ok v ∧ (v = true ↔
      (lucasU p q (delta >>> tz delta) ≡ 0 [ZMOD n] ∨
        ∃ r ≤ tz delta, lucasV p q ((delta >>> tz delta) * 2 ^ r) ≡ 0 [ZMOD n])) := by
  have hn0 : 0 < n := by omega
  obtain ⟨e1, e2⟩ := shift_ok hd hw
  obtain ⟨hodd, _⟩ := tz_decomp hd
  set d := delta >>> tz delta with hdd
  set s := tz delta with hs
  obtain ⟨_, cV, _, _⟩ := lucasm_cast p q hn0 d
  have zU := lucasm_U_zero p q hn0 d
  have zV := lucasm_V_zero p q hn0 d
  simp only [slprpTail, e1, e2, Res.bind_ok, Res.pure_def]
  by_cases h1 : (lucasm p q n d).1 = 0 ∨ (lucasm p q n d).2 = 0
  · refine ⟨true, by simp only [h1, if_true], ?_⟩
    simp only [true_iff]
    rcases h1 with h | h
    · exact Or.inl (zU.mp h)
    · exact Or.inr ⟨0, by omega, by simpa using zV.mp h⟩
  simp only [h1, if_false]
  push Not at h1
  by_cases h2 : s = 0
  · refine ⟨false, by simp only [h2, if_true], ?_⟩
    simp only [Bool.false_eq_true, false_iff]
    rintro (h | ⟨r, hr, h⟩)
    · exact h1.1 (zU.mpr h)
    · have : r = 0 := by omega
      subst this
      exact h1.2 (zV.mpr (by simpa using h))
  simp only [h2, if_false]
  set qk := powm q.natAbs d n with hqk
  set vd := (if q ≥ 0 then subm (sqm (lucasm p q n d).2 n) (dblm qk n) n
    else addm (sqm (lucasm p q n d).2 n) (dblm qk n) n) with hvd
  have hqkc : (qk : ZMod n) = if q ≥ 0 then (q : ZMod n) ^ d else -((q : ZMod n) ^ d) := by
    rw [hqk, powm_cast]
    split
    · rename_i h
      have : (q.natAbs : ℤ) = q := by omega
      rw [← Int.cast_natCast q.natAbs, this]
    · rename_i h
      have : (q.natAbs : ℤ) = -q := by omega
      rw [← Int.cast_natCast q.natAbs, this, Int.cast_neg, odd_neg_pow hodd]
  have hvdc : (vd : ZMod n) = lucasV p q (d * 2 ^ 1) := by
    rw [hvd, pow_one, show d * 2 = 2 * d by ring, lucasV_two_mul]
    split
    · rename_i h
      rw [subm_cast _ _ hn0, sqm_cast, dblm_cast, cV, hqkc, if_pos h]; push_cast; ring
    · rename_i h
      rw [addm_cast, sqm_cast, dblm_cast, cV, hqkc, if_neg h]; push_cast; ring
  have hvlt : vd < n := by rw [hvd]; split; exacts [subm_lt _ _ hn0, addm_lt _ _ hn0]
  have zvd : vd = 0 ↔ lucasV p q (d * 2 ^ 1) ≡ 0 [ZMOD n] := by
    have := cast_lt_eq_emod hvdc hvlt
    rw [Int.ModEq, ← this]; simp
  by_cases h3 : vd = 0
  · refine ⟨true, by simp only [h3, if_true], ?_⟩
    simp only [true_iff]
    exact Or.inr ⟨1, by omega, zvd.mp h3⟩
  refine ⟨_, by simp only [h3, if_false]; rfl, ?_⟩
  have hq2 : (qk : ZMod n) ^ 2 = (q : ZMod n) ^ (d * 2 ^ 1) := by
    rw [hqkc, pow_one, pow_mul]; split <;> ring
  rw [slprpLoop_spec hn0 p q d (s - 1) 1 qk vd hvdc hq2]
  constructor
  · rintro ⟨j, h4, h5, h6⟩; exact Or.inr ⟨j, by omega, h6⟩
  · rintro (h | ⟨r, hr, h⟩)
    · exact absurd (zU.mpr h) h1.1
    · rcases Nat.lt_or_ge 1 r with h4 | h4
      · exact ⟨r, h4, by omega, h⟩
      · rcases Nat.lt_or_ge r 1 with h5 | h5
        · have : r = 0 := by omega
          subst this
          exact absurd (zV.mpr (by simpa using h)) h1.2
        · have : r = 1 := by omega
          subst this
          exact absurd (zvd.mpr h) h3

theorem strongLucas_iff {n : ℕ} (hn : 1 < n) (P Q : ℤ) :
    StrongLucasPRP n P Q ↔
      (lucasU P Q (lucasIndex n (P ^ 2 - 4 * Q) >>> tz (lucasIndex n (P ^ 2 - 4 * Q))) ≡ 0 [ZMOD n] ∨
        ∃ r < tz (lucasIndex n (P ^ 2 - 4 * Q)),
          lucasV P Q ((lucasIndex n (P ^ 2 - 4 * Q) >>> tz (lucasIndex n (P ^ 2 - 4 * Q))) * 2 ^ r) ≡ 0 [ZMOD n]) := by
  have hpos := lucasIndex_pos hn (P ^ 2 - 4 * Q)
  obtain ⟨h1, h2⟩ := tz_decomp hpos
  constructor
  · rintro ⟨s, d, hd, he, h⟩
    obtain ⟨a, b⟩ := odd_decomp_unique hd h1 (he.symm.trans h2)
    rw [← b, ← a]; exact h
  · intro h
    exact ⟨_, _, h1, h2, h⟩

/-! ## extra strong Lucas test -/

theorem eslprpLoop_spec {n : ℕ} (hn : 0 < n) (P : ℤ) (d : ℕ) : ∀ (k r vd : ℕ),
    (vd : ZMod n) = lucasV P 1 (d * 2 ^ r) →
    (eslprpLoop n k vd = true ↔ ∃ j, r < j ∧ j ≤ r + k ∧ lucasV P 1 (d * 2 ^ j) ≡ 0 [ZMOD n]) := by
  intro k
  induction k with
  | zero =>
    intro r vd _
    simp only [eslprpLoop, Bool.false_eq_true, false_iff]
    rintro ⟨j, h1, h2, _⟩; omega
  | succ k ih =>
    intro r vd hv
    have hv' : ((subm (sqm vd n) 2 n : ℕ) : ZMod n) = lucasV P 1 (d * 2 ^ (r + 1)) := by
      rw [subm_cast _ _ hn, sqm_cast, hv, pow_succ 2 r,
        show d * (2 ^ r * 2) = 2 * (d * 2 ^ r) by ring, lucasV_two_mul]
      push_cast; ring
    have hz : subm (sqm vd n) 2 n = 0 ↔ lucasV P 1 (d * 2 ^ (r + 1)) ≡ 0 [ZMOD n] := by
      have := cast_lt_eq_emod hv' (subm_lt _ _ hn)
      rw [Int.ModEq, ← this]; simp
    simp only [eslprpLoop]
    split
    · rename_i h
      simp only [true_iff]
      exact ⟨r + 1, by omega, by omega, hz.mp h⟩
    · rename_i h
      rw [ih (r + 1) _ hv']
      constructor
      · rintro ⟨j, h1, h2, h3⟩; exact ⟨j, by omega, by omega, h3⟩
      · rintro ⟨j, h1, h2, h3⟩
        refine ⟨j, ?_, by omega, h3⟩
        rcases Nat.lt_or_ge (r + 1) j with h4 | h4
        · exact h4
        · have : j = r + 1 := by omega
          subst this
          exact absurd (hz.mpr h3) h

/-- the extra strong loop as coded: `U_d = 0 ∧ V_d = ±2`, `V_d = 0`, or `V_{d 2^r} = 0` for some `1 ≤ r < s-1`;
it panics exactly when `s = 0` and neither of the first two holds -/
theorem eslprpTail_spec {w : Width} {n : ℕ} (hn : 2 < n) (p : ℕ) {delta : ℕ}
    (hd : 0 < delta) (hw : fits w delta = true) (hs : 1 ≤ tz delta) :
    ∃ v, eslprpTail w n p delta = .ok v ∧ (v = true ↔
      ((lucasU p 1 (delta >>> tz delta) ≡ 0 [ZMOD n] ∧
        (lucasV p 1 (delta >>> tz delta) ≡ 2 [ZMOD n] ∨ lucasV p 1 (delta >>> tz delta) ≡ -2 [ZMOD n])) ∨
        ∃ r, (r = 0 ∨ r < tz delta - 1) ∧ lucasV p 1 ((delta >>> tz delta) * 2 ^ r) ≡ 0 [ZMOD n])) := by
  have hn0 : 0 < n := by omega
  obtain ⟨e1, e2⟩ := shift_ok hd hw
  set d := delta >>> tz delta with hdd
  set s := tz delta with hs'
  obtain ⟨_, cV, _, lV⟩ := lucasm_cast p 1 hn0 d
  have zU := lucasm_U_zero p 1 hn0 d
  have zV := lucasm_V_zero p 1 hn0 d
  have eV := cast_lt_eq_emod cV lV
  have z2 : (lucasm p 1 n d).2 = 2 ↔ lucasV p 1 d ≡ 2 [ZMOD n] := by
    rw [Int.ModEq, ← eV, Int.emod_eq_of_lt (by norm_num) (by exact_mod_cast hn)]; omega
  have zm2 : (lucasm p 1 n d).2 = n - 2 ↔ lucasV p 1 d ≡ -2 [ZMOD n] := by
    have : (-2 : ℤ) % n = n - 2 := by
      rw [← Int.add_emod_right, Int.emod_eq_of_lt] <;> omega
    rw [Int.ModEq, ← eV, this]; omega
  have hc : csub n 2 = .ok (n - 2) := by simp [csub]; omega
  have hs1 : csub s 1 = .ok (s - 1) := by simp [csub, hs]
  simp only [eslprpTail, e1, e2, Res.bind_ok, Res.pure_def, hc, hs1, Res.mapR]
  by_cases h1 : lucasU p 1 d ≡ 0 [ZMOD n] ∧ (lucasV p 1 d ≡ 2 [ZMOD n] ∨ lucasV p 1 d ≡ -2 [ZMOD n])
  · refine ⟨true, ?_, by simp only [true_iff]; exact Or.inl h1⟩
    have a := zU.mpr h1.1
    simp only [a, if_true]
    by_cases b : (lucasm p 1 n d).2 = 2
    · simp [b]
    · have b2 : (lucasm p 1 n d).2 = n - 2 := zm2.mpr (h1.2.resolve_left (fun h => b (z2.mpr h)))
      have b' : ¬ (n - 2 = 2) := by rw [← b2]; exact b
      simp [b2, b']
  have hc1 : (if (lucasm p 1 n d).1 = 0 then
      if (lucasm p 1 n d).2 = 2 then (Res.ok true) else Res.ok ((lucasm p 1 n d).2 == n - 2)
    else Res.ok false) = Res.ok false := by
    by_cases a : (lucasm p 1 n d).1 = 0
    · have b : ¬ (lucasm p 1 n d).2 = 2 := fun h => h1 ⟨zU.mp a, Or.inl (z2.mp h)⟩
      have b2 : ¬ (lucasm p 1 n d).2 = n - 2 := fun h => h1 ⟨zU.mp a, Or.inr (zm2.mp h)⟩
      simp [a, b, b2]
    · simp [a]
  rw [hc1]
  simp only [Res.bind_ok, Bool.false_eq_true, if_false]
  by_cases h2 : (lucasm p 1 n d).2 = 0
  · refine ⟨true, by simp only [h2, if_true], ?_⟩
    simp only [true_iff]
    exact Or.inr ⟨0, Or.inl rfl, by simpa using zV.mp h2⟩
  refine ⟨_, by simp only [h2, if_false]; rfl, ?_⟩
  rw [eslprpLoop_spec hn0 p d (s - 1 - 1) 0 _ (by simpa using cV)]
  constructor
  · rintro ⟨j, h4, h5, h6⟩; exact Or.inr ⟨j, Or.inr (by omega), h6⟩
  · rintro (h | ⟨r, hr, h⟩)
    · exact absurd h h1
    · rcases Nat.eq_zero_or_pos r with h4 | h4
      · subst h4
        exact absurd (zV.mpr (by simpa using h)) h2
      · exact ⟨r, h4, by omega, h⟩

/-! ## parameter search -/

theorem sgn_jacobi {n : ℕ} (hodd : n % 2 = 1) (d : ℕ) (neg : Bool) :
    jacobi (if neg then negm d n else d) n = jacobiSym (sgn d neg) n := by
  cases neg
  · simp [sgn, jacobi_eq hodd]
  · simp only [if_true, sgn]; exact negm_jacobi hodd d

theorem sgn_eq_star {d : ℕ} {neg : Bool} (h : sgn d neg % 4 = 1) : sgn d neg = star d := by
  unfold star
  cases neg <;> simp [sgn] at * <;> omega

/-- the search returns whenever a stopping point that fits into the type lies ahead within the fuel -/
theorem selfridge_total (bld : Build) {w : Width} {n : ℕ} (hodd : n % 2 = 1) (hw : fits w n = true) (ds : ℕ)
    (hds : fits w ds = true)
    (hstop : (ds = 13 ∧ IsSquare n) ∨ (jacobiSym (star ds) n = 0 ∧ ds ≠ n) ∨ jacobiSym (star ds) n = -1) :
    ∀ (f d : ℕ) (neg : Bool), d ≤ ds → d % 2 = ds % 2 → ds < d + 2 * f → sgn d neg % 4 = 1 →
    ∃ P Q, pqSelfridgeLoop bld w n f d neg = .ok (P, Q) ∧
      ((P = 0 ∧ Q = 0) ∨ (P = 1 ∧ jacobiSym (1 - 4 * Q) n = -1 ∧ (1 - 4 * Q).natAbs ≤ ds)) := by
  intro f
  induction f with
  | zero => intro d neg h1 h2 h3; omega
  | succ f ih =>
    intro d neg h1 h2 h3 h4
    have hn : 0 < n := by omega
    simp only [pqSelfridgeLoop, sgn_jacobi hodd]
    obtain ⟨v, hv, hvs⟩ := isSquare_spec bld w hn hw
    have hsq : ∃ v', (if d = 13 then NumPrime.isSquare bld w n else .ok false) = Res.ok v' ∧
        (v' = true ↔ d = 13 ∧ IsSquare n) := by
      by_cases h : d = 13
      · exact ⟨v, by simp [h, hv], by simp [h, hvs]⟩
      · exact ⟨false, by simp [h], by simp [h]⟩
    obtain ⟨v', hv', hvs'⟩ := hsq
    rw [hv']
    simp only [Res.bind_ok]
    cases v' with
    | true => exact ⟨0, 0, by simp, Or.inl ⟨rfl, rfl⟩⟩
    | false =>
      simp only [Bool.false_eq_true, if_false]
      by_cases h0 : jacobiSym (sgn d neg) n = 0 ∧ d ≠ n
      · exact ⟨0, 0, by rw [if_pos h0]; rfl, Or.inl ⟨rfl, rfl⟩⟩
      rw [if_neg h0]
      by_cases hm : jacobiSym (sgn d neg) n = -1
      · refine ⟨1, (1 - sgn d neg).tdiv 4, by rw [if_pos hm]; rfl, Or.inr ⟨rfl, ?_⟩⟩
        rw [selfridge_params h4]
        refine ⟨hm, ?_⟩
        unfold sgn; split <;> omega
      rw [if_neg hm]
      have hne : d ≠ ds := by
        rintro rfl
        rw [sgn_eq_star h4] at h0 hm
        rcases hstop with ⟨h5, h6⟩ | h5 | h5
        · have := hvs'.mpr ⟨h5, h6⟩; simp at this
        · exact h0 h5
        · exact hm h5
      rw [cadd_ok (fits_mono (by omega) hds), Res.bind_ok]
      exact ih (d + 2) (!neg) (by omega) (by omega) (by omega) (sgn_step h4)

/-- for a prime the search does not stop with the escape value before `3n` -/
theorem selfridge_prime (bld : Build) {w : Width} {n : ℕ} (hp : n.Prime) (hodd : n % 2 = 1) (hw : fits w n = true)
    (ds : ℕ) (hds : fits w ds = true) (hlt : ds < 3 * n) (hs2 : ds % 2 = 1) (hJ : jacobiSym (star ds) n = -1) :
    ∀ (f d : ℕ) (neg : Bool), d ≤ ds → d % 2 = 1 → ds < d + 2 * f → sgn d neg % 4 = 1 →
    ∃ Q, pqSelfridgeLoop bld w n f d neg = .ok (1, Q) ∧ jacobiSym (1 - 4 * Q) n = -1 ∧ (1 - 4 * Q).natAbs ≤ ds := by
  intro f
  induction f with
  | zero => intro d neg h1 h2 h3; omega
  | succ f ih =>
    intro d neg h1 h2 h3 h4
    have hn : 0 < n := by omega
    simp only [pqSelfridgeLoop, sgn_jacobi hodd]
    have hsq : (if d = 13 then NumPrime.isSquare bld w n else .ok false) = Res.ok false := by
      by_cases h : d = 13
      · obtain ⟨v, hv, hvs⟩ := isSquare_spec bld w hn hw
        rw [if_pos h, hv]
        cases v
        · rfl
        · exact absurd (hvs.mp rfl) hp.prime.not_isSquare
      · simp [h]
    rw [hsq]
    simp only [Res.bind_ok, Bool.false_eq_true, if_false]
    rw [sgn_eq_star h4]
    have h0 : ¬ (jacobiSym (star d) n = 0 ∧ d ≠ n) := by
      rintro ⟨h5, h6⟩
      obtain ⟨c, hc⟩ := (star_zero hp).mp h5
      have hc3 : c < 3 := by
        have : n * c < n * 3 := by omega
        exact Nat.lt_of_mul_lt_mul_left this
      interval_cases c <;> omega
    rw [if_neg h0]
    by_cases hm : jacobiSym (star d) n = -1
    · refine ⟨(1 - sgn d neg).tdiv 4, by rw [if_pos hm]; rfl, ?_⟩
      rw [selfridge_params h4]
      refine ⟨by rw [sgn_eq_star h4]; exact hm, ?_⟩
      unfold sgn; split <;> omega
    rw [if_neg hm]
    have hne : d ≠ ds := by
      rintro rfl
      exact hm hJ
    rw [cadd_ok (fits_mono (by omega) hds), Res.bind_ok]
    exact ih (d + 2) (!neg) (by omega) (by omega) (by omega) (sgn_step h4)

/-- bound on the discriminants used by the default searches -/
def SmallDisc (n d : ℕ) : Prop := d ≤ 15 ∨ d * (d - 1) < 4 * n

theorem SmallDisc.mono {n a b : ℕ} (h : a ≤ b) (hb : SmallDisc n b) : SmallDisc n a := by
  rcases hb with hb | hb
  · exact Or.inl (by omega)
  · exact Or.inr (lt_of_le_of_lt (Nat.mul_le_mul h (by omega)) hb)

theorem SmallDisc.fits {w : Width} (hstd : StdWidth w) {n d : ℕ} (hn : fits w n = true) (h : SmallDisc n d) :
    fits w d = true := by
  rcases h with h | h
  · exact std_fits hstd (by omega)
  · by_cases h2 : d ≤ n
    · exact fits_mono h2 hn
    · have : n < 3 := by
        by_contra h3
        have : (n + 1) * n ≤ d * (d - 1) := Nat.mul_le_mul (by omega) (by omega)
        nlinarith
      have : d < 16 := by
        by_contra h3
        have : 16 * 15 ≤ d * (d - 1) := Nat.mul_le_mul (by omega) (by omega)
        omega
      exact std_fits hstd (by omega)

theorem pqSelfridge_prime (bld : Build) {w : Width} (hstd : StdWidth w) {n : ℕ} (hp : n.Prime) (hn2 : n ≠ 2)
    (hw : fits w n = true) :
    ∃ Q, pqSelfridge bld w n = .ok (1, Q) ∧ jacobiSym (1 - 4 * Q) n = -1 ∧ SmallDisc n (1 - 4 * Q).natAbs := by
  have hodd : n % 2 = 1 := by
    rcases hp.eq_two_or_odd with h | h
    · exact absurd h hn2
    · exact h
  obtain ⟨ds, negs, h1, h2, h3, h4, h5⟩ := exists_selfridge_small hp hn2
  have hd2 : ds % 2 = 1 := by cases negs <;> simp [sgn] at h4 <;> omega
  rw [sgn_eq_star h4] at h5
  obtain ⟨Q, a, b, c⟩ := selfridge_prime bld hp hodd hw ds (SmallDisc.fits hstd hw h3) h2 hd2 h5 (2 * n + 10) 5 false h1
    (by omega) (by omega) (by simp [sgn])
  exact ⟨Q, a, b, SmallDisc.mono c h3⟩

theorem jacobi_zero_of_dvd {n s : ℕ} {a : ℤ} (hs : 1 < s) (hn : s ∣ n) (hn0 : n ≠ 0) (ha : (s : ℤ) ∣ a) :
    jacobiSym a n = 0 := by
  haveI : NeZero n := ⟨hn0⟩
  rw [jacobiSym.eq_zero_iff_not_coprime]
  intro hc
  have : s ∣ Int.gcd a n := Int.natCast_dvd_natCast.mp (Int.dvd_coe_gcd ha (by exact_mod_cast hn))
  rw [hc] at this
  have := Nat.dvd_one.mp this
  omega

/-- an odd number that is neither 1 nor a square nor a prime has an odd prime factor `s` with `s^2 < n` -/
theorem exists_small_factor {n : ℕ} (hodd : n % 2 = 1) (h1 : n ≠ 1) (hp : ¬ n.Prime) :
    ∃ s, 3 ≤ s ∧ s % 2 = 1 ∧ s ∣ n ∧ s * s ≤ n := by
  refine ⟨n.minFac, ?_, ?_, Nat.minFac_dvd n, ?_⟩
  · have h2 := (Nat.minFac_prime h1).two_le
    have : n.minFac ≠ 2 := by
      intro h
      have := Nat.minFac_dvd n
      rw [h] at this; omega
    omega
  · rcases (Nat.minFac_prime h1).eq_two_or_odd with h | h
    · have := Nat.minFac_dvd n
      rw [h] at this; omega
    · exact h
  · have := Nat.minFac_sq_le_self (by omega : 0 < n) hp
    rwa [sq] at this

theorem pqSelfridge_total (bld : Build) {w : Width} (hstd : StdWidth w) {n : ℕ} (hodd : n % 2 = 1) (hw : fits w n = true) :
    ∃ P Q, pqSelfridge bld w n = .ok (P, Q) ∧
      ((P = 0 ∧ Q = 0) ∨ (P = 1 ∧ jacobiSym (1 - 4 * Q) n = -1 ∧ SmallDisc n (1 - 4 * Q).natAbs)) := by
  by_cases hp : n.Prime
  · obtain ⟨Q, a, b, c⟩ := pqSelfridge_prime bld hstd hp (by omega) hw
    exact ⟨1, Q, a, Or.inr ⟨rfl, b, c⟩⟩
  have hex : ∃ ds, 5 ≤ ds ∧ ds % 2 = 1 ∧ ds ≤ n + 13 ∧ SmallDisc n ds ∧
      ((ds = 13 ∧ IsSquare n) ∨ (jacobiSym (star ds) n = 0 ∧ ds ≠ n) ∨ jacobiSym (star ds) n = -1) := by
    by_cases hs : IsSquare n
    · exact ⟨13, by norm_num, by norm_num, by omega, Or.inl (by norm_num), Or.inl ⟨rfl, hs⟩⟩
    have h1 : n ≠ 1 := by rintro rfl; exact hs ⟨1, rfl⟩
    obtain ⟨s, a1, a2, a3, a4⟩ := exists_small_factor hodd h1 hp
    have hlt : s * s < n := lt_of_le_of_ne a4 (fun h => hs ⟨s, h.symm⟩)
    by_cases h3 : s = 3
    · subst h3
      refine ⟨9, by norm_num, by norm_num, by omega, Or.inl (by norm_num), Or.inr (Or.inl ⟨?_, ?_⟩)⟩
      · exact jacobi_zero_of_dvd (by norm_num) a3 (by omega) (by decide)
      · omega
    · refine ⟨s, by omega, a2, by nlinarith, Or.inr ?_, Or.inr (Or.inl ⟨?_, ?_⟩)⟩
      · have : s * (s - 1) ≤ s * s := Nat.mul_le_mul_left _ (by omega)
        omega
      · refine jacobi_zero_of_dvd (by omega) a3 (by omega) ?_
        unfold star; split
        · exact dvd_rfl
        · exact (Int.dvd_neg).mpr dvd_rfl
      · nlinarith
  obtain ⟨ds, b1, b2, b3, b4, b5⟩ := hex
  obtain ⟨P, Q, c1, c2⟩ := selfridge_total bld hodd hw ds (SmallDisc.fits hstd hw b4) b5 (2 * n + 10) 5 false b1 (by omega)
    (by omega) (by simp [sgn])
  exact ⟨P, Q, c1, c2.imp id fun h => ⟨h.1, h.2.1, SmallDisc.mono h.2.2 b4⟩⟩

/-! ### extra strong parameter search -/

theorem fromWord_ok {w : Width} {x : ℕ} (h : fits w x = true) : fromWord w x = .ok x := by simp [fromWord, h]

theorem bruteforce_total (bld : Build) {w : Width} {n : ℕ} (hodd : n % 2 = 1) (hw : fits w n = true) (ps : ℕ)
    (hps : fits w (ps * ps - 4) = true)
    (hstop : (jacobiSym ((ps * ps - 4 : ℕ) : ℤ) n = 0 ∧ ps * ps - 4 ≠ n) ∨ jacobiSym ((ps * ps - 4 : ℕ) : ℤ) n = -1) :
    ∀ (f p : ℕ), 3 ≤ p → p ≤ ps → ps < p + f →
    ∃ P, pBruteforceLoop bld w n f p = .ok P ∧
      (P = 0 ∨ (3 ≤ P ∧ P ≤ ps ∧ jacobiSym ((P : ℤ) ^ 2 - 4) n = -1)) := by
  intro f
  induction f with
  | zero => intro d _ h1 h2; omega
  | succ f ih =>
    intro d h2 h1 h3
    have hn : 0 < n := by omega
    have hfit : fits w (d * d - 4) = true := fits_mono (Nat.sub_le_sub_right (Nat.mul_le_mul h1 h1) 4) hps
    simp only [pBruteforceLoop, jacobi_eq hodd, fromWord_ok hfit]
    obtain ⟨v, hv, hvs⟩ := isSquare_spec bld w hn hw
    have hsq : ∃ v', (if d = 10 then NumPrime.isSquare bld w n else .ok false) = Res.ok v' := by
      by_cases h : d = 10
      · exact ⟨v, by simp [h, hv]⟩
      · exact ⟨false, by simp [h]⟩
    obtain ⟨v', hv'⟩ := hsq
    rw [hv']
    simp only [Res.bind_ok]
    cases v' with
    | true => exact ⟨0, by simp, Or.inl rfl⟩
    | false =>
      simp only [Bool.false_eq_true, if_false]
      by_cases h0 : jacobiSym ((d * d - 4 : ℕ) : ℤ) n = 0 ∧ d * d - 4 ≠ n
      · exact ⟨0, by rw [if_pos h0]; rfl, Or.inl rfl⟩
      rw [if_neg h0]
      by_cases hm : jacobiSym ((d * d - 4 : ℕ) : ℤ) n = -1
      · refine ⟨d, by rw [if_pos hm]; rfl, Or.inr ⟨h2, h1, ?_⟩⟩
        rw [← hm, Nat.cast_sub (by nlinarith)]; push_cast; ring_nf
      rw [if_neg hm]
      have hne : d ≠ ps := by
        rintro rfl
        rcases hstop with h5 | h5
        · exact h0 h5
        · exact hm h5
      exact ih (d + 1) (by omega) (by omega) (by omega)

theorem bruteforce_prime (bld : Build) {w : Width} {n : ℕ} (hp : n.Prime) (hodd : n % 2 = 1) (hw : fits w n = true)
    (ps : ℕ) (hps : fits w (ps * ps - 4) = true) (hsafe : ∀ d, 3 ≤ d → d < ps → n ∣ d * d - 4 → d * d - 4 = n)
    (hJ : jacobiSym ((ps * ps - 4 : ℕ) : ℤ) n = -1) :
    ∀ (f p : ℕ), 3 ≤ p → p ≤ ps → ps < p + f →
    ∃ P, pBruteforceLoop bld w n f p = .ok P ∧ 3 ≤ P ∧ P ≤ ps ∧ jacobiSym ((P : ℤ) ^ 2 - 4) n = -1 := by
  intro f
  induction f with
  | zero => intro d _ h1 h2; omega
  | succ f ih =>
    intro d h2 h1 h3
    have hn : 0 < n := by omega
    have hfit : fits w (d * d - 4) = true := fits_mono (Nat.sub_le_sub_right (Nat.mul_le_mul h1 h1) 4) hps
    simp only [pBruteforceLoop, jacobi_eq hodd, fromWord_ok hfit]
    have hsq : (if d = 10 then NumPrime.isSquare bld w n else .ok false) = Res.ok false := by
      by_cases h : d = 10
      · obtain ⟨v, hv, hvs⟩ := isSquare_spec bld w hn hw
        rw [if_pos h, hv]
        cases v
        · rfl
        · exact absurd (hvs.mp rfl) hp.prime.not_isSquare
      · simp [h]
    rw [hsq]
    simp only [Res.bind_ok, Bool.false_eq_true, if_false]
    have h0 : ¬ (jacobiSym ((d * d - 4 : ℕ) : ℤ) n = 0 ∧ d * d - 4 ≠ n) := by
      rintro ⟨h5, h6⟩
      haveI : Fact n.Prime := ⟨hp⟩
      have h5' := h5
      rw [← jac_of_prime, legendreSym.eq_zero_iff, ZMod.intCast_zmod_eq_zero_iff_dvd] at h5
      have h7 : n ∣ d * d - 4 := by exact_mod_cast h5
      rcases Nat.lt_or_ge d ps with h8 | h8
      · exact h6 (hsafe d h2 h8 h7)
      · have : d = ps := by omega
        subst this
        rw [hJ] at h5'; norm_num at h5'
    rw [if_neg h0]
    by_cases hm : jacobiSym ((d * d - 4 : ℕ) : ℤ) n = -1
    · refine ⟨d, by rw [if_pos hm]; rfl, h2, h1, ?_⟩
      rw [← hm, Nat.cast_sub (by nlinarith)]; push_cast; ring_nf
    rw [if_neg hm]
    have hne : d ≠ ps := by rintro rfl; exact hm hJ
    exact ih (d + 1) (by omega) (by omega) (by omega)

/-- bound on the parameter found by the extra strong search -/
def SmallParam (n p : ℕ) : Prop := p ≤ 9 ∨ p * p < n + 4

theorem SmallParam.mono {n a b : ℕ} (h : a ≤ b) (hb : SmallParam n b) : SmallParam n a := by
  rcases hb with hb | hb
  · exact Or.inl (by omega)
  · exact Or.inr (lt_of_le_of_lt (Nat.mul_le_mul h h) hb)

theorem SmallParam.fits {w : Width} (hstd : StdWidth w) {n p : ℕ} (hn : fits w n = true) (h : SmallParam n p) :
    fits w (p * p - 4) = true := by
  rcases h with h | h
  · refine std_fits hstd ?_
    have := Nat.mul_le_mul h h
    omega
  · exact fits_mono (by omega) hn

theorem pBruteforce_prime (bld : Build) {w : Width} (hstd : StdWidth w) {n : ℕ} (hp : n.Prime) (hn2 : n ≠ 2)
    (hw : fits w n = true) :
    ∃ P, pBruteforce bld w n = .ok P ∧ 3 ≤ P ∧ SmallParam n P ∧ jacobiSym ((P : ℤ) ^ 2 - 4) n = -1 := by
  have hodd : n % 2 = 1 := by
    rcases hp.eq_two_or_odd with h | h
    · exact absurd h hn2
    · exact h
  have main : ∀ ps, 3 ≤ ps → ps ≤ n + 3 → SmallParam n ps → (∀ d, 3 ≤ d → d < ps → n ∣ d * d - 4 → d * d - 4 = n) →
      jacobiSym ((ps * ps - 4 : ℕ) : ℤ) n = -1 →
      ∃ P, pBruteforce bld w n = .ok P ∧ 3 ≤ P ∧ SmallParam n P ∧ jacobiSym ((P : ℤ) ^ 2 - 4) n = -1 := by
    intro ps h3 hb hsm hsafe hJ
    obtain ⟨P, a, b, c, d⟩ := bruteforce_prime bld hp hodd hw ps (hsm.fits hstd hw) hsafe hJ (n + 10) 3 le_rfl h3 (by omega)
    exact ⟨P, a, b, hsm.mono c, d⟩
  by_cases h7 : 7 < n
  · obtain ⟨ps, a, b, b', c⟩ := exists_bruteforce_small hp h7
    refine main ps a (by omega) (b'.imp (by omega) (by omega)) ?_ c
    intro d h3 h4 h5
    exfalso
    have e : d * d - 4 = (d - 2) * (d + 2) := by
      obtain ⟨k, rfl⟩ : ∃ k, d = k + 3 := ⟨d - 3, by omega⟩
      have : (k + 3) * (k + 3) = (k + 3 - 2) * (k + 3 + 2) + 4 := by
        rw [show k + 3 - 2 = k + 1 by omega]; ring
      omega
    rw [e] at h5
    rcases (Nat.Prime.dvd_mul hp).mp h5 with h | h
    · have := Nat.le_of_dvd (by omega) h; omega
    · have := Nat.le_of_dvd (by omega) h; omega
  · have h2 := hp.two_le
    have : n = 3 ∨ n = 5 ∨ n = 7 := by
      have : n ∈ [3, 4, 5, 6, 7] := by
        simp; omega
      simp at this
      rcases this with h | h | h | h | h
      · exact Or.inl h
      · omega
      · exact Or.inr (Or.inl h)
      · omega
      · exact Or.inr (Or.inr h)
    rcases this with h | h | h
    · subst h
      exact main 3 le_rfl (by omega) (Or.inl (by omega)) (by intro d; omega) (by decide +kernel)
    · subst h
      refine main 4 (by omega) (by omega) (Or.inl (by omega)) ?_ (by decide +kernel)
      intro d h1 h2 _
      have : d = 3 := by omega
      subst this; rfl
    · subst h
      exact main 3 le_rfl (by omega) (Or.inl (by omega)) (by intro d; omega) (by decide +kernel)

theorem pBruteforce_one (bld : Build) {w : Width} (hstd : StdWidth w) : pBruteforce bld w 1 = .ok 0 := by
  rcases hstd with rfl | ⟨b, hb, rfl⟩
  · cases bld <;> decide +kernel
  · simp only [List.mem_cons, List.not_mem_nil, or_false] at hb
    rcases hb with rfl | rfl | rfl | rfl | rfl <;> cases bld <;> decide +kernel

theorem pBruteforce_total (bld : Build) {w : Width} (hstd : StdWidth w) {n : ℕ} (hodd : n % 2 = 1) (hw : fits w n = true) :
    ∃ P, pBruteforce bld w n = .ok P ∧ (P = 0 ∨ (3 ≤ P ∧ SmallParam n P ∧ jacobiSym ((P : ℤ) ^ 2 - 4) n = -1)) := by
  by_cases h1 : n = 1
  · subst h1; exact ⟨0, pBruteforce_one bld hstd, Or.inl rfl⟩
  by_cases hp : n.Prime
  · obtain ⟨P, a, b⟩ := pBruteforce_prime bld hstd hp (by omega) hw
    exact ⟨P, a, Or.inr b⟩
  obtain ⟨s, a1, a2, a3, a4⟩ := exists_small_factor hodd h1 hp
  have hex : ∃ ps, 3 ≤ ps ∧ ps ≤ n + 3 ∧ SmallParam n ps ∧ jacobiSym ((ps * ps - 4 : ℕ) : ℤ) n = 0 ∧ ps * ps - 4 ≠ n := by
    by_cases h3 : s = 3
    · subst h3
      refine ⟨4, by norm_num, by omega, Or.inl (by norm_num), ?_, by omega⟩
      exact jacobi_zero_of_dvd (by norm_num) a3 (by omega) (by decide)
    · obtain ⟨t, rfl⟩ : ∃ t, s = t + 5 := ⟨s - 5, by omega⟩
      have e : (t + 5 - 2) * (t + 5 - 2) - 4 = (t + 5) * (t + 1) := by
        rw [show t + 5 - 2 = t + 3 by omega]
        have : (t + 3) * (t + 3) = (t + 5) * (t + 1) + 4 := by ring
        omega
      refine ⟨t + 5 - 2, by omega, by rw [show t + 5 - 2 = t + 3 by omega]; nlinarith, Or.inr ?_, ?_, ?_⟩
      · rw [show t + 5 - 2 = t + 3 by omega]; nlinarith
      · rw [e]
        exact jacobi_zero_of_dvd (by omega) a3 (by omega) (by exact_mod_cast Dvd.intro _ rfl)
      · rw [e]; nlinarith
  obtain ⟨ps, b1, b2, b3, b4⟩ := hex
  obtain ⟨P, c, d⟩ := bruteforce_total bld hodd hw ps (b3.fits hstd hw) (Or.inl b4) (n + 10) 3 le_rfl b1 (by omega)
  exact ⟨P, c, d.imp id fun h => ⟨h.1, b3.mono h.2.1, h.2.2⟩⟩

end NumPrime
