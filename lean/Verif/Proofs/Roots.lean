import Verif.Model.Integer
import Verif.Proofs.Basic

/-! Exact roots. -/

namespace NumPrime
open Tables

theorem nthRootExact_iff {e : Nat} (he : e ≠ 0) (n r : Nat) : nthRootExact n e = some r ↔ r ^ e = n := by
  unfold nthRootExact
  constructor
  · intro h
    dsimp only at h
    split at h
    · rename_i h1; cases h; exact h1
    · cases h
  · rintro rfl
    simp [iroot_pow he]

theorem tz_pow {r : Nat} (hr : 0 < r) (e : Nat) : tz (r ^ e) = e * tz r := by
  obtain ⟨a, b⟩ := tz_spec hr
  apply tz_unique (by positivity)
  · rw [mul_comm, pow_mul]; exact pow_dvd_pow_of_dvd a e
  · rw [mul_comm, pow_mul, ← Nat.div_pow a]
    rw [Nat.pow_mod, b]; simp

theorem odd_sq_mod_eight {x : Nat} (h : x % 2 = 1) : x ^ 2 % 8 = 1 := by
  rw [Nat.pow_mod]
  have : x % 8 = 1 ∨ x % 8 = 3 ∨ x % 8 = 5 ∨ x % 8 = 7 := by omega
  rcases this with h | h | h | h <;> simp [h]

theorem and_seven (x : Nat) : x &&& 7 = x % 8 := Nat.and_two_pow_sub_one_eq_mod x 3
theorem and_one (x : Nat) : x &&& 1 = x % 2 := Nat.and_two_pow_sub_one_eq_mod x 1
theorem and_63 (x : Nat) : x &&& 63 = x % 64 := Nat.and_two_pow_sub_one_eq_mod x 6

theorem square_filter {r : Nat} (hr : 0 < r) :
    tz (r ^ 2) &&& 1 = 0 ∧ ((r ^ 2) >>> tz (r ^ 2)) &&& 7 = 1 := by
  obtain ⟨a, b⟩ := tz_spec hr
  rw [and_one, and_seven, tz_pow hr]
  refine ⟨by omega, ?_⟩
  rw [Nat.shiftRight_eq_div_pow, mul_comm, pow_mul, ← Nat.div_pow a]
  exact odd_sq_mod_eight b

theorem tz_lt {n b : Nat} (hn : 0 < n) (hb : n < 2 ^ b) : tz n < b := by
  have h4 := Nat.le_of_dvd hn (tz_spec hn).1
  exact (Nat.pow_lt_pow_iff_right (by norm_num : 1 < 2)).mp (lt_of_le_of_lt h4 hb)

theorem sqrtExactPrim_spec {b n : Nat} (hn : 0 < n) (hb : n < 2 ^ b) :
    ∃ o, sqrtExactPrim b n = .ok o ∧ ∀ r, o = some r ↔ r ^ 2 = n := by
  have h1 : trailingZeros (some b) n = tz n := by simp [trailingZeros, hn.ne']
  have h2 : cshr (some b) n (tz n) = .ok (n >>> tz n) := by simp [cshr, tz_lt hn hb]
  simp only [sqrtExactPrim, h1]
  by_cases c1 : tz n &&& 1 = 1
  · refine ⟨none, by simp [c1], ?_⟩
    intro r
    simp only [reduceCtorEq, false_iff]
    rintro rfl
    have hr : 0 < r := by
      rcases Nat.eq_zero_or_pos r with rfl | h
      · simp at hn
      · exact h
    have := (square_filter hr).1
    omega
  · by_cases c2 : (n >>> tz n) &&& 7 = 1
    · refine ⟨nthRootExact n 2, by simp only [c1, h2, c2, if_false, Res.bind_ok, ne_eq, not_true_eq_false, Res.pure_def], ?_⟩
      intro r
      exact nthRootExact_iff (by norm_num) n r
    · refine ⟨none, by simp [c1, h2, c2], ?_⟩
      intro r
      simp only [reduceCtorEq, false_iff]
      rintro rfl
      have hr : 0 < r := by
        rcases Nat.eq_zero_or_pos r with rfl | h
        · simp at hn
        · exact h
      exact c2 (square_filter hr).2

/-- every square residue has its bit set, big tables -/
theorem quadB_check : ∀ mr ∈ quadModuliB.zip quadResidualB, 0 < mr.1 ∧
    ∀ x < mr.1, residueBitB mr.2 (x ^ 2 % mr.1) ≠ 0 := by
  have : (quadModuliB.zip quadResidualB).all (fun mr => decide (0 < mr.1) &&
    (List.range mr.1).all (fun x => residueBitB mr.2 (x ^ 2 % mr.1) != 0)) = true := by decide +kernel
  simpa [List.all_eq_true] using this

theorem cubicB_check : ∀ mr ∈ cubicModuliB.zip cubicResidualB, 0 < mr.1 ∧
    ∀ x < mr.1, residueBitB mr.2 (x ^ 3 % mr.1) ≠ 0 := by
  have : (cubicModuliB.zip cubicResidualB).all (fun mr => decide (0 < mr.1) &&
    (List.range mr.1).all (fun x => residueBitB mr.2 (x ^ 3 % mr.1) != 0)) = true := by decide +kernel
  simpa [List.all_eq_true] using this

theorem quadS_check : ∀ mr ∈ quadModuliS.zip quadResidualS, 0 < mr.1 ∧
    ∀ x < mr.1, (mr.2 >>> ((x ^ 2 % mr.1) &&& 63)) &&& 1 ≠ 0 := by
  have : (quadModuliS.zip quadResidualS).all (fun mr => decide (0 < mr.1) &&
    (List.range mr.1).all (fun x => (mr.2 >>> ((x ^ 2 % mr.1) &&& 63)) &&& 1 != 0)) = true := by decide +kernel
  simpa [List.all_eq_true] using this

theorem cubicS_check : ∀ mr ∈ cubicModuliS.zip cubicResidualS, 0 < mr.1 ∧
    ∀ x < mr.1, (mr.2 >>> (x ^ 3 % mr.1)) &&& 1 ≠ 0 := by
  have : (cubicModuliS.zip cubicResidualS).all (fun mr => decide (0 < mr.1) &&
    (List.range mr.1).all (fun x => (mr.2 >>> (x ^ 3 % mr.1)) &&& 1 != 0)) = true := by decide +kernel
  simpa [List.all_eq_true] using this

/-- a perfect power passes a residue filter that accepts all `e`-th power residues -/
theorem filter_any_false {α : Type} (e : Nat) (l : List (Nat × α)) (bit : α → Nat → Nat)
    (h : ∀ mr ∈ l, 0 < mr.1 ∧ ∀ x < mr.1, bit mr.2 (x ^ e % mr.1) ≠ 0) (r : Nat) :
    l.any (fun mr => bit mr.2 (r ^ e % mr.1) == 0) = false := by
  rw [List.any_eq_false]
  intro mr hmr
  obtain ⟨h1, h2⟩ := h mr hmr
  have := h2 (r % mr.1) (Nat.mod_lt _ h1)
  rw [← Nat.pow_mod] at this
  simpa using this

theorem sqrtExactBig_spec (bld : Build) (n : Nat) :
    ∃ o, sqrtExactBig bld n = .ok o ∧ ∀ r, o = some r ↔ r ^ 2 = n := by
  unfold sqrtExactBig
  by_cases h0 : n = 0
  · subst h0
    refine ⟨some 0, by simp, ?_⟩
    intro r
    constructor
    · rintro h; cases h; rfl
    · intro h; have := (pow_eq_zero_iff (by norm_num)).mp h; rw [this]
  have hn : 0 < n := Nat.pos_of_ne_zero h0
  by_cases h64 : n < 2 ^ 64
  · obtain ⟨o, ho, hr⟩ := sqrtExactPrim_spec hn h64
    exact ⟨o, by simp only [h0, h64, if_false, if_true]; exact ho, hr⟩
  · simp only [h0, h64, if_false]
    have pos_of : ∀ r, r ^ 2 = n → 0 < r := by
      intro r h
      rcases Nat.eq_zero_or_pos r with rfl | h'
      · simp at h; omega
      · exact h'
    by_cases c1 : tz n &&& 1 = 1
    · refine ⟨none, by simp [c1], ?_⟩
      intro r
      simp only [reduceCtorEq, false_iff]
      intro h
      have := (square_filter (pos_of r h)).1
      rw [h] at this; omega
    by_cases c2 : (n >>> tz n) &&& 7 = 1
    swap
    · refine ⟨none, by simp [c1, c2], ?_⟩
      intro r
      simp only [reduceCtorEq, false_iff]
      intro h
      have := (square_filter (pos_of r h)).2
      rw [h] at this; exact c2 this
    cases bld with
    | small =>
      by_cases c3 : (quadModuliS.zip quadResidualS).any (fun (m, res) => (res >>> ((n % m) &&& 63)) &&& 1 == 0) = true
      · refine ⟨none, by simp only [c1, c2, c3, if_true, if_false, ne_eq, not_true_eq_false, Res.pure_def], ?_⟩
        intro r
        simp only [reduceCtorEq, false_iff]
        intro h
        have := filter_any_false 2 _ (fun res x => (res >>> (x &&& 63)) &&& 1) quadS_check r
        rw [h] at this
        exact absurd (c3.symm.trans this) (by simp)
      · refine ⟨nthRootExact n 2, by simp only [c1, c2, c3, if_false, ne_eq, not_true_eq_false, Res.pure_def, Bool.false_eq_true], ?_⟩
        exact fun r => nthRootExact_iff (by norm_num) n r
    | big =>
      by_cases c3 : (quadModuliB.zip quadResidualB).any (fun (m, res) => residueBitB res (n % m) == 0) = true
      · refine ⟨none, by simp only [c1, c2, c3, if_true, if_false, ne_eq, not_true_eq_false, Res.pure_def], ?_⟩
        intro r
        simp only [reduceCtorEq, false_iff]
        intro h
        have := filter_any_false 2 _ residueBitB quadB_check r
        rw [h] at this
        exact absurd (c3.symm.trans this) (by simp)
      · refine ⟨nthRootExact n 2, by simp only [c1, c2, c3, if_false, ne_eq, not_true_eq_false, Res.pure_def, Bool.false_eq_true], ?_⟩
        exact fun r => nthRootExact_iff (by norm_num) n r

theorem cbrtExactBig_spec (bld : Build) (n r : Nat) : cbrtExactBig bld n = some r ↔ r ^ 3 = n := by
  unfold cbrtExactBig
  by_cases h0 : n = 0
  · subst h0
    simp only [if_true]
    constructor
    · intro h; cases h; rfl
    · intro h; have := (pow_eq_zero_iff (by norm_num)).mp h; rw [this]
  by_cases h64 : n < 2 ^ 64
  · simp only [h0, h64, if_false, if_true]
    exact nthRootExact_iff (by norm_num) n r
  simp only [h0, h64, if_false]
  have pos_of : r ^ 3 = n → 0 < r := by
    intro h
    rcases Nat.eq_zero_or_pos r with rfl | h'
    · simp at h; omega
    · exact h'
  by_cases c1 : tz n % 3 ≠ 0
  · simp only [c1, if_true, ne_eq, not_false_eq_true]
    simp only [reduceCtorEq, false_iff]
    intro h
    have := tz_pow (pos_of h) 3
    rw [h] at this; omega
  simp only [c1, if_false]
  cases bld with
  | small =>
    dsimp only
    split
    · rename_i c3
      simp only [reduceCtorEq, false_iff]
      intro h
      have := filter_any_false 3 _ (fun res x => (res >>> x) &&& 1) cubicS_check r
      rw [h] at this
      exact absurd (c3.symm.trans this) (by simp)
    · exact nthRootExact_iff (by norm_num) n r
  | big =>
    dsimp only
    split
    · rename_i c3
      simp only [reduceCtorEq, false_iff]
      intro h
      have := filter_any_false 3 _ residueBitB cubicB_check r
      rw [h] at this
      exact absurd (c3.symm.trans this) (by simp)
    · exact nthRootExact_iff (by norm_num) n r

theorem sqrtExact_spec (bld : Build) (w : Width) {n : Nat} (hn : 0 < n) (hw : fits w n = true) :
    ∃ o, sqrtExact bld w n = .ok o ∧ ∀ r, o = some r ↔ r ^ 2 = n := by
  cases w with
  | none => exact sqrtExactBig_spec bld n
  | some b => exact sqrtExactPrim_spec hn (fits_some.mp hw)

theorem cbrtExact_spec (bld : Build) (w : Width) (n r : Nat) : cbrtExact bld w n = some r ↔ r ^ 3 = n := by
  cases w with
  | none => exact cbrtExactBig_spec bld n r
  | some b => exact nthRootExact_iff (by norm_num) n r

theorem isSquare_spec (bld : Build) (w : Width) {n : Nat} (hn : 0 < n) (hw : fits w n = true) :
    ∃ v, NumPrime.isSquare bld w n = .ok v ∧ (v = true ↔ IsSquare n) := by
  obtain ⟨o, ho, hr⟩ := sqrtExact_spec bld w hn hw
  refine ⟨o.isSome, by simp [NumPrime.isSquare, ho], ?_⟩
  rw [Option.isSome_iff_exists]
  constructor
  · rintro ⟨r, h⟩; exact ⟨r, by rw [← pow_two]; exact ((hr r).mp h).symm⟩
  · rintro ⟨r, h⟩; exact ⟨r, (hr r).mpr (by rw [h, pow_two])⟩

end NumPrime
