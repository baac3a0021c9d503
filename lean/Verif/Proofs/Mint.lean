import Verif.Model.Mint
import Verif.Proofs.Roots
import Verif.Proofs.Basic

/-! # The generic algorithms on `Mint` compute the same as on plain integers -/

namespace NumPrime
open Mint

theorem negm_mod (a m : ℕ) : negm (a % m) m = negm a m := by simp [negm]

section ops
variable {n : ℕ}

theorem reduced_odd (ho : n % 2 = 1) (v : ℕ) : reduced v n = .ok (right (v % n) n) := by simp [reduced, ho]
theorem rem_left (ho : n % 2 = 1) (v : ℕ) : rem (left v) (left n) = .ok (right (v % n) n) := by simp [rem, reduced, ho]
@[simp] theorem maddm_right (a b : ℕ) : maddm (right a n) (right b n) (left n) = .ok (right (NumPrime.addm a b n) n) := by
  simp [maddm]
@[simp] theorem msubm_right (a b : ℕ) : msubm (right a n) (right b n) (left n) = .ok (right (NumPrime.subm a b n) n) := by
  simp [msubm]
@[simp] theorem mmulm_right (a b : ℕ) : mmulm (right a n) (right b n) (left n) = .ok (right (NumPrime.mulm a b n) n) := by
  simp [mmulm]
@[simp] theorem msqm_right (a : ℕ) : msqm (right a n) (left n) = .ok (right (NumPrime.sqm a n) n) := by
  simp [msqm, unary]
@[simp] theorem mdblm_right (a : ℕ) : mdblm (right a n) (left n) = .ok (right (NumPrime.dblm a n) n) := by
  simp [mdblm, unary]
@[simp] theorem mnegm_right (a : ℕ) : mnegm (right a n) (left n) = .ok (right (NumPrime.negm a n) n) := by
  simp [mnegm, unary]
theorem mnegm_left (ho : n % 2 = 1) (a : ℕ) : mnegm (left a) (left n) = .ok (right (NumPrime.negm a n) n) := by
  simp [mnegm, unary, ho, negm_mod]
theorem mjacobi_left (ho : n % 2 = 1) (a : Mint) : mjacobi a (left n) = .ok (NumPrime.jacobi a.value n) := by
  simp [mjacobi, ho]
theorem mpowm_left (ho : n % 2 = 1) (a e : ℕ) :
    mpowm (left a) (left e) (left n) = .ok (right (NumPrime.powm a e n) n) := by simp [mpowm, ho]
@[simp] theorem eq_left (a b : ℕ) : Mint.eq (left a) (left b) = .ok (a == b) := rfl
@[simp] theorem eq_right (a b : ℕ) : Mint.eq (right a n) (right b n) = .ok (a == b) := by simp [Mint.eq]
@[simp] theorem lt_left (a b : ℕ) : Mint.lt (left a) (left b) = .ok (decide (a < b)) := rfl
@[simp] theorem lt_right (a b : ℕ) : Mint.lt (right a n) (right b n) = .ok (decide (a < b)) := by simp [Mint.lt]
@[simp] theorem plain_left (a : ℕ) : plain (left a) = .ok a := rfl
@[simp] theorem value_left (a : ℕ) : (left a).value = a := rfl
@[simp] theorem value_right (a m : ℕ) : (right a m).value = a := rfl

theorem mIsSquare_eq (bld : Build) (w : Width) (hn : 0 < n) (hw : fits w n = true) :
    Mint.isSquare (left n) = NumPrime.isSquare bld w n := by
  obtain ⟨v, hv, hs⟩ := isSquare_spec bld w hn hw
  rw [hv, Mint.isSquare, plain_left, Res.mapR_ok]
  congr 1
  rw [Bool.eq_iff_iff, hs, Option.isSome_iff_exists]
  constructor
  · rintro ⟨r, h⟩
    exact ⟨r, by rw [← pow_two]; exact ((nthRootExact_iff (by norm_num) n r).mp h).symm⟩
  · rintro ⟨r, h⟩
    exact ⟨r, (nthRootExact_iff (by norm_num) n r).mpr (by rw [pow_two, h])⟩

end ops

/-! ## Lucas sequences -/

theorem mLucasStep_eq (p q n : ℕ) (b : Bool) (s : ℕ × ℕ) :
    mLucasStep (right p n) (right q n) (left n) b (right s.1 n, right s.2 n) =
      .ok (right (lucasStep p q n b s).1 n, right (lucasStep p q n b s).2 n) := by
  cases b <;> simp [mLucasStep, lucasStep]

theorem mLucasLoop_eq (p q n k : ℕ) : ∀ i (s : ℕ × ℕ),
    mLucasLoop (right p n) (right q n) (left n) k i (right s.1 n, right s.2 n) =
      .ok (right (lucasLoop p q n k i s).1 n, right (lucasLoop p q n k i s).2 n) := by
  intro i
  induction i with
  | zero => intro s; rfl
  | succ i ih =>
    intro s
    rw [mLucasLoop, mLucasStep_eq, Res.bind_ok, ih, lucasLoop]

theorem mLucasm_eq (p : ℕ) (q : ℤ) {n : ℕ} (ho : n % 2 = 1) (k : ℕ) :
    mLucasm p q (left n) (left k) = .ok (right (lucasm p q n k).1 n, right (lucasm p q n k).2 n) := by
  have hq : (if q ≥ 0 then rem (left q.toNat) (left n) else mnegm (left (-q).toNat) (left n) : Res Mint) =
      .ok (right (reduceQ q n) n) := by
    unfold reduceQ
    split
    · rw [rem_left ho]
    · rw [mnegm_left ho]
  unfold mLucasm
  rw [hq]
  simp only [rem_left ho, Res.bind_ok, plain_left]
  have := mLucasLoop_eq (p % n) (reduceQ q n) n k (bits k) (0 % n, 1 % n)
  simp only at this
  rw [this]
  simp [lucasm]

theorem mPqSelfridgeLoop_eq (bld : Build) (w : Width) {n : ℕ} (ho : n % 2 = 1) (hw : fits w n = true) :
    ∀ f d neg, mPqSelfridgeLoop w (left n) f d neg = pqSelfridgeLoop bld w n f d neg := by
  intro f
  induction f with
  | zero => intro d neg; rfl
  | succ f ih =>
    intro d neg
    rw [mPqSelfridgeLoop, pqSelfridgeLoop]
    simp only [eq_left, Res.bind_ok]
    simp only [beq_iff_eq]
    rw [mIsSquare_eq bld w (by omega) hw]
    cases (if d = 13 then NumPrime.isSquare bld w n else .ok false : Res Bool) with
    | panic => rfl
    | timeout => rfl
    | ok sq =>
      simp only [Res.bind_ok]
      cases sq with
      | true => rfl
      | false =>
        have hsd : (if neg = true then mnegm (left d) (left n) else .ok (left d) : Res Mint) =
            .ok (if neg = true then right (negm d n) n else left d) := by
          cases neg
          · rfl
          · exact mnegm_left ho d
        rw [hsd]
        simp only [Res.bind_ok, mjacobi_left ho]
        rw [show (if neg = true then right (negm d n) n else left d).value = (if neg = true then negm d n else d) by
          cases neg <;> rfl]
        simp only [Bool.false_eq_true, if_false]
        by_cases hj : jacobi (if neg = true then negm d n else d) n = 0
        · simp only [hj, if_true, Res.bind_ok, true_and]
          by_cases hd : d = n
          · simp [hd, ih]
          · simp [hd]
        · simp only [hj, if_false, false_and, Res.bind_ok]
          simp [ih]

theorem mPqSelfridge_eq (bld : Build) (w : Width) {n : ℕ} (ho : n % 2 = 1) (hw : fits w n = true) :
    mPqSelfridge w (left n) = pqSelfridge bld w n := mPqSelfridgeLoop_eq bld w ho hw _ _ _

theorem mPBruteforceLoop_eq (bld : Build) (w : Width) {n : ℕ} (ho : n % 2 = 1) (hw : fits w n = true) :
    ∀ f p, mPBruteforceLoop w (left n) f p = pBruteforceLoop bld w n f p := by
  intro f
  induction f with
  | zero => intro p; rfl
  | succ f ih =>
    intro p
    rw [mPBruteforceLoop, pBruteforceLoop, mIsSquare_eq bld w (by omega) hw]
    cases (if p = 10 then NumPrime.isSquare bld w n else .ok false : Res Bool) with
    | panic => rfl
    | timeout => rfl
    | ok sq =>
      simp only [Res.bind_ok]
      cases sq with
      | true => rfl
      | false =>
        simp only [Bool.false_eq_true, if_false]
        cases hfw : fromWord w (p * p - 4) with
        | panic => rfl
        | timeout => rfl
        | ok d =>
        have hd : d = p * p - 4 := by
          unfold fromWord at hfw; split at hfw
          · exact (Res.ok.inj hfw).symm
          · exact absurd hfw (by simp)
        subst hd
        simp only [Res.mapR_ok, Res.bind_ok, mjacobi_left ho, value_left]
        by_cases hj : jacobi (p * p - 4) n = 0
        · simp only [hj, if_true, true_and, eq_left, Res.bind_ok]
          by_cases hd : p * p - 4 = n
          · simp [hd, ih]
          · simp [hd]
        · simp only [hj, if_false, false_and, Res.bind_ok]
          simp [ih]

theorem mPBruteforce_eq (bld : Build) (w : Width) {n : ℕ} (ho : n % 2 = 1) (hw : fits w n = true) :
    mPBruteforce w (left n) = pBruteforce bld w n := mPBruteforceLoop_eq bld w ho hw _ _

/-! ## Fermat and Miller-Rabin tests -/

theorem mIsPrp_eq {n : ℕ} (ho : n % 2 = 1) (base : ℕ) : mIsPrp (left n) (left base) = .ok (isPrp n base) := by
  have h : ¬ n < 1 := by omega
  simp [mIsPrp, isPrp, h, Mint.sub, csub, show 1 ≤ n by omega, mpowm_left ho, isOne]

/-- the result of `test_sprp` on `Mint` that corresponds to the one on plain integers -/
def SprpResult.toMint : SprpResult → MSprpResult
  | .left b => .left b
  | .right d => .right (.left d)

theorem sub_one_right {n x : ℕ} (h1 : 1 < n) (hx : x < n) (h0 : 0 < x) :
    Mint.sub (right x n) (left 1) = .ok (right (x - 1) n) := by
  have : NumPrime.subm x (1 % n) n = x - 1 := by
    unfold NumPrime.subm
    rw [Nat.mod_mod, Nat.mod_eq_of_lt h1, Nat.mod_eq_of_lt hx, show x + (n - 1) = (x - 1) + n by omega, Nat.add_mod_right,
      Nat.mod_eq_of_lt (by omega)]
  simp [Mint.sub, this]

theorem mSprpLoop_eq {n m1 mm1 : ℕ} (hn : 1 < n) (hm : m1 ≠ 0) : ∀ k x, x < n →
    mSprpLoop (left n) (right m1 n) (right mm1 n) k (right x n) = .ok (sprpLoop n m1 mm1 k x).toMint := by
  intro k
  induction k with
  | zero => intro x _; simp [mSprpLoop, sprpLoop, SprpResult.toMint]
  | succ k ih =>
    intro x hx
    rw [mSprpLoop, sprpLoop]
    simp only [msqm_right, Res.bind_ok, eq_right]
    by_cases h1 : sqm x n = m1
    · have hx0 : 0 < x := by
        rcases Nat.eq_zero_or_pos x with h | h
        · subst h; simp [sqm] at h1; omega
        · exact h
      simp [h1, sub_one_right hn hx hx0, Mint.gcd, SprpResult.toMint]
    · by_cases h2 : sqm x n = mm1
      · simp [h1, h2, SprpResult.toMint]
        rw [if_neg (by rw [← h2]; exact h1), if_neg (by rw [← h2]; exact h1)]
      · simp only [h1, h2, beq_iff_eq, if_false]
        exact ih _ (sqm_lt _ (by omega))

theorem mTestSprp_eq {w : Width} {n : ℕ} (ho : n % 2 = 1) (base : ℕ) :
    mTestSprp w (left n) (left base) = (testSprp w n base).mapR SprpResult.toMint := by
  have h1 : ¬ n < 1 := by omega
  unfold mTestSprp testSprp
  simp only [lt_left, Res.bind_ok, h1, decide_false, Bool.false_eq_true, if_false, Mint.sub, csub,
    show 1 ≤ n by omega, if_true, Res.mapR_ok, plain_left]
  cases hs : cshr w (n - 1) (trailingZeros w (n - 1)) with
  | panic => rfl
  | timeout => rfl
  | ok u =>
    have hu : u = (n - 1) >>> trailingZeros w (n - 1) := by
      unfold cshr at hs
      split at hs
      · exact (Res.ok.inj hs).symm
      · split at hs
        · exact (Res.ok.inj hs).symm
        · exact absurd hs (by simp)
    subst hu
    simp only [Res.bind_ok, rem_left ho, mnegm_right, mpowm_left ho, eq_right, Res.pure_def, Res.mapR_ok]
    unfold testSprpCore
    simp only
    by_cases hx1 : powm base ((n - 1) >>> trailingZeros w (n - 1)) n = 1 % n
    · simp [hx1, SprpResult.toMint]
    · simp only [hx1, beq_iff_eq, if_false, false_or, Res.bind_ok, eq_right]
      by_cases hx2 : powm base ((n - 1) >>> trailingZeros w (n - 1)) n = negm (1 % n) n
      · simp [hx2, SprpResult.toMint]
      · simp only [hx2, if_false]
        rcases Nat.lt_or_ge 1 n with h | h
        · exact mSprpLoop_eq h (by rw [Nat.mod_eq_of_lt h]; norm_num) _ _ (powm_lt _ _ (by omega))
        · have : n = 1 := by omega
          subst this
          exact absurd (by rw [powm_eq, Nat.mod_one, Nat.mod_one]) hx1

theorem mIsSprp_eq {w : Width} {n : ℕ} (ho : n % 2 = 1) (base : ℕ) :
    mIsSprp w (left n) (left base) = isSprp w n base := by
  rw [mIsSprp, isSprp, mTestSprp_eq ho]
  cases testSprp w n base with
  | panic => rfl
  | timeout => rfl
  | ok r => cases r <;> rfl

/-! ## Lucas tests -/

theorem mLucasParams_eq (bld : Build) (w : Width) {n : ℕ} (ho : n % 2 = 1) (hw : fits w n = true) (p : Option ℕ)
    (q : Option ℤ) : mLucasParams w (left n) p q = lucasParams bld w n p q := by
  unfold mLucasParams lucasParams
  cases p <;> cases q <;> first | rfl | exact mPqSelfridge_eq bld w ho hw

theorem mLucasDelta_eq {w : Width} {n : ℕ} (ho : n % 2 = 1) (d : ℤ) :
    mLucasDelta w (left n) d = (lucasDelta w n d).mapR left := by
  have hd : (if d > 0 then .ok (left d.toNat) else mnegm (left (-d).toNat) (left n) : Res Mint) =
      .ok (if d > 0 then left d.toNat else right (negm (-d).toNat n) n) := by
    split
    · rfl
    · exact mnegm_left ho _
  unfold mLucasDelta lucasDelta
  rw [hd]
  simp only [Res.bind_ok, mjacobi_left ho]
  rw [show (if d > 0 then left d.toNat else right (negm (-d).toNat n) n).value = reduceD d n by
    unfold reduceD; split <;> rfl]
  split
  · rfl
  · split
    · rfl
    · split
      · rfl
      · rfl

theorem mIsLprp_eq (bld : Build) (w : Width) {n : ℕ} (ho : n % 2 = 1) (hw : fits w n = true) (p : Option ℕ)
    (q : Option ℤ) : mIsLprp w (left n) p q = isLprp bld w n p q := by
  unfold mIsLprp isLprp
  have h1 : ¬ n < 1 := by omega
  simp only [lt_left, h1, decide_false, Res.bind_ok, Bool.false_eq_true, if_false, Mint.isEven, value_left, ho,
    mLucasParams_eq bld w ho hw, mLucasDelta_eq ho]
  simp only [show ((1 : ℕ) == 0) = false from rfl, Bool.false_eq_true, if_false, one_ne_zero]
  cases lucasParams bld w n p q with
  | panic => rfl
  | timeout => rfl
  | ok pq =>
    simp only [Res.bind_ok]
    split
    · rfl
    · cases lucasD (p.isSome && q.isSome) pq.1 pq.2 with
      | panic => rfl
      | timeout => rfl
      | ok d =>
      simp only [Res.bind_ok, lprpWith]
      cases lucasConv w pq.1 pq.2 d with
      | panic => rfl
      | timeout => rfl
      | ok _ =>
      cases lucasDelta w n d with
      | panic => rfl
      | timeout => rfl
      | ok delta =>
        simp [mLucasm_eq _ _ ho, isZero]

theorem mSlprpLoop_eq (n : ℕ) : ∀ k qk vd, mSlprpLoop (left n) k (right qk n) (right vd n) = .ok (slprpLoop n k qk vd) := by
  intro k
  induction k with
  | zero => intro qk vd; rfl
  | succ k ih =>
    intro qk vd
    rw [mSlprpLoop, slprpLoop]
    simp only [msqm_right, Res.bind_ok, mdblm_right, msubm_right, isZero, value_right, ih, beq_iff_eq, Res.pure_def]
    split <;> rfl

theorem mSlprpTail_eq {w : Width} {n : ℕ} (ho : n % 2 = 1) (p : ℕ) (q : ℤ) (delta : ℕ) :
    mSlprpTail w (left n) p q (left delta) = slprpTail w n p q delta := by
  unfold mSlprpTail slprpTail
  simp only [plain_left, Res.bind_ok]
  cases cshr w delta (trailingZeros w delta) with
  | panic => rfl
  | timeout => rfl
  | ok base =>
    simp only [Res.bind_ok, mLucasm_eq _ _ ho, isZero, value_right, beq_iff_eq, mpowm_left ho, msqm_right, mdblm_right,
      msubm_right, maddm_right]
    split
    · rfl
    · split
      · rfl
      · by_cases hq : q ≥ 0
        · simp only [hq, if_true, Res.bind_ok, value_right, mSlprpLoop_eq, Res.pure_def]
        · simp only [hq, if_false, Res.bind_ok, value_right, mSlprpLoop_eq, Res.pure_def]

theorem mIsSlprp_eq (bld : Build) (w : Width) {n : ℕ} (ho : n % 2 = 1) (hw : fits w n = true) (p : Option ℕ)
    (q : Option ℤ) : mIsSlprp w (left n) p q = isSlprp bld w n p q := by
  unfold mIsSlprp isSlprp
  have h1 : ¬ n < 1 := by omega
  simp only [lt_left, h1, decide_false, Res.bind_ok, Bool.false_eq_true, if_false, Mint.isEven, value_left, ho,
    mLucasParams_eq bld w ho hw, mLucasDelta_eq ho]
  simp only [show ((1 : ℕ) == 0) = false from rfl, Bool.false_eq_true, if_false, one_ne_zero]
  cases lucasParams bld w n p q with
  | panic => rfl
  | timeout => rfl
  | ok pq =>
    simp only [Res.bind_ok]
    split
    · rfl
    · cases lucasD (p.isSome && q.isSome) pq.1 pq.2 with
      | panic => rfl
      | timeout => rfl
      | ok d =>
      simp only [Res.bind_ok, slprpWith]
      cases lucasConv w pq.1 pq.2 d with
      | panic => rfl
      | timeout => rfl
      | ok _ =>
      cases lucasDelta w n d with
      | panic => rfl
      | timeout => rfl
      | ok delta => simp [mSlprpTail_eq ho]

theorem mEslprpLoop_succ (n k vd : ℕ) : mEslprpLoop (left n) (left 2) (k + 1) (right vd n) = .panic := by
  simp [mEslprpLoop, msubm]

/-- the comparison with a plain 2 and the subtraction of a plain 2 are the operations that panic -/
theorem mEslprpTail_eq {w : Width} {n : ℕ} (ho : n % 2 = 1) (p delta : ℕ) :
    mEslprpTail w (left n) p (left delta) = (cshr w delta (trailingZeros w delta) >>= fun base =>
      if (lucasm p 1 n base).1 = 0 then .panic
      else if (lucasm p 1 n base).2 = 0 then .ok true
      else if trailingZeros w delta = 1 ∨ trailingZeros w delta = 2 then .ok false
      else .panic) := by
  unfold mEslprpTail
  simp only [plain_left, Res.bind_ok]
  cases cshr w delta (trailingZeros w delta) with
  | panic => rfl
  | timeout => rfl
  | ok base =>
    simp only [Res.bind_ok, mLucasm_eq _ _ ho, isZero, value_right, beq_iff_eq]
    by_cases h1 : (lucasm p 1 n base).1 = 0
    · simp [h1, Mint.eq]
    · simp only [h1, if_false, Res.bind_ok, Bool.false_eq_true]
      by_cases h2 : (lucasm p 1 n base).2 = 0
      · simp [h2]
      · simp only [h2, if_false]
        generalize trailingZeros w delta = s
        rcases s with _ | _ | _ | s
        · rfl
        · rfl
        · rfl
        · simp [csub, mEslprpLoop_succ]

/-- the parameter of the extra strong test -/
def eslprpParam (bld : Build) (w : Width) (n : ℕ) : Option ℕ → Res ℕ
  | some sp => .ok sp
  | none => pBruteforce bld w n

theorem mIsEslprp_eq (bld : Build) (w : Width) {n : ℕ} (ho : n % 2 = 1) (hw : fits w n = true) (p : Option ℕ) :
    mIsEslprp w (left n) p = (eslprpParam bld w n p >>= fun pp =>
        if p.isNone ∧ pp = 0 then .ok false
        else lucasD p.isSome pp 1 >>= fun d => lucasConv w pp 1 d >>= fun _ => lucasDelta w n d >>= fun delta =>
          mEslprpTail w (left n) pp (left delta)) := by
  unfold mIsEslprp
  have h1 : ¬ n < 1 := by omega
  simp only [lt_left, h1, decide_false, Res.bind_ok, Bool.false_eq_true, if_false, Mint.isEven, value_left, ho,
    mPBruteforce_eq bld w ho hw, mLucasDelta_eq ho]
  simp only [show ((1 : ℕ) == 0) = false from rfl, Bool.false_eq_true, if_false]
  have hk : ∀ pp : ℕ, (if p.isNone ∧ pp = 0 then (.ok false : Res Bool)
      else lucasD p.isSome pp 1 >>= fun d => lucasConv w pp 1 d >>= fun _ => (lucasDelta w n d).mapR left >>= fun delta =>
        mEslprpTail w (left n) pp delta) =
      (if p.isNone ∧ pp = 0 then .ok false
        else lucasD p.isSome pp 1 >>= fun d => lucasConv w pp 1 d >>= fun _ => lucasDelta w n d >>= fun delta =>
          mEslprpTail w (left n) pp (left delta)) := by
    intro pp
    split
    · rfl
    · cases lucasD p.isSome pp 1 with
      | panic => rfl
      | timeout => rfl
      | ok d =>
        simp only [Res.bind_ok]
        cases lucasConv w pp 1 d with
        | panic => rfl
        | timeout => rfl
        | ok _ => cases lucasDelta w n d <;> rfl
  simp only [Res.pure_def, hk]
  cases p <;> rfl

/-- where the extra strong test on `Mint` returns, it agrees with the plain one -/
theorem mIsEslprp_or (bld : Build) (w : Width) {n : ℕ} (ho : n % 2 = 1) (hw : fits w n = true) (p : Option ℕ) :
    mIsEslprp w (left n) p = .panic ∨ mIsEslprp w (left n) p = isEslprp bld w n p := by
  rw [mIsEslprp_eq bld w ho hw]
  have hm : isEslprp bld w n p = (eslprpParam bld w n p >>= fun pp =>
        if p.isNone ∧ pp = 0 then .ok false
        else lucasD p.isSome pp 1 >>= fun d => lucasConv w pp 1 d >>= fun _ => lucasDelta w n d >>= fun delta =>
          eslprpTail w n pp delta) := by
    unfold isEslprp
    rw [if_neg (by omega), if_neg (by omega)]
    cases p <;> rfl
  rw [hm]
  cases eslprpParam bld w n p with
  | panic => exact Or.inl rfl
  | timeout => exact Or.inr rfl
  | ok pp =>
    simp only [Res.bind_ok]
    split
    · exact Or.inr rfl
    · cases lucasD p.isSome pp 1 with
      | panic => exact Or.inl rfl
      | timeout => exact Or.inr rfl
      | ok d =>
      simp only [Res.bind_ok]
      cases lucasConv w pp 1 d with
      | panic => exact Or.inl rfl
      | timeout => exact Or.inr rfl
      | ok _ =>
      simp only [Res.bind_ok]
      cases lucasDelta w n d with
      | panic => exact Or.inl rfl
      | timeout => exact Or.inr rfl
      | ok delta =>
        simp only [Res.bind_ok, mEslprpTail_eq ho, eslprpTail]
        cases cshr w delta (trailingZeros w delta) with
        | panic => exact Or.inl rfl
        | timeout => exact Or.inr rfl
        | ok base =>
          simp only [Res.bind_ok]
          by_cases h1 : (lucasm pp 1 n base).1 = 0
          · simp [h1]
          · simp only [h1, if_false, Res.bind_ok, Bool.false_eq_true]
            by_cases h2 : (lucasm pp 1 n base).2 = 0
            · simp [h2]
            · simp only [h2, if_false]
              split
              · rename_i h
                rcases h with h | h <;> rw [h] <;> exact Or.inr rfl
              · exact Or.inl rfl

/-! ## `is_prime` -/

theorem mAllSprp_eq {w : Width} {n : ℕ} (ho : n % 2 = 1) : ∀ l, mAllSprp w (left n) l = allSprp w n l := by
  intro l
  induction l with
  | nil => rfl
  | cons x t ih => rw [mAllSprp, allSprp, mIsSprp_eq ho, ih]

theorem mIsPrime_eq (bld : Build) (w : Width) (list : List ℕ) {n : ℕ} (hw : fits w n = true)
    (config : Option PrimalityTestConfig) (hc : (config.getD .default).eslprpTest = false) (draws : List ℕ) :
    mIsPrime bld w list (left n) config draws = isPrime bld w list n config draws := by
  unfold mIsPrime isPrime
  rcases Nat.mod_two_eq_zero_or_one n with h0 | ho
  · simp [isEven, h0]
  · simp only [isEven, value_left, ho, show ((1 : ℕ) == 0) = false from rfl, Bool.false_eq_true, if_false, one_ne_zero]
    by_cases hlt : n < 2 ^ 64
    · rw [if_pos hlt, show (left n).toU64 = some n from if_pos hlt]
    · rw [if_neg hlt, show (left n).toU64 = none from if_neg hlt]
      simp only [mAllSprp_eq ho, mIsSlprp_eq bld w ho hw, hc, Bool.false_eq_true, if_false]

/-! ## Pollard's rho -/

theorem sub_right {n a b : ℕ} (ha : a < n) (hba : b ≤ a) : Mint.sub (right a n) (right b n) = .ok (right (a - b) n) := by
  have : NumPrime.subm a b n = a - b := by
    unfold NumPrime.subm
    rw [Nat.mod_eq_of_lt ha, Nat.mod_eq_of_lt (lt_of_le_of_lt hba ha), show a + (n - b) = (a - b) + n by omega,
      Nat.add_mod_right, Nat.mod_eq_of_lt (by omega)]
  simp [Mint.sub, this]

/-- the corresponding states; after the backtrace the variable `s` is never read -/
def rhoRel (n : ℕ) (st : RhoState) (st' : MRhoState) : Prop :=
  st'.i = st.i ∧ st'.j = st.j ∧ st'.a = right st.a n ∧ st'.b = right st.b n ∧ st'.z = right st.z n ∧
    st'.backtrace = st.backtrace ∧ (st.backtrace = false → st'.s = right st.s n)

theorem mRhoLoop_eq {n : ℕ} (ho : n % 2 = 1) (offset : ℕ) : ∀ f st st', rhoRel n st st' → st.b < n →
    mRhoLoop (left n) (right offset n) f st' =
      .ok ((rhoLoop n offset f st).1.map left, (rhoLoop n offset f st).2) := by
  intro f
  induction f with
  | zero => rintro st st' ⟨h, -⟩ _; simp [mRhoLoop, rhoLoop, h]
  | succ f ih =>
    rintro st ⟨i', j', a', b', z', s', bt'⟩ ⟨h1, h2, h3, h4, h5, h6, h7⟩ hb
    simp only at h1 h2 h3 h4 h5 h6 h7
    subst h1 h2 h3 h4 h5 h6
    rw [mRhoLoop, rhoLoop]
    have ha : addm (sqm st.a n) offset n < n := addm_lt _ _ (by omega)
    simp only [msqm_right, Res.bind_ok, maddm_right, eq_right, beq_iff_eq]
    split
    · rfl
    · rename_i hab
      have hdiff : (do
          let g ← Mint.lt (right (addm (sqm st.a n) offset n) n) (right st.b n)
          (if g then Mint.sub (right st.b n) (right (addm (sqm st.a n) offset n) n)
            else Mint.sub (right (addm (sqm st.a n) offset n) n) (right st.b n) : Res Mint)) =
          .ok (right (if st.b > addm (sqm st.a n) offset n then st.b - addm (sqm st.a n) offset n
            else addm (sqm st.a n) offset n - st.b) n) := by
        simp only [lt_right, Res.bind_ok, decide_eq_true_eq]
        split
        · rw [sub_right hb (by omega)]
        · rw [sub_right ha (by omega)]
      simp only [lt_right, Res.bind_ok, decide_eq_true_eq] at hdiff ⊢
      rw [hdiff]
      generalize (if st.b > addm (sqm st.a n) offset n then st.b - addm (sqm st.a n) offset n
            else addm (sqm st.a n) offset n - st.b) = D
      simp only [Res.bind_ok, mmulm_right, isZero, value_right, beq_iff_eq]
      by_cases hz : mulm st.z D n = 0
      · simp only [hz, if_true]
        by_cases hbt : st.backtrace = true
        · rw [if_pos hbt, if_pos hbt]; rfl
        · rw [if_neg hbt, if_neg hbt]
          simp only [rem_left ho, Res.bind_ok]
          exact ih _ _ ⟨rfl, rfl, h7 (by simpa using hbt), rfl, rfl, rfl, by simp⟩ hb
      · simp only [hz, if_false]
        generalize mulm st.z D n = z at *
        generalize addm (sqm st.a n) offset n = a at *
        have hf : (if ((st.i + 1 == st.j || (st.i + 1) &&& 127 == 0 || st.backtrace) &&
              !(Mint.gcd (right z n) (left n)).isOne) = true then
            (Mint.eq (Mint.gcd (right z n) (left n)) (left n)).mapR (fun c => !c) else .ok false : Res Bool) =
            .ok ((st.i + 1 == st.j || (st.i + 1) &&& 127 == 0 || st.backtrace) && Nat.gcd z n != 1 && Nat.gcd z n != n) := by
          simp only [Mint.gcd, value_right, value_left, isOne, eq_left, Res.mapR_ok, bne]
          by_cases h : ((st.i + 1 == st.j || (st.i + 1) &&& 127 == 0 || st.backtrace) && !Nat.gcd z n == 1) = true
          · simp only [h, if_true, Bool.true_and]
          · rw [Bool.not_eq_true] at h
            simp only [h, Bool.false_eq_true, if_false, Bool.false_and]
        rw [hf]
        simp only [Res.bind_ok]
        generalize (st.i + 1 == st.j || (st.i + 1) &&& 127 == 0 || st.backtrace) = ck
        by_cases hr : (ck && Nat.gcd z n != 1 && Nat.gcd z n != n) = true
        · rw [if_pos hr, if_pos hr]; rfl
        · rw [if_neg hr, if_neg hr]
          by_cases hij : st.i + 1 = st.j
          · rw [if_pos hij, if_pos hij]
            refine ih _ _ ⟨rfl, rfl, rfl, rfl, rfl, rfl, ?_⟩ ha
            intro hbt
            cases ck
            · exact h7 hbt
            · rfl
          · rw [if_neg hij, if_neg hij]
            refine ih _ _ ⟨rfl, rfl, rfl, rfl, rfl, rfl, ?_⟩ hb
            intro hbt
            cases ck
            · exact h7 hbt
            · rfl

theorem mPollardRho_eq {n : ℕ} (ho : n % 2 = 1) {start : ℕ} (hs : start < n) (offset maxIter : ℕ) :
    mPollardRho (left n) (right start n) (right offset n) maxIter =
      (pollardRho n start offset maxIter).mapR (fun r => (r.1.map left, r.2)) := by
  have h0 : n ≠ 0 := by omega
  unfold mPollardRho pollardRho
  simp only [rem_left ho, Res.bind_ok, h0, if_false, Res.mapR_ok]
  exact mRhoLoop_eq ho offset maxIter _ _ ⟨rfl, rfl, rfl, rfl, rfl, rfl, fun _ => rfl⟩ hs

end NumPrime
