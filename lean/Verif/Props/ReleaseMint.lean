import Verif.Model.ReleaseMint
import Verif.Props.ReleasePrime
import Verif.Props.Mint

/-! # C116: the primality tests on `SmallMint` in builds without overflow checks -/

namespace NumPrime
open Spec Mint

section ops
variable {n : ℕ}

theorem remRel_left (ho : n % 2 = 1) (v : ℕ) : remRel (left v) (left n) = .ok (right (v % n) n) := by simp [remRel, reduced, ho]
theorem msqmRel_right (a : ℕ) : msqmRel (right a n) (left n) = .ok (right (NumPrime.sqm a n) n) := by simp [msqmRel, unaryRel]
theorem mdblmRel_right (a : ℕ) : mdblmRel (right a n) (left n) = .ok (right (NumPrime.dblm a n) n) := by simp [mdblmRel, unaryRel]
theorem mnegmRel_right (a : ℕ) : mnegmRel (right a n) (left n) = .ok (right (NumPrime.negm a n) n) := by simp [mnegmRel, unaryRel]
theorem mnegmRel_left (ho : n % 2 = 1) (a : ℕ) : mnegmRel (left a) (left n) = .ok (right (NumPrime.negm a n) n) := by
  simp [mnegmRel, unaryRel, ho, negm_mod]
theorem mpowmRel_left (ho : n % 2 = 1) (a e : ℕ) : mpowmRel (left a) (left e) (left n) = .ok (right (NumPrime.powm a e n) n) := by
  simp [mpowmRel, ho]
theorem ltRel_left (a b : ℕ) : ltRel (left a) (left b) = decide (a < b) := by
  simp only [ltRel, partialCmpRel, value_left]
  rw [Bool.eq_iff_iff]
  simp [Nat.compare_eq_lt]
theorem shrRel_left (b a s : ℕ) : shrRel b (left a) s = .ok (left (a >>> (s % b))) := rfl
theorem subRel_right (b a m : ℕ) (y : Mint) : subRel b (right a m) y = sub (right a m) y := by cases y <;> rfl

end ops

theorem mLucasStepRel_eq (p q n : ℕ) (b : Bool) (s : ℕ × ℕ) :
    mLucasStepRel (right p n) (right q n) (left n) b (right s.1 n, right s.2 n) =
      .ok (right (lucasStep p q n b s).1 n, right (lucasStep p q n b s).2 n) := by
  cases b <;> simp [mLucasStepRel, lucasStep, msqmRel_right, mdblmRel_right]

theorem mLucasLoopRel_eq (p q n k : ℕ) : ∀ i (s : ℕ × ℕ),
    mLucasLoopRel (right p n) (right q n) (left n) k i (right s.1 n, right s.2 n) =
      .ok (right (lucasLoop p q n k i s).1 n, right (lucasLoop p q n k i s).2 n) := by
  intro i
  induction i with
  | zero => intro s; rfl
  | succ i ih =>
    intro s
    rw [mLucasLoopRel, mLucasStepRel_eq, Res.bind_ok, ih, lucasLoop]

theorem mLucasmRel_eq (p : ℕ) (q : ℤ) {n : ℕ} (ho : n % 2 = 1) (k : ℕ) :
    mLucasmRel p q (left n) (left k) = .ok (right (lucasm p q n k).1 n, right (lucasm p q n k).2 n) := by
  have hq : (if q ≥ 0 then remRel (left q.toNat) (left n) else mnegmRel (left (-q).toNat) (left n) : Res Mint) =
      .ok (right (reduceQ q n) n) := by
    unfold reduceQ
    split
    · rw [remRel_left ho]
    · rw [mnegmRel_left ho]
  unfold mLucasmRel
  rw [hq]
  simp only [remRel_left ho, Res.bind_ok, plain_left]
  have := mLucasLoopRel_eq (p % n) (reduceQ q n) n k (bits k) (0 % n, 1 % n)
  simp only at this
  rw [this]
  simp [lucasm, mdblmRel_right]

theorem mIsPrpRel_eq {b n : ℕ} (ho : n % 2 = 1) (hn : n < 2 ^ b) (base : ℕ) :
    mIsPrpRel b (left n) (left base) = .ok (isPrp n base) := by
  have h : ¬ n < 1 := by omega
  simp [mIsPrpRel, ltRel_left, isPrp, h, subRel, wsub_of_le hn (show 1 ≤ n by omega), mpowmRel_left ho, isOne]

theorem mSprpLoopRel_eq {b n m1 mm1 : ℕ} (hn : 1 < n) (hm : m1 ≠ 0) : ∀ k x, x < n →
    mSprpLoopRel b (left n) (right m1 n) (right mm1 n) k (right x n) = .ok (sprpLoop n m1 mm1 k x).toMint := by
  intro k
  induction k with
  | zero => intro x _; simp [mSprpLoopRel, sprpLoop, SprpResult.toMint]
  | succ k ih =>
    intro x hx
    rw [mSprpLoopRel, sprpLoop]
    simp only [msqmRel_right, Res.bind_ok, eq_right]
    by_cases h1 : sqm x n = m1
    · have hx0 : 0 < x := by
        rcases Nat.eq_zero_or_pos x with h | h
        · subst h; simp [sqm] at h1; omega
        · exact h
      simp [h1, subRel_right, sub_one_right hn hx hx0, Mint.gcd, SprpResult.toMint]
    · by_cases h2 : sqm x n = mm1
      · simp [h2, SprpResult.toMint]
        rw [if_neg (by rw [← h2]; exact h1), if_neg (by rw [← h2]; exact h1)]
      · simp only [h1, h2, beq_iff_eq, if_false]
        exact ih _ (sqm_lt _ (by omega))

theorem tz_shift {b t : ℕ} (ht : t < 2 ^ b) :
    t >>> (trailingZeros (some b) t % b) = t >>> trailingZeros (some b) t := by
  rcases Nat.eq_zero_or_pos t with rfl | h0
  · simp
  · have hlt : trailingZeros (some b) t < b := by
      rw [trailingZeros, if_neg (by omega)]
      have h3 := Nat.le_of_dvd h0 (tz_spec (n := t) (by omega)).1
      exact (Nat.pow_lt_pow_iff_right (a := 2) (by norm_num)).mp (by omega)
    rw [Nat.mod_eq_of_lt hlt]

theorem mTestSprpRel_eq {b n : ℕ} (ho : n % 2 = 1) (hn : n < 2 ^ b) (base : ℕ) :
    mTestSprpRel b (left n) (left base) = .ok (testSprpRel b n base).toMint := by
  have h1 : ¬ n < 1 := by omega
  unfold mTestSprpRel testSprpRel
  simp only [ltRel_left, h1, decide_false, Bool.false_eq_true, if_false, subRel, wsub_of_le hn (show 1 ≤ n by omega), Res.bind_ok,
    plain_left, shrRel_left, tz_shift (show n - 1 < 2 ^ b by omega), remRel_left ho, mnegmRel_right, mpowmRel_left ho, eq_right,
    Res.pure_def]
  unfold testSprpCore
  simp only
  by_cases hx1 : powm base ((n - 1) >>> trailingZeros (some b) (n - 1)) n = 1 % n
  · simp [hx1, SprpResult.toMint]
  · simp only [hx1, beq_iff_eq, if_false, false_or, Res.bind_ok]
    by_cases hx2 : powm base ((n - 1) >>> trailingZeros (some b) (n - 1)) n = negm (1 % n) n
    · simp [hx2, SprpResult.toMint]
    · simp only [hx2, if_false]
      rcases Nat.lt_or_ge 1 n with h | h
      · exact mSprpLoopRel_eq h (by rw [Nat.mod_eq_of_lt h]; norm_num) _ _ (powm_lt _ _ (by omega))
      · have : n = 1 := by omega
        subst this
        exact absurd (by rw [powm_eq, Nat.mod_one, Nat.mod_one]) hx1

theorem mIsSprpRel_eq {b n : ℕ} (ho : n % 2 = 1) (hn : n < 2 ^ b) (base : ℕ) :
    mIsSprpRel b (left n) (left base) = .ok (isSprpRel b n base) := by
  rw [mIsSprpRel, isSprpRel, mTestSprpRel_eq ho hn, Res.mapR_ok]
  cases testSprpRel b n base <;> rfl

theorem mLucasDeltaRel_eq {b n : ℕ} (ho : n % 2 = 1) (d : ℤ) :
    mLucasDeltaRel b (left n) d = (lucasDeltaRel b n d).mapR left := by
  have hd : (if d > 0 then .ok (left d.toNat) else mnegmRel (left (-d).toNat) (left n) : Res Mint) =
      .ok (if d > 0 then left d.toNat else right (negm (-d).toNat n) n) := by
    split
    · rfl
    · exact mnegmRel_left ho _
  unfold mLucasDeltaRel lucasDeltaRel
  rw [hd]
  simp only [Res.bind_ok, mjacobi_left ho]
  rw [show (if d > 0 then left d.toNat else right (negm (-d).toNat n) n).value = reduceD d n by
    unfold reduceD; split <;> rfl]
  split
  · rfl
  · split
    · rfl
    · split
      · rfl
      · rfl

theorem lucasDeltaRel_lt {b n x : ℕ} {d : ℤ} (hn : n < 2 ^ b) (h : lucasDeltaRel b n d = .ok x) : x < 2 ^ b := by
  simp only [lucasDeltaRel] at h
  split at h
  · cases h; exact hn
  · split at h
    · cases h; exact Nat.mod_lt _ (by positivity)
    · split at h
      · cases h; exact Nat.mod_lt _ (by positivity)
      · cases h

theorem mIsLprpRel_eq (bld : Build) {b n : ℕ} (ho : n % 2 = 1) (hn : n < 2 ^ b) (p : Option ℕ) (q : Option ℤ) :
    mIsLprpRel b (left n) p q = isLprpRel bld b n p q := by
  unfold mIsLprpRel isLprpRel
  have h1 : ¬ n < 1 := by omega
  simp only [ltRel_left, h1, decide_false, Bool.false_eq_true, if_false, Mint.isEven, value_left, ho,
    mLucasParams_eq bld (some b) ho (fits_some.mpr hn), mLucasDeltaRel_eq ho]
  simp only [show ((1 : ℕ) == 0) = false from rfl, Bool.false_eq_true, if_false, one_ne_zero]
  cases lucasParams bld (some b) n p q with
  | panic => rfl
  | timeout => rfl
  | ok pq =>
    simp only [Res.bind_ok]
    split
    · rfl
    · cases lucasDRel (p.isSome && q.isSome) pq.1 pq.2 with
      | panic => rfl
      | timeout => rfl
      | ok d =>
      simp only [Res.bind_ok]
      cases lucasConv (some b) pq.1 pq.2 d with
      | panic => rfl
      | timeout => rfl
      | ok _ =>
      cases lucasDeltaRel b n d with
      | panic => rfl
      | timeout => rfl
      | ok delta =>
        simp [mLucasmRel_eq _ _ ho, isZero]

theorem mSlprpLoopRel_eq (n : ℕ) : ∀ k qk vd, mSlprpLoopRel (left n) k (right qk n) (right vd n) = .ok (slprpLoop n k qk vd) := by
  intro k
  induction k with
  | zero => intro qk vd; rfl
  | succ k ih =>
    intro qk vd
    rw [mSlprpLoopRel, slprpLoop]
    simp only [msqmRel_right, Res.bind_ok, mdblmRel_right, msubm_right, isZero, value_right, ih, beq_iff_eq, Res.pure_def]
    split <;> rfl

theorem mSlprpTailRel_eq {b n : ℕ} (ho : n % 2 = 1) (p : ℕ) (q : ℤ) (delta : ℕ) :
    mSlprpTailRel b (left n) p q (left delta) = .ok (slprpTailRel b n p q delta) := by
  unfold mSlprpTailRel slprpTailRel
  simp only [plain_left, Res.bind_ok, shrRel_left, mLucasmRel_eq _ _ ho, isZero, value_right, beq_iff_eq, mpowmRel_left ho,
    msqmRel_right, mdblmRel_right, msubm_right, maddm_right]
  split
  · rfl
  · split
    · rfl
    · by_cases hq : q ≥ 0
      · simp only [hq, if_true, Res.bind_ok, value_right, mSlprpLoopRel_eq, Res.pure_def]
        split <;> rfl
      · simp only [hq, if_false, Res.bind_ok, value_right, mSlprpLoopRel_eq, Res.pure_def]
        split <;> rfl

theorem mIsSlprpRel_eq (bld : Build) {b n : ℕ} (ho : n % 2 = 1) (hn : n < 2 ^ b) (p : Option ℕ) (q : Option ℤ) :
    mIsSlprpRel b (left n) p q = isSlprpRel bld b n p q := by
  unfold mIsSlprpRel isSlprpRel
  have h1 : ¬ n < 1 := by omega
  simp only [ltRel_left, h1, decide_false, Bool.false_eq_true, if_false, Mint.isEven, value_left, ho,
    mLucasParams_eq bld (some b) ho (fits_some.mpr hn), mLucasDeltaRel_eq ho]
  simp only [show ((1 : ℕ) == 0) = false from rfl, Bool.false_eq_true, if_false, one_ne_zero]
  cases lucasParams bld (some b) n p q with
  | panic => rfl
  | timeout => rfl
  | ok pq =>
    simp only [Res.bind_ok]
    split
    · rfl
    · cases lucasDRel (p.isSome && q.isSome) pq.1 pq.2 with
      | panic => rfl
      | timeout => rfl
      | ok d =>
      simp only [Res.bind_ok]
      cases lucasConv (some b) pq.1 pq.2 d with
      | panic => rfl
      | timeout => rfl
      | ok _ =>
      cases lucasDeltaRel b n d with
      | panic => rfl
      | timeout => rfl
      | ok delta => simp [mSlprpTailRel_eq ho]

theorem mEslprpLoopRel_succ (n k vd : ℕ) : mEslprpLoopRel (left n) (left 2) (k + 1) (right vd n) = .panic := by
  simp [mEslprpLoopRel, msubm, msqmRel_right]

theorem eslprp_rounds {s : ℕ} (hs : s ≤ 128) : wsub 64 s 1 - 1 = 0 ↔ s = 1 ∨ s = 2 := by
  unfold wsub
  omega

/-- in release mode too the comparison with a plain 2 and the subtraction of a plain 2 panic -/
theorem mEslprpTailRel_eq {b n : ℕ} (hb : b ≤ 128) (ho : n % 2 = 1) (p delta : ℕ) (hd : delta < 2 ^ b) :
    mEslprpTailRel b (left n) p (left delta) =
      if (lucasm p 1 n (delta >>> trailingZeros (some b) delta)).1 = 0 then .panic
      else if (lucasm p 1 n (delta >>> trailingZeros (some b) delta)).2 = 0 then .ok true
      else if trailingZeros (some b) delta = 1 ∨ trailingZeros (some b) delta = 2 then .ok false
      else .panic := by
  have hs : trailingZeros (some b) delta ≤ 128 := by
    rw [trailingZeros]
    split
    · exact hb
    · have h3 := Nat.le_of_dvd (by omega) (tz_spec (n := delta) (by omega)).1
      have := (Nat.pow_lt_pow_iff_right (a := 2) (by norm_num)).mp (lt_of_le_of_lt h3 hd)
      omega
  unfold mEslprpTailRel
  simp only [plain_left, Res.bind_ok, shrRel_left, tz_shift hd, mLucasmRel_eq _ _ ho, isZero, value_right, beq_iff_eq]
  generalize lucasm p 1 n (delta >>> trailingZeros (some b) delta) = uv
  by_cases h1 : uv.1 = 0
  · simp [h1, Mint.eq]
  · simp only [h1, if_false, Res.bind_ok, Bool.false_eq_true]
    by_cases h2 : uv.2 = 0
    · simp [h2]
    · simp only [h2, if_false]
      have hr := eslprp_rounds hs
      split
      · rename_i h
        rw [hr.mpr h]
        rfl
      · rename_i h
        obtain ⟨k, hk⟩ : ∃ k, wsub 64 (trailingZeros (some b) delta) 1 - 1 = k + 1 :=
          Nat.exists_eq_succ_of_ne_zero (fun h0 => h (hr.mp h0))
        rw [hk, mEslprpLoopRel_succ]

theorem mIsEslprpRel_eq (bld : Build) {b n : ℕ} (ho : n % 2 = 1) (hn : n < 2 ^ b) (p : Option ℕ) :
    mIsEslprpRel b (left n) p = (eslprpParam bld (some b) n p >>= fun pp =>
        if p.isNone ∧ pp = 0 then .ok false
        else lucasDRel p.isSome pp 1 >>= fun d => lucasConv (some b) pp 1 d >>= fun _ => lucasDeltaRel b n d >>= fun delta =>
          mEslprpTailRel b (left n) pp (left delta)) := by
  unfold mIsEslprpRel
  have h1 : ¬ n < 1 := by omega
  simp only [ltRel_left, h1, decide_false, Bool.false_eq_true, if_false, Mint.isEven, value_left, ho,
    mPBruteforce_eq bld (some b) ho (fits_some.mpr hn), mLucasDeltaRel_eq ho]
  simp only [show ((1 : ℕ) == 0) = false from rfl, Bool.false_eq_true, if_false]
  have hk : ∀ pp : ℕ, (if p.isNone ∧ pp = 0 then (.ok false : Res Bool)
      else lucasDRel p.isSome pp 1 >>= fun d => lucasConv (some b) pp 1 d >>= fun _ => (lucasDeltaRel b n d).mapR left >>= fun delta =>
        mEslprpTailRel b (left n) pp delta) =
      (if p.isNone ∧ pp = 0 then .ok false
        else lucasDRel p.isSome pp 1 >>= fun d => lucasConv (some b) pp 1 d >>= fun _ => lucasDeltaRel b n d >>= fun delta =>
          mEslprpTailRel b (left n) pp (left delta)) := by
    intro pp
    split
    · rfl
    · cases lucasDRel p.isSome pp 1 with
      | panic => rfl
      | timeout => rfl
      | ok d =>
        simp only [Res.bind_ok]
        cases lucasConv (some b) pp 1 d with
        | panic => rfl
        | timeout => rfl
        | ok _ => cases lucasDeltaRel b n d <;> rfl
  simp only [Res.pure_def, hk]
  cases p <;> rfl

/-- **C116** where the extra strong Lucas test of the plain number returns with overflow checks, the test of the wrapped number has the same
outcome (a verdict or the panic of C65) with and without overflow checks -/
theorem C116_eslprp_release (bld : Build) (b n : ℕ) (hb : b ≤ 128) (ho : n % 2 = 1) (hn : n < 2 ^ b) (p : Option ℕ) (v : Bool)
    (hv : isEslprp bld (some b) n p = .ok v) : mIsEslprpRel b (left n) p = mIsEslprp (some b) (left n) p := by
  rw [mIsEslprpRel_eq bld ho hn, mIsEslprp_eq bld (some b) ho (fits_some.mpr hn)]
  unfold isEslprp at hv
  rw [if_neg (by omega), if_neg (by omega)] at hv
  have hv' : (eslprpParam bld (some b) n p >>= fun pp => if p.isNone = true ∧ pp = 0 then .ok false
      else lucasD p.isSome pp 1 >>= fun d => eslprpWith (some b) n pp d) = .ok v := by cases p <;> exact hv
  rw [Res.bind_eq_ok] at hv'
  obtain ⟨pp, h1', h2⟩ := hv'
  rw [h1', Res.bind_ok, Res.bind_ok]
  split
  · rfl
  · rename_i h3
    rw [if_neg h3] at h2
    unfold eslprpWith at h2
    simp only [Res.bind_eq_ok] at h2
    obtain ⟨d, h4, u, h5, delta, h6, h7⟩ := h2
    rw [lucasDRel_of_ok h4, h4, Res.bind_ok, Res.bind_ok, h5, Res.bind_ok, Res.bind_ok, lucasDeltaRel_of_ok hn h6, h6,
      Res.bind_ok, Res.bind_ok, mEslprpTail_eq ho, mEslprpTailRel_eq hb ho _ _ (lucasDeltaRel_lt hn (lucasDeltaRel_of_ok hn h6))]
    unfold eslprpTail at h7
    rw [Res.bind_eq_ok] at h7
    obtain ⟨base, h8, -⟩ := h7
    rw [h8, Res.bind_ok, (cshr_some_ok h8).2]

/-- `is_eslprp` without explicit parameter: both builds do the same on a wrapped number -/
theorem mIsEslprpRel_default (bld : Build) {b n : ℕ} (hb : b ∈ [8, 16, 32, 64, 128]) (ho : n % 2 = 1) (hn : n < 2 ^ b) :
    mIsEslprpRel b (left n) none = mIsEslprp (some b) (left n) none := by
  obtain ⟨-, -, v, hv, -⟩ := C100_lucas_release_default bld b n hb hn
  exact C116_eslprp_release bld b n (by fin_cases hb <;> norm_num) ho hn none v hv

theorem mAllSprpRel_eq {b n : ℕ} (ho : n % 2 = 1) (hn : n < 2 ^ b) : ∀ l, mAllSprpRel b (left n) l = .ok (allSprpRel b n l) := by
  intro l
  induction l with
  | nil => rfl
  | cons x t ih =>
    rw [mAllSprpRel, allSprpRel, mIsSprpRel_eq ho hn, ih, Res.bind_ok]
    split <;> rfl

/-- **C116** without overflow checks the Fermat test, the strong test and the two Lucas tests give the same result on a wrapped number as
on the plain number, for all bases and parameters -/
theorem C116_tests_transparent (bld : Build) (b n : ℕ) (ho : n % 2 = 1) (hn : n < 2 ^ b) (base : ℕ) (p : Option ℕ) (q : Option ℤ) :
    mIsPrpRel b (left n) (left base) = .ok (isPrp n base) ∧
    mIsSprpRel b (left n) (left base) = .ok (isSprpRel b n base) ∧
    mIsLprpRel b (left n) p q = isLprpRel bld b n p q ∧
    mIsSlprpRel b (left n) p q = isSlprpRel bld b n p q :=
  ⟨mIsPrpRel_eq ho hn base, mIsSprpRel_eq ho hn base, mIsLprpRel_eq bld ho hn p q, mIsSlprpRel_eq bld ho hn p q⟩

/-- **C116** the generic primality test of a wrapped number gives the same result in builds with and without overflow checks, for every
configuration (with the extra strong Lucas test it panics in both or in neither) -/
theorem C116_is_prime_release (bld : Build) (b : ℕ) (hb : b ∈ [8, 16, 32, 64, 128]) (list : List ℕ) (n : ℕ) (hn : n < 2 ^ b)
    (config : Option PrimalityTestConfig) (draws : List ℕ) :
    mIsPrimeRel bld b list (left n) config draws = mIsPrime bld (some b) list (left n) config draws := by
  unfold mIsPrimeRel mIsPrime
  rcases Nat.mod_two_eq_zero_or_one n with h0 | ho
  · simp [isEven, h0]
  · simp only [isEven, value_left, ho, show ((1 : ℕ) == 0) = false from rfl, Bool.false_eq_true, if_false]
    by_cases hlt : n < 2 ^ 64
    · rw [show (left n).toU64 = some n from if_pos hlt]
    · rw [show (left n).toU64 = none from if_neg hlt]
      obtain ⟨-, ⟨vs, hs1, hs2⟩, -⟩ := C100_lucas_release_default bld b n hb hn
      simp only [mAllSprpRel_eq ho hn, mAllSprp_eq ho, allSprp_release hn (show n ≠ 1 by omega), mIsSlprpRel_eq bld ho hn,
        mIsSlprp_eq bld (some b) ho (fits_some.mpr hn), hs1, hs2, mIsEslprpRel_default bld hb ho hn]

/-- **C116** for a configuration without the extra strong Lucas test, the wrapped and the plain number are judged alike in release mode -/
theorem C116_is_prime_transparent (bld : Build) (b : ℕ) (hb : b ∈ [8, 16, 32, 64, 128]) (list : List ℕ) (n : ℕ) (hn : n < 2 ^ b)
    (config : Option PrimalityTestConfig) (hc : (config.getD .default).eslprpTest = false) (draws : List ℕ) :
    mIsPrimeRel bld b list (left n) config draws = isPrimeRel bld b list n config draws := by
  rw [C116_is_prime_release bld b hb list n hn, mIsPrime_eq bld (some b) list (fits_some.mpr hn) config hc,
    C102_is_prime_release bld b hb list n hn]

/-- **C116** where the extra strong Lucas test of a wrapped number returns in release mode, it agrees with the plain one -/
theorem C116_eslprp_transparent (bld : Build) (b n : ℕ) (hb : b ≤ 128) (ho : n % 2 = 1) (hn : n < 2 ^ b) (p : Option ℕ) (v : Bool)
    (h : mIsEslprpRel b (left n) p = .ok v) : isEslprpRel bld b n p = .ok v := by
  rw [mIsEslprpRel_eq bld ho hn, Res.bind_eq_ok] at h
  obtain ⟨pp, h1, h⟩ := h
  unfold isEslprpRel
  rw [if_neg (by omega), if_neg (by omega), Res.bind_eq_ok]
  refine ⟨pp, by cases p <;> exact h1, ?_⟩
  split at h
  · rename_i h2; rw [if_pos h2]; exact h
  · rename_i h2
    rw [if_neg h2]
    unfold eslprpWithRel
    simp only [Res.bind_eq_ok] at h ⊢
    obtain ⟨d, h3, u, h4, delta, h5, h6⟩ := h
    refine ⟨d, h3, u, h4, delta, h5, ?_⟩
    have hd := lucasDeltaRel_lt hn h5
    have hs : trailingZeros (some b) delta = 1 ∨ trailingZeros (some b) delta = 2 → wsub 64 (trailingZeros (some b) delta) 1 - 1 = 0 :=
      fun h => by rcases h with h | h <;> rw [h] <;> rfl
    rw [mEslprpTailRel_eq hb ho _ _ hd] at h6
    unfold eslprpTailRel
    simp only [tz_shift hd]
    split at h6
    · cases h6
    · rename_i h7
      rw [if_neg (by tauto)]
      split at h6
      · rename_i h8; rw [if_pos h8]; exact h6
      · rename_i h8
        rw [if_neg h8]
        split at h6
        · rename_i h9
          rw [hs h9]
          exact h6
        · cases h6

theorem ltRel_right (a b n : ℕ) : ltRel (right a n) (right b n) = decide (a < b) := by
  simp only [ltRel, partialCmpRel, value_right]
  rw [Bool.eq_iff_iff]
  simp [Nat.compare_eq_lt]

theorem mRhoLoopRel_eq {w n : ℕ} (ho : n % 2 = 1) (offset : ℕ) : ∀ f st st', rhoRel n st st' → st.b < n → st.i + f < 2 ^ 64 →
    mRhoLoopRel w (left n) (right offset n) f st' =
      .ok ((rhoLoop n offset f st).1.map left, (rhoLoop n offset f st).2) := by
  intro f
  induction f with
  | zero => rintro st st' ⟨h, -⟩ _ _; simp [mRhoLoopRel, rhoLoop, h]
  | succ f ih =>
    rintro st ⟨i', j', a', b', z', s', bt'⟩ ⟨h1, h2, h3, h4, h5, h6, h7⟩ hb hi
    simp only at h1 h2 h3 h4 h5 h6 h7
    subst h1 h2 h3 h4 h5 h6
    rw [mRhoLoopRel, rhoLoop]
    have hw : wadd 64 st.i 1 = st.i + 1 := by rw [wadd, Nat.mod_eq_of_lt (by omega)]
    have hi' : st.i + 1 + f < 2 ^ 64 := by omega
    have ha : addm (sqm st.a n) offset n < n := addm_lt _ _ (by omega)
    simp only [hw, msqmRel_right, Res.bind_ok, maddm_right, eq_right, beq_iff_eq]
    split
    · rfl
    · rename_i hab
      have hdiff : (if ltRel (right (addm (sqm st.a n) offset n) n) (right st.b n) then
            subRel w (right st.b n) (right (addm (sqm st.a n) offset n) n)
            else subRel w (right (addm (sqm st.a n) offset n) n) (right st.b n) : Res Mint) =
          .ok (right (if st.b > addm (sqm st.a n) offset n then st.b - addm (sqm st.a n) offset n
            else addm (sqm st.a n) offset n - st.b) n) := by
        simp only [ltRel_right, decide_eq_true_eq, subRel_right]
        split
        · rw [sub_right hb (by omega)]
        · rw [sub_right ha (by omega)]
      rw [hdiff]
      generalize (if st.b > addm (sqm st.a n) offset n then st.b - addm (sqm st.a n) offset n
            else addm (sqm st.a n) offset n - st.b) = D
      simp only [Res.bind_ok, mmulm_right, isZero, value_right, beq_iff_eq]
      by_cases hz : mulm st.z D n = 0
      · simp only [hz, if_true]
        by_cases hbt : st.backtrace = true
        · rw [if_pos hbt, if_pos hbt]; rfl
        · rw [if_neg hbt, if_neg hbt]
          simp only [remRel_left ho, Res.bind_ok]
          exact ih _ _ ⟨rfl, rfl, h7 (by simpa using hbt), rfl, rfl, rfl, by simp⟩ hb hi'
      · simp only [hz, if_false]
        generalize mulm st.z D n = z at *
        generalize addm (sqm st.a n) offset n = a at *
        have hf : (if ((st.i + 1 == st.j || (st.i + 1) &&& 127 == 0 || st.backtrace) &&
              !(Mint.gcd (right z n) (left n)).isOne) = true then
            (Mint.eq (Mint.gcd (right z n) (left n)) (left n)).mapR (fun c => !c) else .ok false : Res Bool) =
            .ok ((st.i + 1 == st.j || (st.i + 1) &&& 127 == 0 || st.backtrace) && Nat.gcd z n != 1 && Nat.gcd z n != n) := by
          simp only [Mint.gcd, value_right, value_left, isOne, eq_left, Res.mapR_ok, bne]
          by_cases h : ((st.i + 1 == st.j || (st.i + 1) &&& 127 == 0 || st.backtrace) && !Nat.gcd z n == 1) = true
          · simp only [h, if_true, Bool.true_and]
          · rw [Bool.not_eq_true] at h
            simp only [h, Bool.false_eq_true, if_false, Bool.false_and]
        rw [hf]
        simp only [Res.bind_ok]
        generalize (st.i + 1 == st.j || (st.i + 1) &&& 127 == 0 || st.backtrace) = ck
        by_cases hr : (ck && Nat.gcd z n != 1 && Nat.gcd z n != n) = true
        · rw [if_pos hr, if_pos hr]; rfl
        · rw [if_neg hr, if_neg hr]
          by_cases hij : st.i + 1 = st.j
          · rw [if_pos hij, if_pos hij]
            refine ih _ _ ⟨rfl, rfl, rfl, rfl, rfl, rfl, ?_⟩ ha hi'
            intro hbt
            cases ck
            · exact h7 hbt
            · rfl
          · rw [if_neg hij, if_neg hij]
            refine ih _ _ ⟨rfl, rfl, rfl, rfl, rfl, rfl, ?_⟩ hb hi'
            intro hbt
            cases ck
            · exact h7 hbt
            · rfl

/-- **C116** `pollard_rho` on reduced numbers returns in release mode the divisor and the count of the plain version -/
theorem C116_pollard_rho_transparent (w n start offset maxIter : ℕ) (ho : n % 2 = 1) (hs : start < n) (hm : maxIter < 2 ^ 64) :
    ∃ d i, pollardRho n start offset maxIter = .ok (d, i) ∧
      mPollardRhoRel w (left n) (right start n) (right offset n) maxIter = .ok (d.map left, i) := by
  have h0 : n ≠ 0 := by omega
  unfold mPollardRhoRel pollardRho
  simp only [remRel_left ho, Res.bind_ok, h0, if_false]
  refine ⟨_, _, rfl, ?_⟩
  exact mRhoLoopRel_eq ho offset maxIter _ _ ⟨rfl, rfl, rfl, rfl, rfl, rfl, fun _ => rfl⟩ hs (by simpa using hm)

-- a number of 65 bits as a `u128`; the largest `u128` with explicit parameters is accepted wrapped as well as plain
example (draws : List ℕ) : mIsPrimeRel .big 128 (smallPrimes .big) (left (2 ^ 64 + 13)) (some .strict) draws =
      mIsPrime .big (some 128) (smallPrimes .big) (left (2 ^ 64 + 13)) (some .strict) draws :=
  C116_is_prime_release .big 128 (by simp) _ _ (by norm_num) _ _
example : mIsLprpRel 8 (left 255) (some 1) (some 2) = .ok true ∧ mIsLprp (some 8) (left 255) (some 1) (some 2) = .panic := by
  decide +kernel
-- 8051 = 83 * 97
example : mPollardRhoRel 128 (left 8051) (right 2 8051) (right 1 8051) 100 = .ok (some (left 97), 8) := by decide +kernel

-- the wrapped test of 33 with P = 3 returns, that of 89 panics, in both kinds of builds
example : mIsEslprpRel 8 (left 33) (some 3) = mIsEslprp (some 8) (left 33) (some 3) ∧
    mIsEslprpRel 8 (left 89) (some 3) = mIsEslprp (some 8) (left 89) (some 3) :=
  ⟨C116_eslprp_release .big 8 33 (by norm_num) (by norm_num) (by norm_num) (some 3) _ (by decide +kernel : isEslprp .big (some 8) 33 (some 3) = .ok false),
   C116_eslprp_release .big 8 89 (by norm_num) (by norm_num) (by norm_num) (some 3) _ (by decide +kernel : isEslprp .big (some 8) 89 (some 3) = .ok true)⟩

end NumPrime
