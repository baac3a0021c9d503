import Verif.Model.Estimate
import Verif.Tables.ZetaLog
import Mathlib.Analysis.SpecialFunctions.Log.Basic

/-! # Model of the floating point code in src/nt_funcs.rs

`f64` arithmetic is modelled by real numbers with rounded operations: `FloatOps` is an arbitrary choice of the rounded
operations, `FloatOps.Accurate` the standard error model (relative error at most `2^-48`, absolute error at most `2^-1000`
near underflow, for results below the overflow threshold). IEEE double precision has relative error `2^-53`; the rest is
room for the implementation of `ln` and `exp`, whose precision Rust does not specify. NaN and infinities are not represented as
values; where the argument itself is too large for `f64` the result of the formula is not a number and `T::from_f64` gives
`None` (`finiteF`). -/

namespace NumPrime

/-- the operations of `f64` used by the crate -/
structure FloatOps where
  /-- `x as f64`, `ToPrimitive::to_f64` -/
  ofNat : ℕ → ℝ
  /-- the decimal literal `a / b` -/
  lit : ℕ → ℕ → ℝ
  add : ℝ → ℝ → ℝ
  sub : ℝ → ℝ → ℝ
  mul : ℝ → ℝ → ℝ
  div : ℝ → ℝ → ℝ
  ln : ℝ → ℝ
  exp : ℝ → ℝ

/-- `approx` is a rounded value of `exact` -/
def Rounds (exact approx : ℝ) : Prop :=
  |exact| ≤ 2 ^ 1000 → |approx - exact| ≤ |exact| / 2 ^ 48 + 1 / 2 ^ 1000

/-- the standard model of floating point arithmetic -/
structure FloatOps.Accurate (F : FloatOps) : Prop where
  ofNat : ∀ x : ℕ, Rounds x (F.ofNat x)
  lit : ∀ a b : ℕ, Rounds (a / b) (F.lit a b)
  add : ∀ x y, Rounds (x + y) (F.add x y)
  sub : ∀ x y, Rounds (x - y) (F.sub x y)
  mul : ∀ x y, Rounds (x * y) (F.mul x y)
  div : ∀ x y, y ≠ 0 → Rounds (x / y) (F.div x y)
  ln : ∀ x, 0 < x → Rounds (Real.log x) (F.ln x)
  exp : ∀ x, Rounds (Real.exp x) (F.exp x)

/-- exact arithmetic -/
noncomputable def FloatOps.exact : FloatOps where
  ofNat x := x
  lit a b := a / b
  add x y := x + y
  sub x y := x - y
  mul x y := x * y
  div x y := x / y
  ln := Real.log
  exp := Real.exp

variable (F : FloatOps)

/-- the lower bound of `prime_pi_bounds`, src/nt_funcs.rs:663-678,695-700 (for numbers beyond `u64` the code uses the formula of the
first branch, so the branches agree) -/
noncomputable def fPiLo (x : ℕ) : ℝ :=
  let n := F.ofNat x
  let ln := F.ln n
  let invln := F.div (F.lit 1 1) ln
  if x ≥ 468049 then F.div n (F.sub (F.sub ln (F.lit 1 1)) invln)
  else if x ≥ 88789 then
    F.mul (F.mul n invln) (F.add (F.lit 1 1) (F.mul invln (F.add (F.lit 1 1) (F.mul (F.lit 2 1) invln))))
  else if x ≥ 5393 then F.div n (F.sub ln (F.lit 1 1))
  else if x ≥ 599 then F.mul (F.mul n invln) (F.add (F.lit 1 1) invln)
  else F.mul n invln

/-- the upper bound of `prime_pi_bounds`, src/nt_funcs.rs:679-693,695-701 -/
noncomputable def fPiHi (x : ℕ) : ℝ :=
  let n := F.ofNat x
  let ln := F.ln n
  let invln := F.div (F.lit 1 1) ln
  if x ≥ 7398600000 then
    F.mul (F.mul n invln) (F.add (F.lit 1 1) (F.mul invln (F.add (F.lit 1 1)
      (F.mul invln (F.add (F.lit 2 1) (F.mul invln (F.lit 759 100)))))))
  else if x ≥ 2953652287 then
    F.mul (F.mul n invln) (F.add (F.lit 1 1) (F.mul invln (F.add (F.lit 1 1) (F.mul invln (F.lit 2334 1000)))))
  else if x ≥ 467345 then F.div n (F.sub (F.sub ln (F.lit 1 1)) (F.mul (F.lit 12311 10000) invln))
  else if x ≥ 29927 then
    F.mul (F.mul n invln) (F.add (F.lit 1 1) (F.mul invln (F.add (F.lit 1 1) (F.mul invln (F.lit 253816 100000)))))
  else if x ≥ 5668 then F.div n (F.sub ln (F.lit 1112 1000))
  else if x ≥ 148 then F.mul (F.mul n invln) (F.add (F.lit 1 1) (F.mul invln (F.lit 12762 10000)))
  else F.mul (F.mul (F.lit 125506 100000) n) invln

/-- `n * (ln + lnln - 1. + (lnln - c) / ln)`, c = a/b -/
noncomputable def fNthA (n ln lnln : ℝ) (a b : ℕ) : ℝ :=
  F.mul n (F.add (F.sub (F.add ln lnln) (F.lit 1 1)) (F.div (F.sub lnln (F.lit a b)) ln))

/-- `n * (ln + lnln - 1. + (lnln - 2.) / ln - (lnln * lnln - 6. * lnln + c) / (2. * ln * ln))`, c = a/b -/
noncomputable def fNthB (n ln lnln : ℝ) (a b : ℕ) : ℝ :=
  F.mul n (F.sub (F.add (F.sub (F.add ln lnln) (F.lit 1 1)) (F.div (F.sub lnln (F.lit 2 1)) ln))
    (F.div (F.add (F.sub (F.mul lnln lnln) (F.mul (F.lit 6 1) lnln)) (F.lit a b))
      (F.mul (F.mul (F.lit 2 1) ln) ln)))

/-- `n * (ln + lnln - c)`, c = a/b -/
noncomputable def fNthC (n ln lnln : ℝ) (a b : ℕ) : ℝ :=
  F.mul n (F.sub (F.add ln lnln) (F.lit a b))

/-- the lower bound of `nth_prime_bounds`, src/nt_funcs.rs:742-756,781-789 -/
noncomputable def fNthLo (x : ℕ) : ℝ :=
  let n := F.ofNat x
  let ln := F.ln n
  let lnln := F.ln ln
  if x ≥ 317200 then fNthB F n ln lnln 11321 1000
  else if x ≥ 3520 then fNthA F n ln lnln 21 10
  else fNthC F n ln lnln 1 1

/-- the upper bound of `nth_prime_bounds`, src/nt_funcs.rs:757-779,790-792 -/
noncomputable def fNthHi (x : ℕ) : ℝ :=
  let n := F.ofNat x
  let ln := F.ln n
  let lnln := F.ln ln
  if x ≥ 46254381 then fNthB F n ln lnln 10667 1000
  else if x ≥ 8009824 then fNthB F n ln lnln 10273 1000
  else if x ≥ 688383 then fNthA F n ln lnln 2 1
  else if x ≥ 178974 then fNthA F n ln lnln 195 100
  else if x ≥ 39017 then fNthC F n ln lnln 9484 10000
  else if x ≥ 27076 then fNthA F n ln lnln 18 10
  else fNthC F n ln lnln 5 10

/-- `ZETA_LOG_TABLE[k - 1]`, zero beyond the table, src/nt_funcs.rs:993 -/
def fLnZeta (k : ℕ) : ℝ :=
  if k > 64 then 0 else (Tables.zetaLogTable[k - 1]?).elim 0 fun (a, e) => F.lit a (10 ^ e)

/-- the loop of `prime_pi_est` for `k` in `[k, k + f)`, src/nt_funcs.rs:989-999; the last arguments are `lnp`, `lnfac`, `total` -/
noncomputable def fGramLoop (lnln : ℝ) : ℕ → ℕ → ℝ → ℝ → ℝ → ℝ
  | 0, _, _, _, total => total
  | f + 1, k, lnp, lnfac, total =>
    let lnp := F.add lnp lnln
    let lnk := F.ln (F.ofNat k)
    let lnfac := F.add lnfac lnk
    let t := F.sub (F.sub (F.sub lnp lnk) lnfac) (fLnZeta F k)
    if t < -4 then total else fGramLoop lnln f (k + 1) lnp lnfac (F.add total (F.exp t))

/-- `prime_pi_est` of the big-table build before the conversion to an integer, src/nt_funcs.rs:983-1000 -/
noncomputable def fPiEst (x : ℕ) : ℝ :=
  F.add (fGramLoop F (F.ln (F.ln (F.ofNat x))) 99 1 0 0 0) (F.lit 1 1)

/-- `T::from_f64(v)`: truncation towards zero, `None` for `v ≤ -1` (whether the result fits the type is checked by the
callers) -/
noncomputable def truncF (v : ℝ) : Option ℕ := if v ≤ -1 then none else some ⌊v⌋₊

/-- `T::from_f64` of a formula in the argument `x`. From `2^1024 - 2^970` on `x.to_f64()` is infinite (only possible for `BigUint`); then
`n / (ln - 1 - invln)` and `n * invln * ..` and `(lnln - 2) / ln` are NaN, the Gram series is infinite, and the conversion
gives `None`. -/
noncomputable def finiteF (x : ℕ) (v : ℝ) : Option ℕ := if x < 2 ^ 1024 - 2 ^ 970 then truncF v else none

/-- the estimates computed in floating point -/
noncomputable def floatEstimates : Estimates where
  piLo x := finiteF x (fPiLo F x)
  piHi x := finiteF x (fPiHi F x)
  nthLo x := finiteF x (fNthLo F x)
  nthHi x := finiteF x (fNthHi F x)
  piEst x := finiteF x (fPiEst F x)

end NumPrime
