import Verif.Model.NtFuncs

/-! # Model of the estimates in src/nt_funcs.rs: `prime_pi_bounds`, `nth_prime_bounds`, `prime_pi_est`,
`nth_prime_est`

Beyond the table of small primes these functions evaluate formulas in `f64` arithmetic. Here the values come from an arbitrary
`Estimates` structure; the formulas are in Model/Float.lean. Theorems say what they need from the values. -/

namespace NumPrime
open Tables

/-- the values computed in floating point, truncated to integers (`none` for a negative value, an infinity or NaN). Whether they
fit the integer type is checked by the conversion `T::from_f64`, which is modelled below. `piLo`/`piHi`:
src/nt_funcs.rs:663-693,695-704; `nthLo`/`nthHi`: src/nt_funcs.rs:742-779,781-793;
`piEst`: src/nt_funcs.rs:983-999 -/
structure Estimates where
  piLo : Nat → Option Nat
  piHi : Nat → Option Nat
  nthLo : Nat → Option Nat
  nthHi : Nat → Option Nat
  piEst : Nat → Option Nat

/-- `T::from_usize(x).unwrap()` and similar conversions -/
def unwrapFit (w : Width) (x : Nat) : Res Nat := if fits w x then .ok x else .panic

/-- `T::from_f64(v).unwrap()` -/
def unwrapFloat (w : Width) : Option Nat → Res Nat
  | none => .panic
  | some x => unwrapFit w x

/-- `prime_pi_bounds`, src/nt_funcs.rs:646-706 -/
def primePiBounds (bld : Build) (w : Width) (o : Estimates) (x : Nat) : Res (Nat × Nat) :=
  if x < 2 ^ 64 ∧ x ≤ (smallPrimes bld).getLastD 0 then do
    let n := (binarySearch (smallPrimes bld) x).upper
    let n ← unwrapFit w n
    return (n, n)
  else do
    let lo ← unwrapFloat w (o.piLo x)
    let hi ← unwrapFloat w (o.piHi x)
    return (lo, hi)

/-- `nth_prime_bounds`, src/nt_funcs.rs:725-795 -/
def nthPrimeBounds (bld : Build) (w : Width) (o : Estimates) (x : Nat) : Res (Option (Nat × Nat)) :=
  if x = 0 then .ok (some (0, 0))
  else if x ≤ (smallPrimes bld).length then do
    let p ← smallPrimeAt bld (x - 1)
    let p ← unwrapFit w p
    return some (p, p)
  else
    match o.nthLo x, o.nthHi x with
    | some lo, some hi => if fits w lo && fits w hi then .ok (some (lo, hi)) else .ok none
    | _, _ => .ok none

/-- `prime_pi_est`, src/nt_funcs.rs:962-965 (small), 972-1000 (big-table); `lo + hi` is computed in `T` -/
def primePiEst (bld : Build) (w : Width) (o : Estimates) (x : Nat) : Res Nat :=
  match bld with
  | .small => do
    let (lo, hi) ← primePiBounds .small w o x
    let s ← cadd w lo hi
    return s / 2
  | .big =>
    if x < 2 ^ 16 ∧ x ≤ (smallPrimes .big).getLastD 0 then do
      let (lo, hi) ← primePiBounds .big (some 16) o x
      if lo ≠ hi then .panic else unwrapFit w lo
    else unwrapFloat w (o.piEst x)

/-- the bisection loop of `nth_prime_est`, src/nt_funcs.rs:1014-1024; the first argument bounds the rounds -/
def nthPrimeEstLoop (bld : Build) (w : Width) (o : Estimates) (target : Nat) : Nat → Nat → Nat → Res (Option Nat)
  | 0, _, _ => .timeout
  | f + 1, lo, hi => do
    let h1 ← csub hi 1
    if lo = h1 then return some lo
    let s ← cadd w lo hi
    let x := s / 2
    let mid ← primePiEst bld w o x
    if mid < target then nthPrimeEstLoop bld w o target f x hi
    else if mid > target then nthPrimeEstLoop bld w o target f lo x
    else return some x

/-- `nth_prime_est`, src/nt_funcs.rs:1005-1026 -/
def nthPrimeEst (bld : Build) (w : Width) (o : Estimates) (target fuel : Nat) : Res (Option Nat) := do
  match ← nthPrimeBounds bld w o target with
  | none => return none
  | some (lo, hi) =>
    if lo = hi then return some lo
    nthPrimeEstLoop bld w o target fuel lo hi

end NumPrime
