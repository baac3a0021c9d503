import Verif.Model.ReleaseBuffer
import Verif.Model.ReleasePrime

/-! # `nth_prime_est`, `nth_prime` and `prime_pi` in a build without overflow checks

The `debug_assert!`s are not compiled in. -/

namespace NumPrime
open Tables

/-- `prime_pi_est`, src/nt_funcs.rs:962-965 (small), 972-1000 (big-table), for a `b` bit type without overflow checks -/
def primePiEstRel (bld : Build) (b : Nat) (o : Estimates) (x : Nat) : Res Nat :=
  match bld with
  | .small => do
    let (lo, hi) ← primePiBounds .small (some b) o x
    return wadd b lo hi / 2
  | .big =>
    if x < 2 ^ 16 ∧ x ≤ (smallPrimes .big).getLastD 0 then do
      let (lo, _) ← primePiBounds .big (some 16) o x
      unwrapFit (some b) lo
    else unwrapFloat (some b) (o.piEst x)

/-- the bisection loop of `nth_prime_est`, src/nt_funcs.rs:1014-1024, without overflow checks -/
def nthPrimeEstLoopRel (bld : Build) (b : Nat) (o : Estimates) (target : Nat) : Nat → Nat → Nat → Res (Option Nat)
  | 0, _, _ => .timeout
  | f + 1, lo, hi => do
    if lo = wsub b hi 1 then return some lo
    let x := wadd b lo hi / 2
    let mid ← primePiEstRel bld b o x
    if mid < target then nthPrimeEstLoopRel bld b o target f x hi
    else if mid > target then nthPrimeEstLoopRel bld b o target f lo x
    else return some x

/-- `nth_prime_est`, src/nt_funcs.rs:1005-1026, for a `b` bit type without overflow checks; `nth_prime_bounds` has no integer
arithmetic that could overflow -/
def nthPrimeEstRel (bld : Build) (b : Nat) (o : Estimates) (target fuel : Nat) : Res (Option Nat) := do
  match ← nthPrimeBounds bld (some b) o target with
  | none => return none
  | some (lo, hi) =>
    if lo = hi then return some lo
    nthPrimeEstLoopRel bld b o target fuel lo hi

/-- `while pi > n`, src/buffer.rs:406-409, without overflow checks -/
def nthWalkDownRel (bld : Build) (g n : Nat) : Nat → Nat → Nat → Res (Nat × Nat)
  | 0, _, _ => .timeout
  | f + 1, x, pi =>
    if pi > n then do
      match ← prevPrimeRel bld 64 x none (fun _ => []) g with
      | none => .panic
      | some x' => nthWalkDownRel bld g n f x' (wsub 64 pi 1)
    else .ok (x, pi)

/-- `while pi < n`, src/buffer.rs:410-413, without overflow checks -/
def nthWalkUpRel (bld : Build) (g n : Nat) : Nat → Nat → Nat → Res Nat
  | 0, _, _ => .timeout
  | f + 1, x, pi =>
    if pi < n then do
      match ← nextPrimeRel bld 64 x none (fun _ => []) g with
      | none => .panic
      | some x' => nthWalkUpRel bld g n f x' (wadd 64 pi 1)
    else .ok x

/-- `nth_prime`, src/buffer.rs:391-415, without overflow checks; `pi` is the call of `prime_pi` -/
def nthPrimeWithRel (bld : Build) (o : Estimates) (g : Nat) (pi : Buf → Nat → Res (Nat × Buf)) (b : Buf) (n : Nat) :
    Res (Nat × Buf) := do
  if n < b.list.length then
    match b.list[wsub 64 n 1]? with
    | some p => return (p, b)
    | none => .panic
  else if n ≤ 4096 then
    let (l, b) ← Buf.nprimesRel bld o b n
    match l.getLast? with
    | some p => return (p, b)
    | none => .panic
  else
    match ← nthPrimeEstRel bld 64 o n g with
    | none => .panic
    | some e =>
      match ← prevPrimeRel bld 64 e none (fun _ => []) g with
      | none => .panic
      | some x => do
        let (p, b) ← pi b x
        let (x, p) ← nthWalkDownRel bld g n g x p
        let x ← nthWalkUpRel bld g n g x p
        return (x, b)

/-- `prime_pi`, src/buffer.rs:436-475, without overflow checks -/
def primePiRel (bld : Build) (o : Estimates) (g : Nat) : Nat → Buf → Nat → Res (Nat × Buf)
  | 0, _, _ => .timeout
  | f + 1, buf, limit => do
    match buf.list.getLast? with
    | none => .panic
    | some last =>
      if limit ≤ last ∨ limit ≤ 38873 then do
        let buf ← buf.reserveRel limit
        return ((binarySearch buf.list limit).upper, buf)
      else do
        let pi := primePiRel bld o g f
        let nth := nthPrimeWithRel bld o g pi
        let b := isqrt limit
        let a := isqrt b
        let c := icbrt limit
        let buf ← buf.reserveRel b
        let (a, buf) ← pi buf a
        let (b, buf) ← pi buf b
        let (c, buf) ← pi buf c
        if a = 0 then .panic
        else do
          let (phi, buf, _) ← primePhiRel nth a buf ⟨a, []⟩ limit
          let m := wmul 64 (wsub 64 (wadd 64 b a) 2) (wadd 64 (wsub 64 b a) 1)
          piOuterRel pi nth limit c (rangeStep (a + 1) (b + 1) 1) buf (wadd 64 phi (m / 2))

/-- `NaiveBuffer::nth_prime`, src/buffer.rs:391-415, without overflow checks -/
def Buf.nthPrimeRel (bld : Build) (o : Estimates) (g f : Nat) (b : Buf) (n : Nat) : Res (Nat × Buf) :=
  nthPrimeWithRel bld o g (primePiRel bld o g f) b n

end NumPrime
