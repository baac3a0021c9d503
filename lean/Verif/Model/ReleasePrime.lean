import Verif.Model.ReleasePrimality

/-! # The generic primality test, `is_safe_prime`, `next_prime` and `prev_prime` in a build without overflow checks

`b` is the width of the machine integer. The tests of src/primality.rs are those of `Model/ReleasePrimality.lean`. -/

namespace NumPrime

/-- `witness_list.into_iter().all(|x| target.is_sprp(x))`, src/buffer.rs:83-85, without overflow checks -/
def allSprpRel (b target : Nat) : List Nat → Bool
  | [] => true
  | x :: t => if isSprpRel b target x then allSprpRel b target t else false

/-- `PrimeBufferExt::is_prime`, src/buffer.rs:39-106, without overflow checks -/
def isPrimeRel (bld : Build) (b : Nat) (list : List Nat) (target : Nat) (config : Option PrimalityTestConfig) (draws : List Nat) :
    Res Primality := do
  if target % 2 = 0 then
    return (if target = 2 then .yes else .no)
  if target < 2 ^ 64 then
    return (if isPrime64 bld target then .yes else .no)
  let config := config.getD .default
  let wl ← drawWitnesses draws config.sprpRandomTrials (list.take config.sprpTrials)
  if !allSprpRel b target wl then return .no
  let s ← (if config.slprpTest then isSlprpRel bld b target none none else .ok true : Res Bool)
  if !s then return .no
  let e ← (if config.eslprpTest then isEslprpRel bld b target none else .ok true : Res Bool)
  if !e then return .no
  return .probable (probability config)

/-- `nt_funcs::is_prime`, src/nt_funcs.rs:502-507, without overflow checks -/
def isPrimeNewRel (bld : Build) (b target : Nat) (config : Option PrimalityTestConfig) (draws : List Nat) : Res Primality :=
  isPrimeRel bld b (smallPrimes bld) target config draws

/-- `is_safe_prime`, src/nt_funcs.rs:799-815, without overflow checks -/
def isSafePrimeRel (bld : Build) (b target : Nat) (draws1 draws2 : List Nat) : Res Primality := do
  let sophieP ← isPrimeNewRel bld b (target >>> 1) (some .strict) draws1
  match sophieP with
  | .no => return .no
  | _ =>
    let targetP ← isPrimeNewRel bld b target (some .strict) draws2
    return targetP.and sophieP

/-- the wheel loop of `next_prime`, src/nt_funcs.rs:841-851,877-887, without overflow checks; the addition is `checked_add` -/
def nextPrimeLoopRel (bld : Build) (b : Nat) (config : Option PrimalityTestConfig) (draws : Nat → List Nat) :
    Nat → Nat → Nat → Res (Option Nat)
  | 0, _, _ => .timeout
  | f + 1, t, i => do
    let offset := (wheelNext bld).getD i 0
    let t := t + offset
    if !fits (some b) t then return none
    let i := addm i offset (wheelSize bld)
    let r ← isPrimeNewRel bld b t config (draws t)
    if r.probably then return some t
    nextPrimeLoopRel bld b config draws f t i

/-- `next_prime`, src/nt_funcs.rs:820-852 (small), 857-888 (big-table), without overflow checks; the index into the table is
checked in every build -/
def nextPrimeRel (bld : Build) (b target : Nat) (config : Option PrimalityTestConfig) (draws : Nat → List Nat) (fuel : Nat) :
    Res (Option Nat) :=
  match bld with
  | .small =>
    if target < 256 then
      match binarySearch (smallPrimes .small) target with
      | .found pos =>
        if pos + 1 = (smallPrimes .small).length then .ok (fromNat (some b) (smallPrimesNext .small))
        else (smallPrimeAt .small (pos + 1)).mapR (fromNat (some b))
      | .missing pos => (smallPrimeAt .small pos).mapR (fromNat (some b))
    else nextPrimeLoopRel .small b config draws fuel target (target % wheelSize .small)
  | .big =>
    if target ≤ 255 ∨ target < (smallPrimes .big).getLastD 0 then
      match binarySearch (smallPrimes .big) target with
      | .found pos => (smallPrimeAt .big (pos + 1)).mapR (fromNat (some b))
      | .missing pos => (smallPrimeAt .big pos).mapR (fromNat (some b))
    else nextPrimeLoopRel .big b config draws fuel target (target % wheelSize .big)

/-- the wheel loop of `prev_prime`, src/nt_funcs.rs:911-920,948-957, without overflow checks: the subtraction wraps -/
def prevPrimeLoopRel (bld : Build) (b : Nat) (config : Option PrimalityTestConfig) (draws : Nat → List Nat) :
    Nat → Nat → Nat → Res (Option Nat)
  | 0, _, _ => .timeout
  | f + 1, t, i => do
    let offset := (wheelPrev bld).getD i 0
    let t := wsub b t offset
    let i := subm i offset (wheelSize bld)
    let r ← isPrimeNewRel bld b t config (draws t)
    if r.probably then return some t
    prevPrimeLoopRel bld b config draws f t i

/-- `prev_prime`, src/nt_funcs.rs:893-921 (small), 926-958 (big-table), without overflow checks: the position minus 1 wraps, and the
index is checked in every build -/
def prevPrimeRel (bld : Build) (b target : Nat) (config : Option PrimalityTestConfig) (draws : Nat → List Nat) (fuel : Nat) :
    Res (Option Nat) :=
  if target ≤ 2 then .ok none
  else
    let small := match bld with
      | .small => decide (target < 256)
      | .big => decide (target ≤ 255) || decide (target < (smallPrimes .big).getLastD 0)
    if small then do
      let pos := match binarySearch (smallPrimes bld) target with
        | .found pos => pos
        | .missing pos => pos
      let p ← smallPrimeAt bld (wsub 64 pos 1)
      return some p
    else prevPrimeLoopRel bld b config draws fuel target (target % wheelSize bld)

end NumPrime
