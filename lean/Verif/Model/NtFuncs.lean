import Verif.Model.Primality

/-! # Model of the primality part of src/nt_funcs.rs and of `PrimeBufferExt::is_prime` (src/buffer.rs)

Calls `u.is_sprp(b)` on a `SmallMint` are modelled by the plain Miller-Rabin test on naturals
(`testSprpCore`); that the Montgomery representation does not change the verdict is property C64. -/

namespace NumPrime
open Tables

/-- `u64::wrapping_mul` -/
def wmul64 (a b : Nat) : Nat := a * b % 2 ^ 64

/-- `u.is_sprp(SmallMint::from(b))` for an odd `u64` target `n > 1` -/
def sprp64 (n b : Nat) : Bool := (testSprpCore n b (tz (n - 1))).verdict

/-- the hash in `is_prime32_miller`, src/nt_funcs.rs:114-117 -/
def hash32 (target : Nat) : Nat :=
  let h := target
  let h := wmul64 ((h >>> 16) ^^^ h) 0x45d9f3b
  let h := wmul64 ((h >>> 16) ^^^ h) 0x45d9f3b
  ((h >>> 16) ^^^ h) &&& 255

/-- `is_prime32_miller` (big-table), src/nt_funcs.rs:112-120 -/
def isPrime32Miller (target : Nat) : Bool :=
  sprp64 target (mrBase32.getD (hash32 target) 0)

/-- the hash in `is_prime64_miller` (big-table), src/nt_funcs.rs:135-138 -/
def hash64 (target : Nat) : Nat :=
  let h := target
  let h := wmul64 ((h >>> 32) ^^^ h) 0x45d9f3b3335b369
  let h := wmul64 ((h >>> 32) ^^^ h) 0x3335b36945d9f3b
  ((h >>> 32) ^^^ h) &&& 16383

/-- `WITNESS32`, src/nt_funcs.rs:102 -/
def witness32 : List Nat := [2, 7, 61]
/-- `WITNESS64`, src/nt_funcs.rs:106 -/
def witness64 : List Nat := [2, 325, 9375, 28178, 450775, 9780504, 1795265022]

/-- `is_prime64_miller`, src/nt_funcs.rs:98-110 (small), 124-141 (big-table) -/
def isPrime64Miller : Build → Nat → Bool
  | .small, target =>
    if target < 2 ^ 32 then witness32.all (sprp64 target) else witness64.all (sprp64 target)
  | .big, target =>
    if target < 2 ^ 32 then isPrime32Miller target
    else if !sprp64 target 2 then false
    else
      let b := mrBase64At (hash64 target)
      sprp64 target (b &&& 4095) && sprp64 target (b >>> 12)

/-- the wheel check, src/nt_funcs.rs:56-59,86-89: `pos == 0 || WHEEL_NEXT[pos] < WHEEL_NEXT[pos - 1]`
(indices are below `WHEEL_SIZE`, the length of the table: `C22_wheel_length`) -/
def wheelRejects (bld : Build) (target : Nat) : Bool :=
  let pos := target % wheelSize bld
  pos == 0 || decide ((wheelNext bld).getD pos 0 < (wheelNext bld).getD (pos - 1) 0)

/-- the table shortcut applies: `u8::try_from(target)` succeeds (small, src/nt_funcs.rs:50) or
`target < SMALL_PRIMES_NEXT` (big-table, src/nt_funcs.rs:80) -/
def inTable : Build → Nat → Bool
  | .small, t => decide (t < 256)
  | .big, t => decide (t < smallPrimesNext .big)

/-- `is_prime64`, src/nt_funcs.rs:42-64 (small), 70-94 (big-table) -/
def isPrime64 (bld : Build) (target : Nat) : Bool :=
  if target < 2 then false
  else if target &&& 1 = 0 then target == 2
  else if inTable bld target then (binarySearch (smallPrimes bld) target).isOk
  else if wheelRejects bld target then false
  else isPrime64Miller bld target

/-! ## the generic primality test -/

/-- drawing `k` random witnesses, src/buffer.rs:73-80; `draws` is the sequence of values produced by
`rand::random()`; a value already in the witness list is drawn again. -/
def drawWitnesses : List Nat → Nat → List Nat → Res (List Nat)
  | _, 0, wl => .ok wl
  | [], _ + 1, _ => .timeout
  | d :: ds, k + 1, wl =>
    if d ∈ wl then drawWitnesses ds (k + 1) wl else drawWitnesses ds k (wl ++ [d])

/-- `witness_list.into_iter().all(|x| target.is_sprp(x))`, src/buffer.rs:83-85 (stops at the first failure) -/
def allSprp (w : Width) (target : Nat) : List Nat → Res Bool
  | [] => .ok true
  | x :: t => do
    let v ← isSprp w target x
    if v then allSprp w target t else return false

/-- the factor `1. - 0.25f32.powi(k as i32)`, src/buffer.rs:71,82 -/
def mrFactor (k : Nat) : F32 := F32.oneSub (F32.powiQuarter (asI32 k))

/-- the factor `1. - 4f32 / 15f32`, src/buffer.rs:93,99 -/
def lucasFactor : F32 := F32.oneSub (F32.round (4 / 15))

/-- the variable `probability`, src/buffer.rs:65-105: it starts with 1 and is multiplied by a factor for each configured test -/
def probability (config : PrimalityTestConfig) : F32 :=
  let p := F32.fin 1
  let p := if config.sprpTrials > 0 then p.mul (mrFactor config.sprpTrials) else p
  let p := if config.sprpRandomTrials > 0 then p.mul (mrFactor config.sprpRandomTrials) else p
  let p := if config.slprpTest then p.mul lucasFactor else p
  if config.eslprpTest then p.mul lucasFactor else p

/-- `PrimeBufferExt::is_prime`, src/buffer.rs:39-106. `list` is the prime buffer, `draws` the values
returned by the random generator. -/
def isPrime (bld : Build) (w : Width) (list : List Nat) (target : Nat)
    (config : Option PrimalityTestConfig) (draws : List Nat) : Res Primality := do
  if target % 2 = 0 then
    return (if target = 2 then .yes else .no)
  if target < 2 ^ 64 then
    return (if isPrime64 bld target then .yes else .no)
  let config := config.getD .default
  let wl ← drawWitnesses draws config.sprpRandomTrials (list.take config.sprpTrials)
  let a ← allSprp w target wl
  if !a then return .no
  let s ← (if config.slprpTest then isSlprp bld w target none none else .ok true : Res Bool)
  if !s then return .no
  let e ← (if config.eslprpTest then isEslprp bld w target none else .ok true : Res Bool)
  if !e then return .no
  return .probable (probability config)

/-- `nt_funcs::is_prime`, src/nt_funcs.rs:502-507: a fresh buffer holds the table of small primes -/
def isPrimeNew (bld : Build) (w : Width) (target : Nat) (config : Option PrimalityTestConfig)
    (draws : List Nat) : Res Primality := isPrime bld w (smallPrimes bld) target config draws

/-- `is_safe_prime`, src/nt_funcs.rs:799-815; one sequence of random draws per primality test -/
def isSafePrime (bld : Build) (w : Width) (target : Nat) (draws1 draws2 : List Nat) : Res Primality := do
  let sophieP ← isPrimeNew bld w (target >>> 1) (some .strict) draws1
  match sophieP with
  | .no => return .no
  | _ =>
    let targetP ← isPrimeNew bld w target (some .strict) draws2
    return targetP.and sophieP

/-! ## next and previous prime -/

/-- `T::from_u8/u16/u64`: `None` if the value does not fit -/
def fromNat (w : Width) (x : Nat) : Option Nat := if fits w x then some x else none

/-- `SMALL_PRIMES[i]` with the bounds check -/
def smallPrimeAt (bld : Build) (i : Nat) : Res Nat :=
  match (smallPrimes bld)[i]? with
  | some p => .ok p
  | none => .panic

/-- the wheel loop of `next_prime`, src/nt_funcs.rs:841-851,877-887. `draws t` are the random values
used by the primality test of candidate `t`; the first argument bounds the number of candidates. -/
def nextPrimeLoop (bld : Build) (w : Width) (config : Option PrimalityTestConfig)
    (draws : Nat → List Nat) : Nat → Nat → Nat → Res (Option Nat)
  | 0, _, _ => .timeout
  | f + 1, t, i => do
    let offset := (wheelNext bld).getD i 0
    let t := t + offset
    if !fits w t then return none
    let i := addm i offset (wheelSize bld)
    let r ← isPrimeNew bld w t config (draws t)
    if r.probably then return some t
    nextPrimeLoop bld w config draws f t i

/-- `next_prime`, src/nt_funcs.rs:820-852 (small), 857-888 (big-table) -/
def nextPrime (bld : Build) (w : Width) (target : Nat) (config : Option PrimalityTestConfig)
    (draws : Nat → List Nat) (fuel : Nat) : Res (Option Nat) :=
  match bld with
  | .small =>
    if target < 256 then
      match binarySearch (smallPrimes .small) target with
      | .found pos =>
        if pos + 1 = (smallPrimes .small).length then .ok (fromNat w (smallPrimesNext .small))
        else (smallPrimeAt .small (pos + 1)).mapR (fromNat w)
      | .missing pos => (smallPrimeAt .small pos).mapR (fromNat w)
    else nextPrimeLoop .small w config draws fuel target (target % wheelSize .small)
  | .big =>
    if target ≤ 255 ∨ target < (smallPrimes .big).getLastD 0 then
      match binarySearch (smallPrimes .big) target with
      | .found pos => (smallPrimeAt .big (pos + 1)).mapR (fromNat w)
      | .missing pos => (smallPrimeAt .big pos).mapR (fromNat w)
    else nextPrimeLoop .big w config draws fuel target (target % wheelSize .big)

/-- the wheel loop of `prev_prime`, src/nt_funcs.rs:911-920,948-957 -/
def prevPrimeLoop (bld : Build) (w : Width) (config : Option PrimalityTestConfig)
    (draws : Nat → List Nat) : Nat → Nat → Nat → Res (Option Nat)
  | 0, _, _ => .timeout
  | f + 1, t, i => do
    let offset := (wheelPrev bld).getD i 0
    let t ← csub t offset
    let i := subm i offset (wheelSize bld)
    let r ← isPrimeNew bld w t config (draws t)
    if r.probably then return some t
    prevPrimeLoop bld w config draws f t i

/-- `prev_prime`, src/nt_funcs.rs:893-921 (small), 926-958 (big-table) -/
def prevPrime (bld : Build) (w : Width) (target : Nat) (config : Option PrimalityTestConfig)
    (draws : Nat → List Nat) (fuel : Nat) : Res (Option Nat) :=
  if target ≤ 2 then .ok none
  else
    let small := match bld with
      | .small => decide (target < 256)
      | .big => decide (target ≤ 255) || decide (target < (smallPrimes .big).getLastD 0)
    if small then do
      let pos := match binarySearch (smallPrimes bld) target with
        | .found pos => pos
        | .missing pos => pos
      let i ← csub pos 1
      let p ← smallPrimeAt bld i
      return some p
    else prevPrimeLoop bld w config draws fuel target (target % wheelSize bld)

end NumPrime
