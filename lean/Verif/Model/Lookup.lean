import Verif.Model.NtFuncs
import Verif.Model.Integer
import Verif.Model.Moebius

/-! # Functions that read tables, with the bounds checks of Rust

The other models read tables with a default value and shift freely. Here every index is checked against the length of the table, every
shift of a 64 bit word against 64, and every narrowing conversion against the target type; a failed check is a panic. -/

namespace NumPrime
open Tables

/-- `table[i]` -/
def idx {α : Type} (l : List α) (i : Nat) : Res α :=
  match l[i]? with
  | some x => .ok x
  | none => .panic

/-- `word >> s` on `u64` with overflow checks -/
def shr64 (x s : Nat) : Res Nat := if s < 64 then .ok (x >>> s) else .panic

/-- `word << s` on `u64` with overflow checks: bits beyond the word are dropped -/
def shl64 (x s : Nat) : Res Nat := if s < 64 then .ok ((x <<< s) % 2 ^ 64) else .panic

/-- `x.to_u8().unwrap()`, `x.to_u16().unwrap()` -/
def toUnwrap (b x : Nat) : Res Nat := if x < 2 ^ b then .ok x else .panic

/-- `table[h]` for a table kept in chunks of 512 entries -/
def idxChunk (cs : List (List Nat)) (h : Nat) : Res Nat := do
  let c ← idx cs (h / 512)
  idx c (h % 512)

/-- `MILLER_RABIN_BASE64[h]`, src/nt_funcs.rs:139 -/
def idxBase64 (h : Nat) : Res Nat := idxChunk mrBase64Chunks h

/-- `is_prime64_miller`, src/nt_funcs.rs:98-110 (small), 112-141 (big-table) -/
def isPrime64MillerIdx : Build → Nat → Res Bool
  | .small, target =>
    if target < 2 ^ 32 then .ok (witness32.all (sprp64 target)) else .ok (witness64.all (sprp64 target))
  | .big, target =>
    if target < 2 ^ 32 then do
      let b ← idx mrBase32 (hash32 target)
      return sprp64 target b
    else if !sprp64 target 2 then .ok false
    else do
      let b ← idxBase64 (hash64 target)
      return sprp64 target (b &&& 4095) && sprp64 target (b >>> 12)

/-- the wheel check, src/nt_funcs.rs:56-59,86-89 -/
def wheelRejectsIdx (bld : Build) (target : Nat) : Res Bool :=
  let pos := target % wheelSize bld
  if pos = 0 then .ok true
  else do
    let a ← idx (wheelNext bld) pos
    let b ← idx (wheelNext bld) (pos - 1)
    return decide (a < b)

/-- `is_prime64`, src/nt_funcs.rs:42-64 (small), 70-94 (big-table) -/
def isPrime64Idx (bld : Build) (target : Nat) : Res Bool :=
  if target < 2 then .ok false
  else if target &&& 1 = 0 then .ok (target == 2)
  else if inTable bld target then .ok (binarySearch (smallPrimes bld) target).isOk
  else do
    let r ← wheelRejectsIdx bld target
    if r then return false else isPrime64MillerIdx bld target

/-- the wheel loop of `next_prime`, src/nt_funcs.rs:841-851,877-887 -/
def nextPrimeLoopIdx (bld : Build) (w : Width) (config : Option PrimalityTestConfig)
    (draws : Nat → List Nat) : Nat → Nat → Nat → Res (Option Nat)
  | 0, _, _ => .timeout
  | f + 1, t, i => do
    let offset ← idx (wheelNext bld) i
    let t := t + offset
    if !fits w t then return none
    let i := addm i offset (wheelSize bld)
    let r ← isPrimeNew bld w t config (draws t)
    if r.probably then return some t
    nextPrimeLoopIdx bld w config draws f t i

/-- the wheel loop of `prev_prime`, src/nt_funcs.rs:911-920,948-957 -/
def prevPrimeLoopIdx (bld : Build) (w : Width) (config : Option PrimalityTestConfig)
    (draws : Nat → List Nat) : Nat → Nat → Nat → Res (Option Nat)
  | 0, _, _ => .timeout
  | f + 1, t, i => do
    let offset ← idx (wheelPrev bld) i
    let t ← csub t offset
    let i := subm i offset (wheelSize bld)
    let r ← isPrimeNew bld w t config (draws t)
    if r.probably then return some t
    prevPrimeLoopIdx bld w config draws f t i

/-- the table lookup of `moebius`, src/nt_funcs.rs:590-595 -/
def moebiusLookupIdx (v : Nat) : Res Int := do
  let m ← idx moebiusOdd (v >>> 6)
  let mask ← shl64 3 (v &&& 63)
  let m ← shr64 (m &&& mask) (v &&& 63)
  return (m : Int) - 1

/-- the residue loop of the big-table build, src/integer.rs:94-99,128-133: `true` if a residue is missing in its table -/
def residueLoopB (n : Nat) : List (Nat × List Nat) → Res Bool
  | [] => .ok false
  | (m, res) :: t => do
    let rem ← toUnwrap 16 (n % m)
    let word ← idx res (rem / 64)
    let s ← shr64 word (rem % 64)
    if s &&& 1 = 0 then return true else residueLoopB n t

/-- the residue loop for squares without big tables, src/integer.rs:87-92 -/
def quadLoopS (n : Nat) : List (Nat × Nat) → Res Bool
  | [] => .ok false
  | (m, res) :: t => do
    let rem ← toUnwrap 8 (n % m)
    let s ← shr64 res (rem &&& 63)
    if s &&& 1 = 0 then return true else quadLoopS n t

/-- the residue loop for cubes without big tables, src/integer.rs:122-126 -/
def cubicLoopS (n : Nat) : List (Nat × Nat) → Res Bool
  | [] => .ok false
  | (m, res) :: t => do
    let rem ← toUnwrap 8 (n % m)
    let s ← shr64 res rem
    if s &&& 1 = 0 then return true else cubicLoopS n t

/-- `BigUint::sqrt_exact`, src/integer.rs:69-104 -/
def sqrtExactBigIdx (bld : Build) (n : Nat) : Res (Option Nat) := do
  if n = 0 then return some 0
  if n < 2 ^ 64 then sqrtExactPrim 64 n
  else
    let shift := tz n
    if shift &&& 1 = 1 then return none
    if (n >>> shift) &&& 7 ≠ 1 then return none
    let missing ← (match bld with
      | .small => quadLoopS n (quadModuliS.zip quadResidualS)
      | .big => residueLoopB n (quadModuliB.zip quadResidualB))
    if missing then return none else return nthRootExact n 2

/-- `BigUint::cbrt_exact`, src/integer.rs:106-137 -/
def cbrtExactBigIdx (bld : Build) (n : Nat) : Res (Option Nat) :=
  if n = 0 then .ok (some 0)
  else if n < 2 ^ 64 then .ok (cbrtExactPrim n)
  else
    let shift := tz n
    if shift % 3 ≠ 0 then .ok none
    else do
      let missing ← (match bld with
        | .small => cubicLoopS n (cubicModuliS.zip cubicResidualS)
        | .big => residueLoopB n (cubicModuliB.zip cubicResidualB))
      if missing then return none else return nthRootExact n 3

end NumPrime
