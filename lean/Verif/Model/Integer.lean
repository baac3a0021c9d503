import Verif.Model.Basic

/-! # Model of src/integer.rs and of `ExactRoots` / `BitTest` in src/traits.rs -/

namespace NumPrime
open Tables

/-- `BitTest::bits`, src/integer.rs:13-16 (`BITS - leading_zeros`) and 36-38 (`BigUint::bits`) -/
def bits (n : Nat) : Nat := bitLen n

/-- `BitTest::bit` for machine integers, src/integer.rs:17-20: `self & (1 << position) > 0`; the shift
panics when `position ≥ BITS`. For `BigUint` (33-35) any position is allowed. -/
def bit (w : Width) (n position : Nat) : Res Bool :=
  match w with
  | none => .ok (n.testBit position)
  | some b => if position < b then .ok (decide (n &&& (1 <<< position) > 0)) else .panic

/-- `BitTest::trailing_zeros`, src/integer.rs:21-24 (machine integers: `BITS` for zero) and 39-45
(`BigUint`: 0 for zero) -/
def trailingZeros (w : Width) (n : Nat) : Nat := if n = 0 then w.getD 0 else tz n

/-- `ExactRoots::nth_root_exact`, src/traits.rs:185-192 -/
def nthRootExact (n e : Nat) : Option Nat :=
  let r := iroot e n
  if r ^ e = n then some r else none

/-- `sqrt_exact` for machine integers of `b` bits, src/integer.rs:48-61. (`self >> shift` panics for
`self = 0`, where `shift = BITS`.) Negative inputs of the signed types return `None` immediately and are
not represented here. -/
def sqrtExactPrim (b : Nat) (n : Nat) : Res (Option Nat) := do
  let shift := trailingZeros (some b) n
  if shift &&& 1 = 1 then return none
  let t ← cshr (some b) n shift
  if t &&& 7 ≠ 1 then return none
  return nthRootExact n 2

/-- one entry of the quadratic/cubic residue filter in the big-table build, src/integer.rs:94-99,128-133 -/
def residueBitB (res : List Nat) (r : Nat) : Nat := (res.getD (r / 64) 0 >>> (r % 64)) &&& 1

/-- `BigUint::sqrt_exact`, src/integer.rs:69-104 -/
def sqrtExactBig (bld : Build) (n : Nat) : Res (Option Nat) := do
  if n = 0 then return some 0
  if n < 2 ^ 64 then sqrtExactPrim 64 n
  else
    let shift := tz n
    if shift &&& 1 = 1 then return none
    if (n >>> shift) &&& 7 ≠ 1 then return none
    match bld with
    | .small =>
      if (quadModuliS.zip quadResidualS).any (fun (m, res) => (res >>> ((n % m) &&& 63)) &&& 1 == 0)
      then return none
      else return nthRootExact n 2
    | .big =>
      if (quadModuliB.zip quadResidualB).any (fun (m, res) => residueBitB res (n % m) == 0)
      then return none
      else return nthRootExact n 2

/-- `cbrt_exact` for machine integers: the default of src/traits.rs:196-198 -/
def cbrtExactPrim (n : Nat) : Option Nat := nthRootExact n 3

/-- `BigUint::cbrt_exact`, src/integer.rs:106-137 -/
def cbrtExactBig (bld : Build) (n : Nat) : Option Nat :=
  if n = 0 then some 0
  else if n < 2 ^ 64 then cbrtExactPrim n
  else
    let shift := tz n
    if shift % 3 ≠ 0 then none
    else match bld with
    | .small =>
      if (cubicModuliS.zip cubicResidualS).any (fun (m, res) => (res >>> (n % m)) &&& 1 == 0)
      then none
      else nthRootExact n 3
    | .big =>
      if (cubicModuliB.zip cubicResidualB).any (fun (m, res) => residueBitB res (n % m) == 0)
      then none
      else nthRootExact n 3

/-- `BigInt::sqrt_exact`, src/integer.rs:142-146 (`to_biguint` is `None` for negative numbers) -/
def sqrtExactBigInt (bld : Build) (z : Int) : Res (Option Int) :=
  if z < 0 then .ok none
  else (sqrtExactBig bld z.toNat).mapR (fun o => o.map (fun r : Nat => (r : Int)))

/-- `BigInt::cbrt_exact`, src/integer.rs:147-152 -/
def cbrtExactBigInt (bld : Build) (z : Int) : Option Int :=
  (cbrtExactBig bld z.natAbs).map (fun v : Nat => if z < 0 then -(v : Int) else v)

/-- `sqrt_exact` of the type of width `w` -/
def sqrtExact (bld : Build) (w : Width) (n : Nat) : Res (Option Nat) :=
  match w with
  | none => sqrtExactBig bld n
  | some b => sqrtExactPrim b n

/-- `cbrt_exact` of the type of width `w` -/
def cbrtExact (bld : Build) (w : Width) (n : Nat) : Option Nat :=
  match w with
  | none => cbrtExactBig bld n
  | some _ => cbrtExactPrim n

/-- `is_nth_power`, src/traits.rs:199-201 -/
def isNthPower (n e : Nat) : Bool := (nthRootExact n e).isSome

/-- `is_square`, src/traits.rs:202-204 -/
def isSquare (bld : Build) (w : Width) (n : Nat) : Res Bool :=
  (sqrtExact bld w n).mapR Option.isSome

/-- `is_cubic`, src/traits.rs:205-207 -/
def isCubic (bld : Build) (w : Width) (n : Nat) : Bool := (cbrtExact bld w n).isSome

end NumPrime
