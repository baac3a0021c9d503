import Mathlib.Data.Rat.Defs
import Mathlib.Algebra.Order.Ring.Unbundled.Rat

/-! # Model of the `f32` arithmetic on probabilities (src/traits.rs:46-77, src/buffer.rs:64-105)

An `f32` is a rational number, an infinity or NaN; operations round to nearest, ties to even, as IEEE 754 prescribes
for `+`, `-`, `*`, `/`. The sign of zero is not represented. -/

namespace NumPrime

/-- an `f32` value -/
inductive F32 where
  | fin (q : Rat)
  | inf (negative : Bool)
  | nan
  deriving DecidableEq

/-- `2^e` -/
def twoPow (e : Int) : Rat := if 0 ≤ e then (2 ^ e.toNat : Nat) else 1 / (2 ^ (-e).toNat : Nat)

/-- `num / den` to the nearest natural number, ties to even -/
def roundDiv (num den : Nat) : Nat :=
  if 2 * (num % den) < den then num / den
  else if den < 2 * (num % den) then num / den + 1
  else if num / den % 2 = 0 then num / den else num / den + 1

/-- the exponent `e` with `2^e ≤ q < 2^(e+1)`, for positive `q` -/
def exponentOf (q : Rat) : Int :=
  if twoPow ((q.num.natAbs.log2 : Int) - q.den.log2) ≤ q then (q.num.natAbs.log2 : Int) - q.den.log2
  else (q.num.natAbs.log2 : Int) - q.den.log2 - 1

/-- the exponent of the unit in the last place: 24 significant bits, at least `-149` -/
def ulpExponent (q : Rat) : Int := max (exponentOf q - 23) (-149)

/-- rounding of a non-negative number, without regard to overflow -/
def roundNonneg (q : Rat) : Rat :=
  let u := twoPow (ulpExponent q)
  roundDiv (q / u).num.natAbs (q / u).den * u

namespace F32

/-- rounding to `f32` -/
def round (q : Rat) : F32 :=
  if 0 ≤ q then (if roundNonneg q < 2 ^ 128 then fin (roundNonneg q) else inf false)
  else if roundNonneg (-q) < 2 ^ 128 then fin (-roundNonneg (-q)) else inf true

/-- `a * b` -/
def mul : F32 → F32 → F32
  | fin a, fin b => round (a * b)
  | nan, _ => nan
  | _, nan => nan
  | inf s, inf t => inf (s != t)
  | inf s, fin b => if b = 0 then nan else inf (s != decide (b < 0))
  | fin a, inf t => if a = 0 then nan else inf (decide (a < 0) != t)

/-- `1. - a` -/
def oneSub : F32 → F32
  | fin a => round (1 - a)
  | inf s => inf !s
  | nan => nan

/-- `0.25f32.powi(k)`: powers of two, hence exact while they are in range (`2^-149` to `2^127`). Below, the result is 0 (`2^-150`
is halfway between 0 and `2^-149`), above it is infinite. -/
def powiQuarter (k : Int) : F32 :=
  if 0 ≤ k then (if k < 75 then fin (1 / (4 ^ k.toNat : Nat)) else fin 0)
  else if -64 < k then fin (4 ^ (-k).toNat : Nat) else inf false

end F32

/-- `k as i32` for a `usize` of 64 bits: the low 32 bits in two's complement -/
def asI32 (k : Nat) : Int := Int.bmod k (2 ^ 32)

end NumPrime
