import Verif.Model.Mint
import Verif.Model.Release

/-! # Further methods of `Mint`, and `Mint` without debug assertions (src/mint.rs) -/

namespace NumPrime
namespace Mint

/-- `is_odd`, src/mint.rs:354 -/
def isOdd (a : Mint) : Bool := a.value % 2 == 1

/-- `nth_root`, src/mint.rs:373-381; the integer type's root rounds down and panics for the degree 0 (contract of num-integer) -/
def mnthRoot (a : Mint) (k : Nat) : Res Mint :=
  (plain a).bind fun v => if k = 0 then .panic else .ok (left (iroot k v))

/-- `nth_root_exact`, src/mint.rs:434-440, for a degree of at least 1 -/
def mnthRootExact (a : Mint) (k : Nat) : Res (Option Mint) := (plain a).mapR fun v => (nthRootExact v k).map left

/-- `bit`, src/mint.rs:444-450 -/
def mbit (w : Width) (a : Mint) (i : Nat) : Res Bool := (plain a).bind fun v => NumPrime.bit w v i

/-- `bits`, src/mint.rs:451-457 -/
def mbits (a : Mint) : Res Nat := (plain a).mapR bitLen

/-- `trailing_zeros`, src/mint.rs:458-464 -/
def mtrailingZeros (w : Width) (a : Mint) : Res Nat := (plain a).mapR (trailingZeros w)

/-- `>>`, src/mint.rs:467-486; machine integers check the shift width -/
def mshr (w : Width) (a : Mint) (s : Nat) : Res Mint := (plain a).bind fun v => (cshr w v s).mapR left

/-- `checked_jacobi`, src/mint.rs:641-648; the integer type's symbol is `None` for even `n` (contract of num-modular) -/
def mcheckedJacobi : Mint → Mint → Res (Option Int)
  | a, left n => .ok (if n % 2 = 1 then some (NumPrime.jacobi a.value n) else none)
  | _, right _ _ => .panic

/-- `invm`, src/mint.rs:570-572,611-613 -/
def minvm : Mint → Mint → Res (Option Mint)
  | _, _ => .panic

/-- `from_u64`, src/mint.rs:392-395 -/
def fromU64 (w : Width) (v : Nat) : Option Mint := if fits w v then some (left v) else none

/-- `from_i64`, src/mint.rs:388-391 -/
def fromI64 (w : Width) (v : Int) : Option Mint := if 0 ≤ v ∧ fits w v.toNat then some (left v.toNat) else none

/-- `to_i64`, src/mint.rs:406-412 -/
def toI64 (a : Mint) : Option Nat := if a.value < 2 ^ 63 then some a.value else none

/-! ## methods forwarded to the integer type; the function of the integer type is an arbitrary argument -/

/-- `checked_legendre`, src/mint.rs:649-656; `f` is `checked_legendre` of the integer type -/
def mcheckedLegendre (f : Nat → Nat → Option Int) : Mint → Mint → Res (Option Int)
  | left a, left n => .ok (f a n)
  | right a _, left n => .ok (f a n)
  | _, right _ _ => .panic

/-- `kronecker`, src/mint.rs:657-664; `f` is `kronecker` of the integer type -/
def mkronecker (f : Nat → Nat → Int) : Mint → Mint → Res Int
  | left a, left n => .ok (f a n)
  | right a _, left n => .ok (f a n)
  | _, right _ _ => .panic

/-- `from_str_radix`, src/mint.rs:341-344; `f` is that of the integer type, with error type `ε` -/
def mfromStrRadix {ε : Type} (f : String → Nat → Except ε Nat) (s : String) (radix : Nat) : Except ε Mint := (f s radix).map left

/-- `from_f64`, src/mint.rs:384-387; `φ` is the type of floating point numbers -/
def mfromF64 {φ : Type} (f : φ → Option Nat) (x : φ) : Option Mint := (f x).map left

/-- `to_f64`, src/mint.rs:399-405 -/
def mtoF64 {φ : Type} (f : Nat → Option φ) : Mint → Option φ
  | left v => f v
  | right r _ => f r

/-- `From<T>`, src/mint.rs:23-28 -/
def fromInt (v : Nat) : Mint := left v

/-- `From<ReducedInt>`, src/mint.rs:29-34; the reduced number is given by its residue and modulus -/
def fromReduced (r m : Nat) : Mint := right r m

/-! ## without debug assertions: the comparisons of the moduli (`debug_assert!`) are not compiled -/

/-- `%`, src/mint.rs:255-314, in release mode: lines 263, 278, 293 and 308 are not compiled -/
def remRel : Mint → Mint → Res Mint
  | left a, left m => reduced a m
  | right a m, left _ => .ok (right a m)
  | _, right _ _ => .panic

/-- reduction of the first operand in the unary modular operations, src/mint.rs:557-636, in release mode -/
def unaryRel : Mint → Mint → Res (Nat × Nat)
  | left v, left m => if m % 2 = 1 then .ok (v % m, m) else .panic
  | right v m', left _ => .ok (v, m')
  | _, right _ _ => .panic

/-- `negm`, src/mint.rs:559-569,600-610, in release mode -/
def mnegmRel (a m : Mint) : Res Mint := (unaryRel a m).mapR (fun x => right (NumPrime.negm x.1 x.2) x.2)
/-- `dblm`, src/mint.rs:573-583,614-624, in release mode -/
def mdblmRel (a m : Mint) : Res Mint := (unaryRel a m).mapR (fun x => right (NumPrime.dblm x.1 x.2) x.2)
/-- `sqm`, src/mint.rs:584-594,625-635, in release mode -/
def msqmRel (a m : Mint) : Res Mint := (unaryRel a m).mapR (fun x => right (NumPrime.sqm x.1 x.2) x.2)

/-- `powm`, src/mint.rs:669-679, in release mode: line 674 is not compiled -/
def mpowmRel : Mint → Mint → Mint → Res Mint
  | left v, left e, left m => if m % 2 = 1 then .ok (right (NumPrime.powm v e m) m) else .panic
  | right v m', left e, left _ => .ok (right (NumPrime.powm v e m') m')
  | _, _, _ => .panic

/-- `partial_cmp`, src/mint.rs:95-107, in release mode: line 102 is not compiled -/
def partialCmpRel (a b : Mint) : Ordering := compare a.value b.value

end Mint
end NumPrime
