import Verif.Tables.SmallPrimes
import Verif.Tables.Wheel
import Verif.Tables.MRBase32
import Verif.Tables.MRBase64
import Verif.Tables.PrimesInv
import Verif.Tables.Residues

/-! # Basic vocabulary of the model

Results with panics, checked machine arithmetic, and the contracts of the external crates used by
num-prime (std, num-integer, num-modular). Everything here is executable. -/

namespace NumPrime

/-- Outcome of running a piece of Rust code: a value, a panic (debug-build overflow, failed `unwrap`,
index out of range, `unreachable!`), or "still running when the fuel was used up". -/
inductive Res (α : Type) where
  | ok (a : α)
  | panic
  | timeout
  deriving Repr, DecidableEq

namespace Res

/-- sequencing -/
def bind {α β : Type} : Res α → (α → Res β) → Res β
  | ok a, f => f a
  | panic, _ => panic
  | timeout, _ => timeout

instance : Monad Res where
  pure := ok
  bind := bind

/-- `map` on results -/
def mapR {α β : Type} (f : α → β) : Res α → Res β
  | ok a => ok (f a)
  | panic => panic
  | timeout => timeout

end Res

/-- Integer width in bits: `some 64` is `u64`, `none` is `BigUint` (unbounded). -/
abbrev Width := Option Nat

/-- the integer types the crate is used with: `u8`, `u16`, `u32`, `u64`, `u128`, or arbitrary precision -/
def StdWidth (w : Width) : Prop := w = none ∨ ∃ b ∈ [8, 16, 32, 64, 128], w = some b

/-- does a value fit into the type -/
def fits (w : Width) (x : Nat) : Bool :=
  match w with
  | none => true
  | some b => decide (x < 2 ^ b)

/-- `a + b` with overflow check (debug build semantics) -/
def cadd (w : Width) (a b : Nat) : Res Nat := if fits w (a + b) then .ok (a + b) else .panic
/-- `a * b` with overflow check -/
def cmul (w : Width) (a b : Nat) : Res Nat := if fits w (a * b) then .ok (a * b) else .panic
/-- `a - b` with underflow check -/
def csub (a b : Nat) : Res Nat := if b ≤ a then .ok (a - b) else .panic
/-- `a / b` with division-by-zero check -/
def cdiv (a b : Nat) : Res Nat := if b = 0 then .panic else .ok (a / b)
/-- `a >> s` with the shift-width check of machine integers -/
def cshr (w : Width) (a s : Nat) : Res Nat :=
  match w with
  | none => .ok (a >>> s)
  | some b => if s < b then .ok (a >>> s) else .panic

/-- The two table configurations of the crate: cargo feature `big-table` (default) or not. -/
inductive Build where
  | big
  | small
  deriving Repr, DecidableEq

open Tables

/-- `SMALL_PRIMES` of the selected build, src/tables.rs:8-86 -/
def smallPrimes : Build → List Nat
  | .big => smallPrimesB
  | .small => smallPrimesS
/-- `SMALL_PRIMES_NEXT`, src/tables.rs:15,88 -/
def smallPrimesNext : Build → Nat
  | .big => smallPrimesNextB
  | .small => smallPrimesNextS
/-- `WHEEL_SIZE`, src/tables.rs:3094,3106 -/
def wheelSize : Build → Nat
  | .big => wheelSizeB
  | .small => wheelSizeS
/-- `WHEEL_NEXT`, src/tables.rs:3096,3108 -/
def wheelNext : Build → List Nat
  | .big => wheelNextB
  | .small => wheelNextS
/-- `WHEEL_PREV`, src/tables.rs:3100,3185 -/
def wheelPrev : Build → List Nat
  | .big => wheelPrevB
  | .small => wheelPrevS

/-! ## std -/

/-- Result of `slice::binary_search` -/
inductive Search where
  | found (pos : Nat)
  | missing (pos : Nat)
  deriving Repr, DecidableEq

/-- Contract of `binary_search` on a strictly sorted slice: position of the element, or the
insertion point. (external: std) -/
def binarySearch (l : List Nat) (x : Nat) : Search :=
  let pos := (l.takeWhile (· < x)).length
  if l[pos]? = some x then .found pos else .missing pos

/-- `Ok(p) => p + 1, Err(p) => p`: number of elements `≤ x` in a sorted slice -/
def Search.upper : Search → Nat
  | .found p => p + 1
  | .missing p => p

/-- `.is_ok()` -/
def Search.isOk : Search → Bool
  | .found _ => true
  | .missing _ => false

/-- `(start..stop).step_by(step)` as the list of values produced (external: std) -/
def rangeStep (start stop step : Nat) : List Nat :=
  (List.range ((stop - start + step - 1) / step)).map (fun i => start + step * i)

/-- `BTreeMap::insert` on an ordered association list (external: std) -/
def mapInsert : List (Nat × Nat) → Nat → Nat → List (Nat × Nat)
  | [], k, v => [(k, v)]
  | (k', v') :: t, k, v =>
    if k < k' then (k, v) :: (k', v') :: t
    else if k = k' then (k, v) :: t
    else (k', v') :: mapInsert t k v

/-- `*map.entry(k).or_insert(0) += e` on an ordered association list (external: std) -/
def mapAdd : List (Nat × Nat) → Nat → Nat → List (Nat × Nat)
  | [], k, e => [(k, e)]
  | (k', v') :: t, k, e =>
    if k < k' then (k, e) :: (k', v') :: t
    else if k = k' then (k, v' + e) :: t
    else (k', v') :: mapAdd t k e

/-! ## binary representation -/

/-- number of significant bits -/
def bitLen (n : Nat) : Nat := if n = 0 then 0 else n.log2 + 1

/-- number of trailing zero bits, with `fuel` -/
def tzAux : Nat → Nat → Nat
  | 0, _ => 0
  | f + 1, n => if n % 2 = 1 then 0 else tzAux f (n / 2) + 1

/-- trailing zeros of a positive number -/
def tz (n : Nat) : Nat := tzAux n.log2 n

/-! ## num-integer: roots -/

/-- bitwise search for the integer `e`-th root: `k` low bits still undecided, `r` found so far -/
def irootAux (e n : Nat) : Nat → Nat → Nat
  | 0, r => r
  | k + 1, r => if (r + 2 ^ k) ^ e ≤ n then irootAux e n k (r + 2 ^ k) else irootAux e n k r

/-- `Roots::nth_root`: floor of the `e`-th root (`e ≥ 1`) (external: num-integer contract) -/
def iroot (e n : Nat) : Nat := irootAux e n (n.log2 / e + 1) 0

/-- `Roots::sqrt` -/
def isqrt (n : Nat) : Nat := iroot 2 n
/-- `Roots::cbrt` -/
def icbrt (n : Nat) : Nat := iroot 3 n

/-! ## num-modular: modular arithmetic (operands are first reduced) -/

/-- `a.addm(b, m)` -/
def addm (a b m : Nat) : Nat := (a + b) % m
/-- `a.subm(b, m)` -/
def subm (a b m : Nat) : Nat := (a % m + (m - b % m)) % m
/-- `a.mulm(b, m)` -/
def mulm (a b m : Nat) : Nat := a * b % m
/-- `a.sqm(m)` -/
def sqm (a m : Nat) : Nat := a * a % m
/-- `a.dblm(m)` -/
def dblm (a m : Nat) : Nat := (a + a) % m
/-- `a.negm(m)` -/
def negm (a m : Nat) : Nat := (m - a % m) % m

/-- square-and-multiply, `fuel` bounds the number of bits of `e` -/
def powmAux : Nat → Nat → Nat → Nat → Nat
  | 0, _, _, m => 1 % m
  | f + 1, b, e, m =>
    if e = 0 then 1 % m
    else
      let r := powmAux f (b * b % m) (e / 2) m
      if e % 2 = 1 then r * b % m else r

/-- `b.powm(e, m)`: `b ^ e mod m` -/
def powm (b e m : Nat) : Nat := powmAux (e.log2 + 1) (b % m) e m

/-- Euclid-like evaluation of the Jacobi symbol for odd `n`, `fuel` bounds the recursion -/
def jacobiAux : Nat → Nat → Nat → Int
  | 0, _, _ => 0
  | f + 1, a, n =>
    if n = 1 then 1
    else if a = 0 then 0
    else if a % 2 = 0 then
      if n % 8 = 3 ∨ n % 8 = 5 then - jacobiAux f (a / 2) n else jacobiAux f (a / 2) n
    else if a < n then
      if a % 4 = 3 ∧ n % 4 = 3 then - jacobiAux f (n % a) a else jacobiAux f (n % a) a
    else jacobiAux f (a % n) n

/-- `a.jacobi(n)` for odd `n` (external: num-modular contract; the theorem `jacobi_eq` shows this is
Mathlib's `jacobiSym`) -/
def jacobi (a n : Nat) : Int := jacobiAux (2 * (n.log2 + a.log2) + 8) (a % n) n

end NumPrime
