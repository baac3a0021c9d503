import Verif.Model.Release
import Verif.Model.Buffer

/-! `primorial` in a build without overflow checks: the integer implementation of `Iterator::product` inherits the overflow
checks of the crate, so there its multiplications wrap around. The conversion `T::from_u64(p).unwrap()` panics in every build. -/

namespace NumPrime

/-- `Iterator::product` of values converted to a `b` bit type, src/buffer.rs:340, without overflow checks -/
def productRel (b : Nat) : Nat → List Nat → Res Nat
  | acc, [] => .ok acc
  | acc, p :: ps => do
    let p ← unwrapFit (some b) p
    productRel b (wmul b acc p) ps

/-! ## `reserve` without overflow checks; the `debug_assert!` is not compiled in -/

/-- the loop over the known primes, src/buffer.rs:304-316, without overflow checks -/
def sieveOldRel (current limit len : Nat) : List Nat → List Nat → Res (List Nat)
  | [], marks => .ok marks
  | p :: ps, marks => do
    let start := if wmul 64 p p < current then wmul 64 p ((current / p) ||| 1) else wmul 64 p p
    let marks ← sieveMark current len (rangeStep start limit (wmul 64 2 p)) marks
    sieveOldRel current limit len ps marks

/-- the loop over the new numbers, src/buffer.rs:319-325, without overflow checks -/
def sieveNewRel (current limit len : Nat) : List Nat → List Nat → Res (List Nat)
  | [], marks => .ok marks
  | p :: ps, marks => do
    let marks ← sieveMark current len (rangeStep (wmul 64 p p) limit (wmul 64 2 p)) marks
    sieveNewRel current limit len ps marks

/-- `reserve`, src/buffer.rs:294-331, without overflow checks. `step_by(0)` would panic; the steps are twice an odd number. -/
def Buf.reserveRel (b : Buf) (limit : Nat) : Res Buf := do
  let sieveLimit := wadd 64 (limit ||| 1) 2
  let current := b.next
  if sieveLimit < current then .ok b
  else do
    let len := (sieveLimit - current) / 2
    let marks ← sieveOldRel current sieveLimit len (b.list.drop 1) []
    let marks ← sieveNewRel current sieveLimit len (rangeStep current (isqrt sieveLimit + 1) 2) marks
    return ⟨b.list ++ (sieveZeros len marks).map (fun x => x * 2 + current), sieveLimit⟩

/-- `primes`, src/buffer.rs:348-355, without overflow checks -/
def Buf.primesRel (b : Buf) (limit : Nat) : Res (List Nat × Buf) := do
  let b ← b.reserveRel limit
  return (b.list.take (binarySearch b.list limit).upper, b)

/-- `nprimes`, src/buffer.rs:369-375, without overflow checks and without the `debug_assert!` -/
def Buf.nprimesRel (bld : Build) (o : Estimates) (b : Buf) (count : Nat) : Res (List Nat × Buf) := do
  match ← nthPrimeBounds bld (some 64) o count with
  | none => .panic
  | some (_, bound) =>
    let b ← b.reserveRel bound
    return (b.list.take count, b)

/-- `primorial`, src/buffer.rs:339-341, src/nt_funcs.rs:561-566, without overflow checks -/
def Buf.primorialRel (bld : Build) (bits : Nat) (o : Estimates) (b : Buf) (n : Nat) : Res (Nat × Buf) := do
  let (l, b) ← Buf.nprimesRel bld o b n
  let v ← productRel bits 1 l
  return (v, b)

/-! ## `prime_phi` and the loops of `prime_pi` without overflow checks -/

/-- `prime_phi`, src/buffer.rs:418-431, without overflow checks. For `a = 0` and no cached value `a - 1` wraps around and the
recursion exhausts the stack: kept as a panic. -/
def primePhiRel (nth : Buf → Nat → Res (Nat × Buf)) : Nat → Buf → Cache → Nat → Res (Nat × Buf × Cache)
  | 0, b, c, x =>
    match c.get (x, 0) with
    | some (v, c) => .ok (v, b, c)
    | none => .panic
  | a + 1, b, c, x =>
    if a + 1 = 1 then .ok (wadd 64 x 1 / 2, b, c)
    else
      match c.get (x, a + 1) with
      | some (v, c) => .ok (v, b, c)
      | none => do
        let (t1, b, c) ← primePhiRel nth a b c x
        let (pa, b) ← nth b (a + 1)
        let q ← cdiv x pa
        let (t2, b, c) ← primePhiRel nth a b c q
        let t := wsub 64 t1 t2
        return (t, b, c.put (x, a + 1) t)

/-- the loop `for j in i..(l + 1)`, src/buffer.rs:468-471, without overflow checks -/
def piInnerRel (pi nth : Buf → Nat → Res (Nat × Buf)) (w : Nat) : List Nat → Buf → Nat → Res (Nat × Buf)
  | [], b, sum => .ok (sum, b)
  | j :: js, b, sum => do
    let (pj, b) ← nth b j
    let q ← cdiv w pj
    let (v, b) ← pi b q
    piInnerRel pi nth w js b (wsub 64 sum v)

/-- the loop `for i in a + 1..b + 1`, src/buffer.rs:462-473, without overflow checks -/
def piOuterRel (pi nth : Buf → Nat → Res (Nat × Buf)) (limit c : Nat) : List Nat → Buf → Nat → Res (Nat × Buf)
  | [], b, sum => .ok (sum, b)
  | i :: is, b, sum => do
    let (p, b) ← nth b i
    let w ← cdiv limit p
    let (v, b) ← pi b w
    let sum := wsub 64 sum v
    if i ≤ c then
      let (l, b) ← pi b (isqrt w)
      let d := wsub 64 (wmul 64 l (wsub 64 l 1)) (wmul 64 i (wsub 64 i 3))
      let sum := wadd 64 sum (wsub 64 (d / 2) 1)
      let (sum, b) ← piInnerRel pi nth w (rangeStep i (l + 1) 1) b sum
      piOuterRel pi nth limit c is b sum
    else piOuterRel pi nth limit c is b sum

end NumPrime
