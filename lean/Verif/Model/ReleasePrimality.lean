import Verif.Model.Primality
import Verif.Model.Release

/-! # src/primality.rs for machine integers in a build without overflow checks

`+`, `-`, `*` wrap around and shift amounts are masked; the conversions with `unwrap()` still panic. The default search of the
parameters is the model with overflow checks: no step of it overflows (C08). -/

namespace NumPrime

/-- `test_sprp` for a `b` bit type, src/primality.rs:154-185, without overflow checks: the shift in line 160 is by the number of trailing
zeros, or by 0 (the masked width) if `self` is 1; either way a shift of 0 gives 0 -/
def testSprpRel (b n base : Nat) : SprpResult :=
  if n < 1 then .left false else testSprpCore n base (trailingZeros (some b) (n - 1))

/-- `is_sprp`, src/primality.rs:150-152, without overflow checks -/
def isSprpRel (b n base : Nat) : Bool := (testSprpRel b n base).verdict

/-- `let d = (p * p) as isize - 4 * q`, src/primality.rs:206,241,305, in wrapping 64-bit arithmetic. The negation of the least `isize`
is itself, and its conversion in line 210, 245 or 309 panics. -/
def lucasDiscRel (p : Nat) (q : Int) : Res Int :=
  let d := ((wmul 64 p p : Int).bmod (2 ^ 64) - (4 * q).bmod (2 ^ 64)).bmod (2 ^ 64)
  if d = -2 ^ 63 then .panic else .ok d

/-- `delta = n - (D/n)`, src/primality.rs:212-217,247-252,311-316, without overflow checks -/
def lucasDeltaRel (b n : Nat) (d : Int) : Res Nat :=
  let j := jacobi (reduceD d n) n
  if j = 0 then .ok n
  else if j = -1 then .ok (wadd b n 1)
  else if j = 1 then .ok (wsub b n 1)
  else .panic

/-- the discriminant without overflow checks; src/primality.rs:206,241,305 -/
def lucasDRel (explicit : Bool) (p : Nat) (q : Int) : Res Int :=
  if explicit then lucasDiscRel p q else .ok ((p * p : Nat) - 4 * q)

/-- `is_lprp` for a `b` bit type, src/primality.rs:187-220, without overflow checks -/
def isLprpRel (bld : Build) (b n : Nat) (p : Option Nat) (q : Option Int) : Res Bool := do
  if n < 1 then return false
  if n % 2 = 0 then return false
  let pq ← lucasParams bld (some b) n p q
  if (p.isNone ∨ q.isNone) ∧ pq.1 = 0 then return false
  let d ← lucasDRel (p.isSome && q.isSome) pq.1 pq.2
  let _ ← lucasConv (some b) pq.1 pq.2 d
  let delta ← lucasDeltaRel b n d
  return (lucasm pq.1 pq.2 n delta).1 == 0

/-- `is_slprp` from the computation of `shift` on, src/primality.rs:254-285, without overflow checks -/
def slprpTailRel (b n p : Nat) (q : Int) (delta : Nat) : Bool :=
  let shift := trailingZeros (some b) delta
  let base := delta >>> (shift % b)
  let uv := lucasm p q n base
  if uv.1 = 0 ∨ uv.2 = 0 then true
  else if shift = 0 then false
  else
    let qk := powm q.natAbs base n
    let vd := if q ≥ 0 then subm (sqm uv.2 n) (dblm qk n) n else addm (sqm uv.2 n) (dblm qk n) n
    if vd = 0 then true else slprpLoop n (shift - 1) qk vd

/-- `is_slprp` for a `b` bit type, src/primality.rs:222-286, without overflow checks -/
def isSlprpRel (bld : Build) (b n : Nat) (p : Option Nat) (q : Option Int) : Res Bool := do
  if n < 1 then return false
  if n % 2 = 0 then return false
  let pq ← lucasParams bld (some b) n p q
  if (p.isNone ∨ q.isNone) ∧ pq.1 = 0 then return false
  let d ← lucasDRel (p.isSome && q.isSome) pq.1 pq.2
  let _ ← lucasConv (some b) pq.1 pq.2 d
  let delta ← lucasDeltaRel b n d
  return slprpTailRel b n pq.1 pq.2 delta

/-- `is_eslprp` from the computation of `shift` on, src/primality.rs:318-340, without overflow checks: for `shift = 0` the loop
`for _ in 1..(shift - 1)` has 2^64 - 2 rounds -/
def eslprpTailRel (b n p : Nat) (delta : Nat) : Bool :=
  let shift := trailingZeros (some b) delta
  let base := delta >>> (shift % b)
  let uv := lucasm p 1 n base
  if uv.1 = 0 ∧ (uv.2 = 2 ∨ uv.2 = wsub b n 2) then true
  else if uv.2 = 0 then true
  else eslprpLoop n (wsub 64 shift 1 - 1) uv.2

/-- the choice of `P` in `is_eslprp`, src/primality.rs:296-304 -/
def eslprpParamRel (bld : Build) (b n : Nat) (p : Option Nat) : Res Nat :=
  match p with
  | some sp => .ok sp
  | none => pBruteforce bld (some b) n

/-- `is_eslprp` from the conversion of the discriminant on, src/primality.rs:306-340, without overflow checks -/
def eslprpWithRel (b n p : Nat) (d : Int) : Res Bool := do
  let _ ← lucasConv (some b) p 1 d
  let delta ← lucasDeltaRel b n d
  return eslprpTailRel b n p delta

/-- `is_eslprp` for a `b` bit type, src/primality.rs:288-341, without overflow checks -/
def isEslprpRel (bld : Build) (b n : Nat) (p : Option Nat) : Res Bool := do
  if n < 1 then return false
  if n % 2 = 0 then return false
  let pp ← eslprpParamRel bld b n p
  if p.isNone ∧ pp = 0 then return false
  let d ← lucasDRel p.isSome pp 1
  eslprpWithRel b n pp d

end NumPrime
