import Verif.Model.Integer
import Verif.Model.Traits

/-! # Model of src/primality.rs

Generic code over `T` is modelled on `Nat`; the width `w` of the type appears only where a machine
integer can overflow. The modular operations are the contracts of num-modular in `Model/Basic`.
The conversions `T::from_usize(..).unwrap()` and `T::from_isize(..).unwrap()` panic when the value does not
fit into `T`. Caller-supplied Lucas parameters go through the `usize`/`isize` arithmetic of a 64-bit target
(`lucasDisc`). One simplification remains: for the parameters found by `pq_selfridge` and `p_bruteforce` the
machine words `usize`/`isize` are taken as unbounded; `C08_search_fits_word` shows that nothing is lost below `2^123`
(`pq_selfridge`) and below `2^63 - 4` (`p_bruteforce`). -/

namespace NumPrime

/-- `Either<bool, T>` as returned by `test_sprp` -/
inductive SprpResult where
  | left (b : Bool)
  | right (d : Nat)
  deriving DecidableEq, Repr

/-- `Either::either(|v| v, |_| false)`, src/primality.rs:151 -/
def SprpResult.verdict : SprpResult → Bool
  | left b => b
  | right _ => false

/-! ## Lucas sequences -/

/-- the body of the loop of `lucasm`, src/primality.rs:51-77; state `(uk, uk1)` -/
def lucasStep (p q m : Nat) (b : Bool) (s : Nat × Nat) : Nat × Nat :=
  let uk := s.1
  let uk1 := s.2
  if b then
    let uk1sq := sqm uk1 m
    let t1 := mulm p uk1sq m
    let t2 := dblm (mulm (mulm q uk1 m) uk m) m
    let newUk1 := subm t1 t2 m
    let t2' := mulm q (sqm uk m) m
    let newUk := subm uk1sq t2' m
    (newUk, newUk1)
  else
    let uksq := sqm uk m
    let t1 := sqm uk1 m
    let t2 := mulm uksq q m
    let newUk1 := subm t1 t2 m
    let t1' := dblm (mulm uk1 uk m) m
    let t2' := mulm uksq p m
    let newUk := subm t1' t2' m
    (newUk, newUk1)

/-- the loop `for i in (0..n.bits()).rev()` of `lucasm`, src/primality.rs:50-78: `i` bits still to do -/
def lucasLoop (p q m n : Nat) : Nat → Nat × Nat → Nat × Nat
  | 0, s => s
  | i + 1, s => lucasLoop p q m n i (lucasStep p q m (n.testBit i) s)

/-- reduction of the signed parameter `q` modulo `m`, src/primality.rs:41-45 -/
def reduceQ (q : Int) (m : Nat) : Nat :=
  if q ≥ 0 then q.toNat % m else negm (-q).toNat m

/-- `LucasUtils::lucasm`, src/primality.rs:36-83 -/
def lucasm (p : Nat) (q : Int) (m n : Nat) : Nat × Nat :=
  let p := p % m
  let q := reduceQ q m
  let s := lucasLoop p q m n (bits n) (0 % m, 1 % m)
  let uk := s.1
  let uk1 := s.2
  let vk := subm (dblm uk1 m) (mulm p uk m) m
  (uk, vk)

/-- the loop of `pq_selfridge`, src/primality.rs:88-110. `d : T` is a number of the type, so `d + 2` can overflow;
`d.to_isize().unwrap()` is taken as always succeeding (see the head of this file). -/
def pqSelfridgeLoop (bld : Build) (w : Width) (n : Nat) : Nat → Nat → Bool → Res (Nat × Int)
  | 0, _, _ => .timeout
  | f + 1, d, neg => do
    let sq ← (if d = 13 then isSquare bld w n else .ok false : Res Bool)
    if sq then return (0, 0)
    let sd := if neg then negm d n else d
    let j := jacobi sd n
    if j = 0 ∧ d ≠ n then return (0, 0)
    if j = -1 then
      let d' : Int := if neg then -(d : Int) else d
      return (1, (1 - d').tdiv 4)
    let d ← cadd w d 2
    pqSelfridgeLoop bld w n f d (!neg)

/-- `LucasUtils::pq_selfridge`, src/primality.rs:85-111. The loop is given `2n+10` rounds; theorem
`C08` shows that it never needs more. -/
def pqSelfridge (bld : Build) (w : Width) (n : Nat) : Res (Nat × Int) :=
  pqSelfridgeLoop bld w n (2 * n + 10) 5 false

/-- `T::from_usize(x).unwrap()`, `T::from_isize(x).unwrap()` for `x ≥ 0` (external: num-traits): a panic if the
value does not fit -/
def fromWord (w : Width) (x : Nat) : Res Nat := if fits w x then .ok x else .panic

/-- the loop of `p_bruteforce`, src/primality.rs:115-130 (`p : usize` is taken as unbounded, see the head of this file) -/
def pBruteforceLoop (bld : Build) (w : Width) (n : Nat) : Nat → Nat → Res Nat
  | 0, _ => .timeout
  | f + 1, p => do
    let sq ← (if p = 10 then isSquare bld w n else .ok false : Res Bool)
    if sq then return 0
    let d ← fromWord w (p * p - 4)
    let j := jacobi d n
    if j = 0 ∧ d ≠ n then return 0
    if j = -1 then return p
    pBruteforceLoop bld w n f (p + 1)

/-- `LucasUtils::p_bruteforce`, src/primality.rs:113-131. The loop is given `n+10` rounds; theorem
`C08` shows that it never needs more. -/
def pBruteforce (bld : Build) (w : Width) (n : Nat) : Res Nat :=
  pBruteforceLoop bld w n (n + 10) 3

/-! ## Fermat and Miller-Rabin tests -/

/-- `is_prp`, src/primality.rs:141-147 -/
def isPrp (n base : Nat) : Bool :=
  if n < 1 then false
  else powm base (n - 1) n == 1

/-- the loop of `test_sprp`, src/primality.rs:172-184; first argument = rounds left -/
def sprpLoop (n m1 mm1 : Nat) : Nat → Nat → SprpResult
  | 0, x => .left (x == m1)
  | k + 1, x =>
    let y := sqm x n
    if y = m1 then .right (Nat.gcd n (x - 1))
    else if y = mm1 then .left true
    else sprpLoop n m1 mm1 k y

/-- `test_sprp` after the shift has been computed, src/primality.rs:159-184 -/
def testSprpCore (n base : Nat) (shift : Nat) : SprpResult :=
  let u := (n - 1) >>> shift
  let m1 := 1 % n
  let mm1 := negm m1 n
  let x := powm base u n
  if x = m1 ∨ x = mm1 then .left true
  else sprpLoop n m1 mm1 shift x

/-- `test_sprp`, src/primality.rs:154-185. For a machine integer `self = 1` the shift amount is
`trailing_zeros(0) = BITS` and `>>` panics. -/
def testSprp (w : Width) (n base : Nat) : Res SprpResult := do
  if n < 1 then return .left false
  let shift := trailingZeros w (n - 1)
  let _ ← cshr w (n - 1) shift
  return testSprpCore n base shift

/-- `is_sprp`, src/primality.rs:150-152 -/
def isSprp (w : Width) (n base : Nat) : Res Bool := (testSprp w n base).mapR SprpResult.verdict

/-! ## Lucas probable prime tests -/

/-- choice of the parameters in `is_lprp` / `is_slprp`, src/primality.rs:195-204,230-239 -/
def lucasParams (bld : Build) (w : Width) (n : Nat) (p : Option Nat) (q : Option Int) :
    Res (Nat × Int) :=
  match p, q with
  | some sp, some sq => .ok (sp, sq)
  | _, _ => pqSelfridge bld w n

/-- an `isize` result (64-bit target), with the overflow check -/
def isizeChecked (z : Int) : Res Int := if -2 ^ 63 ≤ z ∧ z < 2 ^ 63 then .ok z else .panic

/-- `let d = (p * p) as isize - 4 * q` for caller-supplied parameters, src/primality.rs:206,241,305, and the negation
`-d` of src/primality.rs:210,245,309. The product is checked `usize` arithmetic, the cast wraps around silently, the rest is
checked `isize` arithmetic (64-bit target). -/
def lucasDisc (p : Nat) (q : Int) : Res Int := do
  let pp ← cmul (some 64) p p
  let q4 ← isizeChecked (4 * q)
  let d ← isizeChecked ((pp : Int).bmod (2 ^ 64) - q4)
  if d = -2 ^ 63 then .panic else .ok d

/-- the conversions `from_isize(±d)`, `from_usize(p)` and `from_isize(±q)` into `T`, src/primality.rs:40-45,207-211,
242-246,266,306-310: they panic if a value does not fit -/
def lucasConv (w : Width) (p : Nat) (q d : Int) : Res Unit := do
  let _ ← fromWord w d.natAbs
  let _ ← fromWord w p
  let _ ← fromWord w q.natAbs
  return ()

/-- `d` as an element of `T`: src/primality.rs:206-211,241-246,305-310 -/
def reduceD (d : Int) (n : Nat) : Nat :=
  if d > 0 then d.toNat else negm (-d).toNat n

/-- `delta = n - (D/n)`, src/primality.rs:212-217,247-252,311-316 -/
def lucasDelta (w : Width) (n : Nat) (d : Int) : Res Nat :=
  let j := jacobi (reduceD d n) n
  if j = 0 then .ok n
  else if j = -1 then cadd w n 1
  else if j = 1 then csub n 1
  else .panic

/-- `is_lprp` from the discriminant on, src/primality.rs:207-219 -/
def lprpWith (w : Width) (n p : Nat) (q d : Int) : Res Bool := do
  let _ ← lucasConv w p q d
  let delta ← lucasDelta w n d
  return (lucasm p q n delta).1 == 0

/-- the discriminant: machine arithmetic for caller-supplied parameters, exact otherwise (see the head of this file);
src/primality.rs:206,241,305 -/
def lucasD (explicit : Bool) (p : Nat) (q : Int) : Res Int :=
  if explicit then lucasDisc p q else .ok ((p * p : Nat) - 4 * q)

/-- `is_lprp`, src/primality.rs:187-220 -/
def isLprp (bld : Build) (w : Width) (n : Nat) (p : Option Nat) (q : Option Int) : Res Bool := do
  if n < 1 then return false
  if n % 2 = 0 then return false
  let pq ← lucasParams bld w n p q
  if (p.isNone ∨ q.isNone) ∧ pq.1 = 0 then return false
  let d ← lucasD (p.isSome && q.isSome) pq.1 pq.2
  lprpWith w n pq.1 pq.2 d

/-- the loop of `is_slprp`, src/primality.rs:276-284; first argument = rounds left -/
def slprpLoop (n : Nat) : Nat → Nat → Nat → Bool
  | 0, _, _ => false
  | k + 1, qk, vd =>
    let qk := sqm qk n
    let vd := subm (sqm vd n) (dblm qk n) n
    if vd = 0 then true else slprpLoop n k qk vd

/-- `is_slprp` from the computation of `shift` on, src/primality.rs:254-285. `trailing_zeros(0)` of a
machine integer makes the shift panic (only for `delta = 0`, i.e. `n = 1`). -/
def slprpTail (w : Width) (n p : Nat) (q : Int) (delta : Nat) : Res Bool := do
  let shift := trailingZeros w delta
  let base ← cshr w delta shift
  let uv := lucasm p q n base
  if uv.1 = 0 ∨ uv.2 = 0 then return true
  if shift = 0 then return false
  let qk := powm q.natAbs base n
  let vd := if q ≥ 0 then subm (sqm uv.2 n) (dblm qk n) n else addm (sqm uv.2 n) (dblm qk n) n
  if vd = 0 then return true
  return slprpLoop n (shift - 1) qk vd

/-- `is_slprp` from the discriminant on, src/primality.rs:242-285. `from_isize(q.abs())` of line 266 repeats a conversion
already done in `lucasm`. -/
def slprpWith (w : Width) (n p : Nat) (q d : Int) : Res Bool := do
  let _ ← lucasConv w p q d
  let delta ← lucasDelta w n d
  slprpTail w n p q delta

/-- `is_slprp`, src/primality.rs:222-286 -/
def isSlprp (bld : Build) (w : Width) (n : Nat) (p : Option Nat) (q : Option Int) : Res Bool := do
  if n < 1 then return false
  if n % 2 = 0 then return false
  let pq ← lucasParams bld w n p q
  if (p.isNone ∨ q.isNone) ∧ pq.1 = 0 then return false
  let d ← lucasD (p.isSome && q.isSome) pq.1 pq.2
  slprpWith w n pq.1 pq.2 d

/-- the loop of `is_eslprp`, src/primality.rs:332-338 -/
def eslprpLoop (n : Nat) : Nat → Nat → Bool
  | 0, _ => false
  | k + 1, vd =>
    let vd := subm (sqm vd n) 2 n
    if vd = 0 then true else eslprpLoop n k vd

/-- `is_eslprp` from the computation of `shift` on, src/primality.rs:318-340. `shift - 1` is a `usize`
subtraction and panics for `shift = 0`; `self - &two` panics for `self = 1`. -/
def eslprpTail (w : Width) (n p : Nat) (delta : Nat) : Res Bool := do
  let shift := trailingZeros w delta
  let base ← cshr w delta shift
  let uv := lucasm p 1 n base
  let c1 ← (if uv.1 = 0 then (if uv.2 = 2 then .ok true else
      (csub n 2).mapR (fun nm2 => uv.2 == nm2)) else .ok false : Res Bool)
  if c1 then return true
  if uv.2 = 0 then return true
  let s1 ← csub shift 1
  return eslprpLoop n (s1 - 1) uv.2

/-- `is_eslprp` from the discriminant on, src/primality.rs:306-340 -/
def eslprpWith (w : Width) (n p : Nat) (d : Int) : Res Bool := do
  let _ ← lucasConv w p 1 d
  let delta ← lucasDelta w n d
  eslprpTail w n p delta

/-- `is_eslprp`, src/primality.rs:288-341 -/
def isEslprp (bld : Build) (w : Width) (n : Nat) (p : Option Nat) : Res Bool := do
  if n < 1 then return false
  if n % 2 = 0 then return false
  let pp ← match p with
    | some sp => pure sp
    | none => pBruteforce bld w n
  if p.isNone ∧ pp = 0 then return false
  let d ← lucasD p.isSome pp 1
  eslprpWith w n pp d

end NumPrime
