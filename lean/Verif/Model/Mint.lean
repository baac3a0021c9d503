import Verif.Model.NtFuncs
import Verif.Model.Factor

/-! # Model of src/mint.rs and of the generic algorithms instantiated with `SmallMint`

A `Mint` is a plain integer (`Left`) or a number reduced modulo `m` in Montgomery form (`Right`). The Montgomery form is
modelled by the residue (contract of num-modular: `ReducedInt` over `Montgomery` computes with residues, and its
constructor requires an odd modulus). The operators are those of src/mint.rs with all their `unreachable!()` and
`debug_assert!` (panics). The by-value and by-reference variants of an operator have the same body and are modelled once.
`w` is the width of the underlying machine integer. `FromPrimitive` and `ToPrimitive` of `Mint` (src/mint.rs:382-420) go through
the underlying type, so the conversions of `Model/Primality` apply unchanged. -/

namespace NumPrime

/-- `Mint`, src/mint.rs:21 -/
inductive Mint where
  | left (v : Nat)
  | right (r m : Nat)
  deriving DecidableEq, Repr

namespace Mint

/-- `ReducedInt::new(v, m)` (external: num-modular); the Montgomery form needs an odd modulus -/
def reduced (v m : Nat) : Res Mint := if m % 2 = 1 then .ok (right (v % m) m) else .panic

/-- `PartialEq::eq`, src/mint.rs:84-92 -/
def eq : Mint → Mint → Res Bool
  | left a, left b => .ok (a == b)
  | right a m, right b m' => if m = m' then .ok (a == b) else .panic
  | _, _ => .panic

/-- `a < b`, via `partial_cmp`, src/mint.rs:95-107 -/
def lt : Mint → Mint → Res Bool
  | left a, left b => .ok (decide (a < b))
  | left a, right b _ => .ok (decide (a < b))
  | right a _, left b => .ok (decide (a < b))
  | right a m, right b m' => if m = m' then .ok (decide (a < b)) else .panic

/-- `value`, src/mint.rs:119-127 -/
def value : Mint → Nat
  | left v => v
  | right r _ => r

/-- `+`, src/mint.rs:130-207 -/
def add (w : Width) : Mint → Mint → Res Mint
  | left a, left b => (cadd w a b).mapR left
  | left a, right b m => .ok (right (addm (a % m) b m) m)
  | right a m, left b => .ok (right (addm a (b % m) m) m)
  | right a m, right b m' => if m = m' then .ok (right (addm a b m) m) else .panic

/-- `-`, src/mint.rs:130-208 -/
def sub : Mint → Mint → Res Mint
  | left a, left b => (csub a b).mapR left
  | left a, right b m => .ok (right (subm (a % m) b m) m)
  | right a m, left b => .ok (right (subm a (b % m) m) m)
  | right a m, right b m' => if m = m' then .ok (right (subm a b m) m) else .panic

/-- `*`, src/mint.rs:130-209 -/
def mul (w : Width) : Mint → Mint → Res Mint
  | left a, left b => (cmul w a b).mapR left
  | left a, right b m => .ok (right (mulm (a % m) b m) m)
  | right a m, left b => .ok (right (mulm a (b % m) m) m)
  | right a m, right b m' => if m = m' then .ok (right (mulm a b m) m) else .panic

/-- `/`, src/mint.rs:211-253; also `div_floor`, src/mint.rs:348 -/
def div : Mint → Mint → Res Mint
  | left a, left b => (cdiv a b).mapR left
  | _, _ => .panic

/-- `mod_floor`, src/mint.rs:349 -/
def modFloor : Mint → Mint → Res Mint
  | left a, left b => if b = 0 then .panic else .ok (left (a % b))
  | _, _ => .panic

/-- `div_rem`, src/mint.rs:356-361 -/
def divRem : Mint → Mint → Res (Mint × Mint)
  | left a, left b => if b = 0 then .panic else .ok (left (a / b), left (a % b))
  | _, _ => .panic

/-- `divides` and `is_multiple_of`, src/mint.rs:351-352; zero is a multiple of zero only (contract of num-integer) -/
def isMultipleOf : Mint → Mint → Res Bool
  | left a, left b => .ok (if b = 0 then a == 0 else a % b == 0)
  | _, _ => .panic

/-- `lcm`, src/mint.rs:350; `a * (b / gcd)` in the integer type (contract of num-integer), zero if both are zero -/
def lcm (w : Width) : Mint → Mint → Res Mint
  | left a, left b => if a = 0 ∧ b = 0 then .ok (left 0) else (cmul w a (b / Nat.gcd a b)).mapR left
  | _, _ => .panic

/-- `pow`, src/mint.rs:422-431 -/
def pow (w : Width) : Mint → Nat → Res Mint
  | left a, e => if fits w (a ^ e) then .ok (left (a ^ e)) else .panic
  | right _ _, _ => .panic

/-- `Ord::cmp`, src/mint.rs:108-117 -/
def cmp (a b : Mint) : Ordering := compare a.value b.value

/-- `PartialOrd::partial_cmp`, src/mint.rs:95-107, as an `Ordering` (it is always `Some`) -/
def partialCmp : Mint → Mint → Res Ordering
  | right a m, right b m' => if m = m' then .ok (compare a b) else .panic
  | a, b => .ok (compare a.value b.value)

/-- `%`, src/mint.rs:255-314 -/
def rem : Mint → Mint → Res Mint
  | left a, left m => reduced a m
  | right a m, left m' => if m = m' then .ok (right a m) else .panic
  | _, right _ _ => .panic

/-- `is_zero`, src/mint.rs:316-328 -/
def isZero (a : Mint) : Bool := a.value == 0
/-- `is_one`, src/mint.rs:335 -/
def isOne (a : Mint) : Bool := a.value == 1
/-- `is_even`, src/mint.rs:353 -/
def isEven (a : Mint) : Bool := a.value % 2 == 0
/-- `to_u64`, src/mint.rs:414-420: `some` if the value fits -/
def toU64 (a : Mint) : Option Nat := if a.value < 2 ^ 64 then some a.value else none

/-- `gcd`, src/mint.rs:363-370 -/
def gcd (a b : Mint) : Mint := left (Nat.gcd a.value b.value)

/-- the plain integer inside, or `unreachable!()`: used by `bit`, `bits`, `trailing_zeros`, `>>` and
`nth_root_exact`, src/mint.rs:434-486 -/
def plain : Mint → Res Nat
  | left v => .ok v
  | right _ _ => .panic

/-- `addm`, src/mint.rs:490-499,525-534 -/
def maddm : Mint → Mint → Mint → Res Mint
  | right a m1, right b m2, left m => if m1 = m ∧ m2 = m then .ok (right (NumPrime.addm a b m) m) else .panic
  | _, _, _ => .panic
/-- `subm`, src/mint.rs:500-509,535-544 -/
def msubm : Mint → Mint → Mint → Res Mint
  | right a m1, right b m2, left m => if m1 = m ∧ m2 = m then .ok (right (NumPrime.subm a b m) m) else .panic
  | _, _, _ => .panic
/-- `mulm`, src/mint.rs:510-519,545-554 -/
def mmulm : Mint → Mint → Mint → Res Mint
  | right a m1, right b m2, left m => if m1 = m ∧ m2 = m then .ok (right (NumPrime.mulm a b m) m) else .panic
  | _, _, _ => .panic

/-- reduction of the first operand in the unary modular operations, src/mint.rs:557-636: (residue, modulus) -/
def unary : Mint → Mint → Res (Nat × Nat)
  | left v, left m => if m % 2 = 1 then .ok (v % m, m) else .panic
  | right v m', left m => if m' = m then .ok (v, m) else .panic
  | _, right _ _ => .panic
/-- `negm`, src/mint.rs:559-569,600-610 -/
def mnegm (a m : Mint) : Res Mint := (unary a m).mapR (fun x => right (NumPrime.negm x.1 x.2) x.2)
/-- `dblm`, src/mint.rs:573-583,614-624 -/
def mdblm (a m : Mint) : Res Mint := (unary a m).mapR (fun x => right (NumPrime.dblm x.1 x.2) x.2)
/-- `sqm`, src/mint.rs:584-594,625-635 -/
def msqm (a m : Mint) : Res Mint := (unary a m).mapR (fun x => right (NumPrime.sqm x.1 x.2) x.2)

/-- `jacobi` (through `checked_jacobi`), src/mint.rs:641-648; defined for odd `n` -/
def mjacobi : Mint → Mint → Res Int
  | a, left n => if n % 2 = 1 then .ok (NumPrime.jacobi a.value n) else .panic
  | _, right _ _ => .panic

/-- `powm`, src/mint.rs:669-679 -/
def mpowm : Mint → Mint → Mint → Res Mint
  | left v, left e, left m => if m % 2 = 1 then .ok (right (NumPrime.powm v e m) m) else .panic
  | right v m', left e, left m => if m' = m then .ok (right (NumPrime.powm v e m) m) else .panic
  | _, _, _ => .panic

/-- `is_square`: the default of src/traits.rs:202-204,193-195 with `nth_root_exact` of src/mint.rs:434-440 -/
def isSquare (a : Mint) : Res Bool := (plain a).mapR (fun v => (nthRootExact v 2).isSome)

end Mint

open Mint

/-! ## src/primality.rs on `Mint` -/

/-- the body of the loop of `lucasm`, src/primality.rs:51-77, on `Mint` -/
def mLucasStep (p q m : Mint) (b : Bool) (s : Mint × Mint) : Res (Mint × Mint) := do
  let uk := s.1
  let uk1 := s.2
  if b then
    let uk1sq ← msqm uk1 m
    let t1 ← mmulm p uk1sq m
    let a ← mmulm q uk1 m
    let a ← mmulm a uk m
    let t2 ← mdblm a m
    let newUk1 ← msubm t1 t2 m
    let a ← msqm uk m
    let t2' ← mmulm q a m
    let newUk ← msubm uk1sq t2' m
    return (newUk, newUk1)
  else
    let uksq ← msqm uk m
    let t1 ← msqm uk1 m
    let t2 ← mmulm uksq q m
    let newUk1 ← msubm t1 t2 m
    let a ← mmulm uk1 uk m
    let t1' ← mdblm a m
    let t2' ← mmulm uksq p m
    let newUk ← msubm t1' t2' m
    return (newUk, newUk1)

/-- the loop of `lucasm`, src/primality.rs:50-78, on `Mint`; `n` is the plain value of the index (`bits` and `bit` demand a
plain number, checked in `mLucasm`) -/
def mLucasLoop (p q m : Mint) (n : Nat) : Nat → Mint × Mint → Res (Mint × Mint)
  | 0, s => .ok s
  | i + 1, s => do
    let s ← mLucasStep p q m (n.testBit i) s
    mLucasLoop p q m n i s

/-- `lucasm`, src/primality.rs:36-83, on `Mint` -/
def mLucasm (p : Nat) (q : Int) (m n : Mint) : Res (Mint × Mint) := do
  let p ← rem (left p) m
  let q ← (if q ≥ 0 then rem (left q.toNat) m else mnegm (left (-q).toNat) m : Res Mint)
  let uk ← rem (left 0) m
  let uk1 ← rem (left 1) m
  let nv ← plain n
  let s ← mLucasLoop p q m nv (bits nv) (uk, uk1)
  let a ← mdblm s.2 m
  let b ← mmulm p s.1 m
  let vk ← msubm a b m
  return (s.1, vk)

/-- the loop of `pq_selfridge`, src/primality.rs:88-110, on `Mint` (`d` is always plain) -/
def mPqSelfridgeLoop (w : Width) (n : Mint) : Nat → Nat → Bool → Res (Nat × Int)
  | 0, _, _ => .timeout
  | f + 1, d, neg => do
    let c ← eq (left d) (left 13)
    let sq ← (if c then Mint.isSquare n else .ok false : Res Bool)
    if sq then return (0, 0)
    let sd ← (if neg then mnegm (left d) n else .ok (left d) : Res Mint)
    let j ← mjacobi sd n
    let e ← (if j = 0 then eq (left d) n else .ok true : Res Bool)
    if !e then return (0, 0)
    if j = -1 then
      let d' : Int := if neg then -(d : Int) else d
      return (1, (1 - d').tdiv 4)
    let d ← cadd w d 2
    mPqSelfridgeLoop w n f d (!neg)

/-- `pq_selfridge`, src/primality.rs:85-111, on `Mint` -/
def mPqSelfridge (w : Width) (n : Mint) : Res (Nat × Int) := mPqSelfridgeLoop w n (2 * n.value + 10) 5 false

/-- the loop of `p_bruteforce`, src/primality.rs:115-130, on `Mint` -/
def mPBruteforceLoop (w : Width) (n : Mint) : Nat → Nat → Res Nat
  | 0, _ => .timeout
  | f + 1, p => do
    let sq ← (if p = 10 then Mint.isSquare n else .ok false : Res Bool)
    if sq then return 0
    let d ← (fromWord w (p * p - 4)).mapR left
    let j ← mjacobi d n
    let e ← (if j = 0 then eq d n else .ok true : Res Bool)
    if !e then return 0
    if j = -1 then return p
    mPBruteforceLoop w n f (p + 1)

/-- `p_bruteforce`, src/primality.rs:113-131, on `Mint` -/
def mPBruteforce (w : Width) (n : Mint) : Res Nat := mPBruteforceLoop w n (n.value + 10) 3

/-- `is_prp`, src/primality.rs:141-147, on `Mint` -/
def mIsPrp (n base : Mint) : Res Bool := do
  let c ← lt n (left 1)
  if c then return false
  let tm1 ← sub n (left 1)
  let x ← mpowm base tm1 n
  return x.isOne

/-- the result of `test_sprp` on `Mint`: `Either<bool, Mint>` -/
inductive MSprpResult where
  | left (b : Bool)
  | right (d : Mint)
  deriving DecidableEq, Repr

/-- `is_sprp`, src/primality.rs:150-152 -/
def MSprpResult.verdict : MSprpResult → Bool
  | left b => b
  | right _ => false

/-- the loop of `test_sprp`, src/primality.rs:172-184, on `Mint` -/
def mSprpLoop (n m1 mm1 : Mint) : Nat → Mint → Res MSprpResult
  | 0, x => (eq x m1).mapR .left
  | k + 1, x => do
    let y ← msqm x n
    let c ← eq y m1
    if c then
      let x1 ← sub x (left 1)
      return .right (gcd n x1)
    let c ← eq y mm1
    if c then return .left true
    mSprpLoop n m1 mm1 k y

/-- `test_sprp`, src/primality.rs:154-185, on `Mint` -/
def mTestSprp (w : Width) (n base : Mint) : Res MSprpResult := do
  let c ← lt n (left 1)
  if c then return .left false
  let tm1 ← sub n (left 1)
  let t ← plain tm1
  let shift := trailingZeros w t
  let u ← cshr w t shift
  let m1 ← rem (left 1) n
  let mm1 ← mnegm m1 n
  let x ← mpowm base (left u) n
  let c ← eq x m1
  let c ← (if c then .ok true else eq x mm1 : Res Bool)
  if c then return .left true
  mSprpLoop n m1 mm1 shift x

/-- `is_sprp`, src/primality.rs:150-152, on `Mint` -/
def mIsSprp (w : Width) (n base : Mint) : Res Bool := (mTestSprp w n base).mapR MSprpResult.verdict

/-- choice of the parameters in `is_lprp` / `is_slprp`, src/primality.rs:195-204,230-239, on `Mint` -/
def mLucasParams (w : Width) (n : Mint) (p : Option Nat) (q : Option Int) : Res (Nat × Int) :=
  match p, q with
  | some sp, some sq => .ok (sp, sq)
  | _, _ => mPqSelfridge w n

/-- `delta`, src/primality.rs:206-217,241-252,305-316, on `Mint` -/
def mLucasDelta (w : Width) (n : Mint) (d : Int) : Res Mint := do
  let dm ← (if d > 0 then .ok (left d.toNat) else mnegm (left (-d).toNat) n : Res Mint)
  let j ← mjacobi dm n
  if j = 0 then return n
  else if j = -1 then add w n (left 1)
  else if j = 1 then sub n (left 1)
  else .panic

/-- `is_lprp`, src/primality.rs:187-220, on `Mint` -/
def mIsLprp (w : Width) (n : Mint) (p : Option Nat) (q : Option Int) : Res Bool := do
  let c ← lt n (left 1)
  if c then return false
  if n.isEven then return false
  let pq ← mLucasParams w n p q
  if (p.isNone ∨ q.isNone) ∧ pq.1 = 0 then return false
  let d ← lucasD (p.isSome && q.isSome) pq.1 pq.2
  let _ ← lucasConv w pq.1 pq.2 d
  let delta ← mLucasDelta w n d
  let uv ← mLucasm pq.1 pq.2 n delta
  return uv.1.isZero

/-- the loop of `is_slprp`, src/primality.rs:276-284, on `Mint` -/
def mSlprpLoop (n : Mint) : Nat → Mint → Mint → Res Bool
  | 0, _, _ => .ok false
  | k + 1, qk, vd => do
    let qk ← msqm qk n
    let a ← msqm vd n
    let b ← mdblm qk n
    let vd ← msubm a b n
    if vd.isZero then return true
    mSlprpLoop n k qk vd

/-- `is_slprp` from the computation of `shift` on, src/primality.rs:254-285, on `Mint` -/
def mSlprpTail (w : Width) (n : Mint) (p : Nat) (q : Int) (delta : Mint) : Res Bool := do
  let dv ← plain delta
  let shift := trailingZeros w dv
  let base ← cshr w dv shift
  let uv ← mLucasm p q n (left base)
  if uv.1.isZero ∨ uv.2.isZero then return true
  if shift = 0 then return false
  let qk ← mpowm (left q.natAbs) (left base) n
  let a ← msqm uv.2 n
  let b ← mdblm qk n
  let vd ← (if q ≥ 0 then msubm a b n else maddm a b n : Res Mint)
  if vd.isZero then return true
  mSlprpLoop n (shift - 1) qk vd

/-- `is_slprp`, src/primality.rs:222-286, on `Mint` -/
def mIsSlprp (w : Width) (n : Mint) (p : Option Nat) (q : Option Int) : Res Bool := do
  let c ← lt n (left 1)
  if c then return false
  if n.isEven then return false
  let pq ← mLucasParams w n p q
  if (p.isNone ∨ q.isNone) ∧ pq.1 = 0 then return false
  let d ← lucasD (p.isSome && q.isSome) pq.1 pq.2
  let _ ← lucasConv w pq.1 pq.2 d
  let delta ← mLucasDelta w n d
  mSlprpTail w n pq.1 pq.2 delta

/-- the loop of `is_eslprp`, src/primality.rs:332-338, on `Mint` -/
def mEslprpLoop (n two : Mint) : Nat → Mint → Res Bool
  | 0, _ => .ok false
  | k + 1, vd => do
    let a ← msqm vd n
    let vd ← msubm a two n
    if vd.isZero then return true
    mEslprpLoop n two k vd

/-- `is_eslprp` from the computation of `shift` on, src/primality.rs:318-340, on `Mint` -/
def mEslprpTail (w : Width) (n : Mint) (p : Nat) (delta : Mint) : Res Bool := do
  let dv ← plain delta
  let shift := trailingZeros w dv
  let base ← cshr w dv shift
  let uv ← mLucasm p 1 n (left base)
  let two := left 2
  let c ← (if uv.1.isZero then do
      let c ← eq uv.2 two
      if c then return true
      let nm2 ← sub n two
      eq uv.2 nm2
    else .ok false : Res Bool)
  if c then return true
  if uv.2.isZero then return true
  let s1 ← csub shift 1
  mEslprpLoop n two (s1 - 1) uv.2

/-- `is_eslprp`, src/primality.rs:288-341, on `Mint` -/
def mIsEslprp (w : Width) (n : Mint) (p : Option Nat) : Res Bool := do
  let c ← lt n (left 1)
  if c then return false
  if n.isEven then return false
  let pp ← (match p with
    | some sp => .ok sp
    | none => mPBruteforce w n : Res Nat)
  if p.isNone ∧ pp = 0 then return false
  let d ← lucasD p.isSome pp 1
  let _ ← lucasConv w pp 1 d
  let delta ← mLucasDelta w n d
  mEslprpTail w n pp delta

/-! ## `PrimeBufferExt::is_prime` on `Mint` -/

/-- `witness_list.into_iter().all(..)`, src/buffer.rs:83-85, on `Mint` -/
def mAllSprp (w : Width) (target : Mint) : List Nat → Res Bool
  | [] => .ok true
  | x :: t => do
    let v ← mIsSprp w target (left x)
    if v then mAllSprp w target t else return false

/-- `PrimeBufferExt::is_prime`, src/buffer.rs:39-106, on `Mint` -/
def mIsPrime (bld : Build) (w : Width) (list : List Nat) (target : Mint)
    (config : Option PrimalityTestConfig) (draws : List Nat) : Res Primality := do
  if target.isEven then
    let c ← eq target (left 2)
    return (if c then .yes else .no)
  match target.toU64 with
  | some x => return (if isPrime64 bld x then .yes else .no)
  | none =>
    let config := config.getD .default
    let wl ← drawWitnesses draws config.sprpRandomTrials (list.take config.sprpTrials)
    let a ← mAllSprp w target wl
    if !a then return .no
    let s ← (if config.slprpTest then mIsSlprp w target none none else .ok true : Res Bool)
    if !s then return .no
    let e ← (if config.eslprpTest then mIsEslprp w target none else .ok true : Res Bool)
    if !e then return .no
    return .probable (probability config)

/-! ## `pollard_rho` on `Mint` -/

/-- the variables of the loop in `pollard_rho`, src/factor.rs:89-98, on `Mint` -/
structure MRhoState where
  i : Nat
  j : Nat
  a : Mint
  b : Mint
  z : Mint
  s : Mint
  backtrace : Bool

/-- the loop of `pollard_rho`, src/factor.rs:100-140, on `Mint` -/
def mRhoLoop (target offset : Mint) : Nat → MRhoState → Res (Option Mint × Nat)
  | 0, st => .ok (none, st.i)
  | f + 1, st => do
    let i := st.i + 1
    let a ← msqm st.a target
    let a ← maddm a offset target
    let c ← eq a st.b
    if c then return (none, i)
    let g ← lt a st.b
    let diff ← (if g then sub st.b a else sub a st.b : Res Mint)
    let z ← mmulm st.z diff target
    if z.isZero then
      if st.backtrace then return (none, i)
      let one ← rem (left 1) target
      mRhoLoop target offset f { st with i := i, a := st.s, s := left 1, z := one, backtrace := true }
    else
      let check := i == st.j || i &&& 127 == 0 || st.backtrace
      let d := gcd z target
      let found ← (if check && !d.isOne then (eq d target).mapR (fun c => !c) else .ok false : Res Bool)
      if found then return (some d, i)
      let s := if check then a else st.s
      if i = st.j then mRhoLoop target offset f ⟨i, (st.j <<< 1) % 2 ^ 64, a, a, z, s, st.backtrace⟩
      else mRhoLoop target offset f ⟨i, st.j, a, st.b, z, s, st.backtrace⟩

/-- `pollard_rho`, src/factor.rs:72-143, on `Mint` -/
def mPollardRho (target start offset : Mint) (maxIter : Nat) : Res (Option Mint × Nat) := do
  let one ← rem (left 1) target
  mRhoLoop target offset maxIter ⟨0, 1, start, start, one, start, false⟩

end NumPrime
