import Verif.Model.MintMore
import Verif.Model.ReleasePrimality

/-! # The tests of src/primality.rs, the generic `is_prime` and `pollard_rho` on `Mint` in a build without overflow checks

The `debug_assert!`s of src/mint.rs are not compiled in (`remRel`, `mnegmRel`, … of `Model/MintMore.lean`), and `+`, `-` and `>>` of two
plain numbers wrap around or mask the shift amount. `addm`, `subm`, `mulm` and `==` of two reduced numbers are used as in
`Model/Mint.lean`: they differ only for operands with different moduli, which no test mixes. The default search of the Lucas parameters
is the model with overflow checks: no step of it overflows (C08). -/

namespace NumPrime
namespace Mint

/-- `+`, src/mint.rs:130-207, without overflow checks -/
def addRel (b : Nat) : Mint → Mint → Res Mint
  | left x, left y => .ok (left (wadd b x y))
  | x, y => add (some b) x y

/-- `-`, src/mint.rs:130-208, without overflow checks -/
def subRel (b : Nat) : Mint → Mint → Res Mint
  | left x, left y => .ok (left (wsub b x y))
  | x, y => sub x y

/-- `>>`, src/mint.rs:467-486, without overflow checks -/
def shrRel (b : Nat) (a : Mint) (s : Nat) : Res Mint := (plain a).mapR (fun v => left (v >>> (s % b)))

/-- `a < b` via `partial_cmp`, src/mint.rs:95-107, in release mode -/
def ltRel (a b : Mint) : Bool := partialCmpRel a b == .lt

end Mint

open Mint

/-- the body of the loop of `lucasm`, src/primality.rs:51-77, on `Mint` in release mode -/
def mLucasStepRel (p q m : Mint) (b : Bool) (s : Mint × Mint) : Res (Mint × Mint) := do
  let uk := s.1
  let uk1 := s.2
  if b then
    let uk1sq ← msqmRel uk1 m
    let t1 ← mmulm p uk1sq m
    let a ← mmulm q uk1 m
    let a ← mmulm a uk m
    let t2 ← mdblmRel a m
    let newUk1 ← msubm t1 t2 m
    let a ← msqmRel uk m
    let t2' ← mmulm q a m
    let newUk ← msubm uk1sq t2' m
    return (newUk, newUk1)
  else
    let uksq ← msqmRel uk m
    let t1 ← msqmRel uk1 m
    let t2 ← mmulm uksq q m
    let newUk1 ← msubm t1 t2 m
    let a ← mmulm uk1 uk m
    let t1' ← mdblmRel a m
    let t2' ← mmulm uksq p m
    let newUk ← msubm t1' t2' m
    return (newUk, newUk1)

/-- the loop of `lucasm`, src/primality.rs:50-78, on `Mint` in release mode -/
def mLucasLoopRel (p q m : Mint) (n : Nat) : Nat → Mint × Mint → Res (Mint × Mint)
  | 0, s => .ok s
  | i + 1, s => do
    let s ← mLucasStepRel p q m (n.testBit i) s
    mLucasLoopRel p q m n i s

/-- `lucasm`, src/primality.rs:36-83, on `Mint` in release mode -/
def mLucasmRel (p : Nat) (q : Int) (m n : Mint) : Res (Mint × Mint) := do
  let p ← remRel (left p) m
  let q ← (if q ≥ 0 then remRel (left q.toNat) m else mnegmRel (left (-q).toNat) m : Res Mint)
  let uk ← remRel (left 0) m
  let uk1 ← remRel (left 1) m
  let nv ← plain n
  let s ← mLucasLoopRel p q m nv (bits nv) (uk, uk1)
  let a ← mdblmRel s.2 m
  let b ← mmulm p s.1 m
  let vk ← msubm a b m
  return (s.1, vk)

/-- `is_prp`, src/primality.rs:141-147, on `Mint` in release mode -/
def mIsPrpRel (b : Nat) (n base : Mint) : Res Bool := do
  if ltRel n (left 1) then return false
  let tm1 ← subRel b n (left 1)
  let x ← mpowmRel base tm1 n
  return x.isOne

/-- the loop of `test_sprp`, src/primality.rs:172-184, on `Mint` in release mode -/
def mSprpLoopRel (b : Nat) (n m1 mm1 : Mint) : Nat → Mint → Res MSprpResult
  | 0, x => (eq x m1).mapR .left
  | k + 1, x => do
    let y ← msqmRel x n
    let c ← eq y m1
    if c then
      let x1 ← subRel b x (left 1)
      return .right (gcd n x1)
    let c ← eq y mm1
    if c then return .left true
    mSprpLoopRel b n m1 mm1 k y

/-- `test_sprp`, src/primality.rs:154-185, on `Mint` in release mode -/
def mTestSprpRel (b : Nat) (n base : Mint) : Res MSprpResult := do
  if ltRel n (left 1) then return .left false
  let tm1 ← subRel b n (left 1)
  let t ← plain tm1
  let shift := trailingZeros (some b) t
  let u ← shrRel b tm1 shift
  let m1 ← remRel (left 1) n
  let mm1 ← mnegmRel m1 n
  let x ← mpowmRel base u n
  let c ← eq x m1
  let c ← (if c then .ok true else eq x mm1 : Res Bool)
  if c then return .left true
  mSprpLoopRel b n m1 mm1 shift x

/-- `is_sprp`, src/primality.rs:150-152, on `Mint` in release mode -/
def mIsSprpRel (b : Nat) (n base : Mint) : Res Bool := (mTestSprpRel b n base).mapR MSprpResult.verdict

/-- `delta`, src/primality.rs:206-217,241-252,305-316, on `Mint` in release mode -/
def mLucasDeltaRel (b : Nat) (n : Mint) (d : Int) : Res Mint := do
  let dm ← (if d > 0 then .ok (left d.toNat) else mnegmRel (left (-d).toNat) n : Res Mint)
  let j ← mjacobi dm n
  if j = 0 then return n
  else if j = -1 then addRel b n (left 1)
  else if j = 1 then subRel b n (left 1)
  else .panic

/-- `is_lprp`, src/primality.rs:187-220, on `Mint` in release mode -/
def mIsLprpRel (b : Nat) (n : Mint) (p : Option Nat) (q : Option Int) : Res Bool := do
  if ltRel n (left 1) then return false
  if n.isEven then return false
  let pq ← mLucasParams (some b) n p q
  if (p.isNone ∨ q.isNone) ∧ pq.1 = 0 then return false
  let d ← lucasDRel (p.isSome && q.isSome) pq.1 pq.2
  let _ ← lucasConv (some b) pq.1 pq.2 d
  let delta ← mLucasDeltaRel b n d
  let uv ← mLucasmRel pq.1 pq.2 n delta
  return uv.1.isZero

/-- the loop of `is_slprp`, src/primality.rs:276-284, on `Mint` in release mode -/
def mSlprpLoopRel (n : Mint) : Nat → Mint → Mint → Res Bool
  | 0, _, _ => .ok false
  | k + 1, qk, vd => do
    let qk ← msqmRel qk n
    let a ← msqmRel vd n
    let b ← mdblmRel qk n
    let vd ← msubm a b n
    if vd.isZero then return true
    mSlprpLoopRel n k qk vd

/-- `is_slprp` from the computation of `shift` on, src/primality.rs:254-285, on `Mint` in release mode -/
def mSlprpTailRel (b : Nat) (n : Mint) (p : Nat) (q : Int) (delta : Mint) : Res Bool := do
  let dv ← plain delta
  let shift := trailingZeros (some b) dv
  let base ← shrRel b delta shift
  let uv ← mLucasmRel p q n base
  if uv.1.isZero ∨ uv.2.isZero then return true
  if shift = 0 then return false
  let qk ← mpowmRel (left q.natAbs) base n
  let x ← msqmRel uv.2 n
  let y ← mdblmRel qk n
  let vd ← (if q ≥ 0 then msubm x y n else maddm x y n : Res Mint)
  if vd.isZero then return true
  mSlprpLoopRel n (shift - 1) qk vd

/-- `is_slprp`, src/primality.rs:222-286, on `Mint` in release mode -/
def mIsSlprpRel (b : Nat) (n : Mint) (p : Option Nat) (q : Option Int) : Res Bool := do
  if ltRel n (left 1) then return false
  if n.isEven then return false
  let pq ← mLucasParams (some b) n p q
  if (p.isNone ∨ q.isNone) ∧ pq.1 = 0 then return false
  let d ← lucasDRel (p.isSome && q.isSome) pq.1 pq.2
  let _ ← lucasConv (some b) pq.1 pq.2 d
  let delta ← mLucasDeltaRel b n d
  mSlprpTailRel b n pq.1 pq.2 delta

/-- the loop of `is_eslprp`, src/primality.rs:332-338, on `Mint` in release mode -/
def mEslprpLoopRel (n two : Mint) : Nat → Mint → Res Bool
  | 0, _ => .ok false
  | k + 1, vd => do
    let a ← msqmRel vd n
    let vd ← msubm a two n
    if vd.isZero then return true
    mEslprpLoopRel n two k vd

/-- `is_eslprp` from the computation of `shift` on, src/primality.rs:318-340, on `Mint` in release mode -/
def mEslprpTailRel (b : Nat) (n : Mint) (p : Nat) (delta : Mint) : Res Bool := do
  let dv ← plain delta
  let shift := trailingZeros (some b) dv
  let base ← shrRel b delta shift
  let uv ← mLucasmRel p 1 n base
  let two := left 2
  let c ← (if uv.1.isZero then do
      let c ← eq uv.2 two
      if c then return true
      let nm2 ← subRel b n two
      eq uv.2 nm2
    else .ok false : Res Bool)
  if c then return true
  if uv.2.isZero then return true
  mEslprpLoopRel n two (wsub 64 shift 1 - 1) uv.2

/-- `is_eslprp`, src/primality.rs:288-341, on `Mint` in release mode -/
def mIsEslprpRel (b : Nat) (n : Mint) (p : Option Nat) : Res Bool := do
  if ltRel n (left 1) then return false
  if n.isEven then return false
  let pp ← (match p with
    | some sp => .ok sp
    | none => mPBruteforce (some b) n : Res Nat)
  if p.isNone ∧ pp = 0 then return false
  let d ← lucasDRel p.isSome pp 1
  let _ ← lucasConv (some b) pp 1 d
  let delta ← mLucasDeltaRel b n d
  mEslprpTailRel b n pp delta

/-- `witness_list.into_iter().all(..)`, src/buffer.rs:83-85, on `Mint` in release mode -/
def mAllSprpRel (b : Nat) (target : Mint) : List Nat → Res Bool
  | [] => .ok true
  | x :: t => do
    let v ← mIsSprpRel b target (left x)
    if v then mAllSprpRel b target t else return false

/-- `PrimeBufferExt::is_prime`, src/buffer.rs:39-106, on `Mint` in release mode -/
def mIsPrimeRel (bld : Build) (b : Nat) (list : List Nat) (target : Mint) (config : Option PrimalityTestConfig)
    (draws : List Nat) : Res Primality := do
  if target.isEven then
    let c ← eq target (left 2)
    return (if c then .yes else .no)
  match target.toU64 with
  | some x => return (if isPrime64 bld x then .yes else .no)
  | none =>
    let config := config.getD .default
    let wl ← drawWitnesses draws config.sprpRandomTrials (list.take config.sprpTrials)
    let a ← mAllSprpRel b target wl
    if !a then return .no
    let s ← (if config.slprpTest then mIsSlprpRel b target none none else .ok true : Res Bool)
    if !s then return .no
    let e ← (if config.eslprpTest then mIsEslprpRel b target none else .ok true : Res Bool)
    if !e then return .no
    return .probable (probability config)

/-- the loop of `pollard_rho`, src/factor.rs:100-140, on `Mint` in release mode -/
def mRhoLoopRel (w : Nat) (target offset : Mint) : Nat → MRhoState → Res (Option Mint × Nat)
  | 0, st => .ok (none, st.i)
  | f + 1, st => do
    let i := wadd 64 st.i 1
    let a ← msqmRel st.a target
    let a ← maddm a offset target
    let c ← eq a st.b
    if c then return (none, i)
    let diff ← (if ltRel a st.b then subRel w st.b a else subRel w a st.b : Res Mint)
    let z ← mmulm st.z diff target
    if z.isZero then
      if st.backtrace then return (none, i)
      let one ← remRel (left 1) target
      mRhoLoopRel w target offset f { st with i := i, a := st.s, s := left 1, z := one, backtrace := true }
    else
      let check := i == st.j || i &&& 127 == 0 || st.backtrace
      let d := gcd z target
      let found ← (if check && !d.isOne then (eq d target).mapR (fun c => !c) else .ok false : Res Bool)
      if found then return (some d, i)
      let s := if check then a else st.s
      if i = st.j then mRhoLoopRel w target offset f ⟨i, (st.j <<< 1) % 2 ^ 64, a, a, z, s, st.backtrace⟩
      else mRhoLoopRel w target offset f ⟨i, st.j, a, st.b, z, s, st.backtrace⟩

/-- `pollard_rho`, src/factor.rs:72-143, on `Mint` in release mode -/
def mPollardRhoRel (w : Nat) (target start offset : Mint) (maxIter : Nat) : Res (Option Mint × Nat) := do
  let one ← remRel (left 1) target
  mRhoLoopRel w target offset maxIter ⟨0, 1, start, start, one, start, false⟩

end NumPrime
