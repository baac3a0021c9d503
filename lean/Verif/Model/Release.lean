import Verif.Model.Factorize

/-! The divisor search of `factorize64` and `factorize128` in a build without overflow checks (`cargo build --release`): there
`+`, `-`, `*` and `<<` on machine integers wrap around. Only the functions whose arithmetic can overflow on the paths used
by the factorization are written again; everything else performs no overflowing operation there (C41, C39, C80). -/

namespace NumPrime
open Tables

/-- `+` on a `b` bit unsigned type without overflow checks -/
def wadd (b x y : Nat) : Nat := (x + y) % 2 ^ b

/-- `-` on a `b` bit unsigned type without overflow checks (for operands of the type) -/
def wsub (b x y : Nat) : Nat := (x + 2 ^ b - y) % 2 ^ b

/-- `*` on a `b` bit unsigned type without overflow checks -/
def wmul (b x y : Nat) : Nat := (x * y) % 2 ^ b

/-- `sqrt_exact` for machine integers without overflow checks, src/integer.rs:51-59: the shift amount is masked -/
def sqrtExactRel (b n : Nat) : Option Nat :=
  let shift := trailingZeros (some b) n
  if shift &&& 1 = 1 then none
  else if (n >>> (shift % b)) &&& 7 ≠ 1 then none
  else nthRootExact n 2

/-- the loop of `one_line`, src/factor.rs:298-314, without overflow checks (`checked_add` in line 309 is unaffected) -/
def oneLineLoopRel (b target mulTarget maxIter : Nat) : Nat → Nat → Nat → Option Nat × Nat
  | 0, _, _ => (none, maxIter)
  | f + 1, i, ikn =>
    let s := wadd b (isqrt ikn) 1
    let m := wsub b (wmul b s s) ikn
    let g := (sqrtExactRel b m).map (fun t => Nat.gcd target (wsub b s t))
    if g.isSome ∧ g ≠ some 1 ∧ g ≠ some target then (g, i)
    else if fits (some b) (ikn + mulTarget) then oneLineLoopRel b target mulTarget maxIter f (i + 1) (ikn + mulTarget)
    else (none, i)

/-- `one_line`, src/factor.rs:284-316, without overflow checks -/
def oneLineRel (b target mulTarget maxIter : Nat) : Res (Option Nat × Nat) :=
  if target = 0 ∨ mulTarget % target ≠ 0 then .panic
  else .ok (oneLineLoopRel b target mulTarget maxIter (maxIter - 1) 1 mulTarget)

/-- the loop over the SQUFOF multipliers, src/nt_funcs.rs:293-301,452-460, without overflow checks -/
def trySqufofRel (bld : Build) (b fuel target ratio : Nat) : List Nat → Res (Option Nat)
  | [] => .ok none
  | k :: ks =>
    if fits (some b) (target * k) then do
      let maxIter := wmul 64 (wmul 64 ratio 2) (isqrt (isqrt (target * k)) % 2 ^ 64)
      let (d, _) ← squfof bld (some b) fuel target (target * k) maxIter
      match d with
      | some p => return some p
      | none => trySqufofRel bld b fuel target ratio ks
    else trySqufofRel bld b fuel target ratio ks

/-- one round of the divisor search, src/nt_funcs.rs:267-307,427-466, without overflow checks -/
def tryMethodRel (bld : Build) (b : Nat) (rng : Rng) (fuel target k i ratio : Nat) : Res (Option Nat × Nat) :=
  match i % 3 with
  | 0 => (tryRho rng k target ((ratio <<< (bits target / 6)) % 2 ^ 64)).mapR (fun d => (d, k + 2))
  | 1 =>
    let mulTarget := if fits (some b) (target * 480) then target * 480 else target
    (oneLineRel b target mulTarget ((ratio <<< (bits mulTarget / 6)) % 2 ^ 64)).mapR (fun d => (d.1, k))
  | _ => (trySqufofRel bld b fuel target ratio squfofMultipliers).mapR (fun d => (d, k))

/-- the divisor search, src/nt_funcs.rs:262-314,422-473, without overflow checks: the ratio wraps around -/
def findDivisorRel (bld : Build) (b : Nat) (rng : Rng) (fuel target : Nat) : Nat → Nat → Nat → Nat → Res (Nat × Nat)
  | 0, _, _, _ => .timeout
  | f + 1, k, i, ratio => do
    let (d, k) ← tryMethodRel bld b rng fuel target k i ratio
    match d with
    | some d => return (d, k)
    | none => findDivisorRel bld b rng fuel target f k (i + 1) (if (i + 1) % 3 = 0 then wmul 64 ratio 2 else ratio)

/-- the divisor search started by the worklist loops, without overflow checks -/
def searchRel (bld : Build) (b : Nat) (rng : Rng) (fuel target k : Nat) : Res (Nat × Nat) :=
  findDivisorRel bld b rng fuel target fuel k 0 1

/-- `factorize64`, src/nt_funcs.rs:148-236, without overflow checks, for positive targets -/
def factorize64Rel (bld : Build) (rng : Rng) (fuel k target : Nat) : Res (List (Nat × Nat) × Nat) :=
  factorize64With bld (searchRel bld 64 rng fuel) fuel k target

/-- `factorize128`, src/nt_funcs.rs:323-381, without overflow checks, for positive targets -/
def factorize128Rel (bld : Build) (rng : Rng) (fuel k target : Nat) : Res (List (Nat × Nat) × Nat) :=
  factorize128With bld (searchRel bld 64 rng fuel) (searchRel bld 128 rng fuel) fuel k target

end NumPrime
