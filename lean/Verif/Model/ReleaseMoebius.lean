import Verif.Model.Moebius
import Verif.Model.Release

/-! # `factors`, `factorize`, `moebius` and `is_square_free` for machine integers in a build without overflow checks

Every machine integer is below 2^128, so src/buffer.rs:121-124 answers with `factorize128`. -/

namespace NumPrime

/-- `factors`, src/buffer.rs:117-124, for positive numbers below 2^128, without overflow checks -/
def factorsRel (bld : Build) (rng : Rng) (fuel k target : Nat) : Res (List (Nat × Nat) × Option (List Nat) × Nat) := do
  let (m, k) ← factorize128Rel bld rng fuel k target
  return (m, none, k)

/-- `factorize`, src/buffer.rs:185-196 and src/nt_funcs.rs:525-530, for positive numbers below 2^128, without overflow checks -/
def factorizeRel (bld : Build) (rng : Rng) (fuel : Nat) : Nat → Nat → Nat → Res (List (Nat × Nat) × Nat)
  | 0, _, _ => .timeout
  | f + 1, k, target => do
    let (m, rest, k) ← factorsRel bld rng fuel k target
    match rest with
    | none => return (m, k)
    | some _ => factorizeRel bld rng fuel f k target

/-- `moebius` on odd targets of a `b` bit type, src/nt_funcs.rs:589-612, without overflow checks -/
def moebiusOddPartRel (bld : Build) (b : Nat) (rng : Rng) (fuel attempts k target : Nat) : Res Int := do
  let v := wsub b target 1
  if v < 2 ^ 8 then return moebiusLookup v
  if target % 9 = 0 ∨ target % 25 = 0 ∨ target % 49 = 0 then return 0
  let (f, _) ← factorizeRel bld rng fuel attempts k target
  return moebiusFactorized f

/-- `moebius` for a `b` bit type, src/nt_funcs.rs:577-613, without overflow checks -/
def moebiusRel (bld : Build) (b : Nat) (rng : Rng) (fuel attempts k target : Nat) : Res Int := do
  if target % 2 = 0 then
    if target % 4 = 0 then return 0
    else
      let m ← moebiusOddPartRel bld b rng fuel attempts k (target / 2)
      return -m
  else moebiusOddPartRel bld b rng fuel attempts k target

/-- `is_square_free` for a `b` bit type, src/nt_funcs.rs:631-636, without overflow checks -/
def isSquareFreeRel (bld : Build) (b : Nat) (rng : Rng) (fuel attempts k target : Nat) : Res Bool := do
  let m ← moebiusRel bld b rng fuel attempts k target
  return m ≠ 0

end NumPrime
