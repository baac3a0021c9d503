import Verif.Model.Factor
import Verif.Model.Rand

/-! # Model of examples/profile_factorization.rs

Random arguments are arbitrary functions of the number of the draw, the clock is an arbitrary function of the number of the timed call.
Not modelled: printing and the CSV file. -/

namespace NumPrime

/-- a factorization method as a function of the iteration limit -/
abbrev Method := Nat → Res (Option Nat × Nat)

/-- `best.min((iters, time))`: the lexicographic minimum of two pairs -/
def pairMin (a b : Nat × Nat) : Nat × Nat := if b.1 < a.1 ∨ (b.1 = a.1 ∧ b.2 < a.2) then b else a

/-- the three loops of `profile_n_min`, examples/profile_factorization.rs:61-68,73-82,87-96: each method runs with the best number of
iterations so far as its limit; `j` counts the timed calls -/
def profileBest (clock : Nat → Nat) : List Method → Nat → Nat × Nat → Res (Nat × Nat)
  | [], _, best => .ok best
  | run :: t, j, best => do
    let (result, iters) ← run best.1
    profileBest clock t (j + 1) (if result.isSome then pairMin best (iters, clock j) else best)

/-- the runs of Pollard's rho, examples/profile_factorization.rs:19-24,62-64 -/
def rhoRuns (start offset : Nat → Nat) (repeats n : Nat) : List Method :=
  (List.range repeats).map fun r m => pollardRho n (start r) (offset r) m

/-- the runs with a multiplier, skipped if the product overflows `u128`, examples/profile_factorization.rs:74-77,88-91 -/
def multRuns (method : Nat → Nat → Method) (n : Nat) (ks : List Nat) : List Method :=
  (ks.filter fun k => fits (some 128) (n * k)).map fun k => method n (n * k)

/-- `k_oneline`, examples/profile_factorization.rs:12,54 -/
def kOneline : List Nat := [1, 360, 480]

/-- `as usize` -/
def asUsize (x : Nat) : Nat := x % 2 ^ 64

/-- `profile_n_min`, examples/profile_factorization.rs:52-101. Line 98 stores the time of `squfof` as the time of `one_line`. `fuel` bounds
the rounds of the backward loops of `squfof`; `c1`, `c2`, `c3` are the clock readings of the three loops. -/
def profileNMin (bld : Build) (fuel : Nat) (start offset c1 c2 c3 : Nat → Nat) (n : Nat) : Res (List (String × Nat)) := do
  let init := (2 ^ 24, 2 ^ 128 - 1)
  let pollard ← profileBest c1 (rhoRuns start offset 4 n) 0 init
  let sq ← profileBest c2 (multRuns (squfof bld (some 128) fuel) n squfofMultipliers) 0 init
  let ol ← profileBest c3 (multRuns (oneLine bld (some 128)) n kOneline) 0 init
  return [("pollard_rho", pollard.1), ("time_pollard_rho", asUsize pollard.2), ("squfof", sq.1), ("time_squfof", asUsize sq.2),
    ("one_line", ol.1), ("time_one_line", asUsize sq.2)]

/-- one entry per multiplier, examples/profile_factorization.rs:27-35,38-46 -/
def profileMults (method : Nat → Nat → Method) (n maxIter : Nat) : List Nat → Res (List Nat)
  | [] => .ok []
  | k :: t => do
    let x ← (if fits (some 128) (n * k) then (method n (n * k) maxIter).mapR Prod.snd else .ok maxIter : Res Nat)
    let xs ← profileMults method n maxIter t
    return x :: xs

/-- the calls of Pollard's rho in `profile_n`, examples/profile_factorization.rs:19-24 -/
def profileRho (maxIter : Nat) : List Method → Res (List Nat)
  | [] => .ok []
  | run :: t => do
    let x ← (run maxIter).mapR Prod.snd
    let xs ← profileRho maxIter t
    return x :: xs

/-- `profile_n`, examples/profile_factorization.rs:10-49, without the labels -/
def profileN (bld : Build) (fuel : Nat) (start offset : Nat → Nat) (n : Nat) : Res (List Nat) := do
  let a ← profileRho (2 ^ 20) (rhoRuns start offset 2 n)
  let b ← profileMults (squfof bld (some 128) fuel) n (2 ^ 20) (squfofMultipliers.take 10)
  let c ← profileMults (oneLine bld (some 128)) n (2 ^ 20) kOneline
  return a ++ b ++ c

/-- the choice of a number in `main`, examples/profile_factorization.rs:113-120; `none` for two equal primes -/
def profileSemiprime (bld : Build) (src : RandSource) (fuel totalBits k : Nat) : Res (Option Nat × Nat) := do
  let (p1, k) ← genPrime128 bld src none fuel (totalBits / 2) k
  let rest ← csub totalBits (bitLen p1)
  let (p2, k) ← genPrimeExact128 bld src none fuel rest k
  if p1 = p2 then return (none, k)
  let n ← cmul (some 128) p1 p2
  return (some n, k)

end NumPrime
