import Verif.Model.Factor
import Verif.Model.Buffer

/-! # Model of the factorization functions in src/nt_funcs.rs and src/buffer.rs

Random numbers come from an arbitrary source `Rng`; a counter says how many values have been used. Exponents (`usize`)
are naturals: an exponent never exceeds the number of bits of the target. -/

namespace NumPrime
open Tables

/-- the values produced by `rand::random()`: single words (used by Pollard's rho) and the sequences of witnesses drawn by
one run of the generic primality test -/
structure Rng where
  word : Nat → Nat
  draws : Nat → List Nat

/-! ## table-driven exact division -/

/-- `u64::div_exact(p, &pinv)` with `pinv = PreModInv { d_inv, q_lim }` (external: num-modular 0.5):
`q = self.wrapping_mul(d_inv); if q <= q_lim { Some(q) } else { None }` -/
def divExact64 (n : Nat) (pinv : Nat × Nat) : Option Nat :=
  let q := wmul64 n pinv.1
  if q ≤ pinv.2 then some q else none

/-- `u128::div_exact(p: u64, &pinv)` (external: num-modular 0.5), by its contract: exact division -/
def divExact128 (n p : Nat) : Option Nat := if n % p = 0 then some (n / p) else none

/-- `while let Some(q) = residual.div_exact(p, &pinv) { exp += 1; residual = q; }`, src/nt_funcs.rs:207-211,365-369. The
first argument bounds the rounds (the caller passes the residual plus one). -/
def divOut (div : Nat → Option Nat) : Nat → Nat → Nat → Res (Nat × Nat)
  | 0, _, _ => .timeout
  | f + 1, r, e =>
    match div r with
    | some q => divOut div f q (e + 1)
    | none => .ok (r, e)

/-- the trial division loop of `factorize64` without `big-table`, src/nt_funcs.rs:176-192: residual, map and `factored` -/
def tdSmall64 (tsqrt : Nat) : List Nat → Nat → List (Nat × Nat) → Res (Nat × List (Nat × Nat) × Bool)
  | [], r, m => .ok (r, m, false)
  | p :: ps, r, m => do
    if p > tsqrt then return (r, m, true)
    let (r, m) ← divOutMap p (r + 1) r m
    if r = 1 then return (r, m, true)
    tdSmall64 tsqrt ps r m

/-- the trial division loop of `factorize64` with `big-table`, src/nt_funcs.rs:194-220 -/
def tdBig64 (tsqrt : Nat) : List (Nat × Nat × Nat) → Nat → List (Nat × Nat) → Res (Nat × List (Nat × Nat) × Bool)
  | [], r, m => .ok (r, m, false)
  | (p, pinv) :: ps, r, m => do
    if p > tsqrt then return (r, m, true)
    let (r, e) ← divOut (fun n => divExact64 n pinv) (r + 1) r 0
    let m := if e > 0 then mapInsert m p e else m
    if r = 1 then return (r, m, true)
    tdBig64 tsqrt ps r m

/-- `SMALL_PRIMES.iter().map(..).zip(SMALL_PRIMES_INV.iter()).skip(1)`, src/nt_funcs.rs:196-200 -/
def primesWithInv : List (Nat × Nat × Nat) := ((smallPrimes .big).zip smallPrimesInvB).drop 1

/-- trial division of `factorize64` in the selected build -/
def td64 (bld : Build) (tsqrt r : Nat) (m : List (Nat × Nat)) : Res (Nat × List (Nat × Nat) × Bool) :=
  match bld with
  | .small => tdSmall64 tsqrt ((smallPrimes .small).drop 1) r m
  | .big => tdBig64 tsqrt primesWithInv r m

/-! ## the search for a divisor -/

/-- Pollard's rho on `SmallMint` values, src/nt_funcs.rs:271-283,429-441. `MontgomeryInt::new` panics for an even modulus;
that the Montgomery representation does not change the result is property C64. -/
def tryRho (rng : Rng) (k target maxIter : Nat) : Res (Option Nat) :=
  if target % 2 = 0 then .panic
  else (pollardRho target (rng.word k % target) (rng.word (k + 1) % target) maxIter).mapR Prod.fst

/-- the loop over the SQUFOF multipliers, src/nt_funcs.rs:295-304,453-462 -/
def trySqufof (bld : Build) (b fuel target ratio : Nat) : List Nat → Res (Option Nat)
  | [] => .ok none
  | k :: ks =>
    if fits (some b) (target * k) then do
      let r2 ← cmul (some 64) ratio 2
      let maxIter ← cmul (some 64) r2 (isqrt (isqrt (target * k)) % 2 ^ 64)
      let (d, _) ← squfof bld (some b) fuel target (target * k) maxIter
      match d with
      | some p => return some p
      | none => trySqufof bld b fuel target ratio ks
    else trySqufof bld b fuel target ratio ks

/-- one round of the divisor search, src/nt_funcs.rs:268-311,426-469, for `u64` (`b = 64`) or `u128` (`b = 128`): the
divisor found and the number of random words used so far -/
def tryMethod (bld : Build) (b : Nat) (rng : Rng) (fuel target k i ratio : Nat) : Res (Option Nat × Nat) :=
  match i % 3 with
  | 0 => (tryRho rng k target ((ratio <<< (bits target / 6)) % 2 ^ 64)).mapR (fun d => (d, k + 2))
  | 1 =>
    let mulTarget := if fits (some b) (target * 480) then target * 480 else target
    (oneLine bld (some b) target mulTarget ((ratio <<< (bits mulTarget / 6)) % 2 ^ 64)).mapR (fun d => (d.1, k))
  | _ => (trySqufof bld b fuel target ratio squfofMultipliers).mapR (fun d => (d, k))

/-- the divisor search, src/nt_funcs.rs:264-313,421-471; the last numeric argument before the state bounds the rounds -/
def findDivisor (bld : Build) (b : Nat) (rng : Rng) (fuel target : Nat) : Nat → Nat → Nat → Nat → Res (Nat × Nat)
  | 0, _, _, _ => .timeout
  | f + 1, k, i, ratio => do
    let (d, k) ← tryMethod bld b rng fuel target k i ratio
    match d with
    | some d => return (d, k)
    | none =>
      let ratio ← (if (i + 1) % 3 = 0 then cmul (some 64) ratio 2 else .ok ratio : Res Nat)
      findDivisor bld b rng fuel target f k (i + 1) ratio

/-- the divisor search started by the worklist loops (`let mut i = 0; let mut max_iter_ratio = 1;`), from the number of
random words used so far -/
def search (bld : Build) (b : Nat) (rng : Rng) (fuel target k : Nat) : Res (Nat × Nat) :=
  findDivisor bld b rng fuel target fuel k 0 1

/-! ## factorize64

The worklist loops take the divisor search as an argument `find`, so that the numbers it is started on can be talked
about; the functions of the crate use `search`. -/

/-- the worklist loop of `factorize64_advanced`, src/nt_funcs.rs:243-318. The head of `todo` is the top of the stack. The
argument `f` bounds the rounds. Result: the factors and the number of random words used. -/
def advanced64Loop (bld : Build) (find : Nat → Nat → Res (Nat × Nat)) :
    Nat → Nat → List (Nat × Nat) → List (Nat × Nat) → Res (List (Nat × Nat) × Nat)
  | _, k, [], done => .ok (done, k)
  | 0, _, _ :: _, _ => .timeout
  | f + 1, k, (target, exp) :: todo, done =>
    if isPrime64Miller bld target then advanced64Loop bld find f k todo (done ++ [(target, exp)])
    else do
      match ← sqrtExact bld (some 64) target with
      | some d => advanced64Loop bld find f k ((d, exp * 2) :: todo) done
      | none =>
        match cbrtExact bld (some 64) target with
        | some d => advanced64Loop bld find f k ((d, exp * 3) :: todo) done
        | none => do
          let (d, k) ← find target k
          let q ← cdiv target d
          advanced64Loop bld find f k ((q, exp) :: (d, exp) :: todo) done

/-- `factorize64_advanced`, src/nt_funcs.rs:239-319; `cofactors` with the last one first -/
def factorize64Advanced (bld : Build) (find : Nat → Nat → Res (Nat × Nat)) (fuel k : Nat) (cofactors : List (Nat × Nat)) :
    Res (List (Nat × Nat) × Nat) := advanced64Loop bld find fuel k cofactors []

/-- `for (p, exp) in factors { *result.entry(p).or_insert(0) += exp; }`, src/nt_funcs.rs:230-232 -/
def mergeFactors (m : List (Nat × Nat)) (l : List (Nat × Nat)) : List (Nat × Nat) :=
  l.foldl (fun m x => mapAdd m x.1 x.2) m

/-- `factorize64` with a given divisor search, src/nt_funcs.rs:148-236 -/
def factorize64With (bld : Build) (find : Nat → Nat → Res (Nat × Nat)) (fuel k target : Nat) :
    Res (List (Nat × Nat) × Nat) := do
  let f2 := trailingZeros (some 64) target
  if f2 = 0 ∧ isPrime64 bld target then return ([(target, 1)], k)
  let m := if f2 = 0 then [] else [(2, f2)]
  let tsqrt ← cadd (some 64) (isqrt target) 1
  let r ← cshr (some 64) target f2
  let (r, m, factored) ← td64 bld tsqrt r m
  if factored then return (if r ≠ 1 then mapInsert m r 1 else m, k)
  let (l, k) ← factorize64Advanced bld find fuel k [(r, 1)]
  return (mergeFactors m l, k)

/-- `factorize64`, src/nt_funcs.rs:148-236: the map and the number of random words used -/
def factorize64 (bld : Build) (rng : Rng) (fuel k target : Nat) : Res (List (Nat × Nat) × Nat) :=
  factorize64With bld (search bld 64 rng fuel) fuel k target

/-! ## factorize128 -/

/-- the trial division loop of `factorize128` without `big-table`, src/nt_funcs.rs:348-356; the flag says that the function
returned from inside the loop -/
def tdSmall128 : List Nat → Nat → List (Nat × Nat) → Res (Nat × List (Nat × Nat) × Bool)
  | [], r, m => .ok (r, m, false)
  | p :: ps, r, m => do
    let (r, m) ← divOutMap p (r + 1) r m
    if r = 1 then return (r, m, true)
    tdSmall128 ps r m

/-- the trial division loop of `factorize128` with `big-table`, src/nt_funcs.rs:358-378 -/
def tdBig128 : List (Nat × Nat × Nat) → Nat → List (Nat × Nat) → Res (Nat × List (Nat × Nat) × Bool)
  | [], r, m => .ok (r, m, false)
  | (p, _) :: ps, r, m => do
    let (r, e) ← divOut (fun n => divExact128 n p) (r + 1) r 0
    let m := if e > 0 then mapInsert m p e else m
    if r = 1 then return (r, m, true)
    tdBig128 ps r m

/-- trial division of `factorize128` in the selected build -/
def td128 (bld : Build) (r : Nat) (m : List (Nat × Nat)) : Res (Nat × List (Nat × Nat) × Bool) :=
  match bld with
  | .small => tdSmall128 ((smallPrimes .small).drop 1) r m
  | .big => tdBig128 primesWithInv r m

/-- put a cofactor on the worklist for its size: `u64::try_from(co)`, src/nt_funcs.rs:387-391,404-408,412-416,473-483 -/
def pushCofactor (x : Nat × Nat) (t : List (Nat × Nat) × List (Nat × Nat)) : List (Nat × Nat) × List (Nat × Nat) :=
  if x.1 < 2 ^ 64 then (t.1, x :: t.2) else (x :: t.1, t.2)

/-- the worklist loop of `factorize128_advanced`, src/nt_funcs.rs:394-484: remaining 64 bit cofactors, factors and the
number of random words used. The primality test runs on a `SmallMint` (see C64). -/
def advanced128Loop (bld : Build) (find : Nat → Nat → Res (Nat × Nat)) :
    Nat → Nat → List (Nat × Nat) × List (Nat × Nat) → List (Nat × Nat) →
    Res (List (Nat × Nat) × List (Nat × Nat) × Nat)
  | _, k, ([], todo64), done => .ok (todo64, done, k)
  | 0, _, (_ :: _, _), _ => .timeout
  | f + 1, k, ((target, exp) :: todo, todo64), done => do
    let v ← isPrimeNew bld (some 128) target (some .bpsw) []
    if v.probably then advanced128Loop bld find f k (todo, todo64) (done ++ [(target, exp)])
    else
      match ← sqrtExact bld (some 128) target with
      | some d => advanced128Loop bld find f k (pushCofactor (d, exp * 2) (todo, todo64)) done
      | none =>
        match cbrtExact bld (some 128) target with
        | some d => advanced128Loop bld find f k (pushCofactor (d, exp * 3) (todo, todo64)) done
        | none => do
          let (d, k) ← find target k
          let q ← cdiv target d
          advanced128Loop bld find f k (pushCofactor (q, exp) (pushCofactor (d, exp) (todo, todo64))) done

/-- `factorize128_advanced`, src/nt_funcs.rs:383-497, for a single cofactor -/
def factorize128Advanced (bld : Build) (find64 find128 : Nat → Nat → Res (Nat × Nat)) (fuel k : Nat) (cofactor : Nat × Nat) :
    Res (List (Nat × Nat) × Nat) := do
  let (todo64, done, k) ← advanced128Loop bld find128 fuel k (pushCofactor cofactor ([], [])) []
  let (l, k) ← factorize64Advanced bld find64 fuel k todo64
  return (done ++ l, k)

/-- `factorize128` with given divisor searches, src/nt_funcs.rs:323-381 -/
def factorize128With (bld : Build) (find64 find128 : Nat → Nat → Res (Nat × Nat)) (fuel k target : Nat) :
    Res (List (Nat × Nat) × Nat) := do
  if target < 2 ^ 64 then factorize64With bld find64 fuel k target
  else
    let f2 := trailingZeros (some 128) target
    let m := if f2 ≠ 0 then [(2, f2)] else []
    let r ← cshr (some 128) target f2
    let (r, m, finished) ← td128 bld r m
    if finished then return (m, k)
    let (l, k) ← factorize128Advanced bld find64 find128 fuel k (r, 1)
    return (mergeFactors m l, k)

/-- `factorize128`, src/nt_funcs.rs:323-381: the map and the number of random words used -/
def factorize128 (bld : Build) (rng : Rng) (fuel k target : Nat) : Res (List (Nat × Nat) × Nat) :=
  factorize128With bld (search bld 64 rng fuel) (search bld 128 rng fuel) fuel k target

/-! ## `PrimeBufferExt::{factors, factorize, divisor}` -/

/-- the trial division loop of `divisor`, src/buffer.rs:216-226: `some r` if the function returns `r` -/
def divisorTrial (w : Width) (target tsqrt limit : Nat) : List Nat → Res (Option (Option Nat))
  | [] => .ok none
  | p :: ps => do
    let p ← unwrapFit w p
    if p > tsqrt then return some none
    if p > limit then return none
    if target % p = 0 then return some (some p)
    divisorTrial w target tsqrt limit ps

/-- the loop of `divisor`, src/buffer.rs:230-248; the first argument is `config.rho_trials`. Result: divisor, remaining
`rho_trials`, number of random words used. The values are `u8` for targets below `2^64` and `u64` otherwise; both are
converted to `T` (this fails for no type in use). -/
def divisorRho (rng : Rng) (target : Nat) : Nat → Nat → Res (Option Nat × Nat × Nat)
  | 0, k => .ok (none, 0, k)
  | trials + 1, k => do
    if target = 0 then .panic
    else
      let bound := if target < 2 ^ 64 then 2 ^ 8 else 2 ^ 64
      let start := rng.word k % bound % target
      let offset := rng.word (k + 1) % bound % target
      let (d, _) ← pollardRho target start offset 1048576
      match d with
      | some p => return (some p, trials, k + 2)
      | none => divisorRho rng target trials (k + 2)

/-- `divisor`, src/buffer.rs:202-251. Only `td_limit` and `rho_trials` of the configuration are used; the remaining
`rho_trials` are returned with the result. -/
def divisor (w : Width) (list : List Nat) (rng : Rng) (k target : Nat) (tdLimit : Option Nat) (rhoTrials : Nat) :
    Res (Option Nat × Nat × Nat) := do
  let r ← (if tdLimit = some 0 then do
      let tsqrt ← cadd w (isqrt target) 1
      let limit := min tsqrt 0
      divisorTrial w target tsqrt limit list
    else .ok none : Res (Option (Option Nat)))
  match r with
  | some r => return (r, rhoTrials, k)
  | none => divisorRho rng target rhoTrials k

/-- the worklist loop of `factors`, src/buffer.rs:155-170: map, failed cofactors and the number of random values used;
`find` is the call of `divisor` (arguments: target, `rho_trials`, random values used); `f` bounds the rounds -/
def factorsLoop (bld : Build) (w : Width) (list : List Nat) (find : Nat → Nat → Nat → Res (Option Nat × Nat × Nat))
    (rng : Rng) (pc : PrimalityTestConfig) :
    Nat → Nat → Nat → List Nat → List (Nat × Nat) → List Nat → Res (List (Nat × Nat) × List Nat × Nat)
  | _, _, k, [], m, failed => .ok (m, failed, k)
  | 0, _, _, _ :: _, _, _ => .timeout
  | f + 1, trials, k, target :: todo, m, failed => do
    let v ← isPrime bld w list target (some pc) (rng.draws k)
    let k := k + 1
    if v.probably then factorsLoop bld w list find rng pc f trials k todo (mapAdd m target 1) failed
    else
      let (d, trials, k) ← find target trials k
      match d with
      | some d => do
        let q ← cdiv target d
        factorsLoop bld w list find rng pc f trials k (q :: d :: todo) m failed
      | none => factorsLoop bld w list find rng pc f trials k todo m (failed ++ [target])

/-- `factors`, src/buffer.rs:117-179, with `find` for the call of `divisor` in line 162 -/
def factorsWith (bld : Build) (w : Width) (list : List Nat) (find : Nat → Nat → Nat → Res (Option Nat × Nat × Nat))
    (rng : Rng) (fuel k target : Nat) (config : Option FactorizationConfig) :
    Res (List (Nat × Nat) × Option (List Nat) × Nat) := do
  if target < 2 ^ 128 then
    let (m, k) ← factorize128 bld rng fuel k target
    return (m, none, k)
  else
    let config := config.getD .default
    let (m, r) ← trialDivision w list target config.tdLimit
    match r with
    | .ok r => return (if r ≠ 1 then mapInsert m r 1 else m, none, k)
    | .error r =>
      let (m, failed, k) ← factorsLoop bld w list find rng config.primalityConfig fuel config.rhoTrials k [r] m []
      return (m, if failed = [] then none else some failed, k)

/-- `factors`, src/buffer.rs:117-179; trial division is disabled in `divisor` by the limit 0 (line 143) -/
def factors (bld : Build) (w : Width) (list : List Nat) (rng : Rng) (fuel k target : Nat)
    (config : Option FactorizationConfig) : Res (List (Nat × Nat) × Option (List Nat) × Nat) :=
  factorsWith bld w list (fun target trials k => divisor w list rng k target (some 0) trials) rng fuel k target config

/-- `factorize`, src/buffer.rs:185-196; the first argument bounds the number of attempts -/
def factorize (bld : Build) (w : Width) (list : List Nat) (rng : Rng) (fuel : Nat) :
    Nat → Nat → Nat → Res (List (Nat × Nat) × Nat)
  | 0, _, _ => .timeout
  | f + 1, k, target => do
    let (m, rest, k) ← factors bld w list rng fuel k target none
    match rest with
    | none => return (m, k)
    | some _ => factorize bld w list rng fuel f k target

end NumPrime
