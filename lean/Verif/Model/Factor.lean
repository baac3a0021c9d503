import Verif.Model.Integer
import Verif.Model.Estimate

/-! # Model of src/factor.rs

Arithmetic of machine integers panics on overflow (debug build). -/

namespace NumPrime

/-- `while residual.is_multiple_of(&pt) { residual = residual / &pt; *result.entry(p).or_insert(0) += 1; }`,
src/factor.rs:52-55, src/nt_funcs.rs:183-186,349-352. The first argument bounds the rounds; the callers pass the
residual plus one, which is enough unless the loop runs for ever (`p = 1` or `residual = 0`). `p = 0` is a division
by zero. -/
def divOutMap (p : Nat) : Nat → Nat → List (Nat × Nat) → Res (Nat × List (Nat × Nat))
  | 0, _, _ => .timeout
  | f + 1, r, m =>
    if p = 0 then .panic
    else if r % p = 0 then divOutMap p f (r / p) (mapAdd m p 1)
    else .ok (r, m)

/-- the loop of `trial_division`, src/factor.rs:44-60: map, residual and the flag `factored` -/
def trialLoop (w : Width) (tsqrt limit : Nat) : List Nat → Nat → List (Nat × Nat) → Res (List (Nat × Nat) × Nat × Bool)
  | [], r, m => .ok (m, r, false)
  | p :: ps, r, m => do
    let pt ← unwrapFit w p
    if pt > limit then return (m, r, decide (pt > tsqrt))
    else
      let (r, m) ← divOutMap pt (r + 1) r m
      if r = 1 then return (m, r, true)
      else
        let (m', r', b) ← trialLoop w tsqrt limit ps r m
        return (m', r', b || decide (pt > tsqrt))

/-- `trial_division`, src/factor.rs:23-67. The iterator is given by the list of its values (`u64`); the result is
`Ok(r)` (`.ok`) or `Err(r)` (`.error`). -/
def trialDivision (w : Width) (primes : List Nat) (target : Nat) (limit : Option Nat) :
    Res (List (Nat × Nat) × Except Nat Nat) := do
  let tsqrt ← cadd w (isqrt target) 1
  let lim ← (match limit with
    | some l => (unwrapFit w l).mapR (fun l => min tsqrt l)
    | none => .ok tsqrt : Res Nat)
  let (m, r, b) ← trialLoop w tsqrt lim primes target []
  return (m, if b then .ok r else .error r)

/-! ## Pollard's rho -/

/-- the variables of the loop in `pollard_rho`, src/factor.rs:89-98 -/
structure RhoState where
  i : Nat
  j : Nat
  a : Nat
  b : Nat
  z : Nat
  s : Nat
  backtrace : Bool

/-- the loop of `pollard_rho`, src/factor.rs:100-140; the first argument is `max_iter - i`. -/
def rhoLoop (target offset : Nat) : Nat → RhoState → Option Nat × Nat
  | 0, st => (none, st.i)
  | f + 1, st =>
    let i := st.i + 1
    let a := addm (sqm st.a target) offset target
    if a = st.b then (none, i)
    else
      let diff := if st.b > a then st.b - a else a - st.b
      let z := mulm st.z diff target
      if z = 0 then
        if st.backtrace then (none, i)
        else rhoLoop target offset f { st with i := i, a := st.s, s := 1, z := 1 % target, backtrace := true }
      else
        let check := i == st.j || i &&& 127 == 0 || st.backtrace
        let d := Nat.gcd z target
        if check && d != 1 && d != target then (some d, i)
        else
          let s := if check then a else st.s
          if i = st.j then rhoLoop target offset f ⟨i, (st.j <<< 1) % 2 ^ 64, a, a, z, s, st.backtrace⟩
          else rhoLoop target offset f ⟨i, st.j, a, st.b, z, s, st.backtrace⟩

/-- `pollard_rho`, src/factor.rs:72-143 (`T::one() % target` panics for a zero target) -/
def pollardRho (target start offset maxIter : Nat) : Res (Option Nat × Nat) :=
  if target = 0 then .panic
  else .ok (rhoLoop target offset maxIter ⟨0, 1, start, start, 1 % target, start, false⟩)

/-! ## SQUFOF -/

/-- `squfof::rho`, src/factor.rs:171-189: returns the new `(p, q, qm1)` -/
def squfofRho (w : Width) (rd p q qm1 : Nat) : Res (Nat × Nat × Nat) := do
  let s ← cadd w rd p
  let b ← cdiv s q
  let bq ← cmul w b q
  let newP ← csub bq p
  if p > newP then do
    let d ← csub p newP
    let t ← cmul w b d
    let newQ ← cadd w qm1 t
    return (newP, newQ, q)
  else do
    let d ← csub newP p
    let t ← cmul w b d
    let newQ ← csub qm1 t
    return (newP, newQ, q)

/-- the backward loop, src/factor.rs:209-216; the first argument bounds the rounds -/
def squfofBack (w : Width) (rd : Nat) : Nat → Nat → Nat → Nat → Res Nat
  | 0, _, _, _ => .timeout
  | f + 1, u, v, vm1 => do
    let (newU, v, vm1) ← squfofRho w rd u v vm1
    if newU = u then return u else squfofBack w rd f newU v vm1

/-- the forward loop, src/factor.rs:202-223: the first argument is the number of remaining values of `i` -/
def squfofForward (bld : Build) (w : Width) (fuel target mulTarget rd maxIter : Nat) :
    Nat → Nat → Nat → Nat → Nat → Res (Option Nat × Nat)
  | 0, _, _, _, _ => .ok (none, maxIter)
  | f + 1, i, p, q, qm1 => do
    let (p, q, qm1) ← squfofRho w rd p q qm1
    let r ← (if i % 2 = 1 then sqrtExact bld w q else .ok none : Res (Option Nat))
    match r with
    | none => squfofForward bld w fuel target mulTarget rd maxIter f (i + 1) p q qm1
    | some rq =>
      let d ← csub rd p
      let b ← cdiv d rq
      let t ← cmul w b rq
      let u ← cadd w t p
      let uu ← cmul w u u
      let n ← csub mulTarget uu
      let v ← cdiv n rq
      let u ← squfofBack w rd fuel u v rq
      let d := Nat.gcd target u
      if d > 1 ∧ d < target then return (some d, i)
      else squfofForward bld w fuel target mulTarget rd maxIter f (i + 1) p q qm1

/-- `squfof`, src/factor.rs:157-225. `fuel` bounds the rounds of each backward loop. The failed assertion and a zero
target panic (for a zero target the behaviour of `is_multiple_of` depends on the version of num-integer). -/
def squfof (bld : Build) (w : Width) (fuel target mulTarget maxIter : Nat) : Res (Option Nat × Nat) := do
  if target = 0 ∨ mulTarget % target ≠ 0 then .panic
  else
    let rd := isqrt mulTarget
    let rr ← cmul w rd rd
    let q ← csub mulTarget rr
    if q = 0 then return (some rd, 0)
    else squfofForward bld w fuel target mulTarget rd maxIter (maxIter - 1) 1 rd q 1

/-- `SQUFOF_MULTIPLIERS`, src/factor.rs:230-269 -/
def squfofMultipliers : List Nat :=
  [3 * 5 * 7 * 11, 3 * 5 * 7, 3 * 5 * 7 * 11 * 13, 3 * 5 * 7 * 13, 3 * 5 * 7 * 11 * 17, 3 * 5 * 11, 3 * 5 * 7 * 17,
   3 * 5, 3 * 5 * 7 * 11 * 19, 3 * 5 * 11 * 13, 3 * 5 * 7 * 19, 3 * 5 * 7 * 13 * 17, 3 * 5 * 13, 3 * 7 * 11, 3 * 7,
   5 * 7 * 11, 3 * 7 * 13, 5 * 7, 3 * 5 * 17, 5 * 7 * 13, 3 * 5 * 19, 3 * 11, 3 * 7 * 17, 3, 3 * 11 * 13, 5 * 11,
   3 * 7 * 19, 3 * 13, 5, 5 * 11 * 13, 5 * 7 * 19, 5 * 13, 7 * 11, 7, 3 * 17, 7 * 13, 11, 1]

/-! ## one-line -/

/-- the loop of `one_line`, src/factor.rs:299-314: the first argument is the number of remaining values of `i` -/
def oneLineLoop (bld : Build) (w : Width) (target mulTarget maxIter : Nat) : Nat → Nat → Nat → Res (Option Nat × Nat)
  | 0, _, _ => .ok (none, maxIter)
  | f + 1, i, ikn => do
    let s ← cadd w (isqrt ikn) 1
    let ss ← cmul w s s
    let m ← csub ss ikn
    let r ← sqrtExact bld w m
    let g ← (match r with
      | some t => (csub s t).mapR (fun d => some (Nat.gcd target d))
      | none => .ok none : Res (Option Nat))
    if g.isSome ∧ g ≠ some 1 ∧ g ≠ some target then return (g, i)
    else if fits w (ikn + mulTarget) then oneLineLoop bld w target mulTarget maxIter f (i + 1) (ikn + mulTarget)
    else return (none, i)

/-- `one_line`, src/factor.rs:284-316 (zero target as in `squfof`) -/
def oneLine (bld : Build) (w : Width) (target mulTarget maxIter : Nat) : Res (Option Nat × Nat) :=
  if target = 0 ∨ mulTarget % target ≠ 0 then .panic
  else oneLineLoop bld w target mulTarget maxIter (maxIter - 1) 1 mulTarget

end NumPrime
