import Verif.Model.Examples
import Verif.Model.ReleasePrime

/-! # The example programs in a build without overflow checks -/

namespace NumPrime

/-- `a.pow(e)` on a `b` bit type without overflow checks (every product of the repeated squaring wraps) -/
def wpow (b a e : Nat) : Nat := a ^ e % 2 ^ b

/-- `result.iter().map(|f| f * p.pow(i))`, examples/divisor_sigma.rs:13, without overflow checks -/
def mulAllRel (p i : Nat) (l : List Nat) : List Nat := l.map (fun f => wmul 64 f (wpow 64 p i))

/-- the loop `for i in 1..(e as u32 + 1)`, examples/divisor_sigma.rs:12-14, without overflow checks -/
def divisorsInnerRel (result : List Nat) (p : Nat) : Nat → Nat → List Nat
  | 0, _ => []
  | c + 1, i => mulAllRel p i result ++ divisorsInnerRel result p c (i + 1)

/-- the loop over the factors, examples/divisor_sigma.rs:9-16, without overflow checks -/
def divisorsLoopRel : List (Nat × Nat) → List Nat → List Nat
  | [], result => result
  | (p, e) :: t, result => divisorsLoopRel t (result ++ divisorsInnerRel result p e 1)

/-- `divisors`, examples/divisor_sigma.rs:4-18, without overflow checks -/
def divisorsRel (bld : Build) (rng : Rng) (fuel k target : Nat) : Res (List Nat) :=
  (factorize64Rel bld rng fuel k target).mapR (fun r => divisorsLoopRel r.1 [1])

/-- `.map(|d| d.pow(z)).sum()`, examples/divisor_sigma.rs:23, without overflow checks -/
def sumPowRel (z : Nat) : List Nat → Nat → Nat
  | [], s => s
  | d :: t, s => sumPowRel z t (wadd 64 s (wpow 64 d z))

/-- `divisor_sigma`, examples/divisor_sigma.rs:22-24, without overflow checks -/
def divisorSigmaRel (bld : Build) (rng : Rng) (fuel k target z : Nat) : Res Nat :=
  (divisorsRel bld rng fuel k target).mapR (fun l => sumPowRel z l 0)

/-- `prime_omega`, examples/prime_omega.rs:5-7, without overflow checks -/
def primeOmegaRel (bld : Build) (rng : Rng) (fuel k target : Nat) : Res Nat :=
  (factorize64Rel bld rng fuel k target).mapR (fun r => r.1.length)

/-- `prime_Omega`, examples/prime_omega.rs:12-14, without overflow checks -/
def primeBigOmegaRel (bld : Build) (rng : Rng) (fuel k target : Nat) : Res Nat :=
  (factorize64Rel bld rng fuel k target).mapR (fun r => (r.1.map Prod.snd).sum % 2 ^ 64)

/-- the filter of `list_mersenne`, examples/find_mersenne_primes.rs:7, without overflow checks -/
def mersenneFilterRel (bld : Build) (draws : Nat → List Nat) : List Nat → Res (List Nat)
  | [] => .ok []
  | p :: t => do
    let n := wsub 128 (wpow 128 2 p) 1
    let r ← isPrimeNewRel bld 128 n none (draws n)
    let l ← mersenneFilterRel bld draws t
    return if r.probably then p :: l else l

/-- `list_mersenne`, examples/find_mersenne_primes.rs:4-9, without overflow checks; `primes(128)` is read from the table -/
def listMersenneRel (bld : Build) (draws : Nat → List Nat) : Res (List Nat) := do
  let l ← (Buf.new bld).intoPrimes 128
  mersenneFilterRel bld draws l

end NumPrime
