import Verif.Model.Factorize
import Verif.Model.Buffer

/-! # Model of the example programs examples/divisor_sigma.rs, prime_omega.rs, find_mersenne_primes.rs,
find_lucky_primes.rs -/

namespace NumPrime

/-- `a.pow(e)` with overflow check (exponentiation by squaring overflows exactly when the result does) -/
def cpow (w : Width) (a e : Nat) : Res Nat := if fits w (a ^ e) then .ok (a ^ e) else .panic

/-- `result.iter().map(|f| f * p.pow(i))`, examples/divisor_sigma.rs:13 -/
def mulAll (p i : Nat) : List Nat → Res (List Nat)
  | [] => .ok []
  | f :: t => do
    let q ← cpow (some 64) p i
    let x ← cmul (some 64) f q
    let r ← mulAll p i t
    return x :: r

/-- the loop `for i in 1..(e as u32 + 1)`, examples/divisor_sigma.rs:12-14, with `c` rounds left -/
def divisorsInner (result : List Nat) (p : Nat) : Nat → Nat → Res (List Nat)
  | 0, _ => .ok []
  | c + 1, i => do
    let a ← mulAll p i result
    let b ← divisorsInner result p c (i + 1)
    return a ++ b

/-- the loop over the factors, examples/divisor_sigma.rs:9-16 -/
def divisorsLoop : List (Nat × Nat) → List Nat → Res (List Nat)
  | [], result => .ok result
  | (p, e) :: t, result => do
    let new ← divisorsInner result p e 1
    divisorsLoop t (result ++ new)

/-- `divisors`, examples/divisor_sigma.rs:4-18; `rng`, `k`, `fuel` as in `factorize64` -/
def divisors (bld : Build) (rng : Rng) (fuel k target : Nat) : Res (List Nat) := do
  let (factors, _) ← factorize64 bld rng fuel k target
  divisorsLoop factors [1]

/-- `.map(|d| d.pow(z)).sum()`, examples/divisor_sigma.rs:23 -/
def sumPow (z : Nat) : List Nat → Nat → Res Nat
  | [], s => .ok s
  | d :: t, s => do
    let x ← cpow (some 64) d z
    let s ← cadd (some 64) s x
    sumPow z t s

/-- `divisor_sigma`, examples/divisor_sigma.rs:22-24 -/
def divisorSigma (bld : Build) (rng : Rng) (fuel k target z : Nat) : Res Nat := do
  let l ← divisors bld rng fuel k target
  sumPow z l 0

/-- `prime_omega`, examples/prime_omega.rs:5-7 -/
def primeOmega (bld : Build) (rng : Rng) (fuel k target : Nat) : Res Nat :=
  (factorize64 bld rng fuel k target).mapR (fun r => r.1.length)

/-- `prime_Omega`, examples/prime_omega.rs:12-14 (the sum of exponents cannot overflow a `usize`) -/
def primeBigOmega (bld : Build) (rng : Rng) (fuel k target : Nat) : Res Nat :=
  (factorize64 bld rng fuel k target).mapR (fun r => (r.1.map Prod.snd).sum)

/-- the filter of `list_mersenne`, examples/find_mersenne_primes.rs:7; `draws n` are the random values used for `n` -/
def mersenneFilter (bld : Build) (draws : Nat → List Nat) : List Nat → Res (List Nat)
  | [] => .ok []
  | p :: t => do
    let m ← cpow (some 128) 2 p
    let n ← csub m 1
    let r ← isPrimeNew bld (some 128) n none (draws n)
    let l ← mersenneFilter bld draws t
    return if r.probably then p :: l else l

/-- `list_mersenne`, examples/find_mersenne_primes.rs:4-9: `primes(128)` is `NaiveBuffer::new().into_primes(128)`,
src/nt_funcs.rs:535-537 -/
def listMersenne (bld : Build) (draws : Nat → List Nat) : Res (List Nat) := do
  let l ← (Buf.new bld).intoPrimes 128
  mersenneFilter bld draws l

/-- `numbers.into_iter().enumerate().filter(|(i, _)| (i + 1) % step != 0).map(|(_, n)| n)`, examples/find_lucky_primes.rs:10-15;
`i` is the index of the first element -/
def strikeEvery (step : Nat) : Nat → List Nat → List Nat
  | _, [] => []
  | i, n :: t => if (i + 1) % step ≠ 0 then n :: strikeEvery step (i + 1) t else strikeEvery step (i + 1) t

/-- the loop of `list_lucky_numbers`, examples/find_lucky_primes.rs:8-17; the first argument bounds the rounds. The indexing panics
out of range, the remainder for a step of 0. -/
def luckyLoop : Nat → Nat → List Nat → Res (List Nat)
  | 0, _, _ => .timeout
  | f + 1, k, numbers =>
    if k < numbers.length / 2 then
      match numbers[k]? with
      | none => .panic
      | some step => if step = 0 then .panic else luckyLoop f (k + 1) (strikeEvery step 0 numbers)
    else .ok numbers

/-- `list_lucky_numbers`, examples/find_lucky_primes.rs:5-19 -/
def listLuckyNumbers (fuel limit : Nat) : Res (List Nat) := luckyLoop fuel 1 (rangeStep 1 limit 2)

/-- `list_lucky_primes`, examples/find_lucky_primes.rs:23-28 -/
def listLuckyPrimes (bld : Build) (fuel limit : Nat) : Res (List Nat) :=
  (listLuckyNumbers fuel limit).mapR (fun l => l.filter (isPrime64 bld))

end NumPrime
