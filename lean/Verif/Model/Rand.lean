import Verif.Model.Mint

/-! # Model of src/rand.rs: generation of random primes

The generator is an arbitrary source: `value k` is the `k`-th number it hands out, `draws k t` the sequence of values that
`rand::random()` returns during a primality test of `t` made while `k` numbers have been used. All loops run "until
success"; the fuel bounds the attempts (and the candidates tried by `next_prime`). Results are paired with the number of
values used. -/

namespace NumPrime

/-- an arbitrary random generator -/
structure RandSource where
  value : Nat → Nat
  draws : Nat → Nat → List Nat

/-- the common shape of `gen_prime` and `gen_prime_exact`, src/rand.rs:17-26,35-44,90-99,108-117,152-160,165-174: draw a
number, return it if the test accepts it, otherwise return its successor prime; try again if there is none -/
def genLoop (mk : Nat → Res Nat) (test : Nat → Nat → Res Bool) (next : Nat → Nat → Res (Option Nat)) :
    Nat → Nat → Res (Nat × Nat)
  | 0, _ => .timeout
  | f + 1, k => do
    let t ← mk k
    let a ← test k t
    if a then return (t, k + 1)
    match ← next k t with
    | some p => return (p, k + 1)
    | none => genLoop mk test next f (k + 1)

/-- `(t >> (BITS - bit_size)) | 1` for a machine integer, src/rand.rs:19,92 (the shift panics for `bit_size = 0`) -/
def drawBits (b bits v : Nat) : Res Nat := do
  let t ← cshr (some b) (v % 2 ^ b) (b - bits)
  return t ||| 1

/-- `(t >> (BITS - bit_size)) | 1 | (1 << (bit_size - 1))`, src/rand.rs:37,110 -/
def drawExact (b bits v : Nat) : Res Nat := do
  let t ← drawBits b bits v
  let s ← csub bits 1
  return t ||| (1 <<< s)

/-- `gen_prime` for `u8`, `u16`, `u32`, `u64` (`b` bits), src/rand.rs:12-27 -/
def genPrimePrim (bld : Build) (src : RandSource) (b fuel bits k : Nat) : Res (Nat × Nat) :=
  if bits > b then .panic
  else genLoop (fun k => drawBits b bits (src.value k)) (fun _ t => .ok (isPrime64 bld t))
    (fun k t => nextPrime bld (some b) t none (src.draws k) fuel) fuel k

/-- `gen_prime_exact` for `u8`, `u16`, `u32`, `u64`, src/rand.rs:30-45 -/
def genPrimeExactPrim (bld : Build) (src : RandSource) (b fuel bits k : Nat) : Res (Nat × Nat) :=
  if bits > b then .panic
  else genLoop (fun k => drawExact b bits (src.value k)) (fun _ t => .ok (isPrime64 bld t))
    (fun k t => nextPrime bld (some b) t none (src.draws k) fuel) fuel k

/-- `gen_safe_prime` for `u8`, `u16`, `u32`, `u64`, src/rand.rs:48-64; the last but one argument bounds the attempts -/
def genSafePrimePrim (bld : Build) (src : RandSource) (b fuel bits : Nat) : Nat → Nat → Res (Nat × Nat)
  | 0, _ => .timeout
  | f + 1, k => do
    let (p, k) ← genPrimePrim bld src b fuel bits k
    if isPrime64 bld (p >>> 1) then return (p, k)
    if fits (some b) (p * 2 + 1) ∧ isPrime64 bld (p * 2 + 1) then return (p * 2 + 1, k)
    genSafePrimePrim bld src b fuel bits f k

/-- `gen_safe_prime_exact` for `u8`, `u16`, `u32`, `u64`, src/rand.rs:67-77 -/
def genSafePrimeExactPrim (bld : Build) (src : RandSource) (b fuel bits : Nat) : Nat → Nat → Res (Nat × Nat)
  | 0, _ => .timeout
  | f + 1, k => do
    let (p, k) ← genPrimeExactPrim bld src b fuel bits k
    if isPrime64 bld (p >>> 1) then return (p, k)
    genSafePrimeExactPrim bld src b fuel bits f k

/-- `is_prime(&SmallMint::from(t), config).probably()`, src/rand.rs:93,111,125,141: the free function tests with a new
buffer -/
def testMint (bld : Build) (src : RandSource) (config : Option PrimalityTestConfig) (k t : Nat) : Res Bool :=
  (mIsPrime bld (some 128) (smallPrimes bld) (.left t) config (src.draws k t)).mapR Primality.probably

/-- `is_prime(&t, config).probably()`, src/rand.rs:129,155,169,181,185,197 -/
def testPlain (bld : Build) (w : Width) (src : RandSource) (config : Option PrimalityTestConfig) (k t : Nat) : Res Bool :=
  (isPrimeNew bld w t config (src.draws k t)).mapR Primality.probably

/-- `gen_prime` for `u128`, src/rand.rs:85-100; `next_prime` is called without the configuration -/
def genPrime128 (bld : Build) (src : RandSource) (config : Option PrimalityTestConfig) (fuel bits k : Nat) :
    Res (Nat × Nat) :=
  if bits > 128 then .panic
  else genLoop (fun k => drawBits 128 bits (src.value k)) (testMint bld src config)
    (fun k t => nextPrime bld (some 128) t none (src.draws k) fuel) fuel k

/-- `gen_prime_exact` for `u128`, src/rand.rs:103-118 -/
def genPrimeExact128 (bld : Build) (src : RandSource) (config : Option PrimalityTestConfig) (fuel bits k : Nat) :
    Res (Nat × Nat) :=
  if bits > 128 then .panic
  else genLoop (fun k => drawExact 128 bits (src.value k)) (testMint bld src config)
    (fun k t => nextPrime bld (some 128) t none (src.draws k) fuel) fuel k

/-- `gen_safe_prime` for `u128`, src/rand.rs:121-134 -/
def genSafePrime128 (bld : Build) (src : RandSource) (fuel bits : Nat) : Nat → Nat → Res (Nat × Nat)
  | 0, _ => .timeout
  | f + 1, k => do
    let (p, k) ← genPrime128 bld src (some .strict) fuel bits k
    let h ← testMint bld src (some .strict) k (p >>> 1)
    if h then return (p, k)
    let d ← (if fits (some 128) (p * 2 + 1) then testPlain bld (some 128) src (some .strict) k (p * 2 + 1)
      else .ok false : Res Bool)
    if d then return (p * 2 + 1, k)
    genSafePrime128 bld src fuel bits f k

/-- `gen_safe_prime_exact` for `u128`, src/rand.rs:137-145 -/
def genSafePrimeExact128 (bld : Build) (src : RandSource) (fuel bits : Nat) : Nat → Nat → Res (Nat × Nat)
  | 0, _ => .timeout
  | f + 1, k => do
    let (p, k) ← genPrimeExact128 bld src (some .strict) fuel bits k
    let h ← testMint bld src (some .strict) k (p >>> 1)
    if h then return (p, k)
    genSafePrimeExact128 bld src fuel bits f k

/-- `gen_prime` for `BigUint`, src/rand.rs:151-161; `gen_biguint(n)` is a number below `2^n` -/
def genPrimeBig (bld : Build) (src : RandSource) (config : Option PrimalityTestConfig) (fuel bits k : Nat) :
    Res (Nat × Nat) :=
  genLoop (fun k => .ok ((src.value k % 2 ^ bits) ||| 1)) (testPlain bld none src config)
    (fun k t => nextPrime bld none t config (src.draws k) fuel) fuel k

/-- `gen_prime_exact` for `BigUint`, src/rand.rs:164-175; `bit_size as u64 - 1` underflows for `bit_size = 0` -/
def genPrimeExactBig (bld : Build) (src : RandSource) (config : Option PrimalityTestConfig) (fuel bits k : Nat) :
    Res (Nat × Nat) :=
  genLoop (fun k => (csub bits 1).mapR (fun s => ((src.value k % 2 ^ bits) ||| 1) ||| (1 <<< s)))
    (testPlain bld none src config) (fun k t => nextPrime bld none t config (src.draws k) fuel) fuel k

/-- `gen_safe_prime` for `BigUint`, src/rand.rs:178-190 (recursive call written as the next attempt) -/
def genSafePrimeBig (bld : Build) (src : RandSource) (fuel bits : Nat) : Nat → Nat → Res (Nat × Nat)
  | 0, _ => .timeout
  | f + 1, k => do
    let (p, k) ← genPrimeBig bld src (some .strict) fuel bits k
    let h ← testPlain bld none src (some .strict) k (p >>> 1)
    if h then return (p, k)
    let d ← testPlain bld none src (some .strict) k ((p <<< 1) + 1)
    if d then return ((p <<< 1) + 1, k)
    genSafePrimeBig bld src fuel bits f k

/-- `gen_safe_prime_exact` for `BigUint`, src/rand.rs:193-201 -/
def genSafePrimeExactBig (bld : Build) (src : RandSource) (fuel bits : Nat) : Nat → Nat → Res (Nat × Nat)
  | 0, _ => .timeout
  | f + 1, k => do
    let (p, k) ← genPrimeExactBig bld src (some .strict) fuel bits k
    let h ← testPlain bld none src (some .strict) k (p >>> 1)
    if h then return (p, k)
    genSafePrimeExactBig bld src fuel bits f k

end NumPrime
