import Verif.Model.Rand
import Verif.Model.ReleasePrime
import Verif.Model.ReleaseMint

/-! # src/rand.rs for machine integers in a build without overflow checks

There a shift by the width of the type or more does not panic: the shift amount is masked. `is_prime64` has no overflow;
`next_prime` and the test of a `u128` wrapped as `SmallMint` are the versions without overflow checks. -/

namespace NumPrime

/-- `>>` on a `b` bit type without overflow checks: the shift amount is taken modulo the width -/
def wshr (b v s : Nat) : Nat := v >>> (s % b)

/-- `<<` on a `b` bit type without overflow checks -/
def wshl (b v s : Nat) : Nat := (v <<< (s % b)) % 2 ^ b

/-- `(t >> (BITS - bit_size)) | 1`, src/rand.rs:19,92, without overflow checks -/
def drawBitsRel (b bits v : Nat) : Nat := wshr b (v % 2 ^ b) (b - bits) ||| 1

/-- `(t >> (BITS - bit_size)) | 1 | (1 << (bit_size - 1))`, src/rand.rs:37,110, without overflow checks; `bit_size` is a `usize` -/
def drawExactRel (b bits v : Nat) : Nat := drawBitsRel b bits v ||| wshl b 1 (wsub 64 bits 1)

/-- `gen_prime` for `u8`, `u16`, `u32`, `u64` (`b` bits), src/rand.rs:12-27, without overflow checks -/
def genPrimePrimRel (bld : Build) (src : RandSource) (b fuel bits k : Nat) : Res (Nat × Nat) :=
  if bits > b then .panic
  else genLoop (fun k => .ok (drawBitsRel b bits (src.value k))) (fun _ t => .ok (isPrime64 bld t))
    (fun k t => nextPrimeRel bld b t none (src.draws k) fuel) fuel k

/-- `gen_prime_exact` for `u8`, `u16`, `u32`, `u64`, src/rand.rs:30-45, without overflow checks -/
def genPrimeExactPrimRel (bld : Build) (src : RandSource) (b fuel bits k : Nat) : Res (Nat × Nat) :=
  if bits > b then .panic
  else genLoop (fun k => .ok (drawExactRel b bits (src.value k))) (fun _ t => .ok (isPrime64 bld t))
    (fun k t => nextPrimeRel bld b t none (src.draws k) fuel) fuel k

/-- `gen_safe_prime` for `u8`, `u16`, `u32`, `u64`, src/rand.rs:48-64, without overflow checks -/
def genSafePrimePrimRel (bld : Build) (src : RandSource) (b fuel bits : Nat) : Nat → Nat → Res (Nat × Nat)
  | 0, _ => .timeout
  | f + 1, k => do
    let (p, k) ← genPrimePrimRel bld src b fuel bits k
    if isPrime64 bld (p >>> 1) then return (p, k)
    if fits (some b) (p * 2 + 1) ∧ isPrime64 bld (p * 2 + 1) then return (p * 2 + 1, k)
    genSafePrimePrimRel bld src b fuel bits f k

/-- `gen_safe_prime_exact` for `u8`, `u16`, `u32`, `u64`, src/rand.rs:67-77, without overflow checks -/
def genSafePrimeExactPrimRel (bld : Build) (src : RandSource) (b fuel bits : Nat) : Nat → Nat → Res (Nat × Nat)
  | 0, _ => .timeout
  | f + 1, k => do
    let (p, k) ← genPrimeExactPrimRel bld src b fuel bits k
    if isPrime64 bld (p >>> 1) then return (p, k)
    genSafePrimeExactPrimRel bld src b fuel bits f k

/-- `is_prime(&SmallMint::from(t), config).probably()`, src/rand.rs:93,111,125,141, without overflow checks -/
def testMintRel (bld : Build) (src : RandSource) (config : Option PrimalityTestConfig) (k t : Nat) : Res Bool :=
  (mIsPrimeRel bld 128 (smallPrimes bld) (.left t) config (src.draws k t)).mapR Primality.probably

/-- `gen_prime` for `u128`, src/rand.rs:85-100, without overflow checks -/
def genPrime128Rel (bld : Build) (src : RandSource) (config : Option PrimalityTestConfig) (fuel bits k : Nat) :
    Res (Nat × Nat) :=
  if bits > 128 then .panic
  else genLoop (fun k => .ok (drawBitsRel 128 bits (src.value k))) (testMintRel bld src config)
    (fun k t => nextPrimeRel bld 128 t none (src.draws k) fuel) fuel k

/-- `gen_prime_exact` for `u128`, src/rand.rs:103-118, without overflow checks -/
def genPrimeExact128Rel (bld : Build) (src : RandSource) (config : Option PrimalityTestConfig) (fuel bits k : Nat) :
    Res (Nat × Nat) :=
  if bits > 128 then .panic
  else genLoop (fun k => .ok (drawExactRel 128 bits (src.value k))) (testMintRel bld src config)
    (fun k t => nextPrimeRel bld 128 t none (src.draws k) fuel) fuel k

/-- `gen_safe_prime` for `u128`, src/rand.rs:121-134, without overflow checks; twice the prime plus 1 is computed with
`checked_mul` and `checked_add` -/
def genSafePrime128Rel (bld : Build) (src : RandSource) (fuel bits : Nat) : Nat → Nat → Res (Nat × Nat)
  | 0, _ => .timeout
  | f + 1, k => do
    let (p, k) ← genPrime128Rel bld src (some .strict) fuel bits k
    let h ← testMintRel bld src (some .strict) k (p >>> 1)
    if h then return (p, k)
    let d ← (if fits (some 128) (p * 2 + 1) then
        (isPrimeNewRel bld 128 (p * 2 + 1) (some .strict) (src.draws k (p * 2 + 1))).mapR Primality.probably
      else .ok false : Res Bool)
    if d then return (p * 2 + 1, k)
    genSafePrime128Rel bld src fuel bits f k

/-- `gen_safe_prime_exact` for `u128`, src/rand.rs:137-145, without overflow checks -/
def genSafePrimeExact128Rel (bld : Build) (src : RandSource) (fuel bits : Nat) : Nat → Nat → Res (Nat × Nat)
  | 0, _ => .timeout
  | f + 1, k => do
    let (p, k) ← genPrimeExact128Rel bld src (some .strict) fuel bits k
    let h ← testMintRel bld src (some .strict) k (p >>> 1)
    if h then return (p, k)
    genSafePrimeExact128Rel bld src fuel bits f k

end NumPrime
