# Formal model of num-prime in Lean 4 — design

The model lives in `/verif/lean/Verif`. Layout:

* `Verif/Tables/*`   – generated, literal copies of the constant tables of `src/tables.rs`
* `Verif/Model/*`    – the model, one file per Rust file; every definition cites file:lines
* `Verif/Spec/*`     – small independent specification vocabulary (most of it is Mathlib's own:
  `Nat.Prime`, `Nat.primeCounting`, `Nat.nth Nat.Prime`, `Nat.factorization`, `ArithmeticFunction.moebius`,
  `jacobiSym`, `Squarefree`)
* `Verif/Proofs/*`   – lemmas
* `Verif/Props/*`    – the property theorems (names `C01_…`, `C02_…`), each with a non-vacuity example

## Modelling decisions

* Unsigned integers of every width and `BigUint` are Lean `Nat`. Where width matters (overflow, shifts,
  `checked_add`) the function takes the width `w : Option Nat` (`none` = BigUint) and arithmetic is checked.
* A Rust panic (debug-build overflow, failed `unwrap`, index out of range, `unreachable!`) is `Res.panic`;
  a loop that has not finished after `fuel` rounds is `Res.timeout`. Otherwise `Res.ok`.
  So "returns" statements are: for every fuel, result is not `panic`, and if `ok` then correct; plus, where
  termination is provable, there is a fuel (and hence all larger ones) for which it is `ok`.
* Randomness is an arbitrary function/stream argument; theorems quantify over it.
* Floating point estimates: the values of a call are exact for *arbitrary* estimates (`Estimates`), so theorems about returned
  values quantify over them. The formulas of `prime_pi_bounds`, `nth_prime_bounds` and `prime_pi_est` (the Gram series with its table of
  `ln zeta`) themselves are modelled in `Model/Float.lean` over the reals with rounded operations: `FloatOps` is an arbitrary choice of
  the rounded operations, `FloatOps.Accurate` the standard error model (relative error at most 2^-48 per operation, including `ln` and
  `exp`, for results below 2^1000). Theorems hold for every accurate arithmetic. `Proofs/Binary64.lean` defines correctly rounded IEEE
  binary64 (53 bits, round to even, subnormals) and proves that it is accurate; the difference to 2^-53 is room for the library's `ln`
  and `exp`. Infinities: from 2^1024 - 2^970 on `to_f64` of a `BigUint` is infinite and the conversion back gives `None` (`finiteF`);
  between 2^990 and that value nothing is claimed.
* The `f32` probabilities are modelled exactly (`Model/Float32.lean`): IEEE single precision, round to nearest even, with infinities and
  NaN; `0.25f32.powi(k)` is exact because all intermediate values are powers of two.
* External crates are modelled by their documented mathematical contract: num-modular (`addm`, `subm`, `mulm`,
  `sqm`, `dblm`, `negm`, `powm`, `jacobi`, Montgomery reduction), num-integer (`sqrt`, `cbrt`, `nth_root`, `gcd`,
  `is_even`, `div_floor`), std (`binary_search`, `BTreeMap`, `Vec`, iterators), `lru`, `bitvec`, `rand`.
  These are trusted, not verified.
* Both table configurations (`big-table` = default, and without it) are modelled, selected by a `Build` argument.

## What is modelled

| file | modelled | not modelled |
|---|---|---|
| `src/nt_funcs.rs` | `is_prime64` (both builds, with `is_prime32_miller`, `is_prime64_miller`), `factorize64`, `factorize64_advanced`, `factorize128`, `factorize128_advanced`, `is_prime`, `factors`, `factorize`, `primes`, `nprimes`, `prime_pi`, `nth_prime`, `primorial`, `moebius`, `moebius_factorized`, `is_square_free`, `prime_pi_bounds`, `nth_prime_bounds`, `is_safe_prime`, `next_prime`, `prev_prime` (both builds), `prime_pi_est`, `nth_prime_est`, the floating point formulas of `prime_pi_bounds`, `nth_prime_bounds` and `prime_pi_est` (Gram series with its table) | — |
| `src/primality.rs` | `lucasm`, `pq_selfridge`, `p_bruteforce`, `is_prp`, `is_sprp`, `test_sprp`, `is_lprp`, `is_slprp`, `is_eslprp` | marker traits |
| `src/buffer.rs` | `is_prime`, `factors`, `factorize`, `divisor`, all of `NaiveBuffer` including `reserve`, `prime_phi`, `prime_pi`, `nth_prime` | eviction order of the `lru` crate beyond "most recently used stays" |
| `src/factor.rs` | `trial_division`, `pollard_rho`, `squfof`, `one_line`, the multiplier table | the empty stubs `pollard_pp1`, `williams_pp1` |
| `src/integer.rs` | everything | |
| `src/traits.rs` | `Primality`, its `&`, `\|` and `probably`, the configurations and their presets, provided methods of `ExactRoots` | the private stub `psw`; the sign of a zero probability |
| `src/mint.rs` | every operator and method; `from_str_radix`, `from_f64`, `to_f64`, `checked_legendre` and `kronecker` over an arbitrary function of the integer type | the derived `Debug` |
| `src/rand.rs` | all twelve generators (`u8`–`u64`, `u128`, `BigUint`) over an arbitrary source of random words | |
| `examples/` | `divisor_sigma`, `prime_omega`, `find_mersenne_primes`, `find_lucky_primes`, `profile_factorization` | printing, the CSV file, the clock (arbitrary readings) |

Contracts taken as given:

* `Mint` (num-modular `Montgomery`/`ReducedInt`): a reduced value is a residue in canonical form together with its odd
  modulus; combining two different moduli panics; arithmetic is arithmetic modulo the modulus.
* `Estimates`: the results of the floating point formulas. Theorems hold for all of them, or state what they need
  (`GoodEstimates`), or are about `floatEstimates F`, the formulas of the crate in an accurate arithmetic `F`.
  Trusted there: that `f64` arithmetic, `ln` and `exp` of the platform are accurate in this sense. A `BigUint` too large for
  `f64` gives an infinity, hence a failed conversion (`finiteF`). Other infinities and NaN are not represented: for the
  arguments in question (up to 2^990) the intermediate values are proved moderate (Proofs/FloatFar.lean).
* `Rng` / `RandSource`: the random generator is an arbitrary function of the draw number (and, for ranges, of the range);
  values lie in the requested range.
* Arithmetic is that of a debug build: an overflow, underflow or division by zero is a panic. A theorem that a call
  returns therefore also covers release builds (no wrap-around happened on the way). A theorem of the form "if it
  returns, then ..." does not cover a release-build run in which an operation wrapped; for `one_line` and the factorization functions,
  whose checked versions do overflow, `Model/Release.lean` models the wrapping arithmetic (C80), and so does
  `Model/ReleaseBuffer.lean` and `Model/ReleaseNth.lean` for `primorial`, `reserve`, `primes`, `nprimes`, `prime_phi`, `prime_pi` and
  `nth_prime` (C88, C91, C92, C97), `Model/ReleasePrimality.lean`, `Model/ReleasePrime.lean` and `Model/ReleaseMint.lean` for the
  primality tests on plain and wrapped numbers, `next_prime` and `prev_prime` (C100, C102, C116), `Model/ReleaseMoebius.lean` for `factors`,
  `factorize`, `moebius` and `is_square_free` (C101), `Model/ReleaseRand.lean` for the random primes (C99) and
  `Model/ReleaseExamples.lean` for the examples (C103).
* Lucas parameters: for parameters given by the caller the `usize`/`isize` arithmetic is the 64-bit one, including the
  wrapping cast `(p*p) as isize`, and the conversions into the integer type panic when the value does not fit
  (`lucasDisc`, `lucasConv`). For parameters found by the default search the 64-bit words are unbounded;
  `C08_search_fits_word` shows that this makes no difference for n < 2^123 (Selfridge) and n < 2^63-4 (brute force).
  The step `d + 2` of the search and the conversion of p*p-4 are checked against the width of the integer type.

## Trusted base

Lean 4.33.0 kernel; axioms `propext`, `Classical.choice`, `Quot.sound` only (checked by `vcheck`); the
faithfulness of the hand translation in `Verif/Model` (checked, not proved, by the unit tests of the crate transcribed in `Verif/Conformance.lean`); the contracts of external crates named above.

## Plan per property

* **C01** is_prime64 never rejects a prime — model is_prime64 with tables; completeness of Miller-Rabin (Fermat + ZMod field), base never divisible by p: kernel check over the table.
* **C02** is_prime64 accepts only primes — unconditional: exact below the table limit, wheel multiples rejected, accepted => strong probable prime to the stated bases; full statement needs the published exhaustive searches for strong pseudoprimes up to 2^64, stated as a hypothesis -> partial.
  Without big tables the test below 2^32 uses the bases 2, 7, 61; that no composite below 2^32 passes (Jaeschke) is proved in
  `Proofs/Jaeschke*.lean`: if n passes, every prime p | n has ord_p(b) | n - 1 for the three bases, so n = p·m lies in one residue
  class modulo p·lcm(orders). `Proofs/Orders.lean` holds the lcm e_p for the 6537 primes p below 2^16 that matter (checked by the kernel: order and primality
  certificates), and a search over prime factors in descending order, with the classes combined by CRT, is proved to cover every
  candidate and evaluated by the kernel in 21 pieces (`JaeschkeRun*.lean`). The corollaries for `u32` are in `Props/Exact32.lean`;
  those for the prime counting functions, which test only numbers near the `n`-th prime, in `Props/Counting32.lean`.
* **C03** is_prp is the Fermat test — pure model on Nat, ZMod Fermat.
* **C04** is_sprp is the textbook strong probable prime test — loop characterisation by induction; extra round excluded by 2-adic order argument.
* **C05** strong test never rejects a prime — ZMod p field: square roots of one.
* **C06** test_sprp's factor is a proper divisor — x^2=1, x != +-1 => gcd proper.
* **C07** lucasm computes Lucas sequences — loop invariant over bits: (U_k, U_{k+1}) mod m; addition formulas for Lucas sequences over commutative rings.
* **C08** Lucas parameter search terminates — least quadratic non-residue arguments; jacobi symbol of Mathlib; termination and the size bound by exhibiting a witness below a bound for every non-square n, through the multiplicative function `star` (a square-class argument), so that no step overflows the integer type.
* **C09** Lucas test never rejects a prime — Lucas sequences in F_p / F_{p^2}: alpha^p = conj alpha. Findings: explicit p >= 2^bits panics, p >= 2^32 overflows usize, and (p*p) as isize can wrap and reject a prime.
* **C10** strong Lucas test never rejects a prime — same + splitting U_{2k} = U_k V_k.
* **C11** is_slprp is the textbook strong Lucas test — loop characterisation, 2-adic argument for the extra round.
* **C12** extra strong Lucas test never rejects a prime — extra strong: V_{d 2^{s-1}} with Q=1.
* **C13** is_eslprp returns for every explicit parameter — finding: witness where the model panics; partial theorem for gcd(p^2-4,n)=1; for symbol 0 an exact characterisation of the inputs that panic.
* **C14** generic is_prime never rejects a prime — finding for the random draw 0 (every n from 2^64 on is rejected); partial theorem for non-zero draws.
* **C15** Yes/No/Probable are used correctly — case analysis of the model.
* **C16** accepted numbers pass every configured test — case analysis of the model.
* **C17** Primality combinators obey three-valued logic — `Model/Float32.lean` models f32 (rational, infinity or NaN; round to nearest even); rounding is proved to give a nearest f32 (`roundNonneg_nearest`). Findings: no associativity, underflow to 0.
* **C18** is_safe_prime — from C15 and shifts.
* **C19** next_prime returns the next prime — wheel-walk invariant; widths through checked_add.
* **C20** prev_prime returns the previous prime — wheel-walk invariant downwards.
* **C21** next_prime without big tables — finding: index out of range for 252..255; partial elsewhere.
* **C22** wheel tables step between coprime residues — kernel check of the whole table (finite) lifted to all n by residue argument.
* **C23** prime buffer content invariant — invariant 'list = primes below next' preserved by every operation; induction over histories.
* **C24** primes(limit) is exact — from C23.
* **C25** nprimes(count) is exact — from C23 + bound oracle.
* **C26** contains / bound — from C23.
* **C27** reserve(limit) contract — from C23; finding: documented claim about bound is false.
* **C28** reserve does not overflow — checked arithmetic in the sieve model; finding for lists containing primes >= 2^32.
* **C29** clear keeps the buffer correct — from C23.
* **C30** prime_pi counts primes — Legendre phi identities (Buchstab telescoping) and Meissel-Lehmer; induction on fuel. With the floating
  point formulas of the crate it returns for every x < u64::MAX (Props/Counting.lean, given no pseudoprimes of `is_prime64`).
* **C31** prime_phi is Legendre's partial sieve function — recursion + cache consistency invariant;
  returns for a <= 2*10^17 with the formulas of the crate.
* **C32** nth_prime is exact — loop invariant pi = pi(x). Returns for n <= 2*10^17 with the formulas of the crate;
  n = 25*10^16 overflows although the prime fits (`C32_nth_prime_overflow`).
* **C33** primorial is exact — from C25.
* **C34** prime_pi_bounds is exact in the table range — binary search on the table.
* **C35** nth_prime_bounds is exact in the table range — table lookup.
* **C36** nth_prime_est terminates inside the bounds — bisection measure hi-lo.
* **C37** trial_division loses nothing — loop invariant.
* **C38** trial_division Ok means completely factored — loop invariant + minimal factor argument.
* **C39** pollard_rho returns a proper divisor — gcd argument; structural loop.
* **C40** squfof returns a proper divisor — gcd branch; finding for perfect-square mul_target.
* **C41** squfof's unsigned arithmetic never underflows or overflows — invariant q*qm1 + p^2 = D with ranges.
* **C42** one_line returns a proper divisor — gcd argument.
* **C43** one_line does not overflow — finding: s*s overflow; partial with bound; exact characterisation of the panics and of the
  factor returned by induction on the rounds (C43_one_line_panics_iff, C43_one_line_finds_iff).
* **C44** factorize64 multiplies back — worklist invariant on products.
* **C45** factorize64 is the prime factorization — from C44 + uniqueness of factorization.
* **C46** factorize128 multiplies back and is the prime factorization — same, two worklists.
* **C47** factors() accounts for every factor — worklist invariant.
* **C48** factorize() is complete — from C47.
* **C49** divisor() returns a proper divisor — from C39.
* **C50** divisor() honours the trial division limit — finding: inverted condition.
* **C51** moebius is the Moebius function — table check + factorization.
* **C52** is_square_free — from C51.
* **C53** table-driven exact division — inverse mod 2^64 argument; table check.
* **C54** sqrt_exact on machine integers — 2-adic filter lemma; finding for 0.
* **C55** sqrt_exact / cbrt_exact on big integers — residue masks: finite table check lifted by mod.
* **C56** exact roots on BigInt — from C55.
* **C57** nth_root_exact / is_nth_power — integer roots.
* **C58** BitTest agrees with binary representation — Nat.size / testBit / padicValNat.
* **C59** random primes are prime — loop over random stream.
* **C60** gen_prime respects the bit size — finding; partial.
* **C61** gen_prime_exact respects the bit size — finding; partial.
* **C62** safe primes are safe — loop.
* **C63** gen_safe_prime respects the bit size — finding; partial.
* **C64** Montgomery wrapper is transparent — generic model over an operations interface, simulation between the plain and Montgomery instances.
* **C65** Montgomery wrapper never hits unreachable!() — finding; partial for the other tests.
* **C66** divisor enumeration — list induction.
* **C67** sigma and omega from a factorization — from C66.
* **C68** composites with a small prime factor are rejected unconditionally — wheel table check.
* **C69** factorization never works on primes — from C01.
* **C70** is_eslprp verdict is the textbook extra strong Lucas condition — doubling/addition identities for U, V in the model loop; unfolding of the tail loop.
* **C71**, **C72** enclosure by the Rosser-Schoenfeld/Dusart/Axler bounds — proved for x < 11534336 and n <= 759401 and every accurate floating point arithmetic; beyond, the bounds rest on analytic number theory for which no formal proof is available. Method: the range is cut into 23000 blocks; on each block the formula is evaluated in interval arithmetic (fixed point, every operation widened by the rounding error, logarithms from the atanh series with proved remainder) and compared with the number of primes below the block, which comes from a sieve on bit masks. The block lengths are generated certificates (`Proofs/EstSeg*.lean`); the checker `segCheck` is proved sound (`segCheck_sound`) and the kernel evaluates it. This is a proof for every argument of the range and every rounding, not a sample: soundness is proved for all arguments of a block.
  Beyond the certified range both bounds are proved right up to a constant factor (`C71_prime_pi_bounds_factor_partial`,
  `C72_nth_prime_bounds_factor_partial`), from Chebyshev's estimates in Mathlib.
* **C73** the Mersenne example — model of the example; primality of the listed numbers by Mathlib's Lucas-Lehmer test, rejection of the others by the base-3 test evaluated in the kernel.
* **C74** the lucky number example — model of the example; `Spec/Lucky.lean` defines the lucky sieve by `Nat.nth` and `Nat.count`, independently of lists. Invariant: after k rounds the list holds the survivors of k rounds; the numbers that drive the remaining rounds exceed the length of the list. False for the limits 6 and 7 (5 is not struck out).
* **C75** the estimates return — error propagation through the formulas for all x up to 2^990 (Proofs/FloatFar.lean), the certified range below.
* **C76** prime_pi_est is R(x) — the zeta table is checked against rational bounds of zeta (Proofs/ZetaTable.lean), the tail of the series is bounded, rounding errors are propagated through the loop. Findings: at 2^127 the estimate is 2 percent too small, at 2^300 it is off by a factor 10^11, because the loop stops after 99 terms.
* **C77** SmallMint operators — case analysis on the forms, casts to `ZMod m`.
* **C78** squfof returns — `Proofs/Minima.lean` shows that a two-sided sequence of vectors of a plane lattice with decreasing first and increasing second coordinate and alternating signs contains every minimal vector up to sign, so that the sequence is symmetric whenever the lattice is symmetric under exchange of the coordinates; the backward sequence of squfof is such a sequence for the lattice of the ideal with norm u, hence reaches its centre of symmetry, where the loop stops. The bound comes from the doubling of the vectors in every second step and the growth by at most 2·sqrt(D)+2 per forward step.
* **C79** termination — each method ends (rho and one_line have limits, squfof by C78); the retry loop ends because the ratio doubles every third round until it leaves u64; the worklists end because Σ (2·log2 t − 1) decreases with every round. Overflow checks are on: in a release build the ratio would wrap to 0 after 192 rounds, which is not covered.
* **C80** release builds — `Model/Release.lean` writes the overflowing parts of the divisor search again with wrapping arithmetic. `s*s - ikn` is at most `2·sqrt(ikn)+1`, so the wrapped difference is the true one; the worklists take the search as an argument, and a refinement relation between the two searches carries over to them. Termination is not claimed there.
* **C81** hierarchy — from the exact characterisations C03, C04, C09, C11, C70; `U_{2k} = U_k V_k` carries a zero of `U_d` or `V_{d 2^r}` up to `U_{n-(D/n)}`.
* **C82** liars — Rabin's theorem, `Proofs/Rabin.lean`: with `i` the largest exponent below `s` for which `-1` is a `2^i`-th power, all liars lie in the subgroup `{x : x^(2^i d) = ±1}` of the units, which has index at least 4 (an intermediate subgroup is exhibited: the Fermat liars, or the elements that are `±1` modulo two of three coprime parts); prime powers use that the unit group is cyclic. The bound is about bases from the whole range `1..n-1`; `is_prime` draws its random bases below `2^64` whatever the size of `n`, so the bound does not justify the probability it reports, and no such claim is made.
* **C83** reported probability — the value depends on min(k, 13) only; the 784 remaining configurations are evaluated by the kernel. Findings for 13 rounds and more and for casts of large trial numbers.
* **C84** counting and listing agree — both sides are determined by the exactness theorems C24, C25, C30, C32.
* **C85** next_prime and prev_prime are inverse on primes — from C19–C21 and the order of the primes.
* **C86** the factorization depends on nothing but the number — `IsFactorization` determines the map; C44–C48.
* **C87** primality, factorization and arithmetic functions fit together — from C45, C51, C52 and the properties of the Möbius function
  in Mathlib. C86 and C87 are stated for every bound below which is_prime64 accepts only primes (`TestExactBelow`).
* **C88** primorial without overflow checks — Model/ReleaseBuffer.lean writes the product with wrapping multiplication; the result is
  the true product modulo `2^bits` while the n-th prime fits the type, so it is right exactly if the product fits. C33 says the version
  with overflow checks panics instead.
* **C89** default Lucas tests — `Spec.MethodA` and `Spec.MethodC` (Props/LucasSearch.lean) say which parameter the published methods
  choose; induction over the search loops. The spurious last squaring of is_slprp is harmless because `P = 1`: a common factor of `n`
  and `Q` makes every `V_k` congruent to 1. With this C16 becomes an equivalence (`C16_accepted_iff`, `C16_bpsw_iff`).
* **C90** what pollard_rho reports — `Spec.rhoWalk`, `rhoDist`, `rhoProd` and `RhoCheck` (Props/Rho.lean) describe the walk and
  Brent's comparisons without the loop's state; induction over the loop relates both. `C90_rho_misses` and
  `C90_rho_backtrack_misses` are the two ways in which a revealed factor is lost.
* **C91** counting primes without overflow checks — `Model/ReleaseBuffer.lean` and `Model/ReleaseNth.lean` have the wrapping versions of `prime_phi`,
  `prime_pi` and everything they call.
  A run that starts from a sum shifted by `k` modulo 2^64 ends shifted by `k` (`piOuter_rel`): `k = 0` gives the agreement with the
  checked version, `k = 2^63` the error at `u64::MAX`.
* **C92** growing the buffer without overflow checks — `Buf.reserveRel` (Model/ReleaseBuffer.lean) wraps around. What the sieve marks is
  characterised for arbitrary starting points (`mark_from`, `sieveOldRel_spec`); `Buf.RelInv` is what remains of the invariant of C26.
  The lost prime is proved prime by the Lucas criterion.
* **C93** `C93_rho_lucky`: by C90 the first step of rho succeeds when it moves by a non-zero multiple of `p`; counted over the
  second random number. `C93_factorize64_reachable`, `C93_factorize128_reachable`: induction over the worklist with the sum of
  `2t - 3` as measure, changing one random word per search. No statement about probabilities over whole runs is made.
* **C94** contract of the generator loop (`genLoop_first`, `primLoop_contract`) with the exactness of the test as hypothesis
  (`TestExactBelow`, dischargeable for `u8`, `u16` and without big tables `u32`); the words are counted as an interval. Without big tables
  the prime 257 is left out of the count: `next_prime` panics on 253 and 255 (C21).
  The wide types (`RandDistWide.lean`): their test is `is_prime64` below 2^64, `next_prime` carries over from the narrower type
  (C110), and a prime below 2^b returned by the generator is the first one from the number drawn; the count is shared. `RandDistSmall.lean`:
  2, 3 and 257 are reached from one odd number; the words that lead past 2^bits are those beyond the last prime, by Bertrand's
  postulate the first prime above is still in the type.
* **C95** (Props/OneLineComplete.lean) `oneLine` is complete: from a coprime splitting of an odd composite target a round is
  constructed in which the remainder is a square with a nontrivial gcd (Lehman's argument with the multipliers taken large enough);
  prime powers are handled separately. For `BigUint` this becomes "finds a divisor iff composite".
* **C96** (Proofs/OneLine32.lean, Props/FactorizeU32.lean) totality of the factorization functions below `2^32` for every random
  source. Dirichlet's approximation theorem gives, for coprime `a >= b >= 257` with `a b < 2^32`, a round of `one_line` with multiplier 480
  that succeeds before `i * 480 a b` reaches `(2^32-1)^2`, so the search finds a divisor before any overflow; termination is C79 and
  exactness of the test is C02 (`u32`, build without big tables).
* **C97** (Props/ReleaseNth.lean, Model/ReleaseNth.lean) `nth_prime_est`, `nprimes` and `nth_prime` without overflow checks. The
  checked run returning a value is copied step by step; non-termination: from the first round on the middle of the interval is
  below `2^63`, where the estimate of `π` is below `n` (interval bounds on the two formulas), so the upper end never moves.
* **C98** (Props/MintMore.lean, Model/MintMore.lean) `remRel`, `unaryRel`, `mpowmRel`, `partialCmpRel` are the operators of `Mint` without `debug_assert!`. Case analysis over the
  forms: equal to the checked ones for one common modulus, refinement in general, and the answer for a wrong modulus. Operations of
  num-modular on two reduced numbers of different moduli are not modelled in release mode.
* **C99** (Props/ReleaseRand.lean, Model/ReleaseRand.lean) the draw of src/rand.rs with masked shifts and a wrapping `bit_size - 1`.
  The draws are equal for a bit size from 1 on, and those for 0 are those for the full width; the loops are then the same by induction on
  the attempts. The safe primes of `u128` are in C102.
* **C100** (Props/ReleasePrimality.lean, Model/ReleasePrimality.lean) the tests of src/primality.rs with wrapping arithmetic and masked
  shifts. Step by step comparison with the checked model wherever that one returns; C89 and the divisibility of `2^b - 1` by 5 give the
  default parameters; for `2^b - 1` the index `n + 1` wraps to 0 and the Lucas numbers at 0 pass every test.
* **C101** (Props/ReleaseMoebius.lean, Model/ReleaseMoebius.lean) machine integers are below `2^128`, so `factors` is `factorize128`
  and C80 applies; `target - 1` is taken of an odd number and cannot wrap. The value of `moebius` follows as in C51.
* **C102** (Props/ReleasePrime.lean, Model/ReleasePrime.lean) `is_prime`, `is_safe_prime`, `next_prime`, `prev_prime` with the tests of
  C100 and wrapping subtractions. The tests agree for default parameters (C100), `next_prime` uses `checked_add`, and `prev_prime` stops
  at a prime of the table region before anything wraps. Tests on `SmallMint` values are those with debug assertions.
* **C103** (Props/ReleaseExamples.lean, Model/ReleaseExamples.lean) the example programs with wrapping products, powers and sums. The
  products are divisors of `n` and do not wrap (C66); a wrapping sum is the sum modulo `2^64`; the factorization is C80, the test C102.
* **C104** (Props/TableRange, Model/Lookup) Lookups: `is_prime64`, the wheel loops, the `moebius` table and `BigUint::sqrt_exact`/`cbrt_exact` are modelled again with every index, 64 bit shift and narrowing conversion checked, a failed check being a panic. The checked functions are proved equal to the unchecked ones for all arguments (hash below the table length, residues below the modulus, the wheel position invariant by induction on the search).
* **C105** (Props/Profile, Model/Profile) examples/profile_factorization.rs: a run is a function of its iteration limit. All three methods are proved to depend on the limit only by being cut off (`LimitOnly`, induction on the loops), which makes the reported count the minimum over the runs; returning below `2^94` follows from C39, C43 and C78; the bit lengths from C60 and C61. The panic is a concrete product of two primes (certificates in the file). Not modelled: printing and the CSV file.
* **C106** (Props/Limit) the limit is the fuel of the loops of `squfof` and `one_line`; induction over the loop compares two limits.
* **C107** (Props/AnyBuffer) `factors`, `factorize` and `divisor` of the model take the list of values of the buffer's iterator; here it is
  an arbitrary list of 64-bit primes instead of a reachable `NaiveBuffer`. Since targets below `2^128` take the shortcut, the `Ok(r)` of
  `trial_division` with `r != 1` cannot occur, so gaps do no harm. The iterator is finite and yields the same values at every call.
* **C108** (Props/Shanks) the specification `ShanksAt` speaks of real continued fractions only (`completeQuotient`). The state `(p, q)` of
  the loops stands for `(√D + p) / q`, one call of `rho` for one step of the continued fraction (the form invariant of C41 gives the floor
  and the next denominator); irrationality of `√D` makes the representation unique, so that results can be compared.
* **C109** (Props/RandReach) the random word `p * 2^(BITS - bits)` (for `BigUint` the number `p`) is traced through the first round of the
  loop; primes are accepted by C01 and C14, on `SmallMint` by C64. For the prime 2 a word with leading
  bits 0…00 or 0…01 is traced through `next_prime(1)`; `gen_prime_exact(2)` draws 3 from every word.
* **C110** (Props/Widen.lean) compares the model at two widths: every normal result at the narrower width is the result at the wider one. Proved with a refinement relation between results that is preserved by sequencing and branching, and by induction over every loop. `next_prime` and `one_line` are covered for `Some` results; an example shows that `None` of `next_prime` does depend on the type.
* **C111** (Props/BuildAgree.lean) compares the model of the two builds. The exact roots agree by their specifications, and through them the Lucas tests, `squfof`, `one_line` and the generic test above 2^64; below 2^64 the agreement is stated up to a bound below which both builds accept only primes (2^16 is proved for both, the rest is the content of C02). `next_prime` on 252..255 without big tables panics (C21).
* **C112** (Props/Agree.lean) combines the contracts of C19-C21, C24, C30 and C32: each result is characterised by the primes themselves, so any two agree. The bounds on the arguments are those of the contracts.
* **C113** (Props/Stronger.lean) From the exact meaning of an acceptance above 2^64 (all tests passed) and prefix lemmas on the witness list and on the
  random draws. The reported number is compared through C83's error bound: a Lucas test multiplies it by 11/15, which exceeds the rounding error.
* **C114** (Props/Stepping.lean) The wheel loops are followed with the invariant that no accepted number has been skipped; accepted numbers beyond the table
  are coprime to the wheel (C68) and the table part is exact. Unlike C85 nothing is assumed or computed about pseudoprimes, so all of u64 is covered.
- **C115** (Props/Settled.lean): every loop of the code without a visible bound takes a number of rounds in the model and gives `timeout` when it is used up. `Spec.Settles r r'` says that `r'` equals `r` unless `r` ran out of rounds. It is shown for each such function by induction on the rounds, through all callers, so the bounds are an artefact of the model that no outcome depends on. Props/ReleaseSettled.lean does the same for the versions without overflow checks.
* **C116** (Props/ReleaseMint.lean, Model/ReleaseMint.lean) the tests of src/primality.rs and `is_prime` on `Mint`, with wrapping `+`, `-`, masked `>>` and the operators of C98. Each function is shown to equal the plain release version of C100 step by step (the residues stay reduced by the same modulus); the default parameters never reach an overflow (C100), so the debug and release versions of `is_prime` coincide; so do those of `is_eslprp` with an explicit parameter wherever the plain test returns. The random primes of `u128` in release mode (C99, C102) use this model.
* **C117** (Props/RandomRounds.lean) the random words of `is_prime` are counted: `Spec.count W m P` is the number of functions `Fin m → Fin W` whose list has the property `P`. By induction on `m`, splitting on the first word (already in the list of bases: drawn again; a liar not in the list: one more base; no liar: rejected), `count * W^k ≤ L^k * W^m`. Rabin's bound (C82) gives `4 L ≤ n - 1`; a zero word is never accepted, so words are bases in `1..n-1`. A multiple of a divisor of `n` is never accepted either; the least prime factor of a composite number below `2^128` is such a word. Nothing is assumed about the generator: the statement is about all sequences of words, each counted once. Finding: from `2^66` on the bound is empty, since Rabin's theorem speaks about bases uniform in `1..n-1` and the code draws 64-bit words; the probability reported by `is_prime` is not justified by it there.
* **C118** (Props/RandDistSafe.lean) both kinds of generators are described by two small interfaces (`Starts`: the prime generator starts at
  a number given by the word; `SafeGen`: what is done with the prime), each proved for all six generators; the words that lead to a safe
  prime are the union of two intervals, counted as in C94.
* **C119** (Props/RandPanic.lean) `C21_next_prime_panics` for the words that give 253 or 255; for all others the loop is shown to return,
  or to go on drawing, by the termination of `next_prime`; counted as an interval.
* **C120** (Props/RandSafeSizes.lean) Divergence by induction on the number of attempts from the values of `gen_prime_exact(1)` and
  `gen_prime_exact(2)`. The other direction needs a safe prime of each size from 3 to 128: a table of chains of primes, each certified by
  the one before it with Pocklington's criterion (proved there, evaluated in the kernel); then C109. For `BigUint` beyond 128 bits nothing
  is claimed, because the existence of safe primes of every size is an open problem. Bit size 0 is excluded (C62).
* **C121** (Props/RandSafeLive.lean, Props/RandSafeLiveWide.lean) The inner loop does not go past a word that gives an accepted number (induction on its steps) and
  returns (C59); the outer loop by strong induction on the distance to the word. The word exists by C120.
  Props/RandSafeProb.lean counts the sequences that avoid it.

Hypotheses: next to the theorems there are `example`s with concrete cases; Props/Instances.lean, Props/Instances2.lean and Props/Instances3.lean apply further
theorems to concrete inputs with every hypothesis discharged. The one hypothesis for which no such instance is given is `NoPseudoprimes`
(C02), which is a true but unproved statement about all numbers below `2^64`.
