{"id": "C01", "title": "is_prime64 never rejects a prime", "statement": "For every prime p that fits in a u64, is_prime64(p) returns true, in the default (big-table) build and in the build without the big-table feature.", "quantifier": "every prime p < 2^64; both table builds", "why_tests_cant": "2^64 inputs; a rejected prime could hide anywhere, e.g. behind a wheel, table or witness-hash entry no test touches", "anchors": ["src/nt_funcs.rs::is_prime64", "src/nt_funcs.rs::is_prime64_miller", "src/tables.rs::WHEEL_NEXT", "src/tables.rs::MILLER_RABIN_BASE32", "src/tables.rs::MILLER_RABIN_BASE64"]}
{"id": "C02", "title": "is_prime64 accepts only primes", "statement": "For every u64 n, is_prime64(n) = true implies n is prime.", "quantifier": "every n < 2^64; both table builds", "why_tests_cant": "2^64 inputs; strong pseudoprimes are extremely rare so sampling never meets one", "anchors": ["src/nt_funcs.rs::is_prime64", "src/nt_funcs.rs::is_prime64_miller"]}
{"id": "C03", "title": "is_prp is the Fermat test", "statement": "n.is_prp(b) is true exactly when b^(n-1) = 1 mod n; hence every prime passes for every base it does not divide.", "quantifier": "all n >= 1, all bases", "why_tests_cant": "the domain is (practically) infinite; a test samples a few points of it", "anchors": ["src/primality.rs::PrimalityUtils::is_prp"]}
{"id": "C04", "title": "is_sprp is the textbook strong probable prime test", "statement": "For every odd n >= 3 and every base b, n.is_sprp(b) is true iff, writing n-1 = d*2^s with d odd, b^d = 1 mod n or b^(d*2^r) = -1 mod n for some 0 <= r < s. (The loop makes one squaring more than the textbook; that must never change the verdict.)", "quantifier": "all odd n >= 3, all bases, every integer width", "why_tests_cant": "the domain is (practically) infinite; a test samples a few points of it", "anchors": ["src/primality.rs::PrimalityUtils::is_sprp", "src/primality.rs::PrimalityUtils::test_sprp"]}
{"id": "C05", "title": "strong test never rejects a prime", "statement": "If n is an odd prime and n does not divide the base b, then n.is_sprp(b) = true and test_sprp(b) = Left(true).", "quantifier": "all odd primes, all bases not divisible by it", "why_tests_cant": "the domain is (practically) infinite; a test samples a few points of it", "anchors": ["src/primality.rs::PrimalityUtils::test_sprp"]}
{"id": "C06", "title": "test_sprp's factor is a proper divisor", "statement": "Whenever n.test_sprp(b) returns Right(d), d divides n and 1 < d < n.", "quantifier": "all odd n >= 3, all bases", "why_tests_cant": "the domain is (practically) infinite; a test samples a few points of it", "anchors": ["src/primality.rs::PrimalityUtils::test_sprp"]}
{"id": "C07", "title": "lucasm computes Lucas sequences", "statement": "T::lucasm(p, q, m, n) returns (U_n(p,q) mod m, V_n(p,q) mod m) for the Lucas sequences defined by the recurrence X_{k+2} = p X_{k+1} - q X_k.", "quantifier": "all p >= 0, all integers q, all moduli m >= 1, all n", "why_tests_cant": "the domain is (practically) infinite; a test samples a few points of it", "anchors": ["src/primality.rs::LucasUtils::lucasm"]}
{"id": "C08", "title": "Lucas parameter search terminates", "statement": "pq_selfridge and p_bruteforce return for every odd n (they never loop for ever and never overflow the integer type). The pair (P,Q) found satisfies jacobi(P^2-4Q, n) = -1, and the escape value (0,0) / 0 is returned only when n is not prime. The discriminant found is small: |D| <= 15 or |D|(|D|-1) < 4n for Selfridge, P <= 9 or P^2 < n + 4 for the brute force search.", "quantifier": "all odd n, all integer types of at least 8 bits", "why_tests_cant": "an infinite loop shows up only on particular n (squares, n with no small non-residue)", "anchors": ["src/primality.rs::LucasUtils::pq_selfridge", "src/primality.rs::LucasUtils::p_bruteforce"]}
{"id": "C09", "title": "Lucas test never rejects a prime", "statement": "For every odd prime n, n.is_lprp(None, None) = true; with explicit (p, q) it is true whenever n does not divide q. For every odd n the verdict is exactly U_{n - (D/n)}(p,q) = 0 mod n, where D = p^2-4q. Outside the parameter range named in the quantifier the call can panic, or wrap in `as isize` and reject a prime (a finding, stated as theorems).", "quantifier": "all odd primes n (with n+1 representable); explicit parameters range over those with p*p, 4*q and p*p-4*q inside isize and p, |q|, |p*p-4*q| inside the integer type", "why_tests_cant": "the domain is (practically) infinite; a test samples a few points of it", "anchors": ["src/primality.rs::PrimalityUtils::is_lprp"]}
{"id": "C10", "title": "strong Lucas test never rejects a prime", "statement": "For every odd prime n, n.is_slprp(None, None) = true.", "quantifier": "all odd primes n (with n+1 representable)", "why_tests_cant": "the domain is (practically) infinite; a test samples a few points of it", "anchors": ["src/primality.rs::PrimalityUtils::is_slprp"]}
{"id": "C11", "title": "is_slprp is the textbook strong Lucas test", "statement": "For odd n and explicit p,q with gcd(n, q) = 1, n.is_slprp(Some p, Some q) is true iff, with n - (D/n) = d*2^s, U_d = 0 or V_{d*2^r} = 0 mod n for some 0 <= r < s.", "quantifier": "all odd n >= 3, all p, q with gcd(n,q)=1; explicit parameters range over those with p*p, 4*q and p*p-4*q inside isize and p, |q|, |p*p-4*q| inside the integer type", "why_tests_cant": "the domain is (practically) infinite; a test samples a few points of it", "anchors": ["src/primality.rs::PrimalityUtils::is_slprp"]}
{"id": "C12", "title": "extra strong Lucas test never rejects a prime", "statement": "For every odd prime n, n.is_eslprp(None) = true.", "quantifier": "all odd primes n (with n+1 representable)", "why_tests_cant": "the domain is (practically) infinite; a test samples a few points of it", "anchors": ["src/primality.rs::PrimalityUtils::is_eslprp"]}
{"id": "C13", "title": "is_eslprp returns for every explicit parameter", "statement": "n.is_eslprp(Some(p)) returns a bool (no panic) for every odd n and every p.", "quantifier": "all odd n, all p with p and |p*p-4| inside the integer type and p*p inside isize", "why_tests_cant": "the failing inputs are those with gcd(p^2-4, n) > 1, which a test author has no reason to pick", "anchors": ["src/primality.rs::PrimalityUtils::is_eslprp"]}
{"id": "C14", "title": "generic is_prime never rejects a prime", "statement": "For every prime n (any size, including beyond 64 bits), every PrimalityTestConfig, every buffer state and every value drawn from the random generator, buf.is_prime(&n, config) is not Primality::No.", "quantifier": "all primes, all configurations, all random draws", "why_tests_cant": "random witnesses range over 2^64 values; the bad draw is hit with probability 2^-64", "anchors": ["src/buffer.rs::PrimeBufferExt::is_prime"]}
{"id": "C15", "title": "Yes/No/Probable are used correctly", "statement": "buf.is_prime returns Yes only for n < 2^64, where the answer is the deterministic is_prime64; for larger n an answer is No or Probable(..), and No is only given to composites (or 0, 1).", "quantifier": "all n, configs, buffers, random draws", "why_tests_cant": "the domain is (practically) infinite; a test samples a few points of it", "anchors": ["src/buffer.rs::PrimeBufferExt::is_prime", "src/traits.rs::Primality"]}
{"id": "C16", "title": "accepted numbers pass every configured test", "statement": "If n > 2^64 is accepted by buf.is_prime under a config, n is a strong probable prime to each of the first sprp_trials primes and to every random base drawn, and passes the (strong / extra strong) Lucas tests switched on; in particular strict() acceptance implies bpsw() acceptance.", "quantifier": "all n > 2^64, all configs, buffers and draws", "why_tests_cant": "the domain is (practically) infinite; a test samples a few points of it", "anchors": ["src/buffer.rs::PrimeBufferExt::is_prime", "src/traits.rs::PrimalityTestConfig"]}
{"id": "C17", "title": "Primality combinators obey three-valued logic", "statement": "probably(), & and | on Primality agree with and/or of the verdicts, are commutative and associative, and keep a Probable value within (0,1] .", "quantifier": "all Primality values", "why_tests_cant": "probabilities range over a continuum", "anchors": ["src/traits.rs::Primality"]}
{"id": "C18", "title": "is_safe_prime", "statement": "is_safe_prime(n) does not return No exactly when n and (n-1)/2 are both prime (as far as the underlying test is exact).", "quantifier": "all n", "why_tests_cant": "the domain is (practically) infinite; a test samples a few points of it", "anchors": ["src/nt_funcs.rs::is_safe_prime"]}
{"id": "C19", "title": "next_prime returns the next prime", "statement": "next_prime(&n, None) = Some(p) with n < p, p accepted by the primality test and no prime q with n < q < p (so p is the least prime greater than n wherever the test is exact), if a prime above n fits in the type; otherwise None or an accepted p. It never returns n itself. (Default build.)", "quantifier": "all n, every unsigned width and BigUint", "why_tests_cant": "gaps and wheel positions: a skipped prime needs the right residue mod 30/2310", "anchors": ["src/nt_funcs.rs::next_prime"]}
{"id": "C20", "title": "prev_prime returns the previous prime", "statement": "prev_prime(&n, None) = Some(p) with p < n, p accepted by the primality test and no prime q with p < q < n (so p is the greatest prime less than n wherever the test is exact), and None exactly when n <= 2.", "quantifier": "all n, every unsigned width and BigUint; both builds", "why_tests_cant": "the domain is (practically) infinite; a test samples a few points of it", "anchors": ["src/nt_funcs.rs::prev_prime"]}
{"id": "C21", "title": "next_prime without big tables", "statement": "In the build without the big-table feature next_prime satisfies the same contract.", "quantifier": "all n, small-table build", "why_tests_cant": "four inputs out of all integers misbehave", "anchors": ["src/nt_funcs.rs::next_prime (cfg not big-table)", "src/tables.rs::SMALL_PRIMES_NEXT"]}
{"id": "C22", "title": "wheel tables step between coprime residues", "statement": "From any position the wheel offsets lead to the next / previous number coprime to the wheel modulus, so walking the wheel visits every number coprime to it and nothing in between is coprime.", "quantifier": "all integers n, both wheels (30 and 2310), both directions", "why_tests_cant": "infinitely many n; an off-by-one entry skips one residue class", "anchors": ["src/tables.rs::WHEEL_NEXT", "src/tables.rs::WHEEL_PREV"]}
{"id": "C23", "title": "prime buffer content invariant", "statement": "After any sequence of operations on a NaiveBuffer (reserve, clear, primes, nprimes, nth_prime, prime_pi, prime_phi, primorial, ... in any order with any arguments) the stored list is exactly the increasing list of all primes below some odd bound: nothing missing, nothing composite, no duplicates.", "quantifier": "all operation histories and arguments", "why_tests_cant": "histories are unbounded; sieving from a non-initial bound depends on where the previous call stopped", "anchors": ["src/buffer.rs::NaiveBuffer"]}
{"id": "C24", "title": "primes(limit) is exact", "statement": "buf.primes(limit) yields exactly all primes <= limit in increasing order, whatever was done to the buffer before.", "quantifier": "all limits, all histories", "why_tests_cant": "the domain is (practically) infinite; a test samples a few points of it", "anchors": ["src/buffer.rs::NaiveBuffer::primes", "src/buffer.rs::NaiveBuffer::into_primes", "src/nt_funcs.rs::primes"]}
{"id": "C25", "title": "nprimes(count) is exact", "statement": "buf.nprimes(count) yields exactly the first count primes in order, whatever was done before.", "quantifier": "all counts, all histories", "why_tests_cant": "the domain is (practically) infinite; a test samples a few points of it", "anchors": ["src/buffer.rs::NaiveBuffer::nprimes", "src/buffer.rs::NaiveBuffer::into_nprimes", "src/nt_funcs.rs::nprimes"]}
{"id": "C26", "title": "contains / bound", "statement": "For every n <= buf.bound(), buf.contains(n) is true iff n is prime, and contains never returns true for a composite; bound() is the largest prime stored.", "quantifier": "all n, all histories", "why_tests_cant": "the domain is (practically) infinite; a test samples a few points of it", "anchors": ["src/buffer.rs::NaiveBuffer::contains", "src/buffer.rs::NaiveBuffer::bound", "src/traits.rs::PrimeBuffer"]}
{"id": "C27", "title": "reserve(limit) contract", "statement": "After buf.reserve(limit) every prime <= limit is in the buffer and no previously stored prime is lost; (documented claim: 'the largest prime in the buffer is at least limit').", "quantifier": "all limits, all histories", "why_tests_cant": "the domain is (practically) infinite; a test samples a few points of it", "anchors": ["src/buffer.rs::NaiveBuffer::reserve", "src/traits.rs::PrimeBuffer::reserve"]}
{"id": "C28", "title": "reserve does not overflow", "statement": "buf.reserve(limit) returns without arithmetic overflow or out-of-range sieve access for every history and limit (in the range where the sieve fits).", "quantifier": "all limits, all histories", "why_tests_cant": "needs buffers with more than 2^32 numbers sieved", "anchors": ["src/buffer.rs::NaiveBuffer::reserve"]}
{"id": "C29", "title": "clear keeps the buffer correct", "statement": "buf.clear() leaves a correct buffer holding exactly the first 16 primes; every later operation still answers exactly.", "quantifier": "all histories", "why_tests_cant": "the domain is (practically) infinite; a test samples a few points of it", "anchors": ["src/buffer.rs::NaiveBuffer::clear"]}
{"id": "C30", "title": "prime_pi counts primes", "statement": "buf.prime_pi(x) = number of primes <= x, for every x and every buffer history (for x >= 38891^2 given exactness of the 64-bit primality test); the intermediate unsigned arithmetic of the Meissel-Lehmer formula never underflows or overflows.", "quantifier": "all x, all histories", "why_tests_cant": "the combinatorial identity has boundary cases (x a square / cube / fourth power of primes) that sampling misses", "anchors": ["src/buffer.rs::NaiveBuffer::prime_pi", "src/nt_funcs.rs::prime_pi"]}
{"id": "C31", "title": "prime_phi is Legendre's partial sieve function", "statement": "buf.prime_phi(x, a, cache) = number of 1 <= n <= x not divisible by any of the first a primes (a >= 1), for any cache capacity and any consistent cache content; cache contents stay consistent; no intermediate value overflows.", "quantifier": "all x, all a >= 1, all cache capacities and states", "why_tests_cant": "the domain is (practically) infinite; a test samples a few points of it", "anchors": ["src/buffer.rs::NaiveBuffer::prime_phi"]}
{"id": "C32", "title": "nth_prime is exact", "statement": "buf.nth_prime(n) is the n-th prime for every n >= 1, whatever starting estimate the floating point code produced (for n > 4096 given exactness of the 64-bit primality test).", "quantifier": "all n >= 1, all histories, all float estimates", "why_tests_cant": "float estimates vary by platform; large n are too slow to test", "anchors": ["src/buffer.rs::NaiveBuffer::nth_prime", "src/nt_funcs.rs::nth_prime"]}
{"id": "C33", "title": "primorial is exact", "statement": "buf.primorial(n) is the product of the first n primes.", "quantifier": "all n, all histories", "why_tests_cant": "the domain is (practically) infinite; a test samples a few points of it", "anchors": ["src/buffer.rs::NaiveBuffer::primorial", "src/nt_funcs.rs::primorial"]}
{"id": "C34", "title": "prime_pi_bounds is exact in the table range", "statement": "For x <= 8161 prime_pi_bounds(x) returns (pi(x), pi(x)).", "quantifier": "all x in the table range (<= 8161; <= 251 without the big-table feature), all integer types", "why_tests_cant": "a test samples types and values; the claim is for all of them", "anchors": ["src/nt_funcs.rs::prime_pi_bounds"]}
{"id": "C35", "title": "nth_prime_bounds is exact in the table range", "statement": "For 1 <= n <= 1024 nth_prime_bounds(n) returns (p_n, p_n), and (0, 0) for n = 0.", "quantifier": "n = 0 and all n in the table range (<= 1024; <= 54 without the big-table feature), all integer types that can hold p_n", "why_tests_cant": "a test samples types and values; the claim is for all of them", "anchors": ["src/nt_funcs.rs::nth_prime_bounds"]}
{"id": "C36", "title": "nth_prime_est terminates inside the bounds", "statement": "Whatever prime_pi_est returns, nth_prime_est's bisection terminates and returns a value between the bounds given by nth_prime_bounds.", "quantifier": "all n, all estimator functions (floats)", "why_tests_cant": "float rounding could make a bisection loop for ever", "anchors": ["src/nt_funcs.rs::nth_prime_est"]}
{"id": "C37", "title": "trial_division loses nothing", "statement": "trial_division(primes, n, limit) returns a map and a residual with product(map)*residual = n; every key of the map is one of the tried primes with its exact multiplicity, and the residual has none of the tried primes as factor.", "quantifier": "all n >= 1, all iterators, all limits", "why_tests_cant": "the domain is (practically) infinite; a test samples a few points of it", "anchors": ["src/factor.rs::trial_division"]}
{"id": "C38", "title": "trial_division Ok means completely factored", "statement": "If the iterator yields all primes in order and the result is Ok(r), then r is 1 or prime, so the map together with r is the prime factorization.", "quantifier": "all n >= 1, all limits", "why_tests_cant": "the domain is (practically) infinite; a test samples a few points of it", "anchors": ["src/factor.rs::trial_division"]}
{"id": "C39", "title": "pollard_rho returns a proper divisor", "statement": "If pollard_rho(n, start, offset, max_iter) returns (Some(d), k) then d divides n and 1 < d < n; it does at most max_iter iterations and always returns.", "quantifier": "all n, start, offset, max_iter", "why_tests_cant": "random start/offset; cycles of any shape", "anchors": ["src/factor.rs::pollard_rho"]}
{"id": "C40", "title": "squfof returns a proper divisor", "statement": "If squfof(n, k*n, max_iter) returns Some(d) then d divides n and 1 < d < n.", "quantifier": "all n, multipliers, iteration limits", "why_tests_cant": "only special inputs (perfect square k*n) reach the shortcut", "anchors": ["src/factor.rs::squfof"]}
{"id": "C41", "title": "squfof's unsigned arithmetic never underflows or overflows", "statement": "For every n and k with k*n representable, all subtractions in squfof are non-negative, every intermediate fits in the integer type and there is no division by zero.", "quantifier": "all n, k, iteration counts", "why_tests_cant": "requires an invariant over unboundedly many continued fraction steps", "anchors": ["src/factor.rs::squfof"]}
{"id": "C42", "title": "one_line returns a proper divisor", "statement": "If one_line(n, k*n, max_iter) returns Some(d) then d divides n and 1 < d < n.", "quantifier": "all n, multipliers, iteration limits", "why_tests_cant": "the domain is (practically) infinite; a test samples a few points of it", "anchors": ["src/factor.rs::one_line"]}
{"id": "C43", "title": "one_line does not overflow", "statement": "one_line performs no overflowing arithmetic on any u64 input.", "quantifier": "all u64 targets", "why_tests_cant": "only targets within 2^33 of 2^64 misbehave", "anchors": ["src/factor.rs::one_line", "src/nt_funcs.rs::factorize64_advanced"]}
{"id": "C44", "title": "factorize64 multiplies back", "statement": "For every n >= 1, whatever the random generator returns, if factorize64(n) returns, the product of p^e over the returned map is n, every exponent is positive and every key passes the primality test.", "quantifier": "all n in 1..2^64, all random draws, both builds", "why_tests_cant": "random rho restarts; 2^64 inputs", "anchors": ["src/nt_funcs.rs::factorize64", "src/nt_funcs.rs::factorize64_advanced"]}
{"id": "C45", "title": "factorize64 is the prime factorization", "statement": "Given exactness of the 64-bit primality test, factorize64(n) maps exactly the primes dividing n to their multiplicities.", "quantifier": "all n in 1..2^64, all random draws", "why_tests_cant": "the domain is (practically) infinite; a test samples a few points of it", "anchors": ["src/nt_funcs.rs::factorize64"]}
{"id": "C46", "title": "factorize128 multiplies back and is the prime factorization", "statement": "The map returned by factorize128 multiplies back to n, its keys pass the BPSW test, and given exactness of that test on the divisors of n it maps exactly the primes dividing n to their multiplicities. For n from 2^64 on with at most one prime factor outside the table it returns the prime factorization without any assumption.", "quantifier": "all n in 1..2^128, all random draws", "why_tests_cant": "the domain is (practically) infinite; a test samples a few points of it", "anchors": ["src/nt_funcs.rs::factorize128", "src/nt_funcs.rs::factorize128_advanced"]}
{"id": "C47", "title": "factors() accounts for every factor", "statement": "buf.factors(n, config) returns (map, failed) such that product(map) * product(failed) = n, every key of map passes the primality test, and None/empty failed list means complete factorization.", "quantifier": "all n >= 1, all configs, buffers, random draws", "why_tests_cant": "the domain is (practically) infinite; a test samples a few points of it", "anchors": ["src/buffer.rs::PrimeBufferExt::factors", "src/nt_funcs.rs::factors"]}
{"id": "C48", "title": "factorize() is complete", "statement": "buf.factorize(n) returns a map whose product is n (it retries until nothing is left unfactored).", "quantifier": "all n >= 1, all random draws", "why_tests_cant": "the domain is (practically) infinite; a test samples a few points of it", "anchors": ["src/buffer.rs::PrimeBufferExt::factorize", "src/nt_funcs.rs::factorize"]}
{"id": "C49", "title": "divisor() returns a proper divisor", "statement": "buf.divisor(n, config) = Some(d) implies d divides n and 1 < d < n.", "quantifier": "all n, configs, buffers, random draws", "why_tests_cant": "the domain is (practically) infinite; a test samples a few points of it", "anchors": ["src/buffer.rs::PrimeBufferExt::divisor"]}
{"id": "C50", "title": "divisor() honours the trial division limit", "statement": "With td_limit = None or Some(l>0) divisor() does trial division with the buffer's primes, so it finds a factor of every composite that has a small prime factor.", "quantifier": "all composite n, all configs", "why_tests_cant": "which branch ran is not observable on lucky inputs", "anchors": ["src/buffer.rs::PrimeBufferExt::divisor"]}
{"id": "C51", "title": "moebius is the Moebius function", "statement": "moebius(n) = mu(n): 0 if a square > 1 divides n, else (-1)^(number of prime factors); moebius(0) = 0. (Given that the primality test is exact on the divisors of n.)", "quantifier": "all n", "why_tests_cant": "the domain is (practically) infinite; a test samples a few points of it", "anchors": ["src/nt_funcs.rs::moebius", "src/nt_funcs.rs::moebius_factorized", "src/tables.rs::MOEBIUS_ODD"]}
{"id": "C52", "title": "is_square_free", "statement": "is_square_free(n) is true iff no square > 1 divides n (the direction from false needs nothing; the other one that the primality test is exact on the divisors of n).", "quantifier": "all n >= 1", "why_tests_cant": "the domain is (practically) infinite; a test samples a few points of it", "anchors": ["src/nt_funcs.rs::is_square_free"]}
{"id": "C53", "title": "table-driven exact division", "statement": "Dividing by a tabulated small prime with its precomputed inverse gives Some(n/p) exactly when p divides n and None otherwise, for every u64 n and every tabulated odd prime.", "quantifier": "all n < 2^64, all 1023 odd table primes", "why_tests_cant": "2^64 x 1023 pairs; each table entry is a 64-bit magic constant", "anchors": ["src/tables.rs::SMALL_PRIMES_INV", "src/nt_funcs.rs::factorize64"]}
{"id": "C54", "title": "sqrt_exact on machine integers", "statement": "n.sqrt_exact() = Some(r) iff r*r = n, None iff n is not a perfect square, for every machine integer n.", "quantifier": "all n of every width", "why_tests_cant": "residue filters reject by tables; one wrong bit loses a class of squares", "anchors": ["src/integer.rs::ExactRoots (primitive)", "src/tables.rs::QUAD_RESIDUAL"]}
{"id": "C55", "title": "sqrt_exact / cbrt_exact on big integers", "statement": "For BigUint n: sqrt_exact (cbrt_exact) = Some(r) iff r^2 = n (r^3 = n), None otherwise.", "quantifier": "all n >= 0", "why_tests_cant": "the domain is (practically) infinite; a test samples a few points of it", "anchors": ["src/integer.rs::ExactRoots for BigUint", "src/tables.rs::CUBIC_RESIDUAL"]}
{"id": "C56", "title": "exact roots on BigInt", "statement": "For BigInt n: sqrt_exact is None for negative n, and cbrt_exact of -n is minus cbrt_exact of n; results are exact roots.", "quantifier": "all integers", "why_tests_cant": "the domain is (practically) infinite; a test samples a few points of it", "anchors": ["src/integer.rs::ExactRoots for BigInt"]}
{"id": "C57", "title": "nth_root_exact / is_nth_power", "statement": "n.nth_root_exact(k) = Some(r) iff r^k = n; is_square / is_cube / is_nth_power are the corresponding predicates.", "quantifier": "all n, all k >= 1", "why_tests_cant": "the domain is (practically) infinite; a test samples a few points of it", "anchors": ["src/traits.rs::ExactRoots"]}
{"id": "C58", "title": "BitTest agrees with binary representation", "statement": "bits() is the bit length, bit(i) the i-th binary digit and trailing_zeros() the 2-adic valuation, for machine integers and BigUint.", "quantifier": "all n, all positions", "why_tests_cant": "the domain is (practically) infinite; a test samples a few points of it", "anchors": ["src/integer.rs::BitTest"]}
{"id": "C59", "title": "random primes are prime", "statement": "gen_prime(bits) / gen_prime_exact(bits) only ever return numbers accepted by the primality test (hence primes when the test is exact), whatever the random generator produces.", "quantifier": "all bit sizes, all random streams", "why_tests_cant": "the random stream is unbounded", "anchors": ["src/rand.rs::RandPrime"]}
{"id": "C60", "title": "gen_prime respects the bit size", "statement": "gen_prime(bits) returns a prime < 2^bits.", "quantifier": "all bit sizes, all random streams", "why_tests_cant": "only streams hitting the top of the range violate it", "anchors": ["src/rand.rs::gen_prime", "src/traits.rs::RandPrime::gen_prime"]}
{"id": "C61", "title": "gen_prime_exact respects the bit size", "statement": "gen_prime_exact(bits) returns a prime p with 2^(bits-1) <= p < 2^bits.", "quantifier": "all bit sizes, all random streams", "why_tests_cant": "only streams hitting the top of the range violate it", "anchors": ["src/rand.rs::gen_prime_exact"]}
{"id": "C62", "title": "safe primes are safe", "statement": "gen_safe_prime / gen_safe_prime_exact return only p with p and (p-1)/2 both accepted as primes.", "quantifier": "all bit sizes, all random streams", "why_tests_cant": "unbounded random stream", "anchors": ["src/rand.rs::gen_safe_prime"]}
{"id": "C63", "title": "gen_safe_prime respects the bit size", "statement": "gen_safe_prime(bits) returns a safe prime < 2^bits.", "quantifier": "all bit sizes, all random streams", "why_tests_cant": "depends on the draw", "anchors": ["src/rand.rs::gen_safe_prime"]}
{"id": "C64", "title": "Montgomery wrapper is transparent", "statement": "Running the strong probable prime test, the Lucas sequence computation, the (strong) Lucas test and pollard_rho on numbers wrapped as SmallMint gives the same verdict / divisor as on the plain integers.", "quantifier": "all odd moduli, all inputs", "why_tests_cant": "the domain is (practically) infinite; a test samples a few points of it", "anchors": ["src/mint.rs::Mint", "src/primality.rs", "src/factor.rs::pollard_rho"]}
{"id": "C65", "title": "Montgomery wrapper never hits unreachable!()", "statement": "No public primality test panics when run on a SmallMint.", "quantifier": "all inputs, all configs", "why_tests_cant": "only the extra strong Lucas test mixes plain and reduced values", "anchors": ["src/mint.rs::Mint", "src/primality.rs::PrimalityUtils::is_eslprp"]}
{"id": "C66", "title": "divisor enumeration", "statement": "The list produced by the divisors example from a factorization is exactly the set of divisors of n, without duplicates.", "quantifier": "all factorizations", "why_tests_cant": "the domain is (practically) infinite; a test samples a few points of it", "anchors": ["examples/divisor_sigma.rs::divisors"]}
{"id": "C67", "title": "sigma and omega from a factorization", "statement": "The divisor-sum and prime-omega examples compute sigma_k(n) and the number of distinct / total prime factors (for the program on n < 2^64: given exactness of the 64-bit primality test).", "quantifier": "all n, all k", "why_tests_cant": "the domain is (practically) infinite; a test samples a few points of it", "anchors": ["examples/divisor_sigma.rs", "examples/prime_omega.rs"]}
{"id": "C68", "title": "composites with a small prime factor are rejected unconditionally", "statement": "For every u64 n >= table bound that has a prime factor dividing the wheel modulus (2,3,5 resp. 2,3,5,7,11), is_prime64(n) = false; for n below the table bound is_prime64(n) is exact. No appeal to pseudoprime tables is needed.", "quantifier": "all n < 2^64", "why_tests_cant": "the domain is (practically) infinite; a test samples a few points of it", "anchors": ["src/nt_funcs.rs::is_prime64"]}
{"id": "C69", "title": "factorization never works on primes", "statement": "Inside factorize64 / factorize128 / factors, the loop that searches for a divisor is entered only for numbers the primality test rejected; in particular never for a prime (on which it would loop for ever).", "quantifier": "all n, all random draws", "why_tests_cant": "non-termination cannot be observed by a finite test", "anchors": ["src/nt_funcs.rs::factorize64", "src/nt_funcs.rs::factorize128", "src/buffer.rs::PrimeBufferExt::factors"]}
{"id": "C70", "title": "is_eslprp verdict is the textbook extra strong Lucas condition", "statement": "For every odd n > 2 and parameter p with Jacobi symbol (p^2-4 | n) nonzero, is_eslprp(n, Some(p)) answers true exactly when n is an extra strong Lucas probable prime for P = p, Q = 1: writing n - (p^2-4|n) = d*2^s with d odd, either U_d = 0 and V_d = +-2 modulo n, or V_(d*2^r) = 0 modulo n for some r < s - 1. With p = None the parameter chosen by the search is used.", "quantifier": "all odd n, all parameters; explicit parameters range over those with p*p, 4*q and p*p-4*q inside isize and p, |q|, |p*p-4*q| inside the integer type", "why_tests_cant": "pseudoprimes are too sparse for tests to separate a subtly wrong condition from the right one", "anchors": ["src/primality.rs::is_eslprp", "src/primality.rs::p_bruteforce"]}
{"id": "C71", "title": "prime_pi_bounds encloses pi(x) beyond the table", "statement": "For x above the table range prime_pi_bounds(x) = (lo, hi) with lo <= pi(x) <= hi.", "quantifier": "all x above the table range", "why_tests_cant": "analytic estimate over all x, evaluated in floating point", "anchors": ["src/nt_funcs.rs::prime_pi_bounds"]}
{"id": "C72", "title": "nth_prime_bounds encloses p_n beyond the table", "statement": "For n above the table range nth_prime_bounds(n) = Some((lo, hi)) has lo <= p_n <= hi.", "quantifier": "all n above the table range", "why_tests_cant": "analytic estimate over all n, evaluated in floating point", "anchors": ["src/nt_funcs.rs::nth_prime_bounds"]}
{"id": "C73", "title": "the Mersenne example lists the Mersenne primes", "statement": "Whatever (non-zero) witnesses the random generator produces, the list of the find_mersenne_primes example consists of exactly the exponents p < 128 for which 2^p - 1 is prime.", "quantifier": "all random streams", "why_tests_cant": "the result depends on random witnesses; a test runs a few of the streams", "anchors": ["examples/find_mersenne_primes.rs::list_mersenne", "src/nt_funcs.rs::is_prime", "src/nt_funcs.rs::primes"]}
{"id": "C75", "title": "the estimates never panic on machine integers", "statement": "prime_pi_bounds(x) and prime_pi_est(x) return for every value x of every primitive integer type (and every BigUint up to 2^990), with lo <= hi <= x and an estimate <= x; without the large table the estimate lies between the bounds. Beyond the table nth_prime_bounds(n) returns Some((lo, hi)) with lo <= hi exactly when hi fits the type and None otherwise, and never panics.", "quantifier": "all x and n up to 2^990, all integer types, both tables, every accurate floating point arithmetic", "why_tests_cant": "the formulas are evaluated in floating point on a practically infinite domain and unwrapped", "anchors": ["src/nt_funcs.rs::prime_pi_bounds", "src/nt_funcs.rs::prime_pi_est", "src/nt_funcs.rs::nth_prime_bounds"]}
{"id": "C76", "title": "prime_pi_est is the Riemann R function", "statement": "With the large table and for x < 2^64 prime_pi_est(x) is Riemann's R(x) = 1 + sum ln(x)^k / (k k! zeta(k+1)) up to a relative error of 10^-7 and rounding.", "quantifier": "all x above the table and below 2^64", "why_tests_cant": "an infinite series truncated and evaluated in floating point, over all x", "anchors": ["src/nt_funcs.rs::prime_pi_est", "src/tables.rs::ZETA_LOG_TABLE"]}
{"id": "C77", "title": "SmallMint operators are integer and modular arithmetic", "statement": "On plain SmallMints +, -, *, /, div_rem, gcd, lcm, pow, bits, shifts and roots are those of the integer type (panic on overflow or division by zero only). If an operand is reduced modulo m, +, - and * give the reduced sum, difference and product modulo m; addm, subm, mulm, negm, dblm, sqm, powm are the operations modulo m; the order, the Jacobi, Legendre and Kronecker symbols, the parity and the conversions to 64-bit integers and floating point numbers are those of the values; what is parsed or converted from a number is plain. Operations without a meaning for reduced numbers, or with a wrong modulus, panic.", "quantifier": "all operands in plain form or reduced modulo the same odd m", "why_tests_cant": "infinitely many operands and moduli, several forms of each operand", "anchors": ["src/mint.rs::Mint"]}
{"id": "C74", "title": "the lucky number example lists the lucky numbers", "statement": "list_lucky_numbers(limit) of the find_lucky_primes example returns exactly the lucky numbers (survivors of the infinite lucky sieve) below limit, in increasing order, although it stops sieving after half of the list; list_lucky_primes(limit) returns exactly those of them that are prime.", "quantifier": "all limits (lucky primes: all limits within u64, exactness of is_prime64 as in C02)", "why_tests_cant": "the early stop is justified for all limits only by an argument about the whole sieve; a run covers one limit", "anchors": ["examples/find_lucky_primes.rs: list_lucky_numbers, list_lucky_primes"]}
{"id": "C78", "title": "squfof always returns", "statement": "squfof(target, k*target, max_iter) returns for every target > 0, every multiplier k such that k*target fits the type, and every max_iter: the inner backward loop, which has no iteration limit of its own, ends after a number of rounds bounded by max_iter * (log2(k*target) + 2).", "quantifier": "all positive targets, all multipliers that fit, all iteration limits, every integer type", "why_tests_cant": "the backward loop runs until it meets a fixed point; that it always meets one is a theorem about periods of continued fractions", "anchors": ["src/factor.rs::squfof"]}
{"id": "C79", "title": "factorization never runs forever", "statement": "For every target below 2^64 (factorize64) or 2^128 (factorize128, factors, factorize, moebius, is_square_free of any integer type) and every random source the call ends: it returns or panics after a bounded number of rounds of every loop.", "quantifier": "all targets below 2^64 / 2^128, every sequence of random draws", "why_tests_cant": "termination on all inputs and all random sequences", "anchors": ["src/factor.rs::squfof", "src/nt_funcs.rs::factorize64", "src/nt_funcs.rs::factorize128", "src/buffer.rs::factors", "src/nt_funcs.rs::moebius", "src/nt_funcs.rs::is_square_free"]}
{"id": "C80", "title": "factorization in release builds", "statement": "In a build without overflow checks one_line always returns, and every divisor it finds is the one found with unbounded integers although s*s may wrap around; factorize64 and factorize128 never panic on a positive target, return only factorizations into numbers accepted by the primality test, and return the same map as the build with overflow checks whenever that build returns one.", "quantifier": "all positive u64 / u128 targets, every random source", "why_tests_cant": "all inputs and random sequences; tests run with overflow checks on", "anchors": ["src/factor.rs::one_line", "src/nt_funcs.rs::factorize64", "src/nt_funcs.rs::factorize128"]}
{"id": "C81", "title": "hierarchy of the probable prime tests", "statement": "For odd n >= 3: is_sprp(a) accepting n implies is_prp(a) accepts it; is_slprp(p, q) accepting n with gcd(q, n) = 1 implies is_lprp(p, q) accepts it; is_eslprp(p) accepting n with a parameter of nonzero Jacobi symbol implies is_slprp(p, 1) and is_lprp(p, 1) accept it.", "quantifier": "all odd n >= 3 that fit the type, all bases, all Lucas parameters in range", "why_tests_cant": "an implication between verdicts over all targets and parameters", "anchors": ["src/primality.rs::PrimalityUtils::is_prp", "src/primality.rs::PrimalityUtils::is_sprp", "src/primality.rs::PrimalityUtils::is_lprp", "src/primality.rs::PrimalityUtils::is_slprp", "src/primality.rs::PrimalityUtils::is_eslprp"]}
{"id": "C82", "title": "at most a quarter of the bases lie", "statement": "For an odd composite n > 1 at most (n-1)/4 of the bases 1..n-1 make is_sprp accept n, and at most the fraction 4^-k of all k-tuples of bases make it accept k times; accepting every base is equivalent to being prime. If is_prp rejects one base coprime to n it accepts at most half of the bases; for the Carmichael number 561 it rejects none.", "quantifier": "all odd n > 1 that fit the type, all numbers of rounds", "why_tests_cant": "a count over all bases of every composite number", "anchors": ["src/primality.rs::PrimalityUtils::is_sprp", "src/primality.rs::PrimalityUtils::is_prp"]}
{"id": "C83", "title": "The reported probability is a probability", "statement": "For n >= 2^64 the number p in Probable(p) returned by is_prime is a function of the configuration alone: the product of 1-4^-k for k fixed and k random rounds and of 11/15 for each Lucas test, up to f32 rounding; it lies strictly between 0 and 1 whenever a test is configured. A reported probability of exactly 1 (from 13 trials on) is not a proof: there is a composite 82-bit number that is_prime reports with probability 1 for 13 trials.", "quantifier": "all configurations (numbers of trials of any size), all n >= 2^64", "why_tests_cant": "the trial numbers are arbitrary usize values; casts and rounding only show for unusual ones", "anchors": ["src/buffer.rs::PrimeBufferExt::is_prime", "src/traits.rs::Primality", "src/traits.rs::PrimalityTestConfig"]}
{"id": "C84", "title": "Counting and listing functions agree", "statement": "For every x and n in range and any histories of the buffers involved: primes(x).len() = prime_pi(x), prime_pi(nth_prime(n)) = n, nth_prime(prime_pi(p)) = p for primes p, and nprimes(n) is the same list as primes(nth_prime(n)).", "quantifier": "all x < 38891^2, all n in 1..=4096 and all buffer histories; in the build without big tables all n in 1..=13*10^7", "why_tests_cant": "the functions use different algorithms and a shared mutable buffer; the relation is over all inputs and histories", "anchors": ["src/nt_funcs.rs::prime_pi", "src/nt_funcs.rs::nth_prime", "src/buffer.rs::NaiveBuffer::primes", "src/buffer.rs::NaiveBuffer::nprimes"]}
{"id": "C85", "title": "next_prime and prev_prime are inverse on primes", "statement": "For a prime p: prev_prime(next_prime(p)) = p whenever the next prime fits the type, and next_prime(prev_prime(p)) = p for p > 2.", "quantifier": "all primes of u8 and u16, in the build without big tables also of u32", "why_tests_cant": "billions of primes; the two functions walk different wheel tables", "anchors": ["src/nt_funcs.rs::next_prime", "src/nt_funcs.rs::prev_prime"]}
{"id": "C86", "title": "The factorization depends on nothing but the number", "statement": "All runs of factorize64, factorize128, factorize and (when it leaves no cofactor) factors on the same number return the same map, whatever the random draws, the integer type, the configuration and the state of the prime buffer.", "quantifier": "all numbers below any bound up to which is_prime64 accepts only primes (2^16 in every build, 2^32 without big tables), all random sources and buffer histories", "why_tests_cant": "ranges over all random sequences; the functions take different paths", "anchors": ["src/nt_funcs.rs::factorize64", "src/nt_funcs.rs::factorize128", "src/buffer.rs::factorize", "src/buffer.rs::factors"]}
{"id": "C87", "title": "Primality, factorization and arithmetic functions fit together", "statement": "is_prime(n) answers Yes exactly if the factorization of n is {n: 1}; moebius is multiplicative, is -1 on numbers that is_prime calls prime, and is 0 exactly where is_square_free is false.", "quantifier": "all numbers below any bound up to which is_prime64 accepts only primes, all random sources", "why_tests_cant": "relates several functions over all inputs and random sequences", "anchors": ["src/nt_funcs.rs::is_prime", "src/nt_funcs.rs::factorize64", "src/nt_funcs.rs::moebius", "src/nt_funcs.rs::is_square_free"]}
{"id": "C88", "title": "primorial in builds without overflow checks", "statement": "Without overflow checks primorial(n) for a machine integer type returns the product of the first n primes reduced modulo 2^bits (no panic and no sign of the overflow) while the n-th prime fits the type, and panics beyond; so the result is right exactly if the product fits, and agrees with the checked build whenever that returns.", "quantifier": "all n, all widths, all buffer states", "why_tests_cant": "ranges over all n, widths and buffer histories; tests run with overflow checks", "anchors": ["src/buffer.rs::primorial", "src/nt_funcs.rs::primorial"]}
{"id": "C89", "title": "The default Lucas tests are the standard ones", "statement": "Without explicit parameters is_lprp and is_slprp decide, for every odd n, exactly the (strong) Lucas condition for the parameters of Selfridge's method A (first discriminant of 5, -7, 9, ... with Jacobi symbol -1, giving up at a common factor), and is_eslprp the extra strong condition for the first P >= 3 (method C); the verdict depends neither on the integer type nor on the build. So the pseudoprimes are the published sequences.", "quantifier": "all odd n with n+1 representable, all integer types, both builds", "why_tests_cant": "ranges over all n; tests compare a few published pseudoprimes", "anchors": ["src/primality.rs::pq_selfridge", "src/primality.rs::p_bruteforce", "src/primality.rs::is_lprp", "src/primality.rs::is_slprp", "src/primality.rs::is_eslprp"]}
{"id": "C90", "title": "What Pollard's rho reports, and when", "statement": "Let x_0 = start, x_{k+1} = x_k^2 + offset mod target, and compare each x_i with the x at the largest power of two below i. pollard_rho looks for a common factor of target and the product of these differences after 1, 2, 4, 8, ... and after every multiple of 128 iterations. If the first such check whose gcd is not 1 has a product not divisible by target, the call returns exactly that gcd after exactly that many iterations. If the product becomes divisible by target between two checks without the walk having returned to the compared position, the call walks the last stretch again and returns a proper factor within that many further iterations, provided the compared position does not move meanwhile. The iteration limit only cuts the search off: once a run has ended by itself, every larger limit gives the same answer and every smaller one gives None after exactly that many iterations. Outside these cases a factor that one of the differences reveals can be lost for every limit.", "quantifier": "every target, start, offset and iteration limit", "why_tests_cant": "whether a factor is found depends on the whole trajectory of the walk modulo the unknown factors, for which there is no finite list of representative inputs", "anchors": ["src/factor.rs: pollard_rho"]}
{"id": "C91", "title": "Counting primes without overflow checks", "statement": "In a build without overflow checks prime_pi and prime_phi give the same results as in a checked build wherever that one returns. The one argument at which the checked build always panics, u64::MAX, is answered wrongly: prime_phi(u64::MAX, a) with a new cache is off by 2^63 modulo 2^64, and prime_pi(u64::MAX) is exactly 2^63 too large (given that the 64-bit primality test is exact).", "quantifier": "all limits, all a >= 1, all buffers reached by earlier calls, both builds", "why_tests_cant": "the agreement ranges over all 64-bit limits and histories, and prime_pi(u64::MAX) takes far too long to run", "anchors": ["src/buffer.rs: NaiveBuffer::prime_pi, NaiveBuffer::prime_phi"]}
{"id": "C92", "title": "Growing the buffer without overflow checks", "statement": "In a build without overflow checks reserve(limit) gives the same buffer as in a checked build wherever that one returns. Every sequence of requests below 2^64 - 2^33 is served, the stored numbers are always primes in increasing order, and no prime below 2^32 and the largest request is missing. Larger primes can be missing: once a prime from 2^32 on is stored its square wraps around, and for instance after reserve(4294967311) a call primes(137438953727) does not list the prime 137438953727. reserve(u64::MAX) and reserve(u64::MAX - 1) do nothing, so that primes(u64::MAX) lists only what was stored before.", "quantifier": "all buffers reached by earlier calls, all limits, both builds", "why_tests_cant": "the histories and limits are unbounded, and the runs in which primes are lost need tens of gigabytes", "anchors": ["src/buffer.rs: NaiveBuffer::reserve, NaiveBuffer::primes"]}
{"id": "C93", "title": "Factorization is never stuck", "statement": "However unlucky the random numbers were so far, factorize64 and factorize128 can still finish: for every number (1 <= n < 2^64, resp. 2^128) and every sequence of random numbers there are values for the numbers not drawn yet with which the function returns. Each search for a divisor has a definite chance: whatever the first random number of Pollard's rho is, at least n/p - 1 of the n values of the second one make it find a proper divisor of n at its first step, for every divisor p > 1 of n.", "quantifier": "all numbers of the range, all prefixes of random numbers, both table builds; all n, all starts, all divisors p of n, all iteration limits >= 1", "why_tests_cant": "a test sees one run with one sequence of random numbers; whether a state from which no continuation succeeds is reachable is a statement about all numbers and all histories", "anchors": ["src/nt_funcs.rs: factorize64", "src/nt_funcs.rs: factorize64_advanced", "src/nt_funcs.rs: factorize128", "src/nt_funcs.rs: factorize128_advanced", "src/factor.rs: pollard_rho"]}
{"id": "C94", "title": "Which random words lead to which prime", "statement": "gen_prime(bits) for u8..u64 returns the first prime from the number given by the leading bits of the last random word drawn, made odd (gen_prime_exact: with the leading bit set). The result is below 2^bits exactly if there is a prime between that number and 2^bits. The primes are therefore not equally likely: a prime p > 3 below 2^bits is returned for exactly (p - q) * 2^(BITS - bits) of the 2^BITS random words, q the prime before p (gen_prime_exact: 2 * (p - max(q, 2^(bits-1) - 1)) * 2^(BITS - bits)). The same holds for u128 (BITS = 128) and, with p - q of the 2^bits numbers that can be drawn (gen_prime_exact: 2 * (p - max(q, 2^(bits-1) - 1))), for BigUint, for bit sizes up to 64, whatever the test configuration. The primes 2 and 3, and 257 in a build without big tables (where next_prime panics on 253 and 255), are each returned by gen_prime for 2 * 2^(BITS - bits) words (BigUint: 2 numbers). gen_prime returns a prime that is too long, 2^bits or more, for exactly (2^bits - 1 - q) * 2^(BITS - bits) of the words (BigUint: 2^bits - 1 - q numbers), q the largest prime below 2^bits, and gen_prime_exact for twice as many, when bits is below the width of the type (and not 8 without big tables).", "quantifier": "all bit sizes, all random streams, all primes, both table builds; widths up to which is_prime64 accepts only primes (u8 and u16 in every build, u32 without big tables, all given the exactness claim of C02)", "why_tests_cant": "the distribution is a count over all random words and all primes; tests see samples and cannot distinguish a biased choice from a uniform one", "anchors": ["src/rand.rs: gen_prime", "src/rand.rs: gen_prime_exact", "src/nt_funcs.rs: next_prime"]}
{"id": "C95", "title": "one_line is a complete method for odd numbers", "statement": "`one_line(target, mul_target, max_iter)` with `mul_target = k*target`, `target` odd and coprime to `k`, finds a proper divisor of every composite target once `max_iter` is at least `k*target`, provided no intermediate square overflows the integer type; for big integers it finds a divisor, with a large enough limit, exactly when the target is composite.", "quantifier": "every odd target, every multiplier coprime to it, every sufficiently large iteration limit, every integer width", "why_tests_cant": "a completeness claim over all composites: a test can only show that particular targets are factored.", "anchors": ["src/factor.rs:one_line"]}
{"id": "C96", "title": "32-bit numbers are always factored", "statement": "For every positive n below 2^32, `factorize64`, `factorize128`, `factors` and `factorize` return (no overflow panic and no endless loop) whatever the random numbers are, in builds with and without `big-table`, all with the same map; without `big-table` (and below 2^16 in every build) that map is the prime factorization of n. `moebius` and `is_square_free` likewise return for every n below 2^32, with the value of the Moebius function and of squarefreeness.", "quantifier": "every n below 2^32, every sequence of random numbers, every integer type, configuration and state of the prime buffer", "why_tests_cant": "there are 2^32 inputs and for each of them infinitely many random sequences; an unlucky sequence makes Pollard's rho fail for ever, and then the deterministic methods have to succeed before a machine word overflows.", "anchors": ["src/nt_funcs.rs:factorize64", "src/nt_funcs.rs:factorize128", "src/nt_funcs.rs:factorize", "src/nt_funcs.rs:factors", "src/nt_funcs.rs:moebius", "src/nt_funcs.rs:is_square_free", "src/factor.rs:one_line"]}
{"id": "C97", "title": "The n-th prime without overflow checks", "statement": "In a build without overflow checks nth_prime and nth_prime_est give the same results as in a checked build wherever that one returns, so nth_prime(n) is the n-th prime for 1 <= n <= 2*10^17 (beyond 4096 given that the 64-bit primality test is exact). For every n from 25*10^16 to 28*10^16 the n-th prime fits u64, but nth_prime(n), which panics in a checked build, never returns: the bisection of nth_prime_est wraps around at every step. The same holds for nth_prime_est on u64 up to 4*10^17.", "quantifier": "all n, all buffers reached by earlier calls, every accurate floating point arithmetic, any number of rounds", "why_tests_cant": "a test cannot observe that a loop never ends, and the agreement ranges over all n and histories", "anchors": ["src/nt_funcs.rs: nth_prime_est, prime_pi_est", "src/buffer.rs: NaiveBuffer::nth_prime, NaiveBuffer::nprimes"]}
{"id": "C98", "title": "SmallMint without debug assertions", "statement": "In a build without debug assertions every SmallMint operation returns what the debug build returns wherever the debug build returns. Where the debug build panics because the given modulus is not the modulus of the reduced operand, %, dblm, sqm and powm silently answer with a number reduced modulo the old modulus.", "quantifier": "all operands, exponents and moduli", "why_tests_cant": "tests run in debug mode, where the assertions hide the case; infinitely many operands and moduli", "anchors": ["src/mint.rs::Mint", "src/mint.rs::Rem", "src/mint.rs::ModularPow"]}
{"id": "C99", "title": "Random primes without overflow checks", "statement": "In builds without overflow checks the generators of random primes for machine integers behave exactly as in debug builds for every bit size from 1 on. For the bit size 0, where the debug build panics, gen_prime, gen_prime_exact, gen_safe_prime and gen_safe_prime_exact behave as for the full width of the type: every odd prime of the type can be returned, so the limit is not respected.", "quantifier": "all bit sizes, all random streams, u8 to u128, both table builds", "why_tests_cant": "tests run with overflow checks and a few bit sizes; infinitely many random streams", "anchors": ["src/rand.rs::impl_randprime_prim", "src/rand.rs::RandPrime<u128>"]}
{"id": "C100", "title": "Probable prime tests without overflow checks", "statement": "In builds without overflow checks is_sprp answers for every number except 1 as in debug builds; 1, for which the debug build panics, is reported as a probable prime. Whatever is_lprp, is_slprp and is_eslprp return in a debug build they return without overflow checks, and without explicit parameters they return in both builds for every number of the type. With explicit parameters whose discriminant has Jacobi symbol -1, the largest number 2^b - 1 of the type, a composite for which the debug build panics, is reported as a probable prime by all three.", "quantifier": "all numbers, bases and parameters, u8 to u128, both table builds", "why_tests_cant": "tests run with overflow checks; the failing number is the extreme value of each type and there are too many parameters", "anchors": ["src/primality.rs::PrimalityUtils", "src/primality.rs::is_sprp", "src/primality.rs::is_lprp", "src/primality.rs::is_slprp", "src/primality.rs::is_eslprp"]}
{"id": "C101", "title": "factors, factorize, moebius and is_square_free on machine integers without overflow checks", "statement": "In a build without overflow checks, factors and factorize never panic on a positive machine integer of at most 128 bits; factors leaves no cofactor, and the returned map multiplies to the number, lists its bases in ascending order with positive exponents, and every base passes the BPSW test; it is the prime factorization whenever the test accepts only primes among the divisors of the number. moebius and is_square_free never panic on such integers (0 included), and under the same condition return mu(n) and whether n is square-free. Everything the checked build returns for these four functions is returned by this build too. Below 2^32 (2^16 with big tables) moebius and is_square_free always return the right value, whatever the random numbers.", "quantifier": "all machine integers below 2^128, all integer widths up to 128, all random number sources, loop bounds and both table builds", "why_tests_cant": "Tests run with overflow checks and on a few numbers; a wrapped intermediate or an unlucky random draw shows only on particular inputs.", "anchors": ["src/buffer.rs: PrimeBufferExt::factors, PrimeBufferExt::factorize", "src/nt_funcs.rs: factorize, moebius, is_square_free, factorize128"]}
{"id": "C102", "title": "is_prime, is_safe_prime, next_prime, prev_prime and the safe primes of u128 without overflow checks", "statement": "For every machine integer, configuration, prime buffer and sequence of random numbers, the generic is_prime, is_safe_prime, next_prime and prev_prime give the same result (value, None or panic) in a build with and in a build without overflow checks: none of their additions, subtractions and shifts overflows. prev_prime never panics, whatever the random numbers. gen_safe_prime and gen_safe_prime_exact of u128 return the same in both builds for bit sizes from 1 on; bit size 0, which panics with overflow checks, behaves like bit size 128 without.", "quantifier": "all machine integers of 8, 16, 32, 64 and 128 bits, all configurations, buffers, random numbers and loop bounds, both table builds", "why_tests_cant": "The tests run in one build mode on a few numbers; a wrap-around would appear only for particular numbers near the end of the range of the type.", "anchors": ["src/buffer.rs: PrimeBufferExt::is_prime", "src/nt_funcs.rs: is_prime, is_safe_prime, next_prime, prev_prime", "src/rand.rs: RandPrime<u128>::gen_safe_prime, gen_safe_prime_exact"]}
{"id": "C103", "title": "The example programs without overflow checks", "statement": "In a build without overflow checks the divisors example never panics on a positive u64 and lists every divisor exactly once (no product wraps), the divisor sum example returns sigma_z(n) modulo 2^64 without a sign of the overflow, and the omega examples count the distinct prime factors and the prime factors with multiplicity, all provided the primality test accepts only primes among the divisors of n. What divisors, divisor_sigma and prime_omega return with overflow checks they return without. The Mersenne example returns the same list in both builds.", "quantifier": "all u64 arguments from 1 on, all exponents z, all random number sources and loop bounds, both table builds", "why_tests_cant": "The examples are run on a few small numbers; a wrapped sum or product appears only for large ones and gives no sign.", "anchors": ["examples/divisor_sigma.rs: divisors, divisor_sigma", "examples/prime_omega.rs: prime_omega, prime_Omega", "examples/find_mersenne_primes.rs: list_mersenne"]}
{"id": "C104", "title": "Table lookups never go out of range", "statement": "is_prime64, next_prime, prev_prime, moebius, sqrt_exact and cbrt_exact on big integers and prime_pi_est index their built-in tables only inside of them, shift 64 bit words by less than 64 and convert residues only to types that hold them; so is_prime64 and the exact roots never panic on a lookup, whatever the argument, in either table build.", "quantifier": "every argument (no bound on its size), both builds, every step of the wheel search", "why_tests_cant": "the index is a hash or a residue of an arbitrary number; a single argument mapped outside of the table would panic, and no sample of arguments excludes it", "anchors": ["src/nt_funcs.rs: is_prime64, is_prime32_miller, is_prime64_miller, next_prime, prev_prime, moebius, prime_pi_est", "src/integer.rs: BigUint::sqrt_exact, BigUint::cbrt_exact", "src/tables.rs"]}
{"id": "C105", "title": "The profiling example", "statement": "For a number n the profiling example reports for Pollard's rho, squfof and one_line the least number of iterations with which one of the tried runs finds a factor below 2^24 (2^24 if none does), although later runs are cut off at the best count so far; the reported time of one_line is that of squfof. The full profile has two, ten and three counts of at most 2^20, each the iteration count of its call. Both return for every positive n below 2^94. The number chosen for a bit size t from 20 to 119 is a product of two different accepted primes with t-1 to t+1 bits and never overflows. A product of two primes of 120 bits makes the example panic.", "quantifier": "all numbers, all random arguments, all clock readings, all random sources and bit sizes from 20 to 119, both table builds", "why_tests_cant": "the example runs on random numbers and prints timings, so nothing checks its output; the minimum over runs with a moving limit is a statement about all runs", "anchors": ["examples/profile_factorization.rs: profile_n, profile_n_min, main", "src/factor.rs: pollard_rho, squfof, one_line"]}
{"id": "C106", "title": "The iteration limit of squfof and one_line only cuts the search off", "statement": "If squfof or one_line finds a factor after i iterations under some limit, it finds the same factor after the same i iterations under every limit greater than i, and returns None with the limit as the count under every limit up to i. If it finds nothing under a limit, it finds nothing under any smaller limit.", "quantifier": "all targets, multipliers, limits, word sizes and both builds", "why_tests_cant": "It compares the runs under all pairs of limits, for all targets.", "anchors": ["src/factor.rs: squfof, one_line"]}
{"id": "C107", "title": "factors, factorize and divisor on any implementation of PrimeBuffer", "statement": "The extension methods work for user-defined buffers, whatever primes their iterator yields (in any order, with gaps, repetitions or nothing at all): factors returns, its map and cofactors multiply to the target, every key is a prime of the buffer or passed the primality test, None for the cofactors means a complete factorization (given the primality test is right), and divisor only returns proper divisors. Finding: divisor called with td_limit 0 gives up on every target smaller than about the square of the first prime of the buffer, without any trial.", "quantifier": "all buffers of 64-bit primes, all targets, configurations and random values", "why_tests_cant": "The tests only use NaiveBuffer; the trait can be implemented by users with any set of primes.", "anchors": ["src/buffer.rs: PrimeBufferExt::factors, factorize, divisor", "src/traits.rs: PrimeBuffer", "src/factor.rs: trial_division"]}
{"id": "C108", "title": "squfof is Shanks' square forms factorization", "statement": "For k*n not a perfect square, squfof(n, k*n, max_iter) returns (Some(d), i) exactly if i < max_iter is the first odd step at which the complete quotient of index i+1 of the continued fraction of sqrt(k*n) has a perfect square r^2 as denominator and the continued fraction started from the root form (denominator r) has, at its first symmetry point, a numerator with a proper common divisor d with n. If it returns None, the count is max_iter and no odd step below it gives a proper divisor.", "quantifier": "all targets, multipliers, limits, integer types and both builds", "why_tests_cant": "It characterises the results for all inputs by the continued fraction expansion over the reals; tests only see single factorizations.", "anchors": ["src/factor.rs: squfof"]}
{"id": "C109", "title": "Every prime of the bit size is a possible random prime", "statement": "For every prime p > 2 below 2^bits there are values of the random generator for which gen_prime(bits) returns p at once, also gen_prime_exact(bits) if p has exactly bits bits; every safe prime below 2^bits is a possible result of gen_safe_prime(bits) and, with exactly bits bits, of gen_safe_prime_exact(bits). For u8 to u64, u128 and BigUint. gen_prime returns 2 whenever the leading bits of the random word are 0...00 or 0...01 (for bits = 1 always). Finding: although 2 has exactly two bits, gen_prime_exact(2) always returns 3.", "quantifier": "all bit sizes, all primes, all types, both builds, all configurations (u128: without the extra strong Lucas test)", "why_tests_cant": "It ranges over all primes of all bit sizes; a generator that never returns some of them passes every test.", "anchors": ["src/rand.rs: gen_prime, gen_prime_exact, gen_safe_prime, gen_safe_prime_exact"]}
{"id": "C110", "title": "A wider integer type never changes an answer", "statement": "If a call of sqrt_exact, is_square, is_sprp, is_lprp, is_slprp, is_eslprp, is_prime, is_safe_prime, prev_prime, trial_division, squfof, the buffer methods factors, factorize and divisor, moebius, is_square_free or primorial returns normally in one integer type, the same call in any wider type (more bits, or arbitrary precision) with the same random values returns the same value. The same holds for next_prime whenever it returns a prime and for one_line whenever it returns a divisor; only their None can turn into an answer.", "quantifier": "all pairs of integer types, all arguments representable in the narrower type, all configurations, buffers and random draws", "why_tests_cant": "It compares whole executions of generic code at two types, for every input; tests instantiate single types at single values.", "anchors": ["src/integer.rs: ExactRoots", "src/primality.rs: PrimalityUtils", "src/buffer.rs: PrimeBufferExt", "src/nt_funcs.rs: next_prime, prev_prime, moebius", "src/factor.rs: trial_division, squfof, one_line"]}
{"id": "C111", "title": "The big-table feature changes no answer", "statement": "Compiling with or without the cargo feature big-table changes speed only: exact roots, the Lucas tests, squfof and one_line give identical results for all arguments; is_prime gives the same verdict (and the same reported probability) on every number from 2^64 on for the same buffer and random values, and the free function is_prime does so whenever the configuration asks for at most 54 prime bases; below any bound up to which both builds accept only primes, is_prime64, is_prime, factorize64, factorize128, next_prime and prev_prime agree, except that without big-table next_prime panics on 252 to 255; prime_pi agrees below 38891^2.", "quantifier": "all arguments, integer types, configurations, random values and buffer histories", "why_tests_cant": "The two builds use different tables, wheels and hash-selected bases; agreement has to hold on every input, and a test run exercises one build on a sample.", "anchors": ["src/tables.rs", "src/integer.rs: ExactRoots for BigUint", "src/nt_funcs.rs: is_prime64, next_prime, prev_prime", "src/buffer.rs: is_prime"]}
{"id": "C112", "title": "Stepping, counting, listing and testing agree", "statement": "next_prime(n) = nth_prime(prime_pi(n) + 1) and, for n > 2, prev_prime(n) = nth_prime(prime_pi(n - 1)); prime_pi(n) - prime_pi(n - 1) is 1 if is_prime64 accepts n and 0 otherwise; primes(limit) lists exactly the numbers up to limit that is_prime64 accepts, and next_prime and prev_prime step between consecutive entries of that list.", "quantifier": "all numbers below any bound up to which is_prime64 accepts only primes (and below 38891^2, with at most 4096 primes, for the counting functions), all buffer histories, integer types, configurations and random draws", "why_tests_cant": "It relates the results of separate algorithms (wheel search, table search, sieve, Legendre-Meissel counting, Miller-Rabin) on every number of the range and every history of the buffers.", "anchors": ["src/nt_funcs.rs: next_prime, prev_prime, prime_pi, nth_prime, is_prime64", "src/buffer.rs: NaiveBuffer::primes, nth_prime, prime_pi"]}
{"id": "C113", "title": "More tests reject more", "statement": "If is_prime accepts n under a configuration, it accepts n under every configuration with no more fixed bases, no random bases and no Lucas test the first one lacks, also when the buffer holds only a first part of the primes; with the same fixed bases and the same random words the same holds for fewer random bases. So growing the prime buffer never turns a rejection into an acceptance. The number reported with Probable goes the other way: switching on a Lucas test lowers it for every configuration.", "quantifier": "all n, integer types, builds, pairs of configurations, buffers and random words", "why_tests_cant": "a relation between two calls, over all pairs of configurations and all inputs", "anchors": ["src/buffer.rs: PrimeBufferExt::is_prime", "src/traits.rs: PrimalityTestConfig, Primality"]}
{"id": "C114", "title": "next_prime and prev_prime step through the numbers is_prime64 accepts", "statement": "Whatever numbers is_prime64 accepts (pseudoprimes included): below 2^64, next_prime(n) is the least accepted number above n and prev_prime(n) the greatest accepted number below n, for every integer type and configuration; None is returned only if no accepted number fits. Hence on u8 to u64 one step forward and one step back (or back and forward) from an accepted number returns to it, and both functions are monotone. Beyond the table, for numbers of any size, next_prime(n) is the least number above n coprime to the wheel that the configured test accepts, and next_prime and prev_prime undo each other on such numbers as long as the test repeats its verdicts.", "quantifier": "all n below 2^64, all integer types, configurations, random words, both builds, no assumption about pseudoprimes; for the last sentence all n beyond the table", "why_tests_cant": "no gap may be skipped anywhere in 2^64 numbers, and the accepted set is not known in closed form", "anchors": ["src/nt_funcs.rs: next_prime, prev_prime, is_prime64"]}
{"id": "C115", "title": "A call has at most one outcome", "statement": "For fixed arguments, a fixed buffer state and fixed random words, next_prime, prev_prime, squfof, factorize64, factorize128, factors, factorize, moebius, is_square_free, nth_prime_est, prime_pi, nth_prime, prime_phi, the random prime generators and the example functions have at most one outcome. An execution that ends, by returning or by panicking, ends in the same way however many further loop rounds, attempts or levels of recursion it is allowed. The same holds for every sequence of calls on one buffer. Random words that a call to is_prime, is_safe_prime, next_prime or prev_prime leaves unread do not influence it. The same holds in builds without overflow checks.", "quantifier": "every argument, configuration, buffer state, cache, random source and every pair of bounds on rounds, attempts and depth, in both builds of the tables", "why_tests_cant": "A test runs an unbounded loop once with one limit of patience. It cannot show that no other limit makes the loop end with another value or a panic.", "anchors": ["src/nt_funcs.rs: next_prime, prev_prime, factorize64, factorize128, nth_prime_est, moebius, prime_pi, nth_prime", "src/factor.rs: squfof", "src/buffer.rs: factors, factorize, prime_pi, nth_prime, prime_phi", "src/rand.rs: gen_prime, gen_prime_exact, gen_safe_prime, gen_safe_prime_exact", "examples/find_lucky_primes.rs: list_lucky_numbers"]}
{"id": "C116", "title": "Primality tests and pollard_rho on SmallMint without overflow checks", "statement": "In builds without overflow checks and debug assertions, is_prp, is_sprp, is_lprp and is_slprp give for an odd number wrapped as SmallMint the same result (value or panic) as for the plain number, for all bases and all explicit or default parameters, and is_eslprp agrees wherever it returns, and has the same outcome as in debug builds wherever the plain test returns there; pollard_rho on reduced numbers returns the divisor and the count of the plain version. The generic is_prime of a wrapped number gives the same result in builds with and without overflow checks for every configuration; with a configuration without the extra strong Lucas test it is the result for the plain number.", "quantifier": "all odd numbers of the type, bases, parameters, configurations, buffers and random words; types of 8 to 128 bits, both table builds", "why_tests_cant": "the wrapper dispatches on the representation of every operand of every step; a wrong representation or a wrapped subtraction appears only for particular numbers", "anchors": ["src/mint.rs: Mint", "src/primality.rs: PrimalityUtils", "src/buffer.rs: PrimeBufferExt::is_prime", "src/rand.rs: RandPrime<u128>", "src/factor.rs: pollard_rho"]}
{"id": "C117", "title": "How often the random rounds of is_prime are wrong", "statement": "For an odd n from 2^64 on, among all equally likely sequences of random words, the fraction for which is_prime accepts n is at most (L/2^64)^k, where k is the number of random trials of the configuration and L the number of 64-bit words a for which is_sprp(n, a) holds; drawing a word again when it is already among the bases does not weaken this, and with one random trial and no other test exactly L words accept n. The same bound holds for n wrapped as SmallMint and (with k = 1) for is_safe_prime, and it bounds how often next_prime returns a given number. For composite n, 4 L <= n - 1, so the fraction is at most ((n-1)/(4*2^64))^k: the customary 4^-k for n just above 2^64, but no bound at all from 2^66 on, because the bases are 64-bit words whatever the size of n. For numbers of any size the multiples of a divisor p of n are rejected, so L <= 2^64 - floor((2^64-1)/p) - 1; hence every composite number of up to 128 bits is exposed by some nonzero word. A prime is rejected for at most the fraction m/2^64 of the sequences of m words (only a zero word rejects it).", "quantifier": "all odd n from 2^64 on that fit the type, all configurations, all buffers of stored primes, all lengths m of the sequence of random words; both table builds", "why_tests_cant": "an error rate is a count over all sequences of random words", "anchors": ["src/buffer.rs: PrimeBufferExt::is_prime", "src/primality.rs: PrimalityUtils::is_sprp", "src/nt_funcs.rs: is_safe_prime", "src/nt_funcs.rs: next_prime"]}
{"id": "C118", "title": "Which random words lead to which safe prime", "statement": "gen_safe_prime(bits) with at most 64 bits returns a safe prime s = 2h + 1 > 7 below 2^bits from exactly (s - q) * 2^(BITS - bits) of the 2^BITS random words, q the prime before s, plus (h - r) * 2^(BITS - bits) more, r the prime before h, if h is not itself a safe prime. A safe prime of one bit more (with the prime before it at or above 2^bits) is returned as well, from (h - r) * 2^(BITS - bits) words unless h is a safe prime. gen_safe_prime_exact(bits) returns s from exactly 2 * (s - max(q, 2^(bits-1) - 1)) * 2^(BITS - bits) words. For BigUint the counts are over the 2^bits numbers that can be drawn, without the last factor. The safe primes 5 and 7 come from 4 * 2^(BITS - bits) words each.", "quantifier": "u8..u64, u128 and BigUint; all bit sizes up to the width up to which is_prime64 accepts only primes; all random streams, all safe primes, both table builds", "why_tests_cant": "the count ranges over all random words and all safe primes; sampling cannot tell the bias towards primes after long gaps and towards doubled primes from chance", "anchors": ["src/rand.rs: gen_safe_prime", "src/rand.rs: gen_safe_prime_exact"]}
{"id": "C119", "title": "How often the prime generators panic without big tables", "statement": "In a build without big tables gen_prime(bits) with bits >= 8 panics on the first random word for exactly 4 * 2^(BITS - bits) of the 2^BITS words, one in 2^(bits-2) (u8..u64 for every bit size from 8 on; u128 for smaller bit sizes than the width up to which the test is exact; BigUint: 4 of the 2^bits numbers that can be drawn), whatever the other random words are, and for no other word does it panic regardless of the rest. gen_prime_exact(8) panics for one word in 32 (all types). For u8..u64 gen_prime_exact has no such word for any other bit size, and gen_prime none below 8 bits.", "quantifier": "all random streams, all bit sizes from 8 on, all integer types (u128 and BigUint below 32 bits without hypotheses, below 64 given the exactness of is_prime64)", "why_tests_cant": "a panic that happens for one word in 2^(bits-2) is not seen by sampling; that no other word leads to it ranges over all words", "anchors": ["src/rand.rs: gen_prime", "src/rand.rs: gen_prime_exact", "src/nt_funcs.rs: next_prime"]}
{"id": "C120", "title": "The bit sizes for which gen_safe_prime_exact can return", "statement": "RandPrime::gen_safe_prime_exact(bits) for u8 to u128 returns for some stream of random words if and only if bits is at least 3 and at most the number of bits of the type; for BigUint and bits up to 128, if and only if bits is at least 3. For bits = 1 and bits = 2 it never returns, for any type, any stream and any number of attempts: gen_prime_exact can only give 2 and 3 there, and neither is a safe prime. The documentation does not mention this.", "quantifier": "every build, type, bit size from 1, stream of random words and number of attempts", "why_tests_cant": "a test that does not return shows nothing about the streams and attempts it did not reach, and that some stream leads to a result has to be shown for each bit size", "anchors": ["src/rand.rs: gen_safe_prime_exact, gen_prime_exact"]}
{"id": "C121", "title": "The generators of safe primes return almost surely", "statement": "In the default build gen_safe_prime(bits) and gen_safe_prime_exact(bits) for u8 to u128 and BigUint return for every stream of random words in which some word gives a safe prime (its leading bits, made odd, for the exact variant with the first bit set), with at most as many attempts as there are words up to that one: they never loop past it. For u128 and BigUint this assumes that the primality tests return (C14: enough different random bases). For every bit size from 3 to the size of the type (BigUint: to 128) such a word exists: of the 2^(BITS*N) sequences of N words at most (2^BITS - 1)^N leave one of the generators without a result after N attempts (BigUint: with bits in place of BITS), so that with independent uniform words the generators return with probability 1.", "quantifier": "every type, bit size and stream of random words with such a word at any position", "why_tests_cant": "tests run a few streams; a loop that skips words or panics on rare candidates would not show", "anchors": ["src/rand.rs: gen_safe_prime, gen_safe_prime_exact, gen_prime, gen_prime_exact"]}
