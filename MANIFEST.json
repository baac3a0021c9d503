{
 "claims": [
  {
   "property": "C01",
   "status": "proved",
   "theorems": [
    "NumPrime.C01_is_prime64_prime"
   ],
   "note": ""
  },
  {
   "property": "C02",
   "status": "partial",
   "theorems": [
    "NumPrime.C02_is_prime64_exact_u32_partial",
    "NumPrime.C02_is_prime64_iff_partial",
    "NumPrime.C02_is_prime64_exact_partial",
    "NumPrime.C02_accepted_ge_two_partial",
    "NumPrime.C02_is_prime64_exact_u16_partial"
   ],
   "note": "Accepted exactly when the number passes the strong tests listed in millerBases; exactness is proved equivalent to NoPseudoprimes, the number-theoretic claim (checked by exhaustive computation in the literature) that no composite below 2^64 passes them, which is not proved here. Proved without it: both builds below 2^16, and all of u32 in the build without big tables (C02_is_prime64_exact_u32_partial, Jaeschke's result for the bases 2, 7, 61)."
  },
  {
   "property": "C03",
   "status": "proved",
   "theorems": [
    "NumPrime.C03_is_prp_iff",
    "NumPrime.C03_is_prp_prime",
    "NumPrime.C03_is_prp_small"
   ],
   "note": ""
  },
  {
   "property": "C04",
   "status": "proved",
   "theorems": [
    "NumPrime.C04_is_sprp_iff",
    "NumPrime.C04_sprp_one_panics",
    "NumPrime.C04_is_sprp_zero",
    "NumPrime.C04_is_sprp_even"
   ],
   "note": ""
  },
  {
   "property": "C05",
   "status": "proved",
   "theorems": [
    "NumPrime.C05_sprp_complete"
   ],
   "note": ""
  },
  {
   "property": "C06",
   "status": "proved",
   "theorems": [
    "NumPrime.C06_test_sprp_factor"
   ],
   "note": ""
  },
  {
   "property": "C07",
   "status": "proved",
   "theorems": [
    "NumPrime.C07_lucasm"
   ],
   "note": ""
  },
  {
   "property": "C08",
   "status": "proved",
   "theorems": [
    "NumPrime.C08_pq_selfridge",
    "NumPrime.C08_p_bruteforce",
    "NumPrime.C08_search_fits_word"
   ],
   "note": ""
  },
  {
   "property": "C09",
   "status": "proved",
   "theorems": [
    "NumPrime.C09_is_lprp_iff",
    "NumPrime.C09_is_lprp_prime_explicit",
    "NumPrime.C09_is_lprp_prime",
    "NumPrime.C09_explicit_panics",
    "NumPrime.C09_explicit_discriminant_panics",
    "NumPrime.C09_discriminant_wraps"
   ],
   "note": "Findings: C09_explicit_panics, C09_explicit_discriminant_panics, C09_discriminant_wraps (explicit parameters outside the integer type panic; (p*p) as isize can wrap and the prime 7 is rejected). The other theorems are stated on the complement (LucasArgs)."
  },
  {
   "property": "C10",
   "status": "proved",
   "theorems": [
    "NumPrime.C10_is_slprp_prime_explicit",
    "NumPrime.C10_is_slprp_prime"
   ],
   "note": ""
  },
  {
   "property": "C11",
   "status": "proved",
   "theorems": [
    "NumPrime.C11_is_slprp_iff"
   ],
   "note": ""
  },
  {
   "property": "C12",
   "status": "proved",
   "theorems": [
    "NumPrime.C12_is_eslprp_prime",
    "NumPrime.C12_is_eslprp_prime_explicit"
   ],
   "note": ""
  },
  {
   "property": "C13",
   "status": "partial",
   "theorems": [
    "NumPrime.C13_is_eslprp_returns_partial",
    "NumPrime.C13_is_eslprp_panics",
    "NumPrime.C13_is_eslprp_symbol_zero",
    "NumPrime.C13_is_eslprp_none_returns"
   ],
   "note": "As stated the property is false: when the Jacobi symbol (p^2-4|n) is 0 the call panics (C13_is_eslprp_panics). The partial theorem covers every other parameter; for symbol 0 C13_is_eslprp_symbol_zero says exactly for which inputs it returns and for which it panics; without an explicit parameter the call always returns (C13_is_eslprp_none_returns)."
  },
  {
   "property": "C14",
   "status": "partial",
   "theorems": [
    "NumPrime.C14_is_prime_prime_partial",
    "NumPrime.C14_is_prime_returns",
    "NumPrime.C14_zero_witness_rejects",
    "NumPrime.C14_zero_draw_rejects"
   ],
   "note": "False when a random witness is 0 (C14_zero_witness_rejects for one prime, C14_zero_draw_rejects for every n); the partial theorem covers all non-zero random witnesses."
  },
  {
   "property": "C15",
   "status": "partial",
   "theorems": [
    "NumPrime.C15_is_prime_u32",
    "NumPrime.C15_below_2_64",
    "NumPrime.C15_above_2_64",
    "NumPrime.C15_no_is_composite_partial"
   ],
   "note": "That No implies composite is proved for non-zero random witnesses only (see C14)."
  },
  {
   "property": "C16",
   "status": "proved",
   "theorems": [
    "NumPrime.C16_accepted_passes",
    "NumPrime.C16_strict_imp_bpsw",
    "NumPrime.C16_accepted_iff",
    "NumPrime.C16_bpsw_iff"
   ],
   "note": ""
  },
  {
   "property": "C17",
   "status": "partial",
   "theorems": [
    "NumPrime.C17_probably",
    "NumPrime.C17_deterministic",
    "NumPrime.C17_comm",
    "NumPrime.C17_assoc_partial",
    "NumPrime.C17_assoc_fails",
    "NumPrime.C17_and_value",
    "NumPrime.C17_or_value",
    "NumPrime.C17_valid_partial",
    "NumPrime.C17_underflow"
   ],
   "note": "Verdicts combine as stated, and & and | are commutative. False as stated for the probabilities: f32 rounding makes both operators non-associative (C17_assoc_fails) and & of positive probabilities can be 0 (C17_underflow). Proved instead: associativity unless three Probable values meet, the interval [0,1], and the exact values up to 2^-25 and 2^-23."
  },
  {
   "property": "C18",
   "status": "proved",
   "theorems": [
    "NumPrime.C18_is_safe_prime_u32",
    "NumPrime.C18_is_safe_prime_accepts",
    "NumPrime.C18_is_safe_prime_complete",
    "NumPrime.C18_is_safe_prime_u64",
    "NumPrime.C18_is_safe_prime_u16"
   ],
   "note": ""
  },
  {
   "property": "C19",
   "status": "proved",
   "theorems": [
    "NumPrime.C19_next_prime_some",
    "NumPrime.C19_next_prime_none",
    "NumPrime.C19_next_prime_returns",
    "NumPrime.C19_next_prime_machine",
    "NumPrime.C19_next_prime_u16"
   ],
   "note": ""
  },
  {
   "property": "C20",
   "status": "proved",
   "theorems": [
    "NumPrime.C20_prev_prime_u32",
    "NumPrime.C20_prev_prime_none",
    "NumPrime.C20_prev_prime_some",
    "NumPrime.C20_prev_prime_returns",
    "NumPrime.C20_prev_prime_u64",
    "NumPrime.C20_prev_prime_u16"
   ],
   "note": ""
  },
  {
   "property": "C21",
   "status": "partial",
   "theorems": [
    "NumPrime.C21_next_prime_u32_partial",
    "NumPrime.C21_next_prime_small_partial",
    "NumPrime.C21_next_prime_panics"
   ],
   "note": "False for 252..255, where the call panics (C21_next_prime_panics); the partial theorem covers every other input."
  },
  {
   "property": "C22",
   "status": "proved",
   "theorems": [
    "NumPrime.C22_wheel_next",
    "NumPrime.C22_wheel_prev",
    "NumPrime.C22_wheel_length"
   ],
   "note": ""
  },
  {
   "property": "C23",
   "status": "proved",
   "theorems": [
    "NumPrime.C23_buffer_invariant"
   ],
   "note": ""
  },
  {
   "property": "C24",
   "status": "proved",
   "theorems": [
    "NumPrime.C24_primes_exact",
    "NumPrime.C24_into_primes_exact",
    "NumPrime.C24_primes_returns"
   ],
   "note": ""
  },
  {
   "property": "C25",
   "status": "proved",
   "theorems": [
    "NumPrime.C25_nprimes_float",
    "NumPrime.C25_nprimes_exact",
    "NumPrime.C25_into_nprimes_exact",
    "NumPrime.C25_nprimes_returns"
   ],
   "note": ""
  },
  {
   "property": "C26",
   "status": "proved",
   "theorems": [
    "NumPrime.C26_contains_bound"
   ],
   "note": ""
  },
  {
   "property": "C27",
   "status": "partial",
   "theorems": [
    "NumPrime.C27_reserve_partial",
    "NumPrime.C27_bound_below_limit"
   ],
   "note": "The documented effect (largest stored prime >= limit) is false, theorem C27_bound_below_limit. Proved instead: every prime <= limit is stored and nothing is lost."
  },
  {
   "property": "C28",
   "status": "partial",
   "theorems": [
    "NumPrime.C28_reserve_returns_partial",
    "NumPrime.C28_reserve_32bit",
    "NumPrime.C28_reserve_overflow",
    "NumPrime.C28_reserve_max"
   ],
   "note": "False as stated (C28_reserve_overflow, C28_reserve_max); the partial theorem says exactly when reserve returns."
  },
  {
   "property": "C29",
   "status": "proved",
   "theorems": [
    "NumPrime.C29_clear"
   ],
   "note": ""
  },
  {
   "property": "C30",
   "status": "partial",
   "theorems": [
    "NumPrime.C30_prime_pi_float",
    "NumPrime.C30_prime_pi_float_partial",
    "NumPrime.C30_nt_prime_pi_float_partial",
    "NumPrime.C30_prime_pi_u62",
    "NumPrime.C30_nt_prime_pi_u62",
    "NumPrime.C30_prime_pi_exact",
    "NumPrime.C30_prime_pi_exact_below",
    "NumPrime.C30_prime_pi_returns_partial",
    "NumPrime.C30_prime_pi_returns_table",
    "NumPrime.C30_prime_pi_max",
    "NumPrime.C30_nt_prime_pi"
   ],
   "note": "Whenever prime_pi returns the value is exact (no assumption below 38891^2). With the floating point formulas of the crate (any accurate arithmetic) it returns for every x < 38891^2 without further assumption (C30_prime_pi_float) and for every x < u64::MAX given NoPseudoprimes (C30_prime_pi_float_partial). prime_pi(u64::MAX) overflows (C30_prime_pi_max), so the property fails at that one point. Without big tables nothing is assumed for x < 2^62 (C30_prime_pi_u62)."
  },
  {
   "property": "C31",
   "status": "partial",
   "theorems": [
    "NumPrime.C31_prime_phi_float_partial",
    "NumPrime.C31_prime_phi_u32",
    "NumPrime.C31_prime_phi_exact",
    "NumPrime.C31_prime_phi_returns_partial",
    "NumPrime.C31_prime_phi_zero_panics",
    "NumPrime.C31_prime_phi_max"
   ],
   "note": "Value and cache consistency hold for every call that returns. With the floating point formulas of the crate it returns for every x < u64::MAX and 1 <= a <= 2*10^17 (for a > 4096 given NoPseudoprimes, C31_prime_phi_float_partial). For u64::MAX with an empty cache it is false (C31_prime_phi_max). For a = 0 the call panics (C31_prime_phi_zero_panics). Without big tables nothing is assumed for a <= 13*10^7 (C31_prime_phi_u32)."
  },
  {
   "property": "C32",
   "status": "partial",
   "theorems": [
    "NumPrime.C32_nth_prime_float",
    "NumPrime.C32_nth_prime_float_partial",
    "NumPrime.C32_nth_prime_overflow",
    "NumPrime.C32_nth_prime_u32",
    "NumPrime.C32_nt_nth_prime_u32",
    "NumPrime.C32_nth_prime_exact",
    "NumPrime.C32_nth_prime_returns_partial",
    "NumPrime.C32_nth_prime_returns_table",
    "NumPrime.C32_nth_prime_zero_panics",
    "NumPrime.C32_nt_nth_prime"
   ],
   "note": "Whenever nth_prime(n), n >= 1, returns, it is exact, for arbitrary floating point values. With the formulas of the crate it returns for n <= 4096 without further assumption (C32_nth_prime_float) and for n <= 2*10^17 given NoPseudoprimes (C32_nth_prime_float_partial). nth_prime(25*10^16) overflows although the prime fits u64 (C32_nth_prime_overflow); nth_prime(0) panics (C32_nth_prime_zero_panics). Without big tables nothing is assumed for n <= 13*10^7 (C32_nth_prime_u32)."
  },
  {
   "property": "C33",
   "status": "proved",
   "theorems": [
    "NumPrime.C33_primorial_exact",
    "NumPrime.C33_primorial_returns",
    "NumPrime.C33_primorial_returns_iff"
   ],
   "note": ""
  },
  {
   "property": "C34",
   "status": "proved",
   "theorems": [
    "NumPrime.C34_prime_pi_bounds"
   ],
   "note": ""
  },
  {
   "property": "C35",
   "status": "proved",
   "theorems": [
    "NumPrime.C35_nth_prime_bounds",
    "NumPrime.C35_nth_prime_bounds_panics"
   ],
   "note": "For types that cannot hold p_n the call panics although None is documented (C35_nth_prime_bounds_panics)."
  },
  {
   "property": "C36",
   "status": "proved",
   "theorems": [
    "NumPrime.C36_nth_prime_est",
    "NumPrime.C36_nth_prime_est_unbounded",
    "NumPrime.C36_nth_prime_est_crosses",
    "NumPrime.C36_nth_prime_est_float",
    "NumPrime.C36_nth_prime_est_u64",
    "NumPrime.C36_nth_prime_est_biguint",
    "NumPrime.C36_nth_prime_est_u16_panics"
   ],
   "note": "For arbitrary estimates: terminates inside the bounds if lo <= hi. With the floating point formulas: returns for u64 and n <= 2^57 and for BigUint and n <= 2^970; for small types the sum lo + hi can overflow (C36_nth_prime_est_u16_panics)."
  },
  {
   "property": "C37",
   "status": "proved",
   "theorems": [
    "NumPrime.C37_trial_division",
    "NumPrime.C37_trial_division_returns"
   ],
   "note": ""
  },
  {
   "property": "C38",
   "status": "proved",
   "theorems": [
    "NumPrime.C38_trial_division_ok"
   ],
   "note": ""
  },
  {
   "property": "C39",
   "status": "proved",
   "theorems": [
    "NumPrime.C39_pollard_rho",
    "NumPrime.C39_pollard_rho_zero"
   ],
   "note": ""
  },
  {
   "property": "C40",
   "status": "partial",
   "theorems": [
    "NumPrime.C40_squfof_partial",
    "NumPrime.C40_squfof_square"
   ],
   "note": "False when the multiplied target is a perfect square (C40_squfof_square); the partial theorem covers every other input."
  },
  {
   "property": "C41",
   "status": "proved",
   "theorems": [
    "NumPrime.C41_squfof_no_panic"
   ],
   "note": ""
  },
  {
   "property": "C42",
   "status": "proved",
   "theorems": [
    "NumPrime.C42_one_line"
   ],
   "note": ""
  },
  {
   "property": "C43",
   "status": "partial",
   "theorems": [
    "NumPrime.C43_one_line_returns_partial",
    "NumPrime.C43_one_line_big",
    "NumPrime.C43_one_line_overflow",
    "NumPrime.C43_one_line_panics_iff",
    "NumPrime.C43_one_line_finds_iff"
   ],
   "note": "False for large u64 targets (C43_one_line_overflow); the partial theorem covers all inputs with k*n*(max_iter-1) < (2^32-1)^2. For big integers it holds without restriction (C43_one_line_big). For every even width the inputs that panic are characterised exactly (C43_one_line_panics_iff), and so is the factor returned and its round (C43_one_line_finds_iff)."
  },
  {
   "property": "C44",
   "status": "proved",
   "theorems": [
    "NumPrime.C44_factorize64_product",
    "NumPrime.C44_factorize64_zero",
    "NumPrime.C44_factorize64_overflow"
   ],
   "note": ""
  },
  {
   "property": "C45",
   "status": "proved",
   "theorems": [
    "NumPrime.C45_factorize64_u32",
    "NumPrime.C45_factorize64_exact_divisors",
    "NumPrime.C45_factorize64_exact",
    "NumPrime.C45_factorize64_smooth",
    "NumPrime.C45_factorize64_u16",
    "NumPrime.C45_factorize64_returns_below"
   ],
   "note": ""
  },
  {
   "property": "C46",
   "status": "proved",
   "theorems": [
    "NumPrime.C46_factorize128_product",
    "NumPrime.C46_factorize128_exact",
    "NumPrime.C46_factorize128_smooth"
   ],
   "note": ""
  },
  {
   "property": "C47",
   "status": "proved",
   "theorems": [
    "NumPrime.C47_factors_product",
    "NumPrime.C47_factors_complete",
    "NumPrime.C47_cofactors_not_prime",
    "NumPrime.C47_factors_returns"
   ],
   "note": ""
  },
  {
   "property": "C48",
   "status": "proved",
   "theorems": [
    "NumPrime.C48_factorize_product",
    "NumPrime.C48_factorize_exact"
   ],
   "note": ""
  },
  {
   "property": "C49",
   "status": "proved",
   "theorems": [
    "NumPrime.C49_divisor_proper"
   ],
   "note": ""
  },
  {
   "property": "C50",
   "status": "partial",
   "theorems": [
    "NumPrime.C50_divisor_td_limit_partial",
    "NumPrime.C50_divisor_misses_small_factor"
   ],
   "note": "False as stated: the test of the limit is inverted and the trial division never runs (C50_divisor_misses_small_factor); the partial theorem says that the result is that of Pollard rho alone, for every limit."
  },
  {
   "property": "C51",
   "status": "proved",
   "theorems": [
    "NumPrime.C51_moebius_u32",
    "NumPrime.C51_moebius_factorized",
    "NumPrime.C51_moebius_exact",
    "NumPrime.C51_moebius_small",
    "NumPrime.C51_moebius_u64",
    "NumPrime.C51_moebius_u16"
   ],
   "note": ""
  },
  {
   "property": "C52",
   "status": "proved",
   "theorems": [
    "NumPrime.C52_is_square_free_u32",
    "NumPrime.C52_is_square_free_exact",
    "NumPrime.C52_not_square_free_sound"
   ],
   "note": ""
  },
  {
   "property": "C53",
   "status": "proved",
   "theorems": [
    "NumPrime.C53_div_exact",
    "NumPrime.C53_entries"
   ],
   "note": ""
  },
  {
   "property": "C54",
   "status": "partial",
   "theorems": [
    "NumPrime.C54_sqrt_exact_prim_partial",
    "NumPrime.C54_sqrt_exact_zero_panics"
   ],
   "note": "Proved for all positive values of every machine width; false at 0, where the code panics (theorem C54_sqrt_exact_zero_panics)."
  },
  {
   "property": "C55",
   "status": "proved",
   "theorems": [
    "NumPrime.C55_sqrt_exact_big",
    "NumPrime.C55_cbrt_exact_big"
   ],
   "note": ""
  },
  {
   "property": "C56",
   "status": "proved",
   "theorems": [
    "NumPrime.C56_sqrt_exact_bigint",
    "NumPrime.C56_cbrt_exact_bigint",
    "NumPrime.C56_cbrt_neg"
   ],
   "note": ""
  },
  {
   "property": "C57",
   "status": "proved",
   "theorems": [
    "NumPrime.C57_nth_root_exact",
    "NumPrime.C57_is_nth_power",
    "NumPrime.C57_is_cubic",
    "NumPrime.C57_is_square"
   ],
   "note": ""
  },
  {
   "property": "C58",
   "status": "proved",
   "theorems": [
    "NumPrime.C58_bits",
    "NumPrime.C58_bit",
    "NumPrime.C58_trailing_zeros"
   ],
   "note": ""
  },
  {
   "property": "C59",
   "status": "proved",
   "theorems": [
    "NumPrime.C59_gen_prime_u32_prime",
    "NumPrime.C59_gen_prime_prim",
    "NumPrime.C59_gen_prime_prim_prime",
    "NumPrime.C59_gen_prime_u16_prime",
    "NumPrime.C59_gen_prime_u128",
    "NumPrime.C59_gen_prime_big",
    "NumPrime.C59_bad_bit_size_panics",
    "NumPrime.C59_gen_prime_prim_returns",
    "NumPrime.C59_gen_prime_exact_prim_returns",
    "NumPrime.C59_gen_prime_small_panics",
    "NumPrime.C59_gen_prime_big_returns"
   ],
   "note": "Every returned number was accepted by the test; it is prime whenever the test is exact (C02, NoPseudoprimes). For u128 the fallback next_prime ignores the configuration passed by the caller. Without big tables gen_prime::<u8>(8) can panic (C59_gen_prime_small_panics)."
  },
  {
   "property": "C60",
   "status": "partial",
   "theorems": [
    "NumPrime.C60_gen_prime_prim_partial",
    "NumPrime.C60_gen_prime_prim_within_partial",
    "NumPrime.C60_gen_prime_u128_partial",
    "NumPrime.C60_gen_prime_big_partial",
    "NumPrime.C60_gen_prime_exceeds"
   ],
   "note": "False as stated (C60_gen_prime_exceeds: 4099 for 12 bits, always 2 for 1 bit). The partial theorems give the true bound and the draws for which the stated one holds."
  },
  {
   "property": "C61",
   "status": "partial",
   "theorems": [
    "NumPrime.C61_gen_prime_exact_prim_partial",
    "NumPrime.C61_gen_prime_exact_prim_within_partial",
    "NumPrime.C61_gen_prime_exact_u128_partial",
    "NumPrime.C61_gen_prime_exact_big_partial",
    "NumPrime.C61_gen_prime_exact_exceeds"
   ],
   "note": "False as stated (C61_gen_prime_exact_exceeds). The lower bound holds always; the partial theorems give the true upper bound."
  },
  {
   "property": "C62",
   "status": "proved",
   "theorems": [
    "NumPrime.C62_safe_prime_u32_prime",
    "NumPrime.C62_safe_prime_prim",
    "NumPrime.C62_safe_prime_prim_prime",
    "NumPrime.C62_safe_prime_u16_prime",
    "NumPrime.C62_safe_prime_u128",
    "NumPrime.C62_safe_prime_big",
    "NumPrime.C62_safe_prime_exact_diverges"
   ],
   "note": "Both numbers are accepted by the test; prime whenever the test is exact. gen_safe_prime_exact(1) never returns (C62_safe_prime_exact_diverges)."
  },
  {
   "property": "C63",
   "status": "partial",
   "theorems": [
    "NumPrime.C63_safe_prime_prim_partial",
    "NumPrime.C63_safe_prime_u128_partial",
    "NumPrime.C63_safe_prime_big_partial",
    "NumPrime.C63_gen_safe_prime_exceeds"
   ],
   "note": "False as stated (C63_gen_safe_prime_exceeds: 263 for 8 bits, always 5 for 1 bit). The partial theorems give the true bound."
  },
  {
   "property": "C64",
   "status": "proved",
   "theorems": [
    "NumPrime.C64_sprp_transparent",
    "NumPrime.C64_lucasm_transparent",
    "NumPrime.C64_lucas_transparent",
    "NumPrime.C64_eslprp_transparent",
    "NumPrime.C64_pollard_rho_transparent",
    "NumPrime.C64_is_prime_transparent",
    "NumPrime.C64_internal_uses"
   ],
   "note": ""
  },
  {
   "property": "C65",
   "status": "partial",
   "theorems": [
    "NumPrime.C65_tests_return",
    "NumPrime.C65_is_prime_no_panic_partial",
    "NumPrime.C65_is_eslprp_panics_iff",
    "NumPrime.C65_is_prime_eslprp_panics",
    "NumPrime.C65_pollard_rho_plain_panics"
   ],
   "note": "is_eslprp and is_prime with the eslprp test do panic through the wrapper (C65_is_eslprp_panics_iff, C65_is_prime_eslprp_panics); pollard_rho with an unreduced start too. All other tests return (C65_tests_return, C65_is_prime_no_panic_partial)."
  },
  {
   "property": "C66",
   "status": "proved",
   "theorems": [
    "NumPrime.C66_divisors_u32",
    "NumPrime.C66_divisors_from_factorization",
    "NumPrime.C66_divisors",
    "NumPrime.C66_divisors_small"
   ],
   "note": ""
  },
  {
   "property": "C67",
   "status": "proved",
   "theorems": [
    "NumPrime.C67_divisor_sigma",
    "NumPrime.C67_divisor_sigma_from_factorization",
    "NumPrime.C67_prime_omega",
    "NumPrime.C67_prime_omega_from_factorization"
   ],
   "note": ""
  },
  {
   "property": "C68",
   "status": "proved",
   "theorems": [
    "NumPrime.C68_wheel_factor_rejected",
    "NumPrime.C68_wheel_sizes",
    "NumPrime.C68_table_exact",
    "NumPrime.C68_table_bounds"
   ],
   "note": ""
  },
  {
   "property": "C69",
   "status": "proved",
   "theorems": [
    "NumPrime.C69_factorize64_search",
    "NumPrime.C69_factorize64_no_prime",
    "NumPrime.C69_factorize128_search",
    "NumPrime.C69_factorize128_no_prime",
    "NumPrime.C69_factors_search"
   ],
   "note": ""
  },
  {
   "property": "C70",
   "status": "proved",
   "theorems": [
    "NumPrime.C70_is_eslprp_iff",
    "NumPrime.C70_is_eslprp_none_iff"
   ],
   "note": ""
  },
  {
   "property": "C71",
   "status": "partial",
   "theorems": [
    "NumPrime.C71_prime_pi_bounds_partial",
    "NumPrime.C71_prime_pi_bounds_factor_partial"
   ],
   "note": "Proved for every x < 11534336, every integer type and every floating point arithmetic with relative error at most 2^-48. Missing: larger x, where the formulas rest on analytic estimates (Dusart) that have no formal proof; there the bounds are proved right up to a factor of 3 (C71_prime_pi_bounds_factor_partial)."
  },
  {
   "property": "C72",
   "status": "partial",
   "theorems": [
    "NumPrime.C72_nth_prime_bounds_partial",
    "NumPrime.C72_nth_prime_bounds_returns_partial",
    "NumPrime.C72_nth_prime_bounds_factor_partial",
    "NumPrime.C72_nth_prime_bounds_factor_returns_partial"
   ],
   "note": "Proved for every 1 <= n <= 759401, every integer type and every floating point arithmetic with relative error at most 2^-48. Missing: larger n, where the formulas rest on analytic estimates (Dusart, Axler) that have no formal proof; there the bounds are proved right up to a factor of 4."
  },
  {
   "property": "C73",
   "status": "proved",
   "theorems": [
    "NumPrime.C73_mersenne",
    "NumPrime.C73_mersenne_returns"
   ],
   "note": ""
  },
  {
   "property": "C75",
   "status": "proved",
   "theorems": [
    "NumPrime.C75_prime_pi_bounds_returns",
    "NumPrime.C75_prime_pi_est_returns",
    "NumPrime.C75_nth_prime_bounds_returns",
    "NumPrime.C75_huge_panics"
   ],
   "note": "Proved for every primitive integer. Finding: for a BigUint too large for f64 prime_pi_bounds and prime_pi_est panic (C75_huge_panics)."
  },
  {
   "property": "C76",
   "status": "proved",
   "theorems": [
    "NumPrime.C76_prime_pi_est_riemann",
    "NumPrime.C76_prime_pi_est_u128_wrong",
    "NumPrime.C76_prime_pi_est_biguint_wrong"
   ],
   "note": "Proved for 8161 < x < 2^64. False beyond u64 (C76_prime_pi_est_u128_wrong, C76_prime_pi_est_biguint_wrong)."
  },
  {
   "property": "C77",
   "status": "proved",
   "theorems": [
    "NumPrime.C77_pow",
    "NumPrime.C77_rem_total",
    "NumPrime.C77_modular_ops_panic",
    "NumPrime.C77_plain_bits",
    "NumPrime.C77_plain_roots",
    "NumPrime.C77_reduced_panics",
    "NumPrime.C77_jacobi",
    "NumPrime.C77_parity",
    "NumPrime.C77_conversions",
    "NumPrime.C77_forwarded",
    "NumPrime.C77_reduced_ops",
    "NumPrime.C77_plain_ops",
    "NumPrime.C77_rem",
    "NumPrime.C77_rem_even_panics",
    "NumPrime.C77_modular_ops",
    "NumPrime.C77_modular_unary_ops",
    "NumPrime.C77_order",
    "NumPrime.C77_eq_mixed_panics",
    "NumPrime.C77_eq",
    "NumPrime.C77_value_ops"
   ],
   "note": "Findings: == of a plain and a reduced number panics (C77_eq_mixed_panics), % panics for even divisors (C77_rem_even_panics)."
  },
  {
   "property": "C74",
   "status": "partial",
   "theorems": [
    "NumPrime.C74_lucky_primes_u32_partial",
    "NumPrime.C74_lucky_numbers_partial",
    "NumPrime.C74_lucky_numbers_six",
    "NumPrime.C74_lucky_primes_partial"
   ],
   "note": "False for the limits 6 and 7 (C74_lucky_numbers_six: 5 is listed); the partial theorems cover every other limit. Lucky primes: exact up to 2^16, beyond that given NoPseudoprimes (C02). Without big tables nothing is assumed up to 2^32 (C74_lucky_primes_u32_partial)."
  },
  {
   "property": "C78",
   "status": "proved",
   "theorems": [
    "NumPrime.C78_squfof_returns"
   ],
   "note": ""
  },
  {
   "property": "C79",
   "status": "proved",
   "theorems": [
    "NumPrime.C79_factorize64_terminates",
    "NumPrime.C79_factorize128_terminates",
    "NumPrime.C79_factors_terminates",
    "NumPrime.C79_factorize_terminates",
    "NumPrime.C79_moebius_terminates",
    "NumPrime.C79_is_square_free_terminates"
   ],
   "note": ""
  },
  {
   "property": "C80",
   "status": "proved",
   "theorems": [
    "NumPrime.C80_one_line_release",
    "NumPrime.C80_one_line_checked",
    "NumPrime.C80_factorize64_release",
    "NumPrime.C80_factorize64_release_exact",
    "NumPrime.C80_factorize64_agrees",
    "NumPrime.C80_factorize128_release",
    "NumPrime.C80_factorize128_agrees",
    "NumPrime.C80_sqrt_exact_zero"
   ],
   "note": ""
  },
  {
   "property": "C81",
   "status": "proved",
   "theorems": [
    "NumPrime.C81_sprp_imp_prp",
    "NumPrime.C81_slprp_imp_lprp",
    "NumPrime.C81_eslprp_imp_slprp"
   ],
   "note": ""
  },
  {
   "property": "C82",
   "status": "proved",
   "theorems": [
    "NumPrime.C82_sprp_quarter",
    "NumPrime.C82_sprp_tuples",
    "NumPrime.C82_sprp_witness",
    "NumPrime.C82_prp_half",
    "NumPrime.C82_carmichael"
   ],
   "note": ""
  },
  {
   "property": "C83",
   "status": "partial",
   "theorems": [
    "NumPrime.C83_reported_partial",
    "NumPrime.C83_is_prime_partial",
    "NumPrime.C83_reported_certain",
    "NumPrime.C83_certain_but_composite",
    "NumPrime.C83_reported_negative"
   ],
   "note": "False as stated: from 13 rounds on the f32 value is exactly 1 (C83_reported_certain), and trial numbers from 2^31 on are cast to i32, so that usize::MAX trials give -3 (C83_reported_negative). The partial theorem covers all trial numbers below 2^31 and says exactly when the value is below 1; that the value depends on the configuration alone is C15_above_2_64."
  },
  {
   "property": "C84",
   "status": "proved",
   "theorems": [
    "NumPrime.C84_primes_length",
    "NumPrime.C84_prime_pi_nth_prime",
    "NumPrime.C84_nth_prime_prime_pi",
    "NumPrime.C84_nprimes_primes",
    "NumPrime.C84_round_trip_u32"
   ],
   "note": ""
  },
  {
   "property": "C85",
   "status": "proved",
   "theorems": [
    "NumPrime.C85_prev_next",
    "NumPrime.C85_next_prev"
   ],
   "note": ""
  },
  {
   "property": "C86",
   "status": "proved",
   "theorems": [
    "NumPrime.C86_factorize64_deterministic",
    "NumPrime.C86_factorize128_agrees",
    "NumPrime.C86_factorize_agrees",
    "NumPrime.C86_factors_agrees"
   ],
   "note": ""
  },
  {
   "property": "C87",
   "status": "proved",
   "theorems": [
    "NumPrime.C87_is_prime_factorize64",
    "NumPrime.C87_moebius_mul",
    "NumPrime.C87_moebius_square_free",
    "NumPrime.C87_moebius_prime"
   ],
   "note": ""
  },
  {
   "property": "C88",
   "status": "proved",
   "theorems": [
    "NumPrime.C88_primorial_release",
    "NumPrime.C88_primorial_release_right_iff",
    "NumPrime.C88_primorial_release_agrees"
   ],
   "note": ""
  },
  {
   "property": "C89",
   "status": "proved",
   "theorems": [
    "NumPrime.C89_pq_selfridge_method_a",
    "NumPrime.C89_p_bruteforce_method_c",
    "NumPrime.C89_methods_unique",
    "NumPrime.C89_is_lprp_default",
    "NumPrime.C89_is_slprp_default",
    "NumPrime.C89_is_eslprp_default",
    "NumPrime.C89_default_agree"
   ],
   "note": ""
  },
  {
   "property": "C90",
   "status": "proved",
   "theorems": [
    "NumPrime.C90_rho_finds",
    "NumPrime.C90_rho_backtrack",
    "NumPrime.C90_rho_limit",
    "NumPrime.C90_rho_misses",
    "NumPrime.C90_rho_backtrack_misses"
   ],
   "note": ""
  },
  {
   "property": "C91",
   "status": "proved",
   "theorems": [
    "NumPrime.C91_release_agrees",
    "NumPrime.C91_prime_pi_max_release",
    "NumPrime.C91_prime_phi_max_release"
   ],
   "note": ""
  },
  {
   "property": "C92",
   "status": "proved",
   "theorems": [
    "NumPrime.C92_reserve_agrees",
    "NumPrime.C92_reserve_sound",
    "NumPrime.C92_primes_lost",
    "NumPrime.C92_reserve_max_noop"
   ],
   "note": ""
  },
  {
   "property": "C93",
   "status": "proved",
   "theorems": [
    "NumPrime.C93_rho_lucky",
    "NumPrime.C93_factorize64_reachable",
    "NumPrime.C93_factorize128_reachable"
   ],
   "note": ""
  },
  {
   "property": "C94",
   "status": "proved",
   "theorems": [
    "NumPrime.C94_gen_prime_first",
    "NumPrime.C94_gen_prime_exact_first",
    "NumPrime.C94_gen_prime_within_iff",
    "NumPrime.C94_gen_prime_exact_within_iff",
    "NumPrime.C94_gen_prime_words",
    "NumPrime.C94_gen_prime_exact_words",
    "NumPrime.C94_gen_prime_words_small",
    "NumPrime.C94_gen_prime_words_small_u128",
    "NumPrime.C94_gen_prime_words_small_big",
    "NumPrime.C94_exceeds_words",
    "NumPrime.C94_exceeds_words_u128",
    "NumPrime.C94_exceeds_words_big",
    "NumPrime.C94_exact_exceeds_words",
    "NumPrime.C94_exact_exceeds_words_u128",
    "NumPrime.C94_exact_exceeds_words_big",
    "NumPrime.C94_gen_prime_words_u128",
    "NumPrime.C94_gen_prime_exact_words_u128",
    "NumPrime.C94_gen_prime_words_big",
    "NumPrime.C94_gen_prime_exact_words_big"
   ],
   "note": ""
  },
  {
   "property": "C95",
   "status": "proved",
   "theorems": [
    "NumPrime.C95_one_line_complete",
    "NumPrime.C95_one_line_complete_big"
   ],
   "note": ""
  },
  {
   "property": "C96",
   "status": "proved",
   "theorems": [
    "NumPrime.C96_factorize64_u32_returns",
    "NumPrime.C96_factorize_u32_returns",
    "NumPrime.C96_factorize_u32_exact",
    "NumPrime.C96_factorize_u32_release",
    "NumPrime.C96_moebius_u32_returns",
    "NumPrime.C96_moebius_u32_exact",
    "NumPrime.C96_is_square_free_u32_exact",
    "NumPrime.C96_divisors_u32",
    "NumPrime.C96_divisor_sigma_u32",
    "NumPrime.C96_prime_omega_u32"
   ],
   "note": ""
  },
  {
   "property": "C97",
   "status": "proved",
   "theorems": [
    "NumPrime.C97_nth_prime_agrees",
    "NumPrime.C97_nth_prime_est_hangs",
    "NumPrime.C97_nth_prime_est_u64_hangs",
    "NumPrime.C97_nth_prime_hangs",
    "NumPrime.C97_nth_prime_release_exact",
    "NumPrime.C97_nth_prime_est_agrees"
   ],
   "note": ""
  },
  {
   "property": "C98",
   "status": "proved",
   "theorems": [
    "NumPrime.C98_mint_release_agrees",
    "NumPrime.C98_mint_release_refines",
    "NumPrime.C98_mint_release_wrong_modulus"
   ],
   "note": ""
  },
  {
   "property": "C99",
   "status": "proved",
   "theorems": [
    "NumPrime.C99_gen_prime_release_agrees",
    "NumPrime.C99_gen_prime_release_zero",
    "NumPrime.C99_gen_prime_release_u128",
    "NumPrime.C99_gen_prime_release_zero_any"
   ],
   "note": ""
  },
  {
   "property": "C100",
   "status": "proved",
   "theorems": [
    "NumPrime.C100_is_sprp_release",
    "NumPrime.C100_lucas_release_agrees",
    "NumPrime.C100_lucas_release_max",
    "NumPrime.C100_lucas_release_default"
   ],
   "note": ""
  },
  {
   "property": "C101",
   "status": "proved",
   "theorems": [
    "NumPrime.C101_factors_release",
    "NumPrime.C101_factorize_release",
    "NumPrime.C101_factorize_release_exact",
    "NumPrime.C101_factorize_agrees",
    "NumPrime.C101_moebius_never_panics",
    "NumPrime.C101_moebius_agrees",
    "NumPrime.C101_moebius_release_exact",
    "NumPrime.C101_is_square_free_release_exact",
    "NumPrime.C101_moebius_u32_release"
   ],
   "note": ""
  },
  {
   "property": "C102",
   "status": "proved",
   "theorems": [
    "NumPrime.C102_is_prime_release",
    "NumPrime.C102_is_safe_prime_release",
    "NumPrime.C102_next_prime_release",
    "NumPrime.C102_prev_prime_release",
    "NumPrime.C102_prev_prime_never_panics",
    "NumPrime.C102_gen_safe_prime_release_u128"
   ],
   "note": ""
  },
  {
   "property": "C103",
   "status": "proved",
   "theorems": [
    "NumPrime.C103_divisors_release",
    "NumPrime.C103_divisor_sigma_release",
    "NumPrime.C103_prime_omega_release",
    "NumPrime.C103_examples_agree",
    "NumPrime.C103_list_mersenne_release"
   ],
   "note": ""
  },
  {
   "property": "C104",
   "status": "proved",
   "theorems": [
    "NumPrime.C104_base_lookup",
    "NumPrime.C104_wheel_lookup",
    "NumPrime.C104_moebius_lookup",
    "NumPrime.C104_residue_lookup_big",
    "NumPrime.C104_residue_lookup_small",
    "NumPrime.C104_zeta_lookup",
    "NumPrime.C104_is_prime64",
    "NumPrime.C104_next_prime",
    "NumPrime.C104_prev_prime",
    "NumPrime.C104_moebius",
    "NumPrime.C104_sqrt_exact",
    "NumPrime.C104_cbrt_exact"
   ],
   "note": ""
  },
  {
   "property": "C105",
   "status": "proved",
   "theorems": [
    "NumPrime.C105_profile_min",
    "NumPrime.C105_profile_returns",
    "NumPrime.C105_profile_n",
    "NumPrime.C105_profile_n_returns",
    "NumPrime.C105_semiprime",
    "NumPrime.C105_profile_panics"
   ],
   "note": ""
  },
  {
   "property": "C106",
   "status": "proved",
   "theorems": [
    "NumPrime.C106_squfof_found",
    "NumPrime.C106_squfof_not_found",
    "NumPrime.C106_one_line_found",
    "NumPrime.C106_one_line_not_found"
   ],
   "note": ""
  },
  {
   "property": "C107",
   "status": "proved",
   "theorems": [
    "NumPrime.C107_factors_product",
    "NumPrime.C107_divisor_proper",
    "NumPrime.C107_divisor_first",
    "NumPrime.C107_divisor_empty",
    "NumPrime.C107_factors_complete",
    "NumPrime.C107_factors_returns",
    "NumPrime.C107_factorize_exact"
   ],
   "note": ""
  },
  {
   "property": "C108",
   "status": "proved",
   "theorems": [
    "NumPrime.C108_squfof_found",
    "NumPrime.C108_squfof_none",
    "NumPrime.C108_squfof_iff"
   ],
   "note": ""
  },
  {
   "property": "C109",
   "status": "proved",
   "theorems": [
    "NumPrime.C109_gen_prime_prim",
    "NumPrime.C109_gen_safe_prime_prim",
    "NumPrime.C109_gen_prime_u128",
    "NumPrime.C109_gen_safe_prime_u128",
    "NumPrime.C109_gen_prime_big",
    "NumPrime.C109_gen_safe_prime_big",
    "NumPrime.C109_gen_prime_two",
    "NumPrime.C109_gen_prime_exact_two_bits"
   ],
   "note": ""
  },
  {
   "property": "C110",
   "status": "proved",
   "theorems": [
    "NumPrime.C110_sqrt_exact",
    "NumPrime.C110_probable_prime_tests",
    "NumPrime.C110_is_prime",
    "NumPrime.C110_is_safe_prime",
    "NumPrime.C110_next_prev_prime",
    "NumPrime.C110_trial_division",
    "NumPrime.C110_squfof_one_line",
    "NumPrime.C110_factors",
    "NumPrime.C110_moebius",
    "NumPrime.C110_primorial"
   ],
   "note": ""
  },
  {
   "property": "C111",
   "status": "proved",
   "theorems": [
    "NumPrime.C111_roots",
    "NumPrime.C111_lucas_tests",
    "NumPrime.C111_squfof_one_line",
    "NumPrime.C111_is_prime_large",
    "NumPrime.C111_is_prime_new",
    "NumPrime.C111_is_prime_small",
    "NumPrime.C111_factorize",
    "NumPrime.C111_prime_pi",
    "NumPrime.C111_next_prev_prime"
   ],
   "note": ""
  },
  {
   "property": "C112",
   "status": "proved",
   "theorems": [
    "NumPrime.C112_next_prime_nth_prime",
    "NumPrime.C112_prev_prime_nth_prime",
    "NumPrime.C112_is_prime_prime_pi",
    "NumPrime.C112_primes_is_prime",
    "NumPrime.C112_primes_steps"
   ],
   "note": ""
  },
  {
   "property": "C113",
   "status": "proved",
   "theorems": [
    "NumPrime.C113_stronger_config",
    "NumPrime.C113_more_random",
    "NumPrime.C113_larger_buffer",
    "NumPrime.C113_lucas_lowers_report"
   ],
   "note": ""
  },
  {
   "property": "C114",
   "status": "proved",
   "theorems": [
    "NumPrime.C114_next_prime_least",
    "NumPrime.C114_prev_prime_greatest",
    "NumPrime.C114_prev_next",
    "NumPrime.C114_next_prev",
    "NumPrime.C114_monotone",
    "NumPrime.C114_next_prime_wheel",
    "NumPrime.C114_roundtrip_any"
   ],
   "note": ""
  },
  {
   "property": "C115",
   "status": "proved",
   "theorems": [
    "NumPrime.C115_stepping_release",
    "NumPrime.C115_factorize_release",
    "NumPrime.C115_moebius_release",
    "NumPrime.C115_examples_release",
    "NumPrime.C115_prime_pi_release",
    "NumPrime.C115_nth_prime_phi_release",
    "NumPrime.C115_gen_prime_release",
    "NumPrime.C115_gen_safe_prime_release",
    "NumPrime.C115_one_outcome_release",
    "NumPrime.C115_next_prime",
    "NumPrime.C115_prev_prime",
    "NumPrime.C115_squfof",
    "NumPrime.C115_factorize64",
    "NumPrime.C115_factorize128",
    "NumPrime.C115_factors",
    "NumPrime.C115_factorize",
    "NumPrime.C115_moebius",
    "NumPrime.C115_factorize_new",
    "NumPrime.C115_nth_prime_est",
    "NumPrime.C115_prime_pi",
    "NumPrime.C115_nth_prime_phi",
    "NumPrime.C115_prime_pi_nth_prime_new",
    "NumPrime.C115_history",
    "NumPrime.C115_gen_prime",
    "NumPrime.C115_gen_safe_prime",
    "NumPrime.C115_gen_safe_prime_exact",
    "NumPrime.C115_divisors_omega",
    "NumPrime.C115_lucky",
    "NumPrime.C115_is_prime",
    "NumPrime.C115_is_prime_mint",
    "NumPrime.C115_is_safe_prime",
    "NumPrime.C115_stepping_words",
    "NumPrime.C115_one_outcome_factorize",
    "NumPrime.C115_one_outcome_counting",
    "NumPrime.C115_one_outcome_stepping"
   ],
   "note": ""
  },
  {
   "property": "C116",
   "status": "proved",
   "theorems": [
    "NumPrime.C116_eslprp_release",
    "NumPrime.C116_tests_transparent",
    "NumPrime.C116_is_prime_release",
    "NumPrime.C116_is_prime_transparent",
    "NumPrime.C116_eslprp_transparent",
    "NumPrime.C116_pollard_rho_transparent"
   ],
   "note": ""
  },
  {
   "property": "C117",
   "status": "proved",
   "theorems": [
    "NumPrime.C117_random_rounds",
    "NumPrime.C117_one_round",
    "NumPrime.C117_wrapped_and_safe",
    "NumPrime.C117_next_prime",
    "NumPrime.C117_words_quarter",
    "NumPrime.C117_error_rate",
    "NumPrime.C117_divisor_words",
    "NumPrime.C117_u128_exposed",
    "NumPrime.C117_prime_rejected"
   ],
   "note": ""
  },
  {
   "property": "C118",
   "status": "proved",
   "theorems": [
    "NumPrime.C118_safe_prime_words",
    "NumPrime.C118_safe_prime_words_u128",
    "NumPrime.C118_safe_prime_words_big",
    "NumPrime.C118_safe_prime_exact_words",
    "NumPrime.C118_safe_prime_exact_words_u128",
    "NumPrime.C118_safe_prime_exact_words_big",
    "NumPrime.C118_safe_prime_long_words",
    "NumPrime.C118_safe_prime_long_words_u128",
    "NumPrime.C118_safe_prime_long_words_big",
    "NumPrime.C118_safe_prime_small_words",
    "NumPrime.C118_safe_prime_small_words_u128",
    "NumPrime.C118_safe_prime_small_words_big"
   ],
   "note": ""
  },
  {
   "property": "C119",
   "status": "proved",
   "theorems": [
    "NumPrime.C119_gen_prime_panics",
    "NumPrime.C119_gen_prime_exact_panics",
    "NumPrime.C119_gen_prime_panics_u128",
    "NumPrime.C119_gen_prime_panics_big",
    "NumPrime.C119_no_panics",
    "NumPrime.C119_gen_prime_exact_panics_u128",
    "NumPrime.C119_gen_prime_exact_panics_big"
   ],
   "note": ""
  },
  {
   "property": "C120",
   "status": "proved",
   "theorems": [
    "NumPrime.C120_safe_prime_exact_diverges",
    "NumPrime.C120_safe_prime_exact_sizes",
    "NumPrime.C120_safe_prime_exact_sizes_u128",
    "NumPrime.C120_safe_prime_exact_sizes_big"
   ],
   "note": ""
  },
  {
   "property": "C121",
   "status": "proved",
   "theorems": [
    "NumPrime.C121_safe_prime_exact_returns",
    "NumPrime.C121_safe_prime_returns",
    "NumPrime.C121_returns_on_some_word",
    "NumPrime.C121_safe_prime_exact_returns_big",
    "NumPrime.C121_safe_prime_returns_big",
    "NumPrime.C121_returns_on_some_number_big",
    "NumPrime.C121_safe_prime_exact_returns_u128",
    "NumPrime.C121_safe_prime_returns_u128",
    "NumPrime.C121_returns_on_some_word_u128",
    "NumPrime.C121_unfinished_words",
    "NumPrime.C121_unfinished_words_u128",
    "NumPrime.C121_unfinished_words_big"
   ],
   "note": ""
  }
 ]
}