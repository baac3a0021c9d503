import Verif.Proofs.Mint
import Verif.Props.Lucas
import Verif.Props.Sprp
import Verif.Props.IsPrimeGen
import Verif.Model.Factorize

/-! # C64, C65: the generic algorithms on `SmallMint`

`Mint.left n` is `SmallMint::from(n)`, `Mint.right r n` is `SmallMint::from(MontgomeryInt::new(r, n))`. `w` is the width of
the underlying integer type. -/

namespace NumPrime
open Mint Spec

/-! ## C64 -/

/-- **C64** Fermat and Miller-Rabin tests: the same verdict, and for `test_sprp` the same factor (as a plain number) -/
theorem C64_sprp_transparent (w : Width) (n base : ℕ) (ho : n % 2 = 1) :
    mIsPrp (left n) (left base) = .ok (isPrp n base) ∧
    mIsSprp w (left n) (left base) = isSprp w n base ∧
    (∀ v, testSprp w n base = .ok (.left v) → mTestSprp w (left n) (left base) = .ok (.left v)) ∧
    (∀ d, testSprp w n base = .ok (.right d) → mTestSprp w (left n) (left base) = .ok (.right (left d))) := by
  refine ⟨mIsPrp_eq ho base, mIsSprp_eq ho base, ?_, ?_⟩
  · intro v h; rw [mTestSprp_eq ho, h]; rfl
  · intro d h; rw [mTestSprp_eq ho, h]; rfl

/-- **C64** Lucas sequences: the residues computed in Montgomery form are the Lucas numbers modulo `m` -/
theorem C64_lucasm_transparent (p : ℕ) (q : ℤ) (m n : ℕ) (ho : m % 2 = 1) :
    ∃ u v, mLucasm p q (left m) (left n) = .ok (right u m, right v m) ∧ lucasm p q m n = (u, v) ∧
      (u : ℤ) = lucasU p q n % m ∧ (v : ℤ) = lucasV p q n % m := by
  refine ⟨_, _, mLucasm_eq p q ho n, rfl, ?_⟩
  exact C07_lucasm p q m n (by omega)

/-- **C64** parameter searches and the (strong) Lucas tests -/
theorem C64_lucas_transparent (bld : Build) (w : Width) (n : ℕ) (ho : n % 2 = 1) (hw : fits w n = true) (p : Option ℕ)
    (q : Option ℤ) :
    mPqSelfridge w (left n) = pqSelfridge bld w n ∧ mPBruteforce w (left n) = pBruteforce bld w n ∧
    mIsLprp w (left n) p q = isLprp bld w n p q ∧ mIsSlprp w (left n) p q = isSlprp bld w n p q :=
  ⟨mPqSelfridge_eq bld w ho hw, mPBruteforce_eq bld w ho hw, mIsLprp_eq bld w ho hw p q, mIsSlprp_eq bld w ho hw p q⟩

/-- **C64** the extra strong test: where it returns on a `SmallMint`, the verdict is that of the plain test -/
theorem C64_eslprp_transparent (bld : Build) (w : Width) (n : ℕ) (ho : n % 2 = 1) (hw : fits w n = true) (p : Option ℕ)
    (v : Bool) (h : mIsEslprp w (left n) p = .ok v) : isEslprp bld w n p = .ok v := by
  rcases mIsEslprp_or bld w ho hw p with h' | h'
  · rw [h'] at h; exact absurd h (by simp)
  · rw [← h', h]

/-- **C64** `pollard_rho` started on reduced numbers: the same divisor (as a plain number) after the same number of
iterations -/
theorem C64_pollard_rho_transparent (n start offset maxIter : ℕ) (ho : n % 2 = 1) (hs : start < n) :
    ∃ d i, pollardRho n start offset maxIter = .ok (d, i) ∧
      mPollardRho (left n) (right start n) (right offset n) maxIter = .ok (d.map left, i) := by
  rw [mPollardRho_eq ho hs]
  unfold pollardRho
  rw [if_neg (by omega)]
  exact ⟨_, _, rfl, rfl⟩

/-- **C64** `is_prime` on a `SmallMint`, for any target and any configuration without the extra strong Lucas test -/
theorem C64_is_prime_transparent (bld : Build) (w : Width) (list : List ℕ) (n : ℕ) (hw : fits w n = true)
    (config : Option PrimalityTestConfig) (hc : (config.getD .default).eslprpTest = false) (draws : List ℕ) :
    mIsPrime bld w list (left n) config draws = isPrime bld w list n config draws :=
  mIsPrime_eq bld w list hw config hc draws

/-- **C64** the places of the crate that use `SmallMint`, and that the model writes with plain numbers: the Miller-Rabin
rounds of `is_prime64`, the divisor search of `factorize64` / `factorize128`, the BPSW test of `factorize128` -/
theorem C64_internal_uses (bld : Build) :
    (∀ w n b, 2 < n → n % 2 = 1 → fits w n = true → mIsSprp w (left n) (left b) = .ok (sprp64 n b)) ∧
    (∀ (rng : Rng) k n maxIter, n % 2 = 1 →
      (mPollardRho (left n) (right (rng.word k % n) n) (right (rng.word (k + 1) % n) n) maxIter).mapR
        (fun r => r.1.map value) = tryRho rng k n maxIter) ∧
    (∀ n, fits (some 128) n = true → mIsPrime bld (some 128) (smallPrimes bld) (left n) (some .bpsw) [] =
      isPrimeNew bld (some 128) n (some .bpsw) []) := by
  refine ⟨?_, ?_, ?_⟩
  · intro w n b hn ho hw
    rw [mIsSprp_eq ho, isSprp, testSprp_ok hn hw]
    rfl
  · intro rng k n maxIter ho
    rw [mPollardRho_eq ho (Nat.mod_lt _ (by omega)), tryRho, if_neg (by omega)]
    cases pollardRho n (rng.word k % n) (rng.word (k + 1) % n) maxIter with
    | panic => rfl
    | timeout => rfl
    | ok r =>
      obtain ⟨d, i⟩ := r
      cases d <;> rfl
  · intro n hw
    exact mIsPrime_eq bld (some 128) _ hw _ rfl _

-- concrete cases: 8051 = 83 * 97; 2047 = 23 * 89 is a strong pseudoprime to base 2; 5459 = 53 * 103 a strong Lucas pseudoprime
example : mPollardRho (left 8051) (right 2 8051) (right 1 8051) 100 = .ok (some (left 97), 8) := by decide +kernel
example : mIsSprp (some 64) (left 2047) (left 2) = .ok true := by decide +kernel
example : mTestSprp (some 64) (left 341) (left 2) = .ok (.right (left 31)) := by decide +kernel
example : mIsSlprp (some 64) (left 5459) none none = .ok true := by decide +kernel
example : mLucasm 1 (-1) (left 1001) (left 30) = .ok (right 209 1001, right 640 1001) := by decide +kernel
example : ∃ r, mIsPrime .big (some 128) (smallPrimes .big) (left 18446744073709551653) (some .bpsw) [] = .ok r ∧
    r.probably = true := by
  rw [C64_is_prime_transparent .big (some 128) _ _ (by decide) _ rfl]
  exact ⟨.probable (probability ⟨1, 0, true, false⟩), by decide +kernel, rfl⟩

/-! ## C65 -/

/-- **C65** on `SmallMint::from(n)`, `n ≥ 3` odd, the Fermat, Miller-Rabin, Lucas and strong Lucas tests return -/
theorem C65_tests_return (w : Width) (hstd : StdWidth w) (n : ℕ) (hn : 3 ≤ n) (ho : n % 2 = 1) (hw : fits w (n + 1) = true)
    (base : ℕ) (p : ℕ) (q : ℤ) (ha : LucasArgs w p q) :
    (∃ v, mIsPrp (left n) (left base) = .ok v) ∧ (∃ v, mTestSprp w (left n) (left base) = .ok v) ∧
    (∃ v, mIsLprp w (left n) (some p) (some q) = .ok v) ∧ (∃ v, mIsLprp w (left n) none none = .ok v) ∧
    (∃ v, mIsSlprp w (left n) (some p) (some q) = .ok v) ∧ (∃ v, mIsSlprp w (left n) none none = .ok v) := by
  have hw' : fits w n = true := fits_mono (by omega) hw
  have hL := mIsLprp_eq .big w ho hw'
  have hS := mIsSlprp_eq .big w ho hw'
  refine ⟨⟨_, mIsPrp_eq ho base⟩, ⟨_, by rw [mTestSprp_eq ho, testSprp_ok (by omega) hw']; rfl⟩, ?_, ?_, ?_, ?_⟩
  · rw [hL]; exact (isLprp_explicit .big ho hw p q ha).imp fun _ h => h.1
  · rw [hL]
    obtain ⟨P, Q, h1, h2⟩ := pqSelfridge_total .big hstd ho hw'
    rcases h2 with ⟨h2, h3⟩ | ⟨rfl, -, h3⟩
    · refine ⟨false, ?_⟩
      simp [isLprp, lucasParams, h1, h2, show ¬ n < 1 by omega, ho]
    · rw [isLprp_none .big ho h1]
      exact (lprpWith_spec ho hw 1 Q (selfridge_conv hstd hw' h3)).imp fun _ h => h.1
  · rw [hS]; exact (isSlprp_explicit .big (by omega) ho hw p q ha).imp fun _ h => h.1
  · rw [hS]
    obtain ⟨_, _, v, _, h, _⟩ := isSlprp_none_spec .big hstd ho hw
    exact ⟨v, h⟩

/-- **C65** (partial: only configurations without the extra strong Lucas test) `is_prime` never panics on a `SmallMint` -/
theorem C65_is_prime_no_panic_partial (bld : Build) (w : Width) (hstd : StdWidth w) (list : List ℕ) (n : ℕ)
    (hw : fits w n = true) (config : Option PrimalityTestConfig) (hc : (config.getD .default).eslprpTest = false)
    (draws : List ℕ) : mIsPrime bld w list (left n) config draws ≠ .panic := by
  rw [mIsPrime_eq bld w list hw config hc]
  exact isPrime_ne_panic bld hstd list n hw config draws

/-- **C65, finding** the extra strong Lucas test panics on a `SmallMint` for very many inputs: exactly when `n` divides
`U_d`, or does not divide `V_d` and `n - (D/n) = d * 2^s` with `s ≥ 3` -/
theorem C65_is_eslprp_panics_iff (w : Width) (n : ℕ) (hn : 3 ≤ n) (ho : n % 2 = 1) (hw : fits w (n + 1) = true) (p : ℕ)
    (ha : LucasArgs w p 1) (hJ : jacobiSym ((p : ℤ) ^ 2 - 4) n ≠ 0) (s d : ℕ) (hd : d % 2 = 1) (hdec : lucasIndex n ((p : ℤ) ^ 2 - 4) = d * 2 ^ s) :
    mIsEslprp w (left n) (some p) = .panic ↔
      (lucasU p 1 d ≡ 0 [ZMOD n] ∨ (¬ lucasV p 1 d ≡ 0 [ZMOD n] ∧ 3 ≤ s)) := by
  have hw' : fits w n = true := fits_mono (by omega) hw
  rw [mIsEslprp_eq .big w ho hw']
  have hD : ((p * p : ℕ) : ℤ) - 4 = (p : ℤ) ^ 2 - 4 := by push_cast; ring
  simp only [eslprpParam, Res.bind_ok, Option.isNone_some, Bool.false_eq_true, false_and, if_false, lucasDelta_eq ho hw, hD,
    mEslprpTail_eq ho]
  have hpos := lucasIndex_pos (by omega : 1 < n) ((p : ℤ) ^ 2 - 4)
  obtain ⟨hd1, hdec1⟩ := tz_decomp hpos
  obtain ⟨e1, e2⟩ := odd_decomp_unique hd hd1 (hdec.symm.trans hdec1)
  have htz : trailingZeros w (lucasIndex n ((p : ℤ) ^ 2 - 4)) = s := by
    rw [trailingZeros, if_neg (by omega)]; omega
  have hs1 : 1 ≤ s := by
    by_contra h
    have h0 : s = 0 := by omega
    rw [h0, pow_zero, mul_one] at hdec
    rcases jacobi_trichotomy ((p : ℤ) ^ 2 - 4) n with h | h | h
    · exact hJ h
    · rw [lucasIndex_eq_pos h] at hdec; omega
    · rw [lucasIndex_eq_neg h] at hdec; omega
  have hsh : cshr w (lucasIndex n ((p : ℤ) ^ 2 - 4)) s = .ok d := by
    have hv : lucasIndex n ((p : ℤ) ^ 2 - 4) >>> s = d := by rw [Nat.shiftRight_eq_div_pow, hdec]; simp
    unfold cshr
    cases w with
    | none => rw [hv]
    | some b =>
      have hb := fits_some.mp (fits_mono (lucasIndex_le n ((p : ℤ) ^ 2 - 4)) hw)
      have : s < b := by
        by_contra hc
        have : 2 ^ b ≤ 2 ^ s := Nat.pow_le_pow_right (by norm_num) (by omega)
        have : 2 ^ s ≤ d * 2 ^ s := Nat.le_mul_of_pos_left _ (by omega)
        omega
      simp only [this, if_true]
      rw [hv]
  have hd4 := lucasDisc_ok ha
  obtain ⟨_, _, _, _, h5, h6, h7⟩ := ha
  rw [mul_one] at hd4 h7
  simp only [lucasD, Option.isSome_some, if_true, hd4, Res.bind_ok, lucasConv_ok h5 h6 h7]
  rw [htz, hsh, Res.bind_ok]
  obtain ⟨hu, hv⟩ := C07_lucasm p 1 n d (by omega)
  have hu' : (lucasm p 1 n d).1 = 0 ↔ lucasU p 1 d ≡ 0 [ZMOD n] := by
    rw [Int.ModEq, Int.zero_emod, ← hu]; norm_cast
  have hv' : (lucasm p 1 n d).2 = 0 ↔ lucasV p 1 d ≡ 0 [ZMOD n] := by
    rw [Int.ModEq, Int.zero_emod, ← hv]; norm_cast
  rw [← hu', ← hv']
  by_cases h1 : (lucasm p 1 n d).1 = 0
  · simp [h1]
  · by_cases h2 : (lucasm p 1 n d).2 = 0
    · simp [h1, h2]
    · simp only [h1, h2, if_false, false_or, not_false_eq_true, true_and]
      split
      · simp; omega
      · simp; omega

-- all outcomes occur
example : mIsEslprp (some 64) (left 13) (some 3) = .panic := by decide +kernel
example : mIsEslprp (some 64) (left 11) none = .ok true := by decide +kernel
example : mIsEslprp (some 64) (left 9) none = .ok false := by decide +kernel

/-- **C65, finding** a 65-bit prime on which `is_prime` panics as a `SmallMint` when the configuration asks for the extra
strong Lucas test, while the plain `u128` is accepted -/
theorem C65_is_prime_eslprp_panics (bld : Build) :
    Nat.Prime 18446744073709551653 ∧
    mIsPrime bld (some 128) (smallPrimes bld) (left 18446744073709551653)
      (some { sprpTrials := 1, sprpRandomTrials := 0, slprpTest := false, eslprpTest := true }) [] = .panic ∧
    ∃ r, isPrime bld (some 128) (smallPrimes bld) 18446744073709551653
      (some { sprpTrials := 1, sprpRandomTrials := 0, slprpTest := false, eslprpTest := true }) [] = .ok r ∧
      r.probably = true := by
  refine ⟨prime_65bit, by cases bld <;> decide +kernel, .probable (probability ⟨1, 0, false, true⟩), ?_, rfl⟩
  cases bld <;> decide +kernel

/-- **C65, finding** `pollard_rho` needs reduced numbers: with plain `start` and `offset` it panics on a `SmallMint` -/
theorem C65_pollard_rho_plain_panics (n start offset maxIter : ℕ) (hi : 0 < maxIter) :
    mPollardRho (left n) (left start) (left offset) maxIter = .panic := by
  unfold mPollardRho
  simp only [rem, reduced]
  split
  · rename_i ho
    obtain ⟨f, rfl⟩ := Nat.exists_eq_succ_of_ne_zero (by omega : maxIter ≠ 0)
    simp [mRhoLoop, msqm, unary, ho, maddm]
  · rfl

end NumPrime
