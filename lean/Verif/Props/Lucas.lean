import Verif.Proofs.Lucas

/-! # C07 – C13, C70: Lucas sequences and Lucas probable prime tests

`fits w (n+1)` says that `n + 1` is representable in the integer type (always true for `BigUint`). `StdWidth w`: the type is
one of `u8` … `u128` or `BigUint`. `LucasArgs w p q`: the caller-supplied parameters and their discriminant are small enough
for `isize` and for the type; what happens otherwise is stated in the findings `C09_…_panics` and `C09_…_wraps`. -/

namespace NumPrime
open Spec

/-- **C07** `lucasm(p, q, m, n)` is the pair `(U_n mod m, V_n mod m)` -/
theorem C07_lucasm (p : ℕ) (q : ℤ) (m n : ℕ) (hm : 1 ≤ m) :
    ((lucasm p q m n).1 : ℤ) = lucasU p q n % m ∧ ((lucasm p q m n).2 : ℤ) = lucasV p q n % m := by
  obtain ⟨h1, h2, h3, h4⟩ := lucasm_cast p q (by omega : 0 < m) n
  exact ⟨cast_lt_eq_emod h1 h3, cast_lt_eq_emod h2 h4⟩

example : lucasm 1 (-1) 1000 30 = (40, 498) := by decide +kernel
example : lucasU 1 (-1) 30 = 832040 ∧ lucasV 1 (-1) 30 = 1860498 := by decide +kernel

/-- **C08** `pq_selfridge` returns for every odd `n`, without overflow; the parameters have Jacobi symbol -1; the escape value
`(0,0)` is never returned for a prime. The discriminant `D = 1 - 4 Q` satisfies `|D| ≤ 15` or `|D| (|D| - 1) < 4 n`. -/
theorem C08_pq_selfridge (bld : Build) (w : Width) (hstd : StdWidth w) (n : ℕ) (hodd : n % 2 = 1) (hw : fits w n = true) :
    ∃ P Q, pqSelfridge bld w n = .ok (P, Q) ∧
      ((P = 0 ∧ Q = 0 ∧ ¬ n.Prime) ∨ (P = 1 ∧ jacobiSym ((P : ℤ) ^ 2 - 4 * Q) n = -1 ∧
        (|1 - 4 * Q| ≤ 15 ∨ |1 - 4 * Q| * (|1 - 4 * Q| - 1) < 4 * n))) := by
  have conv : ∀ Q : ℤ, SmallDisc n (1 - 4 * Q).natAbs → |1 - 4 * Q| ≤ 15 ∨ |1 - 4 * Q| * (|1 - 4 * Q| - 1) < 4 * n := by
    intro Q h
    rw [Int.abs_eq_natAbs]
    rcases h with h | h
    · exact Or.inl (by exact_mod_cast h)
    · right
      have h1 : 1 ≤ (1 - 4 * Q).natAbs := by omega
      have h2 : (((1 - 4 * Q).natAbs * ((1 - 4 * Q).natAbs - 1) : ℕ) : ℤ) < ((4 * n : ℕ) : ℤ) := by exact_mod_cast h
      rw [Nat.cast_mul, Nat.cast_sub h1] at h2
      simpa using h2
  by_cases hp : n.Prime
  · obtain ⟨Q, h1, h2, h3⟩ := pqSelfridge_prime bld hstd hp (by omega) hw
    exact ⟨1, Q, h1, Or.inr ⟨rfl, by simpa using h2, conv Q h3⟩⟩
  · obtain ⟨P, Q, h1, h2⟩ := pqSelfridge_total bld hstd hodd hw
    refine ⟨P, Q, h1, h2.imp (fun h => ⟨h.1, h.2, hp⟩) ?_⟩
    rintro ⟨rfl, h3, h4⟩
    exact ⟨rfl, by simpa using h3, conv Q h4⟩

/-- **C08** `p_bruteforce` returns for every odd `n`, without overflow; `P ≥ 3` has `(P²-4 / n) = -1`; the escape value `0` is
never returned for a prime. The parameter satisfies `P ≤ 9` or `P² < n + 4`. -/
theorem C08_p_bruteforce (bld : Build) (w : Width) (hstd : StdWidth w) (n : ℕ) (hodd : n % 2 = 1) (hw : fits w n = true) :
    ∃ P, pBruteforce bld w n = .ok P ∧
      ((P = 0 ∧ ¬ n.Prime) ∨ (3 ≤ P ∧ (P ≤ 9 ∨ P ^ 2 < n + 4) ∧ jacobiSym ((P : ℤ) ^ 2 - 4) n = -1)) := by
  by_cases hp : n.Prime
  · obtain ⟨P, h1, h2, h3, h4⟩ := pBruteforce_prime bld hstd hp (by omega) hw
    exact ⟨P, h1, Or.inr ⟨h2, by rw [sq]; exact h3, h4⟩⟩
  · obtain ⟨P, h1, h2⟩ := pBruteforce_total bld hstd hodd hw
    refine ⟨P, h1, h2.imp (fun h => ⟨h, hp⟩) ?_⟩
    rintro ⟨h2, h3, h4⟩
    exact ⟨h2, by rw [sq]; exact h3, h4⟩

/-- **C08** below `2^123` (Selfridge) and `2^63 - 4` (extra strong) the parameters found by the searches, and the
discriminants computed from them, are inside the 64-bit `isize` and `usize`, so that treating those words as unbounded in the
searches loses nothing -/
theorem C08_search_fits_word (bld : Build) (w : Width) (hstd : StdWidth w) (n : ℕ) (hodd : n % 2 = 1) (hw : fits w n = true) :
    (n < 2 ^ 123 → ∃ P Q, pqSelfridge bld w n = .ok (P, Q) ∧ P ≤ 1 ∧ |Q| < 2 ^ 62 ∧ |(P : ℤ) ^ 2 - 4 * Q| < 2 ^ 63 - 1) ∧
    (n < 2 ^ 63 - 4 → ∃ P, pBruteforce bld w n = .ok P ∧ P ^ 2 < 2 ^ 63) := by
  constructor
  · intro hn
    obtain ⟨P, Q, h1, h2⟩ := C08_pq_selfridge bld w hstd n hodd hw
    refine ⟨P, Q, h1, ?_⟩
    rcases h2 with ⟨rfl, rfl, _⟩ | ⟨rfl, _, h3⟩
    · norm_num
    · have hD : |1 - 4 * Q| < 2 ^ 63 - 1 := by
        rcases h3 with h | h
        · omega
        · by_contra hc
          have h4 : (2 ^ 63 - 1 : ℤ) * (2 ^ 63 - 2) ≤ |1 - 4 * Q| * (|1 - 4 * Q| - 1) :=
            mul_le_mul (by omega) (by omega) (by norm_num) (by omega)
          have h5 : (4 * n : ℤ) < 4 * 2 ^ 123 := by exact_mod_cast (by omega : 4 * n < 4 * 2 ^ 123)
          norm_num at h4 h5
          omega
      refine ⟨le_rfl, ?_, by simpa using hD⟩
      rw [abs_lt] at hD ⊢
      omega
  · intro hn
    obtain ⟨P, h1, h2⟩ := C08_p_bruteforce bld w hstd n hodd hw
    refine ⟨P, h1, ?_⟩
    rcases h2 with ⟨rfl, _⟩ | ⟨_, h3, _⟩
    · norm_num
    · rcases h3 with h | h
      · have := Nat.pow_le_pow_left h 2
        omega
      · omega

example : pqSelfridge .big (some 64) 5777 = .ok (1, -1) := by decide +kernel
example : pqSelfridge .big (some 64) 1194649 = .ok (0, 0) := by decide +kernel
example : pBruteforce .big (some 64) 989 = .ok 4 := by decide +kernel

/-- caller-supplied Lucas parameters for which all machine arithmetic is exact: `p²`, `4 q` and `p² - 4 q` fit into `isize`
(64-bit target), and `p`, `|q|` and `|p² - 4 q|` fit into the integer type -/
def LucasArgs (w : Width) (p : ℕ) (q : ℤ) : Prop :=
  p ^ 2 < 2 ^ 63 ∧ -2 ^ 61 ≤ q ∧ q < 2 ^ 61 ∧ |(p : ℤ) ^ 2 - 4 * q| < 2 ^ 63 ∧
  fits w p = true ∧ fits w q.natAbs = true ∧ fits w ((p : ℤ) ^ 2 - 4 * q).natAbs = true

theorem lucasDisc_ok {w : Width} {p : ℕ} {q : ℤ} (h : LucasArgs w p q) : lucasDisc p q = .ok ((p : ℤ) ^ 2 - 4 * q) := by
  obtain ⟨h1, h2, h3, h4, _⟩ := h
  rw [sq] at h1 h4
  have a : fits (some 64) (p * p) = true := by rw [fits_some]; omega
  have b : (((p * p : ℕ) : ℤ)).bmod (2 ^ 64) = (p : ℤ) * p := by
    rw [Nat.cast_mul]
    have h1' : (p : ℤ) * p < 2 ^ 63 := by exact_mod_cast h1
    have h0 : 0 ≤ (p : ℤ) * p := by positivity
    generalize (p : ℤ) * p = z at *
    rw [Int.bmod_eq_of_le] <;> omega
  rw [abs_lt] at h4
  unfold lucasDisc
  rw [cmul_ok a, Res.bind_ok]
  rw [b, sq]
  generalize (p : ℤ) * p = z at *
  rw [isizeChecked, if_pos (by omega), Res.bind_ok, isizeChecked, if_pos (by omega), Res.bind_ok, if_neg (by omega)]

theorem lucasConv_ok {w : Width} {p : ℕ} {q d : ℤ} (h1 : fits w p = true) (h2 : fits w q.natAbs = true)
    (h3 : fits w d.natAbs = true) : lucasConv w p q d = .ok () := by
  simp [lucasConv, fromWord, h1, h2, h3]

theorem lprpWith_spec {w : Width} {n : ℕ} (hodd : n % 2 = 1) (hw : fits w (n + 1) = true) (p : ℕ) (q : ℤ)
    (hc : lucasConv w p q ((p : ℤ) ^ 2 - 4 * q) = .ok ()) :
    ∃ v, lprpWith w n p q ((p : ℤ) ^ 2 - 4 * q) = .ok v ∧ (v = true ↔ LucasPRP n p q) := by
  simp only [lprpWith, hc, Res.bind_ok, lucasDelta_eq hodd hw, Res.pure_def]
  refine ⟨_, rfl, ?_⟩
  rw [beq_iff_eq, lucasm_U_zero p q (by omega)]
  rfl

theorem isLprp_explicit (bld : Build) {w : Width} {n : ℕ} (hodd : n % 2 = 1) (hw : fits w (n + 1) = true) (p : ℕ) (q : ℤ)
    (ha : LucasArgs w p q) :
    ∃ v, isLprp bld w n (some p) (some q) = .ok v ∧ (v = true ↔ LucasPRP n p q) := by
  have h1 : ¬ n < 1 := by omega
  have h2 : ¬ n % 2 = 0 := by omega
  simp only [isLprp, h1, h2, if_false, lucasParams, Res.bind_ok, Option.isNone_some, Bool.false_eq_true, or_self,
    false_and, Option.isSome_some, Bool.and_self, lucasD, if_true, lucasDisc_ok ha]
  obtain ⟨_, _, _, _, h5, h6, h7⟩ := ha
  exact lprpWith_spec hodd hw p q (lucasConv_ok h5 h6 h7)

/-- a default parameter passes the conversions -/
theorem selfridge_conv {w : Width} (hstd : StdWidth w) {n : ℕ} (hw : fits w n = true) {Q : ℤ}
    (h : SmallDisc n (1 - 4 * Q).natAbs) : lucasConv w 1 Q (((1 : ℕ) : ℤ) ^ 2 - 4 * Q) = .ok () := by
  have hD := h.fits hstd hw
  refine lucasConv_ok (std_fits hstd (by norm_num)) (fits_mono ?_ hD) (by simpa using hD)
  omega

theorem isLprp_none (bld : Build) {w : Width} {n : ℕ} {Q : ℤ} (hodd : n % 2 = 1)
    (h : pqSelfridge bld w n = .ok (1, Q)) :
    isLprp bld w n none none = lprpWith w n 1 Q (((1 : ℕ) : ℤ) ^ 2 - 4 * Q) := by
  have h1 : ¬ n < 1 := by omega
  simp [isLprp, lucasParams, h, h1, hodd, lucasD]

/-- **C09** the verdict of `is_lprp` with explicit parameters is the textbook Lucas probable prime condition -/
theorem C09_is_lprp_iff (bld : Build) (w : Width) (n : ℕ) (hodd : n % 2 = 1) (hw : fits w (n + 1) = true) (p : ℕ) (q : ℤ)
    (ha : LucasArgs w p q) :
    ∃ v, isLprp bld w n (some p) (some q) = .ok v ∧ (v = true ↔ LucasPRP n p q) := isLprp_explicit bld hodd hw p q ha

example : LucasArgs (some 8) 3 (-1) := ⟨by norm_num, by norm_num, by norm_num, by norm_num, rfl, rfl, rfl⟩
example : LucasArgs (some 64) 1000 (-12345) := ⟨by norm_num, by norm_num, by norm_num, by norm_num, rfl, rfl, rfl⟩

theorem lucasPRP_prime {n : ℕ} (hp : n.Prime) (hn2 : n ≠ 2) (p : ℕ) (q : ℤ) (hq : ¬ (n : ℤ) ∣ q) : LucasPRP n p q := by
  have := (lucas_prime p q hp hn2 (by rwa [Ne, ZMod.intCast_zmod_eq_zero_iff_dvd])).1
  rw [ZMod.intCast_zmod_eq_zero_iff_dvd] at this
  exact Int.modEq_zero_iff_dvd.mpr this

/-- **C09** an odd prime passes `is_lprp` for all explicit parameters in range with `n ∤ q` -/
theorem C09_is_lprp_prime_explicit (bld : Build) (w : Width) (n : ℕ) (hp : n.Prime) (hn2 : n ≠ 2)
    (hw : fits w (n + 1) = true) (p : ℕ) (q : ℤ) (ha : LucasArgs w p q) (hq : ¬ (n : ℤ) ∣ q) :
    isLprp bld w n (some p) (some q) = .ok true := by
  have hodd : n % 2 = 1 := hp.eq_two_or_odd.resolve_left hn2
  obtain ⟨v, h1, h2⟩ := isLprp_explicit bld hodd hw p q ha
  rw [h1, h2.mpr (lucasPRP_prime hp hn2 p q hq)]

theorem selfridge_not_dvd {n : ℕ} (hp : n.Prime) {Q : ℤ} (hJ : jacobiSym (1 - 4 * Q) n = -1) : ¬ (n : ℤ) ∣ Q := by
  intro h
  have : (1 - 4 * Q) ≡ 1 [ZMOD n] := by
    rw [Int.modEq_iff_dvd]
    simpa using h.mul_left 4
  have h2 : jacobiSym (1 - 4 * Q) n = jacobiSym 1 n := jacobiSym.mod_left' this
  rw [hJ, jacobiSym.one_left] at h2
  norm_num at h2

/-- **C09** every odd prime passes `is_lprp(None, None)` -/
theorem C09_is_lprp_prime (bld : Build) (w : Width) (hstd : StdWidth w) (n : ℕ) (hp : n.Prime) (hn2 : n ≠ 2)
    (hw : fits w (n + 1) = true) :
    isLprp bld w n none none = .ok true := by
  have hodd : n % 2 = 1 := hp.eq_two_or_odd.resolve_left hn2
  have hwn := fits_mono (Nat.le_succ n) hw
  obtain ⟨Q, h1, h2, h3⟩ := pqSelfridge_prime bld hstd hp hn2 hwn
  rw [isLprp_none bld hodd h1]
  obtain ⟨v, h4, h5⟩ := lprpWith_spec hodd hw 1 Q (selfridge_conv hstd hwn h3)
  rw [h4, h5.mpr (lucasPRP_prime hp hn2 1 Q (selfridge_not_dvd hp h2))]

/-- **C09, finding** a parameter that does not fit into the integer type makes the Lucas tests panic, for every odd number:
for example `is_lprp(Some(256), Some(1))` on `u8` -/
theorem C09_explicit_panics (bld : Build) (b n p : ℕ) (q : ℤ) (hodd : n % 2 = 1) (hp : 2 ^ b ≤ p) :
    isLprp bld (some b) n (some p) (some q) = .panic ∧ isSlprp bld (some b) n (some p) (some q) = .panic ∧
    isEslprp bld (some b) n (some p) = .panic := by
  have h1 : ¬ n < 1 := by omega
  have h2 : ¬ n % 2 = 0 := by omega
  have hf : fits (some b) p = false := by
    rw [Bool.eq_false_iff, Ne, fits_some]; omega
  have hc : ∀ q d, lucasConv (some b) p q d = .panic := by
    intro q d
    unfold lucasConv fromWord
    rw [hf]
    by_cases h : fits (some b) d.natAbs = true <;> simp [h, Res.bind_panic]
  have hd : ∀ q, (∃ d, lucasDisc p q = .ok d) ∨ lucasDisc p q = .panic := by
    intro q
    cases h : lucasDisc p q with
    | ok d => exact Or.inl ⟨d, rfl⟩
    | panic => exact Or.inr rfl
    | timeout =>
      exfalso
      unfold lucasDisc cmul isizeChecked at h
      by_cases c1 : fits (some 64) (p * p) = true
      · rw [if_pos c1, Res.bind_ok] at h
        by_cases c2 : -2 ^ 63 ≤ 4 * q ∧ 4 * q < 2 ^ 63
        · rw [if_pos c2, Res.bind_ok] at h
          by_cases c3 : -2 ^ 63 ≤ ((p * p : ℕ) : ℤ).bmod (2 ^ 64) - 4 * q ∧ ((p * p : ℕ) : ℤ).bmod (2 ^ 64) - 4 * q < 2 ^ 63
          · rw [if_pos c3, Res.bind_ok] at h
            split at h <;> simp at h
          · rw [if_neg c3] at h; simp [Res.bind_panic] at h
        · rw [if_neg c2] at h; simp [Res.bind_panic] at h
      · rw [if_neg c1] at h; simp [Res.bind_panic] at h
  refine ⟨?_, ?_, ?_⟩
  · rcases hd q with ⟨d, h⟩ | h <;>
      simp [isLprp, h1, h2, lucasParams, lucasD, h, lprpWith, hc, Res.bind_panic]
  · rcases hd q with ⟨d, h⟩ | h <;>
      simp [isSlprp, h1, h2, lucasParams, lucasD, h, slprpWith, hc, Res.bind_panic]
  · rcases hd 1 with ⟨d, h⟩ | h <;>
      simp [isEslprp, h1, h2, lucasD, h, eslprpWith, hc, Res.bind_panic]

/-- **C09, finding** the discriminant must fit too: `7u8.is_lprp(Some(17), Some(1))` panics (`17² - 4 > 255`), although 17 fits;
and `p * p` overflows `usize` from `p = 2^32` on, even for `u128` and `BigUint` -/
theorem C09_explicit_discriminant_panics (bld : Build) :
    isLprp bld (some 8) 7 (some 17) (some 1) = .panic ∧ isSlprp bld (some 8) 7 (some 17) (some 1) = .panic ∧
    isEslprp bld (some 8) 7 (some 17) = .panic ∧
    (∀ w n p q, n % 2 = 1 → 2 ^ 32 ≤ p → isLprp bld w n (some p) (some q) = .panic) := by
  refine ⟨by cases bld <;> decide +kernel, by cases bld <;> decide +kernel, by cases bld <;> decide +kernel, ?_⟩
  intro w n p q hodd hp
  have h1 : ¬ n < 1 := by omega
  have h2 : ¬ n % 2 = 0 := by omega
  have hf : ¬ fits (some 64) (p * p) = true := by
    rw [fits_some]
    have := Nat.mul_le_mul hp hp
    norm_num at this ⊢
    omega
  simp [isLprp, h1, h2, lucasParams, lucasD, lucasDisc, cmul, hf, Res.bind_panic]

/-- **C09, finding** the cast `(p * p) as isize` wraps around silently for `p ≥ 3037000500`: with the wrong discriminant the
prime 7 is rejected by all three tests, although it satisfies the Lucas condition for these parameters -/
theorem C09_discriminant_wraps (bld : Build) :
    isLprp bld (some 64) 7 (some 3037000507) (some 1) = .ok false ∧
    isSlprp bld (some 64) 7 (some 3037000507) (some 1) = .ok false ∧
    isEslprp bld (some 64) 7 (some 3037000507) = .ok false ∧ LucasPRP 7 3037000507 1 := by
  refine ⟨by cases bld <;> decide +kernel, by cases bld <;> decide +kernel, by cases bld <;> decide +kernel, lucasPRP_prime (by decide) (by norm_num) 3037000507 1 (by norm_num)⟩

theorem slprpWith_spec {w : Width} {n : ℕ} (hn : 1 < n) (hodd : n % 2 = 1) (hw : fits w (n + 1) = true)
    (p : ℕ) (q : ℤ) (hc : lucasConv w p q ((p : ℤ) ^ 2 - 4 * q) = .ok ()) :
    ∃ v, slprpWith w n p q ((p : ℤ) ^ 2 - 4 * q) = .ok v ∧
      (v = true ↔ (StrongLucasPRP n p q ∨ lucasV p q (lucasIndex n ((p : ℤ) ^ 2 - 4 * q)) ≡ 0 [ZMOD n])) := by
  simp only [slprpWith, hc, Res.bind_ok, lucasDelta_eq hodd hw]
  have hpos := lucasIndex_pos hn ((p : ℤ) ^ 2 - 4 * q)
  obtain ⟨v, h3, h4⟩ := slprpTail_spec hn p q hpos (fits_mono (lucasIndex_le n _) hw)
  refine ⟨v, h3, h4.trans ?_⟩
  rw [strongLucas_iff hn]
  obtain ⟨_, hdec⟩ := tz_decomp hpos
  set e := lucasIndex n ((p : ℤ) ^ 2 - 4 * q)
  constructor
  · rintro (h | ⟨r, hr, h⟩)
    · exact Or.inl (Or.inl h)
    · rcases Nat.lt_or_ge r (tz e) with h5 | h5
      · exact Or.inl (Or.inr ⟨r, h5, h⟩)
      · have : r = tz e := by omega
        subst this
        rw [← hdec] at h
        exact Or.inr h
  · rintro ((h | ⟨r, hr, h⟩) | h)
    · exact Or.inl h
    · exact Or.inr ⟨r, hr.le, h⟩
    · rw [hdec] at h; exact Or.inr ⟨_, le_rfl, h⟩

theorem isSlprp_explicit (bld : Build) {w : Width} {n : ℕ} (hn : 1 < n) (hodd : n % 2 = 1) (hw : fits w (n + 1) = true)
    (p : ℕ) (q : ℤ) (ha : LucasArgs w p q) :
    ∃ v, isSlprp bld w n (some p) (some q) = .ok v ∧
      (v = true ↔ (StrongLucasPRP n p q ∨ lucasV p q (lucasIndex n ((p : ℤ) ^ 2 - 4 * q)) ≡ 0 [ZMOD n])) := by
  have h1 : ¬ n < 1 := by omega
  have h2 : ¬ n % 2 = 0 := by omega
  simp only [isSlprp, h1, h2, if_false, lucasParams, Res.bind_ok, Option.isNone_some, Bool.false_eq_true, or_self,
    false_and, Option.isSome_some, Bool.and_self, lucasD, if_true, lucasDisc_ok ha]
  obtain ⟨_, _, _, _, h5, h6, h7⟩ := ha
  exact slprpWith_spec hn hodd hw p q (lucasConv_ok h5 h6 h7)

theorem isSlprp_none (bld : Build) {w : Width} {n : ℕ} {Q : ℤ} (hodd : n % 2 = 1)
    (h : pqSelfridge bld w n = .ok (1, Q)) :
    isSlprp bld w n none none = slprpWith w n 1 Q (((1 : ℕ) : ℤ) ^ 2 - 4 * Q) := by
  have h1 : ¬ n < 1 := by omega
  simp [isSlprp, lucasParams, h, h1, hodd, lucasD]

/-- the verdict of `is_slprp(None, None)` -/
theorem isSlprp_none_spec (bld : Build) {w : Width} (hstd : StdWidth w) {n : ℕ} (hodd : n % 2 = 1) (hw : fits w (n + 1) = true) :
    ∃ P Q v, pqSelfridge bld w n = .ok (P, Q) ∧ isSlprp bld w n none none = .ok v ∧
      ((P = 0 ∧ ¬ n.Prime ∧ v = false) ∨ (P = 1 ∧ jacobiSym (1 - 4 * Q) n = -1 ∧
        (v = true ↔ (StrongLucasPRP n 1 Q ∨ lucasV 1 Q (n + 1) ≡ 0 [ZMOD n])))) := by
  have hwn := fits_mono (Nat.le_succ n) hw
  obtain ⟨P, Q, h1, h2⟩ := pqSelfridge_total bld hstd hodd hwn
  refine ⟨P, Q, ?_⟩
  rcases h2 with ⟨rfl, rfl⟩ | ⟨rfl, h2, h3⟩
  · refine ⟨false, h1, ?_, Or.inl ⟨rfl, ?_, rfl⟩⟩
    · have h4 : ¬ n < 1 := by omega
      have h5 : ¬ n % 2 = 0 := by omega
      simp [isSlprp, lucasParams, h1, h4, h5]
    · intro hp
      obtain ⟨Q', h4, _⟩ := pqSelfridge_prime bld hstd hp (by omega) hwn
      rw [h1] at h4; simp at h4
  · have hn : n ≠ 1 := by rintro rfl; simp at h2
    obtain ⟨v, h4, h5⟩ := slprpWith_spec (by omega) hodd hw 1 Q (selfridge_conv hstd hwn h3)
    rw [← isSlprp_none bld hodd h1] at h4
    rw [lucasIndex_eq_neg (by simpa using h2)] at h5
    exact ⟨v, h1, h4, Or.inr ⟨rfl, h2, by simpa using h5⟩⟩

/-- **C11** with explicit parameters and `gcd(n, q) = 1`, `is_slprp` decides exactly the textbook strong Lucas
condition (the one extra iteration in the code never changes the verdict) -/
theorem C11_is_slprp_iff (bld : Build) (w : Width) (n : ℕ) (hn : 3 ≤ n) (hodd : n % 2 = 1) (hw : fits w (n + 1) = true)
    (p : ℕ) (q : ℤ) (ha : LucasArgs w p q) (hq : Int.gcd q n = 1) :
    ∃ v, isSlprp bld w n (some p) (some q) = .ok v ∧ (v = true ↔ StrongLucasPRP n p q) := by
  obtain ⟨v, h1, h2⟩ := isSlprp_explicit bld (by omega) hodd hw p q ha
  refine ⟨v, h1, h2.trans ?_⟩
  have := lucasV_index_ne_zero (p : ℤ) q (by omega : 1 < n) hodd hq
  tauto

theorem strongLucas_prime {n : ℕ} (hp : n.Prime) (hn2 : n ≠ 2) (p : ℕ) (q : ℤ) (hq : ¬ (n : ℤ) ∣ q) :
    StrongLucasPRP n p q := by
  have hn : 1 < n := hp.one_lt
  haveI : Fact n.Prime := ⟨hp⟩
  have hU := (lucas_prime p q hp hn2 (by rwa [Ne, ZMod.intCast_zmod_eq_zero_iff_dvd])).1
  have hpos := lucasIndex_pos hn ((p : ℤ) ^ 2 - 4 * q)
  obtain ⟨h1, hdec⟩ := tz_decomp hpos
  refine ⟨_, _, h1, hdec, ?_⟩
  rw [hdec] at hU
  have := lucasU_descent p q _ _ hU
  simpa only [ZMod.intCast_zmod_eq_zero_iff_dvd, ← Int.modEq_zero_iff_dvd] using this

/-- **C10** an odd prime passes `is_slprp` for all explicit parameters in range with `n ∤ q` -/
theorem C10_is_slprp_prime_explicit (bld : Build) (w : Width) (n : ℕ) (hp : n.Prime) (hn2 : n ≠ 2)
    (hw : fits w (n + 1) = true) (p : ℕ) (q : ℤ) (ha : LucasArgs w p q) (hq : ¬ (n : ℤ) ∣ q) :
    isSlprp bld w n (some p) (some q) = .ok true := by
  have hodd : n % 2 = 1 := hp.eq_two_or_odd.resolve_left hn2
  obtain ⟨v, h1, h2⟩ := isSlprp_explicit bld hp.one_lt hodd hw p q ha
  rw [h1, h2.mpr (Or.inl (strongLucas_prime hp hn2 p q hq))]

/-- **C10** every odd prime passes `is_slprp(None, None)` -/
theorem C10_is_slprp_prime (bld : Build) (w : Width) (hstd : StdWidth w) (n : ℕ) (hp : n.Prime) (hn2 : n ≠ 2)
    (hw : fits w (n + 1) = true) :
    isSlprp bld w n none none = .ok true := by
  have hodd : n % 2 = 1 := hp.eq_two_or_odd.resolve_left hn2
  obtain ⟨P, Q, v, _, h2, h3⟩ := isSlprp_none_spec bld hstd hodd hw
  rcases h3 with ⟨_, h, _⟩ | ⟨_, h4, h5⟩
  · exact absurd hp h
  · rw [h2, h5.mpr (Or.inl (strongLucas_prime hp hn2 1 Q (selfridge_not_dvd hp h4)))]

example : isSlprp .big (some 64) 5459 none none = .ok true := by decide +kernel -- smallest strong Lucas pseudoprime, 53 * 103
example : isSlprp .big (some 64) 5461 none none = .ok false := by decide +kernel
example : isLprp .big (some 64) 323 none none = .ok true := by decide +kernel -- 17 * 19
example : isSlprp .big (some 64) 323 none none = .ok false := by decide +kernel
example : isLprp .big (some 64) 1000003 none none = .ok true := by decide +kernel

theorem eslprpWith_spec {w : Width} {n : ℕ} (hn : 3 ≤ n) (hodd : n % 2 = 1) (hw : fits w (n + 1) = true)
    (p : ℕ) (hc : lucasConv w p 1 ((p : ℤ) ^ 2 - 4) = .ok ()) (hJ : jacobiSym ((p : ℤ) ^ 2 - 4) n ≠ 0) :
    ∃ v, eslprpWith w n p ((p : ℤ) ^ 2 - 4) = .ok v ∧ (v = true ↔ ExtraStrongLucasPRP n p) := by
  simp only [eslprpWith, hc, Res.bind_ok, lucasDelta_eq hodd hw]
  have hpos := lucasIndex_pos (by omega : 1 < n) ((p : ℤ) ^ 2 - 4)
  obtain ⟨hd1, hdec⟩ := tz_decomp hpos
  have hs : 1 ≤ tz (lucasIndex n ((p : ℤ) ^ 2 - 4)) := by
    by_contra h
    have h0 : tz (lucasIndex n ((p : ℤ) ^ 2 - 4)) = 0 := by omega
    rw [h0, Nat.shiftRight_zero] at hd1
    rcases jacobi_trichotomy ((p : ℤ) ^ 2 - 4) n with h | h | h
    · exact hJ h
    · rw [lucasIndex_eq_pos h] at hd1; omega
    · rw [lucasIndex_eq_neg h] at hd1; omega
  obtain ⟨v, h3, h4⟩ := eslprpTail_spec (w := w) (by omega : 2 < n) p hpos (fits_mono (lucasIndex_le n _) hw) hs
  refine ⟨v, h3, h4.trans ?_⟩
  constructor
  · rintro (h | ⟨r, _, h⟩)
    · exact ⟨_, _, hd1, hdec, Or.inl h⟩
    · have := lucasV_one_index (p : ℤ) (by omega : 1 < n) hodd hd1 hdec h
      exact ⟨_, _, hd1, hdec, Or.inr ⟨r, by omega, h⟩⟩
  · rintro ⟨s, d, hd, he, h⟩
    obtain ⟨a, b⟩ := odd_decomp_unique hd hd1 (he.symm.trans hdec)
    rw [← b, ← a]
    rcases h with h | ⟨r, hr, h⟩
    · exact Or.inl h
    · exact Or.inr ⟨r, Or.inr hr, h⟩

theorem isEslprp_explicit (bld : Build) {w : Width} {n : ℕ} (hn : 3 ≤ n) (hodd : n % 2 = 1) (hw : fits w (n + 1) = true)
    (p : ℕ) (ha : LucasArgs w p 1) (hJ : jacobiSym ((p : ℤ) ^ 2 - 4) n ≠ 0) :
    ∃ v, isEslprp bld w n (some p) = .ok v ∧ (v = true ↔ ExtraStrongLucasPRP n p) := by
  have h1 : ¬ n < 1 := by omega
  have h2 : ¬ n % 2 = 0 := by omega
  have hd := lucasDisc_ok ha
  obtain ⟨_, _, _, _, h5, h6, h7⟩ := ha
  rw [mul_one] at hd h7
  simp only [isEslprp, h1, h2, if_false, Res.bind_ok, Option.isNone_some, Bool.false_eq_true, false_and, Option.isSome_some,
    lucasD, if_true, hd, Res.pure_def]
  exact eslprpWith_spec hn hodd hw p (lucasConv_ok h5 h6 h7) hJ

theorem extraStrong_prime {n : ℕ} (hp : n.Prime) (hn2 : n ≠ 2) (p : ℤ) (hJ : jacobiSym (p ^ 2 - 4) n ≠ 0) :
    ExtraStrongLucasPRP n p := by
  haveI : Fact n.Prime := ⟨hp⟩
  have hodd : n % 2 = 1 := hp.eq_two_or_odd.resolve_left hn2
  have h2ne := two_ne_zero_zmod hodd hp.one_lt
  obtain ⟨hU, hVp, hVm⟩ := lucas_prime p 1 hp hn2 (by simp)
  rw [mul_one] at hU hVp hVm
  have hpos := lucasIndex_pos hp.one_lt (p ^ 2 - 4)
  obtain ⟨hd1, hdec⟩ := tz_decomp hpos
  set e := lucasIndex n (p ^ 2 - 4) with he
  have hVe : (lucasV p 1 e : ZMod n) = 2 := by
    rcases jacobi_trichotomy (p ^ 2 - 4) n with h | h | h
    · exact absurd h hJ
    · rw [he, lucasIndex_eq_pos h]; exact hVp h
    · rw [he, lucasIndex_eq_neg h]; simpa using hVm h
  have hs : 1 ≤ tz e := by
    by_contra h
    have h0 : tz e = 0 := by omega
    rw [h0, Nat.shiftRight_zero, he] at hd1
    rcases jacobi_trichotomy (p ^ 2 - 4) n with h | h | h
    · exact hJ h
    · rw [lucasIndex_eq_pos h] at hd1; omega
    · rw [lucasIndex_eq_neg h] at hd1; omega
  set d := e >>> tz e with hdd
  have hD : ((p : ZMod n) ^ 2 - 4) ≠ 0 := by
    intro h
    apply hJ
    rw [← jac_of_prime, legendreSym.eq_zero_iff]
    push_cast; exact h
  -- half way
  have hhalf : e = 2 * (d * 2 ^ (tz e - 1)) := by
    have : tz e = tz e - 1 + 1 := by omega
    conv_lhs => rw [hdec, this, pow_succ]
    ring
  have v2 := congrArg (Int.cast : ℤ → ZMod n) (lucasV_two_mul p 1 (d * 2 ^ (tz e - 1)))
  have nm := congrArg (Int.cast : ℤ → ZMod n) (lucas_norm p 1 (d * 2 ^ (tz e - 1)))
  rw [← hhalf, hVe] at v2
  push_cast at v2 nm
  have hUh : (lucasU p 1 (d * 2 ^ (tz e - 1)) : ZMod n) = 0 := by
    have : ((p : ZMod n) ^ 2 - 4) * (lucasU p 1 (d * 2 ^ (tz e - 1)) : ZMod n) ^ 2 = 0 := by
      simp only [one_pow, mul_one] at v2 nm
      linear_combination -nm - v2
    rcases mul_eq_zero.mp this with h | h
    · exact absurd h hD
    · exact pow_eq_zero_iff (by norm_num) |>.mp h
  refine ⟨tz e, d, hd1, hdec, ?_⟩
  rcases lucasU_descent p 1 d (tz e - 1) hUh with h | ⟨r, hr, h⟩
  · left
    refine ⟨by rwa [ZMod.intCast_zmod_eq_zero_iff_dvd, ← Int.modEq_zero_iff_dvd] at h, ?_⟩
    have nm := congrArg (Int.cast : ℤ → ZMod n) (lucas_norm p 1 d)
    push_cast at nm
    rw [h] at nm
    have : ((lucasV p 1 d : ZMod n) - 2) * ((lucasV p 1 d : ZMod n) + 2) = 0 := by
      simp only [one_pow, mul_one] at nm
      linear_combination nm
    rcases mul_eq_zero.mp this with h | h
    · left
      have h' : ((lucasV p 1 d : ℤ) : ZMod n) = ((2 : ℤ) : ZMod n) := by push_cast; linear_combination h
      exact (ZMod.intCast_eq_intCast_iff _ _ _).mp h'
    · right
      have h' : ((lucasV p 1 d : ℤ) : ZMod n) = ((-2 : ℤ) : ZMod n) := by push_cast; linear_combination h
      exact (ZMod.intCast_eq_intCast_iff _ _ _).mp h'
  · right
    exact ⟨r, hr, by rwa [ZMod.intCast_zmod_eq_zero_iff_dvd, ← Int.modEq_zero_iff_dvd] at h⟩

theorem isEslprp_none (bld : Build) {w : Width} {n : ℕ} {P : ℕ} (hP : P ≠ 0) (hodd : n % 2 = 1)
    (h : pBruteforce bld w n = .ok P) :
    isEslprp bld w n none = eslprpWith w n P ((P : ℤ) ^ 2 - 4) := by
  have h1 : ¬ n < 1 := by omega
  simp [isEslprp, h, h1, hodd, hP, lucasD, sq]

/-- a default parameter passes the conversions -/
theorem bruteforce_conv {w : Width} (hstd : StdWidth w) {n : ℕ} (hw : fits w n = true) {P : ℕ} (h3 : 3 ≤ P)
    (h : SmallParam n P) : lucasConv w P 1 ((P : ℤ) ^ 2 - 4) = .ok () := by
  have hD := h.fits hstd hw
  have h9 : 3 * P ≤ P * P := Nat.mul_le_mul_right _ h3
  refine lucasConv_ok (fits_mono ?_ hD) (std_fits hstd (by norm_num)) (fits_mono (le_of_eq ?_) hD)
  · omega
  · have : (P : ℤ) ^ 2 - 4 = ((P * P - 4 : ℕ) : ℤ) := by
      rw [Nat.cast_sub (by omega)]; push_cast; ring
    rw [this, Int.natAbs_natCast]

/-- the verdict of `is_eslprp(None)` -/
theorem isEslprp_none_spec (bld : Build) {w : Width} (hstd : StdWidth w) {n : ℕ} (hodd : n % 2 = 1) (hw : fits w (n + 1) = true) :
    ∃ P v, pBruteforce bld w n = .ok P ∧ isEslprp bld w n none = .ok v ∧
      ((P = 0 ∧ ¬ n.Prime ∧ v = false) ∨ (3 ≤ P ∧ jacobiSym ((P : ℤ) ^ 2 - 4) n = -1 ∧
        (v = true ↔ ExtraStrongLucasPRP n P))) := by
  have hwn := fits_mono (Nat.le_succ n) hw
  obtain ⟨P, h1, h2⟩ := pBruteforce_total bld hstd hodd hwn
  refine ⟨P, ?_⟩
  rcases h2 with rfl | ⟨h2, h3, h4⟩
  · refine ⟨false, h1, ?_, Or.inl ⟨rfl, ?_, rfl⟩⟩
    · have h4 : ¬ n < 1 := by omega
      have h5 : ¬ n % 2 = 0 := by omega
      simp [isEslprp, h1, h4, h5]
    · intro hp
      obtain ⟨Q', h4, h5, _⟩ := pBruteforce_prime bld hstd hp (by omega) hwn
      rw [h1] at h4
      injection h4 with h4
      omega
  · have hn : n ≠ 1 := by rintro rfl; simp at h4
    obtain ⟨v, h5, h6⟩ := eslprpWith_spec (by omega) hodd hw P (bruteforce_conv hstd hwn h2 h3) (by rw [h4]; norm_num)
    rw [← isEslprp_none bld (by omega) hodd h1] at h5
    exact ⟨v, h1, h5, Or.inr ⟨h2, h4, h6⟩⟩

/-- **C12** every odd prime passes `is_eslprp(None)` -/
theorem C12_is_eslprp_prime (bld : Build) (w : Width) (hstd : StdWidth w) (n : ℕ) (hp : n.Prime) (hn2 : n ≠ 2)
    (hw : fits w (n + 1) = true) :
    isEslprp bld w n none = .ok true := by
  have hodd : n % 2 = 1 := hp.eq_two_or_odd.resolve_left hn2
  obtain ⟨P, v, _, h2, h3⟩ := isEslprp_none_spec bld hstd hodd hw
  rcases h3 with ⟨_, h, _⟩ | ⟨_, h4, h5⟩
  · exact absurd hp h
  · rw [h2, h5.mpr (extraStrong_prime hp hn2 P (by rw [h4]; norm_num))]

/-- **C12** every odd prime passes `is_eslprp(Some(p))` for every `p` in range with `n ∤ p² - 4` -/
theorem C12_is_eslprp_prime_explicit (bld : Build) (w : Width) (n : ℕ) (hp : n.Prime) (hn2 : n ≠ 2)
    (hw : fits w (n + 1) = true) (p : ℕ) (ha : LucasArgs w p 1) (hp4 : ¬ (n : ℤ) ∣ (p : ℤ) ^ 2 - 4) :
    isEslprp bld w n (some p) = .ok true := by
  have hodd : n % 2 = 1 := hp.eq_two_or_odd.resolve_left hn2
  haveI : Fact n.Prime := ⟨hp⟩
  have hJ : jacobiSym ((p : ℤ) ^ 2 - 4) n ≠ 0 := by
    rw [← jac_of_prime, Ne, legendreSym.eq_zero_iff, ZMod.intCast_zmod_eq_zero_iff_dvd]; exact hp4
  have h2 := hp.two_le
  obtain ⟨v, h4, h5⟩ := isEslprp_explicit bld (by omega) hodd hw p ha hJ
  rw [h4, h5.mpr (extraStrong_prime hp hn2 p hJ)]

/-- **C13 (partial)** `is_eslprp(Some(p))` returns whenever the parameter is in range and the Jacobi symbol of `p² - 4` is
not 0. Missing: parameters out of range, which panic (`C09_explicit_panics`), and the case of symbol 0, where the statement is false, see `C13_is_eslprp_panics`. -/
theorem C13_is_eslprp_returns_partial (bld : Build) (w : Width) (n : ℕ) (hn : 3 ≤ n) (hodd : n % 2 = 1)
    (hw : fits w (n + 1) = true) (p : ℕ) (ha : LucasArgs w p 1) (hJ : jacobiSym ((p : ℤ) ^ 2 - 4) n ≠ 0) :
    ∃ v, isEslprp bld w n (some p) = .ok v := by
  obtain ⟨v, h, _⟩ := isEslprp_explicit bld hn hodd hw p ha hJ
  exact ⟨v, h⟩

/-- **C13, finding** `15.is_eslprp(Some(3))` panics (`usize` underflow in `shift - 1`) -/
theorem C13_is_eslprp_panics (bld : Build) : isEslprp bld (some 64) 15 (some 3) = .panic := by
  cases bld <;> decide +kernel

/-- **C13** the remaining case, symbol 0: there `n - (D/n) = n` is odd; the call answers `true` if `U_n ≡ 0` and `V_n ≡ ±2`, or
`V_n ≡ 0`, modulo `n`, and panics otherwise. With `C13_is_eslprp_returns_partial` this says exactly when the call panics. -/
theorem C13_is_eslprp_symbol_zero (bld : Build) (w : Width) (n : ℕ) (hn : 3 ≤ n) (hodd : n % 2 = 1)
    (hw : fits w n = true) (p : ℕ) (ha : LucasArgs w p 1) (hJ : jacobiSym ((p : ℤ) ^ 2 - 4) n = 0) :
    (((lucasU p 1 n ≡ 0 [ZMOD n] ∧ (lucasV p 1 n ≡ 2 [ZMOD n] ∨ lucasV p 1 n ≡ -2 [ZMOD n])) ∨ lucasV p 1 n ≡ 0 [ZMOD n]) →
      isEslprp bld w n (some p) = .ok true) ∧
    (¬ ((lucasU p 1 n ≡ 0 [ZMOD n] ∧ (lucasV p 1 n ≡ 2 [ZMOD n] ∨ lucasV p 1 n ≡ -2 [ZMOD n])) ∨ lucasV p 1 n ≡ 0 [ZMOD n]) →
      isEslprp bld w n (some p) = .panic) := by
  have h1 : ¬ n < 1 := by omega
  have h2 : ¬ n % 2 = 0 := by omega
  have hd := lucasDisc_ok ha
  obtain ⟨_, _, _, _, h5, h6, h7⟩ := ha
  rw [mul_one] at hd h7
  have hn0 : 0 < n := by omega
  have htz : tz n = 0 := by
    rw [tz]
    cases h : n.log2 with
    | zero => rfl
    | succ k => simp [tzAux, hodd]
  obtain ⟨e1, e2⟩ := shift_ok hn0 hw
  rw [htz] at e1 e2
  rw [Nat.shiftRight_zero] at e2
  have heq : isEslprp bld w n (some p) = eslprpTail w n p n := by
    simp only [isEslprp, h1, h2, if_false, Res.bind_ok, Option.isNone_some, Bool.false_eq_true, false_and, Option.isSome_some,
      lucasD, if_true, hd, Res.pure_def, eslprpWith, lucasConv_ok h5 h6 h7, lucasDelta_eq' hodd _ (by rw [hJ]; norm_num : jacobiSym ((p : ℤ) ^ 2 - 4) n ≠ -1),
      lucasIndex_eq_zero_case hJ]
  obtain ⟨_, cV, _, lV⟩ := lucasm_cast p 1 hn0 n
  have zU := lucasm_U_zero p 1 hn0 n
  have zV := lucasm_V_zero p 1 hn0 n
  have eV := cast_lt_eq_emod cV lV
  have z2 : (lucasm p 1 n n).2 = 2 ↔ lucasV p 1 n ≡ 2 [ZMOD n] := by
    rw [Int.ModEq, ← eV, Int.emod_eq_of_lt (by norm_num) (by exact_mod_cast hn)]; omega
  have zm2 : (lucasm p 1 n n).2 = n - 2 ↔ lucasV p 1 n ≡ -2 [ZMOD n] := by
    have : (-2 : ℤ) % n = n - 2 := by
      rw [← Int.add_emod_right, Int.emod_eq_of_lt] <;> omega
    rw [Int.ModEq, ← eV, this]; omega
  have hc : csub n 2 = .ok (n - 2) := by simp [csub]; omega
  have hs1 : csub 0 1 = .panic := rfl
  rw [heq, ← zU, ← zV, ← z2, ← zm2]
  simp only [eslprpTail, e1, e2, Res.bind_ok, Res.pure_def, hc, hs1, Res.mapR]
  generalize (lucasm p 1 n n).1 = U
  generalize (lucasm p 1 n n).2 = V
  by_cases d : V = 0
  · refine ⟨fun _ => ?_, fun h => absurd (Or.inr d) h⟩
    by_cases a : U = 0
    · by_cases b : V = 2
      · omega
      · have c : ¬ V = n - 2 := by omega
        have c' : ¬ n - 2 = 0 := by omega
        simp [a, d, Ne.symm c']
    · simp [a, d]
  · by_cases a : U = 0
    · by_cases b : V = 2
      · simp [a, b]
      · by_cases c : V = n - 2
        · have b' : ¬ n - 2 = 2 := by omega
          simp [a, b', c]
        · simp [a, b, c, d]
    · simp [a, d]

-- both cases occur: symbol 0 with the verdict `true`, and with a panic
example : isEslprp .big (some 64) 15 (some 3) = .panic ∧ isEslprp .big (some 64) 15 (some 2) = .ok true := by decide +kernel

/-- **C13** with no parameter given, `is_eslprp(None)` returns a verdict for every odd `n` -/
theorem C13_is_eslprp_none_returns (bld : Build) (w : Width) (hstd : StdWidth w) (n : ℕ) (hodd : n % 2 = 1)
    (hw : fits w (n + 1) = true) :
    ∃ v, isEslprp bld w n none = .ok v := by
  obtain ⟨_, v, _, h, _⟩ := isEslprp_none_spec bld hstd hodd hw
  exact ⟨v, h⟩

/-- **C70** with an explicit parameter whose Jacobi symbol is not 0, `is_eslprp` decides exactly the textbook extra
strong Lucas condition (the extra test of `V_d` in the code never changes the verdict) -/
theorem C70_is_eslprp_iff (bld : Build) (w : Width) (n : ℕ) (hn : 3 ≤ n) (hodd : n % 2 = 1)
    (hw : fits w (n + 1) = true) (p : ℕ) (ha : LucasArgs w p 1) (hJ : jacobiSym ((p : ℤ) ^ 2 - 4) n ≠ 0) :
    ∃ v, isEslprp bld w n (some p) = .ok v ∧ (v = true ↔ ExtraStrongLucasPRP n p) :=
  isEslprp_explicit bld hn hodd hw p ha hJ

/-- **C70** with the parameter chosen automatically: when the search finds a parameter, the verdict is the textbook condition
for it; otherwise `n` is composite and the verdict is `false` -/
theorem C70_is_eslprp_none_iff (bld : Build) (w : Width) (hstd : StdWidth w) (n : ℕ) (hodd : n % 2 = 1)
    (hw : fits w (n + 1) = true) :
    ∃ P v, pBruteforce bld w n = .ok P ∧ isEslprp bld w n none = .ok v ∧
      ((P = 0 ∧ ¬ n.Prime ∧ v = false) ∨ (3 ≤ P ∧ jacobiSym ((P : ℤ) ^ 2 - 4) n = -1 ∧
        (v = true ↔ ExtraStrongLucasPRP n P))) := isEslprp_none_spec bld hstd hodd hw

example : isEslprp .big (some 64) 989 none = .ok true := by decide +kernel -- smallest extra strong Lucas pseudoprime, 23 * 43
example : isEslprp .big (some 64) 991 none = .ok true := by decide +kernel
example : isEslprp .big (some 64) 993 none = .ok false := by decide +kernel

end NumPrime
