import Verif.Props.Factors
import Verif.Model.Moebius
import Mathlib.NumberTheory.ArithmeticFunction.Moebius

/-! # C51, C52: `moebius` and `is_square_free`

`ArithmeticFunction.moebius` is Mathlib's Möbius function. -/

namespace NumPrime
open Spec Tables

theorem reachable_new (bld : Build) : Reachable bld exampleEstimates 0 0 (Buf.new bld) := ⟨[], rfl⟩

/-- the value computed from a prime factorization -/
theorem moebiusFactorized_eq {m : List (ℕ × ℕ)} {n : ℕ} (hn : 1 ≤ n) (h : IsFactorization m n) :
    moebiusFactorized m = ArithmeticFunction.moebius n := by
  obtain ⟨hs, hm⟩ := h
  unfold moebiusFactorized
  by_cases h1 : m.any (fun x => x.2 > 1) = true
  · rw [if_pos h1]
    simp only [List.any_eq_true, decide_eq_true_eq] at h1
    obtain ⟨⟨p, e⟩, hx, he⟩ := h1
    obtain ⟨hp, hd, rfl⟩ := (hm p e).mp hx
    rw [ArithmeticFunction.moebius_eq_zero_of_not_squarefree]
    rw [Nat.squarefree_iff_factorization_le_one (by omega)]
    intro hc
    have := hc p
    simp only at he
    omega
  · rw [if_neg h1]
    simp only [List.any_eq_true, decide_eq_true_eq, not_exists, not_and] at h1
    have hsq : Squarefree n := by
      rw [Nat.squarefree_iff_factorization_le_one (by omega)]
      intro p
      by_contra hc
      have hpp : p.Prime := by
        by_contra hnp
        rw [Nat.factorization_eq_zero_of_not_prime _ hnp] at hc; omega
      have hd : p ∣ n := Nat.dvd_of_factorization_pos (by omega)
      have := h1 (p, n.factorization p) ((hm _ _).mpr ⟨hpp, hd, rfl⟩)
      simp only at this
      omega
    rw [ArithmeticFunction.moebius_apply_of_squarefree hsq,
      ← (ArithmeticFunction.cardDistinctFactors_eq_cardFactors_iff_squarefree (by omega)).mpr hsq]
    have hlen : ArithmeticFunction.cardDistinctFactors n = m.length := by
      have h2 : (m.map Prod.fst).toFinset = n.primeFactors := by
        ext p
        simp only [List.mem_toFinset, List.mem_map, Prod.exists, exists_and_right, exists_eq_right, Nat.mem_primeFactors]
        constructor
        · rintro ⟨e, he⟩
          obtain ⟨a, b, -⟩ := (hm _ _).mp he
          exact ⟨a, b, by omega⟩
        · rintro ⟨a, b, -⟩
          exact ⟨_, (hm p _).mpr ⟨a, b, rfl⟩⟩
      have h3 : (m.map Prod.fst).Nodup := hs.imp (fun h => h.ne)
      rw [ArithmeticFunction.cardDistinctFactors_apply, ← List.card_toFinset, Nat.toFinset_factors, ← h2,
        List.toFinset_card_of_nodup h3, List.length_map]
    rw [hlen]
    split
    · rename_i he
      rw [Even.neg_one_pow (Nat.even_iff.mpr he)]
    · rename_i he
      rw [Odd.neg_one_pow (Nat.odd_iff.mpr (by omega))]

/-- **C51** `moebius_factorized` of the prime factorization of `n` is `μ(n)` -/
theorem C51_moebius_factorized (m : List (ℕ × ℕ)) (n : ℕ) (hn : 1 ≤ n) (h : IsFactorization m n) :
    moebiusFactorized m = ArithmeticFunction.moebius n := moebiusFactorized_eq hn h

/-- the lookup agrees with a factorization by trial division -/
def lookupCheck (v : ℕ) : Bool :=
  match trialDivision none [2, 3, 5, 7, 11, 13, 17, 19] (v + 1) none with
  | .ok (m, .ok r) => moebiusFactorized (if r = 1 then m else mapInsert m r 1) = moebiusLookup v
  | _ => false

theorem lookupCheck_all : ∀ v < 256, v % 2 = 0 → lookupCheck v = true := by decide +kernel

theorem primesBelow_20 : primesBelow 20 = [2, 3, 5, 7, 11, 13, 17, 19] := by decide +kernel

/-- the lookup table holds the values of the Möbius function -/
theorem moebiusLookup_eq {v : ℕ} (hv : v < 256) (h2 : v % 2 = 0) : moebiusLookup v = ArithmeticFunction.moebius (v + 1) := by
  have h := lookupCheck_all v hv h2
  unfold lookupCheck at h
  rw [← primesBelow_20] at h
  split at h
  · rename_i m r hr
    simp only [decide_eq_true_eq] at h
    rw [← h]
    refine moebiusFactorized_eq (by omega) ?_
    rcases C38_trial_division_ok none 20 (v + 1) none m r (by omega) hr with ⟨h1, h2⟩ | ⟨h1, -, h3⟩
    · rw [if_pos h1]; exact h2
    · rw [if_neg h1.ne_one]; exact h3
  · simp at h

/-- the keys of `moebius`' factorization are above 1 -/
theorem PassesTest.one_lt {bld : Build} {w : Width} {list : List ℕ} {rng : Rng} {config : Option FactorizationConfig} {n p : ℕ}
    (h : PassesTest bld w list rng config n p) : 1 < p := by
  by_contra hc
  have hp : p = 0 ∨ p = 1 := by omega
  have h64 : isPrime64 bld p = false := by rcases hp with rfl | rfl <;> cases bld <;> decide +kernel
  rcases Nat.lt_or_ge n (2 ^ 128) with h1 | h1
  · have := (accepted128_below (bld := bld) (show p < 2 ^ 64 by omega)).mp (h.1 h1)
    rw [h64] at this; simp at this
  · rcases h.2 h1 with h2 | ⟨j, v, hv, hv2⟩
    · have := h2.two_le; omega
    · rw [isPrime_below bld w list (show p < 2 ^ 64 by omega), h64] at hv
      simp only [Res.ok.injEq] at hv
      rw [← hv] at hv2
      simp [Primality.probably] at hv2

theorem moebiusOddPart_eq {bld : Build} {w : Width} {rng : Rng} {fuel attempts k n : ℕ} (hn : n % 2 = 1)
    (hex : ∀ p, p ∣ n → PassesTest bld w (Buf.new bld).iter rng none n p → p.Prime) {r : ℤ}
    (h : moebiusOddPart bld w rng fuel attempts k n = .ok r) : r = ArithmeticFunction.moebius n := by
  have h1 : 1 ≤ n := by omega
  simp only [moebiusOddPart, csub_ok h1, Res.bind_ok] at h
  by_cases h2 : n - 1 < 2 ^ 8
  · simp only [h2, if_true, Res.pure_def, Res.ok.injEq] at h
    rw [← h, moebiusLookup_eq (by omega) (by omega), show n - 1 + 1 = n by omega]
  · simp only [h2, if_false] at h
    have hsq : ∀ d, 1 < d → n % (d * d) = 0 → ArithmeticFunction.moebius n = 0 := by
      intro d hd hd2
      refine ArithmeticFunction.moebius_eq_zero_of_not_squarefree (fun hc => ?_)
      have := hc d (Nat.dvd_of_mod_eq_zero hd2)
      rw [Nat.isUnit_iff] at this; omega
    split at h
    · rename_i h3
      simp only [Res.pure_def, Res.ok.injEq] at h
      rw [← h]
      rcases h3 with h3 | h3 | h3
      · exact (hsq 3 (by norm_num) h3).symm
      · exact (hsq 5 (by norm_num) h3).symm
      · exact (hsq 7 (by norm_num) h3).symm
    · simp only [Res.bind_eq_ok] at h
      obtain ⟨⟨f, k1⟩, h4, h5⟩ := h
      simp only [Res.pure_def, Res.ok.injEq] at h5
      rw [← h5]
      exact moebiusFactorized_eq h1
        (C48_factorize_exact bld exampleEstimates 0 0 _ (reachable_new bld) w rng fuel attempts k n h1 f k1 hex h4)

/-- **C51** whenever `moebius` returns, the value is `μ(n)`, provided the primality tests used in factorizing `n` (or `n / 2`
for even `n`) accept only primes; `moebius(0) = 0` -/
theorem C51_moebius_exact (bld : Build) (w : Width) (rng : Rng) (fuel attempts k n : ℕ)
    (hex : ∀ t, t = n ∨ 2 * t = n → ∀ p, p ∣ t → PassesTest bld w (Buf.new bld).iter rng none t p → p.Prime) (r : ℤ)
    (h : moebius bld w rng fuel attempts k n = .ok r) : r = ArithmeticFunction.moebius n := by
  unfold moebius at h
  split at h
  · rename_i h2
    split at h
    · rename_i h4
      simp only [Res.pure_def, Res.ok.injEq] at h
      rw [← h, ArithmeticFunction.moebius_eq_zero_of_not_squarefree]
      intro hc
      have := hc 2 (Nat.dvd_of_mod_eq_zero h4)
      rw [Nat.isUnit_iff] at this; omega
    · rename_i h4
      simp only [Res.bind_eq_ok] at h
      obtain ⟨m, h5, h6⟩ := h
      simp only [Res.pure_def, Res.ok.injEq] at h6
      have := moebiusOddPart_eq (by omega) (hex (n / 2) (Or.inr (by omega))) h5
      have hn : n = 2 * (n / 2) := by omega
      have hcop : Nat.Coprime 2 (n / 2) := by
        rw [Nat.coprime_two_left, Nat.odd_iff]; omega
      rw [← h6, this]
      conv_rhs => rw [hn]
      rw [ArithmeticFunction.isMultiplicative_moebius.map_mul_of_coprime hcop, ArithmeticFunction.moebius_apply_prime Nat.prime_two]
      ring
  · rename_i h2
    exact moebiusOddPart_eq (by omega) (hex n (Or.inl rfl)) h

/-- **C51** up to 512 (odd numbers up to 255, their doubles and multiples of 4) the value comes from the table and is
correct without any assumption -/
theorem C51_moebius_small (bld : Build) (w : Width) (rng : Rng) (fuel attempts k n : ℕ) (hn : n ≤ 256 ∨ (n % 2 = 0 ∧ n ≤ 512)) :
    moebius bld w rng fuel attempts k n = .ok (ArithmeticFunction.moebius n) := by
  have hodd : ∀ t, t % 2 = 1 → t ≤ 256 → moebiusOddPart bld w rng fuel attempts k t = .ok (ArithmeticFunction.moebius t) := by
    intro t h1 h2
    have h3 : t - 1 < 2 ^ 8 := by omega
    simp only [moebiusOddPart, csub_ok (show 1 ≤ t by omega), Res.bind_ok, h3, if_true, Res.pure_def]
    rw [moebiusLookup_eq (by omega) (by omega), show t - 1 + 1 = t by omega]
  have : ∃ r, moebius bld w rng fuel attempts k n = .ok r := by
    unfold moebius
    split
    · split
      · exact ⟨0, rfl⟩
      · rw [hodd (n / 2) (by omega) (by omega)]; exact ⟨_, rfl⟩
    · rename_i h2
      exact ⟨_, hodd n (by omega) (hn.elim id (fun h => absurd h.1 h2))⟩
  obtain ⟨r, hr⟩ := this
  rw [hr]
  congr 1
  unfold moebius at hr
  split at hr
  · split at hr
    · rename_i h4
      simp only [Res.pure_def, Res.ok.injEq] at hr
      rw [← hr, ArithmeticFunction.moebius_eq_zero_of_not_squarefree]
      intro hc
      have := hc 2 (Nat.dvd_of_mod_eq_zero h4)
      rw [Nat.isUnit_iff] at this; omega
    · rename_i h2 h4
      rw [hodd (n / 2) (by omega) (by omega)] at hr
      simp only [Res.bind_ok, Res.pure_def, Res.ok.injEq] at hr
      have hn2 : n = 2 * (n / 2) := by omega
      have hcop : Nat.Coprime 2 (n / 2) := by
        rw [Nat.coprime_two_left, Nat.odd_iff]; omega
      rw [← hr]
      conv_rhs => rw [hn2]
      rw [ArithmeticFunction.isMultiplicative_moebius.map_mul_of_coprime hcop, ArithmeticFunction.moebius_apply_prime Nat.prime_two]
      ring
  · rename_i h2
    rw [hodd n (by omega) (hn.elim id (fun h => absurd h.1 h2))] at hr
    simp only [Res.ok.injEq] at hr
    exact hr.symm

/-- **C51** on `u64`: the assumption is only about the primality test for 64-bit numbers -/
theorem C51_moebius_u64 (bld : Build) (hex : ∀ p < 2 ^ 64, isPrime64 bld p = true → p.Prime) (w : Width) (rng : Rng)
    (fuel attempts k n : ℕ) (hn : n < 2 ^ 64) (r : ℤ) (h : moebius bld w rng fuel attempts k n = .ok r) :
    r = ArithmeticFunction.moebius n := by
  rcases Nat.eq_zero_or_pos n with rfl | h0
  · rw [C51_moebius_small bld w rng fuel attempts k 0 (by simp)] at h
    simpa using h.symm
  · refine C51_moebius_exact bld w rng fuel attempts k n (fun t ht p hp hpt => ?_) r h
    have htn : t ≤ n := by omega
    have ht0 : 1 ≤ t := by omega
    have hpl := Nat.le_of_dvd ht0 hp
    exact hex p (by omega) ((accepted128_below (by omega)).mp (hpt.1 (by omega)))

/-- **C51** up to `2^16` nothing is assumed -/
theorem C51_moebius_u16 (bld : Build) (w : Width) (rng : Rng) (fuel attempts k n : ℕ) (hn : n < 2 ^ 16) (r : ℤ)
    (h : moebius bld w rng fuel attempts k n = .ok r) : r = ArithmeticFunction.moebius n := by
  rcases Nat.eq_zero_or_pos n with rfl | h0
  · rw [C51_moebius_small bld w rng fuel attempts k 0 (by simp)] at h
    simpa using h.symm
  · refine C51_moebius_exact bld w rng fuel attempts k n (fun t ht p hp hpt => ?_) r h
    have hpl := Nat.le_of_dvd (show 0 < t by omega) hp
    exact (C02_is_prime64_exact_u16_partial bld p (by omega)).mp ((accepted128_below (by omega)).mp (hpt.1 (by omega)))

/-- **C52** `is_square_free` returns the right answer under the same assumption -/
theorem C52_is_square_free_exact (bld : Build) (w : Width) (rng : Rng) (fuel attempts k n : ℕ)
    (hex : ∀ t, t = n ∨ 2 * t = n → ∀ p, p ∣ t → PassesTest bld w (Buf.new bld).iter rng none t p → p.Prime) (r : Bool)
    (h : isSquareFree bld w rng fuel attempts k n = .ok r) : r = true ↔ ¬ ∃ d, 1 < d ∧ d * d ∣ n := by
  simp only [isSquareFree, Res.bind_eq_ok] at h
  obtain ⟨m, h1, h2⟩ := h
  simp only [Res.pure_def, Res.ok.injEq] at h2
  rw [← h2, C51_moebius_exact bld w rng fuel attempts k n hex m h1, decide_eq_true_eq,
    ArithmeticFunction.moebius_ne_zero_iff_squarefree]
  constructor
  · rintro hs ⟨d, hd, hdd⟩
    have := hs d hdd
    rw [Nat.isUnit_iff] at this; omega
  · intro hs d hd
    rw [Nat.isUnit_iff]
    by_contra hc
    refine hs ?_
    rcases Nat.eq_zero_or_pos d with rfl | h0
    · have : n = 0 := by simpa using hd
      exact ⟨2, by norm_num, by rw [this]; exact dvd_zero _⟩
    · exact ⟨d, by omega, hd⟩

/-- **C52** the answer "not square-free" is always right, whatever the primality tests accept -/
theorem C52_not_square_free_sound (bld : Build) (w : Width) (rng : Rng) (fuel attempts k n : ℕ)
    (h : isSquareFree bld w rng fuel attempts k n = .ok false) : ∃ d, 1 < d ∧ d * d ∣ n := by
  have hodd : ∀ t, t % 2 = 1 → moebiusOddPart bld w rng fuel attempts k t = .ok 0 → ∃ d, 1 < d ∧ d * d ∣ t := by
    intro t ht h
    have h1 : 1 ≤ t := by omega
    simp only [moebiusOddPart, csub_ok h1, Res.bind_ok] at h
    by_cases h2 : t - 1 < 2 ^ 8
    · simp only [h2, if_true, Res.pure_def, Res.ok.injEq] at h
      rw [moebiusLookup_eq (by omega) (by omega), show t - 1 + 1 = t by omega] at h
      by_contra hc
      refine ArithmeticFunction.moebius_ne_zero_iff_squarefree.mpr (fun d hd => ?_) h
      rw [Nat.isUnit_iff]
      by_contra hd1
      rcases Nat.eq_zero_or_pos d with rfl | h0
      · simp at hd; omega
      · exact hc ⟨d, by omega, hd⟩
    · simp only [h2, if_false] at h
      split at h
      · rename_i h3
        rcases h3 with h3 | h3 | h3
        · exact ⟨3, by norm_num, Nat.dvd_of_mod_eq_zero h3⟩
        · exact ⟨5, by norm_num, Nat.dvd_of_mod_eq_zero h3⟩
        · exact ⟨7, by norm_num, Nat.dvd_of_mod_eq_zero h3⟩
      · simp only [Res.bind_eq_ok] at h
        obtain ⟨⟨f, k1⟩, h4, h5⟩ := h
        simp only [Res.pure_def, Res.ok.injEq, moebiusFactorized] at h5
        split at h5
        · rename_i h6
          simp only [List.any_eq_true, decide_eq_true_eq] at h6
          obtain ⟨x, hx, he⟩ := h6
          obtain ⟨g1, g2, g3, g4⟩ := C48_factorize_product bld exampleEstimates 0 0 _ (reachable_new bld) w rng fuel
            attempts k t h1 f k1 h4
          refine ⟨x.1, (g4 x hx).one_lt, ?_⟩
          rw [← g1]
          refine dvd_trans ?_ (List.dvd_prod (List.mem_map_of_mem (f := fun x : ℕ × ℕ => x.1 ^ x.2) hx))
          rw [← pow_two]
          exact pow_dvd_pow _ he
        · split at h5 <;> simp at h5
  simp only [isSquareFree, Res.bind_eq_ok] at h
  obtain ⟨m, h1, h2⟩ := h
  simp only [Res.pure_def, Res.ok.injEq, decide_eq_false_iff_not, not_not] at h2
  subst h2
  unfold moebius at h1
  split at h1
  · rename_i h2
    split at h1
    · rename_i h4
      exact ⟨2, by norm_num, Nat.dvd_of_mod_eq_zero h4⟩
    · simp only [Res.bind_eq_ok] at h1
      obtain ⟨m, h5, h6⟩ := h1
      simp only [Res.pure_def, Res.ok.injEq, neg_eq_zero] at h6
      subst h6
      obtain ⟨d, hd, hdd⟩ := hodd _ (by omega) h5
      exact ⟨d, hd, hdd.trans ⟨2, by omega⟩⟩
  · exact hodd n (by omega) h1

example : moebius .big (some 64) exampleRng 200 1 0 (2 * 3 * 5 * 9001) = .ok 1 ∧
    moebius .big (some 64) exampleRng 200 1 0 (3 * 5 * 9001) = .ok (-1) ∧
    moebius .big (some 64) exampleRng 200 1 0 (11 * 11 * 9001) = .ok 0 ∧
    isSquareFree .big (some 64) exampleRng 200 1 0 (11 * 11 * 9001) = .ok false := by decide +kernel

end NumPrime
