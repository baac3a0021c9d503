import Verif.Proofs.PrimeList
import Mathlib.Algebra.BigOperators.Intervals
import Mathlib.Tactic.Ring
import Mathlib.Tactic.Zify

/-! # Legendre's phi function and the Meissel-Lehmer identities -/

namespace NumPrime
open Spec

/-- the `i`-th prime, counting from 0 -/
local notation "nth" => Nat.nth Nat.Prime

theorem phi_zero (x : ℕ) : legendrePhi x 0 = x := by
  simp [legendrePhi, firstPrimes]

theorem firstPrimes_succ (a : ℕ) : firstPrimes (a + 1) = firstPrimes a ++ [nth a] := by
  simp [firstPrimes, List.range_succ]

theorem phi_rec (x a : ℕ) : legendrePhi x (a + 1) + legendrePhi (x / nth a) a = legendrePhi x a := by
  have hp := nth_prime_prime a
  unfold legendrePhi
  rw [add_comm]
  rw [← Finset.card_filter_add_card_filter_not (s := (Finset.Icc 1 x).filter (fun n => ∀ p ∈ firstPrimes a, ¬ p ∣ n))
    (fun n => nth a ∣ n)]
  congr 1
  · refine Finset.card_bij (fun m _ => nth a * m) ?_ ?_ ?_
    · intro m hm
      simp only [Finset.mem_filter, Finset.mem_Icc] at hm ⊢
      obtain ⟨⟨h1, h2⟩, h3⟩ := hm
      refine ⟨⟨⟨Nat.mul_pos hp.pos h1, ?_⟩, ?_⟩, Dvd.intro _ rfl⟩
      · rw [mul_comm]; exact (Nat.le_div_iff_mul_le hp.pos).mp h2
      · intro q hq hd
        obtain ⟨hqp, hqa⟩ := mem_firstPrimes.mp hq
        rcases hqp.dvd_mul.mp hd with hd | hd
        · have := (Nat.prime_dvd_prime_iff_eq hqp hp).mp hd
          subst this
          rw [Nat.count_nth_of_infinite infinite_primes] at hqa
          omega
        · exact h3 q hq hd
    · intro m _ m' _ h
      exact Nat.eq_of_mul_eq_mul_left hp.pos h
    · intro n hn
      simp only [Finset.mem_filter, Finset.mem_Icc] at hn
      obtain ⟨⟨⟨h1, h2⟩, h3⟩, m, rfl⟩ := hn
      refine ⟨m, ?_, rfl⟩
      simp only [Finset.mem_filter, Finset.mem_Icc]
      refine ⟨⟨Nat.pos_of_mul_pos_left h1, ?_⟩, fun q hq hd => h3 q hq (Dvd.dvd.mul_left hd _)⟩
      rw [Nat.le_div_iff_mul_le hp.pos, mul_comm]; exact h2
  · congr 1
    ext n
    simp only [Finset.mem_filter, firstPrimes_succ, List.mem_append, List.mem_singleton]
    constructor
    · rintro ⟨h1, h2⟩
      exact ⟨⟨h1, fun p hp => h2 p (Or.inl hp)⟩, h2 _ (Or.inr rfl)⟩
    · rintro ⟨⟨h1, h2⟩, h3⟩
      refine ⟨h1, ?_⟩
      rintro p (hp | rfl)
      · exact h2 p hp
      · exact h3

theorem nth_zero : nth 0 = 2 := Nat.nth_prime_zero_eq_two

theorem phi_one (x : ℕ) : legendrePhi x 1 = (x + 1) / 2 := by
  have := phi_rec x 0
  rw [phi_zero, phi_zero, nth_zero] at this
  have h2 : 0 + 1 = 1 := rfl
  rw [h2] at this
  omega

theorem phi_mono (x a : ℕ) : legendrePhi (x / nth a) a ≤ legendrePhi x a := by have := phi_rec x a; omega

theorem phi_succ_le (x a : ℕ) : legendrePhi x (a + 1) ≤ legendrePhi x a := by have := phi_rec x a; omega

theorem phi_anti (x : ℕ) {a b : ℕ} (h : a ≤ b) : legendrePhi x b ≤ legendrePhi x a := by
  induction b, h using Nat.le_induction with
  | base => exact le_rfl
  | succ b _ ih => exact (phi_succ_le x b).trans ih

theorem phi_le_half (x : ℕ) {a : ℕ} (h : 1 ≤ a) : legendrePhi x a ≤ (x + 1) / 2 := by
  have := phi_anti x h
  rwa [phi_one] at this

/-- below the square of the next prime only 1 and primes survive -/
theorem phi_prime {y a : ℕ} (hy : 1 ≤ y) (ha : a ≤ Nat.primeCounting y) (hsq : y < nth a ^ 2) :
    legendrePhi y a + a = 1 + Nat.primeCounting y := by
  -- the surviving numbers are 1 and the primes `nth a, …`
  have hset : (Finset.Icc 1 y).filter (fun n => ∀ p ∈ firstPrimes a, ¬ p ∣ n) =
      insert 1 ((Finset.Ico a (Nat.primeCounting y)).image (fun i => nth i)) := by
    ext n
    simp only [Finset.mem_filter, Finset.mem_Icc, Finset.mem_insert, Finset.mem_image, Finset.mem_Ico]
    constructor
    · rintro ⟨⟨h1, h2⟩, h3⟩
      by_cases hn : n = 1
      · exact Or.inl hn
      · right
        have hpr : n.Prime := by
          by_contra hnp
          have hm := Nat.minFac_prime hn
          have hsq2 := Nat.minFac_sq_le_self (by omega) hnp
          have hlt : n.minFac < nth a := by
            by_contra hc
            have : nth a ^ 2 ≤ n.minFac ^ 2 := Nat.pow_le_pow_left (by omega) 2
            omega
          have hcount : Nat.count Nat.Prime n.minFac < a := by
            rw [← Nat.count_nth_of_infinite infinite_primes (n := a)]
            exact Nat.count_strict_mono hm hlt
          exact h3 _ (mem_firstPrimes.mpr ⟨hm, hcount⟩) (Nat.minFac_dvd n)
        refine ⟨Nat.count Nat.Prime n, ⟨?_, ?_⟩, Nat.nth_count hpr⟩
        · by_contra hc
          exact h3 n (mem_firstPrimes.mpr ⟨hpr, by omega⟩) dvd_rfl
        · rw [← nth_le_iff, Nat.nth_count hpr]
          exact h2
    · rintro (rfl | ⟨i, ⟨h1, h2⟩, rfl⟩)
      · refine ⟨⟨le_rfl, hy⟩, fun p hp hd => ?_⟩
        have := (mem_firstPrimes.mp hp).1.one_lt
        rw [Nat.dvd_one] at hd
        omega
      · refine ⟨⟨(nth_prime_prime i).pos, nth_le_iff.mpr h2⟩, fun p hp hd => ?_⟩
        obtain ⟨hp1, hp2⟩ := mem_firstPrimes.mp hp
        have := (Nat.prime_dvd_prime_iff_eq hp1 (nth_prime_prime i)).mp hd
        rw [this, Nat.count_nth_of_infinite infinite_primes] at hp2
        omega
  rw [legendrePhi, hset, Finset.card_insert_of_notMem, Finset.card_image_of_injective, Nat.card_Ico]
  · omega
  · exact Nat.nth_injective infinite_primes
  · simp only [Finset.mem_image, not_exists, not_and]
    intro i _ hc
    exact (nth_prime_prime i).ne_one hc

/-- Buchstab's identity, iterated -/
theorem phi_buchstab (x a : ℕ) : ∀ n, legendrePhi x a = legendrePhi x (a + n) +
    ∑ i ∈ Finset.Ico a (a + n), legendrePhi (x / nth i) i
  | 0 => by simp
  | n + 1 => by
    rw [phi_buchstab x a n, ← add_assoc a n 1, Finset.sum_Ico_succ_top (by omega), ← phi_rec x (a + n)]
    ring

theorem phi_buchstab' (x : ℕ) {a b : ℕ} (h : a ≤ b) : legendrePhi x a = legendrePhi x b +
    ∑ i ∈ Finset.Ico a b, legendrePhi (x / nth i) i := by
  have := phi_buchstab x a (b - a)
  rwa [show a + (b - a) = b by omega] at this

theorem lt_nth_pi (y : ℕ) : y < nth (Nat.primeCounting y) := by
  by_contra hc
  have := nth_le_iff.mp (not_lt.mp hc)
  omega

theorem phi_pos {x : ℕ} (hx : 1 ≤ x) (a : ℕ) : 1 ≤ legendrePhi x a := by
  rw [legendrePhi, Nat.one_le_iff_ne_zero, Finset.card_ne_zero]
  refine ⟨1, ?_⟩
  simp only [Finset.mem_filter, Finset.mem_Icc]
  refine ⟨⟨le_rfl, hx⟩, fun p hp hd => ?_⟩
  have := (mem_firstPrimes.mp hp).1.one_lt
  rw [Nat.dvd_one] at hd
  omega

/-! ## the formula used by `prime_pi` -/

theorem phi_main {x : ℕ} (hx : 1 ≤ x) {a : ℕ} (ha : a ≤ Nat.primeCounting (Nat.sqrt x)) :
    legendrePhi x a + Nat.primeCounting (Nat.sqrt x) = 1 + Nat.primeCounting x +
      ∑ i ∈ Finset.Ico a (Nat.primeCounting (Nat.sqrt x)), legendrePhi (x / nth i) i := by
  rw [phi_buchstab' x ha]
  have := phi_prime (y := x) (a := Nat.primeCounting (Nat.sqrt x)) hx (Nat.monotone_primeCounting (Nat.sqrt_le_self x))
    (by
      have h1 := lt_nth_pi (Nat.sqrt x)
      have h2 := Nat.lt_succ_sqrt x
      have h3 : (Nat.sqrt x + 1) * (Nat.sqrt x + 1) ≤ nth (Nat.primeCounting (Nat.sqrt x)) ^ 2 := by
        rw [pow_two]; exact Nat.mul_le_mul (by omega) (by omega)
      exact lt_of_lt_of_le h2 h3)
  omega

theorem le_pi_of_sq {w i : ℕ} (h : nth i * nth i ≤ w) : i < Nat.primeCounting (Nat.sqrt w) := by
  rw [← nth_le_iff]
  exact Nat.le_sqrt.mpr h

theorem sq_le_of_lt_pi {w i : ℕ} (h : i < Nat.primeCounting (Nat.sqrt w)) : nth i * nth i ≤ w :=
  Nat.le_sqrt.mp (nth_le_iff.mpr h)

theorem lt_pi_div {w i : ℕ} (h : i < Nat.primeCounting (Nat.sqrt w)) : i < Nat.primeCounting (w / nth i) := by
  rw [← nth_le_iff, Nat.le_div_iff_mul_le (nth_prime_prime i).pos]
  exact sq_le_of_lt_pi h

/-- a prime beyond the cube root: one term -/
theorem phi_beyond {x i : ℕ} (hb : i < Nat.primeCounting (Nat.sqrt x)) (hc : x < nth i ^ 3) :
    legendrePhi (x / nth i) i + i = 1 + Nat.primeCounting (x / nth i) := by
  have h1 := lt_pi_div hb
  refine phi_prime ?_ h1.le ?_
  · rw [Nat.one_le_div_iff (nth_prime_prime i).pos]
    have := sq_le_of_lt_pi hb
    nlinarith [(nth_prime_prime i).pos]
  · rw [Nat.div_lt_iff_lt_mul (nth_prime_prime i).pos]
    calc x < nth i ^ 3 := hc
      _ = nth i ^ 2 * nth i := by ring

/-- a prime up to the cube root and beyond the fourth root: the second sum -/
theorem phi_within {x i : ℕ} (hc : nth i ^ 3 ≤ x) (ha : x < nth i ^ 4) :
    i < Nat.primeCounting (Nat.sqrt (x / nth i)) ∧
    legendrePhi (x / nth i) i + i + ∑ j ∈ Finset.Ico i (Nat.primeCounting (Nat.sqrt (x / nth i))), j =
      1 + Nat.primeCounting (x / nth i) +
        ∑ j ∈ Finset.Ico i (Nat.primeCounting (Nat.sqrt (x / nth i))), Nat.primeCounting (x / nth i / nth j) := by
  have hp := (nth_prime_prime i).pos
  have hi : i < Nat.primeCounting (Nat.sqrt (x / nth i)) := by
    apply le_pi_of_sq
    rw [Nat.le_div_iff_mul_le hp]
    calc nth i * nth i * nth i = nth i ^ 3 := by ring
      _ ≤ x := hc
  refine ⟨hi, ?_⟩
  have hw : 1 ≤ x / nth i := by
    have := sq_le_of_lt_pi hi
    nlinarith
  have hm := phi_main hw hi.le
  generalize hwd : x / nth i = w at *
  generalize hl : Nat.primeCounting (Nat.sqrt w) = l at *
  have hterm : ∀ j ∈ Finset.Ico i l, legendrePhi (w / nth j) j + j = 1 + Nat.primeCounting (w / nth j) := by
    intro j hj
    rw [Finset.mem_Ico] at hj
    have hjl : j < Nat.primeCounting (Nat.sqrt w) := by omega
    have hjp := (nth_prime_prime j).pos
    refine phi_prime ?_ (lt_pi_div hjl).le ?_
    · rw [Nat.one_le_div_iff hjp]
      have := sq_le_of_lt_pi hjl
      nlinarith
    · rw [← hwd, Nat.div_div_eq_div_mul, Nat.div_lt_iff_lt_mul (Nat.mul_pos hp hjp)]
      have hij : nth i ≤ nth j := (Nat.nth_strictMono infinite_primes).monotone hj.1
      calc x < nth i ^ 4 := ha
        _ = nth i ^ 3 * nth i := by ring
        _ ≤ nth j ^ 3 * nth i := Nat.mul_le_mul_right _ (Nat.pow_le_pow_left hij 3)
        _ = nth j ^ 2 * (nth i * nth j) := by ring
  have hsum := Finset.sum_congr (rfl : Finset.Ico i l = Finset.Ico i l) hterm
  rw [Finset.sum_add_distrib, Finset.sum_add_distrib] at hsum
  simp only [Finset.sum_const, Nat.card_Ico, smul_eq_mul, mul_one] at hsum
  omega

/-- the sum of the indices, as `prime_pi` computes it -/
theorem sum_pred {a b : ℕ} (ha : 1 ≤ a) (hab : a ≤ b) :
    (b + a - 2) * (b - a + 1) / 2 + 1 = b + ∑ i ∈ Finset.Ico a b, (i - 1) := by
  have : (b + a - 2) * (b - a + 1) + 2 = 2 * (b + ∑ i ∈ Finset.Ico a b, (i - 1)) := by
    obtain ⟨n, rfl⟩ := Nat.exists_eq_add_of_le hab
    obtain ⟨a, rfl⟩ := Nat.exists_eq_add_of_le ha
    clear ha hab
    induction n with
    | zero =>
      simp only [add_zero, Finset.Ico_self, Finset.sum_empty, Nat.sub_self, zero_add, mul_one]
      omega
    | succ n ih =>
      rw [← add_assoc (1 + a) n 1, Finset.sum_Ico_succ_top (by omega)]
      have h1 : 1 + a + n + (1 + a) - 2 = 2 * a + n := by omega
      have h2 : 1 + a + n - (1 + a) = n := by omega
      have h3 : 1 + a + n + 1 + (1 + a) - 2 = 2 * a + n + 1 := by omega
      have h4 : 1 + a + n + 1 - (1 + a) = n + 1 := by omega
      have h5 : 1 + a + n - 1 = a + n := by omega
      rw [h1, h2] at ih
      rw [h3, h4, h5]
      generalize ∑ i ∈ Finset.Ico (1 + a) (1 + a + n), (i - 1) = S at *
      nlinarith
  omega

theorem sum_index {i l : ℕ} (h : i ≤ l) : 2 * ∑ j ∈ Finset.Ico i l, j + i * (i - 1) = l * (l - 1) := by
  obtain ⟨n, rfl⟩ := Nat.exists_eq_add_of_le h
  clear h
  induction n with
  | zero => simp
  | succ n ih =>
    rw [← add_assoc, Finset.sum_Ico_succ_top (by omega)]
    rw [mul_add, add_right_comm, ih]
    rcases Nat.eq_zero_or_pos (i + n) with h0 | h0
    · rw [h0]; rfl
    · obtain ⟨m, hm⟩ := Nat.exists_eq_add_of_le h0
      rw [hm]
      have h1 : 0 + 1 + m - 1 = m := by omega
      have h2 : 0 + 1 + m + 1 - 1 = m + 1 := by omega
      simp only [Nat.succ_eq_add_one, h1, h2]
      ring

/-- the offset of the second sum, as `prime_pi` computes it (`k = i + 1` is the one-based index) -/
theorem offset_eq {k l : ℕ} (hk : 3 ≤ k) (hl : k ≤ l) :
    k * (k - 3) ≤ l * (l - 1) ∧ 1 ≤ (l * (l - 1) - k * (k - 3)) / 2 ∧
    (l * (l - 1) - k * (k - 3)) / 2 - 1 = ∑ j ∈ Finset.Ico (k - 1) l, j := by
  have h := sum_index (show k - 1 ≤ l by omega)
  obtain ⟨m, rfl⟩ := Nat.exists_eq_add_of_le hk
  have h1 : 3 + m - 1 = m + 2 := by omega
  have h2 : 3 + m - 3 = m := by omega
  have h3 : m + 2 - 1 = m + 1 := by omega
  rw [h1, h3] at h
  rw [h1, h2]
  have h4 : (m + 2) * (m + 1) = (3 + m) * m + 2 := by ring
  rw [h4] at h
  generalize ∑ j ∈ Finset.Ico (m + 2) l, j = S at *
  generalize l * (l - 1) = L at *
  generalize (3 + m) * m = M at *
  omega

end NumPrime
