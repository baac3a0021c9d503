import Verif.Model.NtFuncs
import Mathlib.Data.Nat.Prime.Basic
import Mathlib.Data.Nat.GCD.Basic
import Mathlib.Tactic.IntervalCases
import Mathlib.Tactic.NormNum.Prime
import Verif.Proofs.Basic

/-! # Facts about the constant tables

The tables are finite constants; each of the facts below is a statement about all entries, checked by
kernel evaluation, and then lifted to a statement about all integers. -/

namespace NumPrime
open Tables

/-! ## primes -/

/-- trial division by the primes below 91 -/
def tdPrime (n : Nat) : Bool :=
  decide (2 ≤ n) && [2, 3, 5, 7, 11, 13, 17, 19, 23, 29, 31, 37, 41, 43, 47, 53, 59, 61, 67, 71, 73, 79, 83, 89].all
    (fun d => decide (n < d * d) || n % d != 0)

theorem tdPrime_iff {n : ℕ} (hn : n < 8281) : tdPrime n = true ↔ n.Prime := by
  unfold tdPrime
  rw [Bool.and_eq_true, decide_eq_true_iff, List.all_eq_true]
  constructor
  · rintro ⟨h2, h⟩
    by_contra hp
    have hm := Nat.minFac_sq_le_self (by omega : 0 < n) hp
    have hmp := Nat.minFac_prime (by omega : n ≠ 1)
    have hlt : n.minFac < 91 := by nlinarith
    have key : ∀ q : ℕ, q < 91 → q.Prime → q ∈ [2, 3, 5, 7, 11, 13, 17, 19, 23, 29, 31, 37, 41, 43, 47, 53, 59, 61, 67, 71, 73, 79, 83, 89] := by
      decide
    have := h _ (key _ hlt hmp)
    simp only [Bool.or_eq_true, decide_eq_true_iff, bne_iff_ne, ne_eq] at this
    rcases this with h3 | h3
    · nlinarith
    · exact h3 (Nat.mod_eq_zero_of_dvd (Nat.minFac_dvd n))
  · intro hp
    refine ⟨hp.two_le, fun d hd => ?_⟩
    simp only [Bool.or_eq_true, decide_eq_true_iff, bne_iff_ne, ne_eq]
    by_cases h : n < d * d
    · exact Or.inl h
    · right
      intro h0
      have hd1 : d ∣ n := Nat.dvd_of_mod_eq_zero h0
      have : ∀ x ∈ [2, 3, 5, 7, 11, 13, 17, 19, 23, 29, 31, 37, 41, 43, 47, 53, 59, 61, 67, 71, 73, 79, 83, 89], 2 ≤ x := by decide
      have h2 := this d hd
      rcases (Nat.dvd_prime hp).mp hd1 with h3 | h3
      · omega
      · subst h3; nlinarith

/-- the primes of a range, by trial division -/
def tdList (n : Nat) : List Nat := (List.range n).filter tdPrime

theorem smallPrimesB_eq : smallPrimesB = tdList 8167 := by decide +kernel
theorem smallPrimesS_eq : smallPrimesS = tdList 257 := by decide +kernel

theorem smallPrimes_eq (bld : Build) : smallPrimes bld = (List.range (smallPrimesNext bld)).filter tdPrime := by
  cases bld
  · exact smallPrimesB_eq
  · exact smallPrimesS_eq

theorem smallPrimesNext_le (bld : Build) : smallPrimesNext bld ≤ 8167 := by cases bld <;> decide
theorem le_smallPrimesNext (bld : Build) : 257 ≤ smallPrimesNext bld := by cases bld <;> decide

theorem mem_smallPrimes {bld : Build} {p : ℕ} : p ∈ smallPrimes bld ↔ p.Prime ∧ p < smallPrimesNext bld := by
  rw [smallPrimes_eq, List.mem_filter, List.mem_range]
  constructor
  · rintro ⟨h1, h2⟩
    exact ⟨(tdPrime_iff (by have := smallPrimesNext_le bld; omega)).mp h2, h1⟩
  · rintro ⟨h1, h2⟩
    exact ⟨h2, (tdPrime_iff (by have := smallPrimesNext_le bld; omega)).mpr h1⟩

theorem smallPrimes_sorted (bld : Build) : (smallPrimes bld).Pairwise (· < ·) := by
  rw [smallPrimes_eq]
  exact List.Pairwise.filter _ List.pairwise_lt_range

theorem smallPrimesNext_prime (bld : Build) : (smallPrimesNext bld).Prime := by
  refine (tdPrime_iff (by have := smallPrimesNext_le bld; omega)).mp ?_
  cases bld <;> decide +kernel

theorem smallPrimes_last (bld : Build) : (smallPrimes bld).getLastD 0 = if bld = .big then 8161 else 251 := by
  cases bld <;> decide +kernel

theorem smallPrimes_length (bld : Build) : (smallPrimes bld).length = if bld = .big then 1024 else 54 := by
  cases bld <;> decide +kernel

/-! ## wheel -/

/-- walks along a list checking every adjacent pair `(a, b)` at positions `(i, i+1)` -/
def checkPairs (P : Nat → Nat → Nat → Bool) : Nat → List Nat → Bool
  | i, a :: b :: t => P i a b && checkPairs P (i + 1) (b :: t)
  | _, _ => true

theorem checkPairs_spec {P : Nat → Nat → Nat → Bool} : ∀ (l : List Nat) (s : Nat), checkPairs P s l = true →
    ∀ i, i + 1 < l.length → P (s + i) (l.getD i 0) (l.getD (i + 1) 0) = true
  | [], s, _, i, hi => by simp at hi
  | [a], s, _, i, hi => by simp at hi
  | a :: b :: t, s, h, i, hi => by
    rw [checkPairs, Bool.and_eq_true] at h
    cases i with
    | zero => simpa using h.1
    | succ i =>
      have := checkPairs_spec (b :: t) (s + 1) h.2 i (by simpa using hi)
      simpa [Nat.add_assoc, Nat.add_comm 1 i] using this

theorem wheelNext_length (bld : Build) : (wheelNext bld).length = wheelSize bld := by cases bld <;> decide +kernel
theorem wheelPrev_length (bld : Build) : (wheelPrev bld).length = wheelSize bld := by cases bld <;> decide +kernel
theorem wheelSize_pos (bld : Build) : 30 ≤ wheelSize bld := by cases bld <;> decide
theorem wheelSize_lt (bld : Build) : wheelSize bld < smallPrimesNext bld := by cases bld <;> decide

theorem wheelNext_check (bld : Build) : checkPairs (fun i a b =>
    if Nat.gcd (i + 1) (wheelSize bld) = 1 then a == 1 else a == b + 1) 0 (wheelNext bld) = true := by
  cases bld <;> decide +kernel
theorem wheelPrev_check (bld : Build) : checkPairs (fun i a b =>
    if Nat.gcd i (wheelSize bld) = 1 then b == 1 else b == a + 1) 0 (wheelPrev bld) = true := by
  cases bld <;> decide +kernel
theorem wheelNext_last (bld : Build) : (wheelNext bld).getD (wheelSize bld - 1) 0 = 2 := by
  cases bld <;> decide +kernel
theorem wheelPrev_first (bld : Build) : (wheelPrev bld).getD 0 0 = 1 := by
  cases bld <;> decide +kernel

theorem wheelNext_step {bld : Build} {i : ℕ} (hi : i + 1 < wheelSize bld) :
    (wheelNext bld).getD i 0 = if Nat.gcd (i + 1) (wheelSize bld) = 1 then 1 else (wheelNext bld).getD (i + 1) 0 + 1 := by
  have := checkPairs_spec _ _ (wheelNext_check bld) i (by rw [wheelNext_length]; exact hi)
  simp only [Nat.zero_add] at this
  split at this <;> rename_i h
  · rw [if_pos h]; simpa using this
  · rw [if_neg h]; simpa using this

theorem wheelPrev_step {bld : Build} {i : ℕ} (hi : i + 1 < wheelSize bld) :
    (wheelPrev bld).getD (i + 1) 0 = if Nat.gcd i (wheelSize bld) = 1 then 1 else (wheelPrev bld).getD i 0 + 1 := by
  have := checkPairs_spec _ _ (wheelPrev_check bld) i (by rw [wheelPrev_length]; exact hi)
  simp only [Nat.zero_add] at this
  split at this <;> rename_i h
  · rw [if_pos h]; simpa using this
  · rw [if_neg h]; simpa using this

/-- `WHEEL_NEXT[i]` is the distance from `i` to the next number coprime to the wheel size -/
theorem wheelNext_spec (bld : Build) : ∀ k i, i + k + 1 = wheelSize bld →
    0 < (wheelNext bld).getD i 0 ∧ Nat.gcd (i + (wheelNext bld).getD i 0) (wheelSize bld) = 1 ∧
    (∀ j, 0 < j → j < (wheelNext bld).getD i 0 → Nat.gcd (i + j) (wheelSize bld) ≠ 1) ∧
    i + (wheelNext bld).getD i 0 ≤ wheelSize bld + 1 := by
  intro k
  induction k with
  | zero =>
    intro i hi
    have h : i = wheelSize bld - 1 := by omega
    have hp := wheelSize_pos bld
    rw [h, wheelNext_last]
    refine ⟨by norm_num, ?_, ?_, by omega⟩
    · have : wheelSize bld - 1 + 2 = wheelSize bld + 1 := by omega
      rw [this]; simp
    · intro j h1 h2
      have : j = 1 := by omega
      subst this
      have : wheelSize bld - 1 + 1 = wheelSize bld := by omega
      rw [this, Nat.gcd_self]; omega
  | succ k ih =>
    intro i hi
    have hs := wheelNext_step (bld := bld) (i := i) (by omega)
    obtain ⟨a, b, c, d⟩ := ih (i + 1) (by omega)
    by_cases hc : Nat.gcd (i + 1) (wheelSize bld) = 1
    · rw [if_pos hc] at hs
      rw [hs]
      exact ⟨by norm_num, hc, fun j h1 h2 => by omega, by omega⟩
    · rw [if_neg hc] at hs
      rw [hs]
      refine ⟨by omega, ?_, ?_, by omega⟩
      · have e : i + ((wheelNext bld).getD (i + 1) 0 + 1) = i + 1 + (wheelNext bld).getD (i + 1) 0 := by omega
        rw [e]; exact b
      · intro j h1 h2
        rcases Nat.lt_or_ge 1 j with h3 | h3
        · have := c (j - 1) (by omega) (by omega)
          have e : i + 1 + (j - 1) = i + j := by omega
          rwa [e] at this
        · have : j = 1 := by omega
          subst this; exact hc

/-- `WHEEL_PREV[i]` is the distance from `i` down to the previous number coprime to the wheel size
(stated with `i + WHEEL_SIZE` so that all numbers are positive) -/
theorem wheelPrev_spec (bld : Build) : ∀ i, i < wheelSize bld →
    0 < (wheelPrev bld).getD i 0 ∧ (wheelPrev bld).getD i 0 ≤ i + 1 ∧
    Nat.gcd (wheelSize bld + i - (wheelPrev bld).getD i 0) (wheelSize bld) = 1 ∧
    (∀ j, 0 < j → j < (wheelPrev bld).getD i 0 → Nat.gcd (wheelSize bld + i - j) (wheelSize bld) ≠ 1) := by
  have hp := wheelSize_pos bld
  intro i
  induction i with
  | zero =>
    intro _
    rw [wheelPrev_first]
    refine ⟨by norm_num, by norm_num, ?_, fun j h1 h2 => by omega⟩
    rw [Nat.add_zero]
    have := (Nat.coprime_self_sub_right (m := 1) (n := wheelSize bld) (by omega)).mpr (Nat.coprime_one_right _)
    exact this.symm
  | succ i ih =>
    intro hi
    obtain ⟨a, b, c, d⟩ := ih (by omega)
    have hs := wheelPrev_step (bld := bld) (i := i) hi
    have e : wheelSize bld + (i + 1) - 1 = i + wheelSize bld := by omega
    by_cases hc : Nat.gcd i (wheelSize bld) = 1
    · rw [if_pos hc] at hs
      rw [hs]
      refine ⟨by norm_num, by omega, ?_, fun j h1 h2 => by omega⟩
      rw [e, Nat.gcd_add_self_left]; exact hc
    · rw [if_neg hc] at hs
      rw [hs]
      refine ⟨by omega, by omega, ?_, ?_⟩
      · have e : wheelSize bld + (i + 1) - ((wheelPrev bld).getD i 0 + 1) = wheelSize bld + i - (wheelPrev bld).getD i 0 := by omega
        rw [e]; exact c
      · intro j h1 h2
        rcases Nat.lt_or_ge 1 j with h3 | h3
        · have := d (j - 1) (by omega) (by omega)
          have e : wheelSize bld + i - (j - 1) = wheelSize bld + (i + 1) - j := by omega
          rwa [e] at this
        · have : j = 1 := by omega
          subst this
          rw [e, Nat.gcd_add_self_left]; exact hc

theorem gcd_mod_add (n j m : ℕ) : Nat.gcd (n % m + j) m = Nat.gcd (n + j) m := by
  conv_rhs => rw [← Nat.mod_add_div n m]
  have : n % m + m * (n / m) + j = n % m + j + m * (n / m) := by ring
  rw [this, Nat.gcd_add_mul_left_left]

/-- the wheel check of `is_prime64` rejects exactly the numbers not coprime to the wheel size -/
theorem wheelRejects_iff (bld : Build) (n : ℕ) : wheelRejects bld n = true ↔ Nat.gcd n (wheelSize bld) ≠ 1 := by
  have hp := wheelSize_pos bld
  unfold wheelRejects
  have hm := Nat.mod_lt n (by omega : 0 < wheelSize bld)
  have hg : Nat.gcd n (wheelSize bld) = Nat.gcd (n % wheelSize bld) (wheelSize bld) := by
    simpa using (gcd_mod_add n 0 (wheelSize bld)).symm
  rw [hg]
  set pos := n % wheelSize bld
  simp only [Bool.or_eq_true, beq_iff_eq, decide_eq_true_iff]
  rcases Nat.eq_zero_or_pos pos with h0 | h0
  · simp only [h0, true_or, Nat.gcd_zero_left, true_iff]; omega
  · have hs := wheelNext_step (bld := bld) (i := pos - 1) (by omega)
    have e : pos - 1 + 1 = pos := by omega
    rw [e] at hs
    obtain ⟨a, _⟩ := wheelNext_spec bld (wheelSize bld - pos - 1) pos (by omega)
    rw [hs]
    split
    · rename_i h; simp only [h, ne_eq, not_true_eq_false, iff_false]; omega
    · rename_i h
      simp only [h, ne_eq, not_false_eq_true, iff_true]; omega

theorem coprime_wheel_of_prime {bld : Build} {p : ℕ} (hp : p.Prime) (h : wheelSize bld < p) :
    Nat.gcd p (wheelSize bld) = 1 :=
  (Nat.Prime.coprime_iff_not_dvd hp).mpr (fun hd => by
    have := Nat.le_of_dvd (by have := wheelSize_pos bld; omega) hd; omega)

end NumPrime
