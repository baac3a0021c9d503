import Verif.Proofs.PrimeList
import Mathlib.NumberTheory.Chebyshev

/-! # Two facts about the distribution of primes -/

namespace NumPrime
open Spec

/-! ## there are 4096 primes up to 38890 -/

/-- the product of the primes up to 197 -/
def primorial197 : ℕ := primorial 197

/-- how many of `lo, …, lo + 2 ^ d - 1` are coprime to `P` -/
def countCoprime (P : ℕ) : ℕ → ℕ → ℕ
  | 0, lo => if Nat.gcd lo P = 1 then 1 else 0
  | d + 1, lo => countCoprime P d lo + countCoprime P d (lo + 2 ^ d)

theorem countCoprime_eq (P : ℕ) : ∀ d lo, countCoprime P d lo = Nat.count (fun k => Nat.gcd (lo + k) P = 1) (2 ^ d)
  | 0, lo => by
    have h := Nat.count_succ (fun k => Nat.gcd (lo + k) P = 1) 0
    rw [Nat.count_zero, zero_add, zero_add, add_zero] at h
    exact h.symm
  | d + 1, lo => by
    rw [countCoprime, countCoprime_eq P d, countCoprime_eq P d, pow_succ, mul_two, Nat.count_add]
    simp only [Nat.add_assoc]

def countCoprimes (P : ℕ) : List ℕ → ℕ → ℕ
  | [], _ => 0
  | d :: ds, lo => countCoprime P d lo + countCoprimes P ds (lo + 2 ^ d)

theorem countCoprimes_eq (P : ℕ) : ∀ ds lo, countCoprimes P ds lo =
    Nat.count (fun k => Nat.gcd (lo + k) P = 1) (ds.map (2 ^ ·)).sum
  | [], lo => by simp [countCoprimes]
  | d :: ds, lo => by
    rw [countCoprimes, countCoprime_eq, countCoprimes_eq P ds, List.map_cons, List.sum_cons, Nat.count_add]
    simp only [Nat.add_assoc]

theorem pi_38890 : Nat.primeCounting 38890 ≤ 4096 := by
  rw [← count_succ_eq, show 38890 + 1 = 198 + (38693 : ℕ) from rfl, Nat.count_add]
  have h1 : Nat.count Nat.Prime 198 = 45 := by decide +kernel
  have h2 : Nat.count (fun k => Nat.Prime (198 + k)) 38693 ≤
      Nat.count (fun k => Nat.gcd (198 + k) primorial197 = 1) 38693 := by
    apply Nat.count_mono_left
    intro k _ hk
    rw [← Nat.coprime_iff_gcd_eq_one, Nat.Prime.coprime_iff_not_dvd hk, primorial197, hk.dvd_primorial_iff]
    omega
  have h3 : Nat.count (fun k => Nat.gcd (198 + k) primorial197 = 1) 38693 = 4051 := by
    have := countCoprimes_eq primorial197 [15, 12, 10, 9, 8, 5, 2, 0] 198
    rw [show (([15, 12, 10, 9, 8, 5, 2, 0] : List ℕ).map (2 ^ ·)).sum = 38693 from rfl] at this
    rw [← this]
    have hp : primorial197 = 39195588149163123383161804554421175259738677336198748467804183290796540382737190 := by decide +kernel
    rw [hp]
    decide +kernel
  omega

/-! ## the n-th prime is at most n^2 -/

theorem lcmUpto_le (n : ℕ) : Nat.lcmUpto n ≤ n ^ Nat.primeCounting n := by
  rw [Nat.lcmUpto_eq_prod_pow_log, ← Nat.primesLE_card_eq_primeCounting]
  apply Finset.prod_le_pow_card
  intro p hp
  have hp := Nat.mem_primesLE.mp hp
  exact Nat.pow_log_le_self _ (by have := hp.2.pos; omega)

theorem pi_sq_ge {n : ℕ} (hn : 2 ≤ n) : n ≤ Nat.primeCounting (n * n) := by
  rcases Nat.lt_or_ge n 16 with h | h
  · have : ∀ m < 16, 2 ≤ m → m ≤ Nat.primeCounting (m * m) := by decide +kernel
    exact this n h hn
  · by_contra hc
    have h1 := Chebyshev.two_pow_le_mul_lcmUpto (n * n)
    have h2 := lcmUpto_le (n * n)
    have h3 : (n * n) ^ Nat.primeCounting (n * n) ≤ (n * n) ^ (n - 1) := Nat.pow_le_pow_right (by nlinarith) (by omega)
    have h4 : n * n + 1 ≤ (n * n) ^ 2 := by
      have : 2 ≤ n * n := by nlinarith
      generalize n * n = m at *
      nlinarith
    have h5 : 2 ^ (n * n) ≤ (n * n) ^ (n + 1) := by
      calc 2 ^ (n * n) ≤ (n * n + 1) * Nat.lcmUpto (n * n) := h1
        _ ≤ (n * n) ^ 2 * (n * n) ^ (n - 1) := Nat.mul_le_mul h4 (h2.trans h3)
        _ = (n * n) ^ (n + 1) := by rw [← pow_add]; congr 1; omega
    -- n < 2 ^ (n / 3)
    have h6 : n < 2 ^ (n / 3) := by
      have key : ∀ k, 5 ≤ k → 3 * k + 3 ≤ 2 ^ k := by
        intro k hk
        induction k, hk using Nat.le_induction with
        | base => norm_num
        | succ k hk ih => rw [pow_succ]; omega
      have := key (n / 3) (by omega)
      omega
    have h7 : (n * n) ^ (n + 1) < 2 ^ (n * n) := by
      calc (n * n) ^ (n + 1) < (2 ^ (n / 3) * 2 ^ (n / 3)) ^ (n + 1) :=
            Nat.pow_lt_pow_left (Nat.mul_lt_mul'' h6 h6) (by omega)
        _ = 2 ^ (2 * (n / 3) * (n + 1)) := by rw [← pow_add, ← pow_mul]; congr 2; omega
        _ ≤ 2 ^ (n * n) := by
          apply Nat.pow_le_pow_right (by norm_num)
          have : 2 * (n / 3) * 3 ≤ 2 * n := by omega
          generalize n / 3 = t at *
          nlinarith
    omega

theorem nthPrime_le_sq {n : ℕ} (hn : 2 ≤ n) : nthPrime n ≤ n * n :=
  (nthPrime_le_iff (by omega)).mpr (pi_sq_ge hn)

end NumPrime
