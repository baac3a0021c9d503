import Mathlib.Data.Nat.Prime.Defs
import Mathlib.Order.Bounds.Basic
import Mathlib.Data.Nat.Nth
import Mathlib.NumberTheory.PrimeCounting

/-! # Specification vocabulary: primes in order

`Nat.nth Nat.Prime i` is Mathlib's `i`-th prime counting from 0; `Nat.primeCounting x` its number of primes `≤ x`. -/

namespace NumPrime.Spec

/-- `p` is the least prime greater than `n` -/
def IsNextPrime (n p : ℕ) : Prop := IsLeast {q : ℕ | q.Prime ∧ n < q} p

/-- `p` is the greatest prime less than `n` -/
def IsPrevPrime (n p : ℕ) : Prop := IsGreatest {q : ℕ | q.Prime ∧ q < n} p

/-- the `n`-th prime, counting from 1 (as in the documentation of the crate) -/
noncomputable def nthPrime (n : ℕ) : ℕ := Nat.nth Nat.Prime (n - 1)

/-- the first `n` primes in increasing order -/
noncomputable def firstPrimes (n : ℕ) : List ℕ := (List.range n).map (Nat.nth Nat.Prime)

/-- all primes `≤ n` in increasing order -/
def primesUpTo (n : ℕ) : List ℕ := (List.range (n + 1)).filter (fun p => Nat.Prime p)

/-- Legendre's function `φ(x, a)`: how many of `1, …, x` are divisible by none of the first `a` primes -/
noncomputable def legendrePhi (x a : ℕ) : ℕ :=
  ((Finset.Icc 1 x).filter (fun n => ∀ p ∈ firstPrimes a, ¬ p ∣ n)).card

end NumPrime.Spec
