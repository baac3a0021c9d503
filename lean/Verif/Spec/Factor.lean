import Mathlib.Data.Nat.Factorization.Defs
import Mathlib.Data.Nat.Prime.Defs

/-! # Specification vocabulary: factorizations

A factor map is a list of pairs (factor, exponent). None of these definitions refers to the model. -/

namespace NumPrime.Spec

/-- the product of `p ^ e` over a factor map -/
def product (m : List (ℕ × ℕ)) : ℕ := (m.map (fun x => x.1 ^ x.2)).prod

/-- keys are listed once, in increasing order (as `BTreeMap` iterates) -/
def Ordered (m : List (ℕ × ℕ)) : Prop := (m.map Prod.fst).Pairwise (· < ·)

/-- `m` lists exactly the primes dividing `n`, each with its multiplicity in `n` -/
def IsFactorization (m : List (ℕ × ℕ)) (n : ℕ) : Prop :=
  Ordered m ∧ ∀ p e, (p, e) ∈ m ↔ p.Prime ∧ p ∣ n ∧ e = n.factorization p

end NumPrime.Spec
