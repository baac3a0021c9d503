import Mathlib.Data.Nat.Nth

/-! # Specification vocabulary: lucky numbers -/

namespace NumPrime.Spec
open Classical

/-- the numbers left after `k` rounds of the lucky number sieve: start with the odd numbers; round `k + 1` takes the number `s` at
position `k + 1` (counting from 0) and strikes out every `s`-th of the numbers that are left. Among the numbers that are left,
`n` is number `Nat.count _ n + 1`. -/
noncomputable def LuckyRound : ℕ → ℕ → Prop
  | 0 => fun n => n % 2 = 1
  | k + 1 => fun n => LuckyRound k n ∧ ¬ Nat.nth (LuckyRound k) (k + 1) ∣ Nat.count (LuckyRound k) n + 1

/-- a lucky number is never struck out, https://en.wikipedia.org/wiki/Lucky_number -/
def Lucky (n : ℕ) : Prop := ∀ k, LuckyRound k n

end NumPrime.Spec
