import Mathlib.Data.Nat.ModEq
import Mathlib.Data.Int.ModEq
import Mathlib.Data.Nat.Prime.Defs
import Mathlib.NumberTheory.LegendreSymbol.JacobiSymbol

/-! # Specification vocabulary: textbook pseudoprimality notions

None of these definitions refers to the model. -/

namespace NumPrime.Spec

/-- `n` is a Fermat probable prime to base `b`: `b^(n-1) ≡ 1 (mod n)`. -/
def FermatPRP (n b : ℕ) : Prop := b ^ (n - 1) ≡ 1 [MOD n]

/-- `n` is a strong probable prime to base `b`: for the decomposition `n - 1 = d * 2^s` with `d` odd,
`b^d ≡ 1` or `b^(d 2^r) ≡ -1` for some `r < s`. -/
def StrongPRP (n b : ℕ) : Prop :=
  ∃ s d : ℕ, d % 2 = 1 ∧ n - 1 = d * 2 ^ s ∧
    (b ^ d ≡ 1 [MOD n] ∨ ∃ r < s, (b : ℤ) ^ (d * 2 ^ r) ≡ -1 [ZMOD n])

/-- Lucas sequence of the first kind, `U_0 = 0, U_1 = 1, U_{k+2} = P U_{k+1} - Q U_k`. -/
def lucasU (P Q : ℤ) : ℕ → ℤ
  | 0 => 0
  | 1 => 1
  | k + 2 => P * lucasU P Q (k + 1) - Q * lucasU P Q k

/-- Lucas sequence of the second kind, `V_0 = 2, V_1 = P, V_{k+2} = P V_{k+1} - Q V_k`. -/
def lucasV (P Q : ℤ) : ℕ → ℤ
  | 0 => 2
  | 1 => P
  | k + 2 => P * lucasV P Q (k + 1) - Q * lucasV P Q k

/-- `n - (D/n)` with the Jacobi symbol `(D/n)`, as a natural number. -/
def lucasIndex (n : ℕ) (D : ℤ) : ℕ := ((n : ℤ) - jacobiSym D n).toNat

/-- `n` is a Lucas probable prime for parameters `P, Q`: `U_{n-(D/n)} ≡ 0 (mod n)`, `D = P² - 4Q`. -/
def LucasPRP (n : ℕ) (P Q : ℤ) : Prop :=
  lucasU P Q (lucasIndex n (P ^ 2 - 4 * Q)) ≡ 0 [ZMOD n]

/-- `n` is a strong Lucas probable prime for `P, Q`: writing `n - (D/n) = d * 2^s` with `d` odd,
`U_d ≡ 0` or `V_{d 2^r} ≡ 0` for some `r < s`. -/
def StrongLucasPRP (n : ℕ) (P Q : ℤ) : Prop :=
  ∃ s d : ℕ, d % 2 = 1 ∧ lucasIndex n (P ^ 2 - 4 * Q) = d * 2 ^ s ∧
    (lucasU P Q d ≡ 0 [ZMOD n] ∨ ∃ r < s, lucasV P Q (d * 2 ^ r) ≡ 0 [ZMOD n])

/-- `n` is an extra strong Lucas probable prime for `P` (with `Q = 1`): writing `n - (D/n) = d * 2^s`,
`U_d ≡ 0` and `V_d ≡ ±2`, or `V_{d 2^r} ≡ 0` for some `r < s - 1`. -/
def ExtraStrongLucasPRP (n : ℕ) (P : ℤ) : Prop :=
  ∃ s d : ℕ, d % 2 = 1 ∧ lucasIndex n (P ^ 2 - 4) = d * 2 ^ s ∧
    ((lucasU P 1 d ≡ 0 [ZMOD n] ∧ (lucasV P 1 d ≡ 2 [ZMOD n] ∨ lucasV P 1 d ≡ -2 [ZMOD n])) ∨
      ∃ r < s - 1, lucasV P 1 (d * 2 ^ r) ≡ 0 [ZMOD n])

/-- `d` is a proper (non-trivial) divisor of `n`. -/
def ProperDivisor (d n : ℕ) : Prop := d ∣ n ∧ 1 < d ∧ d < n

end NumPrime.Spec
