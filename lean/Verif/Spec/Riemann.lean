import Mathlib.Analysis.SpecialFunctions.Log.Basic
import Mathlib.Topology.Algebra.InfiniteSum.Real

/-! # Riemann's R function -/

namespace NumPrime.Spec

/-- `ζ(s) = 1 + 1/2^s + 1/3^s + ...` -/
noncomputable def zeta (s : ℕ) : ℝ := ∑' n : ℕ, 1 / ((n : ℝ) + 1) ^ s

/-- Riemann's function `R(x)` by the series of Gram: `1 + ∑ k ≥ 1, (ln x)^k / (k * k! * ζ(k + 1))` -/
noncomputable def riemannR (x : ℝ) : ℝ :=
  1 + ∑' k : ℕ, Real.log x ^ (k + 1) / ((k + 1 : ℕ) * (k + 1).factorial * zeta (k + 2))

end NumPrime.Spec
