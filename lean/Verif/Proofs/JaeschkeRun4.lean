import Verif.Proofs.PrimeProd

/-! # The search for pseudoprimes to the bases 2, 7, 61, part 4 of 4

Generated: each theorem covers a range of positions of the largest prime factor in the list `orders`. -/

namespace NumPrime

set_option maxRecDepth 100000

theorem searchRun3 : tops primeProd 180 (orders.drop 5797) = true := by decide +kernel
theorem searchRun7 : tops primeProd 41 (orders.drop 6199) = true := by decide +kernel
theorem searchRun11 : tops primeProd 27 (orders.drop 6320) = true := by decide +kernel
theorem searchRun15 : tops primeProd 26 (orders.drop 6436) = true := by decide +kernel
theorem searchRun19 : tops primeProd 10 (orders.drop 6510) = true := by decide +kernel

end NumPrime
