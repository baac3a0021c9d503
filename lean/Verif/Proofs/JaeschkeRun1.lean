import Verif.Proofs.PrimeProd

/-! # The search for pseudoprimes to the bases 2, 7, 61, part 1 of 4

Generated: each theorem covers a range of positions of the largest prime factor in the list `orders`. -/

namespace NumPrime

set_option maxRecDepth 100000

theorem searchRun0 : tops primeProd 4224 (orders.drop 0) = true := by decide +kernel
theorem searchRun4 : tops primeProd 105 (orders.drop 5977) = true := by decide +kernel
theorem searchRun8 : tops primeProd 30 (orders.drop 6240) = true := by decide +kernel
theorem searchRun12 : tops primeProd 29 (orders.drop 6347) = true := by decide +kernel
theorem searchRun16 : tops primeProd 21 (orders.drop 6462) = true := by decide +kernel
theorem searchRun20 : tops primeProd 17 (orders.drop 6520) = true := by decide +kernel

end NumPrime
