import Verif.Proofs.PrimeProd

/-! # The search for pseudoprimes to the bases 2, 7, 61, part 2 of 4

Generated: each theorem covers a range of positions of the largest prime factor in the list `orders`. -/

namespace NumPrime

set_option maxRecDepth 100000

theorem searchRun1 : tops primeProd 1197 (orders.drop 4224) = true := by decide +kernel
theorem searchRun5 : tops primeProd 67 (orders.drop 6082) = true := by decide +kernel
theorem searchRun9 : tops primeProd 25 (orders.drop 6270) = true := by decide +kernel
theorem searchRun13 : tops primeProd 31 (orders.drop 6376) = true := by decide +kernel
theorem searchRun17 : tops primeProd 15 (orders.drop 6483) = true := by decide +kernel

end NumPrime
