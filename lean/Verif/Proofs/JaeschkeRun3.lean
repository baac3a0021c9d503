import Verif.Proofs.PrimeProd

/-! # The search for pseudoprimes to the bases 2, 7, 61, part 3 of 4

Generated: each theorem covers a range of positions of the largest prime factor in the list `orders`. -/

namespace NumPrime

set_option maxRecDepth 100000

theorem searchRun2 : tops primeProd 376 (orders.drop 5421) = true := by decide +kernel
theorem searchRun6 : tops primeProd 50 (orders.drop 6149) = true := by decide +kernel
theorem searchRun10 : tops primeProd 25 (orders.drop 6295) = true := by decide +kernel
theorem searchRun14 : tops primeProd 29 (orders.drop 6407) = true := by decide +kernel
theorem searchRun18 : tops primeProd 12 (orders.drop 6498) = true := by decide +kernel

end NumPrime
