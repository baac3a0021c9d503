import Verif.Proofs.Basic
import Mathlib.NumberTheory.LucasPrimality
import Mathlib.Tactic.NormNum.Prime

/-! # Primality of concrete numbers, by the Lucas criterion -/

namespace NumPrime

/-- Lucas primality criterion with a list of the prime factors of `n - 1` -/
theorem pratt {n a : Nat} (fs : List Nat) (hn : 1 < n) (hp : ∀ f ∈ fs, f.Prime) (hprod : fs.prod = n - 1)
    (h1 : powm a (n - 1) n = 1) (h2 : ∀ f ∈ fs, powm a ((n - 1) / f) n ≠ 1) : n.Prime := by
  refine lucas_primality n ((a : ℕ) : ZMod n) ?_ ?_
  · rw [← powm_cast, h1]; simp
  · intro q hq hd
    rw [← hprod] at hd
    obtain ⟨f, hf, hqf⟩ := (Nat.Prime.prime hq).dvd_prod_iff.mp hd
    obtain rfl := (Nat.prime_dvd_prime_iff_eq hq (hp f hf)).mp hqf
    rw [← powm_cast]
    intro hc
    apply h2 q hf
    have h3 : ((powm a ((n - 1) / q) n : ℕ) : ZMod n) = ((1 : ℕ) : ZMod n) := by rw [hc]; simp
    exact (natCast_inj_of_lt (powm_lt _ _ (by omega)) hn).mp h3

/-- the least prime above `2^32` -/
theorem prime_4294967311 : Nat.Prime 4294967311 := by
  refine pratt (a := 3) [2, 3, 3, 5, 131, 364289] (by norm_num) ?_ (by norm_num) (by decide +kernel) ?_
  · intro f hf
    simp only [List.mem_cons, List.not_mem_nil, or_false] at hf
    rcases hf with rfl | rfl | rfl | rfl | rfl | rfl <;> norm_num
  · decide +kernel

end NumPrime
