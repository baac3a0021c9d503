import Verif.Props.RandSafeLiveWide
import Mathlib.Data.Fintype.BigOperators

/-! # How many sequences of random words leave the generators of safe primes without a result -/

namespace NumPrime
open scoped Classical

/-- sequences of `N` words in which the word `v` does not occur -/
theorem card_avoid {W N : ℕ} {v : ℕ} (hv : v < W) {P : (Fin N → Fin W) → Prop} (h : ∀ f, P f → ∀ i, (f i : ℕ) ≠ v) :
    (Finset.univ.filter P).card ≤ (W - 1) ^ N := by
  have hsub : Finset.univ.filter P ⊆ Fintype.piFinset fun _ : Fin N => (Finset.univ : Finset (Fin W)).erase ⟨v, hv⟩ := by
    intro f hf
    rw [Fintype.mem_piFinset]
    intro i
    refine Finset.mem_erase.mpr ⟨fun e => h f (Finset.mem_filter.mp hf).2 i (by rw [e]), Finset.mem_univ _⟩
  refine le_trans (Finset.card_le_card hsub) ?_
  rw [Fintype.card_piFinset]
  simp

/-- the stream of random numbers begins with the words `ws` -/
def Spec.BeginsWith {W N : ℕ} (src : RandSource) (ws : Fin N → Fin W) : Prop := ∀ i : Fin N, src.value i = ws i

/-- **C121** (default build) of the `(2^b)^N` sequences of `N` random words at most `(2^b - 1)^N` begin a stream for which
`gen_safe_prime(bits)` or `gen_safe_prime_exact(bits)` has not returned after `N` attempts: the probability of that tends to 0.
`u8` to `u64`, bit sizes from 3 on -/
theorem C121_unfinished_words (b : ℕ) (hb : PrimWidth b) (bits : ℕ) (h3 : 3 ≤ bits) (hbits : bits ≤ b) (N : ℕ) :
    (Finset.univ.filter fun ws : Fin N → Fin (2 ^ b) => ∃ src : RandSource, Spec.BeginsWith src ws ∧
      ¬ ((∃ F r, ∀ fuel, F ≤ fuel → genSafePrimePrim .big src b fuel bits N 0 = .ok r) ∧
        (∃ F r, ∀ fuel, F ≤ fuel → genSafePrimeExactPrim .big src b fuel bits N 0 = .ok r))).card ≤ (2 ^ b - 1) ^ N := by
  obtain ⟨v, hv, h⟩ := C121_returns_on_some_word b hb bits h3 hbits
  refine card_avoid hv ?_
  rintro ws ⟨src, hw, hn⟩ i hi
  apply hn
  obtain ⟨⟨F, r, h1⟩, ⟨F', r', h2⟩⟩ := h src 0 i (by rw [Nat.zero_add, hw i, hi])
  exact ⟨⟨F, r, fun fuel hf => h1 fuel N hf i.isLt⟩, ⟨F', r', fun fuel hf => h2 fuel N hf i.isLt⟩⟩

/-- the primality tests return, whatever the number tested: the random bases suffice (C14) -/
structure Spec.TestsReturn (src : RandSource) (w : Width) : Prop where
  good : ∀ k, GoodDraws (src.draws k)
  returns : ∀ k t config, config = none ∨ config = some .strict → fits w t = true →
    isPrimeNew .big w t config (src.draws k t) ≠ .timeout

/-- **C121** (default build) `u128`, bit sizes from 3 to 128 -/
theorem C121_unfinished_words_u128 (bits : ℕ) (h3 : 3 ≤ bits) (hbits : bits ≤ 128) (N : ℕ) :
    (Finset.univ.filter fun ws : Fin N → Fin (2 ^ 128) => ∃ src : RandSource, Spec.BeginsWith src ws ∧ Spec.TestsReturn src (some 128) ∧
      ¬ ((∃ F r, ∀ fuel, F ≤ fuel → genSafePrime128 .big src fuel bits N 0 = .ok r) ∧
        (∃ F r, ∀ fuel, F ≤ fuel → genSafePrimeExact128 .big src fuel bits N 0 = .ok r))).card ≤ (2 ^ 128 - 1) ^ N := by
  obtain ⟨v, hv, h⟩ := C121_returns_on_some_word_u128 bits h3 hbits
  refine card_avoid hv ?_
  rintro ws ⟨src, hw, ht, hn⟩ i hi
  apply hn
  obtain ⟨⟨F, r, h1⟩, ⟨F', r', h2⟩⟩ := h src ht.good ht.returns 0 i (by rw [Nat.zero_add, hw i, hi])
  exact ⟨⟨F, r, fun fuel hf => h1 fuel N hf i.isLt⟩, ⟨F', r', fun fuel hf => h2 fuel N hf i.isLt⟩⟩

/-- **C121** (default build) `BigUint`, bit sizes from 3 to 128: of the `(2^bits)^N` sequences of `N` numbers drawn -/
theorem C121_unfinished_words_big (bits : ℕ) (h3 : 3 ≤ bits) (h128 : bits ≤ 128) (N : ℕ) :
    (Finset.univ.filter fun ws : Fin N → Fin (2 ^ bits) => ∃ src : RandSource, Spec.BeginsWith src ws ∧ Spec.TestsReturn src none ∧
      ¬ ((∃ F r, ∀ fuel, F ≤ fuel → genSafePrimeBig .big src fuel bits N 0 = .ok r) ∧
        (∃ F r, ∀ fuel, F ≤ fuel → genSafePrimeExactBig .big src fuel bits N 0 = .ok r))).card ≤ (2 ^ bits - 1) ^ N := by
  obtain ⟨v, hv, h⟩ := C121_returns_on_some_number_big bits h3 h128
  refine card_avoid hv ?_
  rintro ws ⟨src, hw, ht, hn⟩ i hi
  apply hn
  obtain ⟨⟨F, r, h1⟩, ⟨F', r', h2⟩⟩ := h src ht.good (fun k t => ht.returns k t _ (Or.inr rfl) rfl) 0 i (by rw [Nat.zero_add, hw i, hi])
  exact ⟨⟨F, r, fun fuel hf => h1 fuel N hf i.isLt⟩, ⟨F', r', fun fuel hf => h2 fuel N hf i.isLt⟩⟩

example : Spec.TestsReturn ⟨fun i => 31 - 4 * i, fun _ _ => [5, 7, 11]⟩ none := by
  refine ⟨fun _ => draws_good, fun k t config hc hw => ?_⟩
  rcases hc with rfl | rfl
  · obtain ⟨r, hr⟩ := C14_is_prime_returns .big none (Or.inl rfl) (smallPrimes .big) t hw none [5, 7, 11] (by decide +kernel)
    rw [isPrimeNew, hr]
    simp
  · exact strict_returns (Or.inl rfl) hw

end NumPrime
