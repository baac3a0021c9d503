import Verif.Props.Counting
import Verif.Props.Exact32
import Verif.Props.Lucky

/-! # Prime counting without big tables: C30, C31, C32, C74 with nothing assumed of `is_prime64`

`prime_pi`, `prime_phi` and `nth_prime` call `is_prime64` on numbers near the `n`-th prime only. Without the `big-table` feature the
test is exact below `2^32`, so in that build the theorems of Props/Counting.lean hold with nothing assumed as long as these
numbers stay below `2^32`. -/

namespace NumPrime
open Tables Spec

theorem exactUpTo_u32 : ExactUpTo True .small (2 ^ 32 - 1) :=
  fun _ _ h => (isPrime64_exact_u32 (by have := h trivial; omega)).mp

theorem nth_far_u32 {F : FloatOps} (hF : F.Accurate) {n : ℕ} (h : 759401 < n) (hn : n ≤ 18 * 10 ^ 7) :
    ⌊fNthHi F n⌋₊ < 2 ^ 32 := by
  have hn9 : n ≤ 2 ^ 990 := by
    have h9 : (2 : ℕ) ^ 64 ≤ 2 ^ 990 := Nat.pow_le_pow_right (by norm_num) (by norm_num)
    omega
  obtain ⟨-, -, h3⟩ := fNth_far hF h hn9
  have hn0 : (759401 : ℝ) ≤ n := by exact_mod_cast h.le
  have hl1 := log_ge_of (n := 13) (c := 759401) (by norm_num) h.le (by omega)
  push_cast at hl1
  have hll0 : 0 ≤ Real.log (Real.log n) := Real.log_nonneg (by linarith)
  have h2 := Real.log_two_lt_d9
  have hnr : (n : ℝ) ≤ 180000000 := by exact_mod_cast hn
  have hl : Real.log n ≤ 1941 / 100 := by
    have h4 : Real.log n ≤ Real.log (2 ^ 28) := Real.log_le_log (by linarith) (by norm_num; linarith)
    rw [Real.log_pow] at h4
    push_cast at h4
    linarith
  have hll : Real.log (Real.log n) ≤ 301 / 100 := by
    have h4 : Real.log (Real.log n ^ 3) ≤ Real.log (2 ^ 13) := by
      refine Real.log_le_log (by positivity) (le_trans (pow_le_pow_left₀ (by linarith) hl 3) ?_)
      norm_num
    rw [Real.log_pow, Real.log_pow] at h4
    push_cast at h4
    linarith
  have h5 : fNthHi F n ≤ n * (2342 / 100) := h3.trans (mul_le_mul_of_nonneg_left (by linarith) (by linarith))
  refine (Nat.floor_lt' (by norm_num)).mpr ?_
  norm_num
  linarith

/-- the estimates stay below `2^32` as long as the primes do -/
theorem goodEstimates_u32 (F : FloatOps) (hF : F.Accurate) {N : ℕ} (hN : N ≤ 18 * 10 ^ 7)
    (hp : ∀ n, 1 ≤ n → n ≤ N → nthPrime n < 2 ^ 32) : GoodEstimatesUpTo .small (floatEstimates F) N (2 ^ 32 - 1) := by
  intro n h1 h2
  obtain ⟨lo, hi, he, hh⟩ := goodEstimates_float .small F hF (N := N) (by omega) n h1 h2
  refine ⟨lo, hi, he, fun h4 => ⟨hh h4, ?_, by have := hp n h1 h2; omega⟩⟩
  have hlen := smallPrimes_length_le .small
  have h9 : (2 : ℕ) ^ 64 ≤ 2 ^ 990 := Nat.pow_le_pow_right (by norm_num) (by norm_num)
  have hb := nthBounds_eq (bld := .small) (w := some 64) hF (show ¬ n ≤ (smallPrimes .small).length by omega) (show n ≤ 2 ^ 990 by omega)
  rw [he.bounds] at hb
  have hhi : hi = ⌊fNthHi F n⌋₊ := by
    split at hb
    · simp only [Res.ok.injEq, Option.some.injEq, Prod.mk.injEq] at hb; exact hb.2
    · simp at hb
  rw [hhi]
  rcases Nat.lt_or_ge 759401 n with h | h
  · have := nth_far_u32 hF h (by omega); omega
  · obtain ⟨-, -, -, -, k5, -, -⟩ := nthBounds_float (bld := .small) F hF (by omega) h (by omega) (some 64)
    have hp : nthPrime n ≤ 11534336 - 1 := (nthPrime_le_iff (by omega)).mpr (by rw [← estRange.1.count]; exact h)
    omega

theorem nthPrime_u32 {n : ℕ} (h1 : 1 ≤ n) (hn : n ≤ 13 * 10 ^ 7) : nthPrime n < 2 ^ 32 := by
  have := (nthPrime_le_iff h1).mpr (hn.trans pi_32)
  omega

theorem sqrt_62 {x : ℕ} (hx : x < 2 ^ 62) : Nat.primeCounting (Nat.sqrt x) ≤ 18 * 10 ^ 7 ∧
    ∀ n, 1 ≤ n → n ≤ Nat.primeCounting (Nat.sqrt x) → nthPrime n < 2 ^ 32 := by
  have hs : Nat.sqrt x < 2 ^ 31 := by rw [Nat.sqrt_lt']; omega
  refine ⟨(Nat.monotone_primeCounting hs.le).trans pi_31, fun n h1 h2 => ?_⟩
  have := (nthPrime_le_iff h1).mpr h2
  omega

/-- **C30** without big tables `prime_pi(x)` returns the number of primes up to `x` for every `x < 2^62`, with the floating
point bounds of the crate and after any history in which the stored primes stayed below `2^32`; nothing is assumed of `is_prime64` -/
theorem C30_prime_pi_u62 (F : FloatOps) (hF : F.Accurate) (x : ℕ) (hx : x < 2 ^ 62) :
    ∃ G, ∀ g f b, G ≤ g → x < f → Reachable .small (floatEstimates F) g f b → (∀ p ∈ b.iter, p < 2 ^ 32) →
      ∃ b', primePi .small (floatEstimates F) g f b x = .ok (Nat.primeCounting x, b') := by
  obtain ⟨G, hG⟩ := exists_fuel .small
  obtain ⟨h1, h2⟩ := sqrt_62 hx
  refine ⟨G, fun g f b hg hf h hs => ?_⟩
  have := primePi_wp_upTo (s := True) (o := floatEstimates F) (fun _ => hG g hg) f x (by omega) (fun _ => by omega) (fun _ => hf)
    (fun _ => exactUpTo_u32) (fun _ => goodEstimates_u32 F hF h1 h2) b ⟨h.inv, fun _ => hs⟩
  obtain ⟨⟨v, b'⟩, hv⟩ := this.2 trivial
  exact ⟨b', hv.trans (by rw [show v = _ from (this.1 _ hv).1])⟩

/-- **C30** the same for the free function -/
theorem C30_nt_prime_pi_u62 (F : FloatOps) (hF : F.Accurate) (x : ℕ) (hx : x < 2 ^ 62) :
    ∃ G, ∀ g f, G ≤ g → x < f → ntPrimePi .small (floatEstimates F) g f x = .ok (Nat.primeCounting x) := by
  obtain ⟨G, hG⟩ := C30_prime_pi_u62 F hF x hx
  refine ⟨G, fun g f hg hf => ?_⟩
  obtain ⟨b', hb'⟩ := hG g f _ hg hf (reachable_start .small _ g f) (safe_new .small)
  simp only [ntPrimePi, hb', Res.mapR_ok]

theorem nthAt_u32 {F : FloatOps} (hF : F.Accurate) {g f n : ℕ} (hg : EnoughFuel .small g) (hf : 2 ^ 32 ≤ f) (hn : 1 ≤ n)
    (h7 : n ≤ 13 * 10 ^ 7) : NthAt True (Buf.nthPrime .small (floatEstimates F) g f) n := by
  have hest := goodEstimates_u32 F hF (N := 13 * 10 ^ 7) (by omega) (fun n h1 h2 => nthPrime_u32 h1 h2)
  intro b hb
  obtain ⟨lo, hi, he, hh⟩ := hest n hn h7
  refine nthPrimeWith_wp_upTo (lo := lo) (hi := hi) hn (by omega) (fun _ => exactUpTo_u32) (fun _ => hg) (fun _ => he)
    (fun _ h => (hh h).2) ?_ b hb
  intro h4 y _ hyh
  have hyh := hyh trivial
  have := (hh h4).2.1
  obtain ⟨h1, h2⟩ := sqrt_62 (show y < 2 ^ 62 by omega)
  exact primePi_wp_upTo (fun _ => hg) f y (by omega) (fun _ => by omega) (fun _ => by omega) (fun _ => exactUpTo_u32)
    (fun _ => goodEstimates_u32 F hF h1 h2)

/-- **C31** without big tables `prime_phi(x, a, cache)` returns the number of integers in `1..=x` that none of the first `a` primes
divides, for every `x < u64::MAX` and `1 ≤ a ≤ 13 * 10^7`; nothing is assumed of `is_prime64` -/
theorem C31_prime_phi_u32 (F : FloatOps) (hF : F.Accurate) (x a : ℕ) (hx : x < 2 ^ 64 - 1) (ha : 1 ≤ a) (ha7 : a ≤ 13 * 10 ^ 7) :
    ∃ G, ∀ g f b c, G ≤ g → 2 ^ 32 ≤ f → Reachable .small (floatEstimates F) g f b → (∀ p ∈ b.iter, p < 2 ^ 32) →
      (∀ x a v, ((x, a), v) ∈ c.items → v = legendrePhi x a) →
      ∃ b' c', b.primePhi .small (floatEstimates F) g f x a c = .ok (legendrePhi x a, b', c') := by
  obtain ⟨G, hG⟩ := exists_fuel .small
  refine ⟨G, fun g f b c hg hf h hs hc => ?_⟩
  have := primePhiWith_wp (s := True) (f := Buf.nthPrime .small (floatEstimates F) g f) a b c x ha
    (fun n h1 h2 => nthAt_u32 hF (hG g hg) hf h1 (by omega)) ⟨h.inv, fun _ => hs⟩ (fun e he => hc _ _ _ he) (fun _ => by omega)
  obtain ⟨⟨v, b', c'⟩, hv⟩ := this.2 trivial
  exact ⟨b', c', hv.trans (by rw [show v = _ from (this.1 _ hv).1])⟩

/-- **C32** without big tables `nth_prime(n)` returns the `n`-th prime for every `1 ≤ n ≤ 13 * 10^7`; nothing is assumed of
`is_prime64` -/
theorem C32_nth_prime_u32 (F : FloatOps) (hF : F.Accurate) (n : ℕ) (hn : 1 ≤ n) (h7 : n ≤ 13 * 10 ^ 7) :
    ∃ G, ∀ g f b, G ≤ g → 2 ^ 32 ≤ f → Reachable .small (floatEstimates F) g f b → (∀ p ∈ b.iter, p < 2 ^ 32) →
      ∃ b', b.nthPrime .small (floatEstimates F) g f n = .ok (nthPrime n, b') := by
  obtain ⟨G, hG⟩ := exists_fuel .small
  refine ⟨G, fun g f b hg hf h hs => ?_⟩
  have := nthAt_u32 hF (hG g hg) hf hn h7 b ⟨h.inv, fun _ => hs⟩
  obtain ⟨⟨v, b'⟩, hv⟩ := this.2 trivial
  exact ⟨b', hv.trans (by rw [show v = _ from (this.1 _ hv).1])⟩

/-- **C32** the same for the free function -/
theorem C32_nt_nth_prime_u32 (F : FloatOps) (hF : F.Accurate) (n : ℕ) (hn : 1 ≤ n) (h7 : n ≤ 13 * 10 ^ 7) :
    ∃ G, ∀ g f, G ≤ g → 2 ^ 32 ≤ f → ntNthPrime .small (floatEstimates F) g f n = .ok (nthPrime n) := by
  obtain ⟨G, hG⟩ := C32_nth_prime_u32 F hF n hn h7
  refine ⟨G, fun g f hg hf => ?_⟩
  obtain ⟨b', hb'⟩ := hG g f _ hg hf (reachable_start .small _ g f) (safe_new .small)
  simp only [ntNthPrime, hb', Res.mapR_ok]

/-- **C74 (partial)** without big tables `list_lucky_primes(limit)` is right for every `limit` up to `2^32`, with nothing assumed of
`is_prime64`. Missing: the limits 6 and 7, for which 5 is listed (`C74_lucky_numbers_six`). -/
theorem C74_lucky_primes_u32_partial (limit : ℕ) (h6 : limit ≠ 6) (h7 : limit ≠ 7) (fuel : ℕ) (hf : limit < fuel)
    (h32 : limit ≤ 2 ^ 32) :
    ∃ l, listLuckyPrimes .small fuel limit = .ok l ∧ l.Pairwise (· < ·) ∧ ∀ n, n ∈ l ↔ Lucky n ∧ n.Prime ∧ n < limit := by
  obtain ⟨l, h1, h2, h3⟩ := C74_lucky_numbers_partial limit h6 h7 fuel hf
  refine ⟨l.filter (isPrime64 .small), by simp only [listLuckyPrimes, h1, Res.mapR_ok], h2.filter _, fun n => ?_⟩
  rw [List.mem_filter, h3]
  constructor
  · rintro ⟨⟨a, b⟩, c⟩
    exact ⟨a, (isPrime64_exact_u32 (by omega)).mp c, b⟩
  · rintro ⟨a, b, c⟩
    exact ⟨⟨a, c⟩, (isPrime64_exact_u32 (by omega)).mpr b⟩

example : listLuckyPrimes .small 100 80 = .ok [3, 7, 13, 31, 37, 43, 67, 73, 79] := by decide +kernel

-- correctly rounded arithmetic meets the hypothesis
example : ∃ G, ∀ g f, G ≤ g → 2 ^ 32 ≤ f →
    ntNthPrime .small (floatEstimates FloatOps.ieee) g f 100000000 = .ok (nthPrime 100000000) :=
  C32_nt_nth_prime_u32 _ ieee_accurate _ (by norm_num) (by norm_num)

end NumPrime
