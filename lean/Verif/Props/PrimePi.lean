import Verif.Proofs.PrimePi
import Verif.Proofs.PiBounds

/-! # Prime counting: `prime_pi` (C30), `prime_phi` (C31), `nth_prime` (C32) -/

namespace NumPrime
open Spec

/-! ## the estimates

`EstOK bld o n lo hi` (Proofs/PrimePi.lean) says that `nth_prime_bounds(n) = (lo, hi)` with `lo ≤ hi < 2^63` and `p_n < 2^64`,
that `p_n ≤ hi` for `n ≤ 4096`, and that `prime_pi_est` does not fail in between. `GoodEstimates bld o N` says so for `1 ≤ n ≤ N`, with `hi ≤ n^2` beyond
4096. They are only needed to show that a call returns, never for the value it returns. -/

theorem smallPrimes_length_le (bld : Build) : (smallPrimes bld).length ≤ 1024 := by cases bld <;> decide +kernel

/-- inside the table of small primes the estimates are exact, whatever the floating point values are -/
theorem estOK_table {bld : Build} (o : Estimates) {n : ℕ} (h1 : 1 ≤ n) (h2 : n ≤ (smallPrimes bld).length) :
    EstOK bld o n (nthPrime n) (nthPrime n) := by
  have hlt : nthPrime n < 8167 := by
    have hm : (smallPrimes bld)[n - 1]? = some (nthPrime n) :=
      (Buf.inv_new bld).getElem? (by simp only [Buf.new]; omega)
    have := (mem_smallPrimes.mp (List.mem_of_getElem? hm)).2
    have := smallPrimesNext_le bld
    omega
  have hlen := smallPrimes_length_le bld
  exact ⟨nthPrimeBounds_table o h1 h2 (fits_some.mpr (by omega)), le_rfl, fun _ => le_rfl, by omega, by omega, fun _ => by omega,
    fun h => by omega, fun h => by omega⟩

theorem goodEstimates_table {bld : Build} (o : Estimates) {N : ℕ} (h : N ≤ (smallPrimes bld).length) :
    GoodEstimates bld o N :=
  fun _ h1 h2 => ⟨_, _, estOK_table o h1 (by omega), fun h4 => by
    have hlen := smallPrimes_length_le bld
    omega⟩

theorem nthPrime_lower {n : ℕ} (hn : 4096 < n) : 38890 < nthPrime n := by
  by_contra hc
  have := (nthPrime_le_iff (by omega)).mp (not_lt.mp hc)
  have := pi_38890
  omega

/-- estimates that are good for every size that occurs: `p_n ≤ p_n ≤ n^2` -/
noncomputable def idealEstimates : Estimates :=
  ⟨fun x => some (Nat.primeCounting x), fun x => some (Nat.primeCounting x), fun n => some (nthPrime n), fun n => some (n * n),
    fun x => some (Nat.primeCounting x)⟩

theorem primePiEst_ideal (bld : Build) {x : ℕ} (hx : x < 2 ^ 62) : ∃ v, primePiEst bld (some 64) idealEstimates x = .ok v := by
  have hpi : Nat.primeCounting x < 2 ^ 62 := by have := primeCounting_le x; omega
  have hu : ∀ y, y < 2 ^ 64 → unwrapFit (some 64) y = .ok y := fun y hy => by
    simp only [unwrapFit, fits_some.mpr hy, if_true]
  cases bld
  · simp only [primePiEst]
    split
    · rename_i hx
      have h8 : x ≤ 8161 := by have := smallPrimes_last .big; simp only [if_true] at this; omega
      rw [C34_prime_pi_bounds .big _ (some 16) x (fits_some.mpr (by omega)) (by simpa using h8)]
      simp only [Res.bind_ok, ne_eq, not_true, if_false]
      exact ⟨_, hu _ (by omega)⟩
    · exact ⟨_, hu (Nat.primeCounting x) (by omega)⟩
  · have hb : ∃ lo hi, primePiBounds .small (some 64) idealEstimates x = .ok (lo, hi) ∧ lo + hi < 2 ^ 64 := by
      unfold primePiBounds
      split
      · rename_i h
        have h8 : x ≤ 251 := by have := smallPrimes_last .small; rw [if_neg (by decide)] at this; omega
        have := C34_prime_pi_bounds .small idealEstimates (some 64) x (fits_some.mpr (by omega)) (by simpa using h8)
        unfold primePiBounds at this
        rw [if_pos h] at this
        exact ⟨_, _, this, by omega⟩
      · refine ⟨Nat.primeCounting x, Nat.primeCounting x, ?_, by omega⟩
        simp only [idealEstimates, unwrapFloat, hu (Nat.primeCounting x) (by omega), Res.bind_ok, Res.pure_def]
    obtain ⟨lo, hi, h1, h2⟩ := hb
    exact ⟨(lo + hi) / 2, by simp only [primePiEst, h1, Res.bind_ok, cadd_ok (fits_some.mpr h2)]; rfl⟩

theorem goodEstimates_ideal (bld : Build) {N : ℕ} (hN : N ≤ 2 ^ 31) : GoodEstimates bld idealEstimates N := by
  intro n h1 h2
  by_cases ht : n ≤ (smallPrimes bld).length
  · exact goodEstimates_table idealEstimates (N := n) ht n h1 le_rfl
  · have hlen : 54 ≤ (smallPrimes bld).length := by cases bld <;> decide +kernel
    have hsq := nthPrime_le_sq (show 2 ≤ n by omega)
    have hnn : n * n ≤ 2 ^ 31 * 2 ^ 31 := Nat.mul_le_mul (by omega) (by omega)
    refine ⟨nthPrime n, n * n, ⟨?_, hsq, fun _ => hsq, by omega, by omega, fun h => ?_, fun h => ?_, fun _ x _ hx => ?_⟩, fun _ => le_rfl⟩
    · have c1 : ¬ n = 0 := by omega
      have f1 : fits (some 64) (nthPrime n) = true := fits_some.mpr (by omega)
      have f2 : fits (some 64) (n * n) = true := fits_some.mpr (by omega)
      simp only [nthPrimeBounds, c1, ht, if_false, idealEstimates, f1, f2, Bool.and_self, if_true]
    · have : n * n ≤ 4096 * 4096 := Nat.mul_le_mul h h
      omega
    · have := nthPrime_lower h; omega
    · exact primePiEst_ideal bld (by omega)

/-! ## C30 -/

/-- **C30** whenever `prime_pi(x)` returns, after any history of the buffer and whatever the floating point estimates were,
the result is the number of primes up to `x` -/
theorem C30_prime_pi_exact (bld : Build) (hex : NoPseudoprimes bld) (o : Estimates) (g f : ℕ) (b : Buf)
    (h : Reachable bld o g f b) (x : ℕ) (hx : x < 2 ^ 64) (v : ℕ) (b' : Buf) (hr : primePi bld o g f b x = .ok (v, b')) :
    v = Nat.primeCounting x := by
  have := primePi_wp (s := False) (bld := bld) (o := o) (g := g) (fun h => h.elim) f x hx (fun h => h.elim) (fun h => h.elim)
    (fun _ => hex) (fun h => h.elim) b ⟨h.inv, fun h => h.elim⟩
  exact (this.1 _ hr).1

theorem pi_sqrt_small {x : ℕ} (hx : x < 38891 ^ 2) : Nat.primeCounting (Nat.sqrt x) ≤ 4096 := by
  have : Nat.sqrt x < 38891 := by rw [Nat.sqrt_lt']; exact hx
  exact (Nat.monotone_primeCounting (show Nat.sqrt x ≤ 38890 by omega)).trans pi_38890

/-- **C30** the same without assumption on `is_prime64`, below `38891^2 = 1512509881` -/
theorem C30_prime_pi_exact_below (bld : Build) (o : Estimates) (g f : ℕ) (b : Buf) (h : Reachable bld o g f b) (x : ℕ)
    (hx : x < 38891 ^ 2) (v : ℕ) (b' : Buf) (hr : primePi bld o g f b x = .ok (v, b')) : v = Nat.primeCounting x := by
  have := primePi_wp (s := False) (bld := bld) (o := o) (g := g) (fun h => h.elim) f x (by omega) (fun h => h.elim)
    (fun h => h.elim) (fun h => by have := pi_sqrt_small hx; omega) (fun h => h.elim) b ⟨h.inv, fun h => h.elim⟩
  exact (this.1 _ hr).1

/-- **C30 (partial)** Missing: `x = u64::MAX`, where it is false (`C30_prime_pi_max`); that the floating point formulas
meet `GoodEstimates` is shown in Props/Counting.lean. `prime_pi(x)` returns for every `x < u64::MAX`, with enough rounds, if the squares of the stored primes fit and
the estimates are good: no intermediate sum underflows or overflows -/
theorem C30_prime_pi_returns_partial (bld : Build) (hex : NoPseudoprimes bld) (o : Estimates) (x : ℕ) (hx : x + 1 < 2 ^ 64)
    (hest : GoodEstimates bld o (Nat.primeCounting (Nat.sqrt x))) :
    ∃ F, ∀ g f b, F ≤ g → x < f → Reachable bld o g f b → (∀ p ∈ b.iter, p < 2 ^ 32) →
      ∃ b', primePi bld o g f b x = .ok (Nat.primeCounting x, b') := by
  obtain ⟨F, hF⟩ := exists_fuel bld
  refine ⟨F, fun g f b hg hf h hs => ?_⟩
  have := primePi_wp (s := True) (fun _ => hF g hg) f x (by omega) (fun _ => hx) (fun _ => hf)
    (fun _ => hex) (fun _ => hest) b ⟨h.inv, fun _ => hs⟩
  obtain ⟨⟨v, b'⟩, hv⟩ := this.2 trivial
  exact ⟨b', hv.trans (by rw [show v = _ from (this.1 _ hv).1])⟩

/-- **C30** below the square of the table limit nothing is assumed, neither of the estimates nor of `is_prime64` -/
theorem C30_prime_pi_returns_table (bld : Build) (o : Estimates) (x : ℕ) (hx : x < smallPrimesNext bld ^ 2) :
    ∃ F, ∀ g f b, F ≤ g → x < f → Reachable bld o g f b → (∀ p ∈ b.iter, p < 2 ^ 32) →
      ∃ b', primePi bld o g f b x = .ok (Nat.primeCounting x, b') := by
  obtain ⟨F, hF⟩ := exists_fuel bld
  have hN : smallPrimesNext bld ≤ 8167 := smallPrimesNext_le bld
  have hlen := smallPrimes_length_le bld
  have hpi : Nat.primeCounting (Nat.sqrt x) ≤ (smallPrimes bld).length := by
    have h1 : Nat.sqrt x < smallPrimesNext bld := by rw [Nat.sqrt_lt']; exact hx
    have h2 := (Buf.inv_new bld).length_eq
    simp only [Buf.new] at h2
    rw [h2, ← count_succ_eq]
    exact Nat.count_monotone _ h1
  have hsq : smallPrimesNext bld ^ 2 ≤ 8167 ^ 2 := Nat.pow_le_pow_left hN 2
  refine ⟨F, fun g f b hg hf h hs => ?_⟩
  have := primePi_wp (s := True) (o := o) (fun _ => hF g hg) f x (by omega) (fun _ => by omega) (fun _ => hf)
    (fun h => by omega) (fun _ => goodEstimates_table o hpi) b ⟨h.inv, fun _ => hs⟩
  obtain ⟨⟨v, b'⟩, hv⟩ := this.2 trivial
  exact ⟨b', hv.trans (by rw [show v = _ from (this.1 _ hv).1])⟩

theorem primePhi_max_empty {f : Buf → ℕ → Res (ℕ × Buf)} (cap : ℕ) : ∀ (a : ℕ) (b : Buf) (r : ℕ × Buf × Cache),
    primePhiWith f a b ⟨cap, []⟩ (2 ^ 64 - 1) ≠ .ok r := by
  intro a
  induction a with
  | zero => intro b r h; simp [primePhiWith, Cache.get] at h
  | succ a ih =>
    intro b r h
    simp only [primePhiWith] at h
    split at h
    · simp [cadd, fits] at h
    · simp only [Cache.get, List.find?_nil, Res.bind_eq_ok] at h
      obtain ⟨t, ht, _⟩ := h
      exact ih b t ht

/-- **C30** finding: `prime_pi(u64::MAX)` never returns a value. The first term `(x + 1) / 2` of the sieve function
overflows (or already the `reserve` does). -/
theorem C30_prime_pi_max (bld : Build) (o : Estimates) (g f : ℕ) (b : Buf) (h : Reachable bld o g f b) (r : ℕ × Buf) :
    primePi bld o g f b (2 ^ 64 - 1) ≠ .ok r := by
  intro hr
  cases f with
  | zero => simp [primePi] at hr
  | succ f =>
    obtain ⟨last, hl1, -, -⟩ := h.inv.last
    simp only [primePi, hl1] at hr
    split at hr
    · rw [reserve_overflow (by decide)] at hr
      simp at hr
    · simp only [Res.bind_eq_ok] at hr
      obtain ⟨b0, -, ⟨a, b1⟩, -, ⟨b, b2⟩, -, ⟨c, b3⟩, -, hr⟩ := hr
      dsimp only at hr
      split at hr
      · simp at hr
      · simp only [Res.bind_eq_ok] at hr
        obtain ⟨t, ht, _⟩ := hr
        exact primePhi_max_empty _ _ _ _ ht

theorem reachable_start (bld : Build) (o : Estimates) (g f : ℕ) : Reachable bld o g f (Buf.new bld) := ⟨[], rfl⟩

theorem safe_new (bld : Build) : ∀ p ∈ (Buf.new bld).iter, p < 2 ^ 32 := by
  intro p hp
  have := ((Buf.inv_new bld).mem.mp hp).2
  have := smallPrimesNext_le bld
  simp only [Buf.new] at *
  omega

/-- **C30** the free function `prime_pi` -/
theorem C30_nt_prime_pi (bld : Build) (hex : NoPseudoprimes bld) (o : Estimates) (x : ℕ) (hx : x + 1 < 2 ^ 64)
    (hest : GoodEstimates bld o (Nat.primeCounting (Nat.sqrt x))) :
    ∃ F, ∀ g f, F ≤ g → x < f → ntPrimePi bld o g f x = .ok (Nat.primeCounting x) := by
  obtain ⟨F, hF⟩ := C30_prime_pi_returns_partial bld hex o x hx hest
  refine ⟨F, fun g f hg hf => ?_⟩
  obtain ⟨b', hb'⟩ := hF g f _ hg hf (reachable_start bld o g f) (safe_new bld)
  simp only [ntPrimePi, hb', Res.mapR_ok]

-- the hypotheses on the estimates can be met for every `x`
example (bld : Build) (x : ℕ) (hx : x + 1 < 2 ^ 64) : GoodEstimates bld idealEstimates (Nat.primeCounting (Nat.sqrt x)) :=
  goodEstimates_ideal bld (pi_sqrt_le (by omega))

-- the Meissel-Lehmer part runs from 38874 on
example : ntPrimePi .big exampleEstimates 5 2 40000 = .ok 4203 := by decide +kernel
example : ntPrimePi .small exampleEstimates 5 2 100 = .ok 25 := by decide +kernel

/-! ## C31 -/

/-- **C31** whenever `prime_phi(x, a, cache)` returns for `a ≥ 1`, starting from a cache of any capacity that holds only
values of the function, the result is the number of integers in `1..=x` that none of the first `a` primes divides, and the
cache again holds only values of the function -/
theorem C31_prime_phi_exact (bld : Build) (o : Estimates) (g f : ℕ) (b : Buf) (h : Reachable bld o g f b) (x a : ℕ)
    (ha : 1 ≤ a) (ha64 : a < 2 ^ 64) (hex : 4096 < a → NoPseudoprimes bld) (c : Cache)
    (hc : ∀ x a v, ((x, a), v) ∈ c.items → v = legendrePhi x a)
    (v : ℕ) (b' : Buf) (c' : Cache) (hr : b.primePhi bld o g f x a c = .ok (v, b', c')) :
    v = legendrePhi x a ∧ ∀ x a v, ((x, a), v) ∈ c'.items → v = legendrePhi x a := by
  have hn : ∀ n, 1 ≤ n → n ≤ a → NthAt False (Buf.nthPrime bld o g f) n := by
    intro n h1 h2 b hb
    refine nthPrimeWith_wp (lo := 0) (hi := 0) h1 (by omega) (fun h => hex (by omega)) (fun h => h.elim) (fun h => h.elim) ?_ b hb
    intro h4 y hy _
    exact primePi_wp (fun h => h.elim) f y (by omega) (fun h => h.elim) (fun h => h.elim) (fun _ => hex (by omega)) (fun h => h.elim)
  have := primePhiWith_wp (s := False) (f := Buf.nthPrime bld o g f) a b c x ha hn ⟨h.inv, fun h => h.elim⟩
    (fun e he => hc _ _ _ he) (fun h => h.elim)
  obtain ⟨r1, -, r3⟩ := this.1 _ hr
  exact ⟨r1, fun x a v he => r3 _ he⟩

/-- **C31 (partial)** Missing: `x = u64::MAX`, where it is false (`C31_prime_phi_max`); that the floating point formulas
meet `GoodEstimates` is shown in Props/Counting.lean. `prime_phi(x, a, cache)` returns for every `x < u64::MAX` and every `a ≥ 1` for which the first `a` primes are
within reach of the estimates -/
theorem C31_prime_phi_returns_partial (bld : Build) (o : Estimates) (x a : ℕ) (hx : x + 1 < 2 ^ 64) (ha : 1 ≤ a) (ha32 : a < 2 ^ 32)
    (hex : 4096 < a → NoPseudoprimes bld) (hest : GoodEstimates bld o a) :
    ∃ F, ∀ g f b c, F ≤ g → a * a ≤ f → Reachable bld o g f b → (∀ p ∈ b.iter, p < 2 ^ 32) →
      (∀ x a v, ((x, a), v) ∈ c.items → v = legendrePhi x a) →
      ∃ b' c', b.primePhi bld o g f x a c = .ok (legendrePhi x a, b', c') := by
  obtain ⟨F, hF⟩ := exists_fuel bld
  refine ⟨F, fun g f b c hg hf h hs hc => ?_⟩
  have hn : ∀ n, 1 ≤ n → n ≤ a → NthAt True (Buf.nthPrime bld o g f) n := by
    intro n h1 h2 b hb
    obtain ⟨lo, hi, he, hh⟩ := hest n h1 h2
    refine nthPrimeWith_wp (lo := lo) (hi := hi) h1 (by omega) (fun h => hex (by omega)) (fun _ => hF g hg) (fun _ => he) ?_ b hb
    intro h4 y hy hyh
    have hyh := hyh trivial
    have hhi := hh h4
    have hnn : n * n ≤ a * a := Nat.mul_le_mul h2 h2
    have hya : Nat.sqrt y < a := by rw [Nat.sqrt_lt]; omega
    have := primeCounting_le (Nat.sqrt y)
    exact primePi_wp (fun _ => hF g hg) f y (by omega) (fun _ => hy) (fun _ => by omega) (fun _ => hex (by omega))
      (fun _ n' h1' h2' => hest n' h1' (by omega))
  have := primePhiWith_wp (s := True) (f := Buf.nthPrime bld o g f) a b c x ha hn ⟨h.inv, fun _ => hs⟩
    (fun e he => hc _ _ _ he) (fun _ => hx)
  obtain ⟨⟨v, b', c'⟩, hv⟩ := this.2 trivial
  exact ⟨b', c', hv.trans (by rw [show v = _ from (this.1 _ hv).1])⟩

/-- **C31** finding: for `a = 0`, where the function is `x`, a call panics unless the value happens to be cached -/
theorem C31_prime_phi_zero_panics (bld : Build) (o : Estimates) (g f : ℕ) (b : Buf) (x : ℕ) (c : Cache)
    (hc : ∀ v, ((x, 0), v) ∉ c.items) : b.primePhi bld o g f x 0 c = .panic := by
  have : c.get (x, 0) = none := by
    unfold Cache.get
    have : c.items.find? (fun e => e.1 == (x, 0)) = none := by
      rw [List.find?_eq_none]
      rintro ⟨k, v⟩ he h
      have : k = (x, 0) := by simpa using h
      exact hc v (this ▸ he)
    rw [this]
  simp only [Buf.primePhi, primePhiWith, this]

/-- **C31** finding: for `x = u64::MAX` a call with an empty cache never returns a value -/
theorem C31_prime_phi_max (bld : Build) (o : Estimates) (g f : ℕ) (b : Buf) (a cap : ℕ) (r : ℕ × Buf × Cache) :
    b.primePhi bld o g f (2 ^ 64 - 1) a ⟨cap, []⟩ ≠ .ok r := primePhi_max_empty cap a b r

-- a cache of capacity 2 that already holds a value
example : ((Buf.new .small).primePhi .small exampleEstimates 5 5 1000 4 ⟨2, [((1000, 2), 333)]⟩).mapR
    (fun r => (r.1, r.2.2.items)) = .ok (228, [((1000, 4), 228), ((142, 3), 38)]) := by decide +kernel

/-! ## C32 -/

/-- **C32** whenever `nth_prime(n)` returns for `n ≥ 1`, after any history and whatever the floating point estimates were,
the result is the `n`-th prime; up to 4096 this does not depend on `is_prime64` -/
theorem C32_nth_prime_exact (bld : Build) (o : Estimates) (g f : ℕ) (b : Buf) (h : Reachable bld o g f b) (n : ℕ)
    (hn : 1 ≤ n) (hn64 : n < 2 ^ 64) (hex : 4096 < n → NoPseudoprimes bld) (v : ℕ) (b' : Buf)
    (hr : b.nthPrime bld o g f n = .ok (v, b')) : v = nthPrime n := by
  have := nthPrimeWith_wp (s := False) (o := o) (g := g) (pi := primePi bld o g f) (lo := 0) (hi := 0) hn hn64 hex
    (fun h => h.elim) (fun h => h.elim) (fun h4 y hy _ =>
      primePi_wp (fun h => h.elim) f y (by omega) (fun h => h.elim) (fun h => h.elim) (fun _ => hex (by omega)) (fun h => h.elim))
    b ⟨h.inv, fun h => h.elim⟩
  exact (this.1 _ hr).1

/-- **C32 (partial)** `nth_prime(n)` returns if the bounds on the `n`-th prime, and on the primes needed to count up to the upper
bound, are good. Missing: when the floating point formulas meet these conditions, see Props/Counting.lean. -/
theorem C32_nth_prime_returns_partial (bld : Build) (hex : NoPseudoprimes bld) (o : Estimates) (n lo hi : ℕ) (hn : 1 ≤ n)
    (hest : EstOK bld o n lo hi) (hest' : GoodEstimates bld o (Nat.primeCounting (Nat.sqrt hi))) :
    ∃ F, ∀ g f b, F ≤ g → hi ≤ f → Reachable bld o g f b → (∀ p ∈ b.iter, p < 2 ^ 32) →
      ∃ b', b.nthPrime bld o g f n = .ok (nthPrime n, b') := by
  obtain ⟨F, hF⟩ := exists_fuel bld
  refine ⟨F, fun g f b hg hf h hs => ?_⟩
  have hn64 : n < 2 ^ 64 := by
    have h1 := (nthPrime_le_iff hn).mp le_rfl
    have := primeCounting_le (nthPrime n)
    have := hest.lt64
    omega
  have := nthPrimeWith_wp (s := True) (o := o) (g := g) (pi := primePi bld o g f) (lo := lo) (hi := hi) hn hn64 (fun _ => hex)
    (fun _ => hF g hg) (fun _ => hest) (fun h4 y hy hyh => by
      have hyh := hyh trivial
      refine primePi_wp (fun _ => hF g hg) f y (by omega) (fun _ => hy) (fun _ => by omega) (fun _ => hex) (fun _ n' h1' h2' => ?_)
      exact hest' n' h1' (h2'.trans (Nat.monotone_primeCounting (Nat.sqrt_le_sqrt hyh.le))))
    b ⟨h.inv, fun _ => hs⟩
  obtain ⟨⟨v, b'⟩, hv⟩ := this.2 trivial
  exact ⟨b', hv.trans (by rw [show v = _ from (this.1 _ hv).1])⟩

/-- **C32** within the table of small primes nothing is assumed -/
theorem C32_nth_prime_returns_table (bld : Build) (o : Estimates) (n : ℕ) (hn : 1 ≤ n) (hlen : n ≤ (smallPrimes bld).length) :
    ∃ F, ∀ g f b, F ≤ g → Reachable bld o g f b → (∀ p ∈ b.iter, p < 2 ^ 32) →
      ∃ b', b.nthPrime bld o g f n = .ok (nthPrime n, b') := by
  have h1024 := smallPrimes_length_le bld
  obtain ⟨F, hF⟩ := exists_fuel bld
  refine ⟨F, fun g f b hg h hs => ?_⟩
  have := nthPrimeWith_wp (s := True) (o := o) (g := g) (pi := primePi bld o g f) hn (by omega)
    (fun h => by omega) (bld := bld) (hi := nthPrime n) (lo := nthPrime n) (fun _ => hF g hg)
    (fun _ => estOK_table o hn hlen) (fun h => by omega) b ⟨h.inv, fun _ => hs⟩
  obtain ⟨⟨v, b'⟩, hv⟩ := this.2 trivial
  exact ⟨b', hv.trans (by rw [show v = _ from (this.1 _ hv).1])⟩

/-- **C32** `nth_prime(0)` panics -/
theorem C32_nth_prime_zero_panics (bld : Build) (o : Estimates) (g f : ℕ) (b : Buf) (h : Reachable bld o g f b) :
    b.nthPrime bld o g f 0 = .panic := by
  have hlen := h.inv.length
  have : 0 < b.list.length := by omega
  simp only [Buf.nthPrime, nthPrimeWith, this, if_true]
  rfl

/-- **C32** the free function `nth_prime` -/
theorem C32_nt_nth_prime (bld : Build) (hex : NoPseudoprimes bld) (o : Estimates) (n lo hi : ℕ) (hn : 1 ≤ n)
    (hest : EstOK bld o n lo hi) (hest' : GoodEstimates bld o (Nat.primeCounting (Nat.sqrt hi))) :
    ∃ F, ∀ g f, F ≤ g → hi ≤ f → ntNthPrime bld o g f n = .ok (nthPrime n) := by
  obtain ⟨F, hF⟩ := C32_nth_prime_returns_partial bld hex o n lo hi hn hest hest'
  refine ⟨F, fun g f hg hf => ?_⟩
  obtain ⟨b', hb'⟩ := hF g f _ hg hf (reachable_start bld o g f) (safe_new bld)
  simp only [ntNthPrime, hb', Res.mapR_ok]

-- the hypotheses can be met for every `n` up to `2^31`
example (bld : Build) (n : ℕ) (hn : 1 ≤ n) (hn31 : n ≤ 2 ^ 31) : ∃ lo hi, EstOK bld idealEstimates n lo hi ∧
    GoodEstimates bld idealEstimates (Nat.primeCounting (Nat.sqrt hi)) := by
  obtain ⟨lo, hi, h, _⟩ := goodEstimates_ideal bld hn31 n hn le_rfl
  exact ⟨lo, hi, h, goodEstimates_ideal bld (pi_sqrt_le (by have := h.lt; omega))⟩

end NumPrime
