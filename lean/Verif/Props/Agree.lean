import Verif.Props.Consistency

/-! # C112: stepping, counting, listing and testing agree -/

namespace NumPrime
open Spec

theorem primeCounting_gap {n m : ℕ} (hnm : n ≤ m) (h : ∀ q, q.Prime → n < q → m < q) : Nat.primeCounting m = Nat.primeCounting n := by
  induction m, hnm using Nat.le_induction with
  | base => rfl
  | succ m hm ih =>
    rw [← ih fun q hq hn => by have := h q hq hn; omega, Nat.primeCounting, Nat.primeCounting', Nat.count_succ, if_neg, add_zero]
    · rfl
    · intro hp
      have := h _ hp (by omega)
      omega

theorem primeCounting_step {n r : ℕ} (hr : r.Prime) (hlt : n < r) (h : ∀ q, q.Prime → n < q → r ≤ q) :
    Nat.primeCounting r = Nat.primeCounting n + 1 := by
  obtain ⟨s, rfl⟩ : ∃ s, r = s + 1 := ⟨r - 1, by omega⟩
  rw [← primeCounting_gap (n := n) (m := s) (by omega) fun q hq hn => by have := h q hq hn; omega]
  rw [Nat.primeCounting, Nat.primeCounting', Nat.count_succ, if_pos hr]
  rfl

/-- **C112** `next_prime(n) = nth_prime(prime_pi(n) + 1)` -/
theorem C112_next_prime_nth_prime (bld : Build) (N : ℕ) (hN : TestExactBelow bld N) (w : Width) (hstd : StdWidth w)
    (config : Option PrimalityTestConfig) (draws : ℕ → List ℕ) (hdr : GoodDraws draws) (fuel n q : ℕ) (hq : q < N)
    (h1 : nextPrime bld w n config draws fuel = .ok (some q))
    (o : Estimates) (g f : ℕ) (b1 b2 : Buf) (hb1 : Reachable bld o g f b1) (hb2 : Reachable bld o g f b2) (hn : n < 38891 ^ 2)
    (v : ℕ) (b1' : Buf) (h2 : primePi bld o g f b1 n = .ok (v, b1')) (hv : v < 4096)
    (p : ℕ) (b2' : Buf) (h3 : b2.nthPrime bld o g f (v + 1) = .ok (p, b2')) : q = p := by
  obtain ⟨g1, -, g3, g4⟩ := (nextPrime_contract bld w hstd n config draws hdr fuel (some q) h1).1 q rfl
  have hp := accepted_prime64 (lt_of_lt_of_le hq hN.1) (hN.2 q hq) g3
  have e1 := C30_prime_pi_exact_below bld o g f b1 hb1 n hn v b1' h2
  rw [C32_nth_prime_exact bld o g f b2 hb2 (v + 1) (by omega) (by omega) (by omega) p b2' h3]
  exact eq_nthPrime hp (by rw [primeCounting_step hp g1 g4, e1])

/-- **C112** `prev_prime(n) = nth_prime(prime_pi(n - 1))` for `n > 2` -/
theorem C112_prev_prime_nth_prime (bld : Build) (N : ℕ) (hN : TestExactBelow bld N) (w : Width) (hstd : StdWidth w)
    (config : Option PrimalityTestConfig) (draws : ℕ → List ℕ) (hdr : GoodDraws draws) (fuel n q : ℕ) (h2n : 2 < n)
    (hw : fits w n = true) (hnN : n ≤ N) (h1 : prevPrime bld w n config draws fuel = .ok (some q))
    (o : Estimates) (g f : ℕ) (b1 b2 : Buf) (hb1 : Reachable bld o g f b1) (hb2 : Reachable bld o g f b2) (hn : n ≤ 38891 ^ 2)
    (v : ℕ) (b1' : Buf) (h2 : primePi bld o g f b1 (n - 1) = .ok (v, b1')) (hv : v ≤ 4096)
    (p : ℕ) (b2' : Buf) (h3 : b2.nthPrime bld o g f v = .ok (p, b2')) : q = p := by
  obtain ⟨r, hr, g1, g3, g4⟩ := C20_prev_prime_some bld w hstd n h2n hw config draws hdr fuel (some q) h1
  obtain rfl : q = r := Option.some.inj hr
  have hp := accepted_prime64 (lt_of_lt_of_le (show q < N by omega) hN.1) (hN.2 q (by omega)) g3
  have e1 := C30_prime_pi_exact_below bld o g f b1 hb1 (n - 1) (by omega) v b1' h2
  have e2 : Nat.primeCounting (n - 1) = Nat.primeCounting q :=
    primeCounting_gap (by omega) fun s hs hlt => by
      by_contra hc
      have := g4 s hs (by omega)
      omega
  have hv1 : 1 ≤ v := by
    rw [e1, e2]
    have h2 : Nat.primeCounting 2 = 1 := by decide
    rw [← h2]
    exact Nat.monotone_primeCounting hp.two_le
  rw [C32_nth_prime_exact bld o g f b2 hb2 v hv1 (by omega) (by omega) p b2' h3]
  exact eq_nthPrime hp (by rw [e1, e2])

/-- **C112** a number is accepted by `is_prime64` exactly if the count of primes goes up there -/
theorem C112_is_prime_prime_pi (bld : Build) (N : ℕ) (hN : TestExactBelow bld N) (o : Estimates) (g f : ℕ) (b1 b2 : Buf)
    (hb1 : Reachable bld o g f b1) (hb2 : Reachable bld o g f b2) (n : ℕ) (h0 : 1 ≤ n) (hlt : n < N) (hn : n < 38891 ^ 2)
    (v1 v2 : ℕ) (b1' b2' : Buf) (h1 : primePi bld o g f b1 (n - 1) = .ok (v1, b1')) (h2 : primePi bld o g f b2 n = .ok (v2, b2')) :
    v2 = v1 + (if isPrime64 bld n then 1 else 0) := by
  have e1 := C30_prime_pi_exact_below bld o g f b1 hb1 (n - 1) (by omega) v1 b1' h1
  have e2 := C30_prime_pi_exact_below bld o g f b2 hb2 n hn v2 b2' h2
  have hiff : isPrime64 bld n = true ↔ n.Prime := ⟨hN.2 n hlt, fun h => C01_is_prime64_prime bld n h (lt_of_lt_of_le hlt hN.1)⟩
  obtain ⟨m, rfl⟩ : ∃ m, n = m + 1 := ⟨n - 1, by omega⟩
  rw [e1, e2, Nat.add_sub_cancel, Nat.primeCounting, Nat.primeCounting', Nat.count_succ]
  simp only [hiff]
  rfl

/-- **C112** `primes(limit)` lists exactly the numbers up to `limit` that `is_prime64` accepts -/
theorem C112_primes_is_prime (bld : Build) (N : ℕ) (hN : TestExactBelow bld N) (o : Estimates) (g f : ℕ) (b : Buf)
    (hb : Reachable bld o g f b) (limit : ℕ) (hlt : limit < N) (l : List ℕ) (b' : Buf) (h : b.primes limit = .ok (l, b')) (n : ℕ) :
    n ∈ l ↔ n ≤ limit ∧ isPrime64 bld n = true := by
  rw [C24_primes_exact bld o g f b hb limit l b' h, primesUpTo, List.mem_filter, List.mem_range]
  have hiff : n ≤ limit → (isPrime64 bld n = true ↔ n.Prime) := fun hn =>
    ⟨hN.2 n (by omega), fun h => C01_is_prime64_prime bld n h (lt_of_lt_of_le (show n < N by omega) hN.1)⟩
  constructor
  · rintro ⟨h1, h2⟩
    exact ⟨by omega, (hiff (by omega)).mpr (by simpa using h2)⟩
  · rintro ⟨h1, h2⟩
    exact ⟨by omega, by simpa using (hiff h1).mp h2⟩

/-- **C112** for two consecutive entries `p, q` of `primes(limit)`, `next_prime(p) = q` and `prev_prime(q) = p` -/
theorem C112_primes_steps (bld : Build) (N : ℕ) (hN : TestExactBelow bld N) (o : Estimates) (g f : ℕ) (b : Buf)
    (hb : Reachable bld o g f b) (limit : ℕ) (hlt : limit < N) (l : List ℕ) (b' : Buf) (h : b.primes limit = .ok (l, b'))
    (w : Width) (hstd : StdWidth w) (hw : fits w limit = true) (config : Option PrimalityTestConfig) (draws : ℕ → List ℕ)
    (hdr : GoodDraws draws) (fuel i p q : ℕ) (hp : l[i]? = some p) (hq : l[i + 1]? = some q) :
    (∀ r, nextPrime bld w p config draws fuel = .ok r → r = some q) ∧
    (∀ r, prevPrime bld w q config draws fuel = .ok r → r = some p) := by
  rw [C24_primes_exact bld o g f b hb limit l b' h] at hp hq
  have hs : (primesUpTo limit).Pairwise (· < ·) := List.Pairwise.filter _ (List.pairwise_lt_range)
  have mem : ∀ x, x ∈ primesUpTo limit ↔ x ≤ limit ∧ x.Prime := by
    intro x
    simp [primesUpTo]
  obtain ⟨hi, rfl⟩ := List.getElem?_eq_some_iff.mp hp
  obtain ⟨hj, rfl⟩ := List.getElem?_eq_some_iff.mp hq
  obtain ⟨hpl, hpp⟩ := (mem _).mp (List.getElem_mem hi)
  obtain ⟨hql, hqp⟩ := (mem _).mp (List.getElem_mem hj)
  have hpq := List.pairwise_iff_getElem.mp hs i (i + 1) hi hj (by omega)
  have hgap : ∀ s, s.Prime → (primesUpTo limit)[i] < s → (primesUpTo limit)[i + 1] ≤ s := by
    intro s hsp hlt
    rcases Nat.lt_or_ge limit s with hl | hl
    · omega
    · obtain ⟨j, hjl, rfl⟩ := List.mem_iff_getElem.mp ((mem s).mpr ⟨hl, hsp⟩)
      rcases Nat.lt_trichotomy j (i + 1) with hc | rfl | hc
      · exfalso
        rcases Nat.lt_or_ge j i with hd | hd
        · have := List.pairwise_iff_getElem.mp hs j i hjl hi hd
          omega
        · obtain rfl : j = i := by omega
          omega
      · exact le_rfl
      · exact (List.pairwise_iff_getElem.mp hs (i + 1) j hj hjl hc).le
  constructor
  · intro r hr
    obtain ⟨c1, c2⟩ := nextPrime_contract bld w hstd _ config draws hdr fuel r hr
    cases r with
    | none =>
      have := c2 rfl _ hqp hpq
      rw [fits_mono hql hw] at this
      cases this
    | some r =>
      obtain ⟨g1, -, g3, g4⟩ := c1 r rfl
      have h1 := g4 _ hqp hpq
      have hrp := accepted_prime64 (lt_of_lt_of_le (show r < N by omega) hN.1) (hN.2 r (by omega)) g3
      have h2 := hgap r hrp g1
      rw [show r = (primesUpTo limit)[i + 1] by omega]
  · intro r hr
    have h2 := hpp.two_le
    obtain ⟨r, rfl, g1, g3, g4⟩ := C20_prev_prime_some bld w hstd _ (by omega) (fits_mono hql hw) config draws hdr fuel r hr
    have h1 := g4 _ hpp hpq
    have hrp := accepted_prime64 (lt_of_lt_of_le (show r < N by omega) hN.1) (hN.2 r (by omega)) g3
    by_contra hne
    have := hgap r hrp (by
      rcases Nat.lt_or_ge ((primesUpTo limit)[i]) r with h | h
      · exact h
      · exact absurd (congrArg some (show r = (primesUpTo limit)[i] by omega)) hne)
    omega

/-! Non-vacuity: the calls in question return on a new buffer. -/

theorem agree_reachable : Reachable .small exampleEstimates 5 101 (Buf.new .small) := ⟨[], rfl⟩

example : (101 : ℕ) = 101 :=
  C112_next_prime_nth_prime .small (2 ^ 16) (testExact_u16 _) (some 64) (by simp [StdWidth]) none (fun _ => []) (by intro t x hx; simp at hx) 5
    100 101 (by norm_num) (by decide +kernel) exampleEstimates 5 101 (Buf.new .small) (Buf.new .small) agree_reachable agree_reachable
    (by norm_num) 25 (Buf.new .small) (by decide +kernel) (by norm_num) 101 (Buf.new .small) (by decide +kernel)

example : (97 : ℕ) = 97 :=
  C112_prev_prime_nth_prime .small (2 ^ 16) (testExact_u16 _) (some 64) (by simp [StdWidth]) none (fun _ => []) (by intro t x hx; simp at hx) 5
    101 97 (by norm_num) (by rfl) (by norm_num) (by decide +kernel) exampleEstimates 5 101 (Buf.new .small) (Buf.new .small) agree_reachable
    agree_reachable (by norm_num) 25 (Buf.new .small) (by decide +kernel) (by norm_num) 97 (Buf.new .small) (by decide +kernel)

example : (26 : ℕ) = 25 + (if isPrime64 .small 101 then 1 else 0) :=
  C112_is_prime_prime_pi .small (2 ^ 16) (testExact_u16 _) exampleEstimates 5 101 (Buf.new .small) (Buf.new .small) agree_reachable
    agree_reachable 101 (by norm_num) (by norm_num) (by norm_num) 25 26 (Buf.new .small) (Buf.new .small) (by decide +kernel) (by decide +kernel)

example : 89 ∈ [2, 3, 5, 7, 11, 13, 17, 19, 23, 29, 31, 37, 41, 43, 47, 53, 59, 61, 67, 71, 73, 79, 83, 89, 97] ↔
    89 ≤ 100 ∧ isPrime64 .small 89 = true :=
  C112_primes_is_prime .small (2 ^ 16) (testExact_u16 _) exampleEstimates 5 101 (Buf.new .small) agree_reachable 100 (by norm_num) _
    (Buf.new .small) (by decide +kernel) 89

example : ∀ r, nextPrime .small none 89 none (fun _ => []) 9 = .ok r → r = some 97 :=
  (C112_primes_steps .small (2 ^ 16) (testExact_u16 _) exampleEstimates 5 101 (Buf.new .small) agree_reachable 100 (by norm_num)
    [2, 3, 5, 7, 11, 13, 17, 19, 23, 29, 31, 37, 41, 43, 47, 53, 59, 61, 67, 71, 73, 79, 83, 89, 97] (Buf.new .small) (by decide +kernel)
    none (Or.inl rfl) rfl none (fun _ => []) (by intro t x hx; simp at hx) 9 23 89 97 rfl rfl).1

end NumPrime
