import Verif.Proofs.Buffer
import Verif.Spec.Primes

/-! # The list of primes, the n-th prime and the prime counting function -/

namespace NumPrime
open Tables Spec

theorem infinite_primes : (setOf Nat.Prime).Infinite := Nat.infinite_setOf_prime

theorem nth_prime_prime (i : ℕ) : (Nat.nth Nat.Prime i).Prime := Nat.nth_mem_of_infinite infinite_primes i

theorem nth_lt_nth {i j : ℕ} : Nat.nth Nat.Prime i < Nat.nth Nat.Prime j ↔ i < j := Nat.nth_lt_nth infinite_primes

theorem firstPrimes_sorted (n : ℕ) : (firstPrimes n).Pairwise (· < ·) := by
  rw [firstPrimes, List.pairwise_map]
  exact List.pairwise_lt_range.imp (fun h => nth_lt_nth.mpr h)

theorem mem_firstPrimes {n p : ℕ} : p ∈ firstPrimes n ↔ p.Prime ∧ Nat.count Nat.Prime p < n := by
  simp only [firstPrimes, List.mem_map, List.mem_range]
  constructor
  · rintro ⟨i, hi, rfl⟩
    refine ⟨nth_prime_prime i, ?_⟩
    rw [Nat.count_nth_of_infinite infinite_primes]; exact hi
  · rintro ⟨hp, h⟩
    exact ⟨_, h, Nat.nth_count hp⟩

theorem primesBelow_eq_firstPrimes (n : ℕ) : primesBelow n = firstPrimes (Nat.count Nat.Prime n) := by
  apply sorted_ext (primesBelow_sorted n) (firstPrimes_sorted _)
  intro p
  rw [mem_primesBelow, mem_firstPrimes]
  constructor
  · rintro ⟨h1, h2⟩
    exact ⟨h1, Nat.count_strict_mono h1 h2⟩
  · rintro ⟨h1, h2⟩
    exact ⟨h1, Nat.lt_of_count_lt_count h2⟩

theorem firstPrimes_length (n : ℕ) : (firstPrimes n).length = n := by simp [firstPrimes]

theorem primesBelow_length (n : ℕ) : (primesBelow n).length = Nat.count Nat.Prime n := by
  rw [primesBelow_eq_firstPrimes, firstPrimes_length]

theorem primesUpTo_eq (n : ℕ) : primesUpTo n = primesBelow (n + 1) := rfl

theorem count_succ_eq (n : ℕ) : Nat.count Nat.Prime (n + 1) = Nat.primeCounting n := rfl

theorem firstPrimes_take {m n : ℕ} (h : m ≤ n) : (firstPrimes n).take m = firstPrimes m := by
  rw [firstPrimes, ← List.map_take, List.take_range, Nat.min_eq_left h, firstPrimes]

theorem firstPrimes_getElem? {n i : ℕ} (h : i < n) : (firstPrimes n)[i]? = some (Nat.nth Nat.Prime i) := by
  simp [firstPrimes, h]

/-- in a sorted list of the primes below `N`, searching `x < N` gives the number of primes `≤ x` -/
theorem search_upper {N x : ℕ} (h : x < N) :
    (binarySearch (primesBelow N) x).upper = Nat.primeCounting x := by
  rw [binarySearch_upper (primesBelow_sorted N), ← count_succ_eq, ← primesBelow_length]
  congr 1
  apply sorted_ext ((primesBelow_sorted N).filter _) (primesBelow_sorted _)
  intro p
  simp only [List.mem_filter, mem_primesBelow, decide_eq_true_eq]
  constructor
  · rintro ⟨⟨h1, _⟩, h3⟩; exact ⟨h1, by omega⟩
  · rintro ⟨h1, h2⟩; exact ⟨⟨h1, by omega⟩, by omega⟩

theorem primesBelow_take {N x : ℕ} (h : x < N) :
    (primesBelow N).take (Nat.primeCounting x) = primesUpTo x := by
  rw [primesUpTo_eq, primesBelow_eq_firstPrimes N, primesBelow_eq_firstPrimes (x + 1), count_succ_eq,
    firstPrimes_take]
  rw [← count_succ_eq]
  exact Nat.count_monotone _ h

theorem nth_le_iff {i x : ℕ} : Nat.nth Nat.Prime i ≤ x ↔ i < Nat.primeCounting x := by
  rw [← count_succ_eq, ← Nat.lt_succ_iff]
  constructor
  · intro h
    have := Nat.count_strict_mono (nth_prime_prime i) h
    rwa [Nat.count_nth_of_infinite infinite_primes] at this
  · intro h
    exact Nat.nth_lt_of_lt_count h

theorem nthPrime_le_iff {n x : ℕ} (hn : 1 ≤ n) : nthPrime n ≤ x ↔ n ≤ Nat.primeCounting x := by
  rw [nthPrime, nth_le_iff]; omega

theorem nthPrime_prime (n : ℕ) : (nthPrime n).Prime := nth_prime_prime _

theorem primeCounting_nth (i : ℕ) : Nat.primeCounting (Nat.nth Nat.Prime i) = i + 1 := by
  rw [← count_succ_eq, Nat.count_succ, Nat.count_nth_of_infinite infinite_primes]
  simp [nth_prime_prime]

theorem primeCounting_nthPrime {n : ℕ} (hn : 1 ≤ n) : Nat.primeCounting (nthPrime n) = n := by
  rw [nthPrime, primeCounting_nth]; omega

/-- a prime is determined by its rank -/
theorem eq_nthPrime {p n : ℕ} (hp : p.Prime) (h : Nat.primeCounting p = n) : p = nthPrime n := by
  subst h
  have : Nat.primeCounting p = Nat.count Nat.Prime p + 1 := by
    rw [← count_succ_eq, Nat.count_succ]; simp [hp]
  rw [nthPrime, this, Nat.add_sub_cancel, Nat.nth_count hp]

/-- stepping to the next prime increases the rank by one -/
theorem primeCounting_next {x y : ℕ} (hy : y.Prime) (hxy : x < y) (h : ∀ q, q.Prime → x < q → y ≤ q) :
    Nat.primeCounting y = Nat.primeCounting x + 1 := by
  have h1 : Nat.primeCounting y = Nat.count Nat.Prime y + 1 := by
    rw [← count_succ_eq, Nat.count_succ]; simp [hy]
  rw [h1, ← count_succ_eq, ← primesBelow_length, ← primesBelow_length]
  congr 2
  apply sorted_ext (primesBelow_sorted _) (primesBelow_sorted _)
  intro p
  simp only [mem_primesBelow]
  constructor
  · rintro ⟨h1, h2⟩
    refine ⟨h1, ?_⟩
    by_contra hc
    have := h p h1 (by omega)
    omega
  · rintro ⟨h1, h2⟩; exact ⟨h1, by omega⟩

/-- stepping from a prime to the previous one decreases the rank by one -/
theorem primeCounting_prev {x y : ℕ} (hx : x.Prime) (hyx : y < x) (h : ∀ q, q.Prime → q < x → q ≤ y) :
    Nat.primeCounting x = Nat.primeCounting y + 1 := by
  apply primeCounting_next hx hyx
  intro q hq hyq
  by_contra hc
  have := h q hq (by omega)
  omega

theorem primeCounting_le (x : ℕ) : Nat.primeCounting x ≤ x := by
  rw [← count_succ_eq, Nat.count_succ']
  simp only [Nat.not_prime_zero, if_false, Nat.add_zero]
  exact Nat.count_le _

/-- at most 2 and the odd numbers from 3 on are prime -/
theorem primeCounting_le_half (x : ℕ) : Nat.primeCounting x ≤ x / 2 + 1 := by
  induction x using Nat.strong_induction_on with
  | _ x ih =>
    rcases Nat.lt_or_ge x 4 with h | h
    · interval_cases x <;> decide
    · obtain ⟨y, rfl⟩ : ∃ y, x = y + 2 := ⟨x - 2, by omega⟩
      have h1 := ih y (by omega)
      rw [← count_succ_eq, Nat.count_succ, Nat.count_succ, count_succ_eq]
      have h2 : ¬ ((y + 1).Prime ∧ (y + 2).Prime) := by
        rintro ⟨a, b⟩
        have h3 : (y + 1) % 2 = 1 ∨ y + 1 = 2 := a.eq_two_or_odd.symm
        have h4 : (y + 2) % 2 = 1 ∨ y + 2 = 2 := b.eq_two_or_odd.symm
        have h5 : y + 1 = 2 := by omega
        omega
      have h3 : (if (y + 1).Prime then 1 else 0) + (if (y + 2).Prime then 1 else 0) ≤ 1 := by
        split <;> split <;> simp_all
      have e : y + 1 + 1 = y + 2 := rfl
      rw [e]
      have : (y + 2) / 2 = y / 2 + 1 := by omega
      omega

theorem Buf.Inv.length_eq {b : Buf} (h : b.Inv) : b.list.length = Nat.count Nat.Prime b.next := by
  rw [h.list_eq, primesBelow_length]

theorem Buf.Inv.getElem? {b : Buf} (h : b.Inv) {i : ℕ} (hi : i < b.list.length) :
    b.list[i]? = some (Nat.nth Nat.Prime i) := by
  rw [h.length_eq] at hi
  rw [h.list_eq, primesBelow_eq_firstPrimes]
  exact firstPrimes_getElem? hi

theorem Buf.Inv.take {b : Buf} (h : b.Inv) {n : ℕ} (hn : n ≤ b.list.length) : b.list.take n = firstPrimes n := by
  rw [h.length_eq] at hn
  rw [h.list_eq, primesBelow_eq_firstPrimes, firstPrimes_take hn]

theorem Buf.Inv.last {b : Buf} (h : b.Inv) : ∃ p, b.list.getLast? = some p ∧ p ∈ b.list ∧ ∀ q ∈ b.list, q ≤ p := by
  have hl := h.length
  have hne : b.list ≠ [] := by intro hc; rw [hc] at hl; simp at hl
  refine ⟨b.list.getLast hne, List.getLast?_eq_getLast_of_ne_nil hne, List.getLast_mem hne, fun q hq => ?_⟩
  obtain ⟨l', hl'⟩ : ∃ l', b.list = l' ++ [b.list.getLast hne] := ⟨b.list.dropLast, (List.dropLast_append_getLast hne).symm⟩
  have hs := h.sorted
  rw [hl'] at hs hq
  rw [List.pairwise_append] at hs
  rcases List.mem_append.mp hq with h1 | h1
  · exact (hs.2.2 q h1 _ (by simp)).le
  · simp at h1; omega

end NumPrime
