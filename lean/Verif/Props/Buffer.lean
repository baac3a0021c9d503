import Verif.Proofs.BufferOps

/-! # C23 – C29, C33 – C35: the prime buffer

`Reachable bld o g f b`: `b` is the state of a buffer after some sequence of calls (any arguments) on a new buffer. `o`
stands for the floating point estimates, `g` and `f` bound loops and recursion of the calls in the history; all theorems
hold for all values of these. -/

namespace NumPrime
open Tables Spec

/-- a buffer produced by some history of calls -/
def Reachable (bld : Build) (o : Estimates) (g f : ℕ) (b : Buf) : Prop :=
  ∃ ops, (Buf.new bld).run bld o g f ops = .ok b

theorem Reachable.inv {bld o g f} {b : Buf} (h : Reachable bld o g f b) : b.Inv := by
  obtain ⟨ops, h⟩ := h
  exact run_keeps ops _ _ (Buf.inv_new bld) h

/-- estimates used in examples -/
def exampleEstimates : Estimates := ⟨fun _ => some 0, fun _ => some 0, fun _ => some 0, fun n => some (n * 20), fun _ => some 0⟩

/-- **C23** after any history the stored list is the increasing list of all primes below some odd bound -/
theorem C23_buffer_invariant (bld : Build) (o : Estimates) (g f : ℕ) (b : Buf) (h : Reachable bld o g f b) :
    ∃ N, N % 2 = 1 ∧ b.iter = (List.range N).filter (fun p => Nat.Prime p) ∧ b.iter.Pairwise (· < ·) :=
  ⟨b.next, h.inv.odd, h.inv.list_eq, h.inv.sorted⟩

-- a history with growing, clearing and growing again
example : Reachable .small exampleEstimates 5 5 ⟨(List.range 113).filter (fun p => Nat.Prime p), 113⟩ :=
  ⟨[.reserve 300, .clear, .primes 60, .reserve 61, .nprimes 5, .primePi 110], by decide +kernel⟩

/-- **C24** `primes(limit)` yields exactly the primes `≤ limit`, in order, after any history -/
theorem C24_primes_exact (bld : Build) (o : Estimates) (g f : ℕ) (b : Buf) (h : Reachable bld o g f b) (limit : ℕ)
    (l : List ℕ) (b' : Buf) (hr : b.primes limit = .ok (l, b')) : l = primesUpTo limit := by
  simp only [Buf.primes, Res.bind_eq_ok] at hr
  obtain ⟨b2, h1, hr⟩ := hr
  obtain ⟨hi, hn⟩ := reserve_inv h.inv h1
  simp only [Res.pure_def, Res.ok.injEq, Prod.mk.injEq] at hr
  have hlt : limit < b2.next := by have := le_or_one limit; omega
  rw [← hr.1, hi.list_eq, search_upper hlt, primesBelow_take hlt]

/-- **C24** the same for `into_primes` and the free function `primes` -/
theorem C24_into_primes_exact (bld : Build) (o : Estimates) (g f : ℕ) (b : Buf) (h : Reachable bld o g f b) (limit : ℕ)
    (l : List ℕ) (hr : b.intoPrimes limit = .ok l) : l = primesUpTo limit := by
  simp only [Buf.intoPrimes, Res.bind_eq_ok] at hr
  obtain ⟨b2, h1, hr⟩ := hr
  refine C24_primes_exact bld o g f b h limit l b2 ?_
  simp only [Buf.primes, h1, Res.bind_ok]
  simp only [Res.pure_def, Res.ok.injEq] at hr ⊢
  rw [hr]

/-- **C24** it returns whenever the buffer holds no prime `≥ 2^32` and `limit ≤ 2^64 - 3` -/
theorem C24_primes_returns (bld : Build) (o : Estimates) (g f : ℕ) (b : Buf) (h : Reachable bld o g f b) (limit : ℕ)
    (hl : limit + 2 < 2 ^ 64) (hs : ∀ p ∈ b.iter, p < 2 ^ 32) : ∃ l b', b.primes limit = .ok (l, b') := by
  obtain ⟨b', hb'⟩ := (reserve_ok_iff h.inv (limit := limit)).mpr ⟨by rw [or_one_eq]; omega, Or.inr hs⟩
  exact ⟨_, b', by simp only [Buf.primes, hb', Res.bind_ok]; rfl⟩

example : (Buf.new .small).clear.primes 59 = .ok ([2, 3, 5, 7, 11, 13, 17, 19, 23, 29, 31, 37, 41, 43, 47, 53, 59],
    ⟨[2, 3, 5, 7, 11, 13, 17, 19, 23, 29, 31, 37, 41, 43, 47, 53, 59], 61⟩) := by decide +kernel

/-- **C25** whenever `nprimes(count)` returns, it yields exactly the first `count` primes, in order, after any history and
whatever the floating point estimate was -/
theorem C25_nprimes_exact (bld : Build) (o : Estimates) (g f : ℕ) (b : Buf) (h : Reachable bld o g f b) (count : ℕ)
    (l : List ℕ) (b' : Buf) (hr : Buf.nprimes bld o b count = .ok (l, b')) : l = firstPrimes count :=
  (nprimes_ok h.inv hr).1

/-- **C25** `into_nprimes(count)` yields exactly the first `count` primes, in order, and returns whenever `nprimes(count)` does -/
theorem C25_into_nprimes_exact (bld : Build) (o : Estimates) (g f : ℕ) (b : Buf) (h : Reachable bld o g f b) (count : ℕ) :
    (∀ l, Buf.intoNprimes bld o b count = .ok l → l = firstPrimes count) ∧
    ((∃ l, Buf.intoNprimes bld o b count = .ok l) ↔ ∃ l b', Buf.nprimes bld o b count = .ok (l, b')) := by
  simp only [Buf.intoNprimes]
  constructor
  · intro l hl
    cases hr : Buf.nprimes bld o b count with
    | ok r =>
      rw [hr, Res.mapR_ok] at hl
      injection hl with hl
      rw [← hl]
      exact C25_nprimes_exact bld o g f b h count r.1 r.2 hr
    | panic => rw [hr] at hl; cases hl
    | timeout => rw [hr] at hl; cases hl
  · constructor
    · rintro ⟨l, hl⟩
      cases hr : Buf.nprimes bld o b count with
      | ok r => exact ⟨r.1, r.2, rfl⟩
      | panic => rw [hr] at hl; cases hl
      | timeout => rw [hr] at hl; cases hl
    · rintro ⟨l, b', hr⟩
      exact ⟨l, by rw [hr]; rfl⟩

example : Buf.intoNprimes .small exampleEstimates (Buf.new .small).clear 5 = .ok [2, 3, 5, 7, 11] := by decide +kernel

/-- the exact bounds returned for table sizes -/
theorem nthPrimeBounds_table {bld : Build} {w : Width} (o : Estimates) {n : ℕ} (h1 : 1 ≤ n)
    (h2 : n ≤ (smallPrimes bld).length) (hw : fits w (nthPrime n) = true) :
    nthPrimeBounds bld w o n = .ok (some (nthPrime n, nthPrime n)) := by
  have hi := Buf.inv_new bld
  have he : (smallPrimes bld)[n - 1]? = some (nthPrime n) := hi.getElem? (by simp only [Buf.new]; omega)
  have : n ≠ 0 := by omega
  simp only [nthPrimeBounds, this, if_false, h2, if_true, smallPrimeAt, he, Res.bind_ok, unwrapFit, hw, Res.pure_def]

/-- **C25** `nprimes(count)` returns if the estimate of the `count`-th prime (exact for table sizes) is not too small, is
available, and the sieve does not overflow -/
theorem C25_nprimes_returns (bld : Build) (o : Estimates) (g f : ℕ) (b : Buf) (h : Reachable bld o g f b) (count : ℕ)
    (hs : ∀ p ∈ b.iter, p < 2 ^ 32)
    (hest : (smallPrimes bld).length < count →
      ∃ lo hi, o.nthLo count = some lo ∧ o.nthHi count = some hi ∧ lo ≤ hi ∧ nthPrime count ≤ hi ∧ hi + 2 < 2 ^ 64) :
    ∃ l b', Buf.nprimes bld o b count = .ok (l, b') := by
  have hb : ∃ lo hi, nthPrimeBounds bld (some 64) o count = .ok (some (lo, hi)) ∧
      (1 ≤ count → nthPrime count ≤ hi) ∧ hi + 2 < 2 ^ 64 := by
    rcases Nat.eq_zero_or_pos count with h0 | h0
    · exact ⟨0, 0, by simp [nthPrimeBounds, h0], by omega, by norm_num⟩
    · rcases Nat.lt_or_ge (smallPrimes bld).length count with hc | hc
      · obtain ⟨lo, hi, e1, e2, e5, e3, e4⟩ := hest hc
        refine ⟨lo, hi, ?_, fun _ => e3, e4⟩
        have c1 : ¬ count = 0 := by omega
        have c2 : ¬ count ≤ (smallPrimes bld).length := by omega
        have f1 : fits (some 64) lo = true := fits_some.mpr (by omega)
        have f2 : fits (some 64) hi = true := fits_some.mpr (by omega)
        simp only [nthPrimeBounds, c1, if_false, c2, e1, e2, f1, f2, Bool.and_self, if_true]
      · have hlt : nthPrime count < 8167 := by
          have hm : (smallPrimes bld)[count - 1]? = some (nthPrime count) :=
            (Buf.inv_new bld).getElem? (by simp only [Buf.new]; omega)
          have := (mem_smallPrimes.mp (List.mem_of_getElem? hm)).2
          have := smallPrimesNext_le bld
          omega
        exact ⟨_, _, nthPrimeBounds_table o h0 hc (fits_some.mpr (by omega)), fun _ => le_rfl, by omega⟩
  obtain ⟨lo, hi, h1, h2, h3⟩ := hb
  obtain ⟨b', hb'⟩ := (reserve_ok_iff h.inv (limit := hi)).mpr ⟨by rw [or_one_eq]; omega, Or.inr hs⟩
  obtain ⟨i1, i2⟩ := reserve_inv h.inv hb'
  have hlen : ¬ b'.list.length < count := by
    rcases Nat.eq_zero_or_pos count with h0 | h0
    · omega
    · have h4 := h2 h0
      rw [nthPrime_le_iff h0, ← count_succ_eq] at h4
      rw [i1.length_eq]
      have : Nat.count Nat.Prime (hi + 1) ≤ Nat.count Nat.Prime b'.next :=
        Nat.count_monotone _ (by have := le_or_one hi; omega)
      omega
  refine ⟨b'.list.take count, b', ?_⟩
  simp only [Buf.nprimes, h1, Res.bind_ok, hb', hlen, if_false]
  rfl

example : Buf.nprimes .small exampleEstimates (Buf.new .small).clear 5 = .ok ([2, 3, 5, 7, 11],
    (Buf.new .small).clear) := by decide +kernel

/-- **C26** after any history, `contains(n)` is never true for a composite, and is exact up to `bound()`, which is the
largest stored prime -/
theorem C26_contains_bound (bld : Build) (o : Estimates) (g f : ℕ) (b : Buf) (h : Reachable bld o g f b) :
    (∀ n, b.contains n = true → n.Prime) ∧
    ∃ m, b.bound = .ok m ∧ m ∈ b.iter ∧ (∀ q ∈ b.iter, q ≤ m) ∧ ∀ n, n ≤ m → (b.contains n = true ↔ n.Prime) := by
  have hc : ∀ n, b.contains n = true ↔ n ∈ b.list := fun n => binarySearch_isOk h.inv.sorted n
  refine ⟨fun n hn => (h.inv.mem.mp ((hc n).mp hn)).1, ?_⟩
  obtain ⟨m, h1, h2, h3⟩ := h.inv.last
  refine ⟨m, by simp only [Buf.bound, h1], h2, h3, fun n hn => ?_⟩
  rw [hc, h.inv.mem]
  have := (h.inv.mem.mp h2).2
  constructor
  · exact fun x => x.1
  · exact fun x => ⟨x, by omega⟩

example : (Buf.new .big).contains 8161 = true ∧ (Buf.new .big).contains 8159 = false ∧
    (Buf.new .big).bound = .ok 8161 := by decide +kernel

/-- **C27 (partial)** after a `reserve(limit)` that returns, every prime `≤ limit` is stored and the old content is a prefix
of the new one. Missing: the documented claim that the largest stored prime is `≥ limit`, which is false
(`C27_bound_below_limit`). -/
theorem C27_reserve_partial (bld : Build) (o : Estimates) (g f : ℕ) (b : Buf) (h : Reachable bld o g f b) (limit : ℕ)
    (b' : Buf) (hr : b.reserve limit = .ok b') :
    (∀ p, p.Prime → p ≤ limit → p ∈ b'.iter) ∧ (∃ t, b'.iter = b.iter ++ t) ∧ Reachable bld o g f b' := by
  obtain ⟨h1, h2⟩ := reserve_inv h.inv hr
  refine ⟨fun p hp hle => ?_, ?_, ?_⟩
  · have := le_or_one limit
    exact h1.mem.mpr ⟨hp, by omega⟩
  · simp only [Buf.iter]
    rw [h1.list_eq, h.inv.list_eq]
    exact primesBelow_append (by omega)
  · obtain ⟨ops, hops⟩ := h
    refine ⟨ops ++ [.reserve limit], ?_⟩
    have : ∀ (ops : List BufOp) (b0 : Buf), b0.run bld o g f ops = .ok b →
        b0.run bld o g f (ops ++ [.reserve limit]) = .ok b' := by
      intro ops
      induction ops with
      | nil =>
        intro b0 h0
        simp only [Buf.run, Res.ok.injEq] at h0
        subst h0
        simp only [List.nil_append, Buf.run, BufOp.apply, hr, Res.bind_ok]
      | cons op ops ih =>
        intro b0 h0
        simp only [Buf.run, Res.bind_eq_ok] at h0
        obtain ⟨b1, e1, e2⟩ := h0
        simp only [List.cons_append, Buf.run, e1, Res.bind_ok, ih b1 e2]
    exact this ops _ hops

/-- **C27, finding** the documented effect of `reserve` ("Generate primes until the largest prime in the buffer is equal
or larger than limit") does not hold: after `reserve(114)` on a cleared buffer the bound is 113 -/
theorem C27_bound_below_limit (bld : Build) (o : Estimates) (g f : ℕ) :
    ∃ b b', Reachable bld o g f b ∧ b.reserve 114 = .ok b' ∧ b'.bound = .ok 113 := by
  refine ⟨(Buf.new bld).clear, ⟨primesBelow 117, 117⟩, ⟨[.clear], rfl⟩, ?_, ?_⟩
  · have h1 : (114 ||| 1) + 2 = 117 := by decide
    have h2 := reserve_grow (limit := 114) (Buf.inv_clear (Buf.inv_new bld)) ?_ (by rw [h1]; norm_num) (by rw [h1]; simp [Buf.clear])
    · rw [h1] at h2; exact h2
    · intro p hp
      have := ((Buf.inv_clear (Buf.inv_new bld)).mem.mp hp).2
      simp only [Buf.clear] at this; omega
  · decide +kernel

/-- **C28 (partial)** exactly when `reserve` returns: the requested bound is at most `2^64 - 3`, and the buffer is not grown
or holds no prime `≥ 2^32`; in every other case it panics on an arithmetic overflow. The property (never an overflow) is
false as stated, see `C28_reserve_overflow`. -/
theorem C28_reserve_returns_partial (bld : Build) (o : Estimates) (g f : ℕ) (b : Buf) (h : Reachable bld o g f b)
    (limit : ℕ) :
    ((∃ b', b.reserve limit = .ok b') ↔ (limit ||| 1) + 2 < 2 ^ 64 ∧
      ((limit ||| 1) + 2 < b.next ∨ ∀ p ∈ b.iter, p < 2 ^ 32)) ∧ b.reserve limit ≠ .timeout :=
  ⟨reserve_ok_iff h.inv, reserve_ne_timeout h.inv limit⟩

/-- **C28** as long as all requests stay below `2^32` every `reserve` succeeds (no overflow, no index out of range) -/
theorem C28_reserve_32bit (bld : Build) (o : Estimates) (g f : ℕ) (b : Buf) (h : Reachable bld o g f b)
    (hn : b.next ≤ 2 ^ 32 + 1) (limit : ℕ) (hl : limit < 2 ^ 32) :
    ∃ b', b.reserve limit = .ok b' ∧ b'.next ≤ 2 ^ 32 + 1 := by
  have hs : b.Safe := by
    intro p hp
    obtain ⟨h1, h2⟩ := h.inv.mem.mp hp
    rcases h1.eq_two_or_odd with h3 | h3 <;> omega
  have hor : (limit ||| 1) + 2 ≤ 2 ^ 32 + 1 := by rw [or_one_eq]; omega
  obtain ⟨b', hb'⟩ := (reserve_ok_iff h.inv (limit := limit)).mpr ⟨by omega, Or.inr hs⟩
  exact ⟨b', hb', by rw [(reserve_inv h.inv hb').2]; omega⟩

/-- **C28, finding** after `reserve(2^32 + 15)` every call that has to grow the buffer panics: squaring the stored prime
4294967311 overflows `u64` -/
theorem C28_reserve_overflow (bld : Build) (o : Estimates) (g f : ℕ) :
    ∃ b, Reachable bld o g f b ∧ ∀ limit, 4294967313 ≤ limit → b.reserve limit = .panic := by
  have hnew := Buf.inv_new bld
  have h0 := smallPrimesNext_le bld
  have hsafe : (Buf.new bld).Safe := by
    intro p hp
    have := (hnew.mem.mp hp).2
    simp only [Buf.new] at this; omega
  have h1 : (4294967311 ||| 1) + 2 = 4294967313 := by decide
  have hr := reserve_grow (limit := 4294967311) hnew hsafe (by rw [h1]; norm_num) (by rw [h1]; simp only [Buf.new]; omega)
  rw [h1] at hr
  refine ⟨⟨primesBelow 4294967313, 4294967313⟩, ⟨[.reserve 4294967311], ?_⟩, ?_⟩
  · simp only [Buf.run, BufOp.apply, hr, Res.bind_ok]
  · intro limit hl
    have hi := (reserve_inv hnew hr).1
    apply reserve_unsafe hi
    · intro hs
      have := hs 4294967311 (hi.mem.mpr ⟨prime_4294967311, by norm_num⟩)
      omega
    · simp only [or_one_eq]; omega

/-- **C28, finding** `reserve(u64::MAX)` and `reserve(u64::MAX - 1)` overflow on every buffer -/
theorem C28_reserve_max (b : Buf) : b.reserve (2 ^ 64 - 1) = .panic ∧ b.reserve (2 ^ 64 - 2) = .panic :=
  ⟨reserve_overflow (by decide), reserve_overflow (by decide)⟩

/-- **C29** `clear()` leaves the first 16 primes, and the result is again a buffer covered by all other theorems -/
theorem C29_clear (bld : Build) (o : Estimates) (g f : ℕ) (b : Buf) (h : Reachable bld o g f b) :
    b.clear.iter = [2, 3, 5, 7, 11, 13, 17, 19, 23, 29, 31, 37, 41, 43, 47, 53] ∧ b.clear.iter = firstPrimes 16 ∧
    Reachable bld o g f b.clear := by
  have hi := Buf.inv_clear h.inv
  refine ⟨?_, ?_, ?_⟩
  · rw [← primesBelow_55]; exact hi.list_eq
  · have h16 : b.clear.list.length = 16 := by
      have h1 : b.clear.list = primesBelow 55 := hi.list_eq
      rw [h1, primesBelow_55]; rfl
    have h2 := hi.take (n := 16) (by omega)
    rw [List.take_of_length_le (by omega)] at h2
    exact h2
  · obtain ⟨ops, hops⟩ := h
    refine ⟨ops ++ [.clear], ?_⟩
    have : ∀ (ops : List BufOp) (b0 : Buf), b0.run bld o g f ops = .ok b →
        b0.run bld o g f (ops ++ [.clear]) = .ok b.clear := by
      intro ops
      induction ops with
      | nil =>
        intro b0 h0
        simp only [Buf.run, Res.ok.injEq] at h0
        subst h0
        simp only [List.nil_append, Buf.run, BufOp.apply, Res.bind_ok]
      | cons op ops ih =>
        intro b0 h0
        simp only [Buf.run, Res.bind_eq_ok] at h0
        obtain ⟨b1, e1, e2⟩ := h0
        simp only [List.cons_append, Buf.run, e1, Res.bind_ok, ih b1 e2]
    exact this ops _ hops

theorem productW_ok {w : Width} : ∀ (l : List ℕ) (acc v : ℕ), productW w acc l = .ok v → v = acc * l.prod := by
  intro l
  induction l with
  | nil => intro acc v h; simp only [productW, Res.ok.injEq] at h; simp [← h]
  | cons p l ih =>
    intro acc v h
    simp only [productW, Res.bind_eq_ok] at h
    obtain ⟨p', h1, a', h2, h⟩ := h
    have e1 : p' = p := by
      unfold unwrapFit at h1; split at h1
      · injection h1 with h1; exact h1.symm
      · simp at h1
    subst e1
    have e2 : a' = acc * p' := by
      unfold cmul at h2; split at h2
      · injection h2 with h2; exact h2.symm
      · simp at h2
    rw [ih _ _ h, e2, List.prod_cons, Nat.mul_assoc]

theorem productW_fits {w : Width} : ∀ (l : List ℕ) (acc : ℕ), 0 < acc → (∀ p ∈ l, 0 < p) → fits w (acc * l.prod) = true →
    productW w acc l = .ok (acc * l.prod) := by
  intro l
  induction l with
  | nil => intro acc _ _ _; simp [productW]
  | cons p l ih =>
    intro acc h0 hl hf
    have hp : 0 < p := hl p (by simp)
    have hl' : ∀ q ∈ l, 0 < q := fun q hq => hl q (List.mem_cons_of_mem _ hq)
    have hpos : 0 < l.prod := Nat.pos_of_ne_zero (by
      intro hc
      have := List.prod_eq_zero_iff.mp hc
      exact absurd (hl' 0 this) (by omega))
    rw [List.prod_cons, ← Nat.mul_assoc] at hf
    have f1 : fits w (acc * p) = true := fits_mono (Nat.le_mul_of_pos_right _ hpos) hf
    have f2 : fits w p = true := fits_mono (Nat.le_mul_of_pos_left _ h0) f1
    simp only [productW, unwrapFit, f2, if_true, Res.bind_ok, cmul_ok f1]
    rw [ih _ (Nat.mul_pos h0 hp) hl' hf, List.prod_cons, Nat.mul_assoc]

theorem firstPrimes_prod (n : ℕ) : (firstPrimes n).prod = ∏ i ∈ Finset.range n, Nat.nth Nat.Prime i := by
  rw [firstPrimes, Finset.prod_eq_multiset_prod]
  simp [Finset.range, Multiset.range]

/-- **C33** whenever `primorial(n)` returns, the value is the product of the first `n` primes -/
theorem C33_primorial_exact (bld : Build) (o : Estimates) (g f : ℕ) (b : Buf) (h : Reachable bld o g f b) (w : Width)
    (n v : ℕ) (b' : Buf) (hr : Buf.primorial bld w o b n = .ok (v, b')) :
    v = ∏ i ∈ Finset.range n, Nat.nth Nat.Prime i := by
  simp only [Buf.primorial, Res.bind_eq_ok] at hr
  obtain ⟨⟨l, b2⟩, h1, v', h2, hr⟩ := hr
  simp only [Res.pure_def, Res.ok.injEq, Prod.mk.injEq] at hr
  rw [← hr.1, productW_ok _ _ _ h2, (nprimes_ok h.inv h1).1, firstPrimes_prod, Nat.one_mul]

/-- **C33** `primorial(n)` returns when `nprimes(n)` does (see C25) and the product fits the type -/
theorem C33_primorial_returns (bld : Build) (o : Estimates) (g f : ℕ) (b : Buf) (h : Reachable bld o g f b) (w : Width)
    (n : ℕ) (l : List ℕ) (b' : Buf) (hn : Buf.nprimes bld o b n = .ok (l, b'))
    (hf : fits w (∏ i ∈ Finset.range n, Nat.nth Nat.Prime i) = true) :
    Buf.primorial bld w o b n = .ok (∏ i ∈ Finset.range n, Nat.nth Nat.Prime i, b') := by
  have hl := (nprimes_ok h.inv hn).1
  have : productW w 1 l = .ok (1 * l.prod) := by
    apply productW_fits _ _ (by norm_num)
    · intro p hp
      rw [hl] at hp
      exact (mem_firstPrimes.mp hp).1.pos
    · rw [hl, firstPrimes_prod, Nat.one_mul]; exact hf
  simp only [Buf.primorial, hn, Res.bind_ok, this]
  rw [hl, firstPrimes_prod, Nat.one_mul]; rfl

example : (Buf.primorial .small (some 8) exampleEstimates (Buf.new .small).clear 4).mapR Prod.fst = .ok 210 := by
  decide +kernel
example : (Buf.primorial .small (some 8) exampleEstimates (Buf.new .small).clear 5).mapR Prod.fst = .panic := by
  decide +kernel

/-- **C34** for `x` up to the largest table prime `prime_pi_bounds(x) = (π(x), π(x))` -/
theorem C34_prime_pi_bounds (bld : Build) (o : Estimates) (w : Width) (x : ℕ) (hw : fits w x = true)
    (h : x ≤ if bld = .big then 8161 else 251) :
    primePiBounds bld w o x = .ok (Nat.primeCounting x, Nat.primeCounting x) := by
  have h1 := smallPrimes_last bld
  have h2 : x < smallPrimesNext bld := by
    have := smallPrimesNext_prime bld
    cases bld
    · have : smallPrimesNext .big = 8167 := by decide
      simp at h; omega
    · have : smallPrimesNext .small = 257 := by decide
      simp at h; omega
  have h3 : x ≤ (smallPrimes bld).getLastD 0 := by rw [h1]; cases bld <;> simpa using h
  have h4 : x < 2 ^ 64 := by have := smallPrimesNext_le bld; omega
  have h5 : smallPrimes bld = primesBelow (smallPrimesNext bld) := (Buf.inv_new bld).list_eq
  have h6 : (binarySearch (smallPrimes bld) x).upper = Nat.primeCounting x := by rw [h5]; exact search_upper h2
  have h7 : fits w (Nat.primeCounting x) = true := fits_mono (primeCounting_le x) hw
  simp only [primePiBounds, h4, h3, and_self, if_true, h6, unwrapFit, h7, Res.bind_ok, Res.pure_def]

example : primePiBounds .small (some 8) exampleEstimates 200 = .ok (46, 46) := by decide +kernel

/-- **C35** `nth_prime_bounds(0) = (0, 0)`, and `(p_n, p_n)` for `1 ≤ n ≤` the table length if `p_n` fits the type (for the
other case see `C35_nth_prime_bounds_panics`) -/
theorem C35_nth_prime_bounds (bld : Build) (o : Estimates) (w : Width) :
    nthPrimeBounds bld w o 0 = .ok (some (0, 0)) ∧
    ∀ n, 1 ≤ n → n ≤ (if bld = .big then 1024 else 54) → fits w (nthPrime n) = true →
      nthPrimeBounds bld w o n = .ok (some (nthPrime n, nthPrime n)) := by
  refine ⟨by simp [nthPrimeBounds], fun n h1 h2 h3 => nthPrimeBounds_table o h1 ?_ h3⟩
  rw [smallPrimes_length]; cases bld <;> simpa using h2

/-- **C35, finding** although documented to return `None` when the result does not fit the type, `nth_prime_bounds(&55u8)`
panics with big tables (the 55th prime is 257) -/
theorem C35_nth_prime_bounds_panics (o : Estimates) : nthPrimeBounds .big (some 8) o 55 = .panic := by
  have : smallPrimeAt .big 54 = .ok 257 := by decide +kernel
  have hl : (55 : ℕ) ≤ (smallPrimes .big).length := by rw [smallPrimes_length]; decide
  simp only [nthPrimeBounds, hl, if_true, this, Res.bind_ok, unwrapFit]
  decide

example : nthPrimeBounds .big (some 8) exampleEstimates 54 = .ok (some (251, 251)) := by decide +kernel

/-! ## C36: the bisection -/

/-- the loop only stops on a value in `[lo, hi)` and stops within `hi - lo` rounds -/
theorem nthPrimeEstLoop_spec {bld : Build} {w : Width} {o : Estimates} {n : ℕ} : ∀ (f lo hi : ℕ), lo < hi →
    (∀ r, nthPrimeEstLoop bld w o n f lo hi = .ok r → ∃ x, r = some x ∧ lo ≤ x ∧ x < hi) ∧
    (hi ≤ lo + f → nthPrimeEstLoop bld w o n f lo hi = .timeout → ∃ x, primePiEst bld w o x = .timeout) ∧
    (hi ≤ lo + f → fits w (hi + hi) = true → (∀ x, lo ≤ x → x < hi → ∃ v, primePiEst bld w o x = .ok v) →
      ∃ x, nthPrimeEstLoop bld w o n f lo hi = .ok (some x)) := by
  intro f
  induction f with
  | zero =>
    intro lo hi h
    refine ⟨fun r hr => by simp [nthPrimeEstLoop] at hr, by omega, by omega⟩
  | succ f ih =>
    intro lo hi h
    simp only [nthPrimeEstLoop, csub_ok (show 1 ≤ hi by omega), Res.bind_ok]
    by_cases h1 : lo = hi - 1
    · simp only [h1, if_true, Res.pure_def]
      refine ⟨fun r hr => ?_, fun _ hc => by simp at hc, fun _ _ _ => ⟨_, rfl⟩⟩
      injection hr with hr
      exact ⟨hi - 1, hr.symm, le_rfl, by omega⟩
    · simp only [h1, if_false]
      by_cases hf : fits w (lo + hi) = true
      · rw [cadd_ok hf, Res.bind_ok]
        have hx1 : lo < (lo + hi) / 2 := by omega
        have hx2 : (lo + hi) / 2 < hi := by omega
        generalize (lo + hi) / 2 = x at hx1 hx2 ⊢
        obtain ⟨a1, a2, a3⟩ := ih x hi hx2
        obtain ⟨c1, c2, c3⟩ := ih lo x hx1
        cases hm : primePiEst bld w o x with
        | panic => exact ⟨fun r hr => by simp at hr, fun _ hr => by simp at hr,
            fun _ _ hp => by obtain ⟨v, hv⟩ := hp x hx1.le hx2; rw [hm] at hv; simp at hv⟩
        | timeout => exact ⟨fun r hr => by simp at hr, fun _ _ => ⟨x, hm⟩,
            fun _ _ hp => by obtain ⟨v, hv⟩ := hp x hx1.le hx2; rw [hm] at hv; simp at hv⟩
        | ok mid =>
          simp only [Res.bind_ok]
          split
          · refine ⟨fun r hr => ?_, fun hle hr => a2 (by omega) hr, fun hle hfi hp =>
              a3 (by omega) hfi (fun y hy => hp y (by omega))⟩
            obtain ⟨y, e1, e2, e3⟩ := a1 r hr
            exact ⟨y, e1, by omega, e3⟩
          · split
            · refine ⟨fun r hr => ?_, fun hle hr => c2 (by omega) hr, fun hle hfi hp =>
                c3 (by omega) (fits_mono (by omega) hfi) (fun y hy hy2 => hp y hy (by omega))⟩
              obtain ⟨y, e1, e2, e3⟩ := c1 r hr
              exact ⟨y, e1, e2, by omega⟩
            · simp only [Res.pure_def]
              refine ⟨fun r hr => ?_, fun _ hc => by simp at hc, fun _ _ _ => ⟨_, rfl⟩⟩
              injection hr with hr
              exact ⟨x, hr.symm, by omega, hx2⟩
      · have : cadd w lo hi = .panic := by simp [cadd, hf]
        rw [this]
        refine ⟨fun r hr => by simp at hr, fun _ hr => by simp at hr, fun _ hfi _ => ?_⟩
        exact absurd (fits_mono (show lo + hi ≤ hi + hi by omega) hfi) hf

theorem primePiEst_ne_timeout (bld : Build) (w : Width) (o : Estimates) (x : ℕ) : primePiEst bld w o x ≠ .timeout := by
  have hu : ∀ v w, unwrapFloat w v = .panic ∨ ∃ y, unwrapFloat w v = .ok y := by
    intro v w
    cases v with
    | none => exact Or.inl rfl
    | some v =>
      simp only [unwrapFloat, unwrapFit]
      split
      · exact Or.inr ⟨_, rfl⟩
      · exact Or.inl rfl
  have hb : ∀ b w, primePiBounds b w o x ≠ .timeout := by
    intro b w hc
    unfold primePiBounds unwrapFit at hc
    split at hc
    · dsimp only at hc; split at hc <;> simp at hc
    · rcases hu (o.piLo x) w with h | ⟨v, h⟩
      · simp [h] at hc
      · rcases hu (o.piHi x) w with h2 | ⟨v2, h2⟩ <;> simp [h, h2] at hc
  intro hc
  unfold primePiEst at hc
  split at hc
  · cases h : primePiBounds .small w o x with
    | timeout => exact hb _ _ h
    | panic => rw [h] at hc; simp at hc
    | ok v => rw [h] at hc; simp only [Res.bind_ok, cadd] at hc; split at hc <;> simp at hc
  · split at hc
    · cases h : primePiBounds .big (some 16) o x with
      | timeout => exact hb _ _ h
      | panic => rw [h] at hc; simp at hc
      | ok v => rw [h] at hc; simp only [Res.bind_ok, unwrapFit] at hc; split at hc <;> (try split at hc) <;> simp at hc
    · rcases hu (o.piEst x) w with h | ⟨v, h⟩ <;> rw [h] at hc <;> simp at hc

/-- **C36** whatever the estimates are: if `nth_prime_bounds(n)` gives `lo ≤ hi`, then the bisection stops within `hi - lo`
rounds, and any result it returns lies in `[lo, hi]`. -/
theorem C36_nth_prime_est (bld : Build) (w : Width) (o : Estimates) (n lo hi : ℕ)
    (hb : nthPrimeBounds bld w o n = .ok (some (lo, hi))) (hle : lo ≤ hi) :
    (∀ fuel, hi - lo ≤ fuel → nthPrimeEst bld w o n fuel ≠ .timeout) ∧
    ∀ fuel r, nthPrimeEst bld w o n fuel = .ok r → ∃ x, r = some x ∧ lo ≤ x ∧ x ≤ hi := by
  rcases Nat.lt_or_ge lo hi with h | h
  · have hne : ¬ lo = hi := by omega
    constructor
    · intro fuel hf hc
      simp only [nthPrimeEst, hb, Res.bind_ok, hne, if_false] at hc
      obtain ⟨x, hx⟩ := (nthPrimeEstLoop_spec fuel lo hi h).2.1 (by omega) hc
      exact primePiEst_ne_timeout _ _ _ _ hx
    · intro fuel r hr
      simp only [nthPrimeEst, hb, Res.bind_ok, hne, if_false] at hr
      obtain ⟨x, h1, h2, h3⟩ := (nthPrimeEstLoop_spec fuel lo hi h).1 r hr
      exact ⟨x, h1, h2, h3.le⟩
  · have he : lo = hi := by omega
    constructor
    · intro fuel hf hc
      simp [nthPrimeEst, hb, he] at hc
    · intro fuel r hr
      simp only [nthPrimeEst, hb, Res.bind_ok, he, if_true, Res.pure_def] at hr
      injection hr with hr
      exact ⟨hi, hr.symm, hle, le_rfl⟩

/-- **C36** for an unbounded integer type the estimate is always returned if the values computed in floating point are numbers -/
theorem C36_nth_prime_est_unbounded (bld : Build) (o : Estimates) (n lo hi : ℕ)
    (hb : nthPrimeBounds bld none o n = .ok (some (lo, hi))) (hle : lo ≤ hi)
    (ho : ∀ x, lo ≤ x → x < hi → (o.piLo x).isSome ∧ (o.piHi x).isSome ∧ (o.piEst x).isSome) (fuel : ℕ) (hf : hi - lo ≤ fuel) :
    ∃ x, nthPrimeEst bld none o n fuel = .ok (some x) ∧ lo ≤ x ∧ x ≤ hi := by
  have hp : ∀ x, lo ≤ x → x < hi → ∃ v, primePiEst bld none o x = .ok v := by
    intro x hx1 hx2
    obtain ⟨h1, h2, h3⟩ := ho x hx1 hx2
    obtain ⟨l, h1⟩ := Option.isSome_iff_exists.mp h1
    obtain ⟨u, h2⟩ := Option.isSome_iff_exists.mp h2
    obtain ⟨e, h3⟩ := Option.isSome_iff_exists.mp h3
    have hb1 : ∃ v, primePiBounds .small none o x = .ok v := by
      unfold primePiBounds; split
      · exact ⟨_, by simp [unwrapFit]; rfl⟩
      · exact ⟨_, by rw [h1, h2]; rfl⟩
    cases bld
    · simp only [primePiEst]
      split
      · rename_i hx
        have h8 : x ≤ 8161 := by have := smallPrimes_last .big; simp only [if_true] at this; omega
        rw [C34_prime_pi_bounds .big o (some 16) x (fits_some.mpr (by omega)) (by simpa using h8)]
        exact ⟨_, by simp [unwrapFit]; rfl⟩
      · exact ⟨_, by rw [h3]; rfl⟩
    · obtain ⟨v, hv⟩ := hb1
      exact ⟨(v.1 + v.2) / 2, by simp [primePiEst, hv, cadd]⟩
  have : ∃ x, nthPrimeEst bld none o n fuel = .ok (some x) := by
    rcases Nat.lt_or_ge lo hi with h | h
    · have hne : ¬ lo = hi := by omega
      simp only [nthPrimeEst, hb, Res.bind_ok, hne, if_false]
      exact (nthPrimeEstLoop_spec fuel lo hi h).2.2 (by omega) rfl hp
    · have he : lo = hi := by omega
      exact ⟨lo, by simp [nthPrimeEst, hb, he]⟩
  obtain ⟨x, hx⟩ := this
  obtain ⟨y, h1, h2⟩ := (C36_nth_prime_est bld none o n lo hi hb hle).2 fuel _ hx
  injection h1 with h1
  exact ⟨x, hx, by rw [h1]; exact h2⟩

theorem nthPrimeEstLoop_crosses {bld : Build} {w : Width} {o : Estimates} {n : ℕ} : ∀ f lo hi x,
    nthPrimeEstLoop bld w o n f lo hi = .ok (some x) →
    primePiEst bld w o x = .ok n ∨
      ((x = lo ∨ ∃ v, primePiEst bld w o x = .ok v ∧ v < n) ∧
        (x + 1 = hi ∨ ∃ v, primePiEst bld w o (x + 1) = .ok v ∧ n < v))
  | 0, lo, hi, x, h => by simp [nthPrimeEstLoop] at h
  | f + 1, lo, hi, x, h => by
    rw [nthPrimeEstLoop, Res.bind_eq_ok] at h
    obtain ⟨h1, e1, h⟩ := h
    have hh : 1 ≤ hi ∧ h1 = hi - 1 := by
      unfold csub at e1
      split at e1
      · rename_i hc
        injection e1 with e1
        exact ⟨hc, e1.symm⟩
      · simp at e1
    by_cases hl : lo = h1
    · simp only [hl, if_true, Res.pure_def, Res.ok.injEq, Option.some.injEq] at h
      exact Or.inr ⟨Or.inl (by omega), Or.inl (by omega)⟩
    · simp only [hl, if_false] at h
      rw [Res.bind_eq_ok] at h
      obtain ⟨s, _, h⟩ := h
      simp only [Res.bind_eq_ok] at h
      obtain ⟨mid, e3, h⟩ := h
      by_cases hm : mid < n
      · simp only [hm, if_true] at h
        rcases nthPrimeEstLoop_crosses f _ _ _ h with r | ⟨r1, r2⟩
        · exact Or.inl r
        · refine Or.inr ⟨Or.inr ?_, r2⟩
          rcases r1 with rfl | r1
          · exact ⟨mid, e3, hm⟩
          · exact r1
      · simp only [hm, if_false] at h
        by_cases hg : mid > n
        · simp only [hg, if_true] at h
          rcases nthPrimeEstLoop_crosses f _ _ _ h with r | ⟨r1, r2⟩
          · exact Or.inl r
          · refine Or.inr ⟨r1, Or.inr ?_⟩
            rcases r2 with r2 | r2
            · exact ⟨mid, by rw [r2]; exact e3, hg⟩
            · exact r2
        · simp only [hg, if_false, Res.pure_def, Res.ok.injEq, Option.some.injEq] at h
          subst h
          have : mid = n := by omega
          exact Or.inl (by rw [e3, this])

/-- **C36** the result is where the estimate of `prime_pi` crosses the target: the estimate at the result is the target, or
it is still too small there (unless the result is the lower bound) and too large one further (unless that is the upper
bound) -/
theorem C36_nth_prime_est_crosses (bld : Build) (w : Width) (o : Estimates) (n lo hi fuel x : ℕ)
    (hb : nthPrimeBounds bld w o n = .ok (some (lo, hi))) (hne : lo ≠ hi)
    (h : nthPrimeEst bld w o n fuel = .ok (some x)) :
    primePiEst bld w o x = .ok n ∨
      ((x = lo ∨ ∃ v, primePiEst bld w o x = .ok v ∧ v < n) ∧
        (x + 1 = hi ∨ ∃ v, primePiEst bld w o (x + 1) = .ok v ∧ n < v)) := by
  simp only [nthPrimeEst, hb, Res.bind_ok, hne, if_false] at h
  exact nthPrimeEstLoop_crosses _ _ _ _ h

-- an estimator that never meets the target
example : nthPrimeEst .big none ⟨fun _ => some 0, fun _ => some 0, fun _ => some 17000, fun _ => some 17010, fun x => some (1999 + x % 2 * 2)⟩ 2000 10
    = .ok (some 17002) := by decide +kernel

end NumPrime
