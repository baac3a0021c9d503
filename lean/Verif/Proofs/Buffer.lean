import Verif.Model.Buffer
import Verif.Proofs.NextPrime
import Verif.Proofs.Pratt
import Mathlib.Data.List.Sort
import Mathlib.Tactic.IntervalCases

/-! # The sieve of `NaiveBuffer` -/

namespace NumPrime
open Tables

theorem or_one_eq (n : Nat) : n ||| 1 = 2 * (n / 2) + 1 := by
  apply Nat.eq_of_testBit_eq
  intro i
  cases i with
  | zero => simp
  | succ i =>
    rw [Nat.testBit_succ, Nat.testBit_succ, Nat.or_div_two]
    have : (2 * (n / 2) + 1) / 2 = n / 2 := by omega
    rw [this]; simp

theorem or_one_odd (n : Nat) : (n ||| 1) % 2 = 1 := by rw [or_one_eq]; omega
theorem le_or_one (n : Nat) : n ≤ n ||| 1 := by rw [or_one_eq]; omega
theorem or_one_le (n : Nat) : n ||| 1 ≤ n + 1 := by rw [or_one_eq]; omega

theorem sieveMark_spec {current len : Nat} : ∀ (ms marks : List Nat),
    (∀ m ∈ ms, current ≤ m → (m - current) / 2 < len) →
    ∃ marks', sieveMark current len ms marks = .ok marks' ∧
      ∀ i, i ∈ marks' ↔ i ∈ marks ∨ ∃ m ∈ ms, current ≤ m ∧ i = (m - current) / 2 := by
  intro ms
  induction ms with
  | nil => intro marks _; exact ⟨marks, rfl, fun i => by simp⟩
  | cons m ms ih =>
    intro marks h
    have hrest : ∀ m ∈ ms, current ≤ m → (m - current) / 2 < len := fun x hx => h x (List.mem_cons_of_mem _ hx)
    by_cases hc : current ≤ m
    · obtain ⟨mk, h1, h2⟩ := ih ((m - current) / 2 :: marks) hrest
      refine ⟨mk, ?_, fun i => ?_⟩
      · have : (m - current) / 2 < len := h m (by simp) hc
        simp only [sieveMark, ge_iff_le, hc, if_true, sieveSet, this, Res.bind_ok, h1]
      · rw [h2]
        simp only [List.mem_cons, exists_eq_or_imp, hc, true_and]
        tauto
    · obtain ⟨mk, h1, h2⟩ := ih marks hrest
      refine ⟨mk, ?_, fun i => ?_⟩
      · simp only [sieveMark, ge_iff_le, hc, if_false, Res.bind_ok, h1]
      · rw [h2]
        simp only [List.mem_cons, exists_eq_or_imp, hc, false_and, false_or]

/-- one arithmetic progression of odd multiples of an odd number -/
theorem progression {p s n : Nat} (hp : p % 2 = 1) (hs : s % 2 = 1) (hn : n % 2 = 1) :
    (∃ k, n = p * s + 2 * p * k) ↔ p ∣ n ∧ p * s ≤ n := by
  constructor
  · rintro ⟨k, rfl⟩
    exact ⟨⟨s + 2 * k, by ring⟩, by omega⟩
  · rintro ⟨⟨t, rfl⟩, h⟩
    have hp0 : 0 < p := by omega
    have hst : s ≤ t := Nat.le_of_mul_le_mul_left h hp0
    have ht : t % 2 = 1 := by
      rcases Nat.mod_two_eq_zero_or_one t with h0 | h0
      · rw [Nat.mul_mod, h0] at hn; simp at hn
      · exact h0
    refine ⟨(t - s) / 2, ?_⟩
    have : t = s + 2 * ((t - s) / 2) := by omega
    calc p * t = p * (s + 2 * ((t - s) / 2)) := by rw [← this]
      _ = _ := by ring

/-- marking one progression -/
theorem mark_progression {current L p s : Nat} (hc : current % 2 = 1) (hL : L % 2 = 1) (hp : p % 2 = 1)
    (hs : s % 2 = 1) (marks : List Nat) :
    ∃ marks', sieveMark current ((L - current) / 2) (rangeStep (p * s) L (2 * p)) marks = .ok marks' ∧
      ∀ i, i < (L - current) / 2 →
        (i ∈ marks' ↔ i ∈ marks ∨ (p ∣ current + 2 * i ∧ p * s ≤ current + 2 * i)) := by
  have hp0 : 0 < 2 * p := by omega
  have hodd : ∀ m ∈ rangeStep (p * s) L (2 * p), m % 2 = 1 ∧ m < L := by
    intro m hm
    obtain ⟨k, rfl, hk⟩ := (mem_rangeStep hp0).mp hm
    refine ⟨?_, hk⟩
    have : (p * s) % 2 = 1 := by rw [Nat.mul_mod, hp, hs]
    have h2 : 2 * p * k = 2 * (p * k) := by ring
    omega
  obtain ⟨mk, h1, h2⟩ := sieveMark_spec (current := current) (len := (L - current) / 2)
    (rangeStep (p * s) L (2 * p)) marks (by
      intro m hm hcm
      have := hodd m hm
      omega)
  refine ⟨mk, h1, fun i hi => ?_⟩
  rw [h2]
  have hn : (current + 2 * i) % 2 = 1 := by omega
  rw [← progression hp hs hn]
  apply or_congr_right
  constructor
  · rintro ⟨m, hm, hcm, rfl⟩
    have := hodd m hm
    obtain ⟨k, rfl, hk⟩ := (mem_rangeStep hp0).mp hm
    exact ⟨k, by omega⟩
  · rintro ⟨k, hk⟩
    refine ⟨current + 2 * i, (mem_rangeStep hp0).mpr ⟨k, hk, by omega⟩, by omega, by omega⟩

/-- the first odd multiple from `current` on -/
theorem first_multiple {p c n : Nat} (hp0 : 0 < p) (hn : n % 2 = 1) (hcn : c ≤ n) (hd : p ∣ n) :
    p * ((c / p) ||| 1) ≤ n := by
  obtain ⟨t, rfl⟩ := hd
  have ht : t % 2 = 1 := by
    rcases Nat.mod_two_eq_zero_or_one t with h0 | h0
    · rw [Nat.mul_mod, h0] at hn; simp at hn
    · exact h0
  have h1 : c / p ≤ t := by
    calc c / p ≤ p * t / p := Nat.div_le_div_right hcn
      _ = t := by rw [Nat.mul_comm]; exact Nat.mul_div_cancel _ hp0
  apply Nat.mul_le_mul_left
  rw [or_one_eq]; omega

theorem sieveOld_spec {current L : Nat} (hc : current % 2 = 1) (hL : L % 2 = 1) (hbig : current + 2 ^ 32 < 2 ^ 64) :
    ∀ (ps marks : List Nat), (∀ p ∈ ps, p % 2 = 1 ∧ p < 2 ^ 32) →
    ∃ marks', sieveOld current L ((L - current) / 2) ps marks = .ok marks' ∧
      ∀ i, i < (L - current) / 2 →
        (i ∈ marks' ↔ i ∈ marks ∨ ∃ p ∈ ps, p ∣ current + 2 * i ∧ p * p ≤ current + 2 * i) := by
  intro ps
  induction ps with
  | nil => intro marks _; exact ⟨marks, rfl, fun i _ => by simp⟩
  | cons p ps ih =>
    intro marks h
    obtain ⟨hp, hlt⟩ := h p (by simp)
    have hp0 : 0 < p := by omega
    have hpp : p * p < 2 ^ 64 := by nlinarith
    set s := if p * p < current then (current / p) ||| 1 else p with hs
    have hs1 : s % 2 = 1 := by
      rw [hs]; split
      · exact or_one_odd _
      · exact hp
    have hstart : (if p * p < current then cmul (some 64) p ((current / p) ||| 1) else cmul (some 64) p p : Res Nat)
        = .ok (p * s) := by
      rw [hs]
      split
      · apply cmul_ok
        rw [fits_some]
        have h1 := or_one_le (current / p)
        have h2 : p * (current / p) ≤ current := Nat.mul_div_le _ _
        have h3 : p * (current / p ||| 1) ≤ p * (current / p + 1) := Nat.mul_le_mul_left _ h1
        have h4 : p * (current / p + 1) = p * (current / p) + p := by ring
        omega
      · exact cmul_ok (fits_some.mpr hpp)
    obtain ⟨mk, h1, h2⟩ := mark_progression hc hL hp hs1 marks
    obtain ⟨mk', h3, h4⟩ := ih mk (fun q hq => h q (List.mem_cons_of_mem _ hq))
    refine ⟨mk', ?_, fun i hi => ?_⟩
    · rw [sieveOld, cmul_ok (fits_some.mpr hpp), Res.bind_ok, ← cmul_ok (fits_some.mpr hpp), hstart]
      simp only [Res.bind_ok, h1, cmul_ok (fits_some.mpr (show 2 * p < 2 ^ 64 by omega)), h3]
    · rw [h4 i hi, h2 i hi]
      have key : (p ∣ current + 2 * i ∧ p * s ≤ current + 2 * i) ↔
          (p ∣ current + 2 * i ∧ p * p ≤ current + 2 * i) := by
        rw [hs]
        split
        · rename_i hlt2
          constructor
          · rintro ⟨a, _⟩; exact ⟨a, by omega⟩
          · rintro ⟨a, _⟩; exact ⟨a, first_multiple hp0 (by omega) (by omega) a⟩
        · rfl
      rw [key]
      simp only [List.mem_cons, exists_eq_or_imp]
      tauto

theorem sieveNew_spec {current L : Nat} (hc : current % 2 = 1) (hL : L % 2 = 1) :
    ∀ (ps marks : List Nat), (∀ p ∈ ps, p % 2 = 1 ∧ p < 2 ^ 32) →
    ∃ marks', sieveNew current L ((L - current) / 2) ps marks = .ok marks' ∧
      ∀ i, i < (L - current) / 2 →
        (i ∈ marks' ↔ i ∈ marks ∨ ∃ p ∈ ps, p ∣ current + 2 * i ∧ p * p ≤ current + 2 * i) := by
  intro ps
  induction ps with
  | nil => intro marks _; exact ⟨marks, rfl, fun i _ => by simp⟩
  | cons p ps ih =>
    intro marks h
    obtain ⟨hp, hlt⟩ := h p (by simp)
    have hpp : p * p < 2 ^ 64 := by nlinarith
    obtain ⟨mk, h1, h2⟩ := mark_progression hc hL hp hp marks
    obtain ⟨mk', h3, h4⟩ := ih mk (fun q hq => h q (List.mem_cons_of_mem _ hq))
    refine ⟨mk', ?_, fun i hi => ?_⟩
    · simp only [sieveNew, cmul_ok (fits_some.mpr hpp), Res.bind_ok, h1,
        cmul_ok (fits_some.mpr (show 2 * p < 2 ^ 64 by omega)), h3]
    · rw [h4 i hi, h2 i hi]
      simp only [List.mem_cons, exists_eq_or_imp]
      tauto

/-! ## the invariant -/

/-- all primes below `n`, in increasing order -/
def primesBelow (n : Nat) : List Nat := (List.range n).filter (fun p => Nat.Prime p)

theorem mem_primesBelow {n p : Nat} : p ∈ primesBelow n ↔ p.Prime ∧ p < n := by
  simp [primesBelow, and_comm]

theorem primesBelow_sorted (n : Nat) : (primesBelow n).Pairwise (· < ·) :=
  List.Pairwise.filter _ List.pairwise_lt_range

theorem sorted_ext {l1 l2 : List Nat} (h1 : l1.Pairwise (· < ·)) (h2 : l2.Pairwise (· < ·))
    (h : ∀ x, x ∈ l1 ↔ x ∈ l2) : l1 = l2 := h1.eq_of_mem_iff h2 h

theorem primesBelow_append {m n : Nat} (h : m ≤ n) : ∃ t, primesBelow n = primesBelow m ++ t := by
  obtain ⟨k, rfl⟩ := Nat.exists_eq_add_of_le h
  refine ⟨((List.range k).map (m + ·)).filter (fun p => Nat.Prime p), ?_⟩
  rw [primesBelow, List.range_add, List.filter_append]; rfl

theorem primesBelow_mono {m n : Nat} (h : m ≤ n) : (primesBelow m).length ≤ (primesBelow n).length := by
  obtain ⟨t, ht⟩ := primesBelow_append h
  rw [ht]; simp

/-- what holds for every buffer: the list is the increasing list of all primes below `next`, which is odd -/
structure Buf.Inv (b : Buf) : Prop where
  list_eq : b.list = primesBelow b.next
  odd : b.next % 2 = 1
  ge : 55 ≤ b.next

/-- the squares of the primes in the buffer fit into `u64` -/
def Buf.Safe (b : Buf) : Prop := ∀ p ∈ b.list, p < 2 ^ 32

theorem Buf.Inv.mem {b : Buf} (h : b.Inv) {p : Nat} : p ∈ b.list ↔ p.Prime ∧ p < b.next := by
  rw [h.list_eq]; exact mem_primesBelow

theorem Buf.Inv.sorted {b : Buf} (h : b.Inv) : b.list.Pairwise (· < ·) := by
  rw [h.list_eq]; exact primesBelow_sorted _

theorem primesBelow_55 : primesBelow 55 = [2, 3, 5, 7, 11, 13, 17, 19, 23, 29, 31, 37, 41, 43, 47, 53] := by
  apply sorted_ext (primesBelow_sorted _) (by decide)
  intro x
  rw [mem_primesBelow]
  constructor
  · rintro ⟨h1, h2⟩
    interval_cases x <;> first | (revert h1; norm_num) | simp
  · intro h
    simp only [List.mem_cons, List.not_mem_nil, or_false] at h
    rcases h with rfl | rfl | rfl | rfl | rfl | rfl | rfl | rfl | rfl | rfl | rfl | rfl | rfl | rfl | rfl | rfl <;>
      norm_num

theorem Buf.Inv.append {b : Buf} (h : b.Inv) : ∃ t, b.list = primesBelow 55 ++ t := by
  rw [h.list_eq]; exact primesBelow_append h.ge

theorem Buf.Inv.length {b : Buf} (h : b.Inv) : 16 ≤ b.list.length := by
  obtain ⟨t, ht⟩ := h.append
  rw [ht, primesBelow_55]; simp

theorem Buf.inv_new (bld : Build) : (Buf.new bld).Inv where
  list_eq := sorted_ext (smallPrimes_sorted bld) (primesBelow_sorted _)
    (fun x => by rw [mem_primesBelow]; exact mem_smallPrimes)
  odd := by cases bld <;> decide
  ge := by have := le_smallPrimesNext bld; simp only [Buf.new]; omega

theorem Buf.inv_clear {b : Buf} (h : b.Inv) : b.clear.Inv where
  list_eq := by
    obtain ⟨t, ht⟩ := h.append
    simp only [Buf.clear, ht, primesBelow_55]
    rfl
  odd := by simp [Buf.clear]
  ge := by simp [Buf.clear]

theorem Buf.Inv.next_le {b : Buf} (h : b.Inv) (hs : b.Safe) : b.next ≤ 4294967311 := by
  by_contra hc
  have := hs 4294967311 (h.mem.mpr ⟨prime_4294967311, by omega⟩)
  omega

theorem two_mem_drop {l : List Nat} {t : List Nat} (h : l = primesBelow 55 ++ t) (hs : l.Pairwise (· < ·)) {p : Nat} :
    p ∈ l.drop 1 ↔ p ∈ l ∧ p ≠ 2 := by
  rw [primesBelow_55] at h
  subst h
  simp only [List.cons_append, List.drop_succ_cons, List.drop_zero, List.mem_cons]
  simp only [List.cons_append, List.pairwise_cons] at hs
  constructor
  · intro h
    refine ⟨Or.inr h, ?_⟩
    have := hs.1 p (by simpa using h)
    omega
  · rintro ⟨h | h, h2⟩
    · omega
    · exact h

/-- an odd number is prime iff no odd `p` in a set containing all odd primes up to its root divides it -/
theorem odd_prime_iff {n : Nat} (hn : 1 < n) (S : Nat → Prop)
    (h1 : ∀ p, S p → p ∣ n → p * p ≤ n → 1 < p) (h2 : ∀ p, p.Prime → p ∣ n → p * p ≤ n → S p) :
    n.Prime ↔ ¬ ∃ p, S p ∧ p ∣ n ∧ p * p ≤ n := by
  constructor
  · rintro hp ⟨p, hS, hd, hle⟩
    have h3 := h1 p hS hd hle
    rcases (Nat.dvd_prime hp).mp hd with rfl | rfl
    · omega
    · nlinarith
  · intro h
    by_contra hnp
    have hmin := Nat.minFac_prime (n := n) (by omega)
    have hsq := Nat.minFac_sq_le_self (by omega : 0 < n) hnp
    exact h ⟨n.minFac, h2 _ hmin (Nat.minFac_dvd n) (by nlinarith), Nat.minFac_dvd n, by nlinarith⟩

theorem reserve_noop {b : Buf} (hodd : b.next % 2 = 1) {limit : Nat} (hl : (limit ||| 1) + 2 < 2 ^ 64)
    (h : (limit ||| 1) + 2 < b.next) : b.reserve limit = .ok b := by
  have : ¬ b.next % 2 ≠ 1 := by omega
  simp only [Buf.reserve, cadd_ok (fits_some.mpr hl), Res.bind_ok, this, if_false, h, if_true]

theorem reserve_overflow {b : Buf} {limit : Nat} (hl : 2 ^ 64 ≤ (limit ||| 1) + 2) : b.reserve limit = .panic := by
  have : ¬ fits (some 64) ((limit ||| 1) + 2) = true := by rw [fits_some]; omega
  have h : cadd (some 64) (limit ||| 1) 2 = .panic := by rw [cadd, if_neg this]
  simp only [Buf.reserve, h, Res.bind_panic]

theorem reserve_grow {b : Buf} (hb : b.Inv) (hs : b.Safe) {limit : Nat} (hl : (limit ||| 1) + 2 < 2 ^ 64)
    (h : b.next ≤ (limit ||| 1) + 2) : b.reserve limit = .ok ⟨primesBelow ((limit ||| 1) + 2), (limit ||| 1) + 2⟩ := by
  set L := (limit ||| 1) + 2 with hLdef
  have hLodd : L % 2 = 1 := by have := or_one_odd limit; omega
  have hnext := hb.next_le hs
  have hnodd := hb.odd
  have hge := hb.ge
  obtain ⟨t, ht⟩ := hb.append
  have hdrop : ∀ p, p ∈ b.list.drop 1 ↔ p.Prime ∧ p < b.next ∧ p ≠ 2 := by
    intro p; rw [two_mem_drop ht hb.sorted, hb.mem, and_assoc]
  obtain ⟨mk, m1, m2⟩ := sieveOld_spec hnodd hLodd (by omega) (b.list.drop 1) [] (by
    intro p hp
    obtain ⟨q1, q2, q3⟩ := (hdrop p).mp hp
    exact ⟨q1.eq_two_or_odd.resolve_left q3, hs p (hb.mem.mpr ⟨q1, q2⟩)⟩)
  have hsq := isqrt_eq L
  have hsqle : isqrt L * isqrt L ≤ L := by rw [hsq]; exact Nat.sqrt_le L
  have hsqlt : isqrt L < 2 ^ 32 := by nlinarith
  obtain ⟨mk', n1, n2⟩ := sieveNew_spec hnodd hLodd (rangeStep b.next (isqrt L + 1) 2) mk (by
    intro p hp
    obtain ⟨k, rfl, hk⟩ := (mem_rangeStep (by norm_num)).mp hp
    omega)
  have hno : ¬ b.next % 2 ≠ 1 := by omega
  have hnl : ¬ L < b.next := by omega
  have hprime : ∀ i, i < (L - b.next) / 2 → (i ∉ mk' ↔ (b.next + 2 * i).Prime) := by
    intro i hi
    rw [n2 i hi, m2 i hi]
    rw [odd_prime_iff (by omega) (fun p => p ∈ b.list.drop 1 ∨ p ∈ rangeStep b.next (isqrt L + 1) 2)]
    · apply not_congr
      constructor
      · rintro ((h | ⟨p, hp, hr⟩) | ⟨p, hp, hr⟩)
        · simp at h
        · exact ⟨p, Or.inl hp, hr⟩
        · exact ⟨p, Or.inr hp, hr⟩
      · rintro ⟨p, hp | hp, hr⟩
        · exact Or.inl (Or.inr ⟨p, hp, hr⟩)
        · exact Or.inr ⟨p, hp, hr⟩
    · rintro p (hp | hp) _ _
      · exact ((hdrop p).mp hp).1.one_lt
      · obtain ⟨k, rfl, hk⟩ := (mem_rangeStep (by norm_num)).mp hp
        omega
    · intro p hp hd hle
      have hp2 : p ≠ 2 := by
        rintro rfl
        omega
      have hpo := hp.eq_two_or_odd.resolve_left hp2
      rcases Nat.lt_or_ge p b.next with hlt | hlt
      · exact Or.inl ((hdrop p).mpr ⟨hp, hlt, hp2⟩)
      · right
        rw [mem_rangeStep (by norm_num)]
        refine ⟨(p - b.next) / 2, by omega, ?_⟩
        have : p ≤ Nat.sqrt L := Nat.le_sqrt.mpr (by omega)
        omega
  simp only [Buf.reserve, ← hLdef, cadd_ok (fits_some.mpr hl), Res.bind_ok, hno, if_false, hnl, m1, n1, Res.pure_def]
  congr 2
  apply sorted_ext
  · rw [List.pairwise_append]
    refine ⟨hb.sorted, ?_, ?_⟩
    · rw [List.pairwise_map]
      apply List.Pairwise.imp _ (List.Pairwise.filter _ List.pairwise_lt_range)
      intro x y hxy; omega
    · intro x hx y hy
      obtain ⟨z, _, rfl⟩ := List.mem_map.mp hy
      have := (hb.mem.mp hx).2
      omega
  · exact primesBelow_sorted _
  · intro x
    rw [mem_primesBelow, List.mem_append, hb.mem, List.mem_map]
    constructor
    · rintro (⟨h1, h2⟩ | ⟨i, hi, rfl⟩)
      · exact ⟨h1, by omega⟩
      · simp only [sieveZeros, List.mem_filter, List.mem_range, Bool.not_eq_true', List.contains_eq_mem,
          decide_eq_false_iff_not] at hi
        have := (hprime i hi.1).mp hi.2
        rw [show i * 2 + b.next = b.next + 2 * i by ring]
        exact ⟨this, by omega⟩
    · rintro ⟨h1, h2⟩
      rcases Nat.lt_or_ge x b.next with h3 | h3
      · exact Or.inl ⟨h1, h3⟩
      · right
        have hxo := h1.eq_two_or_odd.resolve_left (by omega)
        refine ⟨(x - b.next) / 2, ?_, by omega⟩
        simp only [sieveZeros, List.mem_filter, List.mem_range, Bool.not_eq_true', List.contains_eq_mem,
          decide_eq_false_iff_not]
        have hlt : (x - b.next) / 2 < (L - b.next) / 2 := by omega
        refine ⟨hlt, (hprime _ hlt).mpr ?_⟩
        rw [show b.next + 2 * ((x - b.next) / 2) = x by omega]
        exact h1

theorem sieveOld_panic {current L len : Nat} : ∀ (ps marks : List Nat), (∃ p ∈ ps, 2 ^ 32 ≤ p) →
    (∀ m, sieveOld current L len ps m ≠ .ok marks) := by
  intro ps
  induction ps with
  | nil => rintro marks ⟨p, hp, _⟩; simp at hp
  | cons q ps ih =>
    rintro marks ⟨p, hp, hlt⟩ m
    by_cases hq : 2 ^ 32 ≤ q
    · have : cmul (some 64) q q = .panic := by
        have : ¬ fits (some 64) (q * q) = true := by rw [fits_some]; nlinarith
        rw [cmul, if_neg this]
      simp only [sieveOld, this, Res.bind_panic, ne_eq, reduceCtorEq, not_false_eq_true]
    · have hp' : p ∈ ps := by
        rcases List.mem_cons.mp hp with rfl | h
        · exact absurd hlt hq
        · exact h
      intro h
      simp only [sieveOld, Res.bind_eq_ok] at h
      obtain ⟨a, -, b, -, c, -, d, -, h⟩ := h
      exact ih marks ⟨p, hp', hlt⟩ d h

/-- every successful `reserve` keeps the invariant, and afterwards all primes up to `limit` are present -/
theorem reserve_inv {b b' : Buf} (hb : b.Inv) {limit : Nat} (h : b.reserve limit = .ok b') :
    b'.Inv ∧ b'.next = max b.next ((limit ||| 1) + 2) := by
  by_cases hl : (limit ||| 1) + 2 < 2 ^ 64
  · rcases Nat.lt_or_ge ((limit ||| 1) + 2) b.next with hlt | hlt
    · rw [reserve_noop hb.odd hl hlt] at h
      injection h with h
      subst h
      exact ⟨hb, by omega⟩
    · by_cases hs : b.Safe
      · rw [reserve_grow hb hs hl hlt] at h
        injection h with h
        subst h
        refine ⟨⟨rfl, ?_, ?_⟩, ?_⟩
        · have := or_one_odd limit
          simp only; omega
        · have := hb.ge; simp only; omega
        · simp only; omega
      · exfalso
        simp only [Buf.Safe, not_forall, not_lt] at hs
        obtain ⟨p, hp, hp2⟩ := hs
        obtain ⟨t, ht⟩ := hb.append
        have hd := (two_mem_drop ht hb.sorted).mpr ⟨hp, by omega⟩
        have h1 : ¬ b.next % 2 ≠ 1 := by have := hb.odd; omega
        have h2 : ¬ (limit ||| 1) + 2 < b.next := by omega
        simp only [Buf.reserve, cadd_ok (fits_some.mpr hl), Res.bind_ok, h1, if_false, h2, Res.bind_eq_ok] at h
        obtain ⟨mk, h3, _⟩ := h
        exact sieveOld_panic _ _ ⟨p, hd, hp2⟩ _ h3
  · rw [reserve_overflow (by omega)] at h
    simp at h

theorem sieveMark_ne_timeout {current len : Nat} : ∀ (ms marks : List Nat),
    sieveMark current len ms marks ≠ .timeout := by
  intro ms
  induction ms with
  | nil => intro marks; simp [sieveMark]
  | cons m ms ih =>
    intro marks
    simp only [sieveMark]
    split
    · simp only [sieveSet]
      split
      · exact ih _
      · simp
    · exact ih _

end NumPrime
