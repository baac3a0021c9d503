import Verif.Proofs.Tables
import Verif.Proofs.LnFix
import Mathlib.Algebra.BigOperators.Intervals
import Mathlib.NumberTheory.PrimeCounting
import Mathlib.Data.Nat.Bitwise

/-! # A sieve for the kernel

The primes of a segment `[A, A + L)` as the bits of one natural number. The number of primes in a block is found by summing the
eight bits of each byte, and all bytes, by a remainder modulo 255. -/

namespace NumPrime
open Finset

/-- the specification: `∑ i < L, 2^i` over the `i` with `A + i` prime -/
def maskSpec (A L : ℕ) : ℕ := ∑ i ∈ range L, if (A + i).Prime then 2 ^ i else 0

/-- the bits `0, p, 2p, ..., (m-1)p` -/
def repU (p m : ℕ) : ℕ := Nat.div (Nat.sub (Nat.pow 2 (Nat.mul p m)) 1) (Nat.sub (Nat.pow 2 p) 1)

/-- the first multiple of `p` in the segment that is at least `p^2`, relative to `A` -/
def sieveOff (A p : ℕ) : ℕ :=
  bif Nat.ble A (Nat.mul p p) then Nat.sub (Nat.mul p p) A else Nat.mod (Nat.sub p (Nat.mod A p)) p

/-- the bits of the multiples of the primes of the list -/
def sieveOr (A L : ℕ) : List ℕ → ℕ → ℕ
  | [], M => M
  | p :: ps, M =>
    bif Nat.ble (Nat.add A L) (Nat.mul p p) then M
    else forceN (Nat.lor M (Nat.shiftLeft (repU p (Nat.succ (Nat.div L p))) (sieveOff A p))) fun M =>
      sieveOr A L ps M

/-- the bits of the primes -/
def sieveMask (A L : ℕ) : ℕ :=
  forceN (sieveOr A L Tables.smallPrimesB 0) fun M =>
    forceN (Nat.sub (Nat.pow 2 L) 1) fun all => Nat.xor all (Nat.land M all)

/-- bits -/
theorem testBit_bits (f : ℕ → Prop) [DecidablePred f] (L j : ℕ) :
    (∑ i ∈ range L, if f i then 2 ^ i else 0).testBit j = true ↔ j < L ∧ f j := by
  induction L with
  | zero => simp
  | succ L ih =>
    have hlt : (∑ i ∈ range L, if f i then 2 ^ i else 0) < 2 ^ L := by
      have h1 : (∑ i ∈ range L, if f i then 2 ^ i else 0) ≤ ∑ i ∈ range L, 2 ^ i :=
        sum_le_sum fun i _ => by split <;> simp
      have h2 : ∑ i ∈ range L, 2 ^ i < 2 ^ L := by
        have := Nat.geomSum_eq (m := 2) le_rfl L
        rw [this]
        have : 0 < 2 ^ L := by positivity
        omega
      omega
    rw [sum_range_succ]
    split
    · rename_i hf
      rw [add_comm, ← Nat.mul_one (2 ^ L), Nat.testBit_two_pow_mul_add _ hlt]
      split
      · rw [ih]
        constructor
        · rintro ⟨a, c⟩; exact ⟨by omega, c⟩
        · rintro ⟨a, c⟩; exact ⟨by omega, c⟩
      · rename_i hj
        rw [Nat.testBit_one_eq_true_iff_self_eq_zero]
        constructor
        · intro h
          have : j = L := by omega
          subst this
          exact ⟨by omega, hf⟩
        · rintro ⟨a, _⟩
          omega
    · rename_i hf
      rw [add_zero, ih]
      constructor
      · rintro ⟨a, c⟩; exact ⟨by omega, c⟩
      · rintro ⟨a, c⟩
        refine ⟨?_, c⟩
        have : j ≠ L := fun h => hf (h ▸ c)
        omega

theorem testBit_repU {p : ℕ} (hp : 0 < p) (m i : ℕ) :
    (repU p m).testBit i = true ↔ p ∣ i ∧ i < p * m := by
  have h2 : 2 ≤ 2 ^ p := by simpa using Nat.pow_le_pow_right (n := 2) (by norm_num) hp
  have h1 : repU p m = ∑ k ∈ range m, (2 ^ p) ^ k := by
    rw [Nat.geomSum_eq h2, ← pow_mul]
    rfl
  have h3 : ∀ m, ∑ k ∈ range m, (2 ^ p) ^ k = ∑ j ∈ range (p * m), if p ∣ j then 2 ^ j else 0 := by
    intro m
    induction m with
    | zero => simp
    | succ m ih =>
      rw [sum_range_succ, ih, mul_add, mul_one, sum_range_add]
      congr 1
      obtain ⟨q, rfl⟩ : ∃ q, p = q + 1 := ⟨p - 1, by omega⟩
      rw [sum_range_succ', sum_eq_zero, zero_add, add_zero, if_pos (dvd_mul_right _ _), pow_mul]
      intro k hk
      have hk := mem_range.mp hk
      rw [if_neg]
      intro hd
      have := Nat.le_of_dvd (by omega) ((Nat.dvd_add_right (dvd_mul_right _ _)).mp hd)
      omega
  rw [h1, h3, testBit_bits (fun j => p ∣ j)]
  tauto

/-- the offset -/
theorem sieveOff_spec {A p : ℕ} (hp : 0 < p) : p ∣ A + sieveOff A p ∧ p * p ≤ A + sieveOff A p ∧
    ∀ i, p ∣ A + i → p * p ≤ A + i → sieveOff A p ≤ i := by
  unfold sieveOff
  rw [Bool.cond_eq_ite]
  split
  · rename_i h
    rw [Nat.ble_eq] at h
    have h : A ≤ p * p := h
    have e : Nat.sub (Nat.mul p p) A = p * p - A := rfl
    rw [e, Nat.add_sub_cancel' h]
    exact ⟨dvd_mul_right _ _, le_rfl, fun i _ h2 => by omega⟩
  · rename_i h
    rw [Nat.ble_eq] at h
    have h : ¬ A ≤ p * p := h
    have e : Nat.mod (Nat.sub p (Nat.mod A p)) p = (p - A % p) % p := rfl
    rw [e]
    have h1 := Nat.mod_lt A hp
    have h2 := Nat.div_add_mod A p
    rcases Nat.eq_zero_or_pos (A % p) with h0 | h0
    · rw [h0, Nat.sub_zero, Nat.mod_self, Nat.add_zero]
      exact ⟨Nat.dvd_of_mod_eq_zero h0, by omega, fun i _ _ => Nat.zero_le _⟩
    · rw [Nat.mod_eq_of_lt (by omega : p - A % p < p)]
      refine ⟨⟨A / p + 1, by rw [mul_add]; omega⟩, by omega, fun i hi _ => ?_⟩
      by_contra hc
      rw [Nat.dvd_iff_mod_eq_zero, Nat.add_mod, Nat.mod_eq_of_lt (by omega : i < p),
        Nat.mod_eq_of_lt (by omega : A % p + i < p)] at hi
      omega

theorem testBit_step {A L p : ℕ} (hp : 0 < p) (hpL : p * p < A + L) (M i : ℕ) (hi : i < L) :
    (Nat.lor M (Nat.shiftLeft (repU p (Nat.succ (Nat.div L p))) (sieveOff A p))).testBit i = true ↔
      M.testBit i = true ∨ (p ∣ A + i ∧ p * p ≤ A + i) := by
  show (M ||| (repU p (L / p + 1) <<< (sieveOff A p))).testBit i = true ↔ _
  rw [Nat.testBit_or, Nat.testBit_shiftLeft, Bool.or_eq_true, Bool.and_eq_true, decide_eq_true_eq, testBit_repU hp]
  obtain ⟨o1, o2, o3⟩ := sieveOff_spec (A := A) hp
  refine or_congr Iff.rfl ⟨?_, ?_⟩
  · rintro ⟨h1, h2, _⟩
    have hle : sieveOff A p ≤ i := by omega
    have : A + i = (A + sieveOff A p) + (i - sieveOff A p) := by omega
    refine ⟨?_, by omega⟩
    rw [this]
    exact dvd_add o1 h2
  · rintro ⟨h1, h2⟩
    have hle := o3 i h1 h2
    refine ⟨by omega, ?_, ?_⟩
    · have : i - sieveOff A p = (A + i) - (A + sieveOff A p) := by omega
      rw [this]
      exact Nat.dvd_sub h1 o1
    · have h4 : L < p * (L / p + 1) := by
        have := Nat.div_add_mod L p
        have := Nat.mod_lt L hp
        rw [mul_add]
        omega
      omega

/-- the multiples of the listed primes -/
theorem testBit_sieveOr {A L : ℕ} (ps : List ℕ) (hps : ∀ p ∈ ps, 0 < p) (hs : ps.Pairwise (· < ·)) (M i : ℕ) (hi : i < L) :
    (sieveOr A L ps M).testBit i = true ↔
      M.testBit i = true ∨ ∃ p ∈ ps, p ∣ A + i ∧ p * p ≤ A + i := by
  induction ps generalizing M with
  | nil => simp [sieveOr]
  | cons p ps ih =>
    have hp := hps p (by simp)
    rw [sieveOr, Bool.cond_eq_ite]
    have hs' := List.pairwise_cons.mp hs
    split
    · rename_i h
      rw [Nat.ble_eq] at h
      have h : A + L ≤ p * p := h
      refine ⟨Or.inl, ?_⟩
      rintro (h1 | ⟨q, hq, h1, h2⟩)
      · exact h1
      · exfalso
        have : p ≤ q := by
          rcases List.mem_cons.mp hq with rfl | hq
          · exact le_rfl
          · exact (hs'.1 q hq).le
        have := Nat.mul_le_mul this this
        omega
    · rename_i h
      rw [Nat.ble_eq] at h
      have h : ¬ A + L ≤ p * p := h
      rw [forceN_eq, ih (fun q hq => hps q (List.mem_cons_of_mem _ hq)) hs'.2, testBit_step hp (by omega) M i hi]
      simp only [List.mem_cons, exists_eq_or_imp]
      tauto

/-- digits 0 and 1 in base 65536 -/
theorem testBit_digits (f : ℕ → Prop) [DecidablePred f] (L j : ℕ) :
    (∑ i ∈ range L, if f i then 65536 ^ i else 0).testBit j = true ↔ 16 ∣ j ∧ j / 16 < L ∧ f (j / 16) := by
  induction L with
  | zero => simp
  | succ L ih =>
    have hlt : ∀ L, (∑ i ∈ range L, if f i then 65536 ^ i else 0) < 2 ^ (16 * L) := by
      intro L
      have h1 : (∑ i ∈ range L, if f i then 65536 ^ i else 0) ≤ ∑ i ∈ range L, 65536 ^ i :=
        sum_le_sum fun i _ => by split <;> simp
      have h2 : ∑ i ∈ range L, 65536 ^ i < 65536 ^ L := by
        have := Nat.geomSum_eq (m := 65536) (by norm_num) L
        rw [this]
        have : 0 < 65536 ^ L := by positivity
        omega
      have h3 : (2 : ℕ) ^ (16 * L) = 65536 ^ L := by rw [pow_mul]; norm_num
      omega
    have h3 : (65536 : ℕ) ^ L = 2 ^ (16 * L) := by rw [pow_mul]; norm_num
    rw [sum_range_succ]
    split
    · rename_i hf
      rw [add_comm, h3, ← Nat.mul_one (2 ^ (16 * L)), Nat.testBit_two_pow_mul_add _ (hlt L)]
      split
      · rw [ih]
        constructor
        · rintro ⟨a, b, c⟩; exact ⟨a, by omega, c⟩
        · rintro ⟨a, b, c⟩; exact ⟨a, by omega, c⟩
      · rename_i hj
        rw [Nat.testBit_one_eq_true_iff_self_eq_zero]
        constructor
        · intro h
          have : j = 16 * L := by omega
          subst this
          rw [Nat.mul_div_cancel_left _ (by norm_num)]
          exact ⟨dvd_mul_right _ _, by omega, hf⟩
        · rintro ⟨a, b, _⟩
          omega
    · rename_i hf
      rw [add_zero, ih]
      constructor
      · rintro ⟨a, b, c⟩; exact ⟨a, by omega, c⟩
      · rintro ⟨a, b, c⟩
        refine ⟨a, ?_, c⟩
        have : j / 16 ≠ L := fun h => hf (h ▸ c)
        omega

theorem sieve_complete {A L i : ℕ} (hA : 2 ≤ A) (hL : A + L ≤ 8167 ^ 2) (hi : i < L) :
    (∃ p ∈ Tables.smallPrimesB, p ∣ A + i ∧ p * p ≤ A + i) ↔ ¬ (A + i).Prime := by
  have hmem : ∀ p, p ∈ Tables.smallPrimesB ↔ p.Prime ∧ p < 8167 := fun p => mem_smallPrimes (bld := .big)
  constructor
  · rintro ⟨p, hp, h1, h2⟩ hpr
    have hpp := ((hmem p).mp hp).1
    have := (Nat.prime_dvd_prime_iff_eq hpp hpr).mp h1
    have := hpp.two_le
    nlinarith
  · intro h
    have h2 : A + i ≠ 1 := by omega
    refine ⟨(A + i).minFac, (hmem _).mpr ⟨Nat.minFac_prime h2, ?_⟩, Nat.minFac_dvd _, ?_⟩
    · have := Nat.minFac_sq_le_self (by omega) h
      by_contra hc
      have := Nat.pow_le_pow_left (not_lt.mp hc) 2
      omega
    · rw [← sq]
      exact Nat.minFac_sq_le_self (by omega) h

/-- the sieve computes the specification -/
theorem sieveMask_eq {A L : ℕ} (hA : 2 ≤ A) (hL : A + L ≤ 8167 ^ 2) : sieveMask A L = maskSpec A L := by
  unfold sieveMask
  simp only [forceN_eq]
  have h2 := fun k (hk : k < L) => testBit_sieveOr (A := A) (L := L) Tables.smallPrimesB
    (fun p hp => ((mem_smallPrimes (bld := .big)).mp hp).1.pos) (smallPrimes_sorted .big) 0 k hk
  generalize sieveOr A L Tables.smallPrimesB 0 = M at *
  apply Nat.eq_of_testBit_eq
  intro j
  rw [Bool.eq_iff_iff, maskSpec, testBit_bits]
  show Nat.testBit ((2 ^ L - 1) ^^^ (M &&& (2 ^ L - 1))) j = true ↔ _
  rw [Nat.testBit_xor, Nat.testBit_and, Nat.testBit_two_pow_sub_one]
  by_cases hj : j < L
  · rw [decide_eq_true hj, Bool.and_true, Bool.true_xor, Bool.not_eq_true', ← Bool.not_eq_true, h2 j hj,
      sieve_complete hA hL hj]
    simp [hj]
  · simp [hj]

/-! ## reading the mask -/

theorem maskSpec_add (A d L : ℕ) : maskSpec A (d + L) = maskSpec A d + 2 ^ d * maskSpec (A + d) L := by
  unfold maskSpec
  rw [sum_range_add, mul_sum]
  congr 1
  refine sum_congr rfl fun i _ => ?_
  rw [← add_assoc]
  split
  · rw [pow_add]
  · rfl

theorem maskSpec_lt (A L : ℕ) : maskSpec A L < 2 ^ L := by
  have h1 : maskSpec A L ≤ ∑ i ∈ range L, 2 ^ i := sum_le_sum fun i _ => by split <;> simp
  rw [Nat.geomSum_eq le_rfl] at h1
  have : 0 < 2 ^ L := by positivity
  omega

theorem maskSpec_mod (A d L : ℕ) : maskSpec A (d + L) % 2 ^ d = maskSpec A d := by
  rw [maskSpec_add, Nat.add_mul_mod_self_left, Nat.mod_eq_of_lt (maskSpec_lt A d)]

theorem maskSpec_div (A d L : ℕ) : maskSpec A (d + L) / 2 ^ d = maskSpec (A + d) L := by
  rw [maskSpec_add, Nat.add_mul_div_left _ _ (by positivity), Nat.div_eq_of_lt (maskSpec_lt A d), zero_add]

/-- the bits `r, r + 16, r + 32, ...` of `v`, as digits in base 65536 (for `v < 2^(16K)`) -/
def laneBit (K v r : ℕ) : ℕ := Nat.land (Nat.shiftRight v r) (Nat.div (Nat.sub (Nat.pow 65536 K) 1) 65535)

/-- the sum of the digits `laneBit K v 0 + ... + laneBit K v (r - 1)` -/
def laneSum (K v : ℕ) : ℕ → ℕ
  | 0 => 0
  | r + 1 => Nat.add (laneSum K v r) (laneBit K v r)

/-- the number of bits of `v < 2^(16K)`, modulo 65535 -/
def popMod (K v : ℕ) : ℕ := Nat.mod (laneSum K v 16) 65535

theorem laneBit_eq (K v r : ℕ) : laneBit K v r = ∑ i ∈ range K, if v.testBit (16 * i + r) = true then 65536 ^ i else 0 := by
  have hall : Nat.div (Nat.sub (Nat.pow 65536 K) 1) 65535 = ∑ i ∈ range K, if True then 65536 ^ i else 0 := by
    simp only [if_true]
    rw [Nat.geomSum_eq (by norm_num)]
    rfl
  unfold laneBit
  rw [hall]
  apply Nat.eq_of_testBit_eq
  intro j
  rw [Bool.eq_iff_iff, testBit_digits (fun i => v.testBit (16 * i + r) = true)]
  show Nat.testBit ((v >>> r) &&& _) j = true ↔ _
  rw [Nat.testBit_and, Bool.and_eq_true, testBit_digits (fun _ => True), Nat.testBit_shiftRight]
  constructor
  · rintro ⟨h1, ⟨k, rfl⟩, h3, _⟩
    rw [Nat.mul_div_cancel_left _ (by norm_num)] at h3 ⊢
    exact ⟨dvd_mul_right _ _, h3, by rwa [add_comm]⟩
  · rintro ⟨⟨k, rfl⟩, h3, h1⟩
    rw [Nat.mul_div_cancel_left _ (by norm_num)] at h3 h1
    exact ⟨by rwa [add_comm], dvd_mul_right _ _, by rwa [Nat.mul_div_cancel_left _ (by norm_num)], trivial⟩

theorem digits_mod (f : ℕ → Prop) [DecidablePred f] (K : ℕ) :
    (∑ i ∈ range K, if f i then 65536 ^ i else 0) ≡ ∑ i ∈ range K, (if f i then 1 else 0) [MOD 65535] := by
  induction K with
  | zero => exact Nat.ModEq.refl _
  | succ K ih =>
    rw [sum_range_succ, sum_range_succ]
    refine ih.add ?_
    split
    · have : (65536 : ℕ) ^ K ≡ 1 ^ K [MOD 65535] := Nat.ModEq.pow K (by decide)
      rwa [one_pow] at this
    · exact Nat.ModEq.refl _

theorem sum_range_mul (f : ℕ → ℕ) (W K : ℕ) : ∑ j ∈ range (W * K), f j =
    ∑ r ∈ range W, ∑ i ∈ range K, f (W * i + r) := by
  rw [sum_comm]
  induction K with
  | zero => simp
  | succ K ih => rw [Nat.mul_succ, sum_range_add, ih, sum_range_succ]

theorem laneSum_eq (K v r : ℕ) : laneSum K v r ≡
    ∑ r ∈ range r, ∑ i ∈ range K, (if v.testBit (16 * i + r) = true then 1 else 0) [MOD 65535] := by
  induction r with
  | zero => exact Nat.ModEq.refl _
  | succ r ih =>
    rw [sum_range_succ]
    refine Nat.ModEq.add ih ?_
    rw [laneBit_eq]
    exact digits_mod (fun i => v.testBit (16 * i + r) = true) K

theorem popMod_eq (K v : ℕ) : popMod K v = (∑ j ∈ range (16 * K), if v.testBit j = true then 1 else 0) % 65535 := by
  rw [sum_range_mul]
  exact laneSum_eq K v 16

theorem primeCounting_block (A d : ℕ) (hA : 0 < A) :
    Nat.primeCounting (A + d - 1) = Nat.primeCounting (A - 1) + ∑ j ∈ range d, if (A + j).Prime then 1 else 0 := by
  induction d with
  | zero => simp
  | succ d ih =>
    have e1 : A + (d + 1) - 1 = (A + d - 1) + 1 := by omega
    have e2 : A + d = (A + d - 1) + 1 := by omega
    rw [sum_range_succ, ← Nat.add_assoc (Nat.primeCounting (A - 1)), ← ih, e1]
    unfold Nat.primeCounting Nat.primeCounting'
    rw [Nat.count_succ, ← e2]

/-- counting -/
theorem popMod_mask0 (K A d : ℕ) (hA : 0 < A) (hd : d ≤ 16 * K) :
    popMod K (maskSpec A d) = (Nat.primeCounting (A + d - 1) - Nat.primeCounting (A - 1)) % 65535 := by
  rw [popMod_eq, primeCounting_block A d hA, Nat.add_sub_cancel_left]
  congr 1
  rw [← sum_range_add_sum_Ico _ hd, sum_eq_zero (s := Ico d (16 * K)), add_zero]
  · refine sum_congr rfl fun j hj => ?_
    have : (maskSpec A d).testBit j = true ↔ _ := testBit_bits (fun i => (A + i).Prime) d j
    have hj := mem_range.mp hj
    by_cases hp : (A + j).Prime
    · rw [if_pos hp, if_pos (this.mpr ⟨hj, hp⟩)]
    · rw [if_neg hp, if_neg (fun h => hp (this.mp h).2)]
  · intro j hj
    have : (maskSpec A d).testBit j = true ↔ _ := testBit_bits (fun i => (A + i).Prime) d j
    rw [if_neg]
    intro h
    have := (this.mp h).1
    have := (mem_Ico.mp hj).1
    omega

theorem popMod_mask (K A d : ℕ) (hA : 0 < A) (hd : d ≤ 16 * K) (hd2 : d < 65535) :
    popMod K (maskSpec A d) + Nat.primeCounting (A - 1) = Nat.primeCounting (A + d - 1) := by
  rw [popMod_mask0 K A d hA hd, primeCounting_block A d hA, Nat.add_sub_cancel_left, Nat.mod_eq_of_lt, add_comm]
  refine lt_of_le_of_lt ?_ hd2
  calc _ ≤ ∑ j ∈ range d, 1 := sum_le_sum fun j _ => by split <;> simp
    _ = d := by simp

end NumPrime
