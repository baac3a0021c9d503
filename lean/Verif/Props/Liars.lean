import Mathlib.Data.Fintype.BigOperators
import Mathlib.Tactic.NormNum.LegendreSymbol
import Verif.Proofs.Rabin
import Verif.Proofs.ExactSmall
import Verif.Props.Sprp
import Verif.Props.Lucas

/-! # How the probable prime tests relate to each other, and how many bases they accept (C81, C82)

The statements speak about the verdicts of the modelled tests only. -/

namespace NumPrime
open Spec

/-! ## C81: the stronger tests imply the weaker ones -/

/-- **C81** a number accepted by `is_sprp(a)` is accepted by `is_prp(a)` -/
theorem C81_sprp_imp_prp (w : Width) (n a : ℕ) (hn : 3 ≤ n) (hodd : n % 2 = 1) (hw : fits w n = true)
    (h : isSprp w n a = .ok true) : isPrp n a = true := by
  obtain ⟨v, h1, h2⟩ := C04_is_sprp_iff w n a hn hodd hw
  rw [h1] at h
  injection h with h
  rw [C03_is_prp_iff n a (by omega)]
  exact fermat_of_strong (h2.mp h)

-- both directions of the non-vacuity: 2047 passes both, 341 passes only the weaker one
example : isSprp (some 16) 2047 2 = .ok true ∧ isPrp 2047 2 = true := by decide +kernel
example : isSprp (some 16) 341 2 = .ok false ∧ isPrp 341 2 = true := by decide +kernel

theorem lucasU_dvd_of_V (P Q : ℤ) (n : ℤ) (d : ℕ) : ∀ k, lucasU P Q d ≡ 0 [ZMOD n] → lucasU P Q (d * 2 ^ k) ≡ 0 [ZMOD n]
  | 0, h => by simpa using h
  | k + 1, h => by
    rw [show d * 2 ^ (k + 1) = 2 * (d * 2 ^ k) by ring, lucasU_two_mul]
    have := (lucasU_dvd_of_V P Q n d k h).mul_right (lucasV P Q (d * 2 ^ k))
    simpa using this

theorem lucasPRP_of_strong {n : ℕ} {P Q : ℤ} (h : StrongLucasPRP n P Q) : LucasPRP n P Q := by
  obtain ⟨s, d, -, hd, h | ⟨r, hr, h⟩⟩ := h
  · rw [LucasPRP, hd]
    exact lucasU_dvd_of_V P Q n d s h
  · rw [LucasPRP, hd]
    have h1 : lucasU P Q (d * 2 ^ (r + 1)) ≡ 0 [ZMOD n] := by
      rw [show d * 2 ^ (r + 1) = 2 * (d * 2 ^ r) by ring, lucasU_two_mul]
      have := h.mul_left (lucasU P Q (d * 2 ^ r))
      simpa using this
    have := lucasU_dvd_of_V P Q n _ (s - (r + 1)) h1
    rwa [mul_assoc, ← pow_add, show r + 1 + (s - (r + 1)) = s by omega] at this

/-- **C81** a number accepted by `is_slprp(p, q)` with `q` coprime to it is accepted by `is_lprp(p, q)` -/
theorem C81_slprp_imp_lprp (bld : Build) (w : Width) (n : ℕ) (hn : 3 ≤ n) (hodd : n % 2 = 1) (hw : fits w (n + 1) = true)
    (p : ℕ) (q : ℤ) (ha : LucasArgs w p q) (hq : Int.gcd q n = 1) (h : isSlprp bld w n (some p) (some q) = .ok true) :
    isLprp bld w n (some p) (some q) = .ok true := by
  obtain ⟨v, h1, h2⟩ := C11_is_slprp_iff bld w n hn hodd hw p q ha hq
  obtain ⟨u, h3, h4⟩ := C09_is_lprp_iff bld w n hodd hw p q ha
  rw [h1] at h
  injection h with h
  rw [h3, h4.mpr (lucasPRP_of_strong (h2.mp h))]

-- 4181 = 37 * 113 passes both tests, 323 = 17 * 19 only the weaker one
example : isLprp .big (some 64) 323 (some 1) (some (-1)) = .ok true ∧ isSlprp .big (some 64) 323 (some 1) (some (-1)) = .ok false := by decide +kernel
example : isSlprp .big (some 64) 4181 (some 1) (some (-1)) = .ok true ∧ isLprp .big (some 64) 4181 (some 1) (some (-1)) = .ok true := by
  decide +kernel

/-- **C81** a number accepted by `is_eslprp(p)` with a parameter of nonzero Jacobi symbol is accepted by `is_slprp(p, 1)`
and by `is_lprp(p, 1)` -/
theorem C81_eslprp_imp_slprp (bld : Build) (w : Width) (n : ℕ) (hn : 3 ≤ n) (hodd : n % 2 = 1) (hw : fits w (n + 1) = true)
    (p : ℕ) (ha : LucasArgs w p 1) (hJ : jacobiSym ((p : ℤ) ^ 2 - 4) n ≠ 0) (h : isEslprp bld w n (some p) = .ok true) :
    isSlprp bld w n (some p) (some 1) = .ok true ∧ isLprp bld w n (some p) (some 1) = .ok true := by
  obtain ⟨v, h1, h2⟩ := C70_is_eslprp_iff bld w n hn hodd hw p ha hJ
  obtain ⟨u, h3, h4⟩ := C11_is_slprp_iff bld w n hn hodd hw p 1 ha (by simp)
  rw [h1] at h
  injection h with h
  have hs : StrongLucasPRP n p 1 := by
    obtain ⟨s, d, hd1, hd2, h⟩ := h2.mp h
    refine ⟨s, d, hd1, by simpa using hd2, ?_⟩
    rcases h with ⟨h, -⟩ | ⟨r, hr, h⟩
    · exact Or.inl h
    · exact Or.inr ⟨r, by omega, h⟩
  have hsl : isSlprp bld w n (some p) (some 1) = .ok true := by rw [h3, h4.mpr hs]
  exact ⟨hsl, C81_slprp_imp_lprp bld w n hn hodd hw p 1 ha (by simp) hsl⟩

example : isEslprp .big (some 64) 989 (some 3) = .ok false ∧ isEslprp .big (some 64) 989 (some 4) = .ok true ∧
    jacobiSym (((4 : ℕ) : ℤ) ^ 2 - 4) 989 ≠ 0 := by
  refine ⟨by decide +kernel, by decide +kernel, ?_⟩
  norm_num

/-! ## C82: the number of bases accepted -/

instance (w : Width) (n : ℕ) : DecidablePred fun a => isSprp w n a = .ok true := fun _ => inferInstance

/-- **C82** (Rabin) an odd composite number is accepted by `is_sprp` for at most a quarter of the bases `1, …, n-1` -/
theorem C82_sprp_quarter (w : Width) (n : ℕ) (hodd : n % 2 = 1) (h1 : 1 < n) (hw : fits w n = true) (hnp : ¬ n.Prime) :
    4 * ((Finset.Icc 1 (n - 1)).filter fun a => isSprp w n a = .ok true).card ≤ n - 1 := by
  refine Rabin.strong_liars (by omega) hodd hnp _ fun b hb => ?_
  obtain ⟨v, h2, h3⟩ := C04_is_sprp_iff w n b (by omega) hodd hw
  rw [h2] at hb
  injection hb with hb
  exact h3.mp hb

-- the bound is attained: 9 accepts the bases 1 and 8
example : ((Finset.Icc 1 8).filter fun a => isSprp (some 8) 9 a = .ok true) = {1, 8} := by decide +kernel

/-- **C82** `k` independent bases: of all `k`-tuples of bases, at most the fraction `4^-k` makes `is_sprp` accept an odd
composite number `k` times -/
theorem C82_sprp_tuples (w : Width) (n k : ℕ) (hodd : n % 2 = 1) (h1 : 1 < n) (hw : fits w n = true) (hnp : ¬ n.Prime) :
    4 ^ k * ((Fintype.piFinset fun _ : Fin k => Finset.Icc 1 (n - 1)).filter
      fun f => ∀ i, isSprp w n (f i) = .ok true).card ≤ (Fintype.piFinset fun _ : Fin k => Finset.Icc 1 (n - 1)).card := by
  have e : ((Fintype.piFinset fun _ : Fin k => Finset.Icc 1 (n - 1)).filter fun f => ∀ i, isSprp w n (f i) = .ok true) =
      Fintype.piFinset fun _ : Fin k => (Finset.Icc 1 (n - 1)).filter fun a => isSprp w n a = .ok true := by
    ext f
    simp only [Finset.mem_filter, Fintype.mem_piFinset]
    exact forall_and.symm
  rw [e, Fintype.card_piFinset_const, Fintype.card_piFinset_const, ← Nat.mul_pow, Nat.card_Icc, Nat.add_sub_cancel]
  exact Nat.pow_le_pow_left (C82_sprp_quarter w n hodd h1 hw hnp) k

/-- **C82** there is always a base that exposes a composite number: accepting every base characterises the odd primes -/
theorem C82_sprp_witness (w : Width) (n : ℕ) (hodd : n % 2 = 1) (h1 : 1 < n) (hw : fits w n = true) :
    n.Prime ↔ ∀ a, 1 ≤ a → a < n → isSprp w n a = .ok true := by
  constructor
  · intro hp a ha hlt
    exact C05_sprp_complete w n a hp (by omega) (Nat.not_dvd_of_pos_of_lt (by omega) hlt) hw |>.2
  · intro h
    by_contra hnp
    have := C82_sprp_quarter w n hodd h1 hw hnp
    rw [Finset.filter_true_of_mem (fun a ha => by
      rw [Finset.mem_Icc] at ha
      exact h a ha.1 (by omega)), Nat.card_Icc] at this
    omega

/-- **C82** the Fermat test: when `is_prp` rejects a single base coprime to `n`, it accepts at most half of the bases
`1, …, n-1` -/
theorem C82_prp_half (n : ℕ) (h1 : 1 < n) (c : ℕ) (hc : Nat.Coprime c n) (hrej : isPrp n c = false) :
    2 * ((Finset.Icc 1 (n - 1)).filter fun a => isPrp n a = true).card ≤ n - 1 := by
  haveI : NeZero n := ⟨by omega⟩
  have hiff : ∀ a, isPrp n a = true ↔ (a : ZMod n) ^ (n - 1) = 1 := by
    intro a
    rw [C03_is_prp_iff n a (by omega), FermatPRP, ← ZMod.natCast_eq_natCast_iff]
    push_cast
    rfl
  have hn1 : n - 1 ≠ 0 := by omega
  classical
  set K := (powMonoidHom (n - 1) : (ZMod n)ˣ →* (ZMod n)ˣ).ker with hK
  have hle : ((Finset.Icc 1 (n - 1)).filter fun a => isPrp n a = true).card ≤
      (Finset.univ.filter fun x => x ∈ K).card := by
    refine le_trans (Finset.card_le_card ?_)
      (Finset.card_image_le (s := Finset.univ.filter fun x => x ∈ K) (f := fun x => (x : ZMod n).val))
    intro b hb
    rw [Finset.mem_filter, Finset.mem_Icc, hiff] at hb
    obtain ⟨x, hx⟩ := IsUnit.of_pow_eq_one hb.2 hn1
    rw [Finset.mem_image]
    refine ⟨x, Finset.mem_filter.mpr ⟨Finset.mem_univ _, ?_⟩, ?_⟩
    · rw [hK, MonoidHom.mem_ker, powMonoidHom_apply]
      ext
      push_cast
      rw [hx]
      exact hb.2
    · rw [hx, ZMod.val_natCast, Nat.mod_eq_of_lt (by omega)]
  have hcard : (Finset.univ.filter fun x => x ∈ K).card = Nat.card K := by
    rw [Nat.card_eq_fintype_card, Fintype.card_subtype]
  have hidx : K.index ≠ 1 := by
    intro h
    have hm : ZMod.unitOfCoprime c hc ∈ K := by rw [Subgroup.index_eq_one.mp h]; trivial
    rw [hK, MonoidHom.mem_ker, powMonoidHom_apply] at hm
    have := congrArg Units.val hm
    rw [Units.val_pow_eq_pow_val, ZMod.coe_unitOfCoprime, Units.val_one, ← hiff] at this
    rw [this] at hrej
    exact absurd hrej (by decide)
  have hidx0 : K.index ≠ 0 := Subgroup.index_ne_zero_of_finite
  have hmul := Subgroup.card_mul_index K
  have htot : Nat.card (ZMod n)ˣ ≤ n - 1 := by
    rw [Nat.card_eq_fintype_card, ZMod.card_units_eq_totient]
    have := Nat.totient_lt n h1
    omega
  have : Nat.card K * 2 ≤ Nat.card K * K.index := Nat.mul_le_mul_left _ (by omega)
  omega

example : Nat.Coprime 3 341 ∧ isPrp 341 3 = false := by decide +kernel

/-- **C82, counterpart** for the Carmichael number 561 no coprime base is rejected by `is_prp`, while `is_sprp` accepts at most a quarter -/
theorem C82_carmichael : (∀ c, Nat.Coprime c 561 → isPrp 561 c = true) ∧
    4 * ((Finset.Icc 1 560).filter fun a => isSprp (some 64) 561 a = .ok true).card ≤ 560 := by
  refine ⟨fun c hc => ?_, C82_sprp_quarter (some 64) 561 (by norm_num) (by norm_num) (by decide +kernel) (by norm_num)⟩
  rw [C03_is_prp_iff 561 c (by norm_num)]
  have h : ∀ p : ℕ, p.Prime → p ∣ 561 → p - 1 ∣ 560 → c ^ 560 ≡ 1 [MOD p] := by
    intro p hp hd ⟨k, hk⟩
    have hcp : Nat.Coprime c p := Nat.Coprime.coprime_dvd_right hd hc
    have := (Nat.ModEq.pow_totient hcp).pow k
    rwa [Nat.totient_prime hp, ← pow_mul, ← hk, one_pow] at this
  have h3 := h 3 (by norm_num) (by norm_num) (by norm_num)
  have h11 := h 11 (by norm_num) (by norm_num) (by norm_num)
  have h17 := h 17 (by norm_num) (by norm_num) (by norm_num)
  have h33 := (Nat.modEq_and_modEq_iff_modEq_mul (by norm_num : Nat.Coprime 3 11)).mp ⟨h3, h11⟩
  exact (Nat.modEq_and_modEq_iff_modEq_mul (by norm_num : Nat.Coprime 33 17)).mp ⟨h33, h17⟩

end NumPrime
