import Mathlib.RingTheory.ZMod.UnitsCyclic
import Mathlib.GroupTheory.Index
import Mathlib.FieldTheory.Finite.Basic
import Verif.Proofs.Sprp

/-! Rabin's theorem: a composite odd number is a strong probable prime to at most a quarter of all bases. -/

namespace NumPrime.Rabin
open Spec

/-! ## groups -/

theorem four_card_le {G : Type*} [Group G] [Finite G] {H K : Subgroup G} (h1 : H < K) (h2 : K < ⊤) :
    4 * Nat.card H ≤ Nat.card G := by
  have e1 := Subgroup.card_mul_index H
  have e2 := Subgroup.relIndex_mul_index h1.le
  have hi : H.index ≠ 0 := Subgroup.index_ne_zero_of_finite
  have a1 : H.relIndex K ≠ 1 := fun h => (not_le_of_gt h1) (Subgroup.relIndex_eq_one.mp h)
  have a2 : K.index ≠ 1 := fun h => h2.ne (Subgroup.index_eq_one.mp h)
  have a3 : H.relIndex K ≠ 0 := fun h => hi (by rw [← e2, h, Nat.zero_mul])
  have a4 : K.index ≠ 0 := fun h => hi (by rw [← e2, h, Nat.mul_zero])
  have a5 : 2 * 2 ≤ H.relIndex K * K.index := Nat.mul_le_mul (by omega) (by omega)
  rw [e2] at a5
  calc 4 * Nat.card H ≤ H.index * Nat.card H := Nat.mul_le_mul_right _ a5
    _ = Nat.card G := by rw [Nat.mul_comm, e1]

/-- the elements whose `m`-th power is `1` or `-1` -/
def pmRoots (n m : ℕ) : Subgroup (ZMod n)ˣ where
  carrier := {x | x ^ m = 1 ∨ x ^ m = -1}
  one_mem' := Or.inl (one_pow m)
  mul_mem' := by
    rintro a b (ha | ha) (hb | hb) <;> simp [mul_pow, ha, hb]
  inv_mem' := by
    rintro a (ha | ha) <;> simp [ha]

theorem mem_pmRoots {n m : ℕ} {x : (ZMod n)ˣ} : x ∈ pmRoots n m ↔ x ^ m = 1 ∨ x ^ m = -1 := Iff.rfl

/-- reduction of units modulo a divisor -/
def red {n r : ℕ} (h : r ∣ n) : (ZMod n)ˣ →* (ZMod r)ˣ := Units.map (ZMod.castHom h (ZMod r)).toMonoidHom

theorem red_neg_one {n r : ℕ} (h : r ∣ n) : red h (-1) = -1 := by
  ext
  simp [red]

theorem red_val {n r : ℕ} (h : r ∣ n) (x : (ZMod n)ˣ) : ((red h x : (ZMod r)ˣ) : ZMod r) = ZMod.castHom h (ZMod r) (x : ZMod n) := rfl

theorem neg_one_ne {n : ℕ} (h : 2 < n) : (-1 : (ZMod n)ˣ) ≠ 1 := by
  intro hc
  have h1 : (-1 : ZMod n) = 1 := by
    have := congrArg (Units.val) hc
    simpa using this
  haveI : Fact (2 < n) := ⟨h⟩
  exact ZMod.neg_one_ne_one h1

theorem crt_unit {n r s : ℕ} (hn : n = r * s) (h0 : 0 < n) (hc : r.Coprime s) (hr : r ∣ n) (hs : s ∣ n) (x : (ZMod r)ˣ) :
    ∃ y : (ZMod n)ˣ, red hr y = x ∧ red hs y = 1 := by
  have hr0 : r ≠ 0 := by rintro rfl; simp at hn; omega
  haveI : NeZero r := ⟨hr0⟩
  obtain ⟨k, hk1, hk2⟩ := Nat.chineseRemainder hc (x : ZMod r).val 1
  have hx := ZMod.val_coe_unit_coprime x
  have c1 : Nat.Coprime k r := by
    rw [Nat.coprime_iff_gcd_eq_one, hk1.gcd_eq]; exact hx
  have c2 : Nat.Coprime k s := by
    rw [Nat.coprime_iff_gcd_eq_one, hk2.gcd_eq]; simp
  have c3 : Nat.Coprime k n := by rw [hn]; exact c1.mul_right c2
  refine ⟨ZMod.unitOfCoprime k c3, ?_, ?_⟩
  · ext
    rw [red_val, ZMod.coe_unitOfCoprime, map_natCast, ← ZMod.natCast_zmod_val (x : ZMod r)]
    exact (ZMod.natCast_eq_natCast_iff _ _ _).mpr hk1
  · ext
    rw [red_val, ZMod.coe_unitOfCoprime, map_natCast, Units.val_one, ← Nat.cast_one]
    exact (ZMod.natCast_eq_natCast_iff _ _ _).mpr hk2

theorem crt_one {n r s : ℕ} (hn : n = r * s) (h0 : 0 < n) (hc : r.Coprime s) (hr : r ∣ n) (hs : s ∣ n) {x : (ZMod n)ˣ}
    (h1 : red hr x = 1) (h2 : red hs x = 1) : x = 1 := by
  haveI : NeZero n := ⟨h0.ne'⟩
  have e1 := congrArg Units.val h1
  have e2 := congrArg Units.val h2
  rw [red_val, Units.val_one] at e1 e2
  ext
  rw [← ZMod.natCast_zmod_val (x : ZMod n)] at e1 e2 ⊢
  rw [map_natCast, ← Nat.cast_one, ZMod.natCast_eq_natCast_iff] at e1 e2
  rw [Units.val_one, ← Nat.cast_one, ZMod.natCast_eq_natCast_iff]
  have := (Nat.modEq_and_modEq_iff_modEq_mul hc).mp ⟨e1, e2⟩
  have key : ∀ v, Nat.ModEq (r * s) v 1 → Nat.ModEq n v 1 := by
    intro v
    rw [hn]
    exact id
  exact key _ this

/-! ## numbers for which Fermat's congruence fails for some unit -/

theorem exists_pow_ne_one_of_sq {n p : ℕ} (hp : p.Prime) (h0 : 0 < n) (h : p * p ∣ n) : ∃ u : (ZMod n)ˣ, u ^ (n - 1) ≠ 1 := by
  obtain ⟨c, rfl⟩ := h
  have hpp := hp.two_le
  have hc : 0 < c := Nat.pos_of_ne_zero (by rintro rfl; simp at h0)
  set n := p * p * c with hn
  set e : ZMod n := ((p * c : ℕ) : ZMod n) with he
  have hee : e * e = 0 := by
    rw [he, ← Nat.cast_mul, ZMod.natCast_eq_zero_iff]
    exact ⟨c, by rw [hn]; ring⟩
  have hpow : ∀ k : ℕ, (1 + e) ^ k = 1 + k * e := by
    intro k
    induction k with
    | zero => simp
    | succ k ih =>
      rw [pow_succ, ih]
      push_cast
      linear_combination (k : ZMod n) * hee
  have hu : (1 + e) * (1 - e) = 1 := by linear_combination -hee
  refine ⟨⟨1 + e, 1 - e, hu, by rw [mul_comm]; exact hu⟩, fun hcon => ?_⟩
  have h1 := congrArg Units.val hcon
  rw [Units.val_pow_eq_pow_val, Units.val_one] at h1
  simp only [hpow] at h1
  have h2 : (((n - 1) * (p * c) : ℕ) : ZMod n) = 0 := by
    push_cast [he] at h1 ⊢
    linear_combination h1
  rw [ZMod.natCast_eq_zero_iff] at h2
  have hcop : Nat.Coprime n (n - 1) := (Nat.coprime_self_sub_right h0).mpr (Nat.coprime_one_right n)
  have h3 := hcop.dvd_of_dvd_mul_left h2
  have h4 := Nat.le_of_dvd (by positivity) h3
  have : p * c < n := by
    rw [hn, mul_assoc]
    have : 0 < p * c := by positivity
    nlinarith
  omega

theorem exists_pow_ne_one_of_two {n p q : ℕ} (hp : p.Prime) (hq : q.Prime) (hpq : p < q) (hn : n = q * p) :
    ∃ u : (ZMod n)ˣ, u ^ (n - 1) ≠ 1 := by
  haveI := Fact.mk hq
  have h0 : 0 < n := by rw [hn]; exact Nat.mul_pos hq.pos hp.pos
  have hc : q.Coprime p := (Nat.coprime_primes hq hp).mpr hpq.ne'
  obtain ⟨g, hg⟩ := IsCyclic.exists_generator (α := (ZMod q)ˣ)
  obtain ⟨y, hy, -⟩ := crt_unit hn h0 hc ⟨p, hn⟩ ⟨q, by rw [hn, Nat.mul_comm]⟩ g
  refine ⟨y, fun hcon => ?_⟩
  have h1 : g ^ (n - 1) = 1 := by rw [← hy, ← map_pow, hcon, map_one]
  have h2 : orderOf g = q - 1 := by
    rw [orderOf_eq_card_of_forall_mem_zpowers hg, Nat.card_eq_fintype_card, ZMod.card_units]
  have h3 := orderOf_dvd_of_pow_eq_one h1
  rw [h2] at h3
  have hp2 := hp.two_le
  have hq2 := hq.two_le
  have e : n - 1 = (q - 1) * p + (p - 1) := by
    rw [hn]
    obtain ⟨q', rfl⟩ := Nat.exists_eq_add_of_le' hq.one_le
    obtain ⟨p', rfl⟩ := Nat.exists_eq_add_of_le' hp.one_le
    simp only [Nat.add_sub_cancel]
    rw [Nat.add_mul]
    omega
  rw [e] at h3
  have h4 := (Nat.dvd_add_right (Dvd.intro _ rfl)).mp h3
  have h5 := Nat.le_of_dvd (by omega) h4
  omega

/-! ## the index of the subgroup -/

theorem two_parts {n r s m : ℕ} (hn : n = r * s) (h0 : 0 < n) (hc : r.Coprime s) (hr : 2 < r) (hs : 2 < s)
    (ha : ∃ a : (ZMod n)ˣ, a ^ m = -1) (hm : 2 * m ∣ n - 1) (hF : ∃ u : (ZMod n)ˣ, u ^ (n - 1) ≠ 1) :
    4 * Nat.card (pmRoots n m) ≤ Nat.card (ZMod n)ˣ := by
  haveI : NeZero n := ⟨h0.ne'⟩
  have hrn : r ∣ n := ⟨s, hn⟩
  have hsn : s ∣ n := ⟨r, by rw [hn, Nat.mul_comm]⟩
  obtain ⟨a, ha⟩ := ha
  obtain ⟨u, hu⟩ := hF
  obtain ⟨c, hc2⟩ := hm
  have hsq : ∀ x : (ZMod n)ˣ, x ^ (2 * m) = 1 → x ^ (n - 1) = 1 := fun x hx => by rw [hc2, pow_mul, hx, one_pow]
  refine four_card_le (K := (powMonoidHom (n - 1) : (ZMod n)ˣ →* (ZMod n)ˣ).ker) (lt_of_le_not_ge ?_ ?_) (lt_top_iff_ne_top.mpr ?_)
  · intro x hx
    rw [MonoidHom.mem_ker, powMonoidHom_apply]
    apply hsq
    rw [Nat.mul_comm, pow_mul]
    rcases hx with hx | hx <;> rw [hx] <;> simp
  · intro hle
    obtain ⟨y, hy1, hy2⟩ := crt_unit hn h0 hc hrn hsn (red hrn a)
    have h1 : red hrn (y ^ m) = -1 := by rw [map_pow, hy1, ← map_pow, ha, red_neg_one]
    have h2 : red hsn (y ^ m) = 1 := by rw [map_pow, hy2, one_pow]
    have h3 : y ^ (2 * m) = 1 := by
      refine crt_one hn h0 hc hrn hsn ?_ ?_
      · rw [Nat.mul_comm, pow_mul, map_pow, h1]; simp
      · rw [Nat.mul_comm, pow_mul, map_pow, h2, one_pow]
    have hmem : y ∈ pmRoots n m := hle (by rw [MonoidHom.mem_ker, powMonoidHom_apply]; exact hsq y h3)
    rcases hmem with h | h
    · rw [h, map_one] at h1
      exact neg_one_ne hr h1.symm
    · rw [h, red_neg_one] at h2
      exact neg_one_ne hs h2
  · intro htop
    apply hu
    have : u ∈ (powMonoidHom (n - 1) : (ZMod n)ˣ →* (ZMod n)ˣ).ker := by rw [htop]; trivial
    rwa [MonoidHom.mem_ker, powMonoidHom_apply] at this

theorem three_parts {n r s t m : ℕ} (hn : n = r * s * t) (h0 : 0 < n) (hrs : r.Coprime s) (hrt : r.Coprime t) (hst : s.Coprime t)
    (hr : 2 < r) (hs : 2 < s) (ht : 2 < t) (ha : ∃ a : (ZMod n)ˣ, a ^ m = -1) :
    4 * Nat.card (pmRoots n m) ≤ Nat.card (ZMod n)ˣ := by
  haveI : NeZero n := ⟨h0.ne'⟩
  have hrn : r ∣ n := ⟨s * t, by rw [hn]; ring⟩
  have hsn : s ∣ n := ⟨r * t, by rw [hn]; ring⟩
  have htn : t ∣ n := ⟨r * s, by rw [hn]; ring⟩
  have hstn : s * t ∣ n := ⟨r, by rw [hn]; ring⟩
  have hrsn : r * s ∣ n := ⟨t, hn⟩
  obtain ⟨a, ha⟩ := ha
  have comp : ∀ {d e : ℕ} (hd : d ∣ n) (he : e ∣ n) (hde : d ∣ e) (x : (ZMod n)ˣ), red hde (red he x) = red hd x := by
    intro d e hd he hde x
    ext
    rw [red_val, red_val, red_val]
    rw [← RingHom.comp_apply]
    congr 1
    exact Subsingleton.elim _ _
  refine four_card_le (K := (pmRoots (r * s) m).comap (red hrsn)) (lt_of_le_not_ge ?_ ?_) (lt_top_iff_ne_top.mpr ?_)
  · intro x hx
    rw [Subgroup.mem_comap, mem_pmRoots, ← map_pow]
    rcases hx with hx | hx <;> rw [hx]
    · left; exact map_one _
    · right; exact red_neg_one _
  · intro hle
    obtain ⟨y, hy1, hy2⟩ := crt_unit (r := t) (s := r * s) (by rw [hn]; ring) h0 (Nat.Coprime.mul_right hrt.symm hst.symm) htn hrsn (red htn a)
    have h1 : red htn (y ^ m) = -1 := by rw [map_pow, hy1, ← map_pow, ha, red_neg_one]
    have h2 : red hrsn (y ^ m) = 1 := by rw [map_pow, hy2, one_pow]
    have hmem : y ∈ pmRoots n m := hle (by rw [Subgroup.mem_comap, mem_pmRoots, ← map_pow, h2]; exact Or.inl rfl)
    rcases hmem with h | h
    · rw [h, map_one] at h1
      exact neg_one_ne ht h1.symm
    · rw [h, red_neg_one] at h2
      exact neg_one_ne (show 2 < r * s by nlinarith) h2
  · intro htop
    obtain ⟨y, hy1, hy2⟩ := crt_unit (r := r) (s := s * t) (by rw [hn]; ring) h0 (Nat.Coprime.mul_right hrs hrt) hrn hstn (red hrn a)
    have h1 : red hrn (y ^ m) = -1 := by rw [map_pow, hy1, ← map_pow, ha, red_neg_one]
    have h2 : red hsn (y ^ m) = 1 := by
      rw [← comp hsn hstn (Dvd.intro _ rfl), map_pow, hy2, one_pow, map_one]
    have hmem : y ∈ (pmRoots (r * s) m).comap (red hrsn) := by rw [htop]; trivial
    rw [Subgroup.mem_comap, mem_pmRoots, ← map_pow] at hmem
    rw [← comp hrn hrsn (Dvd.intro _ rfl)] at h1
    rw [← comp hsn hrsn (Dvd.intro_left _ rfl)] at h2
    rcases hmem with h | h
    · rw [h, map_one] at h1
      exact neg_one_ne hr h1.symm
    · rw [h, red_neg_one] at h2
      exact neg_one_ne hs h2

/-! ## liars as units -/

/-- `x` passes the strong test for `n - 1 = d * 2^s` -/
def Liar (n s d : ℕ) (x : (ZMod n)ˣ) : Prop := x ^ d = 1 ∨ ∃ r < s, x ^ (d * 2 ^ r) = -1

theorem Liar.fermat {n s d : ℕ} {x : (ZMod n)ˣ} (hn : n - 1 = d * 2 ^ s) (h : Liar n s d x) : x ^ (n - 1) = 1 := by
  rcases h with h | ⟨r, hr, h⟩
  · rw [hn, pow_mul, h, one_pow]
  · have : d * 2 ^ s = d * 2 ^ r * 2 * 2 ^ (s - r - 1) := by
      rw [show s = r + 1 + (s - r - 1) by omega, pow_add, pow_add]
      simp only [show r + 1 + (s - r - 1) - r - 1 = s - r - 1 by omega]
      ring
    rw [hn, this, pow_mul, pow_mul, h]
    simp

theorem liars_card_le {n s d : ℕ} (h2 : 2 < n) (hs : s = tz (n - 1)) (hd : d = (n - 1) >>> tz (n - 1)) (hn : n - 1 = d * 2 ^ s)
    (P : ℕ → Prop) [DecidablePred P] (hP : ∀ b, P b → StrongPRP n b)
    (S : Finset (ZMod n)ˣ) (hS : ∀ x, Liar n s d x → x ∈ S) :
    ((Finset.Icc 1 (n - 1)).filter P).card ≤ S.card := by
  haveI : NeZero n := ⟨by omega⟩
  have hd0 : d ≠ 0 := by rintro rfl; omega
  refine le_trans (Finset.card_le_card ?_) (Finset.card_image_le (s := S) (f := fun x => (x : ZMod n).val))
  intro b hb
  rw [Finset.mem_filter, Finset.mem_Icc] at hb
  obtain ⟨⟨hb1, hb2⟩, hb⟩ := hb
  have hst := (strongPRP_iff h2 b).mp (hP b hb)
  rw [← hd, ← hs] at hst
  have hu : IsUnit (b : ZMod n) := by
    rcases hst with h | ⟨r, -, h⟩
    · exact IsUnit.of_pow_eq_one h hd0
    · refine IsUnit.of_pow_eq_one (n := d * 2 ^ r * 2) ?_ (by positivity)
      rw [pow_mul, h]
      ring
  obtain ⟨x, hx⟩ := hu
  rw [Finset.mem_image]
  refine ⟨x, hS x ?_, ?_⟩
  · rw [← hx] at hst
    rcases hst with h | ⟨r, hr, h⟩
    · left; ext; push_cast; exact h
    · right; refine ⟨r, hr, ?_⟩; ext; push_cast; exact h
  · rw [hx, ZMod.val_natCast, Nat.mod_eq_of_lt (by omega)]

/-- the bound for prime powers -/
theorem prime_power {n p k s d : ℕ} (hp : p.Prime) (hp3 : 3 ≤ p) (hk : 2 ≤ k) (hpk : n = p ^ k) (hn : n - 1 = d * 2 ^ s) :
    ∃ S : Finset (ZMod n)ˣ, (∀ x, Liar n s d x → x ∈ S) ∧ 4 * S.card ≤ n - 1 := by
  subst hpk
  haveI : NeZero (p ^ k) := ⟨by positivity⟩
  haveI := ZMod.isCyclic_units_of_prime_pow p hp (by omega) k
  classical
  refine ⟨Finset.univ.filter (fun x => x ^ (p - 1) = 1), ?_, ?_⟩
  · intro x hx
    rw [Finset.mem_filter]
    refine ⟨Finset.mem_univ _, ?_⟩
    have h1 := hx.fermat hn
    have h2 : x ^ Nat.totient (p ^ k) = 1 := ZMod.pow_totient x
    have h3 := orderOf_dvd_of_pow_eq_one h1
    have h4 := orderOf_dvd_of_pow_eq_one h2
    rw [Nat.totient_prime_pow hp (by omega)] at h4
    apply orderOf_dvd_iff_pow_eq_one.mp
    refine Nat.Coprime.dvd_of_dvd_mul_left ?_ h4
    refine Nat.Coprime.coprime_dvd_left h3 ?_
    refine Nat.Coprime.pow_right _ ?_
    have hpos : 0 < p ^ k := by positivity
    have : Nat.Coprime (p ^ k - 1) (p ^ k) := ((Nat.coprime_self_sub_left hpos).mpr (Nat.coprime_one_left _))
    exact Nat.Coprime.coprime_dvd_right (dvd_pow_self p (by omega)) this
  · have h1 := IsCyclic.card_pow_eq_one_le (α := (ZMod (p ^ k))ˣ) (n := p - 1) (by omega)
    have h2 : p ^ 2 ≤ p ^ k := Nat.pow_le_pow_right (by omega) hk
    obtain ⟨q, rfl⟩ := Nat.exists_eq_add_of_le hp3
    have h3 : 4 * (3 + q - 1) ≤ (3 + q) ^ 2 - 1 := by
      rw [show (3 + q) ^ 2 = q * q + 6 * q + 9 by ring]
      omega
    omega

/-- the bound for all other numbers -/
theorem exists_exponent {n s d : ℕ} (hs : 0 < s) (hd : d % 2 = 1) (hn : n - 1 = d * 2 ^ s) :
    ∃ m, (∃ a : (ZMod n)ˣ, a ^ m = -1) ∧ 2 * m ∣ n - 1 ∧ ∀ x : (ZMod n)ˣ, Liar n s d x → x ∈ pmRoots n m := by
  classical
  let P : ℕ → Prop := fun i => ∃ u : (ZMod n)ˣ, u ^ (2 ^ i) = -1
  have hP0 : P 0 := ⟨-1, by simp⟩
  have hPi : P (Nat.findGreatest P (s - 1)) := Nat.findGreatest_spec (P := P) (Nat.zero_le _) hP0
  have hle : Nat.findGreatest P (s - 1) ≤ s - 1 := Nat.findGreatest_le _
  have hmax : ∀ r < s, P r → r ≤ Nat.findGreatest P (s - 1) := fun r hr h => Nat.le_findGreatest (by omega) h
  generalize Nat.findGreatest P (s - 1) = i at hPi hle hmax
  refine ⟨d * 2 ^ i, ?_, ?_, ?_⟩
  · obtain ⟨u, hu⟩ := hPi
    refine ⟨u, ?_⟩
    rw [Nat.mul_comm, pow_mul, hu]
    exact (Nat.odd_iff.mpr hd).neg_one_pow
  · rw [hn, show 2 * (d * 2 ^ i) = d * 2 ^ (i + 1) by ring]
    exact Nat.mul_dvd_mul_left _ (Nat.pow_dvd_pow 2 (by omega))
  · rintro x (h | ⟨r, hr, h⟩)
    · left
      rw [pow_mul, h, one_pow]
    · have hri := hmax r hr ⟨x ^ d, by rw [← pow_mul]; exact h⟩
      have e : d * 2 ^ i = d * 2 ^ r * 2 ^ (i - r) := by
        rw [mul_assoc, ← pow_add]
        congr 2
        omega
      rw [mem_pmRoots, e, pow_mul, h]
      rcases Nat.eq_zero_or_pos (i - r) with h0 | h0
      · right; rw [h0]; simp
      · left
        exact (Nat.even_pow.mpr ⟨even_two, h0.ne'⟩).neg_one_pow

theorem pmRoots_le {n : ℕ} (h2 : 2 < n) (hodd : n % 2 = 1) (hnp : ¬ n.Prime) (hpp : ∀ p k, p.Prime → n ≠ p ^ k) {m : ℕ}
    (ha : ∃ a : (ZMod n)ˣ, a ^ m = -1) (hm : 2 * m ∣ n - 1) :
    4 * Nat.card (pmRoots n m) ≤ Nat.card (ZMod n)ˣ := by
  have big : ∀ r, r ∣ n → r ≠ 1 → 2 < r := by
    intro r ⟨c, hc⟩ h1
    have : r ≠ 0 := by rintro rfl; omega
    have : r ≠ 2 := by rintro rfl; omega
    omega
  -- a prime and the rest, when its square divides
  have sq : ∀ p, p.Prime → p * p ∣ n → 4 * Nat.card (pmRoots n m) ≤ Nat.card (ZMod n)ˣ := by
    intro p hp hpn
    have hF := exists_pow_ne_one_of_sq hp (by omega) hpn
    obtain ⟨k, s, hs, hn⟩ := Nat.exists_eq_pow_mul_and_not_dvd (n := n) (by omega) p hp.ne_one
    have hk : k ≠ 0 := by
      rintro rfl
      rw [pow_zero, one_mul] at hn
      exact hs (hn ▸ (Dvd.intro _ rfl : p ∣ p * p).trans hpn)
    have hc : (p ^ k).Coprime s := Nat.Coprime.pow_left _ ((Nat.Prime.coprime_iff_not_dvd hp).mpr hs)
    refine two_parts hn (by omega) hc (big _ ⟨s, hn⟩ ?_) (big _ ⟨p ^ k, by rw [hn, Nat.mul_comm]⟩ ?_) ha hm hF
    · intro h
      rcases Nat.pow_eq_one.mp h with h | h
      · exact hp.ne_one h
      · exact hk h
    · rintro rfl
      exact hpp p k hp (by rw [← mul_one (p ^ k)]; exact hn)
  obtain ⟨p, hp, hpd⟩ := Nat.exists_prime_and_dvd (show n ≠ 1 by omega)
  obtain ⟨c, hc⟩ := hpd
  by_cases hpc : p ∣ c
  · exact sq p hp (by rw [hc]; exact Nat.mul_dvd_mul_left _ hpc)
  have hc1 : c ≠ 1 := by
    rintro rfl
    exact hnp (by rw [hc, mul_one]; exact hp)
  have hcop : p.Coprime c := (Nat.Prime.coprime_iff_not_dvd hp).mpr hpc
  obtain ⟨q, hq, hqd⟩ := Nat.exists_prime_and_dvd hc1
  obtain ⟨t, ht⟩ := hqd
  have hpq : p ≠ q := by
    rintro rfl
    exact hpc ⟨t, ht⟩
  by_cases hqt : q ∣ t
  · exact sq q hq (by rw [hc, ht]; exact (Nat.mul_dvd_mul_left q hqt).mul_left p)
  by_cases ht1 : t = 1
  · rw [ht1, mul_one] at ht
    rw [ht] at hc
    have hc' : n = q * p := by rw [hc, Nat.mul_comm]
    refine two_parts hc (by omega) ((Nat.coprime_primes hp hq).mpr hpq) (big _ ⟨q, hc⟩ hp.ne_one) (big _ ⟨p, hc'⟩ hq.ne_one) ha hm ?_
    rcases Nat.lt_or_gt_of_ne hpq with h | h
    · exact exists_pow_ne_one_of_two hp hq h hc'
    · exact exists_pow_ne_one_of_two hq hp h hc
  · have hn : n = p * q * t := by rw [hc, ht, mul_assoc]
    refine three_parts hn (by omega) ((Nat.coprime_primes hp hq).mpr hpq) ?_ ((Nat.Prime.coprime_iff_not_dvd hq).mpr hqt)
      (big _ ⟨c, hc⟩ hp.ne_one) (big _ ⟨p * t, by rw [hn]; ring⟩ hq.ne_one) (big _ ⟨p * q, by rw [hn]; ring⟩ ht1) ha
    exact Nat.Coprime.coprime_dvd_right ⟨q, by rw [ht, Nat.mul_comm]⟩ hcop

/-- **Rabin's theorem.** -/
theorem strong_liars {n : ℕ} (h2 : 2 < n) (hodd : n % 2 = 1) (hnp : ¬ n.Prime) (P : ℕ → Prop) [DecidablePred P]
    (hP : ∀ b, P b → StrongPRP n b) : 4 * ((Finset.Icc 1 (n - 1)).filter P).card ≤ n - 1 := by
  haveI : NeZero n := ⟨by omega⟩
  obtain ⟨hu, hdec⟩ := tz_decomp (m := n - 1) (by omega)
  have hs : 0 < tz (n - 1) := by
    rcases Nat.eq_zero_or_pos (tz (n - 1)) with h | h
    · rw [h] at hu hdec
      simp at hu hdec
      omega
    · exact h
  by_cases hpp : ∃ p k, p.Prime ∧ n = p ^ k
  · obtain ⟨p, k, hp, hk⟩ := hpp
    have hk2 : 2 ≤ k := by
      by_contra h
      interval_cases k
      · simp at hk; omega
      · rw [pow_one] at hk; exact hnp (hk ▸ hp)
    have hp3 : 3 ≤ p := by
      have := hp.two_le
      have : p ≠ 2 := by
        rintro rfl
        have : 2 ∣ n := by rw [hk]; exact dvd_pow_self 2 (by omega)
        omega
      omega
    obtain ⟨S, hS, hc⟩ := prime_power (s := tz (n - 1)) (d := (n - 1) >>> tz (n - 1)) hp hp3 hk2 hk hdec
    have := liars_card_le h2 rfl rfl hdec P hP S hS
    omega
  · push Not at hpp
    obtain ⟨m, ha, hm, hL⟩ := exists_exponent (n := n) hs hu hdec
    have h1 := pmRoots_le h2 hodd hnp hpp ha hm
    classical
    have h3 := liars_card_le h2 rfl rfl hdec P hP (Finset.univ.filter (fun x => x ∈ pmRoots n m))
      (fun x hx => Finset.mem_filter.mpr ⟨Finset.mem_univ _, hL x hx⟩)
    have h4 : (Finset.univ.filter (fun x => x ∈ pmRoots n m)).card = Nat.card (pmRoots n m) := by
      rw [Nat.card_eq_fintype_card, Fintype.card_subtype]
    have h5 : Nat.card (ZMod n)ˣ ≤ n - 1 := by
      rw [Nat.card_eq_fintype_card, ZMod.card_units_eq_totient]
      have := Nat.totient_lt n (by omega)
      omega
    omega

end NumPrime.Rabin
