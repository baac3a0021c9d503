import Verif.Props.Rho
import Verif.Props.Factorize

/-! # C93: the factorization loops are never stuck -/

namespace NumPrime
open Spec Tables

/-! ## one step of Pollard's rho -/

/-- if the first step of the walk moves by a multiple of a proper divisor, but not by zero, the first check finds a divisor -/
theorem rho_first_step {n s c p M : ℕ} (hs : s < n) (hp : 1 < p) (hpn : p ∣ n) (hM : 1 ≤ M)
    (hmod : (s ^ 2 + c) % n % p = s % p) (hne : (s ^ 2 + c) % n ≠ s) :
    ∃ d, pollardRho n s c M = .ok (some d, 1) ∧ ProperDivisor d n := by
  have hn : 0 < n := by omega
  have ha : (s ^ 2 + c) % n < n := Nat.mod_lt _ hn
  have hprod : rhoProd n s c 1 = (((s ^ 2 + c) % n : ℕ) - (s : ℤ)).natAbs := by
    simp [rhoProd, rhoDist, rhoStop, rhoWalk]
  generalize (s ^ 2 + c) % n = a at *
  have hpos : 0 < rhoProd n s c 1 := by rw [hprod]; omega
  have hlt : rhoProd n s c 1 < n := by rw [hprod]; omega
  have hdvd : p ∣ rhoProd n s c 1 := by
    rw [hprod, ← Int.natCast_dvd]
    exact (Nat.modEq_iff_dvd.mp (show s ≡ a [MOD p] from hmod.symm))
  have hg : p ∣ Nat.gcd (rhoProd n s c 1) n := Nat.dvd_gcd hdvd hpn
  have hg1 : Nat.gcd (rhoProd n s c 1) n ≠ 1 := fun h => by
    rw [h] at hg; have := Nat.le_of_dvd (by norm_num) hg; omega
  have hP : ¬ n ∣ rhoProd n s c 1 := fun h => by have := Nat.le_of_dvd hpos h; omega
  refine ⟨_, C90_rho_finds n s c M 1 hn le_rfl hM (by norm_num) (Or.inl ⟨0, rfl⟩) (by intros; omega) hg1 hP,
    Nat.gcd_dvd_right _ _, ?_, ?_⟩
  · have := Nat.gcd_pos_of_pos_left n hpos; omega
  · exact lt_of_le_of_lt (Nat.le_of_dvd hpos (Nat.gcd_dvd_left _ _)) hlt

open scoped Classical in
/-- **C93** whatever the first random number is, at least `n/p - 1` of the `n` values of the second one make `pollard_rho` find
a proper divisor of `n` at its first step, for each divisor `p > 1` of `n` -/
theorem C93_rho_lucky (n s p M : ℕ) (hs : s < n) (hp : 1 < p) (hpn : p ∣ n) (hM : 1 ≤ M) :
    n / p - 1 ≤ {c ∈ Finset.range n | ∃ d, pollardRho n s c M = Res.ok (some d, 1) ∧ ProperDivisor d n}.card := by
  have hn : 0 < n := by omega
  -- the targets: the numbers congruent to `s` modulo `p`, other than `s`
  have hT : n / p - 1 ≤ (((Finset.range (n / p)).image (fun j => s % p + j * p)).erase s).card := by
    refine le_trans (le_of_eq ?_) Finset.pred_card_le_card_erase
    rw [Finset.card_image_of_injective, Finset.card_range]
    intro a b h
    have : a * p = b * p := by simpa using h
    exact Nat.eq_of_mul_eq_mul_right (by omega) this
  refine hT.trans (Finset.card_le_card_of_injOn (fun a => (a + (n - s ^ 2 % n)) % n) ?_ ?_)
  · intro a ha
    simp only [Finset.coe_erase, Finset.coe_image, Set.mem_sdiff, Set.mem_image, Set.mem_singleton_iff] at ha
    obtain ⟨⟨j, hj, rfl⟩, hne⟩ := ha
    have hj' : j < n / p := by simpa using hj
    have hlt : s % p + j * p < n := by
      have h1 : s % p < p := Nat.mod_lt _ (by omega)
      have h2 : (j + 1) * p ≤ n / p * p := Nat.mul_le_mul_right _ hj'
      rw [Nat.div_mul_cancel hpn] at h2
      linarith [Nat.add_mul j 1 p]
    have hrec : (s ^ 2 + (s % p + j * p + (n - s ^ 2 % n)) % n) % n = s % p + j * p := by
      have h3 : s ^ 2 % n < n := Nat.mod_lt _ hn
      rw [Nat.add_mod_mod, Nat.add_mod, Nat.add_mod (s % p + j * p)]
      conv_rhs => rw [← Nat.mod_eq_of_lt hlt]
      rw [← Nat.add_mod (s % p + j * p), ← Nat.add_mod]
      rw [← Nat.mod_add_mod, show s ^ 2 % n + (s % p + j * p + (n - s ^ 2 % n)) = s % p + j * p + n by omega]
      simp
    simp only [Finset.coe_filter, Finset.mem_range, Set.mem_ofPred_eq]
    refine ⟨Nat.mod_lt _ hn, rho_first_step hs hp hpn hM ?_ ?_⟩
    · rw [hrec]; simp
    · rw [hrec]; exact hne
  · intro a ha b hb h
    have hlt : ∀ a ∈ (((Finset.range (n / p)).image (fun j => s % p + j * p)).erase s), a < n := by
      intro a ha
      simp only [Finset.mem_erase, Finset.mem_image, Finset.mem_range] at ha
      obtain ⟨-, j, hj, rfl⟩ := ha
      have h1 : s % p < p := Nat.mod_lt _ (by omega)
      have h2 : (j + 1) * p ≤ n / p * p := Nat.mul_le_mul_right _ hj
      rw [Nat.div_mul_cancel hpn] at h2
      linarith [Nat.add_mul j 1 p]
    have h2 : a ≡ b [MOD n] := Nat.ModEq.add_right_cancel' (n - s ^ 2 % n) h
    have := h2
    unfold Nat.ModEq at this
    rwa [Nat.mod_eq_of_lt (hlt a ha), Nat.mod_eq_of_lt (hlt b hb)] at this

open scoped Classical in
/-- the same with the numbers of a concrete case: of the 91 second numbers at least 6 (12) reveal a divisor of `91` -/
example : 6 ≤ {c ∈ Finset.range 91 | ∃ d, pollardRho 91 5 c 1 = Res.ok (some d, 1) ∧ ProperDivisor d 91}.card :=
  C93_rho_lucky 91 5 13 1 (by norm_num) (by norm_num) (by norm_num) le_rfl

/-! ## the divisor search -/

theorem one_shl_mod {t : ℕ} (ht : t < 2 ^ 128) : 1 ≤ (1 <<< (bits t / 6)) % 2 ^ 64 := by
  have hb : bits t ≤ 128 := by
    unfold bits bitLen
    split
    · omega
    · rename_i h; have := (Nat.log2_lt h).mpr ht; omega
  rw [Nat.shiftLeft_eq, one_mul, Nat.mod_eq_of_lt (Nat.pow_lt_pow_right (by norm_num) (by omega))]
  exact Nat.one_le_two_pow

/-- for every composite odd number and every next random word there is a word after that which makes the first method of the
search succeed -/
theorem search_lucky (bld : Build) (b : ℕ) {t : ℕ} (ht : 1 < t) (h128 : t < 2 ^ 128) (hodd : t % 2 = 1) (hnp : ¬ t.Prime) (u : ℕ) :
    ∃ w < t, ∃ d, ProperDivisor d t ∧ ∀ (rng : Rng) (k fuel : ℕ), 1 ≤ fuel → rng.word k = u → rng.word (k + 1) = w →
      search bld b rng fuel t k = .ok (d, k + 2) := by
  have hp := Nat.minFac_prime (n := t) (by omega)
  have hlt : t.minFac < t := lt_of_le_of_ne (Nat.minFac_le (by omega)) (fun h => hnp (h ▸ hp))
  have hM := one_shl_mod h128
  have hs : u % t < t := Nat.mod_lt _ (by omega)
  have h1 := C93_rho_lucky t (u % t) t.minFac _ hs hp.one_lt (Nat.minFac_dvd t) hM
  have h2 : 1 ≤ t / t.minFac - 1 := by
    obtain ⟨q, hq⟩ := Nat.minFac_dvd t
    have h3 : t / t.minFac = q := Nat.div_eq_of_eq_mul_right hp.pos hq
    rw [h3]
    rcases q with _ | _ | q
    · omega
    · omega
    · omega
  obtain ⟨w, hw⟩ := Finset.card_pos.mp (lt_of_lt_of_le Nat.zero_lt_one (h2.trans h1))
  simp only [Finset.mem_filter, Finset.mem_range] at hw
  obtain ⟨hw, d, hd, hpd⟩ := hw
  refine ⟨w, hw, d, hpd, fun rng k fuel hf hu hv => ?_⟩
  obtain ⟨f, rfl⟩ : ∃ f, fuel = f + 1 := ⟨fuel - 1, by omega⟩
  have hne : ¬ t % 2 = 0 := by omega
  simp only [search, findDivisor, tryMethod, tryRho, hne, if_false, hu, hv, Nat.mod_eq_of_lt hw]
  rw [hd]
  rfl

/-! ## the worklist loops -/

namespace Spec

/-- `r'` has the same random numbers as `r` before number `k`, and changed numbers are below `B` -/
def AgreeBelow (B k : ℕ) (r r' : Rng) : Prop :=
  (∀ j < k, r'.word j = r.word j) ∧ (∀ j, r'.word j = r.word j ∨ r'.word j < B) ∧ r'.draws = r.draws

end Spec

theorem Spec.AgreeBelow.trans {B k k' : ℕ} {a b c : Rng} (h1 : AgreeBelow B k a b) (h2 : AgreeBelow B k' b c) (h : k ≤ k') :
    AgreeBelow B k a c :=
  ⟨fun j hj => (h2.1 j (by omega)).trans (h1.1 j hj), fun j => by
    rcases h2.2.1 j with h3 | h3
    · rw [h3]; exact h1.2.1 j
    · exact Or.inr h3, h2.2.2.trans h1.2.2⟩

theorem Spec.AgreeBelow.refl (B k : ℕ) (r : Rng) : AgreeBelow B k r r := ⟨fun _ _ => rfl, fun _ => Or.inl rfl, rfl⟩

theorem Spec.AgreeBelow.mono {B B' k : ℕ} {a b : Rng} (h : AgreeBelow B k a b) (hB : B ≤ B') : AgreeBelow B' k a b :=
  ⟨h.1, fun j => (h.2.1 j).imp id (fun h => by omega), h.2.2⟩

/-- change one word -/
def Rng.set (r : Rng) (k w : ℕ) : Rng := ⟨fun j => if j = k then w else r.word j, r.draws⟩

theorem agree_set (r : Rng) {B k j w : ℕ} (h : k ≤ j) (hw : w < B) : AgreeBelow B k r (r.set j w) :=
  ⟨fun i hi => by simp only [Rng.set]; rw [if_neg (by omega)], fun i => by
    simp only [Rng.set]; split <;> simp [hw], rfl⟩

theorem search_lucky' (bld : Build) (b : ℕ) {t : ℕ} (ht : 1 < t) (h128 : t < 2 ^ 128) (hodd : t % 2 = 1) (hnp : ¬ t.Prime)
    {B : ℕ} (hB : t ≤ B) (rng : Rng) (k : ℕ) : ∃ d r', ProperDivisor d t ∧ AgreeBelow B k rng r' ∧
      ∀ (r'' : Rng), AgreeBelow B (k + 2) r' r'' → ∀ fuel, 1 ≤ fuel →
      search bld b r'' fuel t k = .ok (d, k + 2) := by
  obtain ⟨w, hw, d, hd, h⟩ := search_lucky bld b ht h128 hodd hnp (rng.word k)
  refine ⟨d, rng.set (k + 1) w, hd, agree_set rng (by omega) (by omega), fun r'' hr fuel hf => h r'' k fuel hf ?_ ?_⟩
  · rw [hr.1 k (by omega)]; simp [Rng.set]
  · rw [hr.1 (k + 1) (by omega)]; simp [Rng.set]

/-- a bound for the number of rounds of the worklist loops -/
def weight (l : List (ℕ × ℕ)) : ℕ := (l.map (fun x => 2 * x.1 - 3)).sum

@[simp] theorem weight_nil : weight [] = 0 := rfl
@[simp] theorem weight_cons (x : ℕ × ℕ) (l : List (ℕ × ℕ)) : weight (x :: l) = 2 * x.1 - 3 + weight l := by simp [weight]

theorem split_weight {n d : ℕ} (h1 : 1 < n) (h : ProperDivisor d n) : 2 * (n / d) - 3 + (2 * d - 3) + 1 ≤ 2 * n - 3 := by
  obtain ⟨hq1, hqlt, hqn, hq⟩ := cofactor h1 h
  have hd := h.2.1
  generalize n / d = q at *
  obtain ⟨a, rfl⟩ : ∃ a, d = a + 2 := ⟨d - 2, by omega⟩
  obtain ⟨b, rfl⟩ : ∃ b, q = b + 2 := ⟨q - 2, by omega⟩
  have : n = a * b + 2 * a + 2 * b + 4 := by rw [← hq]; ring
  have := Nat.zero_le (a * b)
  omega

theorem rough_odd {bld : Build} {n : ℕ} (h : Rough bld n) : n % 2 = 1 := by
  have := h 2 Nat.prime_two (by cases bld <;> decide)
  omega

theorem advanced64Loop_lucky (bld : Build) {B : ℕ} (hB : 2 ^ 64 ≤ B) : ∀ (N : ℕ) (todo done : List (ℕ × ℕ)) (rng : Rng) (k : ℕ),
    (∀ x ∈ todo, Todo64 bld x) → weight todo ≤ N →
    ∃ r' l k', AgreeBelow B k rng r' ∧ k ≤ k' ∧ ∀ r'', AgreeBelow B k' r' r'' → ∀ f sf, N ≤ f → 1 ≤ sf →
      advanced64Loop bld (search bld 64 r'' sf) f k todo done = .ok (l, k') := by
  intro N
  induction N with
  | zero =>
    intro todo done rng k ht hw
    cases todo with
    | nil => exact ⟨rng, done, k, AgreeBelow.refl _ _ _, le_rfl, fun r'' _ f sf _ _ => by unfold advanced64Loop; rfl⟩
    | cons x t =>
      have := (ht x (by simp)).1
      simp only [weight_cons] at hw; omega
  | succ N ih =>
    intro todo done rng k ht hw
    cases todo with
    | nil => exact ⟨rng, done, k, AgreeBelow.refl _ _ _, le_rfl, fun r'' _ f sf _ _ => by unfold advanced64Loop; rfl⟩
    | cons x t =>
      obtain ⟨n, e⟩ := x
      obtain ⟨h1, h64, hr, he⟩ := ht (n, e) (by simp)
      simp only at h1 h64 hr he
      have ht' : ∀ x ∈ t, Todo64 bld x := fun x hx => ht x (List.mem_cons_of_mem _ hx)
      simp only [weight_cons] at hw
      cases hm : isPrime64Miller bld n with
      | true =>
        obtain ⟨r', l, k', a1, a2, a3⟩ := ih t (done ++ [(n, e)]) rng k ht' (by omega)
        refine ⟨r', l, k', a1, a2, fun r'' hr'' f sf hf hs => ?_⟩
        obtain ⟨f, rfl⟩ : ∃ g, f = g + 1 := ⟨f - 1, by omega⟩
        simp only [advanced64Loop, hm, if_true]
        exact a3 r'' hr'' f sf (by omega) hs
      | false =>
        have hnp : ¬ n.Prime := fun hp => by
          rw [isPrime64Miller_of h1 hr (isPrime64_prime bld hp)] at hm; simp at hm
        obtain ⟨o, ho1, ho2⟩ := sqrtExact_spec bld (some 64) (show 0 < n by omega) (fits_some.mpr h64)
        cases o with
        | some d =>
          have hd2 := (ho2 d).mp rfl
          obtain ⟨b1, b2, b3⟩ := root_todo h1 (by norm_num) hd2
          obtain ⟨r', l, k', a1, a2, a3⟩ := ih ((d, e * 2) :: t) done rng k (by
            intro x hx
            rcases List.mem_cons.mp hx with rfl | hx
            · exact ⟨b1, by simp only; omega, hr.of_dvd b3, by simp only; omega⟩
            · exact ht' x hx) (by simp only [weight_cons]; omega)
          refine ⟨r', l, k', a1, a2, fun r'' hr'' f sf hf hs => ?_⟩
          obtain ⟨f, rfl⟩ : ∃ g, f = g + 1 := ⟨f - 1, by omega⟩
          simp only [advanced64Loop, hm, ho1, Res.bind_ok, Bool.false_eq_true, if_false]
          exact a3 r'' hr'' f sf (by omega) hs
        | none =>
          cases hc : cbrtExact bld (some 64) n with
          | some d =>
            have hd2 := (cbrtExact_spec bld (some 64) n d).mp hc
            obtain ⟨b1, b2, b3⟩ := root_todo h1 (by norm_num) hd2
            obtain ⟨r', l, k', a1, a2, a3⟩ := ih ((d, e * 3) :: t) done rng k (by
              intro x hx
              rcases List.mem_cons.mp hx with rfl | hx
              · exact ⟨b1, by simp only; omega, hr.of_dvd b3, by simp only; omega⟩
              · exact ht' x hx) (by simp only [weight_cons]; omega)
            refine ⟨r', l, k', a1, a2, fun r'' hr'' f sf hf hs => ?_⟩
            obtain ⟨f, rfl⟩ : ∃ g, f = g + 1 := ⟨f - 1, by omega⟩
            simp only [advanced64Loop, hm, ho1, hc, Res.bind_ok, Bool.false_eq_true, if_false]
            exact a3 r'' hr'' f sf (by omega) hs
          | none =>
            obtain ⟨d, r1, hd, c1, c2⟩ := search_lucky' bld 64 h1 (by omega) (rough_odd hr) hnp (by omega : n ≤ B) rng k
            obtain ⟨hq1, hqlt, hqn, hq⟩ := cofactor h1 hd
            have hwt := split_weight h1 hd
            obtain ⟨b1, b2, b3⟩ := hd
            obtain ⟨r', l, k', a1, a2, a3⟩ := ih ((n / d, e) :: (d, e) :: t) done r1 (k + 2) (by
              intro x hx
              rcases List.mem_cons.mp hx with rfl | hx
              · exact ⟨hq1, by simp only; omega, hr.of_dvd hqn, he⟩
              · rcases List.mem_cons.mp hx with rfl | hx
                · exact ⟨b2, by simp only; omega, hr.of_dvd b1, he⟩
                · exact ht' x hx) (by simp only [weight_cons]; omega)
            refine ⟨r', l, k', c1.trans a1 (by omega), by omega, fun r'' hr'' f sf hf hs => ?_⟩
            obtain ⟨f, rfl⟩ : ∃ g, f = g + 1 := ⟨f - 1, by omega⟩
            simp only [advanced64Loop, hm, ho1, hc, Res.bind_ok, Bool.false_eq_true, if_false,
              c2 r'' (a1.trans hr'' a2) sf hs, cdiv_ok (show d ≠ 0 by omega)]
            exact a3 r'' hr'' f sf (by omega) hs

theorem advanced128Loop_lucky (bld : Build) : ∀ (N : ℕ) (t : List (ℕ × ℕ) × List (ℕ × ℕ)) (done : List (ℕ × ℕ)) (rng : Rng) (k : ℕ),
    Lists bld t → weight t.1 + weight t.2 ≤ N →
    ∃ r' t64 l k', AgreeBelow (2 ^ 128) k rng r' ∧ k ≤ k' ∧ weight t64 ≤ N ∧ (∀ x ∈ t64, Todo64 bld x) ∧
      ∀ r'', AgreeBelow (2 ^ 128) k' r' r'' → ∀ f sf, N ≤ f → 1 ≤ sf →
      advanced128Loop bld (search bld 128 r'' sf) f k t done = .ok (t64, l, k') := by
  intro N
  induction N with
  | zero =>
    rintro ⟨t1, t2⟩ done rng k hL hw
    cases t1 with
    | nil =>
      exact ⟨rng, t2, done, k, AgreeBelow.refl _ _ _, le_rfl, by simpa using hw, hL.2, fun r'' _ f sf _ _ => by unfold advanced128Loop; rfl⟩
    | cons x t =>
      have := (hL.1 x (by simp)).1.1
      simp only [weight_cons] at hw; omega
  | succ N ih =>
    rintro ⟨t1, t2⟩ done rng k hL hw
    cases t1 with
    | nil =>
      exact ⟨rng, t2, done, k, AgreeBelow.refl _ _ _, le_rfl, by simpa using hw, hL.2, fun r'' _ f sf _ _ => by unfold advanced128Loop; rfl⟩
    | cons x t =>
      obtain ⟨n, e⟩ := x
      obtain ⟨⟨h1, h128, hr, he⟩, h64⟩ := hL.1 (n, e) (by simp)
      simp only at h1 h128 hr he h64
      have hL' : Lists bld (t, t2) := ⟨fun x hx => hL.1 x (List.mem_cons_of_mem _ hx), hL.2⟩
      have hpw : ∀ (x : ℕ × ℕ) (l : List (ℕ × ℕ) × List (ℕ × ℕ)),
          weight (pushCofactor x l).1 + weight (pushCofactor x l).2 = 2 * x.1 - 3 + (weight l.1 + weight l.2) := by
        intro x l; unfold pushCofactor; split <;> simp only [weight_cons] <;> omega
      simp only [weight_cons] at hw
      obtain ⟨v, hv⟩ := isPrimeNew128_total bld h128
      cases hm : v.probably with
      | true =>
        obtain ⟨r', t64, l, k', a1, a2, a4, a5, a3⟩ := ih (t, t2) (done ++ [(n, e)]) rng k hL' (by simp only; omega)
        refine ⟨r', t64, l, k', a1, a2, by omega, a5, fun r'' hr'' f sf hf hs => ?_⟩
        obtain ⟨f, rfl⟩ : ∃ g, f = g + 1 := ⟨f - 1, by omega⟩
        simp only [advanced128Loop, hv, Res.bind_ok, hm, if_true]
        exact a3 r'' hr'' f sf (by omega) hs
      | false =>
        have hnp : ¬ n.Prime := fun hp => by
          obtain ⟨v', hv', hp'⟩ := accepted128_prime (bld := bld) hp h128
          rw [hv] at hv'; cases hv'; rw [hm] at hp'; simp at hp'
        obtain ⟨o, ho1, ho2⟩ := sqrtExact_spec bld (some 128) (show 0 < n by omega) (fits_some.mpr h128)
        cases o with
        | some d =>
          have hd2 := (ho2 d).mp rfl
          obtain ⟨b1, b2, b3⟩ := root_todo h1 (by norm_num) hd2
          obtain ⟨r', t64, l, k', a1, a2, a4, a5, a3⟩ := ih (pushCofactor (d, e * 2) (t, t2)) done rng k
            (Lists.push hL' ⟨b1, by simp only; omega, hr.of_dvd b3, by simp only; omega⟩).1
            (by rw [hpw]; simp only; omega)
          refine ⟨r', t64, l, k', a1, a2, by omega, a5, fun r'' hr'' f sf hf hs => ?_⟩
          obtain ⟨f, rfl⟩ : ∃ g, f = g + 1 := ⟨f - 1, by omega⟩
          simp only [advanced128Loop, hv, hm, ho1, Res.bind_ok, Bool.false_eq_true, if_false]
          exact a3 r'' hr'' f sf (by omega) hs
        | none =>
          cases hc : cbrtExact bld (some 128) n with
          | some d =>
            have hd2 := (cbrtExact_spec bld (some 128) n d).mp hc
            obtain ⟨b1, b2, b3⟩ := root_todo h1 (by norm_num) hd2
            obtain ⟨r', t64, l, k', a1, a2, a4, a5, a3⟩ := ih (pushCofactor (d, e * 3) (t, t2)) done rng k
              (Lists.push hL' ⟨b1, by simp only; omega, hr.of_dvd b3, by simp only; omega⟩).1
              (by rw [hpw]; simp only; omega)
            refine ⟨r', t64, l, k', a1, a2, by omega, a5, fun r'' hr'' f sf hf hs => ?_⟩
            obtain ⟨f, rfl⟩ : ∃ g, f = g + 1 := ⟨f - 1, by omega⟩
            simp only [advanced128Loop, hv, hm, ho1, hc, Res.bind_ok, Bool.false_eq_true, if_false]
            exact a3 r'' hr'' f sf (by omega) hs
          | none =>
            obtain ⟨d, r1, hd, c1, c2⟩ := search_lucky' bld 128 h1 h128 (rough_odd hr) hnp h128.le rng k
            obtain ⟨hq1, hqlt, hqn, hq⟩ := cofactor h1 hd
            have hwt := split_weight h1 hd
            obtain ⟨b1, b2, b3⟩ := hd
            obtain ⟨r', t64, l, k', a1, a2, a4, a5, a3⟩ := ih (pushCofactor (n / d, e) (pushCofactor (d, e) (t, t2))) done r1 (k + 2)
              (Lists.push (Lists.push hL' ⟨b2, by simp only; omega, hr.of_dvd b1, he⟩).1
                ⟨hq1, by simp only; omega, hr.of_dvd hqn, he⟩).1 (by rw [hpw, hpw]; simp only; omega)
            refine ⟨r', t64, l, k', c1.trans a1 (by omega), by omega, by omega, a5, fun r'' hr'' f sf hf hs => ?_⟩
            obtain ⟨f, rfl⟩ : ∃ g, f = g + 1 := ⟨f - 1, by omega⟩
            simp only [advanced128Loop, hv, hm, ho1, hc, Res.bind_ok, Bool.false_eq_true, if_false,
              c2 r'' (a1.trans hr'' a2) sf hs, cdiv_ok (show d ≠ 0 by omega)]
            exact a3 r'' hr'' f sf (by omega) hs

/-! ## factorize64 and factorize128 -/

/-- **C93** `factorize64` can always still finish: whatever number is factored, and whatever the first `k` random numbers were,
there are values for the numbers after that with which it returns; the result is independent of the bound on the rounds -/
theorem C93_factorize64_reachable (bld : Build) (rng : Rng) (k n : ℕ) (hn : 1 ≤ n) (h64 : n < 2 ^ 64) :
    ∃ r', AgreeBelow (2 ^ 64) k rng r' ∧ ∃ m k', k ≤ k' ∧ ∀ fuel, 2 * n ≤ fuel → factorize64 bld r' fuel k n = .ok (m, k') := by
  obtain ⟨f2, r, h1, h2, h3, h4, h5⟩ := split_two hn h64
  by_cases hp : f2 = 0 ∧ isPrime64 bld n = true
  · refine ⟨rng, AgreeBelow.refl _ _ _, [(n, 1)], k, le_rfl, fun fuel _ => by
      simp only [factorize64, factorize64With, h1, hp]; rfl⟩
  · have hF := fmap_two hn h3 h4
    have hs : isqrt n + 1 < 2 ^ 64 := by
      have := (isqrt_spec n).1
      generalize isqrt n = s at *
      nlinarith
    obtain ⟨r1, m', b, g1, g2, g3, g4, g5, g6⟩ := td64_spec (bld := bld) h64 h5 h4 hF
    cases b with
    | true =>
      refine ⟨rng, AgreeBelow.refl _ _ _, if r1 ≠ 1 then mapInsert m' r1 1 else m', k, le_rfl, fun fuel _ => ?_⟩
      simp only [factorize64, factorize64With, h1, hp, if_false, cadd_ok (fits_some.mpr hs), Res.bind_ok, h2, g1, if_true]
      rfl
    | false =>
      have hr1 : 1 < r1 := by have := g2.rpos; have := (g5 rfl).1; omega
      obtain ⟨r', l, k', a1, a2, a3⟩ := advanced64Loop_lucky bld (B := 2 ^ 64) le_rfl (2 * n) [(r1, 1)] [] rng k (by
        intro x hx
        simp only [List.mem_singleton] at hx; subst hx
        exact ⟨hr1, by simp only; omega, (g5 rfl).2, by simp⟩) (by simp; omega)
      refine ⟨r', a1, mergeFactors m' l, k', a2, fun fuel hf => ?_⟩
      simp only [factorize64, factorize64With, h1, hp, if_false, cadd_ok (fits_some.mpr hs), Res.bind_ok, h2, g1,
        factorize64Advanced, a3 r' (AgreeBelow.refl _ _ _) fuel fuel hf (by omega), Bool.false_eq_true]
      rfl

/-- **C93** the same for `factorize128` -/
theorem C93_factorize128_reachable (bld : Build) (rng : Rng) (k n : ℕ) (hn : 1 ≤ n) (h128 : n < 2 ^ 128) :
    ∃ r', AgreeBelow (2 ^ 128) k rng r' ∧ ∃ m k', k ≤ k' ∧ ∀ fuel, 2 * n ≤ fuel → factorize128 bld r' fuel k n = .ok (m, k') := by
  by_cases hlt : n < 2 ^ 64
  · obtain ⟨r', a1, m, k', a2, a3⟩ := C93_factorize64_reachable bld rng k n hn hlt
    refine ⟨r', a1.mono (by norm_num), m, k', a2, fun fuel hf => ?_⟩
    rw [← a3 fuel hf]
    simp only [factorize128, factorize128With, hlt, if_true, factorize64]
  obtain ⟨f2, r, h1, h2, h3, h4, h5⟩ := split_two hn h128
  have hF2 : FMap (if f2 ≠ 0 then [(2, f2)] else []) r n := by
    rw [ite_not]; exact fmap_two hn h3 h4
  obtain ⟨r1, m', b, g1, g2, g3, g4, g5, g6⟩ := td128_spec (bld := bld) h4 hF2
  cases b with
  | true =>
    refine ⟨rng, AgreeBelow.refl _ _ _, m', k, le_rfl, fun fuel _ => ?_⟩
    simp only [factorize128, factorize128With, hlt, if_false, h1, h2, Res.bind_ok, g1, if_true]
    rfl
  | false =>
    have hr1 : 1 < r1 := by have := g2.rpos; have := (g5 rfl).1; omega
    obtain ⟨r', t64, l, k', a1, a2, a4, a5, a3⟩ := advanced128Loop_lucky bld (2 * n) (pushCofactor (r1, 1) ([], [])) [] rng k
      (Lists.push ⟨by simp, by simp⟩ ⟨hr1, by simp only; omega, (g5 rfl).2, by simp⟩).1
      (by unfold pushCofactor; split <;> simp <;> omega)
    obtain ⟨r2, l2, k2, b1, b2, b3⟩ := advanced64Loop_lucky bld (B := 2 ^ 128) (by norm_num) (2 * n) t64 [] r' k' a5 a4
    refine ⟨r2, a1.trans b1 a2, mergeFactors m' (l ++ l2), k2, by omega, fun fuel hf => ?_⟩
    simp only [factorize128, factorize128With, hlt, if_false, h1, h2, Res.bind_ok, g1, factorize128Advanced,
      factorize64Advanced, a3 r2 b1 fuel fuel hf (by omega), b3 r2 (AgreeBelow.refl _ _ _) fuel fuel hf (by omega), Bool.false_eq_true]
    rfl

/-- a number without small factors whose factorization needs the search, after nine unlucky random numbers -/
example : ∃ r', AgreeBelow (2 ^ 64) 9 ⟨fun _ => 0, fun _ => []⟩ r' ∧ ∃ m k', 9 ≤ k' ∧
    ∀ fuel, 2 * (1000003 * 1000033) ≤ fuel → factorize64 .big r' fuel 9 (1000003 * 1000033) = .ok (m, k') :=
  C93_factorize64_reachable .big _ 9 _ (by norm_num) (by norm_num)
example : pollardRho (1000003 * 1000033) 0 1000003 1 = .ok (some 1000003, 1) := by decide +kernel

end NumPrime
