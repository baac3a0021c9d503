import Verif.Proofs.Factorize
import Verif.Props.Factor
import Verif.Proofs.IsPrimeGen

/-! The divisor search and the worklist loops of `factorize64` and `factorize128`. -/

namespace NumPrime
open Spec Tables

/-! ## the divisor search -/

theorem isSquare_of_mul_isSquare {a k : ℕ} (hc : Nat.Coprime a k) (h : IsSquare (a * k)) : IsSquare a := by
  obtain ⟨c, hc2⟩ := h
  have hu : IsUnit (gcd a k) := by
    rw [Nat.isUnit_iff]
    exact hc
  obtain ⟨d, hd⟩ := exists_eq_pow_of_mul_eq_pow hu (k := 2) (c := c) (by rw [hc2, pow_two])
  exact ⟨d, by rw [hd, pow_two]⟩

/-- every prime factor of a multiplier is at most 19 -/
theorem multiplier_coprime {bld : Build} {r k : ℕ} (h : Rough bld r) (hk : k ∈ squfofMultipliers) : Nat.Coprime r k := by
  have h2 : ∃ e, 0 < k ∧ k ∣ (3 * 5 * 7 * 11 * 13 * 17 * 19) ^ e := by
    refine ⟨1, ?_⟩
    have : ∀ k ∈ squfofMultipliers, 0 < k ∧ k ∣ (3 * 5 * 7 * 11 * 13 * 17 * 19) ^ 1 := by decide +kernel
    exact this k hk
  obtain ⟨e, hpos, hd⟩ := h2
  refine Nat.Coprime.coprime_dvd_right hd (Nat.Coprime.pow_right _ ?_)
  have hN := le_smallPrimesNext bld
  have c : ∀ j, 0 < j → j < 257 → Nat.Coprime r j := fun j h1 h2 => h.coprime h1 (by omega)
  exact ((((((c 3 (by norm_num) (by norm_num)).mul_right (c 5 (by norm_num) (by norm_num))).mul_right
    (c 7 (by norm_num) (by norm_num))).mul_right (c 11 (by norm_num) (by norm_num))).mul_right
    (c 13 (by norm_num) (by norm_num))).mul_right (c 17 (by norm_num) (by norm_num))).mul_right
    (c 19 (by norm_num) (by norm_num))

theorem tryRho_divisor {rng : Rng} {k n maxIter d : ℕ} (h : tryRho rng k n maxIter = .ok (some d)) : ProperDivisor d n := by
  unfold tryRho at h
  split at h
  · simp at h
  · rename_i hodd
    obtain ⟨o, i, h1, -, h3⟩ := C39_pollard_rho n (rng.word k % n) (rng.word (k + 1) % n) maxIter (by omega)
    rw [h1] at h
    simp only [Res.mapR_ok, Res.ok.injEq] at h
    exact h3 d h

theorem trySqufof_divisor {bld : Build} {b fuel n ratio : ℕ} (hb : 2 ≤ b) (hn : 0 < n) : ∀ (ks : List ℕ),
    (∀ k ∈ ks, ¬ IsSquare (k * n)) → ∀ d, trySqufof bld b fuel n ratio ks = .ok (some d) → ProperDivisor d n := by
  intro ks
  induction ks with
  | nil => intro _ d h; simp [trySqufof] at h
  | cons k ks ih =>
    intro hks d h
    have ih' := ih (fun k hk => hks k (List.mem_cons_of_mem _ hk))
    unfold trySqufof at h
    split at h
    · rename_i hfit
      simp only [Res.bind_eq_ok] at h
      obtain ⟨r2, -, mi, -, ⟨o, i⟩, h3, h4⟩ := h
      simp only at h4
      cases o with
      | none => exact ih' d h4
      | some d' =>
        simp only [Res.pure_def, Res.ok.injEq, Option.some.injEq] at h4
        subst h4
        rw [Nat.mul_comm n k] at h3 hfit
        exact C40_squfof_partial bld (some b) fuel n k mi d' i (fun c hc => by simp only [Option.some.injEq] at hc; omega)
          hn hfit (hks k (by simp)) h3
    · exact ih' d h

theorem tryMethod_divisor {bld : Build} {b fuel n k i ratio d k' : ℕ} {rng : Rng} (hb : 2 ≤ b) (hn : 0 < n)
    (hr : Rough bld n) (hsq : ¬ IsSquare n) (h : tryMethod bld b rng fuel n k i ratio = .ok (some d, k')) :
    ProperDivisor d n := by
  unfold tryMethod at h
  split at h
  · rw [Res.mapR_eq_ok] at h
    obtain ⟨o, h1, h2⟩ := h
    simp only [Prod.mk.injEq] at h2
    rw [h2.1] at h1
    exact tryRho_divisor h1
  · rw [Res.mapR_eq_ok] at h
    obtain ⟨⟨o, j⟩, h1, h2⟩ := h
    simp only [Prod.mk.injEq] at h2
    rw [h2.1] at h1
    exact C42_one_line _ _ _ _ _ _ _ h1
  · rw [Res.mapR_eq_ok] at h
    obtain ⟨o, h1, h2⟩ := h
    simp only [Prod.mk.injEq] at h2
    rw [h2.1] at h1
    refine trySqufof_divisor hb hn _ (fun k hk hs => hsq ?_) d h1
    rw [Nat.mul_comm] at hs
    exact isSquare_of_mul_isSquare (multiplier_coprime hr hk) hs

theorem findDivisor_divisor {bld : Build} {b fuel n : ℕ} {rng : Rng} (hb : 2 ≤ b) (hn : 0 < n)
    (hr : Rough bld n) (hsq : ¬ IsSquare n) : ∀ f k i ratio d k',
    findDivisor bld b rng fuel n f k i ratio = .ok (d, k') → ProperDivisor d n := by
  intro f
  induction f with
  | zero => intro k i ratio d k' h; simp [findDivisor] at h
  | succ f ih =>
    intro k i ratio d k' h
    simp only [findDivisor, Res.bind_eq_ok] at h
    obtain ⟨⟨o, k1⟩, h1, h2⟩ := h
    cases o with
    | none =>
      simp only [Res.bind_eq_ok] at h2
      obtain ⟨r, -, h3⟩ := h2
      exact ih _ _ _ _ _ h3
    | some d' =>
      simp only [Res.pure_def, Res.ok.injEq, Prod.mk.injEq] at h2
      rw [← h2.1]
      exact tryMethod_divisor hb hn hr hsq h1

/-- what is assumed of a divisor search: started on a number without small factors that is not a perfect square, it
returns only proper divisors -/
def FindOk (bld : Build) (find : ℕ → ℕ → Res (ℕ × ℕ)) : Prop :=
  ∀ n k d k', 1 < n → Rough bld n → ¬ IsSquare n → find n k = .ok (d, k') → ProperDivisor d n

theorem search_ok (bld : Build) (b : ℕ) (hb : 2 ≤ b) (rng : Rng) (fuel : ℕ) : FindOk bld (search bld b rng fuel) :=
  fun _ _ _ _ h1 h2 h3 h4 => findDivisor_divisor hb (by omega) h2 h3 _ _ _ _ _ _ h4

/-! ## products of worklists -/

theorem mapProd_append (a b : List (ℕ × ℕ)) : mapProd (a ++ b) = mapProd a * mapProd b := by
  simp [mapProd, List.prod_append]

theorem mergeFactors_prod : ∀ (l m : List (ℕ × ℕ)), mapProd (mergeFactors m l) = mapProd m * mapProd l := by
  intro l
  induction l with
  | nil => intro m; simp [mergeFactors]
  | cons x l ih =>
    intro m
    have := ih (mapAdd m x.1 x.2)
    simp only [mergeFactors, List.foldl_cons] at this ⊢
    rw [this, mapAdd_prod, mapProd_cons, mul_assoc]

theorem mergeFactors_sorted : ∀ (l m : List (ℕ × ℕ)), MapSorted m → MapSorted (mergeFactors m l) := by
  intro l
  induction l with
  | nil => intro m h; simpa [mergeFactors] using h
  | cons x l ih => intro m h; exact ih _ (mapAdd_sorted h _ _)

theorem mergeFactors_pos : ∀ (l m : List (ℕ × ℕ)), (∀ x ∈ m, 0 < x.2) → (∀ x ∈ l, 0 < x.2) →
    ∀ x ∈ mergeFactors m l, 0 < x.2 := by
  intro l
  induction l with
  | nil => intro m h _; simpa [mergeFactors] using h
  | cons x l ih =>
    intro m h h2
    exact ih _ (mapAdd_pos (h2 x (by simp)) h) (fun y hy => h2 y (List.mem_cons_of_mem _ hy))

theorem mergeFactors_keys {P : ℕ → Prop} : ∀ (l m : List (ℕ × ℕ)), (∀ x ∈ m, P x.1) → (∀ x ∈ l, P x.1) →
    ∀ x ∈ mergeFactors m l, P x.1 := by
  intro l
  induction l with
  | nil => intro m h _; simpa [mergeFactors] using h
  | cons x l ih =>
    intro m h h2
    refine ih _ ?_ (fun y hy => h2 y (List.mem_cons_of_mem _ hy))
    intro y hy
    have := (mem_keys_mapAdd m x.1 x.2 y.1).mp (List.mem_map_of_mem hy)
    rcases this with h3 | h3
    · rw [h3]; exact h2 x (by simp)
    · obtain ⟨z, hz, hz2⟩ := List.mem_map.mp h3
      rw [← hz2]; exact h z hz

/-! ## the 64 bit worklist -/

theorem isPrime64_of_miller {bld : Build} {n : ℕ} (h1 : 1 < n) (hr : Rough bld n) (h : isPrime64Miller bld n = true) :
    isPrime64 bld n = true := by
  have hN := le_smallPrimesNext bld
  have hle := hr.le h1
  refine (isPrime64_iff bld n).mpr (Or.inr ⟨hle, hr.odd, ?_, (isPrime64Miller_iff (by omega) hr.odd).mp h⟩)
  exact hr.coprime (by have := wheelSize_pos bld; omega) (wheelSize_lt bld)

theorem isPrime64Miller_of {bld : Build} {n : ℕ} (h1 : 1 < n) (hr : Rough bld n) (h : isPrime64 bld n = true) :
    isPrime64Miller bld n = true := by
  have hN := le_smallPrimesNext bld
  have hle := hr.le h1
  rcases (isPrime64_iff bld n).mp h with ⟨-, h3⟩ | ⟨-, h4, -, h5⟩
  · omega
  · exact (isPrime64Miller_iff (by omega) h4).mpr h5

/-- entries of the 64 bit worklist -/
def Todo64 (bld : Build) (x : ℕ × ℕ) : Prop := 1 < x.1 ∧ x.1 < 2 ^ 64 ∧ Rough bld x.1 ∧ 0 < x.2

/-- finished factors of the 64 bit worklist -/
def Done64 (bld : Build) (x : ℕ × ℕ) : Prop := x.1 < 2 ^ 64 ∧ isPrime64 bld x.1 = true ∧ 0 < x.2

theorem root_todo {t d e : ℕ} (ht : 1 < t) (he : 2 ≤ e) (h : d ^ e = t) : 1 < d ∧ d < t ∧ d ∣ t := by
  have hd : 1 < d := by
    by_contra hc
    have : d = 0 ∨ d = 1 := by omega
    rcases this with rfl | rfl
    · rw [zero_pow (by omega)] at h; omega
    · rw [one_pow] at h; omega
  refine ⟨hd, ?_, ?_⟩
  · rw [← h]; exact lt_self_pow₀ hd (by omega)
  · rw [← h]; exact dvd_pow_self d (by omega)

theorem cofactor {n d : ℕ} (hn : 1 < n) (h : ProperDivisor d n) :
    1 < n / d ∧ n / d < n ∧ n / d ∣ n ∧ d * (n / d) = n := by
  obtain ⟨⟨c, rfl⟩, h2, h3⟩ := h
  rw [Nat.mul_div_cancel_left _ (by omega)]
  refine ⟨?_, ?_, dvd_mul_left _ _, rfl⟩
  · by_contra hc
    have : c = 0 ∨ c = 1 := by omega
    rcases this with rfl | rfl <;> omega
  · have : 0 < c := Nat.pos_of_ne_zero (by rintro rfl; omega)
    nlinarith

theorem not_isSquare_of {bld : Build} {w : Width} {n : ℕ} (hn : 0 < n) (hw : fits w n = true)
    (h : sqrtExact bld w n = .ok none) : ¬ IsSquare n := by
  obtain ⟨o, h1, h2⟩ := sqrtExact_spec bld w hn hw
  rw [h1] at h
  simp only [Res.ok.injEq] at h
  subst h
  rintro ⟨r, hr⟩
  have := (h2 r).mpr (by rw [hr, pow_two])
  cases this


theorem advanced64Loop_spec {bld : Build} {find : ℕ → ℕ → Res (ℕ × ℕ)} (hfind : FindOk bld find) :
    ∀ (f k : ℕ) (todo done l : List (ℕ × ℕ)) (k' : ℕ), (∀ x ∈ todo, Todo64 bld x) → (∀ x ∈ done, Done64 bld x) →
    advanced64Loop bld find f k todo done = .ok (l, k') →
    (∀ x ∈ l, Done64 bld x) ∧ mapProd l = mapProd done * mapProd todo := by
  intro f
  induction f with
  | zero =>
    intro k todo done l k' ht hd h
    cases todo with
    | nil =>
      simp only [advanced64Loop, Res.ok.injEq, Prod.mk.injEq] at h
      rw [← h.1]; exact ⟨hd, by simp⟩
    | cons x t => simp [advanced64Loop] at h
  | succ f ih =>
    intro k todo done l k' ht hd h
    cases todo with
    | nil =>
      simp only [advanced64Loop, Res.ok.injEq, Prod.mk.injEq] at h
      rw [← h.1]; exact ⟨hd, by simp⟩
    | cons x t =>
      obtain ⟨n, e⟩ := x
      obtain ⟨h1, h64, hr, he⟩ := ht (n, e) (by simp)
      simp only at h1 h64 hr he
      have ht' : ∀ x ∈ t, Todo64 bld x := fun x hx => ht x (List.mem_cons_of_mem _ hx)
      simp only [advanced64Loop] at h
      split at h
      · rename_i hm
        obtain ⟨g1, g2⟩ := ih _ _ _ _ _ ht' (by
          intro x hx
          rcases List.mem_append.mp hx with hx | hx
          · exact hd x hx
          · simp only [List.mem_singleton] at hx; subst hx
            exact ⟨h64, isPrime64_of_miller h1 hr hm, he⟩) h
        refine ⟨g1, ?_⟩
        rw [g2, mapProd_append]; simp [mul_assoc]
      · rw [Res.bind_eq_ok] at h
        obtain ⟨o, h2, h⟩ := h
        obtain ⟨o', ho1, ho2⟩ := sqrtExact_spec bld (some 64) (show 0 < n by omega) (fits_some.mpr h64)
        rw [h2] at ho1
        simp only [Res.ok.injEq] at ho1
        subst ho1
        cases o with
        | some d =>
          simp only at h
          have hd2 := (ho2 d).mp rfl
          obtain ⟨a1, a2, a3⟩ := root_todo h1 (by norm_num) hd2
          obtain ⟨g1, g2⟩ := ih _ _ _ _ _ (by
            intro x hx
            rcases List.mem_cons.mp hx with rfl | hx
            · exact ⟨a1, by simp only; omega, hr.of_dvd a3, by simp only; omega⟩
            · exact ht' x hx) hd h
          refine ⟨g1, ?_⟩
          rw [g2, mapProd_cons, mapProd_cons, ← hd2, ← pow_mul, Nat.mul_comm e 2]
        | none =>
          simp only at h
          have hns := not_isSquare_of (by omega) (fits_some.mpr h64) h2
          cases hc : cbrtExact bld (some 64) n with
          | some d =>
            rw [hc] at h
            simp only at h
            have hd2 := (cbrtExact_spec bld (some 64) n d).mp hc
            obtain ⟨a1, a2, a3⟩ := root_todo h1 (by norm_num) hd2
            obtain ⟨g1, g2⟩ := ih _ _ _ _ _ (by
              intro x hx
              rcases List.mem_cons.mp hx with rfl | hx
              · exact ⟨a1, by simp only; omega, hr.of_dvd a3, by simp only; omega⟩
              · exact ht' x hx) hd h
            refine ⟨g1, ?_⟩
            rw [g2, mapProd_cons, mapProd_cons, ← hd2, ← pow_mul, Nat.mul_comm e 3]
          | none =>
            rw [hc] at h
            simp only [Res.bind_eq_ok] at h
            obtain ⟨⟨d, k1⟩, h3, q, h4, h⟩ := h
            obtain ⟨b1, b2, b3⟩ := hfind n k d k1 h1 hr hns h3
            simp only at h4 h
            rw [cdiv_ok (by omega)] at h4
            simp only [Res.ok.injEq] at h4
            subst h4
            obtain ⟨hq1, hqlt, hqn, hq⟩ := cofactor h1 ⟨b1, b2, b3⟩
            obtain ⟨g1, g2⟩ := ih _ _ _ _ _ (by
              intro x hx
              rcases List.mem_cons.mp hx with rfl | hx
              · exact ⟨hq1, by simp only; omega, hr.of_dvd hqn, he⟩
              · rcases List.mem_cons.mp hx with rfl | hx
                · exact ⟨b2, by simp only; omega, hr.of_dvd b1, he⟩
                · exact ht' x hx) hd h
            refine ⟨g1, ?_⟩
            rw [g2, mapProd_cons, mapProd_cons, mapProd_cons]
            simp only
            have : n ^ e = (n / d) ^ e * d ^ e := by
              rw [← mul_pow, Nat.mul_comm (n / d) d, hq]
            rw [this]; ring

/-- two searches that agree on all numbers rejected by the primality test give the same factorization -/
theorem advanced64Loop_congr {bld : Build} {find find' : ℕ → ℕ → Res (ℕ × ℕ)} (hfind : FindOk bld find)
    (hag : ∀ n k, n < 2 ^ 64 → isPrime64 bld n = false → find' n k = find n k) :
    ∀ (f k : ℕ) (todo done : List (ℕ × ℕ)), (∀ x ∈ todo, Todo64 bld x) →
    advanced64Loop bld find' f k todo done = advanced64Loop bld find f k todo done := by
  intro f
  induction f with
  | zero => intro k todo done _; cases todo <;> rfl
  | succ f ih =>
    intro k todo done ht
    cases todo with
    | nil => rfl
    | cons x t =>
      obtain ⟨n, e⟩ := x
      obtain ⟨h1, h64, hr, he⟩ := ht (n, e) (by simp)
      simp only at h1 h64 hr he
      have ht' : ∀ x ∈ t, Todo64 bld x := fun x hx => ht x (List.mem_cons_of_mem _ hx)
      simp only [advanced64Loop]
      split
      · exact ih _ _ _ ht'
      · rename_i hm
        obtain ⟨o, h2, ho2⟩ := sqrtExact_spec bld (some 64) (show 0 < n by omega) (fits_some.mpr h64)
        simp only [h2, Res.bind_ok]
        cases o with
        | some d =>
          obtain ⟨a1, a2, a3⟩ := root_todo h1 (by norm_num) ((ho2 d).mp rfl)
          refine ih _ _ _ ?_
          intro x hx
          rcases List.mem_cons.mp hx with rfl | hx
          · exact ⟨a1, by simp only; omega, hr.of_dvd a3, by simp only; omega⟩
          · exact ht' x hx
        | none =>
          have hns := not_isSquare_of (by omega) (fits_some.mpr h64) h2
          cases hc : cbrtExact bld (some 64) n with
          | some d =>
            have hd2 := (cbrtExact_spec bld (some 64) n d).mp hc
            obtain ⟨a1, a2, a3⟩ := root_todo h1 (by norm_num) hd2
            refine ih _ _ _ ?_
            intro x hx
            rcases List.mem_cons.mp hx with rfl | hx
            · exact ⟨a1, by simp only; omega, hr.of_dvd a3, by simp only; omega⟩
            · exact ht' x hx
          | none =>
            have hp : isPrime64 bld n = false := by
              rw [Bool.eq_false_iff]
              exact fun hc => hm (isPrime64Miller_of h1 hr hc)
            simp only [hag n k h64 hp]
            cases h3 : find n k with
            | panic => rfl
            | timeout => rfl
            | ok v =>
              obtain ⟨d, k1⟩ := v
              obtain ⟨b1, b2, b3⟩ := hfind n k d k1 h1 hr hns h3
              simp only [Res.bind_ok, cdiv_ok (show d ≠ 0 by omega)]
              obtain ⟨hq1, hqlt, hqn, hq⟩ := cofactor h1 ⟨b1, b2, b3⟩
              refine ih _ _ _ ?_
              intro x hx
              rcases List.mem_cons.mp hx with rfl | hx
              · exact ⟨hq1, by simp only; omega, hr.of_dvd hqn, he⟩
              · rcases List.mem_cons.mp hx with rfl | hx
                · exact ⟨b2, by simp only; omega, hr.of_dvd b1, he⟩
                · exact ht' x hx

/-! ## factorize64 -/

/-- removing the factors 2 -/
theorem split_two {b n : ℕ} (hn : 1 ≤ n) (hb : n < 2 ^ b) :
    ∃ f2 r, trailingZeros (some b) n = f2 ∧ cshr (some b) n f2 = .ok r ∧ n = 2 ^ f2 * r ∧ r % 2 = 1 ∧ r ≤ n := by
  obtain ⟨h1, h2⟩ := tz_spec (show 0 < n by omega)
  refine ⟨tz n, n / 2 ^ tz n, by simp [trailingZeros, show n ≠ 0 by omega], ?_, (Nat.mul_div_cancel' h1).symm, h2,
    Nat.div_le_self _ _⟩
  simp only [cshr, tz_lt (show 0 < n by omega) hb, if_true, Nat.shiftRight_eq_div_pow]

theorem fmap_two {n f2 r : ℕ} (hn : 1 ≤ n) (h : n = 2 ^ f2 * r) (hodd : r % 2 = 1) :
    FMap (if f2 = 0 then [] else [(2, f2)]) r n := by
  by_cases h0 : f2 = 0
  · subst h0
    simp only [pow_zero, one_mul] at h
    subst h
    simpa using FMap.nil hn
  · simp only [h0, if_false]
    have := (FMap.nil hn).step Nat.prime_two (r' := r) (e := f2) (by rw [Nat.mul_comm]; exact h) (by omega)
      (Nat.pos_of_ne_zero h0)
    simpa [mapAdd] using this

/-- what a returned factor map has to satisfy -/
structure FactorMap (P : ℕ → Prop) (m : List (ℕ × ℕ)) (n : ℕ) : Prop where
  ordered : Ordered m
  prod : product m = n
  key : ∀ x ∈ m, P x.1
  pos : ∀ x ∈ m, 0 < x.2

theorem FactorMap.isFactorization {P : ℕ → Prop} {m : List (ℕ × ℕ)} {n : ℕ} (h : FactorMap P m n)
    (hP : ∀ x ∈ m, P x.1 → x.1.Prime) : IsFactorization m n :=
  isFactorization_of h.ordered (fun x hx => hP x hx (h.key x hx)) h.pos h.prod

/-- trial division finished the job -/
theorem fmap_finished {P : ℕ → Prop} {m : List (ℕ × ℕ)} {r n : ℕ} (hF : FMap m r n) (hr : r = 1 ∨ r.Prime)
    (hP : ∀ p, p.Prime → P p) : FactorMap P (if r ≠ 1 then mapInsert m r 1 else m) n := by
  by_cases h1 : r = 1
  · subst h1
    simp only [ne_eq, not_true, if_false]
    exact ⟨hF.sorted, by rw [product_eq, hF.prod, mul_one], fun x hx => hP _ (hF.prime x hx), hF.pos⟩
  · have hp : r.Prime := by tauto
    simp only [ne_eq, h1, not_false_iff, if_true]
    have hk : r ∉ m.map Prod.fst := by
      intro hc
      obtain ⟨x, hx, rfl⟩ := List.mem_map.mp hc
      exact hF.nodvd x hx dvd_rfl
    rw [mapInsert_eq_mapAdd _ hk]
    have hF' := hF.step hp (r' := 1) (e := 1) (by simp) (by rw [Nat.dvd_one]; exact hp.one_lt.ne') one_pos
    exact ⟨hF'.sorted, by rw [product_eq, hF'.prod, mul_one], fun x hx => hP _ (hF'.prime x hx), hF'.pos⟩

theorem fmap_merged {P : ℕ → Prop} {m l : List (ℕ × ℕ)} {r n : ℕ} (hF : FMap m r n) (hl : mapProd l = r)
    (hP : ∀ p, p.Prime → P p) (hlP : ∀ x ∈ l, P x.1) (hpos : ∀ x ∈ l, 0 < x.2) : FactorMap P (mergeFactors m l) n :=
  ⟨mergeFactors_sorted l m hF.sorted, by rw [product_eq, mergeFactors_prod, hl, ← hF.prod],
    mergeFactors_keys l m (fun x hx => hP _ (hF.prime x hx)) hlP, mergeFactors_pos l m hF.pos hpos⟩

/-- the state in which `factorize64` starts the worklist loop, or its result without it -/
theorem factorize64With_cases {bld : Build} {fuel k n : ℕ} (hn : 1 ≤ n) (h64 : n < 2 ^ 64) :
    (∃ m, (∀ find, factorize64With bld find fuel k n = .ok (m, k)) ∧ FactorMap (fun p => isPrime64 bld p = true) m n) ∨
    (∃ m r, FMap m r n ∧ Todo64 bld (r, 1) ∧ ∀ find, factorize64With bld find fuel k n =
      (factorize64Advanced bld find fuel k [(r, 1)]).mapR (fun x => (mergeFactors m x.1, x.2))) := by
  obtain ⟨f2, r, h1, h2, h3, h4, h5⟩ := split_two hn h64
  by_cases hp : f2 = 0 ∧ isPrime64 bld n = true
  · left
    refine ⟨[(n, 1)], fun find => by simp only [factorize64With, h1, hp]; rfl, ?_⟩
    exact ⟨by simp [Ordered], by simp [product], by simpa using hp.2, by simp⟩
  · have hF := fmap_two hn h3 h4
    have hs : isqrt n + 1 < 2 ^ 64 := by
      have := (isqrt_spec n).1
      generalize isqrt n = s at *
      nlinarith
    obtain ⟨r', m', b, g1, g2, g3, g4, g5, g6⟩ := td64_spec (bld := bld) h64 h5 h4 hF
    cases b with
    | true =>
      left
      refine ⟨_, fun find => ?_, fmap_finished g2 (g6 rfl) (fun p hp => isPrime64_prime bld hp)⟩
      simp only [factorize64With, h1, hp, if_false, cadd_ok (fits_some.mpr hs), Res.bind_ok, h2, g1, if_true]
      rfl
    | false =>
      · right
        refine ⟨m', r', g2, ⟨by have := g2.rpos; have := (g5 rfl).1; simp only; omega, by simp only; omega, (g5 rfl).2, by simp⟩, fun find => ?_⟩
        simp only [factorize64With, h1, hp, if_false, cadd_ok (fits_some.mpr hs), Res.bind_ok, h2, g1]
        cases factorize64Advanced bld find fuel k [(r', 1)] <;> rfl

end NumPrime
