import Verif.Proofs.Worklist

/-! The worklist loop of `factorize128`, and the loops of `factors` and `divisor`. -/

namespace NumPrime
open Spec Tables

/-- accepted by the test `factorize128` uses: the BPSW configuration of the generic test with a fresh buffer -/
def Accepted128 (bld : Build) (p : ℕ) : Prop :=
  ∃ v, isPrimeNew bld (some 128) p (some .bpsw) [] = .ok v ∧ v.probably = true

theorem accepted128_below {bld : Build} {p : ℕ} (h : p < 2 ^ 64) : Accepted128 bld p ↔ isPrime64 bld p = true := by
  unfold Accepted128 isPrimeNew
  rw [isPrime_below bld _ _ h]
  cases isPrime64 bld p <;> simp [Primality.probably]

theorem std128 : StdWidth (some 128) := Or.inr ⟨128, by simp, rfl⟩

theorem isPrimeNew128_total (bld : Build) {n : ℕ} (h : n < 2 ^ 128) : ∃ v, isPrimeNew bld (some 128) n (some .bpsw) [] = .ok v := by
  unfold isPrimeNew
  cases hv : isPrime bld (some 128) (smallPrimes bld) n (some .bpsw) [] with
  | ok v => exact ⟨v, rfl⟩
  | panic => exact absurd hv (isPrime_ne_panic bld std128 _ n (fits_some.mpr h) _ _)
  | timeout =>
    exfalso
    rcases Nat.lt_or_ge n (2 ^ 64) with h2 | h2
    · rw [isPrime_below bld _ _ h2] at hv; simp at hv
    · rcases Nat.mod_two_eq_zero_or_one n with h3 | h3
      · rw [isPrime_even bld _ _ h3] at hv; simp at hv
      · have hd : drawWitnesses [] ((some PrimalityTestConfig.bpsw).getD .default).sprpRandomTrials
            ((smallPrimes bld).take ((some PrimalityTestConfig.bpsw).getD .default).sprpTrials) =
            .ok ((smallPrimes bld).take ((some PrimalityTestConfig.bpsw).getD .default).sprpTrials) := by
          simp only [Option.getD_some, PrimalityTestConfig.bpsw, drawWitnesses]
        rcases isPrime_large bld std128 _ h3 h2 (fits_some.mpr h) (some .bpsw) [] _ hd with ⟨h4, _⟩ | ⟨h4, _⟩ <;>
          · rw [h4] at hv; simp at hv

theorem accepted128_prime {bld : Build} {p : ℕ} (hp : p.Prime) (h : p < 2 ^ 128) : Accepted128 bld p := by
  obtain ⟨v, hv⟩ := isPrimeNew128_total bld h
  refine ⟨v, hv, ?_⟩
  rcases isPrime_prime bld std128 (smallPrimes bld) hp (fits_some.mpr h) (some .bpsw) [] (fun x hx => by
    have := mem_smallPrimes.mp hx
    have := smallPrimesNext_le bld
    have := (mem_smallPrimes.mp hx).1.pos
    omega) (by simp) v hv with h1 | h1 <;> subst h1 <;> rfl

/-- entries of the worklists, before they are sorted by size -/
def Todo (bld : Build) (x : ℕ × ℕ) : Prop := 1 < x.1 ∧ x.1 < 2 ^ 128 ∧ Rough bld x.1 ∧ 0 < x.2

/-- finished factors -/
def Done128 (bld : Build) (x : ℕ × ℕ) : Prop := x.1 < 2 ^ 128 ∧ Accepted128 bld x.1 ∧ 0 < x.2

/-- the two worklists -/
def Lists (bld : Build) (t : List (ℕ × ℕ) × List (ℕ × ℕ)) : Prop :=
  (∀ x ∈ t.1, Todo bld x ∧ 2 ^ 64 ≤ x.1) ∧ ∀ x ∈ t.2, Todo64 bld x

theorem Lists.push {bld : Build} {t : List (ℕ × ℕ) × List (ℕ × ℕ)} (h : Lists bld t) {x : ℕ × ℕ} (hx : Todo bld x) :
    Lists bld (pushCofactor x t) ∧
    mapProd (pushCofactor x t).1 * mapProd (pushCofactor x t).2 = x.1 ^ x.2 * (mapProd t.1 * mapProd t.2) := by
  unfold pushCofactor
  split
  · rename_i hlt
    refine ⟨⟨h.1, ?_⟩, by simp only [mapProd_cons]; ring⟩
    intro y hy
    rcases List.mem_cons.mp hy with rfl | hy
    · exact ⟨hx.1, hlt, hx.2.2⟩
    · exact h.2 y hy
  · rename_i hlt
    refine ⟨⟨?_, h.2⟩, by simp only [mapProd_cons]; ring⟩
    intro y hy
    rcases List.mem_cons.mp hy with rfl | hy
    · exact ⟨hx, by omega⟩
    · exact h.1 y hy

theorem advanced128Loop_spec {bld : Build} {find : ℕ → ℕ → Res (ℕ × ℕ)} (hfind : FindOk bld find) :
    ∀ (f k : ℕ) (t : List (ℕ × ℕ) × List (ℕ × ℕ)) (done t64 l : List (ℕ × ℕ)) (k' : ℕ), Lists bld t →
    (∀ x ∈ done, Done128 bld x) → advanced128Loop bld find f k t done = .ok (t64, l, k') →
    (∀ x ∈ l, Done128 bld x) ∧ (∀ x ∈ t64, Todo64 bld x) ∧
      mapProd l * mapProd t64 = mapProd done * (mapProd t.1 * mapProd t.2) := by
  intro f
  induction f with
  | zero =>
    rintro k ⟨t1, t2⟩ done t64 l k' hL hd h
    cases t1 with
    | nil =>
      simp only [advanced128Loop, Res.ok.injEq, Prod.mk.injEq] at h
      rw [← h.1, ← h.2.1]; exact ⟨hd, hL.2, by simp⟩
    | cons x t => simp [advanced128Loop] at h
  | succ f ih =>
    rintro k ⟨t1, t2⟩ done t64 l k' hL hd h
    cases t1 with
    | nil =>
      simp only [advanced128Loop, Res.ok.injEq, Prod.mk.injEq] at h
      rw [← h.1, ← h.2.1]; exact ⟨hd, hL.2, by simp⟩
    | cons x t =>
      obtain ⟨n, e⟩ := x
      obtain ⟨⟨h1, h128, hr, he⟩, h64⟩ := hL.1 (n, e) (by simp)
      simp only at h1 h128 hr he h64
      have hL' : Lists bld (t, t2) := ⟨fun x hx => hL.1 x (List.mem_cons_of_mem _ hx), hL.2⟩
      simp only [advanced128Loop, Res.bind_eq_ok] at h
      obtain ⟨v, hv, h⟩ := h
      split at h
      · rename_i hm
        obtain ⟨g1, g2, g3⟩ := ih _ _ _ _ _ _ hL' (by
          intro x hx
          rcases List.mem_append.mp hx with hx | hx
          · exact hd x hx
          · simp only [List.mem_singleton] at hx; subst hx
            exact ⟨h128, ⟨v, hv, hm⟩, he⟩) h
        refine ⟨g1, g2, ?_⟩
        rw [g3, mapProd_append]; simp [mul_assoc]
      · rw [Res.bind_eq_ok] at h
        obtain ⟨o, h2, h⟩ := h
        obtain ⟨o', ho1, ho2⟩ := sqrtExact_spec bld (some 128) (show 0 < n by omega) (fits_some.mpr h128)
        rw [h2] at ho1
        simp only [Res.ok.injEq] at ho1
        subst ho1
        cases o with
        | some d =>
          simp only at h
          have hd2 := (ho2 d).mp rfl
          obtain ⟨a1, a2, a3⟩ := root_todo h1 (by norm_num) hd2
          have hx : Todo bld (d, e * 2) := ⟨a1, by simp only; omega, hr.of_dvd a3, by simp only; omega⟩
          obtain ⟨p1, p2⟩ := hL'.push hx
          obtain ⟨g1, g2, g3⟩ := ih _ _ _ _ _ _ p1 hd h
          refine ⟨g1, g2, ?_⟩
          rw [g3, p2, mapProd_cons, ← hd2]
          simp only
          rw [← pow_mul, Nat.mul_comm e 2]; ring
        | none =>
          simp only at h
          have hns := not_isSquare_of (by omega) (fits_some.mpr h128) h2
          cases hc : cbrtExact bld (some 128) n with
          | some d =>
            rw [hc] at h
            simp only at h
            have hd2 := (cbrtExact_spec bld (some 128) n d).mp hc
            obtain ⟨a1, a2, a3⟩ := root_todo h1 (by norm_num) hd2
            have hx : Todo bld (d, e * 3) := ⟨a1, by simp only; omega, hr.of_dvd a3, by simp only; omega⟩
            obtain ⟨p1, p2⟩ := hL'.push hx
            obtain ⟨g1, g2, g3⟩ := ih _ _ _ _ _ _ p1 hd h
            refine ⟨g1, g2, ?_⟩
            rw [g3, p2, mapProd_cons, ← hd2]
            simp only
            rw [← pow_mul, Nat.mul_comm e 3]; ring
          | none =>
            rw [hc] at h
            simp only [Res.bind_eq_ok] at h
            obtain ⟨⟨d, k1⟩, h3, q, h4, h⟩ := h
            obtain ⟨b1, b2, b3⟩ := hfind n k d k1 h1 hr hns h3
            simp only at h4 h
            rw [cdiv_ok (by omega)] at h4
            simp only [Res.ok.injEq] at h4
            subst h4
            obtain ⟨hq1, hqlt, hqn, hq⟩ := cofactor h1 ⟨b1, b2, b3⟩
            have hx1 : Todo bld (d, e) := ⟨b2, by simp only; omega, hr.of_dvd b1, he⟩
            have hx2 : Todo bld (n / d, e) := ⟨hq1, by simp only; omega, hr.of_dvd hqn, he⟩
            obtain ⟨p1, p2⟩ := hL'.push hx1
            obtain ⟨p3, p4⟩ := p1.push hx2
            obtain ⟨g1, g2, g3⟩ := ih _ _ _ _ _ _ p3 hd h
            refine ⟨g1, g2, ?_⟩
            rw [g3, p4, p2, mapProd_cons]
            simp only
            have : n ^ e = (n / d) ^ e * d ^ e := by
              rw [← mul_pow, Nat.mul_comm (n / d) d, hq]
            rw [this]; ring

theorem advanced128Loop_congr {bld : Build} {find find' : ℕ → ℕ → Res (ℕ × ℕ)} (hfind : FindOk bld find)
    (hag : ∀ n k, n < 2 ^ 128 → ¬ Accepted128 bld n → find' n k = find n k) :
    ∀ (f k : ℕ) (t : List (ℕ × ℕ) × List (ℕ × ℕ)) (done : List (ℕ × ℕ)), Lists bld t →
    advanced128Loop bld find' f k t done = advanced128Loop bld find f k t done := by
  intro f
  induction f with
  | zero => rintro k ⟨t1, t2⟩ done _; cases t1 <;> rfl
  | succ f ih =>
    rintro k ⟨t1, t2⟩ done hL
    cases t1 with
    | nil => rfl
    | cons x t =>
      obtain ⟨n, e⟩ := x
      obtain ⟨⟨h1, h128, hr, he⟩, h64⟩ := hL.1 (n, e) (by simp)
      simp only at h1 h128 hr he h64
      have hL' : Lists bld (t, t2) := ⟨fun x hx => hL.1 x (List.mem_cons_of_mem _ hx), hL.2⟩
      obtain ⟨v, hv⟩ := isPrimeNew128_total bld h128
      simp only [advanced128Loop, hv, Res.bind_ok]
      split
      · exact ih _ _ _ hL'
      · rename_i hm
        obtain ⟨o, h2, ho2⟩ := sqrtExact_spec bld (some 128) (show 0 < n by omega) (fits_some.mpr h128)
        simp only [h2, Res.bind_ok]
        cases o with
        | some d =>
          obtain ⟨a1, a2, a3⟩ := root_todo h1 (by norm_num) ((ho2 d).mp rfl)
          exact ih _ _ _ (hL'.push (x := (d, e * 2)) ⟨a1, by simp only; omega, hr.of_dvd a3, by simp only; omega⟩).1
        | none =>
          have hns := not_isSquare_of (by omega) (fits_some.mpr h128) h2
          cases hc : cbrtExact bld (some 128) n with
          | some d =>
            obtain ⟨a1, a2, a3⟩ := root_todo h1 (by norm_num) ((cbrtExact_spec bld (some 128) n d).mp hc)
            exact ih _ _ _ (hL'.push (x := (d, e * 3)) ⟨a1, by simp only; omega, hr.of_dvd a3, by simp only; omega⟩).1
          | none =>
            have hna : ¬ Accepted128 bld n := by
              rintro ⟨v', hv', hp⟩
              rw [hv] at hv'
              simp only [Res.ok.injEq] at hv'
              subst hv'
              exact hm hp
            simp only [hag n k h128 hna]
            cases h3 : find n k with
            | panic => rfl
            | timeout => rfl
            | ok v =>
              obtain ⟨d, k1⟩ := v
              obtain ⟨b1, b2, b3⟩ := hfind n k d k1 h1 hr hns h3
              simp only [Res.bind_ok, cdiv_ok (show d ≠ 0 by omega)]
              obtain ⟨hq1, hqlt, hqn, hq⟩ := cofactor h1 ⟨b1, b2, b3⟩
              have hx1 : Todo bld (d, e) := ⟨b2, by simp only; omega, hr.of_dvd b1, he⟩
              have hx2 : Todo bld (n / d, e) := ⟨hq1, by simp only; omega, hr.of_dvd hqn, he⟩
              exact ih _ _ _ ((hL'.push hx1).1.push hx2).1

/-- the state in which `factorize128` starts the worklist loops, or its result without them -/
theorem factorize128With_cases {bld : Build} {fuel k n : ℕ} (h64 : 2 ^ 64 ≤ n) (h128 : n < 2 ^ 128) :
    (∃ m, (∀ find64 find128, factorize128With bld find64 find128 fuel k n = .ok (m, k)) ∧
      FactorMap (Accepted128 bld) m n) ∨
    (∃ m r, FMap m r n ∧ Todo bld (r, 1) ∧ ∀ find64 find128, factorize128With bld find64 find128 fuel k n =
      (factorize128Advanced bld find64 find128 fuel k (r, 1)).mapR (fun x => (mergeFactors m x.1, x.2))) := by
  have hn : 1 ≤ n := by omega
  have hlt : ¬ n < 2 ^ 64 := by omega
  obtain ⟨f2, r, h1, h2, h3, h4, h5⟩ := split_two hn h128
  have hF := fmap_two hn h3 h4
  have hF2 : FMap (if f2 ≠ 0 then [(2, f2)] else []) r n := by
    rw [ite_not]; exact hF
  obtain ⟨r', m', b, g1, g2, g3, g4, g5, g6⟩ := td128_spec (bld := bld) h4 hF2
  have hkeys : ∀ x ∈ m', Accepted128 bld x.1 := fun x hx =>
    accepted128_prime (g2.prime x hx) (lt_of_le_of_lt (Nat.le_of_dvd hn (g2.dvd hx)) h128)
  cases b with
  | true =>
    left
    have hr1 := g6 rfl
    subst hr1
    refine ⟨m', fun find64 find128 => ?_, ⟨g2.sorted, by rw [product_eq, g2.prod, mul_one], hkeys, g2.pos⟩⟩
    simp only [factorize128With, hlt, if_false, h1, h2, Res.bind_ok, g1, if_true]
    rfl
  | false =>
    right
    refine ⟨m', r', g2, ⟨by have := g2.rpos; have := (g5 rfl).1; simp only; omega, by simp only; omega, (g5 rfl).2, by simp⟩, ?_⟩
    intro find64 find128
    simp only [factorize128With, hlt, if_false, h1, h2, Res.bind_ok, g1]
    cases factorize128Advanced bld find64 find128 fuel k (r', 1) <;> rfl

theorem factorize128Advanced_spec {bld : Build} {find64 find128 : ℕ → ℕ → Res (ℕ × ℕ)} (h64 : FindOk bld find64)
    (h128 : FindOk bld find128) {fuel k k' r : ℕ} {l : List (ℕ × ℕ)} (hr : Todo bld (r, 1))
    (h : factorize128Advanced bld find64 find128 fuel k (r, 1) = .ok (l, k')) :
    (∀ x ∈ l, Done128 bld x) ∧ mapProd l = r := by
  simp only [factorize128Advanced, factorize64Advanced, Res.bind_eq_ok] at h
  obtain ⟨⟨t64, d, k1⟩, g1, ⟨l2, k2⟩, g2, g3⟩ := h
  simp only [Res.pure_def, Res.ok.injEq, Prod.mk.injEq] at g3
  have hL : Lists bld ([], []) := ⟨by simp, by simp⟩
  obtain ⟨p1, p2⟩ := hL.push hr
  obtain ⟨a1, a2, a3⟩ := advanced128Loop_spec h128 _ _ _ _ _ _ _ p1 (by simp) g1
  obtain ⟨b1, b2⟩ := advanced64Loop_spec h64 _ _ _ _ _ _ a2 (by simp) g2
  rw [← g3.1]
  constructor
  · intro x hx
    rcases List.mem_append.mp hx with hx | hx
    · exact a1 x hx
    · obtain ⟨c1, c2, c3⟩ := b1 x hx
      exact ⟨by omega, (accepted128_below c1).mpr c2, c3⟩
  · rw [mapProd_append, b2]
    simp only [mapProd_nil, one_mul]
    rw [a3, p2]
    simp

end NumPrime
