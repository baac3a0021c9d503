import Verif.Props.Factorize
import Verif.Props.Buffer
import Verif.Props.IsPrimeGen

/-! # C47 – C50: `factors`, `factorize` and `divisor` of the prime buffer

`b` is the state of a buffer after any history; `b.iter` are its primes. `w` is the integer type of the target. -/

namespace NumPrime
open Spec Tables

theorem Reachable.prime_of_mem {bld o g f} {b : Buf} (h : Reachable bld o g f b) : ∀ p ∈ b.iter, p.Prime :=
  fun _ hp => (h.inv.mem.mp hp).1

/-! ## divisor -/

theorem divisorTrial_zero {w : Width} {n tsqrt : ℕ} : ∀ (ps : List ℕ), (∀ p ∈ ps, 0 < p) → ∀ r,
    divisorTrial w n tsqrt 0 ps = .ok r → r = none ∨ r = some none := by
  intro ps hps r h
  cases ps with
  | nil => simp only [divisorTrial, Res.ok.injEq] at h; exact Or.inl h.symm
  | cons p ps =>
    simp only [divisorTrial, Res.bind_eq_ok] at h
    obtain ⟨p', h1, h2⟩ := h
    obtain ⟨-, rfl⟩ := unwrapFit_ok.mp h1
    have hp := hps p' (by simp)
    split at h2
    · simp only [Res.pure_def, Res.ok.injEq] at h2; exact Or.inr h2.symm
    · have : p' > 0 := hp
      simp only [this, if_true, Res.pure_def, Res.ok.injEq] at h2; exact Or.inl h2.symm

theorem divisorRho_divisor {rng : Rng} {n : ℕ} (hn : 1 ≤ n) : ∀ (trials k : ℕ), ∃ o t k',
    divisorRho rng n trials k = .ok (o, t, k') ∧ t ≤ trials ∧ ∀ d, o = some d → ProperDivisor d n := by
  intro trials
  induction trials with
  | zero => intro k; exact ⟨none, 0, k, rfl, le_rfl, by simp⟩
  | succ t ih =>
    intro k
    have hn0 : ¬ n = 0 := by omega
    set bound := if n < 2 ^ 64 then 2 ^ 8 else 2 ^ 64 with hbound
    obtain ⟨o, i, h1, h2, h3⟩ := C39_pollard_rho n (rng.word k % bound % n) (rng.word (k + 1) % bound % n) 1048576 (by omega)
    simp only [divisorRho, hn0, if_false, ← hbound, h1, Res.bind_ok]
    cases o with
    | some d => exact ⟨some d, t, k + 2, rfl, by omega, fun d' hd => h3 d' hd⟩
    | none =>
      obtain ⟨o, t', k', g1, g2, g3⟩ := ih (k + 2)
      exact ⟨o, t', k', g1, by omega, g3⟩

theorem divisor_divisor {w : Width} {list : List ℕ} {rng : Rng} {k n : ℕ} {td : Option ℕ} {trials : ℕ} {o : Option ℕ} {t k' : ℕ}
    (hn : 1 ≤ n) (hl : ∀ p ∈ list, 0 < p) (h : divisor w list rng k n td trials = .ok (o, t, k')) :
    t ≤ trials ∧ ∀ d, o = some d → ProperDivisor d n := by
  simp only [divisor, Res.bind_eq_ok] at h
  obtain ⟨r, h1, h2⟩ := h
  have hr : r = none ∨ r = some none := by
    split at h1
    · simp only [Res.bind_eq_ok] at h1
      obtain ⟨ts, -, h3⟩ := h1
      rw [Nat.min_zero] at h3
      exact divisorTrial_zero list hl r h3
    · simp only [Res.ok.injEq] at h1; exact Or.inl h1.symm
  rcases hr with rfl | rfl
  · obtain ⟨o', t', k'', g1, g2, g3⟩ := divisorRho_divisor (rng := rng) hn trials k
    simp only at h2
    rw [g1] at h2
    simp only [Res.ok.injEq, Prod.mk.injEq] at h2
    rw [← h2.2.1, ← h2.1]
    exact ⟨g2, g3⟩
  · simp only [Res.pure_def, Res.ok.injEq, Prod.mk.injEq] at h2
    rw [← h2.1, ← h2.2.1]
    exact ⟨le_rfl, by simp⟩

theorem divisorTrial_two {w : Width} {n tsqrt : ℕ} (h2 : fits w 2 = true) (hs : 2 ≤ tsqrt) (ps : List ℕ) :
    divisorTrial w n tsqrt 0 (2 :: ps) = .ok none := by
  have h3 : ¬ 2 > tsqrt := by omega
  simp only [divisorTrial, unwrapFit, h2, if_true, Res.bind_ok, h3, if_false, Nat.lt_irrefl, gt_iff_lt, Nat.zero_lt_two,
    Res.pure_def]

theorem StdWidth.succ_sqrt {w : Width} (hw : StdWidth w) {n : ℕ} (h : fits w n = true) : fits w (isqrt n + 1) = true := by
  rcases hw with rfl | ⟨b, hb, rfl⟩
  · rfl
  · rw [fits_some] at *
    have h1 := (isqrt_spec n).1
    generalize isqrt n = s at *
    have hb8 : 8 ≤ b := by simp at hb; omega
    have h256 : 2 ^ 8 ≤ 2 ^ b := Nat.pow_le_pow_right (by norm_num) hb8
    by_contra hc
    have : 2 ^ b - 1 ≤ s := by omega
    nlinarith

theorem StdWidth.two {w : Width} (hw : StdWidth w) : fits w 2 = true := by
  rcases hw with rfl | ⟨b, hb, rfl⟩
  · rfl
  · rw [fits_some]
    have hb8 : 8 ≤ b := by simp at hb; omega
    have h256 : 2 ^ 8 ≤ 2 ^ b := Nat.pow_le_pow_right (by norm_num) hb8
    omega

theorem divisor_eq_rho {w : Width} (hw : StdWidth w) {n : ℕ} (hn : 1 ≤ n) (hfit : fits w n = true) {list : List ℕ}
    (hl : list = [] ∨ ∃ ps, list = 2 :: ps) (rng : Rng) (k : ℕ) (td : Option ℕ) (trials : ℕ) :
    divisor w list rng k n td trials = divisorRho rng n trials k := by
  unfold divisor
  by_cases htd : td = some 0
  · have hs : 2 ≤ isqrt n + 1 := by
      have := (isqrt_spec n).2
      by_contra hc
      have h0 : isqrt n = 0 := by omega
      rw [h0] at this; omega
    simp only [htd, if_true, cadd_ok (hw.succ_sqrt hfit), Res.bind_ok, Nat.min_zero]
    rcases hl with rfl | ⟨ps, rfl⟩
    · simp only [divisorTrial, Res.bind_ok]
    · rw [divisorTrial_two hw.two hs]; rfl
  · simp only [htd, if_false, Res.bind_ok]

theorem Buf.Inv.cons_two {b : Buf} (h : b.Inv) : ∃ ps, b.list = 2 :: ps := by
  have h2 : 2 ∈ b.list := h.mem.mpr ⟨Nat.prime_two, by have := h.ge; omega⟩
  have hs := h.sorted
  have hp : ∀ p ∈ b.list, p.Prime := fun p hp => (h.mem.mp hp).1
  generalize b.list = l at *
  cases l with
  | nil => simp at h2
  | cons x t =>
    rcases List.mem_cons.mp h2 with h2 | h2
    · exact ⟨t, by rw [h2]⟩
    · have h3 := (List.pairwise_cons.mp hs).1 2 h2
      have h4 := (hp x (by simp)).two_le
      omega

/-- **C49** a number returned by `divisor` is a proper divisor of the target: after any history, for every configuration
and random source; the number of trials left only decreases -/
theorem C49_divisor_proper (bld : Build) (o : Estimates) (g f : ℕ) (b : Buf) (h : Reachable bld o g f b) (w : Width)
    (rng : Rng) (k n : ℕ) (hn : 1 ≤ n) (tdLimit : Option ℕ) (rhoTrials : ℕ) (r : Option ℕ) (left k' : ℕ)
    (hr : divisor w b.iter rng k n tdLimit rhoTrials = .ok (r, left, k')) :
    left ≤ rhoTrials ∧ ∀ d, r = some d → ProperDivisor d n :=
  divisor_divisor hn (fun p hp => (h.prime_of_mem p hp).pos) hr

example : divisor none (Buf.new .big).iter exampleRng 0 (8051 * 2 ^ 70) none 4 = .ok (some 8, 3, 2) ∧
    divisor (some 64) (Buf.new .big).iter exampleRng 0 8051 (some 0) 4 = .ok (some 83, 3, 2) := by decide +kernel

/-- **C50 (partial)** what `divisor` does with the trial division limit: nothing. For every target of a standard type and
every limit the result is that of Pollard's rho alone. Missing: the documented trial division, which the code does not
perform (`C50_divisor_misses_small_factor`: the test of the limit is inverted, so that the division loop only runs with the
limit 0, where it stops at the first prime). -/
theorem C50_divisor_td_limit_partial (bld : Build) (o : Estimates) (g f : ℕ) (b : Buf) (h : Reachable bld o g f b) (w : Width)
    (hw : StdWidth w) (rng : Rng) (k n : ℕ) (hn : 1 ≤ n) (hfit : fits w n = true) (tdLimit : Option ℕ) (rhoTrials : ℕ) :
    divisor w b.iter rng k n tdLimit rhoTrials = divisorRho rng n rhoTrials k :=
  divisor_eq_rho hw hn hfit (Or.inr h.inv.cons_two) rng k tdLimit rhoTrials

/-- **C50, finding** without Pollard rho trials `divisor` finds no factor of any number, whatever limit (or no limit) is
configured for trial division and whatever primes are in the buffer -/
theorem C50_divisor_misses_small_factor (bld : Build) (o : Estimates) (g f : ℕ) (b : Buf) (h : Reachable bld o g f b)
    (w : Width) (hw : StdWidth w) (rng : Rng) (k n : ℕ) (hn : 1 ≤ n) (hfit : fits w n = true) (tdLimit : Option ℕ) :
    divisor w b.iter rng k n tdLimit 0 = .ok (none, 0, k) := by
  rw [C50_divisor_td_limit_partial bld o g f b h w hw rng k n hn hfit tdLimit 0]
  rfl

example : divisor (some 64) (Buf.new .big).iter exampleRng 0 (2 * 3 * 5 * 7) none 0 = .ok (none, 0, 0) := by decide +kernel

/-! ## factors -/

/-- a number accepted by the buffer's primality test with configuration `pc` (for some values of the random source) -/
def AcceptedBy (bld : Build) (w : Width) (list : List ℕ) (rng : Rng) (pc : PrimalityTestConfig) (p : ℕ) : Prop :=
  ∃ j v, isPrime bld w list p (some pc) (rng.draws j) = .ok v ∧ v.probably = true

/-- a number rejected by the buffer's primality test -/
def RejectedBy (bld : Build) (w : Width) (list : List ℕ) (rng : Rng) (pc : PrimalityTestConfig) (p : ℕ) : Prop :=
  ∃ j v, isPrime bld w list p (some pc) (rng.draws j) = .ok v ∧ v.probably = false

theorem mapAdd_keys {P : ℕ → Prop} {p : ℕ} (hp : P p) {m : List (ℕ × ℕ)} {e : ℕ} (hm : ∀ x ∈ m, P x.1) :
    ∀ x ∈ mapAdd m p e, P x.1 := by
  intro x hx
  have h := (mem_keys_mapAdd _ _ _ _).mp (List.mem_map_of_mem (f := Prod.fst) hx)
  rcases h with h | h
  · rw [h]; exact hp
  · obtain ⟨y, hy, h⟩ := List.mem_map.mp h
    rw [← h]; exact hm y hy

/-- what the worklist loop keeps -/
theorem factorsLoop_spec {bld : Build} {w : Width} {list : List ℕ} {rng : Rng} {pc : PrimalityTestConfig}
    {find : ℕ → ℕ → ℕ → Res (Option ℕ × ℕ × ℕ)}
    (hfind : ∀ t tr k d tr' k', 1 ≤ t → find t tr k = .ok (some d, tr', k') → ProperDivisor d t) {P : ℕ → Prop}
    (hP : ∀ p, AcceptedBy bld w list rng pc p → P p) :
    ∀ (f tr k : ℕ) (todo : List ℕ) (m : List (ℕ × ℕ)) (failed : List ℕ) (m' : List (ℕ × ℕ)) (failed' : List ℕ) (k' : ℕ),
      (∀ t ∈ todo, 1 ≤ t) → Ordered m → (∀ x ∈ m, 0 < x.2) → (∀ x ∈ m, P x.1) →
      (∀ t ∈ failed, RejectedBy bld w list rng pc t) →
      factorsLoop bld w list find rng pc f tr k todo m failed = .ok (m', failed', k') →
      product m' * failed'.prod = product m * todo.prod * failed.prod ∧ Ordered m' ∧ (∀ x ∈ m', 0 < x.2) ∧
        (∀ x ∈ m', P x.1) ∧ (∀ t ∈ failed', RejectedBy bld w list rng pc t) := by
  intro f
  induction f with
  | zero =>
    intro tr k todo m failed m' failed' k' h1 h2 h3 h4 h5 h
    cases todo with
    | nil =>
      simp only [factorsLoop, Res.ok.injEq, Prod.mk.injEq] at h
      obtain ⟨rfl, rfl, rfl⟩ := h
      exact ⟨by simp, h2, h3, h4, h5⟩
    | cons => simp [factorsLoop] at h
  | succ f ih =>
    intro tr k todo m failed m' failed' k' h1 h2 h3 h4 h5 h
    cases todo with
    | nil =>
      simp only [factorsLoop, Res.ok.injEq, Prod.mk.injEq] at h
      obtain ⟨rfl, rfl, rfl⟩ := h
      exact ⟨by simp, h2, h3, h4, h5⟩
    | cons t todo =>
      simp only [factorsLoop, Res.bind_eq_ok] at h
      obtain ⟨v, hv, h⟩ := h
      have ht := h1 t (by simp)
      have htodo : ∀ t ∈ todo, 1 ≤ t := fun x hx => h1 x (List.mem_cons_of_mem _ hx)
      by_cases hp : v.probably = true
      · rw [if_pos hp] at h
        obtain ⟨g1, g2⟩ := ih _ _ _ _ _ _ _ _ htodo (mapAdd_sorted h2 _ _) (mapAdd_pos one_pos h3)
          (mapAdd_keys (hP t ⟨k, v, hv, hp⟩) h4) h5 h
        refine ⟨?_, g2⟩
        rw [g1, product_eq, mapAdd_prod, product_eq, List.prod_cons]; ring
      · rw [if_neg hp] at h
        simp only [Res.bind_eq_ok] at h
        obtain ⟨⟨d, tr', k1⟩, hd, h⟩ := h
        cases d with
        | some d =>
          simp only [Res.bind_eq_ok] at h
          obtain ⟨q, hq, h⟩ := h
          obtain ⟨c1, c2, c3⟩ := hfind _ _ _ _ _ _ ht hd
          rw [cdiv_ok (by omega)] at hq
          injection hq with hq
          obtain ⟨c, rfl⟩ := c1
          rw [Nat.mul_div_cancel_left _ (by omega)] at hq
          subst hq
          have hc1 : 1 ≤ c := by
            by_contra hc0
            have : c = 0 := by omega
            rw [this] at ht; omega
          obtain ⟨g1, g2⟩ := ih _ _ _ _ _ _ _ _ (by
            intro x hx
            simp only [List.mem_cons] at hx
            rcases hx with rfl | rfl | hx
            · exact hc1
            · omega
            · exact htodo x hx) h2 h3 h4 h5 h
          refine ⟨?_, g2⟩
          rw [g1, List.prod_cons, List.prod_cons, List.prod_cons]; ring
        | none =>
          obtain ⟨g1, g2⟩ := ih _ _ _ _ _ _ _ _ htodo h2 h3 h4 (by
            intro x hx
            rcases List.mem_append.mp hx with hx | hx
            · exact h5 x hx
            · rw [List.mem_singleton] at hx
              subst hx
              exact ⟨k, v, hv, by simpa using hp⟩) h
          refine ⟨?_, g2⟩
          rw [g1, List.prod_cons, List.prod_append, List.prod_singleton]; ring

/-- the test a key of the result of `factors` has passed: `is_prime` on `u128` for targets below `2^128`; otherwise the
key is a prime found by trial division, or accepted by the buffer's test with the configuration given -/
def PassesTest (bld : Build) (w : Width) (list : List ℕ) (rng : Rng) (config : Option FactorizationConfig) (n p : ℕ) : Prop :=
  (n < 2 ^ 128 → ∃ v, isPrimeNew bld (some 128) p (some .bpsw) [] = .ok v ∧ v.probably = true) ∧
  (2 ^ 128 ≤ n → p.Prime ∨ AcceptedBy bld w list rng (config.getD .default).primalityConfig p)

theorem factorsWith_spec {bld : Build} {b : Buf} (hb : b.Inv) {w : Width} {rng : Rng} {fuel k n : ℕ} (hn : 1 ≤ n)
    {find : ℕ → ℕ → ℕ → Res (Option ℕ × ℕ × ℕ)}
    (hfind : ∀ t tr k d tr' k', 1 ≤ t → find t tr k = .ok (some d, tr', k') → ProperDivisor d t)
    {config : Option FactorizationConfig} {m : List (ℕ × ℕ)} {rest : Option (List ℕ)} {k' : ℕ}
    (hr : factorsWith bld w b.list find rng fuel k n config = .ok (m, rest, k')) :
    product m * (rest.getD []).prod = n ∧ Ordered m ∧ (∀ x ∈ m, 0 < x.2) ∧ (∀ x ∈ m, PassesTest bld w b.list rng config n x.1) ∧
      (∀ l, rest = some l → l ≠ [] ∧ 2 ^ 128 ≤ n ∧ ∀ t ∈ l, RejectedBy bld w b.list rng (config.getD .default).primalityConfig t) := by
  unfold factorsWith at hr
  by_cases h128 : n < 2 ^ 128
  · simp only [h128, if_true, Res.bind_eq_ok] at hr
    obtain ⟨⟨m', k1⟩, h1, h2⟩ := hr
    simp only [Res.pure_def, Res.ok.injEq, Prod.mk.injEq] at h2
    obtain ⟨rfl, rfl, rfl⟩ := h2
    obtain ⟨g1, g2, g3⟩ := C46_factorize128_product bld rng fuel k n hn h128 _ _ h1
    refine ⟨by simp [g1], g2, fun x hx => (g3 x hx).1, fun x hx => ⟨fun _ => (g3 x hx).2, fun h => ?_⟩, by simp⟩
    exact absurd h128 (by omega)
  · simp only [h128, if_false, Res.bind_eq_ok] at hr
    obtain ⟨⟨m1, e⟩, h1, h2⟩ := hr
    have hpr : ∀ p ∈ b.list, p.Prime := fun p hp => (hb.mem.mp hp).1
    have hge : 2 ^ 128 ≤ n := by omega
    obtain ⟨lim, -, hF, -⟩ := trialDivision_inv hn hpr h1
    cases e with
    | ok r =>
      simp only [Res.pure_def, Res.ok.injEq, Prod.mk.injEq] at h2
      obtain ⟨rfl, rfl, rfl⟩ := h2
      rw [hb.list_eq] at h1
      have h38 := C38_trial_division_ok w b.next n _ m1 r hn h1
      have hr1 : r = 1 ∨ r.Prime := by rcases h38 with h | h; exact Or.inl h.1; exact Or.inr h.1
      have hF' : FMap m1 r n := hF
      have key := fmap_finished (P := Nat.Prime) hF' hr1 (fun p hp => hp)
      refine ⟨?_, key.ordered, key.pos, fun x hx => ⟨fun h => absurd h h128, fun _ => Or.inl (key.key x hx)⟩, by simp⟩
      rw [Option.getD_none, List.prod_nil, mul_one]; exact key.prod
    | error r =>
      simp only [Res.bind_eq_ok] at h2
      obtain ⟨⟨m2, failed, k2⟩, h3, h4⟩ := h2
      simp only [Res.pure_def, Res.ok.injEq, Prod.mk.injEq] at h4
      obtain ⟨rfl, rfl, rfl⟩ := h4
      obtain ⟨g1, g2, g3, g4, g5⟩ := factorsLoop_spec (P := PassesTest bld w b.list rng config n) hfind
        (fun p hp => ⟨fun h => absurd h h128, fun _ => Or.inr hp⟩) _ _ _ _ _ _ _ _ _
        (by have := hF.rpos; simp only [residual] at this; simpa using Nat.succ_le_of_lt this) hF.sorted hF.pos
        (fun x hx => ⟨fun h => absurd h h128, fun _ => Or.inl (hF.prime x hx)⟩) (by simp) h3
      refine ⟨?_, g2, g3, g4, ?_⟩
      · have : (if failed = [] then none else some failed).getD [] = failed := by split <;> simp [*]
        rw [this, g1, List.prod_singleton, List.prod_nil, mul_one, product_eq, hF.prod]; rfl
      · intro l hl
        split at hl
        · simp at hl
        · rename_i hne
          simp only [Option.some.injEq] at hl
          subst hl
          exact ⟨hne, hge, g5⟩

theorem divisor_find {w : Width} {rng : Rng} {list : List ℕ} (hl : ∀ p ∈ list, p.Prime) (td : Option ℕ) :
    ∀ t tr k d tr' k', 1 ≤ t → divisor w list rng k t td tr = .ok (some d, tr', k') → ProperDivisor d t :=
  fun _ _ _ d _ _ ht h => (divisor_divisor ht (fun p hp => (hl p hp).pos) h).2 d rfl

/-- **C47** whenever `factors` returns: the product of the prime factors and of the remaining cofactors is the target; the
keys are increasing, with positive exponents, and passed the primality test; the list of cofactors, if given, is not
empty, occurs only for targets from `2^128` on, and consists of numbers rejected by the primality test. After any history,
for every configuration and random source. -/
theorem C47_factors_product (bld : Build) (o : Estimates) (g f : ℕ) (b : Buf) (h : Reachable bld o g f b) (w : Width)
    (rng : Rng) (fuel k n : ℕ) (hn : 1 ≤ n) (config : Option FactorizationConfig) (m : List (ℕ × ℕ))
    (rest : Option (List ℕ)) (k' : ℕ) (hr : factors bld w b.iter rng fuel k n config = .ok (m, rest, k')) :
    product m * (rest.getD []).prod = n ∧ Ordered m ∧ (∀ x ∈ m, 0 < x.2) ∧ (∀ x ∈ m, PassesTest bld w b.iter rng config n x.1) ∧
      (∀ l, rest = some l → l ≠ [] ∧ 2 ^ 128 ≤ n ∧ ∀ t ∈ l, RejectedBy bld w b.iter rng (config.getD .default).primalityConfig t) :=
  factorsWith_spec h.inv hn (divisor_find h.prime_of_mem _) hr

/-- **C47** `None` means complete: if no cofactor is reported, and the numbers accepted by the primality test are primes, the
map is the prime factorization of the target -/
theorem C47_factors_complete (bld : Build) (o : Estimates) (g f : ℕ) (b : Buf) (h : Reachable bld o g f b) (w : Width)
    (rng : Rng) (fuel k n : ℕ) (hn : 1 ≤ n) (config : Option FactorizationConfig) (m : List (ℕ × ℕ)) (k' : ℕ)
    (hex : ∀ p, p ∣ n → PassesTest bld w b.iter rng config n p → p.Prime)
    (hr : factors bld w b.iter rng fuel k n config = .ok (m, none, k')) : IsFactorization m n := by
  obtain ⟨g1, g2, g3, g4, -⟩ := C47_factors_product bld o g f b h w rng fuel k n hn config m none k' hr
  simp only [Option.getD_none, List.prod_nil, mul_one] at g1
  refine isFactorization_of g2 (fun x hx => hex x.1 ?_ (g4 x hx)) g3 g1
  rw [← g1]
  refine (dvd_pow_self x.1 (g3 x hx).ne').trans ?_
  exact List.dvd_prod (List.mem_map_of_mem (f := fun x : ℕ × ℕ => x.1 ^ x.2) hx)

/-- **C47** a reported cofactor is never a prime, if the random values lie in `[1, 2^64)` -/
theorem C47_cofactors_not_prime (bld : Build) (o : Estimates) (g f : ℕ) (b : Buf) (h : Reachable bld o g f b)
    (hb : ∀ p ∈ b.iter, p < 2 ^ 64) (rng : Rng) (hdr : ∀ j, ∀ x ∈ rng.draws j, 0 < x ∧ x < 2 ^ 64) (fuel k n : ℕ) (hn : 1 ≤ n)
    (config : Option FactorizationConfig) (m : List (ℕ × ℕ)) (l : List ℕ) (k' : ℕ)
    (hr : factors bld none b.iter rng fuel k n config = .ok (m, some l, k')) : ∀ t ∈ l, ¬ t.Prime := by
  obtain ⟨-, -, -, -, g5⟩ := C47_factors_product bld o g f b h none rng fuel k n hn config m (some l) k' hr
  intro t ht hp
  obtain ⟨j, v, hv, hv2⟩ := (g5 l rfl).2.2 t ht
  rcases isPrime_prime bld (Or.inl rfl) b.iter hp rfl _ _ (fun x hx => ⟨(h.prime_of_mem x hx).pos, hb x hx⟩) (hdr j) v hv with h | h
    <;> subst h <;> simp [Primality.probably] at hv2

/-! ### `factors` returns -/

/-- the number of rounds needed for a list of cofactors -/
def rounds (todo : List ℕ) : ℕ := (todo.map (fun t => max 1 (2 * Nat.log 2 t - 1))).sum

theorem rounds_split {c d : ℕ} (hc : 2 ≤ c) (hd : 2 ≤ d) : rounds [c, d] + 1 ≤ 2 * Nat.log 2 (d * c) - 1 := by
  have h1 : 1 ≤ Nat.log 2 c := Nat.log_pos (by norm_num) hc
  have h2 : 1 ≤ Nat.log 2 d := Nat.log_pos (by norm_num) hd
  have h3 : Nat.log 2 c + Nat.log 2 d ≤ Nat.log 2 (d * c) := by
    refine Nat.le_log_of_pow_le (by norm_num) ?_
    rw [pow_add, Nat.mul_comm]
    exact Nat.mul_le_mul (Nat.pow_log_le_self 2 (by omega)) (Nat.pow_log_le_self 2 (by omega))
  simp only [rounds, List.map_cons, List.sum_cons, List.map_nil, List.sum_nil]
  omega

theorem factorsLoop_returns {bld : Build} {list : List ℕ} {rng : Rng} {pc : PrimalityTestConfig}
    (hpr : ∀ t k, ∃ v, isPrime bld none list t (some pc) (rng.draws k) = .ok v)
    {find : ℕ → ℕ → ℕ → Res (Option ℕ × ℕ × ℕ)}
    (hfind : ∀ t tr k, 1 ≤ t → ∃ o tr' k', find t tr k = .ok (o, tr', k') ∧ ∀ d, o = some d → ProperDivisor d t) :
    ∀ (f tr k : ℕ) (todo : List ℕ) (m : List (ℕ × ℕ)) (failed : List ℕ), (∀ t ∈ todo, 1 ≤ t) → rounds todo ≤ f →
      ∃ r, factorsLoop bld none list find rng pc f tr k todo m failed = .ok r := by
  intro f
  induction f with
  | zero =>
    intro tr k todo m failed h1 h2
    cases todo with
    | nil => exact ⟨_, rfl⟩
    | cons t todo => simp [rounds] at h2
  | succ f ih =>
    intro tr k todo m failed h1 h2
    cases todo with
    | nil => exact ⟨_, rfl⟩
    | cons t todo =>
      obtain ⟨v, hv⟩ := hpr t k
      have ht := h1 t (by simp)
      have htodo : ∀ t ∈ todo, 1 ≤ t := fun x hx => h1 x (List.mem_cons_of_mem _ hx)
      have h3 : rounds todo ≤ f ∧ 2 * Nat.log 2 t - 1 + rounds todo ≤ f + 1 := by
        simp only [rounds, List.map_cons, List.sum_cons] at h2 ⊢; omega
      simp only [factorsLoop, hv, Res.bind_ok]
      split
      · exact ih _ _ _ _ _ htodo (by omega)
      · obtain ⟨o, tr', k', g1, g2⟩ := hfind t tr (k + 1) ht
        rw [g1]
        simp only [Res.bind_ok]
        cases o with
        | none => exact ih _ _ _ _ _ htodo (by omega)
        | some d =>
          obtain ⟨c1, c2, c3⟩ := g2 d rfl
          simp only [cdiv_ok (show d ≠ 0 by omega), Res.bind_ok]
          obtain ⟨c, rfl⟩ := c1
          rw [Nat.mul_div_cancel_left _ (by omega)]
          have hc2 : 2 ≤ c := by
            by_contra hc
            have : c = 0 ∨ c = 1 := by omega
            rcases this with rfl | rfl <;> omega
          refine ih _ _ _ _ _ (by
            intro x hx
            simp only [List.mem_cons] at hx
            rcases hx with rfl | rfl | hx
            · omega
            · omega
            · exact htodo x hx) ?_
          have := rounds_split hc2 (show 2 ≤ d by omega)
          simp only [rounds, List.map_cons, List.sum_cons, List.map_nil, List.sum_nil] at this h3 ⊢
          omega

/-- **C47** on `BigUint`, for targets from `2^128` on, `factors` always returns: no panic and, with `2 * log2 n` rounds of
its loop, no endless run, provided the random source delivers enough different values for the primality tests -/
theorem C47_factors_returns (bld : Build) (o : Estimates) (g f : ℕ) (b : Buf) (h : Reachable bld o g f b)
    (rng : Rng) (fuel k n : ℕ) (hn : 2 ^ 128 ≤ n) (config : Option FactorizationConfig)
    (hen : ∀ j, (config.getD .default).primalityConfig.sprpRandomTrials ≤
      ((rng.draws j).toFinset \ (b.iter.take (config.getD .default).primalityConfig.sprpTrials).toFinset).card)
    (hf : 2 * Nat.log 2 n ≤ fuel) : ∃ r, factors bld none b.iter rng fuel k n config = .ok r := by
  have hpr : ∀ p ∈ b.iter, p.Prime := h.prime_of_mem
  have h1 : 1 ≤ n := by omega
  obtain ⟨⟨m, e⟩, hv⟩ := C37_trial_division_returns none b.iter n (config.getD .default).tdLimit h1 hpr (fun _ _ => rfl)
    (fun _ _ => rfl) rfl
  have h128 : ¬ n < 2 ^ 128 := by omega
  simp only [factors, factorsWith, h128, if_false, hv, Res.bind_ok]
  obtain ⟨lim, -, hF, -⟩ := trialDivision_inv h1 hpr hv
  cases e with
  | ok r => exact ⟨_, rfl⟩
  | error r =>
    simp only [residual] at hF
    have hrn : r ≤ n := Nat.le_of_dvd h1 ⟨mapProd m, by rw [Nat.mul_comm]; exact hF.prod⟩
    obtain ⟨x, hx⟩ := factorsLoop_returns (bld := bld) (list := b.iter) (rng := rng) (pc := (config.getD .default).primalityConfig)
      (fun t j => C14_is_prime_returns bld none (Or.inl rfl) b.iter t rfl _ _ (hen j))
      (find := fun target trials k => divisor none b.iter rng k target (some 0) trials)
      (fun t tr k ht => by
        obtain ⟨o, tr', k', c1, c2, c3⟩ := divisorRho_divisor (rng := rng) ht tr k
        exact ⟨o, tr', k', (divisor_eq_rho (Or.inl rfl) ht rfl (Or.inr h.inv.cons_two) rng k (some 0) tr).trans c1, c3⟩)
      fuel (config.getD .default).rhoTrials k [r] m [] (by simpa using Nat.one_le_iff_ne_zero.mpr hF.rpos.ne')
      (by have := Nat.log_mono_right (b := 2) hrn
          have h2 : 1 ≤ Nat.log 2 n := Nat.log_pos (by norm_num) (by omega)
          simp only [rounds, List.map_cons, List.sum_cons, List.map_nil, List.sum_nil]; omega)
    exact ⟨(x.1, if x.2.1 = [] then none else some x.2.1, x.2.2), by simp only [hx, Res.bind_ok, Res.pure_def]⟩

/-! ## factorize -/

/-- **C48** whenever `factorize` returns, the product of the map is the target; keys are increasing, with positive exponents,
and have passed the primality test -/
theorem C48_factorize_product (bld : Build) (o : Estimates) (g f : ℕ) (b : Buf) (h : Reachable bld o g f b) (w : Width)
    (rng : Rng) (fuel attempts k n : ℕ) (hn : 1 ≤ n) (m : List (ℕ × ℕ)) (k' : ℕ)
    (hr : factorize bld w b.iter rng fuel attempts k n = .ok (m, k')) :
    product m = n ∧ Ordered m ∧ (∀ x ∈ m, 0 < x.2) ∧ (∀ x ∈ m, PassesTest bld w b.iter rng none n x.1) := by
  induction attempts generalizing k with
  | zero => simp [factorize] at hr
  | succ a ih =>
    simp only [factorize, Res.bind_eq_ok] at hr
    obtain ⟨⟨m1, rest, k1⟩, h1, h2⟩ := hr
    cases rest with
    | some l => exact ih _ h2
    | none =>
      simp only [Res.pure_def, Res.ok.injEq, Prod.mk.injEq] at h2
      obtain ⟨rfl, rfl⟩ := h2
      obtain ⟨g1, g2, g3, g4, -⟩ := C47_factors_product bld o g f b h w rng fuel k n hn none m1 none k1 h1
      exact ⟨by simpa using g1, g2, g3, g4⟩

/-- **C48** the map is the prime factorization of the target if the numbers accepted by the primality test are primes -/
theorem C48_factorize_exact (bld : Build) (o : Estimates) (g f : ℕ) (b : Buf) (h : Reachable bld o g f b) (w : Width)
    (rng : Rng) (fuel attempts k n : ℕ) (hn : 1 ≤ n) (m : List (ℕ × ℕ)) (k' : ℕ)
    (hex : ∀ p, p ∣ n → PassesTest bld w b.iter rng none n p → p.Prime)
    (hr : factorize bld w b.iter rng fuel attempts k n = .ok (m, k')) : IsFactorization m n := by
  obtain ⟨g1, g2, g3, g4⟩ := C48_factorize_product bld o g f b h w rng fuel attempts k n hn m k' hr
  refine isFactorization_of g2 (fun x hx => hex x.1 ?_ (g4 x hx)) g3 g1
  rw [← g1]
  refine (dvd_pow_self x.1 (g3 x hx).ne').trans ?_
  exact List.dvd_prod (List.mem_map_of_mem (f := fun x : ℕ × ℕ => x.1 ^ x.2) hx)

-- complete and incomplete runs: Pollard's rho splits the cofactor; without rho trials it is reported as failed
example : factors .small none (Buf.new .small).iter exampleRng 200 0 (2 ^ 100 * 8999 * 1000003) none =
      .ok ([(2, 100), (8999, 1), (1000003, 1)], none, 5) ∧
    factors .small none (Buf.new .small).iter exampleRng 200 0 (2 ^ 100 * 8999 * 1000003)
      (some { FactorizationConfig.default with rhoTrials := 0 }) = .ok ([(2, 100)], some [8999026997], 1) ∧
    factorize .small none (Buf.new .small).iter exampleRng 200 1 0 (2 ^ 100 * 8999 * 1000003) =
      .ok ([(2, 100), (8999, 1), (1000003, 1)], 5) := by decide +kernel
-- the hypotheses of C47 are met by a new buffer
example : ∃ r, factors .small none (Buf.new .small).iter exampleRng 1100 0 ((2 ^ 521 - 1) * 9) none = .ok r :=
  C47_factors_returns .small exampleEstimates 0 0 _ ⟨[], rfl⟩ exampleRng 1100 0 _ (by decide +kernel) none
    (fun j => by
      have h1 : (exampleRng.draws j).toFinset.card = 5 := by
        rw [List.toFinset_card_of_nodup (by simp [exampleRng])]; rfl
      have h2 := Finset.le_card_sdiff ((Buf.new .small).iter.take
        (FactorizationConfig.default).primalityConfig.sprpTrials).toFinset (exampleRng.draws j).toFinset
      rw [h1] at h2
      exact le_trans (by decide +kernel) h2) (by
      have : Nat.log 2 ((2 ^ 521 - 1) * 9) < 550 := Nat.log_lt_of_lt_pow (by decide +kernel) (by decide +kernel)
      omega)

/-! ## C69 -/

/-- **C69** `factors` only calls `divisor` on numbers its primality test has rejected: replacing the call on all other numbers
by anything whatsoever does not change the outcome -/
theorem C69_factors_search (bld : Build) (o : Estimates) (g f : ℕ) (b : Buf) (h : Reachable bld o g f b) (w : Width)
    (rng : Rng) (fuel k n : ℕ) (config : Option FactorizationConfig)
    (find : ℕ → ℕ → ℕ → Res (Option ℕ × ℕ × ℕ))
    (hfind : ∀ t tr j, RejectedBy bld w b.iter rng (config.getD .default).primalityConfig t →
      find t tr j = divisor w b.iter rng j t (some 0) tr) :
    factorsWith bld w b.iter find rng fuel k n config = factors bld w b.iter rng fuel k n config := by
  have key : ∀ (f tr k : ℕ) (todo : List ℕ) (m : List (ℕ × ℕ)) (failed : List ℕ),
      factorsLoop bld w b.iter find rng (config.getD .default).primalityConfig f tr k todo m failed =
      factorsLoop bld w b.iter (fun target trials k => divisor w b.iter rng k target (some 0) trials) rng
        (config.getD .default).primalityConfig f tr k todo m failed := by
    intro f
    induction f with
    | zero => intro tr k todo m failed; cases todo <;> rfl
    | succ f ih =>
      intro tr k todo m failed
      cases todo with
      | nil => rfl
      | cons t todo =>
        simp only [factorsLoop]
        cases hv : isPrime bld w b.iter t (some (config.getD .default).primalityConfig) (rng.draws k) with
        | panic => rfl
        | timeout => rfl
        | ok v =>
          simp only [Res.bind_ok, ih]
          by_cases hp : v.probably = true
          · simp only [hp, if_true]
          · simp only [hp, if_false]
            rw [hfind t tr (k + 1) ⟨k, v, hv, by simpa using hp⟩]
  unfold factors factorsWith
  simp only [key]

end NumPrime
