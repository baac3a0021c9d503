import Verif.Props.Settled
import Verif.Model.ReleaseMoebius
import Verif.Model.ReleaseExamples
import Verif.Model.ReleaseNth
import Verif.Model.ReleaseRand

/-! # C115 for builds without overflow checks: the outcome of a call is settled -/

namespace NumPrime
open Spec Tables

/-! ## stepping -/

theorem nextPrimeLoopRel_settles (bld : Build) (b : ℕ) (config : Option PrimalityTestConfig) (draws : ℕ → List ℕ) :
    ∀ f f' t i, f ≤ f' → Settles (nextPrimeLoopRel bld b config draws f t i) (nextPrimeLoopRel bld b config draws f' t i)
  | 0, _, _, _, _ => Settles.timeout _
  | f + 1, 0, _, _, h => by omega
  | f + 1, f' + 1, t, i, h => by
    rw [nextPrimeLoopRel, nextPrimeLoopRel]
    exact .ite (.refl _) (.bind (.refl _) fun r => .ite (.refl _) (nextPrimeLoopRel_settles bld b config draws f f' _ _ (by omega)))

theorem prevPrimeLoopRel_settles (bld : Build) (b : ℕ) (config : Option PrimalityTestConfig) (draws : ℕ → List ℕ) :
    ∀ f f' t i, f ≤ f' → Settles (prevPrimeLoopRel bld b config draws f t i) (prevPrimeLoopRel bld b config draws f' t i)
  | 0, _, _, _, _ => Settles.timeout _
  | f + 1, 0, _, _, h => by omega
  | f + 1, f' + 1, t, i, h => by
    rw [prevPrimeLoopRel, prevPrimeLoopRel]
    exact .bind (.refl _) fun r => .ite (.refl _) (prevPrimeLoopRel_settles bld b config draws f f' _ _ (by omega))

/-- **C115** `next_prime` and `prev_prime` without overflow checks -/
theorem C115_stepping_release (bld : Build) (b n : ℕ) (config : Option PrimalityTestConfig) (draws : ℕ → List ℕ) (f f' : ℕ) (h : f ≤ f') :
    Settles (nextPrimeRel bld b n config draws f) (nextPrimeRel bld b n config draws f') ∧
    Settles (prevPrimeRel bld b n config draws f) (prevPrimeRel bld b n config draws f') := by
  constructor
  · cases bld <;> exact .ite (.refl _) (nextPrimeLoopRel_settles _ _ _ _ _ _ _ _ h)
  · exact .ite (.refl _) (.ite (.refl _) (prevPrimeLoopRel_settles _ _ _ _ _ _ _ _ h))

/-! ## factorization -/

theorem trySqufofRel_settles (bld : Build) (b target ratio : ℕ) {f f' : ℕ} (h : f ≤ f') :
    ∀ l, Settles (trySqufofRel bld b f target ratio l) (trySqufofRel bld b f' target ratio l)
  | [] => Settles.refl _
  | k :: ks => by
    rw [trySqufofRel, trySqufofRel]
    refine .ite (.bind (C115_squfof _ _ _ _ _ _ _ h) fun ⟨d, _⟩ => ?_) (trySqufofRel_settles bld b target ratio h ks)
    cases d with
    | none => exact trySqufofRel_settles bld b target ratio h ks
    | some p => exact .refl _

theorem tryMethodRel_settles (bld : Build) (b : ℕ) (rng : Rng) (target k i ratio : ℕ) {f f' : ℕ} (h : f ≤ f') :
    Settles (tryMethodRel bld b rng f target k i ratio) (tryMethodRel bld b rng f' target k i ratio) := by
  unfold tryMethodRel
  split
  · exact .refl _
  · exact .refl _
  · exact .mapR _ (trySqufofRel_settles _ _ _ _ h _)

theorem findDivisorRel_settles (bld : Build) (b : ℕ) (rng : Rng) (target : ℕ) {g g' : ℕ} (hg : g ≤ g') :
    ∀ f f' k i ratio, f ≤ f' → Settles (findDivisorRel bld b rng g target f k i ratio) (findDivisorRel bld b rng g' target f' k i ratio)
  | 0, _, _, _, _, _ => Settles.timeout _
  | f + 1, 0, _, _, _, h => by omega
  | f + 1, f' + 1, k, i, ratio, h => by
    rw [findDivisorRel, findDivisorRel]
    refine .bind (tryMethodRel_settles _ _ _ _ _ _ _ hg) fun ⟨d, k⟩ => ?_
    cases d with
    | none => exact findDivisorRel_settles bld b rng target hg f f' _ _ _ (by omega)
    | some d => exact .refl _

theorem searchRel_settles (bld : Build) (b : ℕ) (rng : Rng) {f f' : ℕ} (h : f ≤ f') (target k : ℕ) :
    Settles (searchRel bld b rng f target k) (searchRel bld b rng f' target k) := findDivisorRel_settles bld b rng target h _ _ _ _ _ h

/-- **C115** `factorize64` and `factorize128` without overflow checks -/
theorem C115_factorize_release (bld : Build) (rng : Rng) (k n f f' : ℕ) (h : f ≤ f') :
    Settles (factorize64Rel bld rng f k n) (factorize64Rel bld rng f' k n) ∧
    Settles (factorize128Rel bld rng f k n) (factorize128Rel bld rng f' k n) := by
  have h64 := factorize64With_settles bld (fun t k => searchRel_settles bld 64 rng h t k) h k n
  exact ⟨h64, .ite h64 (.bind (.refl _) fun _ => .bind (.refl _) fun ⟨_, _, _⟩ => .ite (.refl _)
    (.bind (.bind (advanced128Loop_settles bld (fun t k => searchRel_settles bld 128 rng h t k) _ _ _ _ _ h) fun ⟨_, _, _⟩ =>
      .bind (advanced64Loop_settles bld (fun t k => searchRel_settles bld 64 rng h t k) _ _ _ _ _ h) fun _ => .refl _) fun _ => .refl _))⟩

theorem factorizeRel_settles (bld : Build) (rng : Rng) {g g' : ℕ} (hg : g ≤ g') :
    ∀ f f' k n, f ≤ f' → Settles (factorizeRel bld rng g f k n) (factorizeRel bld rng g' f' k n)
  | 0, _, _, _, _ => Settles.timeout _
  | f + 1, 0, _, _, h => by omega
  | f + 1, f' + 1, k, n, h => by
    rw [factorizeRel, factorizeRel]
    refine .bind (.bind (C115_factorize_release bld rng k n g g' hg).2 fun _ => .refl _) fun ⟨m, rest, k⟩ => ?_
    cases rest with
    | none => exact .refl _
    | some _ => exact factorizeRel_settles bld rng hg f f' _ _ (by omega)

/-- **C115** `factors`, `factorize`, `moebius` and `is_square_free` on machine integers without overflow checks -/
theorem C115_moebius_release (bld : Build) (b : ℕ) (rng : Rng) (g g' f f' : ℕ) (hg : g ≤ g') (h : f ≤ f') (k n : ℕ) :
    Settles (factorsRel bld rng g k n) (factorsRel bld rng g' k n) ∧
    Settles (factorizeRel bld rng g f k n) (factorizeRel bld rng g' f' k n) ∧
    Settles (moebiusRel bld b rng g f k n) (moebiusRel bld b rng g' f' k n) ∧
    Settles (isSquareFreeRel bld b rng g f k n) (isSquareFreeRel bld b rng g' f' k n) := by
  have ho : ∀ n, Settles (moebiusOddPartRel bld b rng g f k n) (moebiusOddPartRel bld b rng g' f' k n) := fun n =>
    .ite (.refl _) (.ite (.refl _) (.bind (factorizeRel_settles bld rng hg _ _ _ _ h) fun _ => .refl _))
  have hm : Settles (moebiusRel bld b rng g f k n) (moebiusRel bld b rng g' f' k n) :=
    .ite (.ite (.refl _) (.bind (ho _) fun _ => .refl _)) (ho _)
  exact ⟨.bind (C115_factorize_release bld rng k n g g' hg).2 fun _ => .refl _, factorizeRel_settles bld rng hg _ _ _ _ h, hm,
    .bind hm fun _ => .refl _⟩

/-- **C115** the examples on divisors and prime factors without overflow checks -/
theorem C115_examples_release (bld : Build) (rng : Rng) (k n z f f' : ℕ) (h : f ≤ f') :
    Settles (divisorsRel bld rng f k n) (divisorsRel bld rng f' k n) ∧
    Settles (divisorSigmaRel bld rng f k n z) (divisorSigmaRel bld rng f' k n z) ∧
    Settles (primeOmegaRel bld rng f k n) (primeOmegaRel bld rng f' k n) ∧
    Settles (primeBigOmegaRel bld rng f k n) (primeBigOmegaRel bld rng f' k n) := by
  have h1 := (C115_factorize_release bld rng k n f f' h).1
  exact ⟨.mapR _ h1, .mapR _ (.mapR _ h1), .mapR _ h1, .mapR _ h1⟩

/-! ## counting -/

theorem nthPrimeEstLoopRel_settles (bld : Build) (b : ℕ) (o : Estimates) (target : ℕ) :
    ∀ f f' lo hi, f ≤ f' → Settles (nthPrimeEstLoopRel bld b o target f lo hi) (nthPrimeEstLoopRel bld b o target f' lo hi)
  | 0, _, _, _, _ => Settles.timeout _
  | f + 1, 0, _, _, h => by omega
  | f + 1, f' + 1, lo, hi, h => by
    have ih := nthPrimeEstLoopRel_settles bld b o target f f'
    rw [nthPrimeEstLoopRel, nthPrimeEstLoopRel]
    exact .ite (.refl _) (.bind (.refl _) fun _ => .ite (ih _ _ (by omega)) (.ite (ih _ _ (by omega)) (.refl _)))

theorem nthPrimeEstRel_settles (bld : Build) (b : ℕ) (o : Estimates) (n f f' : ℕ) (h : f ≤ f') :
    Settles (nthPrimeEstRel bld b o n f) (nthPrimeEstRel bld b o n f') := by
  refine .bind (.refl _) fun r => ?_
  cases r with
  | none => exact .refl _
  | some r => exact .ite (.refl _) (nthPrimeEstLoopRel_settles _ _ _ _ _ _ _ _ h)

theorem nthWalkDownRel_settles (bld : Build) (n : ℕ) {g g' : ℕ} (hg : g ≤ g') :
    ∀ f f' x p, f ≤ f' → Settles (nthWalkDownRel bld g n f x p) (nthWalkDownRel bld g' n f' x p)
  | 0, _, _, _, _ => Settles.timeout _
  | f + 1, 0, _, _, h => by omega
  | f + 1, f' + 1, x, p, h => by
    rw [nthWalkDownRel, nthWalkDownRel]
    refine .ite (.bind (C115_stepping_release _ _ _ _ _ _ _ hg).2 fun r => ?_) (.refl _)
    cases r with
    | none => exact .refl _
    | some x => exact nthWalkDownRel_settles bld n hg f f' _ _ (by omega)

theorem nthWalkUpRel_settles (bld : Build) (n : ℕ) {g g' : ℕ} (hg : g ≤ g') :
    ∀ f f' x p, f ≤ f' → Settles (nthWalkUpRel bld g n f x p) (nthWalkUpRel bld g' n f' x p)
  | 0, _, _, _, _ => Settles.timeout _
  | f + 1, 0, _, _, h => by omega
  | f + 1, f' + 1, x, p, h => by
    rw [nthWalkUpRel, nthWalkUpRel]
    refine .ite (.bind (C115_stepping_release _ _ _ _ _ _ _ hg).1 fun r => ?_) (.refl _)
    cases r with
    | none => exact .refl _
    | some x => exact nthWalkUpRel_settles bld n hg f f' _ _ (by omega)

theorem nthPrimeWithRel_settles (bld : Build) (o : Estimates) {g g' : ℕ} (hg : g ≤ g') {pi pi' : Buf → ℕ → Res (ℕ × Buf)}
    (hp : ∀ b x, Settles (pi b x) (pi' b x)) (b : Buf) (n : ℕ) :
    Settles (nthPrimeWithRel bld o g pi b n) (nthPrimeWithRel bld o g' pi' b n) := by
  refine .ite (.refl _) (.ite (.refl _) (.bind (nthPrimeEstRel_settles _ _ _ _ _ _ hg) fun r => ?_))
  cases r with
  | none => exact .refl _
  | some e =>
    refine .bind (C115_stepping_release _ _ _ _ _ _ _ hg).2 fun r => ?_
    cases r with
    | none => exact .refl _
    | some x =>
      exact .bind (hp _ _) fun _ => .bind (nthWalkDownRel_settles bld n hg _ _ _ _ hg) fun _ =>
        .bind (nthWalkUpRel_settles bld n hg _ _ _ _ hg) fun _ => .refl _

theorem primePhiRel_settles {nth nth' : Buf → ℕ → Res (ℕ × Buf)} (hn : ∀ b x, Settles (nth b x) (nth' b x)) :
    ∀ a b c x, Settles (primePhiRel nth a b c x) (primePhiRel nth' a b c x)
  | 0, b, c, x => by rw [primePhiRel, primePhiRel]; exact .refl _
  | a + 1, b, c, x => by
    have ih := primePhiRel_settles hn a
    rw [primePhiRel, primePhiRel]
    refine .ite (.refl _) ?_
    cases c.get (x, a + 1) with
    | some r => exact .refl _
    | none => exact .bind (ih _ _ _) fun _ => .bind (hn _ _) fun _ => .bind (.refl _) fun _ => .bind (ih _ _ _) fun _ => .refl _

theorem piInnerRel_settles {pi pi' nth nth' : Buf → ℕ → Res (ℕ × Buf)} (hp : ∀ b x, Settles (pi b x) (pi' b x))
    (hn : ∀ b x, Settles (nth b x) (nth' b x)) (w : ℕ) : ∀ l b sum, Settles (piInnerRel pi nth w l b sum) (piInnerRel pi' nth' w l b sum)
  | [], _, _ => Settles.refl _
  | j :: js, b, sum => by
    rw [piInnerRel, piInnerRel]
    exact .bind (hn _ _) fun _ => .bind (.refl _) fun _ => .bind (hp _ _) fun _ => piInnerRel_settles hp hn w js _ _

theorem piOuterRel_settles {pi pi' nth nth' : Buf → ℕ → Res (ℕ × Buf)} (hp : ∀ b x, Settles (pi b x) (pi' b x))
    (hn : ∀ b x, Settles (nth b x) (nth' b x)) (limit c : ℕ) :
    ∀ l b sum, Settles (piOuterRel pi nth limit c l b sum) (piOuterRel pi' nth' limit c l b sum)
  | [], _, _ => Settles.refl _
  | i :: is, b, sum => by
    have ih := piOuterRel_settles hp hn limit c is
    rw [piOuterRel, piOuterRel]
    exact .bind (hn _ _) fun _ => .bind (.refl _) fun _ => .bind (hp _ _) fun _ =>
      .ite (.bind (hp _ _) fun _ => .bind (piInnerRel_settles hp hn _ _ _ _) fun _ => ih _ _) (ih _ _)

/-- **C115** `prime_pi` of a buffer without overflow checks -/
theorem C115_prime_pi_release (bld : Build) (o : Estimates) (g g' : ℕ) (hg : g ≤ g') :
    ∀ f f' b n, f ≤ f' → Settles (primePiRel bld o g f b n) (primePiRel bld o g' f' b n)
  | 0, _, _, _, _ => Settles.timeout _
  | f + 1, 0, _, _, h => by omega
  | f + 1, f' + 1, b, n, h => by
    have ih := fun b x => C115_prime_pi_release bld o g g' hg f f' b x (by omega)
    have hn := nthPrimeWithRel_settles bld o hg ih
    rw [primePiRel, primePiRel]
    cases b.list.getLast? with
    | none => exact .refl _
    | some last =>
      exact .ite (.refl _) (.bind (.refl _) fun _ => .bind (ih _ _) fun _ => .bind (ih _ _) fun _ => .bind (ih _ _) fun _ =>
        .ite (.refl _) (.bind (primePhiRel_settles hn _ _ _ _) fun _ => piOuterRel_settles ih hn _ _ _ _ _))

/-- **C115** `nth_prime` and `prime_phi` of a buffer without overflow checks -/
theorem C115_nth_prime_phi_release (bld : Build) (o : Estimates) (g g' f f' : ℕ) (hg : g ≤ g') (h : f ≤ f') (b : Buf) (n x a : ℕ) (c : Cache) :
    Settles (b.nthPrimeRel bld o g f n) (b.nthPrimeRel bld o g' f' n) ∧
    Settles (primePhiRel (Buf.nthPrimeRel bld o g f) a b c x) (primePhiRel (Buf.nthPrimeRel bld o g' f') a b c x) :=
  have hn := nthPrimeWithRel_settles bld o hg fun b x => C115_prime_pi_release bld o g g' hg f f' b x h
  ⟨hn _ _, primePhiRel_settles hn _ _ _ _⟩

/-! ## random primes -/

/-- **C115** `gen_prime` and `gen_prime_exact` for the machine integers without overflow checks -/
theorem C115_gen_prime_release (bld : Build) (src : RandSource) (b : ℕ) (config : Option PrimalityTestConfig) (f f' bits k : ℕ) (h : f ≤ f') :
    Settles (genPrimePrimRel bld src b f bits k) (genPrimePrimRel bld src b f' bits k) ∧
    Settles (genPrimeExactPrimRel bld src b f bits k) (genPrimeExactPrimRel bld src b f' bits k) ∧
    Settles (genPrime128Rel bld src config f bits k) (genPrime128Rel bld src config f' bits k) ∧
    Settles (genPrimeExact128Rel bld src config f bits k) (genPrimeExact128Rel bld src config f' bits k) := by
  have key := fun b c k t => (C115_stepping_release bld b t c (src.draws k) f f' h).1
  exact ⟨.ite (.refl _) (genLoop_settles _ _ (key _ _) _ _ _ h), .ite (.refl _) (genLoop_settles _ _ (key _ _) _ _ _ h),
    .ite (.refl _) (genLoop_settles _ _ (key _ _) _ _ _ h), .ite (.refl _) (genLoop_settles _ _ (key _ _) _ _ _ h)⟩

/-- **C115** `gen_safe_prime` and `gen_safe_prime_exact` for the machine integers without overflow checks -/
theorem C115_gen_safe_prime_release (bld : Build) (src : RandSource) (b g g' bits : ℕ) (hg : g ≤ g') :
    ∀ f f' k, f ≤ f' →
      Settles (genSafePrimePrimRel bld src b g bits f k) (genSafePrimePrimRel bld src b g' bits f' k) ∧
      Settles (genSafePrimeExactPrimRel bld src b g bits f k) (genSafePrimeExactPrimRel bld src b g' bits f' k) ∧
      Settles (genSafePrime128Rel bld src g bits f k) (genSafePrime128Rel bld src g' bits f' k) ∧
      Settles (genSafePrimeExact128Rel bld src g bits f k) (genSafePrimeExact128Rel bld src g' bits f' k)
  | 0, _, _, _ => ⟨Settles.timeout _, Settles.timeout _, Settles.timeout _, Settles.timeout _⟩
  | f + 1, 0, _, h => by omega
  | f + 1, f' + 1, k, h => by
    have ih := fun k => C115_gen_safe_prime_release bld src b g g' bits hg f f' k (by omega)
    have hp := fun c k => C115_gen_prime_release bld src b c g g' bits k hg
    refine ⟨?_, ?_, ?_, ?_⟩
    · rw [genSafePrimePrimRel, genSafePrimePrimRel]
      exact .bind (hp none k).1 fun _ => .ite (.refl _) (.ite (.refl _) (ih _).1)
    · rw [genSafePrimeExactPrimRel, genSafePrimeExactPrimRel]
      exact .bind (hp none k).2.1 fun _ => .ite (.refl _) (ih _).2.1
    · rw [genSafePrime128Rel, genSafePrime128Rel]
      exact .bind (hp _ k).2.2.1 fun _ => .bind (.refl _) fun _ => .ite (.refl _) (.bind (.refl _) fun _ => .ite (.refl _) (ih _).2.2.1)
    · rw [genSafePrimeExact128Rel, genSafePrimeExact128Rel]
      exact .bind (hp _ k).2.2.2 fun _ => .bind (.refl _) fun _ => .ite (.refl _) (ih _).2.2.2

/-- **C115** without overflow checks, too, each call has at most one outcome -/
theorem C115_one_outcome_release (bld : Build) (b n k g f g' f' : ℕ) (rng : Rng) (o : Estimates) (buf : Buf)
    (config : Option PrimalityTestConfig) (draws : ℕ → List ℕ) :
    (nextPrimeRel bld b n config draws f ≠ .timeout → nextPrimeRel bld b n config draws f' ≠ .timeout →
      nextPrimeRel bld b n config draws f = nextPrimeRel bld b n config draws f') ∧
    (factorize64Rel bld rng f k n ≠ .timeout → factorize64Rel bld rng f' k n ≠ .timeout →
      factorize64Rel bld rng f k n = factorize64Rel bld rng f' k n) ∧
    (factorize128Rel bld rng f k n ≠ .timeout → factorize128Rel bld rng f' k n ≠ .timeout →
      factorize128Rel bld rng f k n = factorize128Rel bld rng f' k n) ∧
    (buf.nthPrimeRel bld o g f n ≠ .timeout → buf.nthPrimeRel bld o g' f' n ≠ .timeout →
      buf.nthPrimeRel bld o g f n = buf.nthPrimeRel bld o g' f' n) := by
  refine ⟨Settles.unique fun f f' h => (C115_stepping_release bld b n config draws f f' h).1,
    Settles.unique fun f f' h => (C115_factorize_release bld rng k n f f' h).1,
    Settles.unique fun f f' h => (C115_factorize_release bld rng k n f f' h).2, fun h1 h2 => ?_⟩
  have e1 : buf.nthPrimeRel bld o (max g g') (max f f') n = buf.nthPrimeRel bld o g f n :=
    (C115_nth_prime_phi_release bld o g _ f _ (Nat.le_max_left _ _) (Nat.le_max_left _ _) buf n 0 0 ⟨0, []⟩).1.resolve_left h1
  have e2 : buf.nthPrimeRel bld o (max g g') (max f f') n = buf.nthPrimeRel bld o g' f' n :=
    (C115_nth_prime_phi_release bld o g' _ f' _ (Nat.le_max_right _ _) (Nat.le_max_right _ _) buf n 0 0 ⟨0, []⟩).1.resolve_left h2
  rw [← e1, e2]

-- 2^8 - 5 = 251 is the last prime of `u8`: one round is enough to see that there is no next prime, and more rounds change nothing
example (f : ℕ) : nextPrimeRel .big 8 251 none (fun _ => []) (f + 1) = nextPrimeRel .big 8 251 none (fun _ => []) 1 :=
  ((C115_stepping_release .big 8 251 none (fun _ => []) 1 (f + 1) (by omega)).1.resolve_left (by decide +kernel))

end NumPrime
