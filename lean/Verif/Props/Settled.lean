import Verif.Model.Factorize
import Verif.Model.Moebius
import Verif.Model.Buffer
import Verif.Model.Estimate
import Verif.Model.Rand
import Verif.Model.Examples
import Verif.Proofs.Basic

/-! # C115: the outcome of a call is settled

The loops without a visible bound are modelled with a number of rounds after which the model gives up (`timeout`). A call that ends, with a
value or with a panic, ends in the same way for every larger number of rounds. So each call has at most one outcome, which is a function of
its arguments and the random words, and the bounds in the model are not part of it. In the same way the random words that a call does not
read do not matter. -/

namespace NumPrime

namespace Spec

/-- giving `r'` more rounds than `r` changes nothing unless `r` ran out of them -/
def Settles {α : Type} (r r' : Res α) : Prop := r = .timeout ∨ r' = r

end Spec
open Spec Tables

namespace Spec.Settles

theorem refl {α : Type} (r : Res α) : Settles r r := Or.inr rfl
theorem timeout {α : Type} (r : Res α) : Settles .timeout r := Or.inl rfl

theorem bind {α β : Type} {a a' : Res α} {k k' : α → Res β} (h : Settles a a') (hk : ∀ x, Settles (k x) (k' x)) :
    Settles (a >>= k) (a' >>= k') := by
  rcases h with h | h
  · left; rw [h]; rfl
  · subst h
    cases a' with
    | ok v => exact hk v
    | panic => exact Or.inr rfl
    | timeout => exact Or.inl rfl

theorem mapR {α β : Type} {a a' : Res α} (f : α → β) (h : Settles a a') : Settles (a.mapR f) (a'.mapR f) := by
  rcases h with h | h
  · left; rw [h]; rfl
  · right; rw [h]

theorem ite {α : Type} {c : Prop} [Decidable c] {a a' b b' : Res α} (h1 : Settles a a') (h2 : Settles b b') :
    Settles (if c then a else b) (if c then a' else b') := by
  split
  · exact h1
  · exact h2

/-- two outcomes of the same call are equal -/
theorem unique {α : Type} {F : ℕ → Res α} (h : ∀ f f', f ≤ f' → Settles (F f) (F f')) {f f' : ℕ} (h1 : F f ≠ .timeout)
    (h2 : F f' ≠ .timeout) : F f = F f' := by
  rcases Nat.le_total f f' with hf | hf
  · rcases h f f' hf with h3 | h3
    · exact absurd h3 h1
    · exact h3.symm
  · rcases h f' f hf with h3 | h3
    · exact absurd h3 h2
    · exact h3

end Spec.Settles

/-! ## stepping -/

theorem nextPrimeLoop_settles (bld : Build) (w : Width) (config : Option PrimalityTestConfig) (draws : ℕ → List ℕ) :
    ∀ f f' t i, f ≤ f' → Settles (nextPrimeLoop bld w config draws f t i) (nextPrimeLoop bld w config draws f' t i)
  | 0, _, _, _, _ => Settles.timeout _
  | f + 1, 0, _, _, h => by omega
  | f + 1, f' + 1, t, i, h => by
    rw [nextPrimeLoop, nextPrimeLoop]
    exact .ite (.refl _) (.bind (.refl _) fun r => .ite (.refl _) (nextPrimeLoop_settles bld w config draws f f' _ _ (by omega)))

theorem prevPrimeLoop_settles (bld : Build) (w : Width) (config : Option PrimalityTestConfig) (draws : ℕ → List ℕ) :
    ∀ f f' t i, f ≤ f' → Settles (prevPrimeLoop bld w config draws f t i) (prevPrimeLoop bld w config draws f' t i)
  | 0, _, _, _, _ => Settles.timeout _
  | f + 1, 0, _, _, h => by omega
  | f + 1, f' + 1, t, i, h => by
    rw [prevPrimeLoop, prevPrimeLoop]
    exact .bind (.refl _) fun t => .bind (.refl _) fun r => .ite (.refl _) (prevPrimeLoop_settles bld w config draws f f' _ _ (by omega))

/-- **C115** `next_prime` -/
theorem C115_next_prime (bld : Build) (w : Width) (n : ℕ) (config : Option PrimalityTestConfig) (draws : ℕ → List ℕ) (f f' : ℕ) (h : f ≤ f') :
    Settles (nextPrime bld w n config draws f) (nextPrime bld w n config draws f') := by
  cases bld <;> exact .ite (.refl _) (nextPrimeLoop_settles _ _ _ _ _ _ _ _ h)

/-- **C115** `prev_prime` -/
theorem C115_prev_prime (bld : Build) (w : Width) (n : ℕ) (config : Option PrimalityTestConfig) (draws : ℕ → List ℕ) (f f' : ℕ) (h : f ≤ f') :
    Settles (prevPrime bld w n config draws f) (prevPrime bld w n config draws f') :=
  .ite (.refl _) (.ite (.refl _) (prevPrimeLoop_settles _ _ _ _ _ _ _ _ h))

/-! ## factorization -/

theorem squfofBack_settles (w : Width) (rd : ℕ) : ∀ f f' u v vm1, f ≤ f' → Settles (squfofBack w rd f u v vm1) (squfofBack w rd f' u v vm1)
  | 0, _, _, _, _, _ => Settles.timeout _
  | f + 1, 0, _, _, _, h => by omega
  | f + 1, f' + 1, u, v, vm1, h => by
    rw [squfofBack, squfofBack]
    exact .bind (.refl _) fun ⟨a, b, c⟩ => .ite (.refl _) (squfofBack_settles w rd f f' _ _ _ (by omega))

theorem squfofForward_settles (bld : Build) (w : Width) (target mulTarget rd maxIter : ℕ) {g g' : ℕ} (hg : g ≤ g') :
    ∀ f i p q qm1, Settles (squfofForward bld w g target mulTarget rd maxIter f i p q qm1)
      (squfofForward bld w g' target mulTarget rd maxIter f i p q qm1)
  | 0, _, _, _, _ => Settles.refl _
  | f + 1, i, p, q, qm1 => by
    rw [squfofForward, squfofForward]
    refine .bind (.refl _) fun ⟨a, b, c⟩ => .bind (.refl _) fun r => ?_
    cases r with
    | none => exact squfofForward_settles bld w target mulTarget rd maxIter hg f _ _ _ _
    | some rq =>
      exact .bind (.refl _) fun d => .bind (.refl _) fun b => .bind (.refl _) fun t => .bind (.refl _) fun u => .bind (.refl _) fun uu =>
        .bind (.refl _) fun n => .bind (.refl _) fun v => .bind (squfofBack_settles w rd g g' _ _ _ hg) fun u =>
        .ite (.refl _) (squfofForward_settles bld w target mulTarget rd maxIter hg f _ _ _ _)

/-- **C115** `squfof` -/
theorem C115_squfof (bld : Build) (w : Width) (target mulTarget maxIter f f' : ℕ) (h : f ≤ f') :
    Settles (squfof bld w f target mulTarget maxIter) (squfof bld w f' target mulTarget maxIter) :=
  .ite (.refl _) (.bind (.refl _) fun _ => .bind (.refl _) fun _ => .ite (.refl _) (squfofForward_settles _ _ _ _ _ _ h _ _ _ _ _))

theorem trySqufof_settles (bld : Build) (b target ratio : ℕ) {f f' : ℕ} (h : f ≤ f') :
    ∀ l, Settles (trySqufof bld b f target ratio l) (trySqufof bld b f' target ratio l)
  | [] => Settles.refl _
  | k :: ks => by
    rw [trySqufof, trySqufof]
    refine .ite (.bind (.refl _) fun r2 => .bind (.refl _) fun m => .bind (C115_squfof _ _ _ _ _ _ _ h) fun ⟨d, _⟩ => ?_)
      (trySqufof_settles bld b target ratio h ks)
    cases d with
    | none => exact trySqufof_settles bld b target ratio h ks
    | some p => exact .refl _

theorem tryMethod_settles (bld : Build) (b : ℕ) (rng : Rng) (target k i ratio : ℕ) {f f' : ℕ} (h : f ≤ f') :
    Settles (tryMethod bld b rng f target k i ratio) (tryMethod bld b rng f' target k i ratio) := by
  unfold tryMethod
  split
  · exact .refl _
  · exact .refl _
  · exact .mapR _ (trySqufof_settles _ _ _ _ h _)

theorem findDivisor_settles (bld : Build) (b : ℕ) (rng : Rng) (target : ℕ) {g g' : ℕ} (hg : g ≤ g') :
    ∀ f f' k i ratio, f ≤ f' → Settles (findDivisor bld b rng g target f k i ratio) (findDivisor bld b rng g' target f' k i ratio)
  | 0, _, _, _, _, _ => Settles.timeout _
  | f + 1, 0, _, _, _, h => by omega
  | f + 1, f' + 1, k, i, ratio, h => by
    rw [findDivisor, findDivisor]
    refine .bind (tryMethod_settles _ _ _ _ _ _ _ hg) fun ⟨d, k⟩ => ?_
    cases d with
    | none => exact .bind (.refl _) fun ratio => findDivisor_settles bld b rng target hg f f' _ _ _ (by omega)
    | some d => exact .refl _

theorem search_settles (bld : Build) (b : ℕ) (rng : Rng) {f f' : ℕ} (h : f ≤ f') (target k : ℕ) :
    Settles (search bld b rng f target k) (search bld b rng f' target k) := findDivisor_settles bld b rng target h _ _ _ _ _ h

theorem advanced64Loop_settles (bld : Build) {find find' : ℕ → ℕ → Res (ℕ × ℕ)} (hf : ∀ t k, Settles (find t k) (find' t k)) :
    ∀ f f' k todo done, f ≤ f' → Settles (advanced64Loop bld find f k todo done) (advanced64Loop bld find' f' k todo done)
  | f, f', k, [], done, _ => by simp only [advanced64Loop]; exact .refl _
  | 0, _, _, _ :: _, _, _ => by rw [advanced64Loop]; exact .timeout _
  | f + 1, 0, _, _ :: _, _, h => by omega
  | f + 1, f' + 1, k, (target, exp) :: todo, done, h => by
    have ih := advanced64Loop_settles bld hf f f'
    rw [advanced64Loop, advanced64Loop]
    refine .ite (ih _ _ _ (by omega)) (.bind (.refl _) fun r => ?_)
    cases r with
    | some d => exact ih _ _ _ (by omega)
    | none =>
      cases cbrtExact bld (some 64) target with
      | some d => exact ih _ _ _ (by omega)
      | none => exact .bind (hf _ _) fun ⟨d, k⟩ => .bind (.refl _) fun q => ih _ _ _ (by omega)

theorem factorize64With_settles (bld : Build) {find find' : ℕ → ℕ → Res (ℕ × ℕ)} (hf : ∀ t k, Settles (find t k) (find' t k)) {f f' : ℕ}
    (h : f ≤ f') (k n : ℕ) : Settles (factorize64With bld find f k n) (factorize64With bld find' f' k n) :=
  .ite (.refl _) (.bind (.refl _) fun _ => .bind (.refl _) fun _ => .bind (.refl _) fun ⟨_, _, _⟩ => .ite (.refl _)
    (.bind (advanced64Loop_settles bld hf _ _ _ _ _ h) fun _ => .refl _))

/-- **C115** `factorize64` -/
theorem C115_factorize64 (bld : Build) (rng : Rng) (k n f f' : ℕ) (h : f ≤ f') :
    Settles (factorize64 bld rng f k n) (factorize64 bld rng f' k n) :=
  factorize64With_settles bld (fun t k => search_settles bld 64 rng h t k) h k n

theorem advanced128Loop_settles (bld : Build) {find find' : ℕ → ℕ → Res (ℕ × ℕ)} (hf : ∀ t k, Settles (find t k) (find' t k)) :
    ∀ f f' k todo done, f ≤ f' → Settles (advanced128Loop bld find f k todo done) (advanced128Loop bld find' f' k todo done)
  | f, f', k, ([], _), done, _ => by simp only [advanced128Loop]; exact .refl _
  | 0, _, _, (_ :: _, _), _, _ => by rw [advanced128Loop]; exact .timeout _
  | f + 1, 0, _, (_ :: _, _), _, h => by omega
  | f + 1, f' + 1, k, ((target, exp) :: todo, todo64), done, h => by
    have ih := advanced128Loop_settles bld hf f f'
    rw [advanced128Loop, advanced128Loop]
    refine .bind (.refl _) fun v => .ite (ih _ _ _ (by omega)) (.bind (.refl _) fun r => ?_)
    cases r with
    | some d => exact ih _ _ _ (by omega)
    | none =>
      cases cbrtExact bld (some 128) target with
      | some d => exact ih _ _ _ (by omega)
      | none => exact .bind (hf _ _) fun ⟨d, k⟩ => .bind (.refl _) fun q => ih _ _ _ (by omega)

/-- **C115** `factorize128` -/
theorem C115_factorize128 (bld : Build) (rng : Rng) (k n f f' : ℕ) (h : f ≤ f') :
    Settles (factorize128 bld rng f k n) (factorize128 bld rng f' k n) :=
  .ite (C115_factorize64 bld rng k n f f' h) (.bind (.refl _) fun _ => .bind (.refl _) fun ⟨_, _, _⟩ => .ite (.refl _)
    (.bind (.bind (advanced128Loop_settles bld (fun t k => search_settles bld 128 rng h t k) _ _ _ _ _ h) fun ⟨_, _, _⟩ =>
      .bind (advanced64Loop_settles bld (fun t k => search_settles bld 64 rng h t k) _ _ _ _ _ h) fun _ => .refl _) fun _ => .refl _))

theorem factorsLoop_settles (bld : Build) (w : Width) (list : List ℕ) (find : ℕ → ℕ → ℕ → Res (Option ℕ × ℕ × ℕ)) (rng : Rng)
    (pc : PrimalityTestConfig) : ∀ f f' trials k todo m failed, f ≤ f' →
      Settles (factorsLoop bld w list find rng pc f trials k todo m failed) (factorsLoop bld w list find rng pc f' trials k todo m failed)
  | f, f', _, k, [], m, failed, _ => by simp only [factorsLoop]; exact .refl _
  | 0, _, _, _, _ :: _, _, _, _ => by rw [factorsLoop]; exact .timeout _
  | f + 1, 0, _, _, _ :: _, _, _, h => by omega
  | f + 1, f' + 1, trials, k, target :: todo, m, failed, h => by
    have ih := factorsLoop_settles bld w list find rng pc f f'
    rw [factorsLoop, factorsLoop]
    refine .bind (.refl _) fun v => .ite (ih _ _ _ _ _ (by omega)) (.bind (.refl _) fun ⟨d, trials, k⟩ => ?_)
    cases d with
    | some d => exact .bind (.refl _) fun q => ih _ _ _ _ _ (by omega)
    | none => exact ih _ _ _ _ _ (by omega)

/-- **C115** `factors` -/
theorem C115_factors (bld : Build) (w : Width) (list : List ℕ) (rng : Rng) (k n : ℕ) (config : Option FactorizationConfig) (f f' : ℕ)
    (h : f ≤ f') : Settles (factors bld w list rng f k n config) (factors bld w list rng f' k n config) := by
  refine .ite (.bind (C115_factorize128 bld rng k n f f' h) fun _ => .refl _) (.bind (.refl _) fun ⟨m, r⟩ => ?_)
  cases r with
  | ok r => exact .refl _
  | error r => exact .bind (factorsLoop_settles _ _ _ _ _ _ _ _ _ _ _ _ _ h) fun _ => .refl _

/-- **C115** `factorize`, for the number of rounds in the loops and the number of attempts -/
theorem C115_factorize (bld : Build) (w : Width) (list : List ℕ) (rng : Rng) (g g' : ℕ) (hg : g ≤ g') :
    ∀ f f' k n, f ≤ f' → Settles (factorize bld w list rng g f k n) (factorize bld w list rng g' f' k n)
  | 0, _, _, _, _ => Settles.timeout _
  | f + 1, 0, _, _, h => by omega
  | f + 1, f' + 1, k, n, h => by
    rw [factorize, factorize]
    refine .bind (C115_factors _ _ _ _ _ _ _ _ _ hg) fun ⟨m, rest, k⟩ => ?_
    cases rest with
    | none => exact .refl _
    | some _ => exact C115_factorize bld w list rng g g' hg f f' _ _ (by omega)

theorem moebiusOddPart_settles (bld : Build) (w : Width) (rng : Rng) {g g' f f' : ℕ} (hg : g ≤ g') (h : f ≤ f') (k n : ℕ) :
    Settles (moebiusOddPart bld w rng g f k n) (moebiusOddPart bld w rng g' f' k n) :=
  .bind (.refl _) fun _ => .ite (.refl _) (.ite (.refl _) (.bind (C115_factorize _ _ _ _ _ _ hg _ _ _ _ h) fun _ => .refl _))

/-- **C115** `moebius` and `is_square_free` -/
theorem C115_moebius (bld : Build) (w : Width) (rng : Rng) (g g' f f' : ℕ) (hg : g ≤ g') (h : f ≤ f') (k n : ℕ) :
    Settles (moebius bld w rng g f k n) (moebius bld w rng g' f' k n) ∧
    Settles (isSquareFree bld w rng g f k n) (isSquareFree bld w rng g' f' k n) := by
  have h1 : Settles (moebius bld w rng g f k n) (moebius bld w rng g' f' k n) :=
    .ite (.ite (.refl _) (.bind (moebiusOddPart_settles bld w rng hg h _ _) fun _ => .refl _)) (moebiusOddPart_settles bld w rng hg h _ _)
  exact ⟨h1, .bind h1 fun _ => .refl _⟩

/-- **C115** the free function `factorize` -/
theorem C115_factorize_new (bld : Build) (w : Width) (rng : Rng) (g g' f f' : ℕ) (hg : g ≤ g') (h : f ≤ f') (k n : ℕ) :
    Settles (factorizeNew bld w rng g f k n) (factorizeNew bld w rng g' f' k n) := C115_factorize _ _ _ _ _ _ hg _ _ _ _ h

/-! ## counting -/

theorem nthPrimeEstLoop_settles (bld : Build) (w : Width) (o : Estimates) (target : ℕ) :
    ∀ f f' lo hi, f ≤ f' → Settles (nthPrimeEstLoop bld w o target f lo hi) (nthPrimeEstLoop bld w o target f' lo hi)
  | 0, _, _, _, _ => Settles.timeout _
  | f + 1, 0, _, _, h => by omega
  | f + 1, f' + 1, lo, hi, h => by
    have ih := nthPrimeEstLoop_settles bld w o target f f'
    rw [nthPrimeEstLoop, nthPrimeEstLoop]
    exact .bind (.refl _) fun _ => .ite (.refl _) (.bind (.refl _) fun _ => .bind (.refl _) fun _ =>
      .ite (ih _ _ (by omega)) (.ite (ih _ _ (by omega)) (.refl _)))

/-- **C115** `nth_prime_est` -/
theorem C115_nth_prime_est (bld : Build) (w : Width) (o : Estimates) (n f f' : ℕ) (h : f ≤ f') :
    Settles (nthPrimeEst bld w o n f) (nthPrimeEst bld w o n f') := by
  refine .bind (.refl _) fun r => ?_
  cases r with
  | none => exact .refl _
  | some r => exact .ite (.refl _) (nthPrimeEstLoop_settles _ _ _ _ _ _ _ _ h)

theorem nthWalkDown_settles (bld : Build) (n : ℕ) {g g' : ℕ} (hg : g ≤ g') :
    ∀ f f' x p, f ≤ f' → Settles (nthWalkDown bld g n f x p) (nthWalkDown bld g' n f' x p)
  | 0, _, _, _, _ => Settles.timeout _
  | f + 1, 0, _, _, h => by omega
  | f + 1, f' + 1, x, p, h => by
    rw [nthWalkDown, nthWalkDown]
    refine .ite (.bind (C115_prev_prime _ _ _ _ _ _ _ hg) fun r => ?_) (.refl _)
    cases r with
    | none => exact .refl _
    | some x => exact .bind (.refl _) fun _ => nthWalkDown_settles bld n hg f f' _ _ (by omega)

theorem nthWalkUp_settles (bld : Build) (n : ℕ) {g g' : ℕ} (hg : g ≤ g') :
    ∀ f f' x p, f ≤ f' → Settles (nthWalkUp bld g n f x p) (nthWalkUp bld g' n f' x p)
  | 0, _, _, _, _ => Settles.timeout _
  | f + 1, 0, _, _, h => by omega
  | f + 1, f' + 1, x, p, h => by
    rw [nthWalkUp, nthWalkUp]
    refine .ite (.bind (C115_next_prime _ _ _ _ _ _ _ hg) fun r => ?_) (.refl _)
    cases r with
    | none => exact .refl _
    | some x => exact .bind (.refl _) fun _ => nthWalkUp_settles bld n hg f f' _ _ (by omega)

theorem nthPrimeWith_settles (bld : Build) (o : Estimates) {g g' : ℕ} (hg : g ≤ g') {pi pi' : Buf → ℕ → Res (ℕ × Buf)}
    (hp : ∀ b x, Settles (pi b x) (pi' b x)) (b : Buf) (n : ℕ) :
    Settles (nthPrimeWith bld o g pi b n) (nthPrimeWith bld o g' pi' b n) := by
  refine .ite (.refl _) (.ite (.refl _) (.bind (C115_nth_prime_est _ _ _ _ _ _ hg) fun r => ?_))
  cases r with
  | none => exact .refl _
  | some e =>
    refine .bind (C115_prev_prime _ _ _ _ _ _ _ hg) fun r => ?_
    cases r with
    | none => exact .refl _
    | some x =>
      exact .bind (hp _ _) fun _ => .bind (nthWalkDown_settles bld n hg _ _ _ _ hg) fun _ =>
        .bind (nthWalkUp_settles bld n hg _ _ _ _ hg) fun _ => .refl _

theorem primePhiWith_settles {nth nth' : Buf → ℕ → Res (ℕ × Buf)} (hn : ∀ b x, Settles (nth b x) (nth' b x)) :
    ∀ a b c x, Settles (primePhiWith nth a b c x) (primePhiWith nth' a b c x)
  | 0, b, c, x => by rw [primePhiWith, primePhiWith]; exact .refl _
  | a + 1, b, c, x => by
    have ih := primePhiWith_settles hn a
    rw [primePhiWith, primePhiWith]
    refine .ite (.refl _) ?_
    cases c.get (x, a + 1) with
    | some r => exact .refl _
    | none => exact .bind (ih _ _ _) fun _ => .bind (hn _ _) fun _ => .bind (.refl _) fun _ => .bind (ih _ _ _) fun _ => .refl _

theorem piInner_settles {pi pi' nth nth' : Buf → ℕ → Res (ℕ × Buf)} (hp : ∀ b x, Settles (pi b x) (pi' b x))
    (hn : ∀ b x, Settles (nth b x) (nth' b x)) (w : ℕ) : ∀ l b sum, Settles (piInner pi nth w l b sum) (piInner pi' nth' w l b sum)
  | [], _, _ => Settles.refl _
  | j :: js, b, sum => by
    rw [piInner, piInner]
    exact .bind (hn _ _) fun _ => .bind (.refl _) fun _ => .bind (hp _ _) fun _ => .bind (.refl _) fun _ => piInner_settles hp hn w js _ _

theorem piOuter_settles {pi pi' nth nth' : Buf → ℕ → Res (ℕ × Buf)} (hp : ∀ b x, Settles (pi b x) (pi' b x))
    (hn : ∀ b x, Settles (nth b x) (nth' b x)) (limit c : ℕ) :
    ∀ l b sum, Settles (piOuter pi nth limit c l b sum) (piOuter pi' nth' limit c l b sum)
  | [], _, _ => Settles.refl _
  | i :: is, b, sum => by
    have ih := piOuter_settles hp hn limit c is
    rw [piOuter, piOuter]
    exact .bind (hn _ _) fun _ => .bind (.refl _) fun _ => .bind (hp _ _) fun _ => .bind (.refl _) fun _ =>
      .ite (.bind (hp _ _) fun _ => .bind (.refl _) fun _ => .bind (.refl _) fun _ => .bind (.refl _) fun _ => .bind (.refl _) fun _ =>
        .bind (.refl _) fun _ => .bind (.refl _) fun _ => .bind (.refl _) fun _ => .bind (piInner_settles hp hn _ _ _ _) fun _ => ih _ _)
        (ih _ _)

/-- **C115** `prime_pi` of a buffer, for the number of rounds in the loops and the depth of the recursion: answer and buffer -/
theorem C115_prime_pi (bld : Build) (o : Estimates) (g g' : ℕ) (hg : g ≤ g') :
    ∀ f f' b n, f ≤ f' → Settles (primePi bld o g f b n) (primePi bld o g' f' b n)
  | 0, _, _, _, _ => Settles.timeout _
  | f + 1, 0, _, _, h => by omega
  | f + 1, f' + 1, b, n, h => by
    have ih := fun b x => C115_prime_pi bld o g g' hg f f' b x (by omega)
    have hn := nthPrimeWith_settles bld o hg ih
    rw [primePi, primePi]
    cases b.list.getLast? with
    | none => exact .refl _
    | some last =>
      exact .ite (.refl _) (.bind (.refl _) fun _ => .bind (ih _ _) fun _ => .bind (ih _ _) fun _ => .bind (ih _ _) fun _ =>
        .ite (.refl _) (.bind (primePhiWith_settles hn _ _ _ _) fun _ => .bind (.refl _) fun _ => .bind (.refl _) fun _ =>
        .bind (.refl _) fun _ => .bind (.refl _) fun _ => .bind (.refl _) fun _ => .bind (.refl _) fun _ => piOuter_settles ih hn _ _ _ _ _))

/-- **C115** `nth_prime` and `prime_phi` of a buffer: answer, buffer and cache -/
theorem C115_nth_prime_phi (bld : Build) (o : Estimates) (g g' f f' : ℕ) (hg : g ≤ g') (h : f ≤ f') (b : Buf) (n x a : ℕ) (c : Cache) :
    Settles (b.nthPrime bld o g f n) (b.nthPrime bld o g' f' n) ∧ Settles (b.primePhi bld o g f x a c) (b.primePhi bld o g' f' x a c) :=
  have hn := nthPrimeWith_settles bld o hg fun b x => C115_prime_pi bld o g g' hg f f' b x h
  ⟨hn _ _, primePhiWith_settles hn _ _ _ _⟩

/-- **C115** the free functions `prime_pi` and `nth_prime` -/
theorem C115_prime_pi_nth_prime_new (bld : Build) (o : Estimates) (g g' f f' : ℕ) (hg : g ≤ g') (h : f ≤ f') (n : ℕ) :
    Settles (ntPrimePi bld o g f n) (ntPrimePi bld o g' f' n) ∧ Settles (ntNthPrime bld o g f n) (ntNthPrime bld o g' f' n) :=
  ⟨.mapR _ (C115_prime_pi bld o g g' hg f f' _ _ h), .mapR _ (C115_nth_prime_phi bld o g g' f f' hg h _ n 0 0 ⟨0, []⟩).1⟩

/-- **C115** any sequence of calls on a buffer -/
theorem C115_history (bld : Build) (o : Estimates) (g g' f f' : ℕ) (hg : g ≤ g') (h : f ≤ f') :
    ∀ ops b, Settles (Buf.run bld o g f b ops) (Buf.run bld o g' f' b ops)
  | [], _ => Settles.refl _
  | op :: ops, b => by
    rw [Buf.run, Buf.run]
    refine .bind ?_ fun b => C115_history bld o g g' f f' hg h ops b
    cases op with
    | nthPrime n => exact .mapR _ (C115_nth_prime_phi bld o g g' f f' hg h b n 0 0 ⟨0, []⟩).1
    | primePi l => exact .mapR _ (C115_prime_pi bld o g g' hg f f' _ _ h)
    | primePhi x a c => exact .mapR _ (C115_nth_prime_phi bld o g g' f f' hg h b 0 x a c).2
    | _ => exact .refl _

/-! ## random primes -/

theorem genLoop_settles (mk : ℕ → Res ℕ) (test : ℕ → ℕ → Res Bool) {next next' : ℕ → ℕ → Res (Option ℕ)}
    (hn : ∀ k t, Settles (next k t) (next' k t)) :
    ∀ f f' k, f ≤ f' → Settles (genLoop mk test next f k) (genLoop mk test next' f' k)
  | 0, _, _, _ => Settles.timeout _
  | f + 1, 0, _, h => by omega
  | f + 1, f' + 1, k, h => by
    rw [genLoop, genLoop]
    refine .bind (.refl _) fun t => .bind (.refl _) fun a => .ite (.refl _) (.bind (hn _ _) fun r => ?_)
    cases r with
    | some p => exact .refl _
    | none => exact genLoop_settles mk test hn f f' _ (by omega)

/-- **C115** `gen_prime` and `gen_prime_exact` for every integer type: the prime and the number of random words used -/
theorem C115_gen_prime (bld : Build) (src : RandSource) (b : ℕ) (config : Option PrimalityTestConfig) (f f' bits k : ℕ) (h : f ≤ f') :
    Settles (genPrimePrim bld src b f bits k) (genPrimePrim bld src b f' bits k) ∧
    Settles (genPrimeExactPrim bld src b f bits k) (genPrimeExactPrim bld src b f' bits k) ∧
    Settles (genPrime128 bld src config f bits k) (genPrime128 bld src config f' bits k) ∧
    Settles (genPrimeExact128 bld src config f bits k) (genPrimeExact128 bld src config f' bits k) ∧
    Settles (genPrimeBig bld src config f bits k) (genPrimeBig bld src config f' bits k) ∧
    Settles (genPrimeExactBig bld src config f bits k) (genPrimeExactBig bld src config f' bits k) := by
  have key := fun w c k t => C115_next_prime bld w t c (src.draws k) f f' h
  exact ⟨.ite (.refl _) (genLoop_settles _ _ (key _ _) _ _ _ h), .ite (.refl _) (genLoop_settles _ _ (key _ _) _ _ _ h),
    .ite (.refl _) (genLoop_settles _ _ (key _ _) _ _ _ h), .ite (.refl _) (genLoop_settles _ _ (key _ _) _ _ _ h),
    genLoop_settles _ _ (key _ _) _ _ _ h, genLoop_settles _ _ (key _ _) _ _ _ h⟩

/-- **C115** `gen_safe_prime` for every integer type -/
theorem C115_gen_safe_prime (bld : Build) (src : RandSource) (b g g' bits : ℕ) (hg : g ≤ g') :
    ∀ f f' k, f ≤ f' →
      Settles (genSafePrimePrim bld src b g bits f k) (genSafePrimePrim bld src b g' bits f' k) ∧
      Settles (genSafePrime128 bld src g bits f k) (genSafePrime128 bld src g' bits f' k) ∧
      Settles (genSafePrimeBig bld src g bits f k) (genSafePrimeBig bld src g' bits f' k)
  | 0, _, _, _ => ⟨Settles.timeout _, Settles.timeout _, Settles.timeout _⟩
  | f + 1, 0, _, h => by omega
  | f + 1, f' + 1, k, h => by
    have ih := fun k => C115_gen_safe_prime bld src b g g' bits hg f f' k (by omega)
    have hp := fun c k => C115_gen_prime bld src b c g g' bits k hg
    refine ⟨?_, ?_, ?_⟩
    · rw [genSafePrimePrim, genSafePrimePrim]
      exact .bind (hp none k).1 fun _ => .ite (.refl _) (.ite (.refl _) (ih _).1)
    · rw [genSafePrime128, genSafePrime128]
      exact .bind (hp _ k).2.2.1 fun _ => .bind (.refl _) fun _ => .ite (.refl _) (.bind (.refl _) fun _ => .ite (.refl _) (ih _).2.1)
    · rw [genSafePrimeBig, genSafePrimeBig]
      exact .bind (hp _ k).2.2.2.2.1 fun _ => .bind (.refl _) fun _ => .ite (.refl _) (.bind (.refl _) fun _ => .ite (.refl _) (ih _).2.2)

/-- **C115** `gen_safe_prime_exact` for every integer type -/
theorem C115_gen_safe_prime_exact (bld : Build) (src : RandSource) (b g g' bits : ℕ) (hg : g ≤ g') :
    ∀ f f' k, f ≤ f' →
      Settles (genSafePrimeExactPrim bld src b g bits f k) (genSafePrimeExactPrim bld src b g' bits f' k) ∧
      Settles (genSafePrimeExact128 bld src g bits f k) (genSafePrimeExact128 bld src g' bits f' k) ∧
      Settles (genSafePrimeExactBig bld src g bits f k) (genSafePrimeExactBig bld src g' bits f' k)
  | 0, _, _, _ => ⟨Settles.timeout _, Settles.timeout _, Settles.timeout _⟩
  | f + 1, 0, _, h => by omega
  | f + 1, f' + 1, k, h => by
    have ih := fun k => C115_gen_safe_prime_exact bld src b g g' bits hg f f' k (by omega)
    have hp := fun c k => C115_gen_prime bld src b c g g' bits k hg
    refine ⟨?_, ?_, ?_⟩
    · rw [genSafePrimeExactPrim, genSafePrimeExactPrim]
      exact .bind (hp none k).2.1 fun _ => .ite (.refl _) (ih _).1
    · rw [genSafePrimeExact128, genSafePrimeExact128]
      exact .bind (hp _ k).2.2.2.1 fun _ => .bind (.refl _) fun _ => .ite (.refl _) (ih _).2.1
    · rw [genSafePrimeExactBig, genSafePrimeExactBig]
      exact .bind (hp _ k).2.2.2.2.2 fun _ => .bind (.refl _) fun _ => .ite (.refl _) (ih _).2.2

/-! ## the examples -/

/-- **C115** the functions of the divisor and prime-omega examples -/
theorem C115_divisors_omega (bld : Build) (rng : Rng) (k n z f f' : ℕ) (h : f ≤ f') :
    Settles (divisors bld rng f k n) (divisors bld rng f' k n) ∧ Settles (divisorSigma bld rng f k n z) (divisorSigma bld rng f' k n z) ∧
    Settles (primeOmega bld rng f k n) (primeOmega bld rng f' k n) ∧
    Settles (primeBigOmega bld rng f k n) (primeBigOmega bld rng f' k n) := by
  have h1 := C115_factorize64 bld rng k n f f' h
  have h2 : Settles (divisors bld rng f k n) (divisors bld rng f' k n) := .bind h1 fun _ => .refl _
  exact ⟨h2, .bind h2 fun _ => .refl _, .mapR _ h1, .mapR _ h1⟩

theorem luckyLoop_settles : ∀ f f' k l, f ≤ f' → Settles (luckyLoop f k l) (luckyLoop f' k l)
  | 0, _, _, _, _ => Settles.timeout _
  | f + 1, 0, _, _, h => by omega
  | f + 1, f' + 1, k, l, h => by
    rw [luckyLoop, luckyLoop]
    refine .ite ?_ (.refl _)
    cases l[k]? with
    | none => exact .refl _
    | some s => exact .ite (.refl _) (luckyLoop_settles f f' _ _ (by omega))

/-- **C115** the lucky numbers and the lucky primes -/
theorem C115_lucky (bld : Build) (f f' limit : ℕ) (h : f ≤ f') :
    Settles (listLuckyNumbers f limit) (listLuckyNumbers f' limit) ∧ Settles (listLuckyPrimes bld f limit) (listLuckyPrimes bld f' limit) := by
  have h1 := luckyLoop_settles f f' 1 (rangeStep 1 limit 2) h
  exact ⟨h1, .mapR _ h1⟩

/-! ## random words

The words of the random generator are a list in the model of the primality test, which gives `timeout` at its end. -/

theorem drawWitnesses_settles (more : List ℕ) : ∀ ds k wl, Settles (drawWitnesses ds k wl) (drawWitnesses (ds ++ more) k wl)
  | ds, 0, wl => by rw [drawWitnesses, drawWitnesses]; exact .refl _
  | [], k + 1, wl => Settles.timeout _
  | d :: ds, k + 1, wl => by
    rw [List.cons_append, drawWitnesses, drawWitnesses]
    exact .ite (drawWitnesses_settles more ds _ _) (drawWitnesses_settles more ds _ _)

/-- **C115** a primality test that ends after reading some random words does not depend on the words that would have followed -/
theorem C115_is_prime (bld : Build) (w : Width) (list : List ℕ) (n : ℕ) (config : Option PrimalityTestConfig) (ds more : List ℕ) :
    Settles (isPrime bld w list n config ds) (isPrime bld w list n config (ds ++ more)) :=
  .ite (.refl _) (.ite (.refl _) (.bind (drawWitnesses_settles more _ _ _) fun _ => .refl _))

/-- **C115** the same for a number in Montgomery form -/
theorem C115_is_prime_mint (bld : Build) (w : Width) (list : List ℕ) (n : Mint) (config : Option PrimalityTestConfig) (ds more : List ℕ) :
    Settles (mIsPrime bld w list n config ds) (mIsPrime bld w list n config (ds ++ more)) := by
  refine .ite (.refl _) ?_
  cases n.toU64 with
  | some x => exact .refl _
  | none => exact .bind (drawWitnesses_settles more _ _ _) fun _ => .refl _

/-- **C115** and for `is_safe_prime`, with its two tests -/
theorem C115_is_safe_prime (bld : Build) (w : Width) (n : ℕ) (ds more ds' more' : List ℕ) :
    Settles (isSafePrime bld w n ds ds') (isSafePrime bld w n (ds ++ more) (ds' ++ more')) := by
  refine .bind (C115_is_prime _ _ _ _ _ _ _) fun r => ?_
  cases r with
  | no => exact .refl _
  | yes => exact .bind (C115_is_prime _ _ _ _ _ _ _) fun _ => .refl _
  | probable p => exact .bind (C115_is_prime _ _ _ _ _ _ _) fun _ => .refl _

theorem nextPrimeLoop_words (bld : Build) (w : Width) (config : Option PrimalityTestConfig) (draws more : ℕ → List ℕ) :
    ∀ f t i, Settles (nextPrimeLoop bld w config draws f t i) (nextPrimeLoop bld w config (fun t => draws t ++ more t) f t i)
  | 0, _, _ => Settles.timeout _
  | f + 1, t, i => by
    rw [nextPrimeLoop, nextPrimeLoop]
    exact .ite (.refl _) (.bind (C115_is_prime _ _ _ _ _ _ _) fun r => .ite (.refl _) (nextPrimeLoop_words bld w config draws more f _ _))

theorem prevPrimeLoop_words (bld : Build) (w : Width) (config : Option PrimalityTestConfig) (draws more : ℕ → List ℕ) :
    ∀ f t i, Settles (prevPrimeLoop bld w config draws f t i) (prevPrimeLoop bld w config (fun t => draws t ++ more t) f t i)
  | 0, _, _ => Settles.timeout _
  | f + 1, t, i => by
    rw [prevPrimeLoop, prevPrimeLoop]
    exact .bind (.refl _) fun t => .bind (C115_is_prime _ _ _ _ _ _ _) fun r => .ite (.refl _)
      (prevPrimeLoop_words bld w config draws more f _ _)

/-- **C115** `next_prime` and `prev_prime`: the words that the tests of the candidates leave unread do not matter -/
theorem C115_stepping_words (bld : Build) (w : Width) (n : ℕ) (config : Option PrimalityTestConfig) (draws more : ℕ → List ℕ) (f : ℕ) :
    Settles (nextPrime bld w n config draws f) (nextPrime bld w n config (fun t => draws t ++ more t) f) ∧
    Settles (prevPrime bld w n config draws f) (prevPrime bld w n config (fun t => draws t ++ more t) f) :=
  ⟨by cases bld <;> exact .ite (.refl _) (nextPrimeLoop_words _ _ _ _ _ _ _ _),
    .ite (.refl _) (.ite (.refl _) (prevPrimeLoop_words _ _ _ _ _ _ _ _))⟩

/-- two random rounds for `2^64 + 13`: the repeated word 7 is skipped, 11 is the second base, whatever follows is not read -/
example (more : List ℕ) : isPrime .small (some 128) [2, 3] (2 ^ 64 + 13) (some ⟨1, 2, false, false⟩) ([7, 7, 11] ++ more) =
    isPrime .small (some 128) [2, 3] (2 ^ 64 + 13) (some ⟨1, 2, false, false⟩) [7, 7, 11] ∧
    (isPrime .small (some 128) [2, 3] (2 ^ 64 + 13) (some ⟨1, 2, false, false⟩) [7, 7, 11]).mapR Primality.probably = .ok true := by
  have h1 : (isPrime .small (some 128) [2, 3] (2 ^ 64 + 13) (some ⟨1, 2, false, false⟩) [7, 7, 11]).mapR Primality.probably = .ok true := by
    decide +kernel
  refine ⟨(C115_is_prime _ _ _ _ _ _ _).resolve_left ?_, h1⟩
  intro h
  rw [h] at h1
  exact nomatch h1

/-! ## one outcome -/

/-- **C115** two runs of the same factorization of `n` that both end, whatever the bounds, end in the same way -/
theorem C115_one_outcome_factorize (bld : Build) (w : Width) (rng : Rng) (k n g f g' f' : ℕ)
    (h1 : factorizeNew bld w rng g f k n ≠ .timeout) (h2 : factorizeNew bld w rng g' f' k n ≠ .timeout) :
    factorizeNew bld w rng g f k n = factorizeNew bld w rng g' f' k n := by
  have a := C115_factorize_new bld w rng g (max g g') f (max f f') (by omega) (by omega) k n
  have b := C115_factorize_new bld w rng g' (max g g') f' (max f f') (by omega) (by omega) k n
  exact (a.resolve_left h1).symm.trans (b.resolve_left h2)

/-- **C115** two runs of `prime_pi`, or of `nth_prime`, that both end, end in the same way -/
theorem C115_one_outcome_counting (bld : Build) (o : Estimates) (n g f g' f' : ℕ) :
    (ntPrimePi bld o g f n ≠ .timeout → ntPrimePi bld o g' f' n ≠ .timeout → ntPrimePi bld o g f n = ntPrimePi bld o g' f' n) ∧
    (ntNthPrime bld o g f n ≠ .timeout → ntNthPrime bld o g' f' n ≠ .timeout → ntNthPrime bld o g f n = ntNthPrime bld o g' f' n) := by
  have a := C115_prime_pi_nth_prime_new bld o g (max g g') f (max f f') (by omega) (by omega) n
  have b := C115_prime_pi_nth_prime_new bld o g' (max g g') f' (max f f') (by omega) (by omega) n
  exact ⟨fun h1 h2 => (a.1.resolve_left h1).symm.trans (b.1.resolve_left h2), fun h1 h2 => (a.2.resolve_left h1).symm.trans (b.2.resolve_left h2)⟩

/-- **C115** two runs of `next_prime`, or of `prev_prime`, that both end, end in the same way -/
theorem C115_one_outcome_stepping (bld : Build) (w : Width) (n : ℕ) (config : Option PrimalityTestConfig) (draws : ℕ → List ℕ) (f f' : ℕ) :
    (nextPrime bld w n config draws f ≠ .timeout → nextPrime bld w n config draws f' ≠ .timeout →
      nextPrime bld w n config draws f = nextPrime bld w n config draws f') ∧
    (prevPrime bld w n config draws f ≠ .timeout → prevPrime bld w n config draws f' ≠ .timeout →
      prevPrime bld w n config draws f = prevPrime bld w n config draws f') :=
  ⟨Settles.unique (C115_next_prime bld w n config draws), Settles.unique (C115_prev_prime bld w n config draws)⟩

/-- `next_prime(1000000)`: one candidate is not enough, two are, and from two on nothing changes -/
example : nextPrime .small (some 64) 1000000 none (fun _ => []) 1 = .timeout ∧
    (∀ f, 2 ≤ f → nextPrime .small (some 64) 1000000 none (fun _ => []) f = .ok (some 1000003)) := by
  have h1 : nextPrime .small (some 64) 1000000 none (fun _ => []) 2 = .ok (some 1000003) := by decide +kernel
  refine ⟨by decide +kernel, fun f hf => ?_⟩
  have h := (C115_next_prime .small (some 64) 1000000 none (fun _ => []) 2 f hf).resolve_left (by rw [h1]; exact nofun)
  rw [h, h1]

/-- the lucky numbers below 40 need six rounds, and more rounds change nothing -/
example : listLuckyNumbers 2 40 = .timeout ∧ ∀ f, 6 ≤ f → listLuckyNumbers f 40 = .ok [1, 3, 7, 9, 13, 15, 21, 25, 31, 33, 37] := by
  have h1 : listLuckyNumbers 6 40 = .ok [1, 3, 7, 9, 13, 15, 21, 25, 31, 33, 37] := by decide +kernel
  refine ⟨by decide +kernel, fun f hf => ?_⟩
  have h := (C115_lucky .small 6 f 40 hf).1.resolve_left (by rw [h1]; exact nofun)
  rw [h, h1]

/-- a panic is settled as well: `gen_safe_prime` for `u8` and 9 bits -/
example (src : RandSource) : ∀ f, 1 ≤ f → genSafePrimePrim .small src 8 3 9 f 0 = .panic := by
  intro f hf
  have h1 : genSafePrimePrim .small src 8 3 9 1 0 = .panic := rfl
  have h := (C115_gen_safe_prime .small src 8 3 3 9 le_rfl 1 f 0 hf).1.resolve_left (by rw [h1]; exact nofun)
  rw [h, h1]

end NumPrime
