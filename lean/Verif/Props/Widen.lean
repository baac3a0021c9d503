import Verif.Model.Moebius
import Verif.Proofs.Roots

/-! # C110: computing in a wider integer type never changes an answer

If a call returns normally in one integer type, the same call in a wider type returns the same value. -/

namespace NumPrime

/-- `w'` is at least as wide as `w`: a machine type with at least as many bits, or arbitrary precision -/
def Spec.Wider (w w' : Width) : Prop := w' = none ∨ ∃ a b, w = some a ∧ w' = some b ∧ a ≤ b

open Spec

theorem Wider.fits {w w' : Width} (h : Wider w w') {x : ℕ} (hx : fits w x = true) : NumPrime.fits w' x = true := by
  rcases h with rfl | ⟨a, b, rfl, rfl, hab⟩
  · rfl
  · simp only [NumPrime.fits, decide_eq_true_eq] at hx ⊢
    exact lt_of_lt_of_le hx (Nat.pow_le_pow_right (by norm_num) hab)

/-- every normal result of `r` is the result of `r'` -/
def Ref {α : Type} (r r' : Res α) : Prop := ∀ v, r = .ok v → r' = .ok v

theorem Ref.rfl {α : Type} {r : Res α} : Ref r r := fun _ h => h

theorem Ref.bind {α β : Type} {r r' : Res α} {f f' : α → Res β} (h : Ref r r') (hf : ∀ a, r = .ok a → Ref (f a) (f' a)) :
    Ref (r >>= f) (r' >>= f') := by
  intro v hv
  obtain ⟨a, h1, h2⟩ := Res.bind_eq_ok.mp hv
  exact Res.bind_eq_ok.mpr ⟨a, h a h1, hf a h1 v h2⟩

theorem Ref.mapR {α β : Type} {r r' : Res α} {f : α → β} (h : Ref r r') : Ref (r.mapR f) (r'.mapR f) := by
  intro v hv
  cases r with
  | ok a => rw [h a _root_.rfl]; exact hv
  | panic => simp [Res.mapR] at hv
  | timeout => simp [Res.mapR] at hv

theorem Ref.ite {α : Type} {c : Prop} [Decidable c] {a a' b b' : Res α} (h1 : c → Ref a a') (h2 : ¬ c → Ref b b') :
    Ref (if c then a else b) (if c then a' else b') := by
  split
  · exact h1 ‹_›
  · exact h2 ‹_›

theorem Ref.dite_false {α : Type} {c c' : Prop} [Decidable c] [Decidable c'] {a a' b' : Res α} (hc : c → c') (h1 : c → Ref a a') :
    Ref (if c then a else .panic) (if c' then a' else b') := by
  intro v hv
  split at hv
  · rw [if_pos (hc ‹_›)]; exact h1 ‹_› v hv
  · cases hv

section
variable {w w' : Width} (hww : Wider w w')
include hww

theorem ref_cadd (a b : ℕ) : Ref (cadd w a b) (cadd w' a b) := Ref.dite_false (fun h => Wider.fits hww h) fun _ => Ref.rfl
theorem ref_cmul (a b : ℕ) : Ref (cmul w a b) (cmul w' a b) := Ref.dite_false (fun h => Wider.fits hww h) fun _ => Ref.rfl
theorem ref_fromWord (a : ℕ) : Ref (fromWord w a) (fromWord w' a) := Ref.dite_false (fun h => Wider.fits hww h) fun _ => Ref.rfl
theorem ref_unwrapFit (a : ℕ) : Ref (unwrapFit w a) (unwrapFit w' a) := Ref.dite_false (fun h => Wider.fits hww h) fun _ => Ref.rfl

theorem ref_cshr (a s : ℕ) : Ref (cshr w a s) (cshr w' a s) := by
  rcases hww with rfl | ⟨p, q, rfl, rfl, hab⟩
  · cases w with
    | none => exact Ref.rfl
    | some b =>
      intro v hv
      simp only [cshr] at hv ⊢
      split at hv
      · exact hv
      · cases hv
  · exact Ref.dite_false (fun h => by omega) fun _ => Ref.rfl

/-- shifting out the trailing zeros, where the two types agree on their number -/
theorem shift_cases (a : ℕ) {v : ℕ} (h : cshr w a (trailingZeros w a) = .ok v) :
    trailingZeros w' a = trailingZeros w a ∧ cshr w' a (trailingZeros w' a) = .ok v := by
  have key : trailingZeros w' a = trailingZeros w a := by
    by_cases ha : a = 0
    · subst ha
      cases w with
      | none => rcases hww with rfl | ⟨p, q, h1, _⟩
                · rfl
                · cases h1
      | some b => simp [trailingZeros, cshr] at h
    · simp [trailingZeros, ha]
  refine ⟨key, ?_⟩
  rw [key]
  exact ref_cshr hww _ _ v h

theorem ref_sqrtExact (bld : Build) (hstd : StdWidth w) {n : ℕ} (hn : fits w n = true) :
    Ref (sqrtExact bld w n) (sqrtExact bld w' n) := by
  intro v hv
  by_cases h0 : n = 0
  · subst h0
    rcases hstd with rfl | ⟨b, hb, rfl⟩
    · rcases hww with rfl | ⟨p, q, h1, _⟩
      · exact hv
      · cases h1
    · exfalso
      revert hv
      simp only [List.mem_cons, List.not_mem_nil, or_false] at hb
      rcases hb with rfl | rfl | rfl | rfl | rfl <;> simp [sqrtExact, sqrtExactPrim, cshr, trailingZeros]
  · obtain ⟨r, h1, h2⟩ := sqrtExact_spec bld w (Nat.pos_of_ne_zero h0) hn
    obtain ⟨r', h1', h2'⟩ := sqrtExact_spec bld w' (Nat.pos_of_ne_zero h0) (Wider.fits hww hn)
    rw [h1', ← hv, h1]
    congr 1
    ext x
    rw [h2, h2']

theorem ref_isSquare (bld : Build) (hstd : StdWidth w) {n : ℕ} (hn : fits w n = true) :
    Ref (NumPrime.isSquare bld w n) (NumPrime.isSquare bld w' n) := (ref_sqrtExact hww bld hstd hn).mapR

theorem ref_pqSelfridgeLoop (bld : Build) (hstd : StdWidth w) {n : ℕ} (hn : fits w n = true) (f : ℕ) :
    ∀ d neg, Ref (pqSelfridgeLoop bld w n f d neg) (pqSelfridgeLoop bld w' n f d neg) := by
  induction f with
  | zero => intro d neg; exact Ref.rfl
  | succ f ih =>
    intro d neg
    simp only [pqSelfridgeLoop]
    refine Ref.bind (Ref.ite (fun _ => ref_isSquare hww bld hstd hn) fun _ => Ref.rfl) fun sq _ => ?_
    refine Ref.ite (fun _ => Ref.rfl) fun _ => Ref.ite (fun _ => Ref.rfl) fun _ => Ref.ite (fun _ => Ref.rfl) fun _ => ?_
    exact Ref.bind (ref_cadd hww _ _) fun d' _ => ih _ _

theorem ref_pBruteforceLoop (bld : Build) (hstd : StdWidth w) {n : ℕ} (hn : fits w n = true) (f : ℕ) :
    ∀ p, Ref (pBruteforceLoop bld w n f p) (pBruteforceLoop bld w' n f p) := by
  induction f with
  | zero => intro p; exact Ref.rfl
  | succ f ih =>
    intro p
    simp only [pBruteforceLoop]
    refine Ref.bind (Ref.ite (fun _ => ref_isSquare hww bld hstd hn) fun _ => Ref.rfl) fun sq _ => ?_
    refine Ref.ite (fun _ => Ref.rfl) fun _ => ?_
    refine Ref.bind (ref_fromWord hww _) fun d _ => ?_
    exact Ref.ite (fun _ => Ref.rfl) fun _ => Ref.ite (fun _ => Ref.rfl) fun _ => ih _

theorem ref_lucasParams (bld : Build) (hstd : StdWidth w) {n : ℕ} (hn : fits w n = true) (p : Option ℕ) (q : Option ℤ) :
    Ref (lucasParams bld w n p q) (lucasParams bld w' n p q) := by
  unfold lucasParams
  split
  · exact Ref.rfl
  · exact ref_pqSelfridgeLoop hww bld hstd hn _ _ _

theorem ref_lucasConv (p : ℕ) (q d : ℤ) : Ref (lucasConv w p q d) (lucasConv w' p q d) :=
  Ref.bind (ref_fromWord hww _) fun _ _ => Ref.bind (ref_fromWord hww _) fun _ _ =>
    Ref.bind (ref_fromWord hww _) fun _ _ => Ref.rfl

theorem ref_lucasDelta (n : ℕ) (d : ℤ) : Ref (lucasDelta w n d) (lucasDelta w' n d) :=
  Ref.ite (fun _ => Ref.rfl) fun _ => Ref.ite (fun _ => ref_cadd hww _ _) fun _ => Ref.rfl

theorem ref_slprpTail (n p : ℕ) (q : ℤ) (delta : ℕ) : Ref (slprpTail w n p q delta) (slprpTail w' n p q delta) := by
  intro v hv
  simp only [slprpTail] at hv ⊢
  obtain ⟨a, h1, h2⟩ := Res.bind_eq_ok.mp hv
  obtain ⟨h3, h4⟩ := shift_cases hww _ h1
  rw [h4, h3]
  exact h2

theorem ref_eslprpTail (n p : ℕ) (delta : ℕ) : Ref (eslprpTail w n p delta) (eslprpTail w' n p delta) := by
  intro v hv
  simp only [eslprpTail] at hv ⊢
  obtain ⟨a, h1, h2⟩ := Res.bind_eq_ok.mp hv
  obtain ⟨h3, h4⟩ := shift_cases hww _ h1
  rw [h4, h3]
  exact h2

theorem ref_isSprp (n base : ℕ) : Ref (isSprp w n base) (isSprp w' n base) := by
  refine Ref.mapR ?_
  intro v hv
  simp only [testSprp] at hv ⊢
  split at hv
  · rw [if_pos ‹_›]; exact hv
  · rw [if_neg ‹_›]
    obtain ⟨a, h1, h2⟩ := Res.bind_eq_ok.mp hv
    obtain ⟨h3, h4⟩ := shift_cases hww _ h1
    rw [h4, h3]
    exact h2

theorem ref_isLprp (bld : Build) (hstd : StdWidth w) {n : ℕ} (hn : fits w n = true) (p : Option ℕ) (q : Option ℤ) :
    Ref (isLprp bld w n p q) (isLprp bld w' n p q) := by
  refine Ref.ite (fun _ => Ref.rfl) fun _ => Ref.ite (fun _ => Ref.rfl) fun _ => ?_
  refine Ref.bind (ref_lucasParams hww bld hstd hn p q) fun pq _ => ?_
  refine Ref.ite (fun _ => Ref.rfl) fun _ => Ref.bind Ref.rfl fun d _ => ?_
  exact Ref.bind (ref_lucasConv hww _ _ _) fun _ _ => Ref.bind (ref_lucasDelta hww _ _) fun _ _ => Ref.rfl

theorem ref_isSlprp (bld : Build) (hstd : StdWidth w) {n : ℕ} (hn : fits w n = true) (p : Option ℕ) (q : Option ℤ) :
    Ref (isSlprp bld w n p q) (isSlprp bld w' n p q) := by
  refine Ref.ite (fun _ => Ref.rfl) fun _ => Ref.ite (fun _ => Ref.rfl) fun _ => ?_
  refine Ref.bind (ref_lucasParams hww bld hstd hn p q) fun pq _ => ?_
  refine Ref.ite (fun _ => Ref.rfl) fun _ => Ref.bind Ref.rfl fun d _ => ?_
  exact Ref.bind (ref_lucasConv hww _ _ _) fun _ _ => Ref.bind (ref_lucasDelta hww _ _) fun _ _ => ref_slprpTail hww _ _ _ _

theorem ref_isEslprp (bld : Build) (hstd : StdWidth w) {n : ℕ} (hn : fits w n = true) (p : Option ℕ) :
    Ref (isEslprp bld w n p) (isEslprp bld w' n p) := by
  refine Ref.ite (fun _ => Ref.rfl) fun _ => Ref.ite (fun _ => Ref.rfl) fun _ => ?_
  cases p with
  | some p =>
    refine Ref.bind Ref.rfl fun pq _ => Ref.ite (fun _ => Ref.rfl) fun _ => Ref.bind Ref.rfl fun d _ => ?_
    exact Ref.bind (ref_lucasConv hww _ _ _) fun _ _ => Ref.bind (ref_lucasDelta hww _ _) fun _ _ => ref_eslprpTail hww _ _ _
  | none =>
    refine Ref.bind (ref_pBruteforceLoop hww bld hstd hn _ _) fun pq _ => ?_
    refine Ref.ite (fun _ => Ref.rfl) fun _ => Ref.bind Ref.rfl fun d _ => ?_
    exact Ref.bind (ref_lucasConv hww _ _ _) fun _ _ => Ref.bind (ref_lucasDelta hww _ _) fun _ _ => ref_eslprpTail hww _ _ _

theorem ref_allSprp (n : ℕ) (l : List ℕ) : Ref (allSprp w n l) (allSprp w' n l) := by
  induction l with
  | nil => exact Ref.rfl
  | cons x t ih => exact Ref.bind (ref_isSprp hww _ _) fun v _ => Ref.ite (fun _ => ih) fun _ => Ref.rfl

theorem ref_isPrime (bld : Build) (hstd : StdWidth w) (list : List ℕ) {n : ℕ} (hn : fits w n = true)
    (config : Option PrimalityTestConfig) (draws : List ℕ) :
    Ref (isPrime bld w list n config draws) (isPrime bld w' list n config draws) := by
  refine Ref.ite (fun _ => Ref.rfl) fun _ => Ref.ite (fun _ => Ref.rfl) fun _ => Ref.bind Ref.rfl fun wl _ => ?_
  refine Ref.bind (ref_allSprp hww _ _) fun a _ => Ref.ite (fun _ => Ref.rfl) fun _ => ?_
  refine Ref.bind (Ref.ite (fun _ => ref_isSlprp hww bld hstd hn _ _) fun _ => Ref.rfl) fun s _ => Ref.ite (fun _ => Ref.rfl) fun _ => ?_
  exact Ref.bind (Ref.ite (fun _ => ref_isEslprp hww bld hstd hn _) fun _ => Ref.rfl) fun s _ => Ref.rfl

theorem ref_prevPrimeLoop (bld : Build) (hstd : StdWidth w) (config : Option PrimalityTestConfig) (draws : ℕ → List ℕ) (f : ℕ) :
    ∀ t i, fits w t = true → Ref (prevPrimeLoop bld w config draws f t i) (prevPrimeLoop bld w' config draws f t i) := by
  induction f with
  | zero => intro t i _; exact Ref.rfl
  | succ f ih =>
    intro t i ht
    refine Ref.bind Ref.rfl fun t' h => ?_
    have ht' : fits w t' = true := by
      refine fits_mono ?_ ht
      unfold csub at h
      split at h
      · simp only [Res.ok.injEq] at h; omega
      · cases h
    exact Ref.bind (ref_isPrime hww bld hstd _ ht' _ _) fun r _ => Ref.ite (fun _ => Ref.rfl) fun _ => ih _ _ ht'

theorem wide_nextPrimeLoop (bld : Build) (hstd : StdWidth w) (config : Option PrimalityTestConfig) (draws : ℕ → List ℕ) (f : ℕ) :
    ∀ t i q, nextPrimeLoop bld w config draws f t i = .ok (some q) → nextPrimeLoop bld w' config draws f t i = .ok (some q) := by
  induction f with
  | zero => intro t i q h; simp [nextPrimeLoop] at h
  | succ f ih =>
    intro t i q h
    simp only [nextPrimeLoop] at h ⊢
    split at h
    · simp [Res.pure_def] at h
    · rename_i hf
      simp only [Bool.not_eq_true, Bool.not_eq_false'] at hf
      have hf' := Wider.fits hww hf
      rw [if_neg (by rw [hf']; decide)]
      obtain ⟨r, h1, h2⟩ := Res.bind_eq_ok.mp h
      have h3 : isPrimeNew bld w' _ config _ = .ok r := ref_isPrime hww bld hstd _ hf _ _ r h1
      rw [h3, Res.bind_ok]
      split at h2
      · rw [if_pos ‹_›]; exact h2
      · rw [if_neg ‹_›]; exact ih _ _ _ h2

theorem ref_trialLoop (tsqrt limit : ℕ) (l : List ℕ) :
    ∀ r m, Ref (trialLoop w tsqrt limit l r m) (trialLoop w' tsqrt limit l r m) := by
  induction l with
  | nil => intro r m; exact Ref.rfl
  | cons p ps ih =>
    intro r m
    refine Ref.bind (ref_unwrapFit hww _) fun pt _ => Ref.ite (fun _ => Ref.rfl) fun _ => Ref.bind Ref.rfl fun x _ => ?_
    exact Ref.ite (fun _ => Ref.rfl) fun _ => Ref.bind (ih _ _) fun y _ => Ref.rfl

theorem ref_trialDivision (primes : List ℕ) (target : ℕ) (limit : Option ℕ) :
    Ref (trialDivision w primes target limit) (trialDivision w' primes target limit) := by
  refine Ref.bind (ref_cadd hww _ _) fun tsqrt _ => Ref.bind ?_ fun lim _ => Ref.bind (ref_trialLoop hww _ _ _ _ _) fun x _ => Ref.rfl
  cases limit with
  | none => exact Ref.rfl
  | some l => exact (ref_unwrapFit hww _).mapR

theorem ref_divisorTrial (target tsqrt limit : ℕ) (l : List ℕ) :
    Ref (divisorTrial w target tsqrt limit l) (divisorTrial w' target tsqrt limit l) := by
  induction l with
  | nil => exact Ref.rfl
  | cons p ps ih =>
    exact Ref.bind (ref_unwrapFit hww _) fun pt _ => Ref.ite (fun _ => Ref.rfl) fun _ => Ref.ite (fun _ => Ref.rfl) fun _ =>
      Ref.ite (fun _ => Ref.rfl) fun _ => ih

theorem ref_divisor (list : List ℕ) (rng : Rng) (k target : ℕ) (tdLimit : Option ℕ) (rhoTrials : ℕ) :
    Ref (divisor w list rng k target tdLimit rhoTrials) (divisor w' list rng k target tdLimit rhoTrials) := by
  refine Ref.bind (Ref.ite (fun _ => Ref.bind (ref_cadd hww _ _) fun _ _ => ref_divisorTrial hww _ _ _ _) fun _ => Ref.rfl) fun r _ => Ref.rfl

theorem ref_factors (bld : Build) (hstd : StdWidth w) (list : List ℕ) (rng : Rng) (fuel k : ℕ) {target : ℕ}
    (ht : fits w target = true) (config : Option FactorizationConfig) :
    Ref (factors bld w list rng fuel k target config) (factors bld w' list rng fuel k target config) := by
  by_cases h : target < 2 ^ 128
  · simp only [factors, factorsWith, if_pos h]; exact Ref.rfl
  · have hw : w = none := by
      rcases hstd with rfl | ⟨b, hb, rfl⟩
      · rfl
      · exfalso
        apply h
        have h1 := fits_some.mp ht
        simp only [List.mem_cons, List.not_mem_nil, or_false] at hb
        rcases hb with rfl | rfl | rfl | rfl | rfl <;> omega
    subst hw
    rcases hww with rfl | ⟨a, b, h1, _⟩
    · exact Ref.rfl
    · cases h1

theorem ref_factorize (bld : Build) (hstd : StdWidth w) (list : List ℕ) (rng : Rng) (fuel : ℕ) {target : ℕ}
    (ht : fits w target = true) (f : ℕ) :
    ∀ k, Ref (factorize bld w list rng fuel f k target) (factorize bld w' list rng fuel f k target) := by
  induction f with
  | zero => intro k; exact Ref.rfl
  | succ f ih =>
    intro k
    refine Ref.bind (ref_factors hww bld hstd list rng fuel k ht _) fun x _ => ?_
    obtain ⟨m, rest, k'⟩ := x
    cases rest with
    | none => exact Ref.rfl
    | some l => exact ih _

theorem ref_moebiusOddPart (bld : Build) (hstd : StdWidth w) (rng : Rng) (fuel attempts k : ℕ) {target : ℕ}
    (ht : fits w target = true) :
    Ref (moebiusOddPart bld w rng fuel attempts k target) (moebiusOddPart bld w' rng fuel attempts k target) :=
  Ref.bind Ref.rfl fun _ _ => Ref.ite (fun _ => Ref.rfl) fun _ => Ref.ite (fun _ => Ref.rfl) fun _ =>
    Ref.bind (ref_factorize hww bld hstd _ rng fuel ht _ _) fun _ _ => Ref.rfl

theorem ref_moebius (bld : Build) (hstd : StdWidth w) (rng : Rng) (fuel attempts k : ℕ) {target : ℕ}
    (ht : fits w target = true) :
    Ref (moebius bld w rng fuel attempts k target) (moebius bld w' rng fuel attempts k target) :=
  Ref.ite (fun _ => Ref.ite (fun _ => Ref.rfl) fun _ =>
      Ref.bind (ref_moebiusOddPart hww bld hstd rng fuel attempts k (fits_mono (Nat.div_le_self _ _) ht)) fun _ _ => Ref.rfl)
    fun _ => ref_moebiusOddPart hww bld hstd rng fuel attempts k ht

theorem ref_productW (l : List ℕ) : ∀ acc, Ref (productW w acc l) (productW w' acc l) := by
  induction l with
  | nil => intro acc; exact Ref.rfl
  | cons p ps ih => intro acc; exact Ref.bind (ref_unwrapFit hww _) fun _ _ => Ref.bind (ref_cmul hww _ _) fun _ _ => ih _

theorem ref_squfofRho (rd p q qm1 : ℕ) : Ref (squfofRho w rd p q qm1) (squfofRho w' rd p q qm1) := by
  refine Ref.bind (ref_cadd hww _ _) fun s _ => Ref.bind Ref.rfl fun b _ => Ref.bind (ref_cmul hww _ _) fun bq _ =>
    Ref.bind Ref.rfl fun newP _ => Ref.ite (fun _ => ?_) fun _ => ?_
  · exact Ref.bind Ref.rfl fun d _ => Ref.bind (ref_cmul hww _ _) fun t _ => Ref.bind (ref_cadd hww _ _) fun _ _ => Ref.rfl
  · exact Ref.bind Ref.rfl fun d _ => Ref.bind (ref_cmul hww _ _) fun t _ => Ref.rfl

theorem ref_squfofBack (rd f : ℕ) : ∀ u v vm1, Ref (squfofBack w rd f u v vm1) (squfofBack w' rd f u v vm1) := by
  induction f with
  | zero => intro u v vm1; exact Ref.rfl
  | succ f ih =>
    intro u v vm1
    exact Ref.bind (ref_squfofRho hww _ _ _ _) fun x _ => Ref.ite (fun _ => Ref.rfl) fun _ => ih _ _ _

omit hww in
theorem csub_fits {a b r : ℕ} (h : csub a b = .ok r) (ha : fits w a = true) : fits w r = true := by
  unfold csub at h
  split at h
  · simp only [Res.ok.injEq] at h; exact fits_mono (by omega) ha
  · cases h

omit hww in
theorem cadd_fits {a b r : ℕ} (h : cadd w a b = .ok r) : fits w r = true := by
  unfold cadd at h
  split at h
  · simp only [Res.ok.injEq] at h; rwa [← h]
  · cases h

omit hww in
theorem squfofRho_fits {rd p q qm1 : ℕ} {x : ℕ × ℕ × ℕ} (h : squfofRho w rd p q qm1 = .ok x) (h1 : fits w q = true)
    (h2 : fits w qm1 = true) : fits w x.2.1 = true ∧ fits w x.2.2 = true := by
  simp only [squfofRho] at h
  obtain ⟨s, _, h⟩ := Res.bind_eq_ok.mp h
  obtain ⟨b, _, h⟩ := Res.bind_eq_ok.mp h
  obtain ⟨bq, _, h⟩ := Res.bind_eq_ok.mp h
  obtain ⟨np, _, h⟩ := Res.bind_eq_ok.mp h
  split at h
  · obtain ⟨d, _, h⟩ := Res.bind_eq_ok.mp h
    obtain ⟨t, _, h⟩ := Res.bind_eq_ok.mp h
    obtain ⟨nq, h3, h⟩ := Res.bind_eq_ok.mp h
    simp only [Res.pure_def, Res.ok.injEq] at h
    subst h
    exact ⟨cadd_fits h3, h1⟩
  · obtain ⟨d, _, h⟩ := Res.bind_eq_ok.mp h
    obtain ⟨t, _, h⟩ := Res.bind_eq_ok.mp h
    obtain ⟨nq, h3, h⟩ := Res.bind_eq_ok.mp h
    simp only [Res.pure_def, Res.ok.injEq] at h
    subst h
    exact ⟨csub_fits h3 h2, h1⟩

theorem ref_squfofForward (bld : Build) (hstd : StdWidth w) (fuel target mulTarget rd maxIter f : ℕ) :
    ∀ i p q qm1, fits w q = true → fits w qm1 = true →
      Ref (squfofForward bld w fuel target mulTarget rd maxIter f i p q qm1)
        (squfofForward bld w' fuel target mulTarget rd maxIter f i p q qm1) := by
  induction f with
  | zero => intro i p q qm1 _ _; exact Ref.rfl
  | succ f ih =>
    intro i p q qm1 hq hqm
    refine Ref.bind (ref_squfofRho hww _ _ _ _) fun x hx => ?_
    obtain ⟨p', q', qm'⟩ := x
    obtain ⟨g1, g2⟩ := squfofRho_fits hx hq hqm
    refine Ref.bind (Ref.ite (fun _ => ref_sqrtExact hww bld hstd g1) fun _ => Ref.rfl) fun r _ => ?_
    cases r with
    | none => exact ih _ _ _ _ g1 g2
    | some rq =>
      refine Ref.bind Ref.rfl fun d _ => Ref.bind Ref.rfl fun b _ => Ref.bind (ref_cmul hww _ _) fun t _ =>
        Ref.bind (ref_cadd hww _ _) fun u _ => Ref.bind (ref_cmul hww _ _) fun uu _ => Ref.bind Ref.rfl fun n _ =>
        Ref.bind Ref.rfl fun v _ => Ref.bind (ref_squfofBack hww _ _ _ _ _) fun u _ => ?_
      exact Ref.ite (fun _ => Ref.rfl) fun _ => ih _ _ _ _ g1 g2

theorem wide_oneLineLoop (bld : Build) (hstd : StdWidth w) (target mulTarget maxIter f : ℕ) :
    ∀ i ikn d j, oneLineLoop bld w target mulTarget maxIter f i ikn = .ok (some d, j) →
      oneLineLoop bld w' target mulTarget maxIter f i ikn = .ok (some d, j) := by
  induction f with
  | zero => intro i ikn d j h; simp [oneLineLoop] at h
  | succ f ih =>
    intro i ikn d j h
    simp only [oneLineLoop] at h ⊢
    obtain ⟨s, h1, h⟩ := Res.bind_eq_ok.mp h
    obtain ⟨ss, h2, h⟩ := Res.bind_eq_ok.mp h
    obtain ⟨m, h3, h⟩ := Res.bind_eq_ok.mp h
    obtain ⟨r, h4, h⟩ := Res.bind_eq_ok.mp h
    obtain ⟨g, h5, h⟩ := Res.bind_eq_ok.mp h
    have hss : fits w ss = true := by
      unfold cmul at h2
      split at h2
      · simp only [Res.ok.injEq] at h2; rwa [← h2]
      · cases h2
    rw [ref_cadd hww _ _ _ h1, Res.bind_ok, ref_cmul hww _ _ _ h2, Res.bind_ok, h3, Res.bind_ok,
      ref_sqrtExact hww bld hstd (csub_fits h3 hss) _ h4, Res.bind_ok, h5, Res.bind_ok]
    split at h
    · rw [if_pos ‹_›]; exact h
    · rw [if_neg ‹_›]
      split at h
      · rw [if_pos (Wider.fits hww ‹_›)]; exact ih _ _ _ _ h
      · simp [Res.pure_def] at h

end

/-! ## the property -/

/-- **C110** exact square roots and the square test -/
theorem C110_sqrt_exact (bld : Build) (w w' : Width) (hww : Wider w w') (hstd : StdWidth w) (n : ℕ) (hn : fits w n = true) :
    (∀ r, sqrtExact bld w n = .ok r → sqrtExact bld w' n = .ok r) ∧
    (∀ r, NumPrime.isSquare bld w n = .ok r → NumPrime.isSquare bld w' n = .ok r) :=
  ⟨ref_sqrtExact hww bld hstd hn, ref_isSquare hww bld hstd hn⟩

/-- **C110** the probable prime tests, with any parameters -/
theorem C110_probable_prime_tests (bld : Build) (w w' : Width) (hww : Wider w w') (hstd : StdWidth w) (n : ℕ)
    (hn : fits w n = true) (base : ℕ) (p : Option ℕ) (q : Option ℤ) (v : Bool) :
    (isSprp w n base = .ok v → isSprp w' n base = .ok v) ∧
    (isLprp bld w n p q = .ok v → isLprp bld w' n p q = .ok v) ∧
    (isSlprp bld w n p q = .ok v → isSlprp bld w' n p q = .ok v) ∧
    (isEslprp bld w n p = .ok v → isEslprp bld w' n p = .ok v) :=
  ⟨ref_isSprp hww n base v, ref_isLprp hww bld hstd hn p q v, ref_isSlprp hww bld hstd hn p q v, ref_isEslprp hww bld hstd hn p v⟩

/-- **C110** `is_prime`, with any buffer, configuration and random draws -/
theorem C110_is_prime (bld : Build) (w w' : Width) (hww : Wider w w') (hstd : StdWidth w) (list : List ℕ) (n : ℕ)
    (hn : fits w n = true) (config : Option PrimalityTestConfig) (draws : List ℕ) (r : Primality)
    (h : isPrime bld w list n config draws = .ok r) : isPrime bld w' list n config draws = .ok r :=
  ref_isPrime hww bld hstd list hn config draws r h

/-- **C110** `is_safe_prime` -/
theorem C110_is_safe_prime (bld : Build) (w w' : Width) (hww : Wider w w') (hstd : StdWidth w) (n : ℕ)
    (hn : fits w n = true) (draws1 draws2 : List ℕ) (r : Primality)
    (h : isSafePrime bld w n draws1 draws2 = .ok r) : isSafePrime bld w' n draws1 draws2 = .ok r := by
  have hh : fits w (n >>> 1) = true := fits_mono (by rw [Nat.shiftRight_eq_div_pow]; exact Nat.div_le_self _ _) hn
  revert h
  refine Ref.bind (ref_isPrime hww bld hstd _ hh _ _) (fun a _ => ?_) r
  cases a with
  | no => exact Ref.rfl
  | yes => exact Ref.bind (ref_isPrime hww bld hstd _ hn _ _) fun _ _ => Ref.rfl
  | probable x => exact Ref.bind (ref_isPrime hww bld hstd _ hn _ _) fun _ _ => Ref.rfl

/-- **C110** `prev_prime`, and `next_prime` whenever it finds a prime (it reports `None` if there is none in the type) -/
theorem C110_next_prev_prime (bld : Build) (w w' : Width) (hww : Wider w w') (hstd : StdWidth w) (n : ℕ)
    (hn : fits w n = true) (config : Option PrimalityTestConfig) (draws : ℕ → List ℕ) (fuel : ℕ) :
    (∀ r, prevPrime bld w n config draws fuel = .ok r → prevPrime bld w' n config draws fuel = .ok r) ∧
    (∀ q, nextPrime bld w n config draws fuel = .ok (some q) → nextPrime bld w' n config draws fuel = .ok (some q)) := by
  constructor
  · refine Ref.ite (fun _ => Ref.rfl) fun _ => Ref.ite (fun _ => Ref.rfl) fun _ => ?_
    exact ref_prevPrimeLoop hww bld hstd config draws fuel _ _ hn
  · have hfr : ∀ x q, fromNat w x = some q → fromNat w' x = some q := by
      intro x q h
      unfold fromNat at h ⊢
      split at h
      · rw [if_pos (Wider.fits hww ‹_›)]; exact h
      · cases h
    have hat : ∀ i q, (smallPrimeAt bld i).mapR (fromNat w) = .ok (some q) → (smallPrimeAt bld i).mapR (fromNat w') = .ok (some q) := by
      intro i q h
      cases e : smallPrimeAt bld i with
      | ok x =>
        rw [e] at h
        simp only [Res.mapR, Res.ok.injEq] at h ⊢
        exact hfr _ _ h
      | panic => rw [e] at h; cases h
      | timeout => rw [e] at h; cases h
    intro q h
    cases bld with
    | small =>
      simp only [nextPrime] at h ⊢
      split at h
      · rw [if_pos ‹_›]
        split at h
        · split at h
          · rw [if_pos ‹_›]
            simp only [Res.ok.injEq] at h ⊢
            exact hfr _ _ h
          · rw [if_neg ‹_›]; exact hat _ _ h
        · exact hat _ _ h
      · rw [if_neg ‹_›]; exact wide_nextPrimeLoop hww _ hstd config draws fuel _ _ _ h
    | big =>
      simp only [nextPrime] at h ⊢
      split at h
      · rw [if_pos ‹_›]
        split at h
        · exact hat _ _ h
        · exact hat _ _ h
      · rw [if_neg ‹_›]; exact wide_nextPrimeLoop hww _ hstd config draws fuel _ _ _ h

/-- **C110** `trial_division` over any sequence of primes, with any limit -/
theorem C110_trial_division (w w' : Width) (hww : Wider w w') (primes : List ℕ) (target : ℕ) (limit : Option ℕ)
    (r : List (ℕ × ℕ) × Except ℕ ℕ) (h : trialDivision w primes target limit = .ok r) :
    trialDivision w' primes target limit = .ok r := ref_trialDivision hww primes target limit r h

/-- **C110** `squfof`, and `one_line` whenever it finds a divisor (it gives up early if the next multiple does not fit the type) -/
theorem C110_squfof_one_line (bld : Build) (w w' : Width) (hww : Wider w w') (hstd : StdWidth w) (target mulTarget maxIter : ℕ)
    (hm : fits w mulTarget = true) :
    (∀ fuel r, squfof bld w fuel target mulTarget maxIter = .ok r → squfof bld w' fuel target mulTarget maxIter = .ok r) ∧
    (∀ d i, oneLine bld w target mulTarget maxIter = .ok (some d, i) → oneLine bld w' target mulTarget maxIter = .ok (some d, i)) := by
  constructor
  · intro fuel
    refine Ref.ite (fun _ => Ref.rfl) fun _ => Ref.bind (ref_cmul hww _ _) fun rr _ => Ref.bind Ref.rfl fun q hq => ?_
    refine Ref.ite (fun _ => Ref.rfl) fun _ => ?_
    refine ref_squfofForward hww bld hstd _ _ _ _ _ _ _ _ _ _ (csub_fits hq hm) ?_
    exact std_fits hstd (by norm_num)
  · intro d i h
    simp only [oneLine] at h ⊢
    split at h
    · cases h
    · rw [if_neg ‹_›]; exact wide_oneLineLoop hww bld hstd target mulTarget maxIter _ _ _ _ _ h

/-- **C110** the factorization functions of a buffer, with the same random source -/
theorem C110_factors (bld : Build) (w w' : Width) (hww : Wider w w') (hstd : StdWidth w) (list : List ℕ) (rng : Rng)
    (fuel k target : ℕ) (ht : fits w target = true) :
    (∀ config r, factors bld w list rng fuel k target config = .ok r → factors bld w' list rng fuel k target config = .ok r) ∧
    (∀ attempts r, factorize bld w list rng fuel attempts k target = .ok r → factorize bld w' list rng fuel attempts k target = .ok r) ∧
    (∀ tdLimit trials r, divisor w list rng k target tdLimit trials = .ok r → divisor w' list rng k target tdLimit trials = .ok r) :=
  ⟨fun config => ref_factors hww bld hstd list rng fuel k ht config, fun attempts => ref_factorize hww bld hstd list rng fuel ht attempts k,
    fun tdLimit trials => ref_divisor hww list rng k target tdLimit trials⟩

/-- **C110** `moebius` and `is_square_free` -/
theorem C110_moebius (bld : Build) (w w' : Width) (hww : Wider w w') (hstd : StdWidth w) (rng : Rng) (fuel attempts k target : ℕ)
    (ht : fits w target = true) :
    (∀ r, moebius bld w rng fuel attempts k target = .ok r → moebius bld w' rng fuel attempts k target = .ok r) ∧
    (∀ r, isSquareFree bld w rng fuel attempts k target = .ok r → isSquareFree bld w' rng fuel attempts k target = .ok r) :=
  ⟨ref_moebius hww bld hstd rng fuel attempts k ht, Ref.bind (ref_moebius hww bld hstd rng fuel attempts k ht) fun _ _ => Ref.rfl⟩

/-- **C110** `primorial` -/
theorem C110_primorial (bld : Build) (w w' : Width) (hww : Wider w w') (o : Estimates) (b : Buf) (n : ℕ) (r : ℕ × Buf)
    (h : Buf.primorial bld w o b n = .ok r) : Buf.primorial bld w' o b n = .ok r :=
  Ref.bind (r := Buf.nprimes bld o b n) (r' := Buf.nprimes bld o b n) Ref.rfl
    (fun x _ => Ref.bind (ref_productW hww x.1 1) fun _ _ => Ref.rfl) r h

/-! Non-vacuity: calls in `u8`, `u16`, `u32`, `u128` carried over to wider types; and the two reports of failure that do depend
on the type. -/

example : sqrtExact .big (some 64) 144 = .ok (some 12) :=
  (C110_sqrt_exact .big (some 8) (some 64) (Or.inr ⟨8, 64, rfl, rfl, by norm_num⟩) (Or.inr ⟨8, by simp, rfl⟩) 144 rfl).1 _ (by decide +kernel)

example : isSlprp .big none 5459 none none = .ok true :=
  (C110_probable_prime_tests .big (some 16) none (Or.inl rfl) (Or.inr ⟨16, by simp, rfl⟩) 5459 rfl 2 none none true).2.2.1
    (by decide +kernel)

example : isPrime .small none (smallPrimes .small) 18446744073709551629 none [1000003, 5, 7] = .ok (.probable (probability .default)) :=
  C110_is_prime .small (some 128) none (Or.inl rfl) (Or.inr ⟨128, by simp, rfl⟩) _ _ (by decide +kernel) _ _ _ (by decide +kernel)

example : isSafePrime .small (some 64) 227 [] [] = .ok .yes :=
  C110_is_safe_prime .small (some 8) (some 64) (Or.inr ⟨8, 64, rfl, rfl, by norm_num⟩) (Or.inr ⟨8, by simp, rfl⟩) 227 rfl _ _ _
    (by decide +kernel)

example : nextPrime .small none 250 none (fun _ => []) 5 = .ok (some 251) :=
  (C110_next_prev_prime .small (some 8) none (Or.inl rfl) (Or.inr ⟨8, by simp, rfl⟩) 250 rfl none (fun _ => []) 5).2 251 (by decide +kernel)

example : nextPrime .small (some 8) 251 none (fun _ => []) 5 = .ok none ∧
    nextPrime .small (some 16) 251 none (fun _ => []) 5 = .ok (some 257) := by decide +kernel

example : trialDivision (some 64) [2, 3, 5, 7, 11] 1001 none = .ok ([(7, 1), (11, 1)], .error 13) :=
  C110_trial_division (some 16) (some 64) (Or.inr ⟨16, 64, rfl, rfl, by norm_num⟩) _ _ _ _ (by rfl)

example : squfof .big none 100 11111 11111 100 = .ok (some 41, 5) :=
  (C110_squfof_one_line .big (some 32) none (Or.inl rfl) (Or.inr ⟨32, by simp, rfl⟩) 11111 11111 100 rfl).1 100 _ (by decide +kernel)

example : oneLine .big none 11111 5333280 100 = .ok (some 271, 2) :=
  (C110_squfof_one_line .big (some 32) none (Or.inl rfl) (Or.inr ⟨32, by simp, rfl⟩) 11111 5333280 100 rfl).2 _ _ (by decide +kernel)

example (rng : Rng) : moebius .small none rng 0 0 0 230 = .ok (-1) :=
  (C110_moebius .small (some 8) none (Or.inl rfl) (Or.inr ⟨8, by simp, rfl⟩) rng 0 0 0 230 rfl).1 _ (by rfl)

example (rng : Rng) : factors .small none (smallPrimes .small) rng 9 0 220 none = .ok ([(2, 2), (5, 1), (11, 1)], none, 0) :=
  (C110_factors .small (some 8) none (Or.inl rfl) (Or.inr ⟨8, by simp, rfl⟩) _ rng 9 0 220 rfl).1 _ _ (by rfl)

example (o : Estimates) (b b' : Buf) (h : Buf.primorial .small (some 8) o b 4 = .ok (210, b')) :
    Buf.primorial .small (some 128) o b 4 = .ok (210, b') :=
  C110_primorial .small (some 8) (some 128) (Or.inr ⟨8, 128, rfl, rfl, by norm_num⟩) o b 4 _ h

end NumPrime
