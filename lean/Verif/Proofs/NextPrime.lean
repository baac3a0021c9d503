import Verif.Proofs.IsPrimeGen
import Mathlib.Data.Nat.Prime.Infinite

/-! # `next_prime`, `prev_prime` -/

namespace NumPrime
open Tables Spec

theorem sorted_upper {l : List ℕ} (hs : l.Pairwise (· < ·)) (x : ℕ) :
    (∀ y, l[(l.filter (· ≤ x)).length]? = some y → y ∈ l ∧ x < y ∧ ∀ z ∈ l, x < z → y ≤ z) ∧
    (l[(l.filter (· ≤ x)).length]? = none → ∀ z ∈ l, z ≤ x) := by
  induction l with
  | nil => simp
  | cons a t ih =>
    rw [List.pairwise_cons] at hs
    obtain ⟨ih1, ih2⟩ := ih hs.2
    by_cases h : a ≤ x
    · simp only [List.filter_cons, h, decide_true, if_true, List.length_cons, List.getElem?_cons_succ]
      constructor
      · intro y hy
        obtain ⟨a1, a2, a3⟩ := ih1 y hy
        refine ⟨List.mem_cons_of_mem _ a1, a2, ?_⟩
        intro z hz hxz
        rcases List.mem_cons.mp hz with rfl | hz
        · omega
        · exact a3 z hz hxz
      · intro hn z hz
        rcases List.mem_cons.mp hz with rfl | hz
        · exact h
        · exact ih2 hn z hz
    · have hf : (a :: t).filter (· ≤ x) = [] := by
        rw [List.filter_eq_nil_iff]
        intro b hb
        rcases List.mem_cons.mp hb with rfl | hb
        · simpa using h
        · have := hs.1 b hb; simp; omega
      rw [hf]
      simp only [List.length_nil, List.getElem?_cons_zero, Option.some.injEq, reduceCtorEq, false_implies, and_true]
      rintro y rfl
      refine ⟨List.mem_cons_self, by omega, ?_⟩
      intro z hz _
      rcases List.mem_cons.mp hz with rfl | hz
      · exact le_rfl
      · exact (hs.1 z hz).le

theorem sorted_lower {l : List ℕ} (hs : l.Pairwise (· < ·)) (x : ℕ) (h : ∃ z ∈ l, z < x) :
    0 < (l.filter (· < x)).length ∧
    ∃ y, l[(l.filter (· < x)).length - 1]? = some y ∧ y ∈ l ∧ y < x ∧ ∀ z ∈ l, z < x → z ≤ y := by
  induction l with
  | nil => simp at h
  | cons a t ih =>
    rw [List.pairwise_cons] at hs
    have hax : a < x := by
      obtain ⟨z, hz, hzx⟩ := h
      rcases List.mem_cons.mp hz with rfl | hz
      · exact hzx
      · have := hs.1 z hz; omega
    simp only [List.filter_cons, hax, decide_true, if_true, List.length_cons, Nat.add_sub_cancel]
    refine ⟨by omega, ?_⟩
    by_cases h' : ∃ z ∈ t, z < x
    · obtain ⟨h1, y, h2, h3, h4, h5⟩ := ih hs.2 h'
      refine ⟨y, ?_, List.mem_cons_of_mem _ h3, h4, ?_⟩
      · have e : (t.filter (· < x)).length = (t.filter (· < x)).length - 1 + 1 := by omega
        rw [e, List.getElem?_cons_succ]; exact h2
      · intro z hz hzx
        rcases List.mem_cons.mp hz with rfl | hz
        · exact (hs.1 y h3).le
        · exact h5 z hz hzx
    · push Not at h'
      have hf : t.filter (· < x) = [] := by
        rw [List.filter_eq_nil_iff]
        intro b hb; have := h' b hb; simp; omega
      rw [hf]
      refine ⟨a, by simp, List.mem_cons_self, hax, ?_⟩
      intro z hz hzx
      rcases List.mem_cons.mp hz with rfl | hz
      · exact le_rfl
      · have := h' z hz; omega

/-- all facts about one step of the wheel upwards -/
theorem wheel_up (bld : Build) (t : ℕ) :
    0 < (wheelNext bld).getD (t % wheelSize bld) 0 ∧
    addm (t % wheelSize bld) ((wheelNext bld).getD (t % wheelSize bld) 0) (wheelSize bld) =
      (t + (wheelNext bld).getD (t % wheelSize bld) 0) % wheelSize bld ∧
    ∀ q, Nat.gcd q (wheelSize bld) = 1 → t < q → t + (wheelNext bld).getD (t % wheelSize bld) 0 ≤ q := by
  have hp := wheelSize_pos bld
  have hm := Nat.mod_lt t (by omega : 0 < wheelSize bld)
  obtain ⟨a, b, c, d⟩ := wheelNext_spec bld (wheelSize bld - t % wheelSize bld - 1) (t % wheelSize bld) (by omega)
  refine ⟨a, by simp [addm], ?_⟩
  intro q hq htq
  by_contra hlt
  have := c (q - t) (by omega) (by omega)
  rw [gcd_mod_add] at this
  have e : t + (q - t) = q := by omega
  rw [e] at this
  exact this hq

theorem wheel_down (bld : Build) {t : ℕ} (ht : wheelSize bld < t) :
    0 < (wheelPrev bld).getD (t % wheelSize bld) 0 ∧ (wheelPrev bld).getD (t % wheelSize bld) 0 ≤ t ∧
    subm (t % wheelSize bld) ((wheelPrev bld).getD (t % wheelSize bld) 0) (wheelSize bld) =
      (t - (wheelPrev bld).getD (t % wheelSize bld) 0) % wheelSize bld ∧
    ∀ q, Nat.gcd q (wheelSize bld) = 1 → q < t → q ≤ t - (wheelPrev bld).getD (t % wheelSize bld) 0 := by
  have hp := wheelSize_pos bld
  have hm := Nat.mod_lt t (by omega : 0 < wheelSize bld)
  obtain ⟨a, b, c, d⟩ := wheelPrev_spec bld (t % wheelSize bld) hm
  set o := (wheelPrev bld).getD (t % wheelSize bld) 0 with ho
  set W := wheelSize bld with hW
  refine ⟨a, by omega, ?_, ?_⟩
  · unfold subm
    rw [Nat.mod_mod]
    -- o ≤ t % W + 1 ≤ W
    have hoW : o ≤ W := by omega
    have h1 : (t % W + (W - o % W)) % W = (t % W + W - o) % W := by
      rcases Nat.lt_or_ge o W with h | h
      · rw [Nat.mod_eq_of_lt h]; congr 1; omega
      · have : o = W := by omega
        rw [this, Nat.mod_self, Nat.sub_zero, Nat.add_sub_cancel, Nat.add_mod_right, Nat.mod_mod]
    rw [h1]
    have h2 : t + W - o = (t % W + W - o) + W * (t / W) := by
      have := Nat.mod_add_div t W
      omega
    have h3 : (t - o) % W = (t + W - o) % W := by
      have : t + W - o = (t - o) + W := by omega
      rw [this, Nat.add_mod_right]
    rw [h3, h2, Nat.add_mul_mod_self_left]
  · intro q hq hqt
    by_contra hlt
    have := d (t - q) (by omega) (by omega)
    apply this
    have e : W + t % W - (t - q) + W * (t / W) = q + W := by
      have := Nat.mod_add_div t W
      omega
    have h1 : Nat.gcd (W + t % W - (t - q)) W = Nat.gcd (W + t % W - (t - q) + W * (t / W)) W := by
      rw [Nat.gcd_add_mul_left_left]
    rw [h1, e, Nat.gcd_add_self_left]
    exact hq

/-- the configured test accepts `t` -/
def Accepted (bld : Build) (w : Width) (config : Option PrimalityTestConfig) (draws : ℕ → List ℕ) (t : ℕ) : Prop :=
  ∃ r, isPrimeNew bld w t config (draws t) = .ok r ∧ r.probably = true

/-- values the random generator can return, with the (unlucky) value 0 excluded -/
def GoodDraws (draws : ℕ → List ℕ) : Prop := ∀ t, ∀ x ∈ draws t, 0 < x ∧ x < 2 ^ 64

theorem smallPrimes_pos {bld : Build} : ∀ x ∈ smallPrimes bld, 0 < x ∧ x < 2 ^ 64 := by
  intro x hx
  have h := mem_smallPrimes.mp hx
  have := smallPrimesNext_le bld
  exact ⟨h.1.pos, by have := h.2; omega⟩

theorem isPrimeNew_prime (bld : Build) {w : Width} (hstd : StdWidth w) {p : ℕ} (hp : p.Prime) (hw : fits w p = true)
    (config : Option PrimalityTestConfig) {draws : List ℕ} (hdr : ∀ x ∈ draws, 0 < x ∧ x < 2 ^ 64) {r : Primality}
    (h : isPrimeNew bld w p config draws = .ok r) : r.probably = true := by
  rcases isPrime_prime bld hstd _ hp hw config draws smallPrimes_pos hdr r h with h | h <;> rw [h] <;> rfl

theorem accepted_small (bld : Build) (w : Width) (config) (draws) {t : ℕ} (hp : t.Prime) (h : t < 2 ^ 64) :
    Accepted bld w config draws t := by
  refine ⟨.yes, ?_, rfl⟩
  rw [isPrimeNew, isPrime_below bld w _ h, isPrime64_prime bld hp]; rfl

theorem nextPrimeLoop_some {bld : Build} {w : Width} (hstd : StdWidth w) {config : Option PrimalityTestConfig}
    {draws : ℕ → List ℕ} (hdr : GoodDraws draws) : ∀ f t r, wheelSize bld ≤ t →
    nextPrimeLoop bld w config draws f t (t % wheelSize bld) = .ok (some r) →
    t < r ∧ fits w r = true ∧ Accepted bld w config draws r ∧ ∀ q, q.Prime → t < q → r ≤ q
  | 0, t, r, _, h => by simp [nextPrimeLoop] at h
  | f + 1, t, r, ht, h => by
    obtain ⟨a, b, c⟩ := wheel_up bld t
    rw [nextPrimeLoop] at h
    simp only at h
    rw [b] at h
    set o := (wheelNext bld).getD (t % wheelSize bld) 0
    have hcop : ∀ q : ℕ, q.Prime → t < q → t + o ≤ q := fun q hq h => c q (coprime_wheel_of_prime hq (by omega)) h
    split at h
    · simp at h
    · rename_i hfit
      have hfit : fits w (t + o) = true := by simpa using hfit
      rw [Res.bind_eq_ok] at h
      obtain ⟨r0, h1, h2⟩ := h
      split at h2
      · rename_i hr
        simp only [Res.pure_def, Res.ok.injEq, Option.some.injEq] at h2
        subst h2
        exact ⟨by omega, hfit, ⟨r0, h1, hr⟩, hcop⟩
      · rename_i hr
        obtain ⟨x1, x2, x3, x4⟩ := nextPrimeLoop_some hstd hdr f (t + o) r (by omega) h2
        refine ⟨by omega, x2, x3, ?_⟩
        intro q hq htq
        rcases Nat.lt_or_ge (t + o) q with h3 | h3
        · exact x4 q hq h3
        · have : q = t + o := by have := hcop q hq htq; omega
          subst this
          exact absurd (isPrimeNew_prime bld hstd hq hfit config (hdr _) h1) hr

theorem nextPrimeLoop_none {bld : Build} {w : Width} (hstd : StdWidth w) {config : Option PrimalityTestConfig}
    {draws : ℕ → List ℕ} (hdr : GoodDraws draws) : ∀ f t, wheelSize bld ≤ t →
    nextPrimeLoop bld w config draws f t (t % wheelSize bld) = .ok none →
    ∀ q, q.Prime → t < q → fits w q = false
  | 0, t, _, h => by simp [nextPrimeLoop] at h
  | f + 1, t, ht, h => by
    obtain ⟨a, b, c⟩ := wheel_up bld t
    rw [nextPrimeLoop] at h
    simp only at h
    rw [b] at h
    set o := (wheelNext bld).getD (t % wheelSize bld) 0
    have hcop : ∀ q : ℕ, q.Prime → t < q → t + o ≤ q := fun q hq h => c q (coprime_wheel_of_prime hq (by omega)) h
    intro q hq htq
    split at h
    · rename_i hfit
      by_contra hf
      have := fits_mono (hcop q hq htq) (by simpa using hf : fits w q = true)
      simp [this] at hfit
    · rename_i hfit
      have hfit : fits w (t + o) = true := by simpa using hfit
      rw [Res.bind_eq_ok] at h
      obtain ⟨r0, h1, h2⟩ := h
      split at h2
      · simp at h2
      · rename_i hr
        rcases Nat.lt_or_ge (t + o) q with h3 | h3
        · exact nextPrimeLoop_none hstd hdr f (t + o) (by omega) h2 q hq h3
        · have : q = t + o := by have := hcop q hq htq; omega
          subst this
          exact absurd (isPrimeNew_prime bld hstd hq hfit config (hdr _) h1) hr

/-- with enough random values for every candidate, the loop ends at the latest at the next prime -/
theorem nextPrimeLoop_total {bld : Build} {w : Width} (hstd : StdWidth w) {config : Option PrimalityTestConfig}
    {draws : ℕ → List ℕ} (hdr : GoodDraws draws) (hen : ∀ t, fits w t = true → isPrimeNew bld w t config (draws t) ≠ .timeout)
    {q : ℕ} (hq : q.Prime) : ∀ f t, wheelSize bld ≤ t → t < q → q < t + f →
    ∃ o, ∀ g, f ≤ g → nextPrimeLoop bld w config draws g t (t % wheelSize bld) = .ok o
  | 0, t, _, _, h => by omega
  | f + 1, t, ht, htq, hf => by
    obtain ⟨a, b, c⟩ := wheel_up bld t
    have hunf : ∀ g, nextPrimeLoop bld w config draws (g + 1) t (t % wheelSize bld) = (do
        if !fits w (t + (wheelNext bld).getD (t % wheelSize bld) 0) then return none
        let r ← isPrimeNew bld w (t + (wheelNext bld).getD (t % wheelSize bld) 0) config
          (draws (t + (wheelNext bld).getD (t % wheelSize bld) 0))
        if r.probably then return some (t + (wheelNext bld).getD (t % wheelSize bld) 0)
        nextPrimeLoop bld w config draws g (t + (wheelNext bld).getD (t % wheelSize bld) 0)
          ((t + (wheelNext bld).getD (t % wheelSize bld) 0) % wheelSize bld)) := by
      intro g
      rw [nextPrimeLoop]
      simp only [b]
    set o := (wheelNext bld).getD (t % wheelSize bld) 0
    have hcop := c q (coprime_wheel_of_prime hq (by omega)) htq
    by_cases hfit : fits w (t + o) = true
    · obtain ⟨r0, h1⟩ : ∃ r0, isPrimeNew bld w (t + o) config (draws (t + o)) = .ok r0 := by
        have h2 := isPrime_ne_panic bld hstd (smallPrimes bld) (t + o) hfit config (draws (t + o))
        have h3 := hen (t + o) hfit
        unfold isPrimeNew at h3 ⊢
        cases h : isPrime bld w (smallPrimes bld) (t + o) config (draws (t + o)) with
        | ok r => exact ⟨r, rfl⟩
        | panic => exact absurd h h2
        | timeout => exact absurd h h3
      by_cases hr : r0.probably = true
      · refine ⟨some (t + o), ?_⟩
        intro g hg
        obtain ⟨g, rfl⟩ : ∃ g', g = g' + 1 := ⟨g - 1, by omega⟩
        rw [hunf]; simp [hfit, h1, hr]
      · have hlt : t + o < q := by
          rcases Nat.lt_or_ge (t + o) q with h | h
          · exact h
          · have : q = t + o := by omega
            subst this
            exact absurd (isPrimeNew_prime bld hstd hq hfit config (hdr _) h1) hr
        obtain ⟨x, hx⟩ := nextPrimeLoop_total hstd hdr hen hq f (t + o) (by omega) hlt (by omega)
        refine ⟨x, ?_⟩
        intro g hg
        obtain ⟨g, rfl⟩ : ∃ g', g = g' + 1 := ⟨g - 1, by omega⟩
        rw [hunf]; simp [hfit, h1, hr]
        exact hx g (by omega)
    · refine ⟨none, ?_⟩
      intro g hg
      obtain ⟨g, rfl⟩ : ∃ g', g = g' + 1 := ⟨g - 1, by omega⟩
      rw [hunf]; simp [hfit]

/-- the table part of `next_prime` -/
theorem table_next (bld : Build) {x : ℕ} (hx : x + 1 < smallPrimesNext bld) :
    (∃ y, (smallPrimes bld)[(binarySearch (smallPrimes bld) x).upper]? = some y ∧ y.Prime ∧ y < 2 ^ 64 ∧ x < y ∧
      ∀ q, q.Prime → x < q → y ≤ q) ∨
    ((smallPrimes bld)[(binarySearch (smallPrimes bld) x).upper]? = none ∧
      (binarySearch (smallPrimes bld) x).upper = (smallPrimes bld).length ∧
      ∀ q, q.Prime → x < q → smallPrimesNext bld ≤ q) := by
  have hs := smallPrimes_sorted bld
  rw [binarySearch_upper hs]
  obtain ⟨h1, h2⟩ := sorted_upper hs x
  cases h : (smallPrimes bld)[((smallPrimes bld).filter (· ≤ x)).length]? with
  | some y =>
    left
    obtain ⟨a, b, c⟩ := h1 y h
    obtain ⟨ap, al⟩ := mem_smallPrimes.mp a
    refine ⟨y, rfl, ap, (smallPrimes_pos y a).2, b, ?_⟩
    intro q hq hxq
    by_contra hc
    exact hc (c q (mem_smallPrimes.mpr ⟨hq, by omega⟩) hxq)
  | none =>
    right
    refine ⟨rfl, ?_, ?_⟩
    · have := List.getElem?_eq_none_iff.mp h
      have h3 := List.length_filter_le (fun y => decide (y ≤ x)) (smallPrimes bld)
      omega
    · intro q hq hxq
      by_contra hc
      have := h2 h q (mem_smallPrimes.mpr ⟨hq, by omega⟩)
      omega

theorem prevPrimeLoop_some {bld : Build} {w : Width} (hstd : StdWidth w) {config : Option PrimalityTestConfig}
    {draws : ℕ → List ℕ} (hdr : GoodDraws draws) : ∀ f t o, wheelSize bld + 1 < t → fits w t = true →
    (∃ q, q.Prime ∧ wheelSize bld + 1 < q ∧ q < t) →
    prevPrimeLoop bld w config draws f t (t % wheelSize bld) = .ok o →
    ∃ r, o = some r ∧ r < t ∧ Accepted bld w config draws r ∧ ∀ q, q.Prime → q < t → q ≤ r
  | 0, t, o, _, _, _, h => by simp [prevPrimeLoop] at h
  | f + 1, t, o, ht, hfit, hex, h => by
    obtain ⟨a, b, c, d⟩ := wheel_down bld (t := t) (by omega)
    rw [prevPrimeLoop] at h
    simp only at h
    rw [csub_ok b, Res.bind_ok, c] at h
    set off := (wheelPrev bld).getD (t % wheelSize bld) 0
    have hcop : ∀ q : ℕ, q.Prime → wheelSize bld < q → q < t → q ≤ t - off := fun q hq h h' =>
      d q (coprime_wheel_of_prime hq (by omega)) h'
    obtain ⟨q0, hq0, hq1, hq2⟩ := hex
    have h0 := hcop q0 hq0 (by omega) hq2
    rw [Res.bind_eq_ok] at h
    obtain ⟨r0, h1, h2⟩ := h
    have hall : ∀ q : ℕ, q.Prime → q < t → q ≤ t - off := fun q hq hqt => by
      rcases Nat.lt_or_ge (wheelSize bld) q with h | h
      · exact hcop q hq h hqt
      · omega
    split at h2
    · rename_i hr
      simp only [Res.pure_def, Res.ok.injEq] at h2
      exact ⟨t - off, h2.symm, by omega, ⟨r0, h1, hr⟩, hall⟩
    · rename_i hr
      have hfit' : fits w (t - off) = true := fits_mono (by omega) hfit
      have hne : ∀ q : ℕ, q.Prime → q ≠ t - off := by
        rintro q hq rfl
        exact hr (isPrimeNew_prime bld hstd hq hfit' config (hdr _) h1)
      have := hne q0 hq0
      obtain ⟨r, x1, x2, x3, x4⟩ := prevPrimeLoop_some hstd hdr f (t - off) o (by omega) hfit' ⟨q0, hq0, hq1, by omega⟩ h2
      refine ⟨r, x1, by omega, x3, ?_⟩
      intro q hq hqt
      have := hne q hq
      have := hall q hq hqt
      exact x4 q hq (by omega)

theorem prevPrimeLoop_total {bld : Build} {w : Width} (hstd : StdWidth w) {config : Option PrimalityTestConfig}
    {draws : ℕ → List ℕ} (hdr : GoodDraws draws) (hen : ∀ t, isPrimeNew bld w t config (draws t) ≠ .timeout)
    {q : ℕ} (hq : q.Prime) (hq1 : wheelSize bld + 1 < q) : ∀ f t, fits w t = true → q < t → t < q + f →
    ∃ o, ∀ g, f ≤ g → prevPrimeLoop bld w config draws g t (t % wheelSize bld) = .ok o
  | 0, t, _, _, h => by omega
  | f + 1, t, hfit, htq, hf => by
    obtain ⟨a, b, c, d⟩ := wheel_down bld (t := t) (by omega)
    have hunf : ∀ g, prevPrimeLoop bld w config draws (g + 1) t (t % wheelSize bld) = (do
        let r ← isPrimeNew bld w (t - (wheelPrev bld).getD (t % wheelSize bld) 0) config
          (draws (t - (wheelPrev bld).getD (t % wheelSize bld) 0))
        if r.probably then return some (t - (wheelPrev bld).getD (t % wheelSize bld) 0)
        prevPrimeLoop bld w config draws g (t - (wheelPrev bld).getD (t % wheelSize bld) 0)
          ((t - (wheelPrev bld).getD (t % wheelSize bld) 0) % wheelSize bld)) := by
      intro g
      rw [prevPrimeLoop]
      simp only [csub_ok b, c, Res.bind_ok]
    set off := (wheelPrev bld).getD (t % wheelSize bld) 0
    have hcop := d q (coprime_wheel_of_prime hq (by omega)) htq
    have hfit' : fits w (t - off) = true := fits_mono (by omega) hfit
    obtain ⟨r0, h1⟩ : ∃ r0, isPrimeNew bld w (t - off) config (draws (t - off)) = .ok r0 := by
      have h2 := isPrime_ne_panic bld hstd (smallPrimes bld) (t - off) hfit' config (draws (t - off))
      have h3 := hen (t - off)
      unfold isPrimeNew at h3 ⊢
      cases h : isPrime bld w (smallPrimes bld) (t - off) config (draws (t - off)) with
      | ok r => exact ⟨r, rfl⟩
      | panic => exact absurd h h2
      | timeout => exact absurd h h3
    by_cases hr : r0.probably = true
    · refine ⟨some (t - off), ?_⟩
      intro g hg
      obtain ⟨g, rfl⟩ : ∃ g', g = g' + 1 := ⟨g - 1, by omega⟩
      rw [hunf]; simp [h1, hr]
    · have hlt : q < t - off := by
        rcases Nat.lt_or_ge q (t - off) with h | h
        · exact h
        · have : q = t - off := by omega
          subst this
          exact absurd (isPrimeNew_prime bld hstd hq hfit' config (hdr _) h1) hr
      obtain ⟨x, hx⟩ := prevPrimeLoop_total hstd hdr hen hq hq1 f (t - off) hfit' hlt (by omega)
      refine ⟨x, ?_⟩
      intro g hg
      obtain ⟨g, rfl⟩ : ∃ g', g = g' + 1 := ⟨g - 1, by omega⟩
      rw [hunf]; simp [h1, hr]
      exact hx g (by omega)

end NumPrime
