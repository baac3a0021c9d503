import Verif.Model.Rand
import Verif.Proofs.Mint
import Verif.Props.NextPrime
import Mathlib.NumberTheory.Bertrand

/-! # Lemmas for random prime generation -/

namespace NumPrime
open Tables Spec Mint

theorem genLoop_spec {mk : ℕ → Res ℕ} {test : ℕ → ℕ → Res Bool} {next : ℕ → ℕ → Res (Option ℕ)} : ∀ f k p k',
    genLoop mk test next f k = .ok (p, k') → ∃ j t, k ≤ j ∧ k' = j + 1 ∧ mk j = .ok t ∧
      (test j t = .ok true ∧ p = t ∨ test j t = .ok false ∧ next j t = .ok (some p))
  | 0, k, p, k', h => by simp [genLoop] at h
  | f + 1, k, p, k', h => by
    rw [genLoop, Res.bind_eq_ok] at h
    obtain ⟨t, h1, h⟩ := h
    rw [Res.bind_eq_ok] at h
    obtain ⟨a, h2, h⟩ := h
    cases a
    · simp only [Bool.false_eq_true, if_false] at h
      rw [Res.bind_eq_ok] at h
      obtain ⟨o, h3, h⟩ := h
      cases o with
      | none =>
        obtain ⟨j, t', a1, a2⟩ := genLoop_spec f (k + 1) p k' h
        exact ⟨j, t', by omega, a2⟩
      | some q =>
        simp only [Res.pure_def, Res.ok.injEq, Prod.mk.injEq] at h
        obtain ⟨rfl, rfl⟩ := h
        exact ⟨k, t, le_rfl, rfl, h1, Or.inr ⟨h2, h3⟩⟩
    · simp only [if_true, Res.pure_def, Res.ok.injEq, Prod.mk.injEq] at h
      obtain ⟨rfl, rfl⟩ := h
      exact ⟨k, t, le_rfl, rfl, h1, Or.inl ⟨h2, rfl⟩⟩

/-- the loop returns if the attempts `k .. k+m-1` all end without panic and the attempt `k+m` succeeds -/
theorem genLoop_returns {mk : ℕ → Res ℕ} {test : ℕ → ℕ → Res Bool} {next : ℕ → ℕ → ℕ → Res (Option ℕ)}
    (hmk : ∀ j, ∃ t, mk j = .ok t) (htest : ∀ j t, mk j = .ok t → ∃ a, test j t = .ok a)
    (hnext : ∀ j t, mk j = .ok t → ∃ o F, ∀ fuel, F ≤ fuel → next fuel j t = .ok o) : ∀ m k,
    (∃ t, mk (k + m) = .ok t ∧ (test (k + m) t = .ok true ∨ ∀ fuel, next fuel (k + m) t ≠ .ok none)) →
    ∃ F r, ∀ fuel f, F ≤ fuel → F ≤ f → genLoop mk test (next fuel) f k = .ok r
  | m, k, hm => by
    obtain ⟨t, ht⟩ := hmk k
    obtain ⟨a, ha⟩ := htest k t ht
    obtain ⟨o, F, hF⟩ := hnext k t ht
    have key : ∀ fuel f, genLoop mk test (next fuel) (f + 1) k = (if a then .ok (t, k + 1) else
        next fuel k t >>= fun o => match o with
          | some p => .ok (p, k + 1)
          | none => genLoop mk test (next fuel) f (k + 1)) := by
      intro fuel f
      rw [genLoop, ht, Res.bind_ok, ha, Res.bind_ok]
      rfl
    cases a
    · cases o with
      | some p =>
        refine ⟨max F 1, (p, k + 1), fun fuel f h1 h2 => ?_⟩
        obtain ⟨g, rfl⟩ : ∃ g, f = g + 1 := ⟨f - 1, by omega⟩
        rw [key, hF fuel (by omega)]
        rfl
      | none =>
        cases m with
        | zero =>
          obtain ⟨t', h1, h2⟩ := hm
          rw [Nat.add_zero] at h1 h2
          rw [ht] at h1
          injection h1 with h1
          subst h1
          rcases h2 with h2 | h2
          · rw [ha] at h2; simp at h2
          · exact absurd (hF F le_rfl) (h2 F)
        | succ m =>
          obtain ⟨F', r, h⟩ := genLoop_returns hmk htest hnext m (k + 1) (by
            rw [show k + 1 + m = k + (m + 1) by omega]; exact hm)
          refine ⟨max F (F' + 1), r, fun fuel f h1 h2 => ?_⟩
          obtain ⟨g, rfl⟩ : ∃ g, f = g + 1 := ⟨f - 1, by omega⟩
          rw [key, hF fuel (by omega)]
          exact h fuel g (by omega) (by omega)
    · refine ⟨1, (t, k + 1), fun fuel f h1 h2 => ?_⟩
      obtain ⟨g, rfl⟩ : ∃ g, f = g + 1 := ⟨f - 1, by omega⟩
      rw [key]
      rfl

/-! ## the drawn numbers -/

theorem or_one_lt {x n : ℕ} (hn : 0 < n) (h : x < 2 ^ n) : x ||| 1 < 2 ^ n :=
  Nat.or_lt_two_pow h (Nat.one_lt_two_pow (by omega))

theorem or_one_odd (x : ℕ) : (x ||| 1) % 2 = 1 := by
  have := Nat.or_mod_two_eq_one (a := x) (b := 1)
  exact this.mpr (Or.inr rfl)

theorem shr_lt {b bits v : ℕ} (h : bits ≤ b) : v % 2 ^ b / 2 ^ (b - bits) < 2 ^ bits := by
  rw [Nat.div_lt_iff_lt_mul (by positivity), ← pow_add, show bits + (b - bits) = b by omega]
  exact Nat.mod_lt _ (by positivity)

theorem drawBits_eq {b bits : ℕ} (h0 : 0 < bits) (hb : bits ≤ b) (v : ℕ) :
    drawBits b bits v = .ok ((v % 2 ^ b / 2 ^ (b - bits)) ||| 1) := by
  have : cshr (some b) (v % 2 ^ b) (b - bits) = .ok ((v % 2 ^ b) >>> (b - bits)) := if_pos (by omega)
  rw [drawBits, this, Res.bind_ok, Nat.shiftRight_eq_div_pow]
  rfl

theorem drawBits_zero (b v : ℕ) : drawBits b 0 v = .panic := by
  have : cshr (some b) (v % 2 ^ b) (b - 0) = .panic := if_neg (by omega)
  rw [drawBits, this]
  rfl

theorem drawExact_eq {b bits : ℕ} (h0 : 0 < bits) (hb : bits ≤ b) (v : ℕ) :
    drawExact b bits v = .ok ((v % 2 ^ b / 2 ^ (b - bits)) ||| 1 ||| 2 ^ (bits - 1)) := by
  unfold drawExact
  rw [drawBits_eq h0 hb, Res.bind_ok, csub, if_pos (by omega), Res.bind_ok, Nat.one_shiftLeft]
  rfl

theorem drawExact_zero (b v : ℕ) : drawExact b 0 v = .panic := by
  unfold drawExact
  rw [drawBits_zero]
  rfl

/-- the numbers a single attempt can start from -/
theorem drawBits_ok {b bits v t : ℕ} (hb : bits ≤ b) (h : drawBits b bits v = .ok t) :
    0 < bits ∧ 1 ≤ t ∧ t < 2 ^ bits := by
  rcases Nat.eq_zero_or_pos bits with rfl | h0
  · rw [drawBits_zero] at h; simp at h
  · rw [drawBits_eq h0 hb] at h
    injection h with h
    subst h
    exact ⟨h0, Nat.right_le_or, or_one_lt h0 (shr_lt hb)⟩

theorem drawExact_ok {b bits v t : ℕ} (hb : bits ≤ b) (h : drawExact b bits v = .ok t) :
    0 < bits ∧ 2 ^ (bits - 1) ≤ t ∧ t < 2 ^ bits := by
  rcases Nat.eq_zero_or_pos bits with rfl | h0
  · rw [drawExact_zero] at h; simp at h
  · rw [drawExact_eq h0 hb] at h
    injection h with h
    subst h
    exact ⟨h0, Nat.right_le_or,
      Nat.or_lt_two_pow (or_one_lt h0 (shr_lt hb)) (Nat.pow_lt_pow_right (by norm_num) (by omega))⟩

/-! ## `next_prime` without assumptions on the random values -/

theorem nextPrimeLoop_accepted {bld : Build} {w : Width} {config : Option PrimalityTestConfig}
    {draws : ℕ → List ℕ} : ∀ f t i r, nextPrimeLoop bld w config draws f t i = .ok (some r) →
    t ≤ r ∧ fits w r = true ∧ Accepted bld w config draws r
  | 0, t, i, r, h => by simp [nextPrimeLoop] at h
  | f + 1, t, i, r, h => by
    rw [nextPrimeLoop] at h
    simp only at h
    split at h
    · simp at h
    · rename_i hfit
      have hfit : fits w (t + (wheelNext bld).getD i 0) = true := by simpa using hfit
      rw [Res.bind_eq_ok] at h
      obtain ⟨r0, h1, h2⟩ := h
      split at h2
      · rename_i hr
        simp only [Res.pure_def, Res.ok.injEq, Option.some.injEq] at h2
        subst h2
        exact ⟨by omega, hfit, ⟨r0, h1, hr⟩⟩
      · obtain ⟨x1, x2, x3⟩ := nextPrimeLoop_accepted f _ _ r h2
        exact ⟨by omega, x2, x3⟩

theorem fromNat_some {w : Width} {y r : ℕ} (h : fromNat w y = some r) : r = y ∧ fits w r = true := by
  unfold fromNat at h
  split at h
  · rename_i hf
    injection h with h
    subst h
    exact ⟨rfl, hf⟩
  · simp at h

/-- whatever the random values, `next_prime` returns an accepted number that is not smaller than the argument -/
theorem nextPrime_accepted (bld : Build) (w : Width) (n : ℕ) (config : Option PrimalityTestConfig)
    (draws : ℕ → List ℕ) (fuel r : ℕ) (h : nextPrime bld w n config draws fuel = .ok (some r)) :
    n ≤ r ∧ fits w r = true ∧ Accepted bld w config draws r := by
  cases bld
  · rcases Nat.lt_or_ge n 8161 with h8 | h8
    · rw [nextPrime_table_big h8] at h
      have hN : smallPrimesNext .big = 8167 := by decide
      rcases table_next .big (x := n) (by omega) with ⟨y, t1, t2, t3, t4, t5⟩ | ⟨t1, t2, t3⟩
      · simp only [smallPrimeAt, t1, Res.mapR_ok, Res.ok.injEq] at h
        obtain ⟨rfl, hf⟩ := fromNat_some h
        exact ⟨by omega, hf, accepted_small .big w config draws t2 t3⟩
      · simp only [smallPrimeAt, t1, Res.mapR_panic] at h
        simp at h
    · rw [nextPrime_wheel_big h8] at h
      exact nextPrimeLoop_accepted _ _ _ _ h
  · rcases Nat.lt_or_ge n 256 with h8 | h8
    · rcases nextPrime_table_small w h8 config draws fuel with ⟨_, y, t1, t2, t3, t4, t5⟩ | ⟨_, t1⟩
      · rw [t1] at h
        injection h with h
        obtain ⟨rfl, hf⟩ := fromNat_some h
        exact ⟨by omega, hf, accepted_small .small w config draws t2 t3⟩
      · rw [t1] at h; simp at h
    · rw [nextPrime_wheel_small h8] at h
      exact nextPrimeLoop_accepted _ _ _ _ h

theorem fits_64 {b n : ℕ} (hb : b ≤ 64) (h : fits (some b) n = true) : n < 2 ^ 64 := by
  have h1 : n < 2 ^ b := by simpa [fits] using h
  exact lt_of_lt_of_le h1 (Nat.pow_le_pow_right (by norm_num) hb)

theorem nextPrimeLoop_draws {bld : Build} {b : ℕ} (hb : b ≤ 64) {config : Option PrimalityTestConfig}
    (d d' : ℕ → List ℕ) : ∀ f t i, nextPrimeLoop bld (some b) config d f t i = nextPrimeLoop bld (some b) config d' f t i
  | 0, t, i => rfl
  | f + 1, t, i => by
    rw [nextPrimeLoop, nextPrimeLoop]
    simp only
    split
    · rfl
    · rename_i hfit
      have hfit : fits (some b) (t + (wheelNext bld).getD i 0) = true := by simpa using hfit
      have h64 := fits_64 hb hfit
      rw [isPrimeNew, isPrimeNew, isPrime_below bld _ _ h64, isPrime_below bld _ _ h64, Res.bind_ok, Res.bind_ok,
        nextPrimeLoop_draws hb d d' f]

/-- for types of at most 64 bits the random values are not used -/
theorem nextPrime_draws (bld : Build) {b : ℕ} (hb : b ≤ 64) (n : ℕ) (config : Option PrimalityTestConfig)
    (d d' : ℕ → List ℕ) (fuel : ℕ) :
    nextPrime bld (some b) n config d fuel = nextPrime bld (some b) n config d' fuel := by
  unfold nextPrime
  cases bld <;> simp only [nextPrimeLoop_draws hb d d']

theorem goodDraws_nil : GoodDraws (fun _ => []) := fun _ _ h => by simp at h

/-! ## the tests -/

theorem mIsPrime_ok (bld : Build) (w : Width) (list : List ℕ) {n : ℕ} (hw : fits w n = true)
    (config : Option PrimalityTestConfig) (draws : List ℕ) (r : Primality)
    (h : mIsPrime bld w list (left n) config draws = .ok r) : isPrime bld w list n config draws = .ok r := by
  unfold mIsPrime at h
  unfold isPrime
  rcases Nat.mod_two_eq_zero_or_one n with h0 | ho
  · simpa [isEven, h0, Mint.eq, Res.bind_ok] using h
  · simp only [isEven, value_left, ho, show ((1 : ℕ) == 0) = false from rfl, Bool.false_eq_true, if_false, one_ne_zero]
      at h ⊢
    by_cases hlt : n < 2 ^ 64
    · rw [show (left n).toU64 = some n from if_pos hlt] at h
      rw [if_pos hlt]
      exact h
    · rw [show (left n).toU64 = none from if_neg hlt] at h
      rw [if_neg hlt]
      simp only [mAllSprp_eq ho, mIsSlprp_eq bld w ho hw] at h
      rcases mIsEslprp_or bld w ho hw none with he | he
      · cases hc : (config.getD .default).eslprpTest
        · simp only [hc, Bool.false_eq_true, if_false] at h ⊢
          exact h
        · simp only [hc, if_true, he] at h ⊢
          rw [Res.bind_eq_ok] at h ⊢
          obtain ⟨wl, h1, h⟩ := h
          refine ⟨wl, h1, ?_⟩
          rw [Res.bind_eq_ok] at h ⊢
          obtain ⟨a, h2, h⟩ := h
          refine ⟨a, h2, ?_⟩
          split at h
          · rename_i ha
            simp only [ha, if_true]
            exact h
          · rename_i ha
            simp only [ha, Bool.false_eq_true, if_false]
            rw [Res.bind_eq_ok] at h ⊢
            obtain ⟨s, h3, h⟩ := h
            refine ⟨s, h3, ?_⟩
            split at h
            · rename_i hs
              simp only [hs, if_true]
              exact h
            · rw [Res.bind_eq_ok] at h
              obtain ⟨_, h4, _⟩ := h
              simp at h4
      · rw [he] at h
        exact h

theorem testMint_true {bld : Build} {src : RandSource} {config : Option PrimalityTestConfig} {k t : ℕ}
    (hw : fits (some 128) t = true) (h : testMint bld src config k t = .ok true) :
    Accepted bld (some 128) config (src.draws k) t := by
  rw [testMint, mapR_ok_iff] at h
  obtain ⟨r, h1, h2⟩ := h
  exact ⟨r, mIsPrime_ok bld _ _ hw config _ r h1, h2⟩

theorem testMint_false {bld : Build} {src : RandSource} {config : Option PrimalityTestConfig} {k t : ℕ}
    (hdr : GoodDraws (src.draws k)) (hw : fits (some 128) t = true) (h : testMint bld src config k t = .ok false) :
    ¬ t.Prime := by
  rw [testMint, mapR_ok_iff] at h
  obtain ⟨r, h1, h2⟩ := h
  intro hp
  have := isPrimeNew_prime bld (w := some 128) (Or.inr ⟨128, by simp, rfl⟩) hp hw config (hdr t)
    (mIsPrime_ok bld _ _ hw config _ r h1)
  rw [h2] at this
  simp at this

theorem testPlain_true {bld : Build} {w : Width} {src : RandSource} {config : Option PrimalityTestConfig} {k t : ℕ}
    (h : testPlain bld w src config k t = .ok true) : Accepted bld w config (src.draws k) t := by
  rw [testPlain, mapR_ok_iff] at h
  exact h

theorem testPlain_false {bld : Build} {w : Width} (hstd : StdWidth w) {src : RandSource}
    {config : Option PrimalityTestConfig} {k t : ℕ}
    (hdr : GoodDraws (src.draws k)) (hw : fits w t = true) (h : testPlain bld w src config k t = .ok false) :
    ¬ t.Prime := by
  rw [testPlain, mapR_ok_iff] at h
  obtain ⟨r, h1, h2⟩ := h
  intro hp
  have := isPrimeNew_prime bld hstd hp hw config (hdr t) h1
  rw [h2] at this
  simp at this

/-! ## consequences -/

/-- the bounds that follow when no prime between the drawn number and the result was skipped -/
theorem overshoot {t p bits : ℕ} (h1 : 1 ≤ t) (ht : t < 2 ^ bits) (hmin : ∀ q, q.Prime → t ≤ q → p ≤ q) :
    p < 2 ^ (bits + 1) ∧ ∀ q, q.Prime → 2 ^ bits ≤ q → p ≤ q := by
  obtain ⟨q, hq, h2, h3⟩ := Nat.exists_prime_lt_and_le_two_mul t (by omega)
  have := hmin q hq h2.le
  refine ⟨by rw [pow_succ]; omega, fun q hq h => hmin q hq (by omega)⟩

/-- contract of the loop -/
theorem genLoop_contract {w : Width} {mk : ℕ → Res ℕ} {test : ℕ → ℕ → Res Bool} {next : ℕ → ℕ → Res (Option ℕ)}
    (hmk : ∀ j t, mk j = .ok t → fits w t = true)
    (htest : ∀ j t, fits w t = true → test j t = .ok false → ¬ t.Prime)
    (hnext : ∀ j t p, next j t = .ok (some p) → t < p ∧ fits w p = true ∧ ∀ q, q.Prime → t < q → p ≤ q)
    {f k p k' : ℕ} (h : genLoop mk test next f k = .ok (p, k')) :
    ∃ j t, k ≤ j ∧ k' = j + 1 ∧ mk j = .ok t ∧ t ≤ p ∧ fits w p = true ∧ (∀ q, q.Prime → t ≤ q → p ≤ q) := by
  obtain ⟨j, t, h1, h2, h3, h4⟩ := genLoop_spec f k p k' h
  rcases h4 with ⟨h4, rfl⟩ | ⟨h4, h5⟩
  · exact ⟨j, p, h1, h2, h3, le_rfl, hmk j p h3, fun q _ hq => hq⟩
  · obtain ⟨a1, a2, a3⟩ := hnext j t p h5
    refine ⟨j, t, h1, h2, h3, a1.le, a2, fun q hq htq => ?_⟩
    rcases Nat.lt_or_ge t q with h6 | h6
    · exact a3 q hq h6
    · have : q = t := by omega
      exact absurd (this ▸ hq) (htest j t (hmk j t h3) h4)

end NumPrime
