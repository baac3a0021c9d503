import Verif.Proofs.NextPrime
import Verif.Props.IsPrime64
import Verif.Props.IsPrimeGen
import Verif.Spec.Primes

/-! # C19 – C21: `next_prime`, `prev_prime`

`draws t` are the random values used by the primality test of the candidate `t` (only read for `t ≥ 2^64`); the
hypothesis `GoodDraws` excludes the value 0 (see C14). `fuel` bounds the number of candidates looked at. -/

namespace NumPrime
open Tables Spec

theorem mapR_ok_iff {α β : Type} {f : α → β} {x : Res α} {b : β} : x.mapR f = .ok b ↔ ∃ a, x = .ok a ∧ f a = b := by
  cases x <;> simp [Res.mapR]

/-- table branch of `next_prime` in one expression -/
theorem nextPrime_table_big {w : Width} {n : ℕ} (h : n < 8161) (config draws fuel) :
    nextPrime .big w n config draws fuel =
      (smallPrimeAt .big (binarySearch (smallPrimes .big) n).upper).mapR (fromNat w) := by
  have hl : (smallPrimes .big).getLastD 0 = 8161 := by rw [smallPrimes_last]; rfl
  unfold nextPrime
  rw [hl]
  simp only [h, or_true, if_true]
  cases binarySearch (smallPrimes .big) n <;> rfl

theorem nextPrime_wheel_big {w : Width} {n : ℕ} (h : 8161 ≤ n) (config draws fuel) :
    nextPrime .big w n config draws fuel = nextPrimeLoop .big w config draws fuel n (n % wheelSize .big) := by
  have hl : (smallPrimes .big).getLastD 0 = 8161 := by rw [smallPrimes_last]; rfl
  unfold nextPrime
  rw [hl]
  have : ¬ (n ≤ 255 ∨ n < 8161) := by omega
  simp only [this, if_false]

theorem nextPrime_wheel_small {w : Width} {n : ℕ} (h : 256 ≤ n) (config draws fuel) :
    nextPrime .small w n config draws fuel = nextPrimeLoop .small w config draws fuel n (n % wheelSize .small) := by
  unfold nextPrime
  have : ¬ n < 256 := by omega
  simp only [this, if_false]

/-- in the small build, the table branch returns the next prime for `n ≤ 251` and panics for 252..255 -/
theorem nextPrime_table_small (w : Width) {n : ℕ} (h : n < 256) (config draws fuel) :
    (n < 252 ∧ ∃ y, nextPrime .small w n config draws fuel = .ok (fromNat w y) ∧ y.Prime ∧ y < 2 ^ 64 ∧ n < y ∧
      ∀ q, q.Prime → n < q → y ≤ q) ∨
    (252 ≤ n ∧ nextPrime .small w n config draws fuel = .panic) := by
  have hN : smallPrimesNext .small = 257 := by decide
  have hlen : (smallPrimes .small).length = 54 := by rw [smallPrimes_length]; rfl
  obtain ⟨pos, hpos, hp2⟩ := binarySearch_pos (smallPrimes_sorted .small) n
  have ht := table_next .small (x := n) (by omega)
  rcases hpos with ⟨h1, h2⟩ | ⟨h1, h2⟩
  · obtain ⟨hp, _⟩ := mem_smallPrimes.mp h2
    have hlt : n < 252 := by
      by_contra hc
      have : n = 252 ∨ n = 253 ∨ n = 254 ∨ n = 255 := by omega
      rcases this with rfl | rfl | rfl | rfl <;> exact absurd hp (by norm_num)
    left
    refine ⟨hlt, ?_⟩
    simp only [h1, Search.upper] at ht
    unfold nextPrime
    simp only [h, if_true, h1]
    rcases ht with ⟨y, t1, t2, t3, t4, t5⟩ | ⟨t1, t2, t3⟩
    · have : ¬ pos + 1 = (smallPrimes .small).length := by
        intro hc
        rw [hc, List.getElem?_eq_none le_rfl] at t1
        simp at t1
      refine ⟨y, ?_, t2, t3, t4, t5⟩
      simp only [this, if_false, smallPrimeAt, t1, Res.mapR_ok]
    · simp only [t2, if_true]
      refine ⟨smallPrimesNext .small, rfl, smallPrimesNext_prime .small, by decide, by omega, t3⟩
  · simp only [h1, Search.upper] at ht
    unfold nextPrime
    simp only [h, if_true, h1]
    rcases ht with ⟨y, t1, t2, t3, t4, t5⟩ | ⟨t1, t2, t3⟩
    · left
      have hlt : n < 252 := by
        by_contra hc
        have h3 := t5 257 (by norm_num) (by omega)
        have h4 : y < 257 := by
          have := mem_smallPrimes.mp (List.mem_of_getElem? t1)
          rw [hN] at this; exact this.2
        have h5 : y = 252 ∨ y = 253 ∨ y = 254 ∨ y = 255 ∨ y = 256 := by omega
        rcases h5 with rfl | rfl | rfl | rfl | rfl <;> exact absurd t2 (by norm_num)
      refine ⟨hlt, y, ?_, t2, t3, t4, t5⟩
      simp only [smallPrimeAt, t1, Res.mapR_ok]
    · right
      refine ⟨?_, ?_⟩
      · by_contra hc
        rcases Nat.lt_or_ge n 251 with h3 | h3
        · have := t3 251 (by norm_num) h3
          rw [hN] at this; omega
        · have : n = 251 := by omega
          subst this
          exact h2 (mem_smallPrimes.mpr ⟨by norm_num, by decide⟩)
      · simp only [smallPrimeAt, t1, Res.mapR_panic]

/-- the two clauses of the contract, both builds -/
theorem nextPrime_contract (bld : Build) (w : Width) (hstd : StdWidth w) (n : ℕ)
    (config : Option PrimalityTestConfig) (draws : ℕ → List ℕ) (hdr : GoodDraws draws) (fuel : ℕ) (o : Option ℕ)
    (h : nextPrime bld w n config draws fuel = .ok o) :
    (∀ r, o = some r → n < r ∧ fits w r = true ∧ Accepted bld w config draws r ∧ ∀ q, q.Prime → n < q → r ≤ q) ∧
    (o = none → ∀ q, q.Prime → n < q → fits w q = false) := by
  have hfrom : ∀ y : ℕ, y.Prime → y < 2 ^ 64 → n < y → (∀ q, q.Prime → n < q → y ≤ q) → o = fromNat w y →
      (∀ r, o = some r → n < r ∧ fits w r = true ∧ Accepted bld w config draws r ∧ ∀ q, q.Prime → n < q → r ≤ q) ∧
      (o = none → ∀ q, q.Prime → n < q → fits w q = false) := by
    intro y h1 h2 h3 h4 h5
    unfold fromNat at h5
    by_cases hf : fits w y = true
    · rw [if_pos hf] at h5
      subst h5
      refine ⟨fun r hr => ?_, fun hr => by simp at hr⟩
      injection hr with hr
      subst hr
      exact ⟨h3, hf, accepted_small bld w config draws h1 h2, h4⟩
    · rw [if_neg hf] at h5
      refine ⟨fun r hr => by simp [h5] at hr, fun _ q hq hnq => ?_⟩
      by_contra hc
      exact hf (fits_mono (h4 q hq hnq) (by simpa using hc))
  cases bld
  · rcases Nat.lt_or_ge n 8161 with h8 | h8
    · rw [nextPrime_table_big h8] at h
      have hN : smallPrimesNext .big = 8167 := by decide
      rcases table_next .big (x := n) (by omega) with ⟨y, t1, t2, t3, t4, t5⟩ | ⟨t1, t2, t3⟩
      · simp only [smallPrimeAt, t1, Res.mapR_ok, Res.ok.injEq] at h
        exact hfrom y t2 t3 t4 t5 h.symm
      · have := t3 8161 ((tdPrime_iff (by norm_num)).mp (by decide +kernel)) h8
        omega
    · rw [nextPrime_wheel_big h8] at h
      have hW : wheelSize .big ≤ n := by have := wheelSize_lt .big; have : wheelSize .big = 2310 := by decide
                                         omega
      exact ⟨fun r hr => nextPrimeLoop_some hstd hdr fuel n r hW (hr ▸ h),
        fun hr => nextPrimeLoop_none hstd hdr fuel n hW (hr ▸ h)⟩
  · rcases Nat.lt_or_ge n 256 with h8 | h8
    · rcases nextPrime_table_small w h8 config draws fuel with ⟨_, y, t1, t2, t3, t4, t5⟩ | ⟨_, t1⟩
      · rw [t1] at h
        injection h with h
        exact hfrom y t2 t3 t4 t5 h.symm
      · rw [t1] at h; simp at h
    · rw [nextPrime_wheel_small h8] at h
      have hW : wheelSize .small ≤ n := by have : wheelSize .small = 30 := by decide
                                           omega
      exact ⟨fun r hr => nextPrimeLoop_some hstd hdr fuel n r hW (hr ▸ h),
        fun hr => nextPrimeLoop_none hstd hdr fuel n hW (hr ▸ h)⟩

/-- **C19** if `next_prime(n)` returns `Some(r)`, then `r > n` fits the type, was accepted by the configured primality
test, and no prime is skipped: every prime above `n` is at least `r` -/
theorem C19_next_prime_some (w : Width) (hstd : StdWidth w) (n : ℕ) (config : Option PrimalityTestConfig)
    (draws : ℕ → List ℕ) (hdr : GoodDraws draws) (fuel r : ℕ)
    (h : nextPrime .big w n config draws fuel = .ok (some r)) :
    n < r ∧ fits w r = true ∧ Accepted .big w config draws r ∧ ∀ q, q.Prime → n < q → r ≤ q :=
  (nextPrime_contract .big w hstd n config draws hdr fuel (some r) h).1 r rfl

/-- **C19** if `next_prime(n)` returns `None`, no prime above `n` fits the type -/
theorem C19_next_prime_none (w : Width) (hstd : StdWidth w) (n : ℕ) (config : Option PrimalityTestConfig)
    (draws : ℕ → List ℕ) (hdr : GoodDraws draws) (fuel : ℕ)
    (h : nextPrime .big w n config draws fuel = .ok none) : ∀ q, q.Prime → n < q → fits w q = false :=
  (nextPrime_contract .big w hstd n config draws hdr fuel none h).2 rfl

theorem nextPrime_returns (bld : Build) (w : Width) (hstd : StdWidth w) (n : ℕ) (config : Option PrimalityTestConfig)
    (draws : ℕ → List ℕ) (hdr : GoodDraws draws) (hen : ∀ t, fits w t = true → isPrimeNew bld w t config (draws t) ≠ .timeout)
    (hsm : bld = .small → ¬ (252 ≤ n ∧ n ≤ 255)) :
    ∃ o F, ∀ fuel, F ≤ fuel → nextPrime bld w n config draws fuel = .ok o := by
  obtain ⟨q, hq1, hq2⟩ := Nat.exists_infinite_primes (n + 1)
  cases bld
  · rcases Nat.lt_or_ge n 8161 with h8 | h8
    · have hN : smallPrimesNext .big = 8167 := by decide
      rcases table_next .big (x := n) (by omega) with ⟨y, t1, t2, t3, t4, t5⟩ | ⟨t1, t2, t3⟩
      · refine ⟨fromNat w y, 0, fun fuel _ => ?_⟩
        rw [nextPrime_table_big h8]
        simp only [smallPrimeAt, t1, Res.mapR_ok]
      · have := t3 8161 ((tdPrime_iff (by norm_num)).mp (by decide +kernel)) h8
        omega
    · have hW : wheelSize .big ≤ n := by have : wheelSize .big = 2310 := by decide
                                         omega
      obtain ⟨o, ho⟩ := nextPrimeLoop_total hstd hdr hen hq2 (q + 1) n hW (by omega) (by omega)
      exact ⟨o, q + 1, fun fuel hf => by rw [nextPrime_wheel_big h8]; exact ho fuel hf⟩
  · rcases Nat.lt_or_ge n 256 with h8 | h8
    · rcases nextPrime_table_small w h8 config draws 0 with ⟨_, y, t1, t2, t3, t4, t5⟩ | ⟨t0, t1⟩
      · refine ⟨fromNat w y, 0, fun fuel _ => ?_⟩
        have : nextPrime .small w n config draws fuel = nextPrime .small w n config draws 0 := by
          unfold nextPrime
          simp only [h8, if_true]
        rw [this, t1]
      · exact absurd ⟨t0, by omega⟩ (hsm rfl)
    · have hW : wheelSize .small ≤ n := by have : wheelSize .small = 30 := by decide
                                           omega
      obtain ⟨o, ho⟩ := nextPrimeLoop_total hstd hdr hen hq2 (q + 1) n hW (by omega) (by omega)
      exact ⟨o, q + 1, fun fuel hf => by rw [nextPrime_wheel_small h8]; exact ho fuel hf⟩

/-- **C19** `next_prime` always returns, and without a panic (the primality tests being supplied with enough random
values) -/
theorem C19_next_prime_returns (w : Width) (hstd : StdWidth w) (n : ℕ) (config : Option PrimalityTestConfig)
    (draws : ℕ → List ℕ) (hdr : GoodDraws draws) (hen : ∀ t, fits w t = true → isPrimeNew .big w t config (draws t) ≠ .timeout) :
    ∃ o F, ∀ fuel, F ≤ fuel → nextPrime .big w n config draws fuel = .ok o :=
  nextPrime_returns .big w hstd n config draws hdr hen (by simp)

theorem accepted_prime64 {bld : Build} {w : Width} {config draws} {r : ℕ} (h64 : r < 2 ^ 64)
    (hex : isPrime64 bld r = true → r.Prime) (h : Accepted bld w config draws r) : r.Prime := by
  obtain ⟨x, h1, h2⟩ := h
  rw [isPrimeNew, isPrime_below bld w _ h64] at h1
  injection h1 with h1
  by_cases hp : isPrime64 bld r = true
  · exact hex hp
  · rw [if_neg hp] at h1
    rw [← h1] at h2; simp [Primality.probably] at h2

theorem accepted_prime {bld : Build} (hex : NoPseudoprimes bld) {w : Width} {config draws} {r : ℕ} (h64 : r < 2 ^ 64)
    (h : Accepted bld w config draws r) : r.Prime :=
  accepted_prime64 h64 (fun hp => ((C02_is_prime64_exact_partial bld).mpr hex r h64).mp hp) h

theorem nextPrime_machine (b : ℕ) (hb : b ∈ [8, 16, 32, 64]) (n : ℕ)
    (hex : ∀ m < 2 ^ b, isPrime64 .big m = true → m.Prime)
    (config : Option PrimalityTestConfig) :
    ∃ F, ∀ fuel, F ≤ fuel →
      (∃ p, nextPrime .big (some b) n config (fun _ => []) fuel = .ok (some p) ∧ IsNextPrime n p) ∨
      (nextPrime .big (some b) n config (fun _ => []) fuel = .ok none ∧ ∀ p, IsNextPrime n p → 2 ^ b ≤ p) := by
  have hstd : StdWidth (some b) := Or.inr ⟨b, by simp at hb ⊢; tauto, rfl⟩
  have hdr : GoodDraws (fun _ => []) := fun t x hx => by simp at hx
  have hb64 : 2 ^ b ≤ 2 ^ 64 := by
    apply Nat.pow_le_pow_right (by norm_num)
    simp at hb; omega
  -- replace the possible timeout above 2^64 by restricting to the table / wheel argument
  obtain ⟨q, hq1, hq2⟩ := Nat.exists_infinite_primes (n + 1)
  have hnext : ∀ p, n < p → p.Prime → (∀ q, q.Prime → n < q → p ≤ q) → IsNextPrime n p :=
    fun p h1 h2 h3 => ⟨⟨h2, h1⟩, fun q hq => h3 q hq.1 hq.2⟩
  have hret : ∃ o F, ∀ fuel, F ≤ fuel → nextPrime .big (some b) n config (fun _ => []) fuel = .ok o := by
    rcases Nat.lt_or_ge n 8161 with h8 | h8
    · have hN : smallPrimesNext .big = 8167 := by decide
      rcases table_next .big (x := n) (by omega) with ⟨y, t1, t2, t3, t4, t5⟩ | ⟨t1, t2, t3⟩
      · refine ⟨fromNat (some b) y, 0, fun fuel _ => ?_⟩
        rw [nextPrime_table_big h8]
        simp only [smallPrimeAt, t1, Res.mapR_ok]
      · have := t3 8161 ((tdPrime_iff (by norm_num)).mp (by decide +kernel)) h8
        omega
    · have hW : wheelSize .big ≤ n := by have : wheelSize .big = 2310 := by decide
                                         omega
      -- a looser loop lemma: candidates that do not fit are never tested
      have key : ∀ f t, wheelSize .big ≤ t → t < q → q < t + f →
          ∃ o, ∀ g, f ≤ g → nextPrimeLoop .big (some b) config (fun _ => []) g t (t % wheelSize .big) = .ok o := by
        intro f
        induction f with
        | zero => intro t _ _ h; omega
        | succ f ih =>
          intro t ht htq hf
          obtain ⟨a, bb, c⟩ := wheel_up .big t
          have hunf : ∀ g, nextPrimeLoop .big (some b) config (fun _ => []) (g + 1) t (t % wheelSize .big) = (do
              if !fits (some b) (t + (wheelNext .big).getD (t % wheelSize .big) 0) then return none
              let r ← isPrimeNew .big (some b) (t + (wheelNext .big).getD (t % wheelSize .big) 0) config []
              if r.probably then return some (t + (wheelNext .big).getD (t % wheelSize .big) 0)
              nextPrimeLoop .big (some b) config (fun _ => []) g (t + (wheelNext .big).getD (t % wheelSize .big) 0)
                ((t + (wheelNext .big).getD (t % wheelSize .big) 0) % wheelSize .big)) := by
            intro g
            rw [nextPrimeLoop]
            simp only [bb]
          set o := (wheelNext .big).getD (t % wheelSize .big) 0
          have hcop := c q (coprime_wheel_of_prime hq2 (by omega)) htq
          by_cases hfit : fits (some b) (t + o) = true
          · have hlt : t + o < 2 ^ 64 := by rw [fits_some] at hfit; omega
            have h1 := isPrime_below .big (some b) (smallPrimes .big) hlt config []
            by_cases hr : (if isPrime64 .big (t + o) = true then Primality.yes else Primality.no).probably = true
            · refine ⟨some (t + o), ?_⟩
              intro g hg
              obtain ⟨g, rfl⟩ : ∃ g', g = g' + 1 := ⟨g - 1, by omega⟩
              rw [hunf, isPrimeNew, h1, Res.bind_ok]
              simp only [hfit, hr]; rfl
            · have hlt : t + o < q := by
                rcases Nat.lt_or_ge (t + o) q with h | h
                · exact h
                · have : q = t + o := by omega
                  subst this
                  rw [isPrime64_prime .big hq2] at hr
                  exact absurd rfl hr
              obtain ⟨x, hx⟩ := ih (t + o) (by omega) hlt (by omega)
              refine ⟨x, ?_⟩
              intro g hg
              obtain ⟨g, rfl⟩ : ∃ g', g = g' + 1 := ⟨g - 1, by omega⟩
              rw [hunf, isPrimeNew, h1, Res.bind_ok]
              simp only [hfit, hr]
              exact hx g (by omega)
          · refine ⟨none, ?_⟩
            intro g hg
            obtain ⟨g, rfl⟩ : ∃ g', g = g' + 1 := ⟨g - 1, by omega⟩
            rw [hunf]; simp [hfit]
      obtain ⟨o, ho⟩ := key (q + 1) n hW (by omega) (by omega)
      exact ⟨o, q + 1, fun fuel hf => by rw [nextPrime_wheel_big h8]; exact ho fuel hf⟩
  obtain ⟨o, F, hF⟩ := hret
  refine ⟨F, fun fuel hf => ?_⟩
  have h := hF fuel hf
  have hc := nextPrime_contract .big (some b) hstd n config _ hdr fuel o h
  cases o with
  | some r =>
    left
    obtain ⟨h1, h2, h3, h4⟩ := hc.1 r rfl
    refine ⟨r, h, hnext r h1 (accepted_prime64 ?_ (hex r (fits_some.mp h2)) h3) h4⟩
    rw [fits_some] at h2; omega
  | none =>
    right
    refine ⟨h, fun p hp => ?_⟩
    have := hc.2 rfl p hp.1.1 hp.1.2
    by_contra hlt
    rw [fits_some.mpr (by omega)] at this
    simp at this

/-- **C19** for machine integers up to 64 bits, given the pseudoprime claim behind `is_prime64`: `next_prime(n)` returns
the least prime greater than `n`, or `None` exactly when that prime does not fit the type -/
theorem C19_next_prime_machine (hex : NoPseudoprimes .big) (b : ℕ) (hb : b ∈ [8, 16, 32, 64]) (n : ℕ)
    (config : Option PrimalityTestConfig) :
    ∃ F, ∀ fuel, F ≤ fuel →
      (∃ p, nextPrime .big (some b) n config (fun _ => []) fuel = .ok (some p) ∧ IsNextPrime n p) ∨
      (nextPrime .big (some b) n config (fun _ => []) fuel = .ok none ∧ ∀ p, IsNextPrime n p → 2 ^ b ≤ p) := by
  refine nextPrime_machine b hb n (fun m hm => ((C02_is_prime64_exact_partial .big).mpr hex m (lt_of_lt_of_le hm ?_)).mp) config
  apply Nat.pow_le_pow_right (by norm_num)
  simp at hb; omega

/-- **C19** for `u8` and `u16` the same without any assumption -/
theorem C19_next_prime_u16 (b : ℕ) (hb : b ∈ [8, 16]) (n : ℕ) (config : Option PrimalityTestConfig) :
    ∃ F, ∀ fuel, F ≤ fuel →
      (∃ p, nextPrime .big (some b) n config (fun _ => []) fuel = .ok (some p) ∧ IsNextPrime n p) ∨
      (nextPrime .big (some b) n config (fun _ => []) fuel = .ok none ∧ ∀ p, IsNextPrime n p → 2 ^ b ≤ p) := by
  refine nextPrime_machine b (by simp at hb ⊢; tauto) n
    (fun m hm => (C02_is_prime64_exact_u16_partial .big m (lt_of_lt_of_le hm ?_)).mp) config
  apply Nat.pow_le_pow_right (by norm_num)
  simp at hb; omega

example : nextPrime .big (some 64) 8161 none (fun _ => []) 5 = .ok (some 8167) := by decide +kernel
example : nextPrime .big (some 8) 251 none (fun _ => []) 5 = .ok none := by decide +kernel
example : nextPrime .big (some 32) 4294967291 none (fun _ => []) 9 = .ok none := by decide +kernel
example : nextPrime .big none 1000000 none (fun _ => []) 9 = .ok (some 1000003) := by decide +kernel

/-- **C21 (partial)** without big tables the contract of C19 holds for every `n` outside 252..255. Missing: those four
values, for which the claim is false (`C21_next_prime_panics`). -/
theorem C21_next_prime_small_partial (w : Width) (hstd : StdWidth w) (n : ℕ) (hn : ¬ (252 ≤ n ∧ n ≤ 255))
    (config : Option PrimalityTestConfig) (draws : ℕ → List ℕ) (hdr : GoodDraws draws)
    (hen : ∀ t, fits w t = true → isPrimeNew .small w t config (draws t) ≠ .timeout) :
    ∃ F, ∀ fuel, F ≤ fuel →
      (∃ r, nextPrime .small w n config draws fuel = .ok (some r) ∧ n < r ∧ fits w r = true ∧
        Accepted .small w config draws r ∧ ∀ q, q.Prime → n < q → r ≤ q) ∨
      (nextPrime .small w n config draws fuel = .ok none ∧ ∀ q, q.Prime → n < q → fits w q = false) := by
  obtain ⟨o, F, hF⟩ := nextPrime_returns .small w hstd n config draws hdr hen (fun _ => hn)
  refine ⟨F, fun fuel hf => ?_⟩
  have h := hF fuel hf
  have hc := nextPrime_contract .small w hstd n config draws hdr fuel o h
  cases o with
  | some r => exact Or.inl ⟨r, h, hc.1 r rfl⟩
  | none => exact Or.inr ⟨h, hc.2 rfl⟩

/-- **C21, finding** without big tables `next_prime(n)` panics (index 54 of a table of 54 primes) for 252..255, for every
integer type and configuration -/
theorem C21_next_prime_panics (w : Width) (n : ℕ) (h1 : 252 ≤ n) (h2 : n ≤ 255) (config : Option PrimalityTestConfig)
    (draws : ℕ → List ℕ) (fuel : ℕ) : nextPrime .small w n config draws fuel = .panic := by
  rcases nextPrime_table_small w (by omega : n < 256) config draws fuel with ⟨h, _⟩ | ⟨_, h⟩
  · omega
  · exact h

example : nextPrime .small (some 64) 251 none (fun _ => []) 5 = .ok (some 257) := by decide +kernel
example : nextPrime .small (some 64) 256 none (fun _ => []) 5 = .ok (some 257) := by decide +kernel

theorem prevPrime_table (bld : Build) {w : Width} {n : ℕ} (h2 : 2 < n) (h : n < if bld = .big then 8161 else 256)
    (config draws fuel) : ∃ r, prevPrime bld w n config draws fuel = .ok (some r) ∧ IsPrevPrime n r := by
  have hl : (smallPrimes .big).getLastD 0 = 8161 := by rw [smallPrimes_last]; rfl
  have hs := smallPrimes_sorted bld
  have h2m : 2 ∈ smallPrimes bld := mem_smallPrimes.mpr ⟨Nat.prime_two, by have := le_smallPrimesNext bld; omega⟩
  obtain ⟨hpos, y, hy1, hy2, hy3, hy4⟩ := sorted_lower hs n ⟨2, h2m, h2⟩
  have hN : n ≤ smallPrimesNext bld := by
    cases bld
    · have : smallPrimesNext .big = 8167 := by decide
      simp at h; omega
    · have : smallPrimesNext .small = 257 := by decide
      simp at h; omega
  refine ⟨y, ?_, ⟨(mem_smallPrimes.mp hy2).1, hy3⟩, ?_⟩
  · obtain ⟨pos, hp1, hp2⟩ := binarySearch_pos hs n
    have hn2 : ¬ n ≤ 2 := by omega
    rw [← hp2] at hpos hy1
    cases bld
    · have hb : n < 8161 := by simpa using h
      simp only [prevPrime, hn2, if_false, hl, hb, decide_true, Bool.or_true, if_true]
      rcases hp1 with ⟨hp1, _⟩ | ⟨hp1, _⟩ <;> rw [hp1] <;>
        simp only [csub_ok (show 1 ≤ pos by omega), smallPrimeAt, hy1, Res.bind_ok, Res.pure_def]
    · have hb : n < 256 := by simpa using h
      simp only [prevPrime, hn2, if_false, hb, decide_true, if_true]
      rcases hp1 with ⟨hp1, _⟩ | ⟨hp1, _⟩ <;> rw [hp1] <;>
        simp only [csub_ok (show 1 ≤ pos by omega), smallPrimeAt, hy1, Res.bind_ok, Res.pure_def]
  · rintro q ⟨hq1, hq2⟩
    exact hy4 q (mem_smallPrimes.mpr ⟨hq1, by omega⟩) hq2

theorem prevPrime_wheel (bld : Build) {w : Width} {n : ℕ} (h : (if bld = .big then 8161 else 256) ≤ n)
    (config draws fuel) : prevPrime bld w n config draws fuel = prevPrimeLoop bld w config draws fuel n (n % wheelSize bld) := by
  have hl : (smallPrimes .big).getLastD 0 = 8161 := by rw [smallPrimes_last]; rfl
  cases bld
  · have hb : 8161 ≤ n := by simpa using h
    have h1 : ¬ n ≤ 2 := by omega
    have h2 : ¬ n ≤ 255 := by omega
    have h3 : ¬ n < 8161 := by omega
    simp only [prevPrime, h1, if_false, hl, h2, h3, decide_false, Bool.or_false, Bool.false_eq_true]
  · have hb : 256 ≤ n := by simpa using h
    have h1 : ¬ n ≤ 2 := by omega
    have h3 : ¬ n < 256 := by omega
    simp only [prevPrime, h1, if_false, h3, decide_false, Bool.false_eq_true]

/-- a prime between the wheel size and the end of the table -/
theorem prev_anchor (bld : Build) {n : ℕ} (h : (if bld = .big then 8161 else 256) ≤ n) :
    ∃ q, q.Prime ∧ wheelSize bld + 1 < q ∧ q < n := by
  cases bld
  · exact ⟨8147, (tdPrime_iff (by norm_num)).mp (by decide +kernel), by decide, by simp at h; omega⟩
  · exact ⟨251, by norm_num, by decide, by simp at h; omega⟩

/-- **C20** `prev_prime(n)` is `None` for `n ≤ 2` -/
theorem C20_prev_prime_none (bld : Build) (w : Width) (n : ℕ) (h : n ≤ 2) (config : Option PrimalityTestConfig)
    (draws : ℕ → List ℕ) (fuel : ℕ) : prevPrime bld w n config draws fuel = .ok none := by
  simp [prevPrime, h]

/-- **C20** for `n > 2`, whatever `prev_prime(n)` returns is `Some(r)` with `r < n`, `r` accepted by the configured test,
and no prime is skipped: every prime below `n` is at most `r` -/
theorem C20_prev_prime_some (bld : Build) (w : Width) (hstd : StdWidth w) (n : ℕ) (hn : 2 < n) (hw : fits w n = true)
    (config : Option PrimalityTestConfig) (draws : ℕ → List ℕ) (hdr : GoodDraws draws) (fuel : ℕ) (o : Option ℕ)
    (h : prevPrime bld w n config draws fuel = .ok o) :
    ∃ r, o = some r ∧ r < n ∧ Accepted bld w config draws r ∧ ∀ q, q.Prime → q < n → q ≤ r := by
  rcases Nat.lt_or_ge n (if bld = .big then 8161 else 256) with h8 | h8
  · obtain ⟨r, h1, h2⟩ := prevPrime_table bld hn h8 config draws fuel (w := w)
    rw [h1] at h
    injection h with h
    have hlt : r < 2 ^ 64 := by
      have := h2.1.2
      split at h8 <;> omega
    exact ⟨r, h.symm, h2.1.2, accepted_small bld w config draws h2.1.1 hlt, fun q hq1 hq2 => h2.2 ⟨hq1, hq2⟩⟩
  · rw [prevPrime_wheel bld h8] at h
    obtain ⟨q, hq⟩ := prev_anchor bld h8
    exact prevPrimeLoop_some hstd hdr fuel n o (by omega) hw ⟨q, hq⟩ h

/-- **C20** `prev_prime` always returns, and without a panic -/
theorem C20_prev_prime_returns (bld : Build) (w : Width) (hstd : StdWidth w) (n : ℕ) (hw : fits w n = true)
    (config : Option PrimalityTestConfig) (draws : ℕ → List ℕ) (hdr : GoodDraws draws)
    (hen : ∀ t, isPrimeNew bld w t config (draws t) ≠ .timeout) :
    ∃ o F, ∀ fuel, F ≤ fuel → prevPrime bld w n config draws fuel = .ok o := by
  rcases Nat.lt_or_ge 2 n with hn | hn
  · rcases Nat.lt_or_ge n (if bld = .big then 8161 else 256) with h8 | h8
    · obtain ⟨r, h1, h2⟩ := prevPrime_table bld hn h8 config draws 0 (w := w)
      refine ⟨some r, 0, fun fuel _ => ?_⟩
      obtain ⟨r', h1', h2'⟩ := prevPrime_table bld hn h8 config draws fuel (w := w)
      rw [h1', h2'.unique h2]
    · obtain ⟨q, hq1, hq2, hq3⟩ := prev_anchor bld h8
      obtain ⟨o, ho⟩ := prevPrimeLoop_total hstd hdr hen hq1 hq2 (n + 1) n hw hq3 (by omega)
      exact ⟨o, n + 1, fun fuel hf => by rw [prevPrime_wheel bld h8]; exact ho fuel hf⟩
  · exact ⟨none, 0, fun fuel _ => C20_prev_prime_none bld w n hn config draws fuel⟩

/-- below `2^64` no randomness is needed: `prev_prime` of a `u64` value -/
theorem prevPrime_u64 (bld : Build) (w : Width) (n : ℕ) (hn : 2 < n) (h64 : n < 2 ^ 64)
    (config : Option PrimalityTestConfig) (draws : ℕ → List ℕ) :
    ∃ r F, (∀ fuel, F ≤ fuel → prevPrime bld w n config draws fuel = .ok (some r)) ∧
      r < n ∧ isPrime64 bld r = true ∧ ∀ q, q.Prime → q < n → q ≤ r := by
  rcases Nat.lt_or_ge n (if bld = .big then 8161 else 256) with h8 | h8
  · obtain ⟨r, h1, h2⟩ := prevPrime_table bld hn h8 config draws 0 (w := w)
    refine ⟨r, 0, fun fuel _ => ?_, h2.1.2, isPrime64_prime bld h2.1.1, fun q hq1 hq2 => h2.2 ⟨hq1, hq2⟩⟩
    obtain ⟨r', h1', h2'⟩ := prevPrime_table bld hn h8 config draws fuel (w := w)
    rw [h1', h2'.unique h2]
  · obtain ⟨q, hq1, hq2, hq3⟩ := prev_anchor bld h8
    have key : ∀ f t, q < t → t < 2 ^ 64 → t < q + f → ∃ r, (∀ g, f ≤ g →
        prevPrimeLoop bld w config draws g t (t % wheelSize bld) = .ok (some r)) ∧ r < t ∧ isPrime64 bld r = true ∧
        ∀ q', q'.Prime → q' < t → q' ≤ r := by
      intro f
      induction f with
      | zero => intro t _ _ h; omega
      | succ f ih =>
        intro t htq h64 hf
        obtain ⟨a, b, c, d⟩ := wheel_down bld (t := t) (by omega)
        have hunf : ∀ g, prevPrimeLoop bld w config draws (g + 1) t (t % wheelSize bld) = (do
            let r ← isPrimeNew bld w (t - (wheelPrev bld).getD (t % wheelSize bld) 0) config
              (draws (t - (wheelPrev bld).getD (t % wheelSize bld) 0))
            if r.probably then return some (t - (wheelPrev bld).getD (t % wheelSize bld) 0)
            prevPrimeLoop bld w config draws g (t - (wheelPrev bld).getD (t % wheelSize bld) 0)
              ((t - (wheelPrev bld).getD (t % wheelSize bld) 0) % wheelSize bld)) := by
          intro g
          rw [prevPrimeLoop]
          simp only [csub_ok b, c, Res.bind_ok]
        set off := (wheelPrev bld).getD (t % wheelSize bld) 0
        have hcop := d q (coprime_wheel_of_prime hq1 (by omega)) htq
        have hall : ∀ q' : ℕ, q'.Prime → q' < t → q' ≤ t - off := fun q' hq' hqt => by
          rcases Nat.lt_or_ge (wheelSize bld) q' with h | h
          · exact d q' (coprime_wheel_of_prime hq' h) hqt
          · omega
        have h1 := isPrime_below bld w (smallPrimes bld) (by omega : t - off < 2 ^ 64) config (draws (t - off))
        by_cases hr : isPrime64 bld (t - off) = true
        · refine ⟨t - off, ?_, by omega, hr, hall⟩
          intro g hg
          obtain ⟨g, rfl⟩ : ∃ g', g = g' + 1 := ⟨g - 1, by omega⟩
          rw [hunf, isPrimeNew, h1, Res.bind_ok, hr]; rfl
        · have hne : ∀ q', q'.Prime → q' ≠ t - off := by
            rintro q' hq' rfl
            exact hr (isPrime64_prime bld hq')
          have := hne q hq1
          obtain ⟨r, x1, x2, x3, x4⟩ := ih (t - off) (by omega) (by omega) (by omega)
          refine ⟨r, ?_, by omega, x3, ?_⟩
          · intro g hg
            obtain ⟨g, rfl⟩ : ∃ g', g = g' + 1 := ⟨g - 1, by omega⟩
            rw [hunf, isPrimeNew, h1, Res.bind_ok, if_neg hr]
            exact x1 g (by omega)
          · intro q' hq' hqt
            have := hne q' hq'
            have := hall q' hq' hqt
            exact x4 q' hq' (by omega)
    obtain ⟨r, x1, x2, x3, x4⟩ := key (n + 1) n hq3 h64 (by omega)
    exact ⟨r, n + 1, fun fuel hf => by rw [prevPrime_wheel bld h8]; exact x1 fuel hf, x2, x3, x4⟩

/-- **C20** for `u64` values, given the pseudoprime claim behind `is_prime64`: `prev_prime(n)` is the greatest prime below
`n` for every `n > 2` -/
theorem C20_prev_prime_u64 (bld : Build) (hex : NoPseudoprimes bld) (w : Width) (n : ℕ) (hn : 2 < n) (h64 : n < 2 ^ 64)
    (config : Option PrimalityTestConfig) (draws : ℕ → List ℕ) :
    ∃ r F, (∀ fuel, F ≤ fuel → prevPrime bld w n config draws fuel = .ok (some r)) ∧ IsPrevPrime n r := by
  obtain ⟨r, F, h1, h2, h3, h4⟩ := prevPrime_u64 bld w n hn h64 config draws
  exact ⟨r, F, h1, ⟨((C02_is_prime64_exact_partial bld).mpr hex r (by omega)).mp h3, h2⟩, fun q hq => h4 q hq.1 hq.2⟩

/-- **C20** up to `2^16` the same without any assumption, in both builds -/
theorem C20_prev_prime_u16 (bld : Build) (w : Width) (n : ℕ) (hn : 2 < n) (h16 : n ≤ 2 ^ 16)
    (config : Option PrimalityTestConfig) (draws : ℕ → List ℕ) :
    ∃ r F, (∀ fuel, F ≤ fuel → prevPrime bld w n config draws fuel = .ok (some r)) ∧ IsPrevPrime n r := by
  obtain ⟨r, F, h1, h2, h3, h4⟩ := prevPrime_u64 bld w n hn (by omega) config draws
  exact ⟨r, F, h1, ⟨(C02_is_prime64_exact_u16_partial bld r (by omega)).mp h3, h2⟩, fun q hq => h4 q hq.1 hq.2⟩

example : prevPrime .big (some 64) 8167 none (fun _ => []) 5 = .ok (some 8161) := by decide +kernel
example : prevPrime .small (some 64) 256 none (fun _ => []) 5 = .ok (some 251) := by decide +kernel
example : prevPrime .big none 1000000 none (fun _ => []) 9 = .ok (some 999983) := by decide +kernel

end NumPrime
