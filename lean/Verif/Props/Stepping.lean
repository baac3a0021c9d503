import Verif.Props.IsPrime64
import Verif.Props.NextPrime

/-! # C114: next_prime and prev_prime step through the numbers is_prime64 accepts

Below `2^64` this needs no knowledge about pseudoprimes: whatever set of numbers `is_prime64` accepts, `next_prime` and `prev_prime` go to
its next and previous element. -/

namespace NumPrime
open Spec Tables

theorem gcd_wheel_of_accepted {bld : Build} {q : ℕ} (h : isPrime64 bld q = true) (hq : wheelSize bld < q) : Nat.gcd q (wheelSize bld) = 1 := by
  by_contra hg
  obtain ⟨p, hp, hd⟩ := Nat.exists_prime_and_dvd hg
  have hw : p ∣ wheelSize bld := hd.trans (Nat.gcd_dvd_right _ _)
  have hle := Nat.le_of_dvd (by have := wheelSize_pos bld; omega) hw
  rw [C68_wheel_factor_rejected bld q p hp hw (hd.trans (Nat.gcd_dvd_left _ _)) (by omega)] at h
  simp at h

theorem isPrimeNew_below {bld : Build} {w : Width} {t : ℕ} (h : t < 2 ^ 64) (config draws) :
    isPrimeNew bld w t config draws = .ok (if isPrime64 bld t then .yes else .no) := isPrime_below bld w _ h config draws

theorem probably_iff {b : Bool} : (if b = true then Primality.yes else Primality.no).probably = b := by cases b <;> rfl

/-- what `next_prime` promises, for the numbers accepted by `is_prime64` -/
def NextAccepted (bld : Build) (w : Width) (n : ℕ) (o : Option ℕ) : Prop :=
  (∀ r, o = some r → n < r ∧ fits w r = true ∧ (r < 2 ^ 64 → isPrime64 bld r = true) ∧
    ∀ q, n < q → q < 2 ^ 64 → isPrime64 bld q = true → r ≤ q) ∧
  (o = none → ∀ q, n < q → q < 2 ^ 64 → isPrime64 bld q = true → fits w q = false)

theorem nextPrimeLoop_least {bld : Build} {w : Width} {config : Option PrimalityTestConfig} {draws : ℕ → List ℕ} :
    ∀ f t o, wheelSize bld ≤ t → nextPrimeLoop bld w config draws f t (t % wheelSize bld) = .ok o → NextAccepted bld w t o
  | 0, t, o, _, h => by simp [nextPrimeLoop] at h
  | f + 1, t, o, ht, h => by
    obtain ⟨a, b, c⟩ := wheel_up bld t
    rw [nextPrimeLoop] at h
    simp only at h
    rw [b] at h
    set d := (wheelNext bld).getD (t % wheelSize bld) 0
    have hcop : ∀ q : ℕ, t < q → isPrime64 bld q = true → t + d ≤ q := fun q hq h => c q (gcd_wheel_of_accepted h (by omega)) hq
    split at h
    · rename_i hfit
      simp only [Res.pure_def, Res.ok.injEq] at h
      subst h
      refine ⟨fun r hr => by simp at hr, fun _ q h1 _ h3 => ?_⟩
      by_contra hc
      have := fits_mono (hcop q h1 h3) (by simpa using hc)
      simp [this] at hfit
    · rename_i hfit
      have hfit : fits w (t + d) = true := by simpa using hfit
      rw [Res.bind_eq_ok] at h
      obtain ⟨r0, h1, h2⟩ := h
      split at h2
      · rename_i hr
        simp only [Res.pure_def, Res.ok.injEq] at h2
        subst h2
        refine ⟨fun r hr' => ?_, fun h => by simp at h⟩
        injection hr' with hr'
        subst hr'
        refine ⟨by omega, hfit, fun hlt => ?_, fun q h3 _ h4 => hcop q h3 h4⟩
        rw [isPrimeNew_below hlt, Res.ok.injEq] at h1
        rw [← h1, probably_iff] at hr
        exact hr
      · rename_i hr
        have hih := nextPrimeLoop_least f (t + d) o (by omega) h2
        have hne : ∀ q, t < q → q < 2 ^ 64 → isPrime64 bld q = true → t + d < q := by
          intro q h3 h4 h5
          refine lt_of_le_of_ne (hcop q h3 h5) ?_
          rintro rfl
          rw [isPrimeNew_below h4, Res.ok.injEq] at h1
          rw [← h1, probably_iff] at hr
          exact hr h5
        refine ⟨fun r hr' => ?_, fun ho q h3 h4 h5 => hih.2 ho q (hne q h3 h4 h5) h4 h5⟩
        obtain ⟨x1, x2, x3, x4⟩ := hih.1 r hr'
        exact ⟨by omega, x2, x3, fun q h3 h4 h5 => x4 q (hne q h3 h4 h5) h4 h5⟩

/-- **C114** `next_prime(n)` is the least number above `n` that `is_prime64` accepts, as long as there is one below `2^64` (for every integer
type, configuration and history of random values), and `None` only if no such number fits the type -/
theorem C114_next_prime_least (bld : Build) (w : Width) (n : ℕ) (config : Option PrimalityTestConfig) (draws : ℕ → List ℕ) (fuel : ℕ)
    (o : Option ℕ) (h : nextPrime bld w n config draws fuel = .ok o) :
    (∀ r, o = some r → n < r ∧ fits w r = true ∧ (r < 2 ^ 64 → isPrime64 bld r = true) ∧
      ∀ q, n < q → q < 2 ^ 64 → isPrime64 bld q = true → r ≤ q) ∧
    (o = none → ∀ q, n < q → q < 2 ^ 64 → isPrime64 bld q = true → fits w q = false) := by
  have hfrom : ∀ y : ℕ, y.Prime → n < y → y ≤ smallPrimesNext bld → (∀ q, q.Prime → n < q → y ≤ q) → o = fromNat w y → NextAccepted bld w n o := by
    intro y h1 h3 hy h4 h5
    have h6 : ∀ q, n < q → isPrime64 bld q = true → y ≤ q := by
      intro q hq hp
      by_contra hc
      exact hc (h4 q ((C68_table_exact bld q (by omega)).mp hp) hq)
    unfold fromNat at h5
    by_cases hf : fits w y = true
    · rw [if_pos hf] at h5
      subst h5
      refine ⟨fun r hr => ?_, fun hr => by simp at hr⟩
      injection hr with hr
      subst hr
      exact ⟨h3, hf, fun _ => isPrime64_prime bld h1, fun q hq _ hp => h6 q hq hp⟩
    · rw [if_neg hf] at h5
      refine ⟨fun r hr => by simp [h5] at hr, fun _ q hq _ hp => ?_⟩
      by_contra hc
      exact hf (fits_mono (h6 q hq hp) (by simpa using hc))
  cases bld
  · have hN : smallPrimesNext .big = 8167 := by decide
    have hp : Nat.Prime 8161 := (tdPrime_iff (by norm_num)).mp (by decide +kernel)
    rcases Nat.lt_or_ge n 8161 with h8 | h8
    · rw [nextPrime_table_big h8] at h
      rcases table_next .big (x := n) (by omega) with ⟨y, t1, t2, t3, t4, t5⟩ | ⟨t1, t2, t3⟩
      · simp only [smallPrimeAt, t1, Res.mapR_ok, Res.ok.injEq] at h
        have := t5 8161 hp h8
        exact hfrom y t2 t4 (by omega) t5 h.symm
      · have := t3 8161 hp h8
        omega
    · rw [nextPrime_wheel_big h8] at h
      have : wheelSize .big = 2310 := by decide
      exact nextPrimeLoop_least fuel n o (by omega) h
  · have hN : smallPrimesNext .small = 257 := by decide
    rcases Nat.lt_or_ge n 256 with h8 | h8
    · rcases nextPrime_table_small w h8 config draws fuel with ⟨_, y, t1, t2, t3, t4, t5⟩ | ⟨_, t1⟩
      · rw [t1] at h
        injection h with h
        have := t5 257 (by norm_num) (by omega)
        exact hfrom y t2 t4 (by omega) t5 h.symm
      · rw [t1] at h; simp at h
    · rw [nextPrime_wheel_small h8] at h
      have : wheelSize .small = 30 := by decide
      exact nextPrimeLoop_least fuel n o (by omega) h

theorem prevPrimeLoop_greatest {bld : Build} {w : Width} {config : Option PrimalityTestConfig} {draws : ℕ → List ℕ} {q0 : ℕ}
    (hq0 : isPrime64 bld q0 = true) (hW : wheelSize bld + 1 < q0) :
    ∀ f t o, q0 < t → t ≤ 2 ^ 64 → prevPrimeLoop bld w config draws f t (t % wheelSize bld) = .ok o →
    ∃ r, o = some r ∧ IsGreatest {q | q < t ∧ isPrime64 bld q = true} r
  | 0, t, o, _, _, h => by simp [prevPrimeLoop] at h
  | f + 1, t, o, ht, ht64, h => by
    obtain ⟨a, b, c, d⟩ := wheel_down bld (t := t) (by omega)
    rw [prevPrimeLoop] at h
    simp only at h
    rw [csub_ok b, Res.bind_ok, c] at h
    set off := (wheelPrev bld).getD (t % wheelSize bld) 0
    have h0 := d q0 (gcd_wheel_of_accepted hq0 (by omega)) ht
    have hall : ∀ q : ℕ, isPrime64 bld q = true → q < t → q ≤ t - off := fun q hq hqt => by
      rcases Nat.lt_or_ge (wheelSize bld) q with h | h
      · exact d q (gcd_wheel_of_accepted hq h) hqt
      · omega
    rw [isPrimeNew_below (by omega), Res.bind_ok, probably_iff] at h
    split at h
    · rename_i hr
      simp only [Res.pure_def, Res.ok.injEq] at h
      exact ⟨t - off, h.symm, ⟨by omega, hr⟩, fun q hq => hall q hq.2 hq.1⟩
    · rename_i hr
      have hne : ∀ q : ℕ, isPrime64 bld q = true → q < t → q < t - off := fun q hq hqt =>
        lt_of_le_of_ne (hall q hq hqt) (by rintro rfl; exact hr hq)
      obtain ⟨r, x1, x2, x3⟩ := prevPrimeLoop_greatest hq0 hW f (t - off) o (hne q0 hq0 ht) (by omega) h
      exact ⟨r, x1, ⟨lt_of_lt_of_le x2.1 (by omega), x2.2⟩, fun q hq => x3 ⟨hne q hq.2 hq.1, hq.2⟩⟩

/-- **C114** for `2 < n ≤ 2^64`, `prev_prime(n)` is the greatest number below `n` that `is_prime64` accepts -/
theorem C114_prev_prime_greatest (bld : Build) (w : Width) (n : ℕ) (hn : 2 < n) (h64 : n ≤ 2 ^ 64) (config : Option PrimalityTestConfig)
    (draws : ℕ → List ℕ) (fuel : ℕ) (o : Option ℕ) (h : prevPrime bld w n config draws fuel = .ok o) :
    ∃ r, o = some r ∧ IsGreatest {q | q < n ∧ isPrime64 bld q = true} r := by
  rcases Nat.lt_or_ge n (if bld = .big then 8161 else 256) with h8 | h8
  · obtain ⟨r, h1, h2⟩ := prevPrime_table bld hn h8 config draws fuel (w := w)
    rw [h1] at h
    injection h with h
    refine ⟨r, h.symm, ⟨h2.1.2, isPrime64_prime bld h2.1.1⟩, fun q hq => h2.2 ⟨(C68_table_exact bld q ?_).mp hq.2, hq.1⟩⟩
    have := hq.1
    cases bld
    · have hN : smallPrimesNext .big = 8167 := by decide
      simp at h8; omega
    · have hN : smallPrimesNext .small = 257 := by decide
      simp at h8; omega
  · rw [prevPrime_wheel bld h8] at h
    obtain ⟨q, hq1, hq2, hq3⟩ := prev_anchor bld h8
    exact prevPrimeLoop_greatest (isPrime64_prime bld hq1) hq2 fuel n o hq3 h64 h

theorem std_machine {b : ℕ} (hb : b ∈ [8, 16, 32, 64]) : StdWidth (some b) ∧ b ≤ 64 := by
  simp only [List.mem_cons, List.not_mem_nil, or_false] at hb
  rcases hb with rfl | rfl | rfl | rfl <;> exact ⟨Or.inr ⟨_, by simp, rfl⟩, by norm_num⟩

theorem nextPrime_machine_returns (bld : Build) {b : ℕ} (hb : b ∈ [8, 16, 32, 64]) {n : ℕ} (hsm : bld = .small → ¬ (252 ≤ n ∧ n ≤ 255))
    (config : Option PrimalityTestConfig) : ∃ o F, ∀ fuel, F ≤ fuel → nextPrime bld (some b) n config (fun _ => []) fuel = .ok o := by
  refine nextPrime_returns bld (some b) (std_machine hb).1 n config (fun _ => []) (fun _ x hx => by simp at hx) (fun t ht => ?_) hsm
  have : t < 2 ^ b := by simpa [fits] using ht
  have h2 : 2 ^ b ≤ 2 ^ 64 := Nat.pow_le_pow_right (by norm_num) (std_machine hb).2
  rw [isPrimeNew_below (by omega)]
  simp

theorem accepted_not_gap {bld : Build} {p : ℕ} (h : isPrime64 bld p = true) : bld = .small → ¬ (252 ≤ p ∧ p ≤ 255) := by
  rintro rfl ⟨h1, h2⟩
  have h3 := (C68_table_exact .small p (by have : smallPrimesNext .small = 257 := by decide
                                           omega)).mp h
  have h5 : p = 252 ∨ p = 253 ∨ p = 254 ∨ p = 255 := by omega
  rcases h5 with rfl | rfl | rfl | rfl <;> exact absurd h3 (by norm_num)

/-- **C114** from any accepted number, one step forward and one step back returns to it, in all machine types up to `u64` -/
theorem C114_prev_next (bld : Build) (b : ℕ) (hb : b ∈ [8, 16, 32, 64]) (p : ℕ) (hp : isPrime64 bld p = true)
    (hfit : ∃ q, isPrime64 bld q = true ∧ p < q ∧ q < 2 ^ b) (config : Option PrimalityTestConfig) :
    ∃ F, ∀ fuel, F ≤ fuel → ∃ q, nextPrime bld (some b) p config (fun _ => []) fuel = .ok (some q) ∧
      prevPrime bld (some b) q config (fun _ => []) fuel = .ok (some p) := by
  have h64 : 2 ^ b ≤ 2 ^ 64 := Nat.pow_le_pow_right (by norm_num) (std_machine hb).2
  obtain ⟨o, F, hF⟩ := nextPrime_machine_returns bld hb (accepted_not_gap hp) config
  have h0 := C114_next_prime_least bld (some b) p config _ F o (hF F le_rfl)
  obtain ⟨q', hq1, hq2, hq3⟩ := hfit
  cases o with
  | none => have := h0.2 rfl q' hq2 (by omega) hq1; simp [fits, hq3] at this
  | some q =>
    obtain ⟨x1, x2, x3, x4⟩ := h0.1 q rfl
    have hqb : q < 2 ^ b := by simpa [fits] using x2
    have hq2' : 2 < q := by
      have : 2 ≤ p := by
        by_contra hc
        have : p = 0 ∨ p = 1 := by omega
        rcases this with rfl | rfl <;> cases bld <;> simp [isPrime64] at hp
      omega
    obtain ⟨r, F', hF', hr1, -⟩ := prevPrime_u64 bld (some b) q hq2' (by omega) config (fun _ => [])
    refine ⟨max F F', fun fuel hf => ⟨q, hF fuel (by omega), ?_⟩⟩
    rw [hF' fuel (by omega)]
    obtain ⟨r', e, hg⟩ := C114_prev_prime_greatest bld (some b) q hq2' (by omega) config _ _ _ (hF' F' le_rfl)
    injection e with e
    subst e
    have h1 : p ≤ r := hg.2 ⟨x1, hp⟩
    have h2 : ¬ p < r := fun hlt => by have := x4 r hlt (by omega) hg.1.2; omega
    rw [show r = p by omega]

/-- **C114** and so does one step back and one step forward -/
theorem C114_next_prev (bld : Build) (b : ℕ) (hb : b ∈ [8, 16, 32, 64]) (p : ℕ) (hp : isPrime64 bld p = true) (h2 : 2 < p) (hfit : p < 2 ^ b)
    (config : Option PrimalityTestConfig) :
    ∃ F, ∀ fuel, F ≤ fuel → ∃ q, prevPrime bld (some b) p config (fun _ => []) fuel = .ok (some q) ∧
      nextPrime bld (some b) q config (fun _ => []) fuel = .ok (some p) := by
  have h64 : 2 ^ b ≤ 2 ^ 64 := Nat.pow_le_pow_right (by norm_num) (std_machine hb).2
  obtain ⟨q, F, hF, hr1, hr2, -⟩ := prevPrime_u64 bld (some b) p h2 (by omega) config (fun _ => [])
  obtain ⟨q', e, hg⟩ := C114_prev_prime_greatest bld (some b) p h2 (by omega) config _ _ _ (hF F le_rfl)
  injection e with e
  subst e
  obtain ⟨o, F', hF'⟩ := nextPrime_machine_returns bld hb (accepted_not_gap hr2) config
  refine ⟨max F F', fun fuel hf => ⟨q, hF fuel (by omega), ?_⟩⟩
  rw [hF' fuel (by omega)]
  have h0 := C114_next_prime_least bld (some b) q config _ F' o (hF' F' le_rfl)
  cases o with
  | none => have := h0.2 rfl p hr1 (by omega) hp; simp [fits, hfit] at this
  | some r =>
    obtain ⟨x1, x2, x3, x4⟩ := h0.1 r rfl
    have h3 : r ≤ p := x4 p hr1 (by omega) hp
    have h4 : ¬ r < p := fun hlt => by have := hg.2 ⟨hlt, x3 (by omega)⟩; omega
    rw [show r = p by omega]

/-- **C114** `next_prime` and `prev_prime` are monotone -/
theorem C114_monotone (bld : Build) (w w' : Width) (n m : ℕ) (hnm : n ≤ m) (config config' : Option PrimalityTestConfig)
    (draws draws' : ℕ → List ℕ) (fuel fuel' p q : ℕ) :
    (nextPrime bld w n config draws fuel = .ok (some p) → nextPrime bld w' m config' draws' fuel' = .ok (some q) → q < 2 ^ 64 → p ≤ q) ∧
    (2 < n → m ≤ 2 ^ 64 → prevPrime bld w n config draws fuel = .ok (some p) → prevPrime bld w' m config' draws' fuel' = .ok (some q) → p ≤ q) := by
  refine ⟨fun h1 h2 h3 => ?_, fun h0 h1 h2 h3 => ?_⟩
  · obtain ⟨-, -, -, x⟩ := (C114_next_prime_least bld w n config draws fuel _ h1).1 p rfl
    obtain ⟨y1, -, y2, -⟩ := (C114_next_prime_least bld w' m config' draws' fuel' _ h2).1 q rfl
    exact x q (by omega) h3 (y2 h3)
  · obtain ⟨r, e, x⟩ := C114_prev_prime_greatest bld w n h0 (by omega) config draws fuel _ h2
    obtain ⟨r', e', y⟩ := C114_prev_prime_greatest bld w' m (by omega) h1 config' draws' fuel' _ h3
    injection e with e; injection e' with e'
    subst e e'
    exact y.2 ⟨lt_of_lt_of_le x.1.1 hnm, x.1.2⟩

/-! ## numbers of any size

Beyond `2^64` the candidates are the numbers coprime to the wheel, `2 * 3 * 5` or `2 * 3 * 5 * 7 * 11`, and the configured test decides. -/

theorem gcd_wheel_up (bld : Build) (t : ℕ) : Nat.gcd (t + (wheelNext bld).getD (t % wheelSize bld) 0) (wheelSize bld) = 1 := by
  have hp := wheelSize_pos bld
  have hm := Nat.mod_lt t (by omega : 0 < wheelSize bld)
  obtain ⟨a, b, c, d⟩ := wheelNext_spec bld (wheelSize bld - t % wheelSize bld - 1) (t % wheelSize bld) (by omega)
  rwa [gcd_mod_add] at b

theorem gcd_wheel_down (bld : Build) {t : ℕ} (ht : wheelSize bld < t) :
    Nat.gcd (t - (wheelPrev bld).getD (t % wheelSize bld) 0) (wheelSize bld) = 1 := by
  have hp := wheelSize_pos bld
  have hm := Nat.mod_lt t (by omega : 0 < wheelSize bld)
  obtain ⟨a, b, c, d⟩ := wheelPrev_spec bld (t % wheelSize bld) hm
  set o := (wheelPrev bld).getD (t % wheelSize bld) 0
  set W := wheelSize bld
  have e : W + t % W - o + W * (t / W) = (t - o) + W := by
    have := Nat.mod_add_div t W
    omega
  have h1 : Nat.gcd (W + t % W - o) W = Nat.gcd (W + t % W - o + W * (t / W)) W := by rw [Nat.gcd_add_mul_left_left]
  rwa [h1, e, Nat.gcd_add_self_left] at c

theorem nextPrimeLoop_wheel {bld : Build} {w : Width} {config : Option PrimalityTestConfig} {draws : ℕ → List ℕ} :
    ∀ f t r, nextPrimeLoop bld w config draws f t (t % wheelSize bld) = .ok (some r) →
      IsLeast {q | t < q ∧ Nat.Coprime q (wheelSize bld) ∧ Accepted bld w config draws q} r
  | 0, t, r, h => by simp [nextPrimeLoop] at h
  | f + 1, t, r, h => by
    obtain ⟨a, b, c⟩ := wheel_up bld t
    have hg := gcd_wheel_up bld t
    rw [nextPrimeLoop] at h
    simp only at h
    rw [b] at h
    set d := (wheelNext bld).getD (t % wheelSize bld) 0
    split at h
    · simp at h
    · rw [Res.bind_eq_ok] at h
      obtain ⟨r0, h1, h2⟩ := h
      split at h2
      · rename_i hr
        simp only [Res.pure_def, Res.ok.injEq, Option.some.injEq] at h2
        subst h2
        exact ⟨⟨by omega, hg, r0, h1, hr⟩, fun q hq => c q hq.2.1 hq.1⟩
      · rename_i hr
        obtain ⟨⟨x1, x2⟩, x3⟩ := nextPrimeLoop_wheel f (t + d) r h2
        refine ⟨⟨by omega, x2⟩, fun q hq => x3 ⟨lt_of_le_of_ne (c q hq.2.1 hq.1) ?_, hq.2⟩⟩
        rintro rfl
        obtain ⟨r1, y1, y2⟩ := hq.2.2
        rw [h1, Res.ok.injEq] at y1
        exact hr (y1 ▸ y2)

theorem prevPrimeLoop_wheel {bld : Build} {w : Width} {config : Option PrimalityTestConfig} {draws : ℕ → List ℕ} {q0 : ℕ}
    (hW : wheelSize bld < q0) (hq0 : Nat.Coprime q0 (wheelSize bld)) (ha : Accepted bld w config draws q0) :
    ∀ f t o, q0 < t → prevPrimeLoop bld w config draws f t (t % wheelSize bld) = .ok o →
      ∃ r, o = some r ∧ IsGreatest {q | q < t ∧ wheelSize bld < q ∧ Nat.Coprime q (wheelSize bld) ∧ Accepted bld w config draws q} r
  | 0, t, o, _, h => by simp [prevPrimeLoop] at h
  | f + 1, t, o, ht, h => by
    obtain ⟨a, b, c, d⟩ := wheel_down bld (t := t) (by omega)
    have hg := gcd_wheel_down bld (t := t) (by omega)
    rw [prevPrimeLoop] at h
    simp only at h
    rw [csub_ok b, Res.bind_ok, c] at h
    set off := (wheelPrev bld).getD (t % wheelSize bld) 0
    have h0 := d q0 hq0 ht
    rw [Res.bind_eq_ok] at h
    obtain ⟨r0, h1, h2⟩ := h
    split at h2
    · rename_i hr
      simp only [Res.pure_def, Res.ok.injEq] at h2
      exact ⟨t - off, h2.symm, ⟨by omega, by omega, hg, r0, h1, hr⟩, fun q hq => d q hq.2.2.1 hq.1⟩
    · rename_i hr
      have hne : ∀ q, q < t → Nat.Coprime q (wheelSize bld) → Accepted bld w config draws q → q < t - off := by
        intro q h3 h4 h5
        refine lt_of_le_of_ne (d q h4 h3) ?_
        rintro rfl
        obtain ⟨r1, y1, y2⟩ := h5
        rw [h1, Res.ok.injEq] at y1
        exact hr (y1 ▸ y2)
      obtain ⟨r, x1, x2, x3⟩ := prevPrimeLoop_wheel hW hq0 ha f (t - off) o (hne q0 ht hq0 ha) h2
      exact ⟨r, x1, ⟨lt_of_lt_of_le x2.1 (by omega), x2.2⟩, fun q hq => x3 ⟨hne q hq.1 hq.2.2.1 hq.2.2.2, hq.2⟩⟩

theorem prevPrimeLoop_lt {bld : Build} {w : Width} {config : Option PrimalityTestConfig} {draws : ℕ → List ℕ} :
    ∀ f t i r, i < wheelSize bld → prevPrimeLoop bld w config draws f t i = .ok (some r) → r < t
  | 0, t, i, r, _, h => by simp [prevPrimeLoop] at h
  | f + 1, t, i, r, hi, h => by
    obtain ⟨a, -⟩ := wheelPrev_spec bld i hi
    rw [prevPrimeLoop] at h
    simp only at h
    set off := (wheelPrev bld).getD i 0
    rcases Nat.lt_or_ge t off with hlt | hge
    · rw [csub, if_neg (by omega), Res.bind_panic] at h
      simp at h
    · rw [csub_ok hge, Res.bind_ok, Res.bind_eq_ok] at h
      obtain ⟨r0, h1, h2⟩ := h
      split at h2
      · simp only [Res.pure_def, Res.ok.injEq, Option.some.injEq] at h2
        omega
      · have := prevPrimeLoop_lt f (t - off) _ r (Nat.mod_lt _ (by omega)) h2
        omega

/-- **C114** for numbers of any size beyond the table (8161, or 256 without big tables): `next_prime(n)` is the least number above `n` coprime to
the wheel that the configured test accepts -/
theorem C114_next_prime_wheel (bld : Build) (w : Width) (n : ℕ) (hn : (if bld = .big then 8161 else 256) ≤ n)
    (config : Option PrimalityTestConfig) (draws : ℕ → List ℕ) (fuel r : ℕ) (h : nextPrime bld w n config draws fuel = .ok (some r)) :
    IsLeast {q | n < q ∧ Nat.Coprime q (wheelSize bld) ∧ Accepted bld w config draws q} r := by
  cases bld
  · rw [nextPrime_wheel_big (by simpa using hn)] at h
    exact nextPrimeLoop_wheel fuel n r h
  · rw [nextPrime_wheel_small (by simpa using hn)] at h
    exact nextPrimeLoop_wheel fuel n r h

/-- **C114** from a candidate `p` of any size that the configured test accepts: if `next_prime(p)` is `q`, then `prev_prime(q)` is `p`, and if
`prev_prime(p)` is `q` beyond the table, then `next_prime(q)` is `p`. The test has to give the same verdict on the same number, so the
configuration has no random bases or `draws` fixes the random words of each candidate. -/
theorem C114_roundtrip_any (bld : Build) (w : Width) (p : ℕ) (hp : (if bld = .big then 8161 else 256) ≤ p) (config : Option PrimalityTestConfig)
    (draws : ℕ → List ℕ) (hc : Nat.Coprime p (wheelSize bld)) (ha : Accepted bld w config draws p) (fuel fuel' q r : ℕ) :
    (nextPrime bld w p config draws fuel = .ok (some q) → prevPrime bld w q config draws fuel' = .ok (some r) → r = p) ∧
    ((if bld = .big then 8161 else 256) ≤ q → prevPrime bld w p config draws fuel = .ok (some q) →
      nextPrime bld w q config draws fuel' = .ok (some r) → r = p) := by
  have hW : wheelSize bld < (if bld = .big then 8161 else 256) := by cases bld <;> decide
  constructor
  · intro h1 h2
    obtain ⟨⟨x1, x2, x3⟩, x4⟩ := C114_next_prime_wheel bld w p hp config draws fuel q h1
    rw [prevPrime_wheel bld (by omega)] at h2
    obtain ⟨r', e, ⟨y1, y2, y3, y4⟩, y5⟩ := prevPrimeLoop_wheel (by omega) hc ha fuel' q _ x1 h2
    injection e with e
    subst e
    have h3 : p ≤ r := y5 ⟨x1, by omega, hc, ha⟩
    have h4 : ¬ p < r := fun hlt => by have := x4 ⟨hlt, y3, y4⟩; omega
    omega
  · intro hq h1 h2
    obtain ⟨⟨x1, x2, x3⟩, x4⟩ := C114_next_prime_wheel bld w q hq config draws fuel' r h2
    have hqp : q < p := by
      rw [prevPrime_wheel bld hp] at h1
      exact prevPrimeLoop_lt fuel p _ q (Nat.mod_lt _ (by have := wheelSize_pos bld; omega)) h1
    have h3 : r ≤ p := x4 ⟨hqp, hc, ha⟩
    have h4 : ¬ r < p := by
      intro hlt
      rw [prevPrime_wheel bld hp] at h1
      obtain ⟨r', e, y1, y2⟩ := prevPrimeLoop_wheel (by omega) x2 x3 fuel p _ hlt h1
      injection e with e
      subst e
      have := y2 ⟨hlt, by omega, x2, x3⟩
      omega
    omega

-- from the largest prime below `2^64` one step back and forth, in `u64`; the next accepted number of a `u128`
example : ∃ F, ∀ fuel, F ≤ fuel → ∃ q, prevPrime .big (some 64) (2 ^ 64 - 59) none (fun _ => []) fuel = .ok (some q) ∧
    nextPrime .big (some 64) q none (fun _ => []) fuel = .ok (some (2 ^ 64 - 59)) :=
  C114_next_prev .big 64 (by simp) _ (by decide +kernel) (by norm_num) (by norm_num) none
example : ∃ F, ∀ fuel, F ≤ fuel → ∃ q, nextPrime .small (some 32) 65521 none (fun _ => []) fuel = .ok (some q) ∧
    prevPrime .small (some 32) q none (fun _ => []) fuel = .ok (some 65521) :=
  C114_prev_next .small 32 (by simp) _ (by decide +kernel) ⟨65537, by decide +kernel, by norm_num, by norm_num⟩ none
example : ∀ q, 1000000 < q → q < 2 ^ 64 → isPrime64 .big q = true → 1000003 ≤ q :=
  ((C114_next_prime_least .big (some 128) 1000000 none (fun _ => []) 10 (some 1000003) (by decide +kernel)).1 _ rfl).2.2.2
example : IsGreatest {q | q < 1000003 ∧ isPrime64 .big q = true} 999983 := by
  obtain ⟨r, e, h⟩ := C114_prev_prime_greatest .big (some 128) 1000003 (by norm_num) (by norm_num) none (fun _ => []) 10 (some 999983)
    (by decide +kernel)
  injection e with e
  subst e
  exact h
example : 1000003 ≤ 1000033 :=
  (C114_monotone .big (some 32) (some 64) 1000000 1000010 (by norm_num) none (some .strict) (fun _ => []) (fun _ => [7]) 10 10 1000003 1000033).1
    (by decide +kernel) (by decide +kernel) (by norm_num)
example : IsLeast {q | 2 ^ 64 < q ∧ Nat.Coprime q (wheelSize .big) ∧ Accepted .big (some 128) (some .bpsw) (fun _ => []) q} (2 ^ 64 + 13) :=
  C114_next_prime_wheel .big (some 128) (2 ^ 64) (by simp) (some .bpsw) (fun _ => []) 20 _ (by decide +kernel)
example : 2 ^ 64 + 13 = 2 ^ 64 + 13 :=
  (C114_roundtrip_any .big (some 128) (2 ^ 64 + 13) (by simp) (some .bpsw) (fun _ => []) (by decide +kernel)
    ⟨.probable (probability .bpsw), by decide +kernel, rfl⟩ 20 20 (2 ^ 64 + 37) (2 ^ 64 + 13)).1 (by decide +kernel) (by decide +kernel)

end NumPrime
