import Verif.Model.ReleasePrime
import Verif.Props.ReleasePrimality
import Verif.Props.Rand
import Verif.Props.NextPrime

/-! # C102: `is_prime`, `is_safe_prime`, `next_prime`, `prev_prime` and safe primes of `u128` without overflow checks -/

namespace NumPrime
open Spec

theorem allSprp_release {b n : ℕ} (hn : n < 2 ^ b) (h1 : n ≠ 1) : ∀ l, allSprp (some b) n l = .ok (allSprpRel b n l)
  | [] => rfl
  | x :: t => by
    rw [allSprp, allSprpRel, (C100_is_sprp_release b n x hn).1 h1, Res.bind_ok]
    split
    · exact allSprp_release hn h1 t
    · rfl

/-- **C102** the primality test of a machine integer gives the same answer with and without overflow checks: no operation of it
overflows, whatever the number, the configuration, the primes of the buffer and the random numbers -/
theorem C102_is_prime_release (bld : Build) (b : ℕ) (hb : b ∈ [8, 16, 32, 64, 128]) (list : List ℕ) (n : ℕ) (hn : n < 2 ^ b)
    (config : Option PrimalityTestConfig) (draws : List ℕ) :
    isPrimeRel bld b list n config draws = isPrime bld (some b) list n config draws := by
  obtain ⟨-, ⟨vs, hs1, hs2⟩, ⟨ve, he1, he2⟩⟩ := C100_lucas_release_default bld b n hb hn
  unfold isPrimeRel isPrime
  split
  · rfl
  · split
    · rfl
    · dsimp only
      cases drawWitnesses draws (config.getD .default).sprpRandomTrials (list.take (config.getD .default).sprpTrials) with
      | panic => rfl
      | timeout => rfl
      | ok wl =>
        rw [Res.bind_ok, Res.bind_ok, allSprp_release hn (by omega) wl, Res.bind_ok, hs1, hs2, he1, he2]

theorem isPrimeNew_release (bld : Build) {b : ℕ} (hb : b ∈ [8, 16, 32, 64, 128]) {n : ℕ} (hn : n < 2 ^ b)
    (config : Option PrimalityTestConfig) (draws : List ℕ) :
    isPrimeNewRel bld b n config draws = isPrimeNew bld (some b) n config draws := C102_is_prime_release bld b hb _ n hn config draws

/-- **C102** so does the test for safe primes -/
theorem C102_is_safe_prime_release (bld : Build) (b : ℕ) (hb : b ∈ [8, 16, 32, 64, 128]) (n : ℕ) (hn : n < 2 ^ b)
    (draws1 draws2 : List ℕ) : isSafePrimeRel bld b n draws1 draws2 = isSafePrime bld (some b) n draws1 draws2 := by
  unfold isSafePrimeRel isSafePrime
  rw [isPrimeNew_release bld hb (lt_of_le_of_lt (Nat.shiftRight_le n 1) hn)]
  simp only [isPrimeNew_release bld hb hn]
  cases isPrimeNew bld (some b) (n >>> 1) (some .strict) draws1 with
  | panic => rfl
  | timeout => rfl
  | ok r => rw [Res.bind_ok, Res.bind_ok]; cases r <;> rfl

theorem nextPrimeLoop_release (bld : Build) {b : ℕ} (hb : b ∈ [8, 16, 32, 64, 128]) (config : Option PrimalityTestConfig)
    (draws : ℕ → List ℕ) : ∀ f t i, nextPrimeLoopRel bld b config draws f t i = nextPrimeLoop bld (some b) config draws f t i
  | 0, _, _ => rfl
  | f + 1, t, i => by
    rw [nextPrimeLoopRel, nextPrimeLoop]
    dsimp only
    by_cases h : fits (some b) (t + (wheelNext bld).getD i 0) = true
    · have hlt : t + (wheelNext bld).getD i 0 < 2 ^ b := by simpa [fits] using h
      rw [h]
      simp only [Bool.not_true, Bool.false_eq_true, if_false]
      rw [isPrimeNew_release bld hb hlt]
      simp only [nextPrimeLoop_release bld hb config draws f]
    · simp only [h]
      rfl

/-- **C102** `next_prime` returns the same (and panics for the same arguments) with and without overflow checks -/
theorem C102_next_prime_release (bld : Build) (b : ℕ) (hb : b ∈ [8, 16, 32, 64, 128]) (n : ℕ) (config : Option PrimalityTestConfig)
    (draws : ℕ → List ℕ) (fuel : ℕ) :
    nextPrimeRel bld b n config draws fuel = nextPrime bld (some b) n config draws fuel := by
  cases bld
  · simp only [nextPrimeRel, nextPrime, nextPrimeLoop_release _ hb]
    rfl
  · simp only [nextPrimeRel, nextPrime, nextPrimeLoop_release _ hb]
    rfl

theorem wsub_of_le {b x y : ℕ} (hx : x < 2 ^ b) (hy : y ≤ x) : wsub b x y = x - y := by
  unfold wsub
  rw [show x + 2 ^ b - y = x - y + 2 ^ b by omega, Nat.add_mod_right, Nat.mod_eq_of_lt (by omega)]

theorem isPrimeNew_anchor (bld : Build) {w : Width} {q : ℕ} (hq : q.Prime) (h : q < 2 ^ 64) (config : Option PrimalityTestConfig)
    (draws : List ℕ) : isPrimeNew bld w q config draws = .ok .yes := by
  rw [isPrimeNew, isPrime_below bld w _ h, C01_is_prime64_prime bld q hq h]
  rfl

theorem prevPrimeLoop_release (bld : Build) {b : ℕ} (hb : b ∈ [8, 16, 32, 64, 128]) (config : Option PrimalityTestConfig)
    (draws : ℕ → List ℕ) {q : ℕ} (hq : q.Prime) (hq1 : wheelSize bld + 1 < q) (hq2 : q < 2 ^ 64) : ∀ f t, q < t → t < 2 ^ b →
    prevPrimeLoopRel bld b config draws f t (t % wheelSize bld) = prevPrimeLoop bld (some b) config draws f t (t % wheelSize bld)
  | 0, _, _, _ => rfl
  | f + 1, t, ht, htb => by
    obtain ⟨h1, h2, h3, h4⟩ := wheel_down bld (t := t) (by omega)
    have h5 := h4 q (coprime_wheel_of_prime hq (by omega)) ht
    rw [prevPrimeLoopRel, prevPrimeLoop]
    dsimp only
    rw [wsub_of_le htb h2, csub_ok h2, Res.bind_ok, h3]
    set off := (wheelPrev bld).getD (t % wheelSize bld) 0
    rw [isPrimeNew_release bld hb (show t - off < 2 ^ b by omega)]
    rcases Nat.eq_or_lt_of_le h5 with h6 | h6
    · rw [← h6, isPrimeNew_anchor bld hq hq2, Res.bind_ok, Res.bind_ok]
      simp [Primality.probably]
    · rw [prevPrimeLoop_release bld hb config draws hq hq1 hq2 f (t - off) h6 (by omega)]

/-- the position in a search result -/
def searchPos : Search → ℕ
  | .found pos => pos
  | .missing pos => pos

theorem prevPrime_pos (bld : Build) {w : Width} {n : ℕ} (h2 : 2 < n) (h : n < if bld = .big then 8161 else 256) {config draws fuel} :
    prevPrime bld w n config draws fuel = (do
      let i ← csub (searchPos (binarySearch (smallPrimes bld) n)) 1
      let p ← smallPrimeAt bld i
      return some p) := by
  have hl : (smallPrimes .big).getLastD 0 = 8161 := by rw [smallPrimes_last]; rfl
  cases bld
  · have h8 : n < 8161 := by simpa using h
    simp only [prevPrime, show ¬ n ≤ 2 by omega, if_false, hl, h8, decide_true, Bool.or_true, if_true]
    rfl
  · have h8 : n < 256 := by simpa using h
    simp only [prevPrime, show ¬ n ≤ 2 by omega, if_false, h8, decide_true, if_true]
    rfl

theorem prevPrimeRel_pos (bld : Build) {b n : ℕ} (h2 : 2 < n) (h : n < if bld = .big then 8161 else 256) {config draws fuel} :
    prevPrimeRel bld b n config draws fuel = (do
      let p ← smallPrimeAt bld (wsub 64 (searchPos (binarySearch (smallPrimes bld) n)) 1)
      return some p) := by
  have hl : (smallPrimes .big).getLastD 0 = 8161 := by rw [smallPrimes_last]; rfl
  cases bld
  · have h8 : n < 8161 := by simpa using h
    simp only [prevPrimeRel, show ¬ n ≤ 2 by omega, if_false, hl, h8, decide_true, Bool.or_true, if_true]
    rfl
  · have h8 : n < 256 := by simpa using h
    simp only [prevPrimeRel, show ¬ n ≤ 2 by omega, if_false, h8, decide_true, if_true]
    rfl

/-- **C102** `prev_prime` returns the same with and without overflow checks; its subtractions do not wrap -/
theorem C102_prev_prime_release (bld : Build) (b : ℕ) (hb : b ∈ [8, 16, 32, 64, 128]) (n : ℕ) (hn : n < 2 ^ b)
    (config : Option PrimalityTestConfig) (draws : ℕ → List ℕ) (fuel : ℕ) :
    prevPrimeRel bld b n config draws fuel = prevPrime bld (some b) n config draws fuel := by
  rcases Nat.lt_or_ge 2 n with h2 | h2
  · rcases Nat.lt_or_ge n (if bld = .big then 8161 else 256) with h8 | h8
    · obtain ⟨r, h, -⟩ := prevPrime_table bld h2 h8 config draws fuel (w := some b)
      rw [h]
      rw [prevPrime_pos bld h2 h8] at h
      rw [prevPrimeRel_pos bld h2 h8]
      generalize searchPos (binarySearch (smallPrimes bld) n) = pos at h ⊢
      rw [Res.bind_eq_ok] at h
      obtain ⟨i, hi, h⟩ := h
      obtain ⟨hi1, rfl⟩ : 1 ≤ pos ∧ i = pos - 1 := by
        unfold csub at hi
        split at hi
        · rename_i hc; exact ⟨by simpa using hc, by simpa using hi.symm⟩
        · simp at hi
      have hlt : pos < 2 ^ 64 := by
        rw [Res.bind_eq_ok] at h
        obtain ⟨p, hp, -⟩ := h
        unfold smallPrimeAt at hp
        split at hp
        · rename_i hg
          have h3 := (List.getElem?_eq_some_iff.mp hg).1
          have h4 : (smallPrimes bld).length < 2 ^ 60 := by cases bld <;> decide +kernel
          omega
        · simp at hp
      rw [wsub_of_le hlt hi1]
      exact h
    · rw [prevPrime_wheel bld h8]
      have h : prevPrimeRel bld b n config draws fuel = prevPrimeLoopRel bld b config draws fuel n (n % wheelSize bld) := by
        have hl : (smallPrimes .big).getLastD 0 = 8161 := by rw [smallPrimes_last]; rfl
        cases bld
        · have hb : 8161 ≤ n := by simpa using h8
          simp only [prevPrimeRel, show ¬ n ≤ 2 by omega, if_false, hl, show ¬ n ≤ 255 by omega, show ¬ n < 8161 by omega,
            decide_false, Bool.or_false, Bool.false_eq_true]
        · have hb : 256 ≤ n := by simpa using h8
          simp only [prevPrimeRel, show ¬ n ≤ 2 by omega, if_false, show ¬ n < 256 by omega, decide_false, Bool.false_eq_true]
      rw [h]
      have hq : ∃ q, q.Prime ∧ wheelSize bld + 1 < q ∧ q < 2 ^ 64 ∧ q < n := by
        cases bld
        · exact ⟨8147, (tdPrime_iff (by norm_num)).mp (by decide +kernel), by decide, by norm_num, by simp at h8; omega⟩
        · exact ⟨251, by norm_num, by decide, by norm_num, by simp at h8; omega⟩
      obtain ⟨q, hq1, hq2, hq3, hq4⟩ := hq
      exact prevPrimeLoop_release bld hb config draws hq1 hq2 hq3 fuel n hq4 hn
  · simp [prevPrimeRel, prevPrime, h2]

/-- **C102** `prev_prime` of a machine integer never panics, in either build mode, whatever the random numbers -/
theorem C102_prev_prime_never_panics (bld : Build) (b : ℕ) (hb : b ∈ [8, 16, 32, 64, 128]) (n : ℕ) (hn : n < 2 ^ b)
    (config : Option PrimalityTestConfig) (draws : ℕ → List ℕ) (fuel : ℕ) :
    prevPrimeRel bld b n config draws fuel ≠ .panic ∧ prevPrime bld (some b) n config draws fuel ≠ .panic := by
  rw [C102_prev_prime_release bld b hb n hn, and_self]
  have hstd : StdWidth (some b) := Or.inr ⟨b, hb, rfl⟩
  rcases Nat.lt_or_ge 2 n with h2 | h2
  · rcases Nat.lt_or_ge n (if bld = .big then 8161 else 256) with h8 | h8
    · obtain ⟨r, h, -⟩ := prevPrime_table bld h2 h8 config draws fuel (w := some b)
      rw [h]; simp
    · rw [prevPrime_wheel bld h8]
      have hq : ∃ q, q.Prime ∧ wheelSize bld + 1 < q ∧ q < 2 ^ 64 ∧ q < n := by
        cases bld
        · exact ⟨8147, (tdPrime_iff (by norm_num)).mp (by decide +kernel), by decide, by norm_num, by simp at h8; omega⟩
        · exact ⟨251, by norm_num, by decide, by norm_num, by simp at h8; omega⟩
      obtain ⟨q, hq1, hq2, hq3, hq4⟩ := hq
      suffices ∀ f t, q < t → t < 2 ^ b → prevPrimeLoop bld (some b) config draws f t (t % wheelSize bld) ≠ .panic from
        this fuel n hq4 hn
      intro f
      induction f with
      | zero => intro t _ _; simp [prevPrimeLoop]
      | succ f ih =>
        intro t ht htb
        obtain ⟨h1, h2, h3, h4⟩ := wheel_down bld (t := t) (by omega)
        have h5 := h4 q (coprime_wheel_of_prime hq1 (by omega)) ht
        rw [prevPrimeLoop]
        dsimp only
        rw [csub_ok h2, Res.bind_ok, h3]
        set off := (wheelPrev bld).getD (t % wheelSize bld) 0
        have hp := isPrime_ne_panic bld hstd (smallPrimes bld) (t - off) (by simp [fits]; omega) config (draws (t - off))
        cases hr : isPrimeNew bld (some b) (t - off) config (draws (t - off)) with
        | panic => exact absurd hr hp
        | timeout => intro hc; cases hc
        | ok r =>
          rw [Res.bind_ok]
          split
          · simp
          · rename_i hnp
            refine ih (t - off) ?_ (by omega)
            rcases Nat.eq_or_lt_of_le h5 with h6 | h6
            · rw [← h6, isPrimeNew_anchor bld hq1 hq3] at hr
              injection hr with hr
              rw [← hr] at hnp
              simp [Primality.probably] at hnp
            · exact h6
  · simp [prevPrime, h2]

/-! Instances -/

/-- the largest `u128` is composite; the strong test with base 2 rejects it before the Lucas test, whose index would wrap -/
example : isPrimeNewRel .small 128 (2 ^ 128 - 1) (some .bpsw) [] = .ok .no := by decide +kernel

example : prevPrimeRel .small 128 (2 ^ 64 + 13) (some .bpsw) (fun _ => []) 100 = .ok (some (2 ^ 64 - 59)) ∧
    nextPrimeRel .small 128 (2 ^ 64) (some .bpsw) (fun _ => []) 100 = .ok (some (2 ^ 64 + 13)) := by decide +kernel

example : nextPrimeRel .small 8 250 none (fun _ => []) 1 = .ok (some 251) ∧ nextPrimeRel .small 8 252 none (fun _ => []) 1 = .panic ∧
    prevPrimeRel .big 16 3 none (fun _ => []) 1 = .ok (some 2) := by decide +kernel

end NumPrime
