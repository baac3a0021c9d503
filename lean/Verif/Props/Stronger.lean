import Verif.Props.Probability

/-! # C113: more tests reject more

A stronger configuration, or a longer list of primes to take the bases from, never turns a rejection into an acceptance. The number reported
with an acceptance goes the other way: every Lucas test that is switched on lowers it. -/

namespace NumPrime

namespace Spec

/-- `c'` performs at least the deterministic tests of `c` -/
structure AtLeast (c' c : PrimalityTestConfig) : Prop where
  sprp : c.sprpTrials ≤ c'.sprpTrials
  slprp : c.slprpTest = true → c'.slprpTest = true
  eslprp : c.eslprpTest = true → c'.eslprpTest = true

end Spec
open Spec

/-- above `2^64` an acceptance says that all tests were passed -/
theorem accepted_large {bld : Build} {w : Width} (hstd : StdWidth w) {list : List ℕ} {n : ℕ} (hodd : n % 2 = 1) (hn : 2 ^ 64 ≤ n)
    (hw : fits w n = true) {c : PrimalityTestConfig} {draws : List ℕ} {r : Primality} (h : isPrime bld w list n (some c) draws = .ok r)
    (hr : r.probably = true) : ∃ wl, drawWitnesses draws c.sprpRandomTrials (list.take c.sprpTrials) = .ok wl ∧ (∀ b ∈ wl, StrongPRP n b) ∧
      (c.slprpTest = true → isSlprp bld w n none none = .ok true) ∧ (c.eslprpTest = true → isEslprp bld w n none = .ok true) := by
  cases hd : drawWitnesses draws c.sprpRandomTrials (list.take c.sprpTrials) with
  | panic => exact absurd hd (drawWitnesses_ne_panic _ _ _)
  | timeout => rw [isPrime_large_timeout bld list hodd hn (some c) draws hd] at h; simp at h
  | ok wl =>
    rcases isPrime_large bld hstd list hodd hn hw (some c) draws wl hd with ⟨h3, _⟩ | ⟨_, h4, h5, h6⟩
    · rw [h3] at h
      injection h with h
      rw [← h] at hr
      simp [Primality.probably] at hr
    · exact ⟨wl, rfl, h4, h5, h6⟩

/-- and conversely -/
theorem accepted_of_tests {bld : Build} {w : Width} {list : List ℕ} {n : ℕ} (hodd : n % 2 = 1) (hn : 2 ^ 64 ≤ n) (hw : fits w n = true)
    {c : PrimalityTestConfig} {draws wl : List ℕ} (hd : drawWitnesses draws c.sprpRandomTrials (list.take c.sprpTrials) = .ok wl)
    (h1 : ∀ b ∈ wl, StrongPRP n b) (h2 : c.slprpTest = true → isSlprp bld w n none none = .ok true)
    (h3 : c.eslprpTest = true → isEslprp bld w n none = .ok true) :
    isPrime bld w list n (some c) draws = .ok (.probable (probability c)) := by
  obtain ⟨v, hv1, hv2⟩ := allSprp_spec (by omega : 2 < n) hodd hw wl
  have hv : v = true := hv2.mpr h1
  subst hv
  have g0 : ¬ n % 2 = 0 := by omega
  have g1 : ¬ n < 2 ^ 64 := by omega
  have e1 : (if c.slprpTest = true then isSlprp bld w n none none else .ok true) = Res.ok true := by
    split
    · exact h2 ‹_›
    · rfl
  have e2 : (if c.eslprpTest = true then isEslprp bld w n none else .ok true) = Res.ok true := by
    split
    · exact h3 ‹_›
    · rfl
  unfold isPrime
  simp only [g0, g1, if_false, Option.getD_some, hd, Res.bind_ok, hv1, Res.pure_def, Bool.not_true, Bool.false_eq_true, e1, e2]

/-- fewer draws take the first of the witnesses -/
theorem drawWitnesses_fewer : ∀ (ds : List ℕ) (k k' : ℕ) (wl r : List ℕ), k ≤ k' → drawWitnesses ds k' wl = .ok r →
    ∃ r', drawWitnesses ds k wl = .ok r' ∧ r' <+: r
  | ds, 0, k', wl, r, _, h => by
    obtain ⟨ex, rfl, -⟩ := drawWitnesses_spec ds k' wl r h
    exact ⟨wl, by rw [drawWitnesses], List.prefix_append _ _⟩
  | [], k + 1, k', wl, r, hk, h => by
    obtain ⟨j, rfl⟩ := Nat.exists_eq_add_of_le' (le_trans (Nat.succ_le_succ (Nat.zero_le k)) hk)
    simp [drawWitnesses] at h
  | d :: ds, k + 1, k', wl, r, hk, h => by
    obtain ⟨j, rfl⟩ := Nat.exists_eq_add_of_le' (le_trans (Nat.succ_le_succ (Nat.zero_le k)) hk)
    rw [drawWitnesses] at h ⊢
    split at h
    · rw [if_pos ‹_›]
      exact drawWitnesses_fewer ds (k + 1) (j + 1) wl r hk h
    · rw [if_neg ‹_›]
      exact drawWitnesses_fewer ds k j _ r (by omega) h

theorem take_prefix_take {l l' : List ℕ} (h : l <+: l') {i j : ℕ} (hij : i ≤ j) : ∀ b ∈ l.take i, b ∈ l'.take j := by
  obtain ⟨t, rfl⟩ := h
  intro b hb
  obtain ⟨k, hk, rfl⟩ := List.mem_iff_getElem.mp hb
  simp only [List.length_take] at hk
  refine List.mem_iff_getElem.mpr ⟨k, by simp only [List.length_take, List.length_append]; omega, ?_⟩
  simp only [List.getElem_take]
  exact List.getElem_append_left (by omega)

theorem isPrime_below_eq {bld : Build} {w : Width} {list list' : List ℕ} {n : ℕ} (h : n % 2 = 0 ∨ n < 2 ^ 64)
    (c c' : Option PrimalityTestConfig) (draws draws' : List ℕ) :
    isPrime bld w list n c draws = isPrime bld w list' n c' draws' := by
  rcases h with h | h
  · rw [isPrime_even bld w list h, isPrime_even bld w list' h]
  · rw [isPrime_below bld w list h, isPrime_below bld w list' h]

/-- **C113** what a configuration accepts with some buffer is accepted by every configuration with fewer deterministic tests and no random
ones, with every buffer that holds a first part of the same primes -/
theorem C113_stronger_config (bld : Build) (w : Width) (hstd : StdWidth w) (list list' : List ℕ) (hl : list <+: list') (n : ℕ)
    (hw : fits w n = true) (c c' : PrimalityTestConfig) (hc : AtLeast c' c) (h0 : c.sprpRandomTrials = 0) (draws draws' : List ℕ)
    (r' : Primality) (h : isPrime bld w list' n (some c') draws' = .ok r') (hr : r'.probably = true) :
    ∃ r, isPrime bld w list n (some c) draws = .ok r ∧ r.probably = true := by
  by_cases hb : n % 2 = 0 ∨ n < 2 ^ 64
  · exact ⟨r', by rw [isPrime_below_eq hb _ (some c') _ draws', h], hr⟩
  · push Not at hb
    have hodd : n % 2 = 1 := by omega
    obtain ⟨wl, h1, h2, h3, h4⟩ := accepted_large hstd hodd hb.2 hw h hr
    obtain ⟨ex, rfl, -⟩ := drawWitnesses_spec _ _ _ _ h1
    refine ⟨_, accepted_of_tests (wl := list.take c.sprpTrials) hodd hb.2 hw (by rw [h0, drawWitnesses]) ?_ (fun h => h3 (hc.slprp h))
      (fun h => h4 (hc.eslprp h)), rfl⟩
    exact fun b hb => h2 b (List.mem_append_left _ (take_prefix_take hl hc.sprp b hb))

/-- **C113** with the same buffer, the same number of fixed bases and the same random words, more random bases and more Lucas tests reject
more -/
theorem C113_more_random (bld : Build) (w : Width) (hstd : StdWidth w) (list : List ℕ) (n : ℕ) (hw : fits w n = true)
    (c c' : PrimalityTestConfig) (hc : AtLeast c' c) (heq : c.sprpTrials = c'.sprpTrials) (hk : c.sprpRandomTrials ≤ c'.sprpRandomTrials)
    (draws : List ℕ) (r' : Primality) (h : isPrime bld w list n (some c') draws = .ok r') (hr : r'.probably = true) :
    ∃ r, isPrime bld w list n (some c) draws = .ok r ∧ r.probably = true := by
  by_cases hb : n % 2 = 0 ∨ n < 2 ^ 64
  · exact ⟨r', by rw [isPrime_below_eq hb _ (some c') _ draws, h], hr⟩
  · push Not at hb
    have hodd : n % 2 = 1 := by omega
    obtain ⟨wl, h1, h2, h3, h4⟩ := accepted_large hstd hodd hb.2 hw h hr
    obtain ⟨wl', h5, h6⟩ := drawWitnesses_fewer _ _ _ _ _ hk h1
    rw [← heq] at h5
    exact ⟨_, accepted_of_tests hodd hb.2 hw h5 (fun b hb => h2 b (h6.subset hb)) (fun h => h3 (hc.slprp h)) (fun h => h4 (hc.eslprp h)), rfl⟩

/-- **C113** after more primes have been stored a rejected number stays rejected (configurations without random bases) -/
theorem C113_larger_buffer (bld : Build) (w : Width) (hstd : StdWidth w) (list list' : List ℕ) (hl : list <+: list') (n : ℕ)
    (hw : fits w n = true) (c : PrimalityTestConfig) (h0 : c.sprpRandomTrials = 0) (draws draws' : List ℕ)
    (h : isPrime bld w list n (some c) draws = .ok .no) : isPrime bld w list' n (some c) draws' = .ok .no := by
  cases h' : isPrime bld w list' n (some c) draws' with
  | panic => exact absurd h' (isPrime_ne_panic bld hstd list' n hw _ _)
  | timeout =>
    by_cases hb : n % 2 = 0 ∨ n < 2 ^ 64
    · rw [isPrime_below_eq hb _ (some c) _ draws (list' := list), h] at h'; simp at h'
    · push Not at hb
      rcases isPrime_large bld hstd list' (by omega) hb.2 hw (some c) draws' (list'.take c.sprpTrials)
        (by simp [h0, drawWitnesses]) with ⟨h3, _⟩ | ⟨h3, _⟩ <;> rw [h3] at h' <;> simp at h'
  | ok r' =>
    by_cases hr : r'.probably = true
    · obtain ⟨r, h1, h2⟩ := C113_stronger_config bld w hstd list list' hl n hw c c ⟨le_rfl, id, id⟩ h0 draws draws' r' h' hr
      rw [h] at h1
      injection h1 with h1
      rw [← h1] at h2
      simp [Primality.probably] at h2
    · cases r' <;> simp_all [Primality.probably]

/-- **C113** switching on a Lucas test lowers the number reported with an acceptance, for every configuration -/
theorem C113_lucas_lowers_report (k1 k2 : ℕ) (h1 : k1 < 2 ^ 31) (h2 : k2 < 2 ^ 31) (s e : Bool) :
    (∃ v v', probability ⟨k1, k2, false, e⟩ = .fin v ∧ probability ⟨k1, k2, true, e⟩ = .fin v' ∧ v' < v) ∧
    ∃ v v', probability ⟨k1, k2, s, false⟩ = .fin v ∧ probability ⟨k1, k2, s, true⟩ = .fin v' ∧ v' < v := by
  have key : ∀ c c' : PrimalityTestConfig, c.sprpTrials < 2 ^ 31 → c.sprpRandomTrials < 2 ^ 31 → c'.sprpTrials < 2 ^ 31 →
      c'.sprpRandomTrials < 2 ^ 31 → testProbability c' = 11 / 15 * testProbability c → 1 / 4 ≤ testProbability c →
      ∃ v v', probability c = .fin v ∧ probability c' = .fin v' ∧ v' < v := by
    intro c c' a1 a2 a3 a4 a5 a6
    obtain ⟨v, b1, -, -, b2, -⟩ := C83_reported_partial c a1 a2
    obtain ⟨v', b3, -, -, b4, -⟩ := C83_reported_partial c' a3 a4
    refine ⟨v, v', b1, b3, ?_⟩
    rw [a5] at b4
    have := abs_le.mp b2
    have := abs_le.mp b4
    norm_num at *
    linarith
  have pw : ∀ k : ℕ, (3 / 4 : ℚ) ≤ 1 - (if k = 0 then 0 else (1 / 4 : ℚ) ^ k) ∧ 1 - (if k = 0 then 0 else (1 / 4 : ℚ) ^ k) ≤ 1 := by
    intro k
    split
    · norm_num
    · rename_i hk
      have h1 : (1 / 4 : ℚ) ^ k ≤ (1 / 4 : ℚ) ^ 1 := pow_le_pow_of_le_one (by norm_num) (by norm_num) (by omega)
      have h2 : (0 : ℚ) < (1 / 4 : ℚ) ^ k := by positivity
      constructor <;> linarith
  have hge : ∀ b : Bool, (1 / 4 : ℚ) ≤ (1 - (if k1 = 0 then 0 else (1 / 4 : ℚ) ^ k1)) * (1 - (if k2 = 0 then 0 else (1 / 4 : ℚ) ^ k2)) *
      (if b then 11 / 15 else 1) := by
    intro b
    have ha := pw k1
    have hb := pw k2
    have hab : (9 / 16 : ℚ) ≤ (1 - (if k1 = 0 then 0 else (1 / 4 : ℚ) ^ k1)) * (1 - (if k2 = 0 then 0 else (1 / 4 : ℚ) ^ k2)) := by
      nlinarith [ha.1, hb.1]
    cases b <;> simp only [Bool.false_eq_true, if_false, if_true] <;> linarith
  constructor
  · refine key _ _ h1 h2 h1 h2 ?_ ?_
    · simp only [testProbability, Bool.false_eq_true, if_false, if_true]; ring
    · have := hge e
      simpa only [testProbability, Bool.false_eq_true, if_false, mul_one] using this
  · refine key _ _ h1 h2 h1 h2 ?_ ?_
    · simp only [testProbability, Bool.false_eq_true, if_false, if_true]; ring
    · have := hge s
      simpa only [testProbability, Bool.false_eq_true, if_false, mul_one] using this

-- `strict` does at least the tests of `bpsw`; two bases of a buffer of two primes; the default configuration with more random words
example : AtLeast .strict .bpsw := ⟨by decide, by decide, by decide⟩
example : ∃ r, isPrime .big (some 128) [2] (2 ^ 64 + 13) (some .bpsw) [] = .ok r ∧ r.probably = true :=
  C113_stronger_config .big (some 128) (Or.inr ⟨128, by simp, rfl⟩) [2] (smallPrimes .big) ⟨(smallPrimes .big).tail, by decide +kernel⟩ _
    (by decide) .bpsw .strict ⟨by decide, by decide, by decide⟩ rfl [] [12345] (.probable (probability .strict)) (by decide +kernel) rfl
example : ∃ r, isPrime .big (some 128) [2, 3, 5] (2 ^ 64 + 13) (some ⟨2, 1, false, false⟩) [7, 7, 11] = .ok r ∧ r.probably = true :=
  C113_more_random .big (some 128) (Or.inr ⟨128, by simp, rfl⟩) _ _ (by decide) ⟨2, 1, false, false⟩ ⟨2, 2, true, false⟩
    ⟨le_rfl, by simp, by simp⟩ rfl (by norm_num) [7, 7, 11] (.probable (probability ⟨2, 2, true, false⟩)) (by decide +kernel) rfl
-- a strong pseudoprime to base 2 is found with two bases, and then with any longer buffer
example : isPrime .big none [2, 3, 5] (2 ^ 67 - 1) (some ⟨3, 0, false, false⟩) [] = .ok .no :=
  C113_larger_buffer .big none (Or.inl rfl) [2, 3] [2, 3, 5] ⟨[5], rfl⟩ _ rfl ⟨3, 0, false, false⟩ rfl [] [] (by decide +kernel)
example : isPrime .big none [2] (2 ^ 67 - 1) (some ⟨3, 0, false, false⟩) [] = .ok (.probable (probability ⟨3, 0, false, false⟩)) := by
  decide +kernel
example : ∃ v v', probability .bpsw = .fin v ∧ probability ⟨1, 0, true, true⟩ = .fin v' ∧ v' < v :=
  (C113_lucas_lowers_report 1 0 (by norm_num) (by norm_num) true false).2

end NumPrime
