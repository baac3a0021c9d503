import Verif.Proofs.IsPrime
import Verif.Props.Lucas
import Verif.Props.Sprp
import Mathlib.Data.Finset.Card
import Mathlib.Data.List.Dedup
import Mathlib.Data.Finset.Dedup

/-! # The generic primality test -/

namespace NumPrime
open Tables Spec

theorem succ_fits {w : Width} (hstd : StdWidth w) {n : ℕ} (hn : 2 ^ 64 ≤ n) (hw : fits w n = true) (hne : n ≠ 2 ^ 128 - 1) :
    fits w (n + 1) = true := by
  rcases hstd with rfl | ⟨b, hb, rfl⟩
  · rfl
  · rw [fits_some] at *
    simp only [List.mem_cons, List.not_mem_nil, or_false] at hb
    rcases hb with rfl | rfl | rfl | rfl | rfl <;> omega

theorem prime_ne_max {p : ℕ} (hp : p.Prime) : p ≠ 2 ^ 128 - 1 := by
  rintro rfl
  have : 3 ∣ 2 ^ 128 - 1 := by norm_num
  have := (Nat.prime_dvd_prime_iff_eq Nat.prime_three hp).mp this
  norm_num at this

/-! ## witnesses -/

theorem drawWitnesses_spec : ∀ (ds : List ℕ) (k : ℕ) (wl r : List ℕ), drawWitnesses ds k wl = .ok r →
    ∃ ex, r = wl ++ ex ∧ ex.length = k ∧ (∀ x ∈ ex, x ∈ ds ∧ x ∉ wl) ∧ ex.Nodup
  | ds, 0, wl, r, h => by
    rw [drawWitnesses] at h
    injection h with h
    exact ⟨[], by simp [h]⟩
  | [], k + 1, wl, r, h => by simp [drawWitnesses] at h
  | d :: ds, k + 1, wl, r, h => by
    rw [drawWitnesses] at h
    split at h
    · obtain ⟨ex, a, b, c, e⟩ := drawWitnesses_spec ds (k + 1) wl r h
      exact ⟨ex, a, b, fun x hx => ⟨List.mem_cons_of_mem _ (c x hx).1, (c x hx).2⟩, e⟩
    · rename_i hd
      obtain ⟨ex, a, b, c, e⟩ := drawWitnesses_spec ds k (wl ++ [d]) r h
      refine ⟨d :: ex, by simp [a], by simp [b], ?_, ?_⟩
      · intro x hx
        rcases List.mem_cons.mp hx with rfl | hx
        · exact ⟨List.mem_cons_self, hd⟩
        · have := c x hx
          simp only [List.mem_append, not_or] at this
          exact ⟨List.mem_cons_of_mem _ this.1, this.2.1⟩
      · rw [List.nodup_cons]
        refine ⟨fun hm => ?_, e⟩
        have := (c d hm).2
        simp at this

theorem drawWitnesses_ne_panic : ∀ (ds : List ℕ) (k : ℕ) (wl : List ℕ), drawWitnesses ds k wl ≠ .panic
  | ds, 0, wl => by simp [drawWitnesses]
  | [], k + 1, wl => by simp [drawWitnesses]
  | d :: ds, k + 1, wl => by
    rw [drawWitnesses]
    split
    · exact drawWitnesses_ne_panic ds (k + 1) wl
    · exact drawWitnesses_ne_panic ds k (wl ++ [d])

/-- enough distinct fresh values among the draws: all witnesses are found -/
theorem drawWitnesses_ok : ∀ (ds : List ℕ) (k : ℕ) (wl : List ℕ), k ≤ (ds.toFinset \ wl.toFinset).card →
    ∃ r, drawWitnesses ds k wl = .ok r
  | ds, 0, wl, _ => ⟨wl, by rw [drawWitnesses]⟩
  | [], k + 1, wl, h => by simp at h
  | d :: ds, k + 1, wl, h => by
    rw [drawWitnesses]
    split
    · rename_i hd
      refine drawWitnesses_ok ds (k + 1) wl ?_
      rwa [List.toFinset_cons, Finset.insert_sdiff_of_mem _ (by simpa using hd)] at h
    · rename_i hd
      refine drawWitnesses_ok ds k (wl ++ [d]) ?_
      rw [List.toFinset_cons, Finset.insert_sdiff_of_notMem _ (by simpa using hd)] at h
      have h1 := Finset.card_insert_le d (ds.toFinset \ wl.toFinset)
      have h2 : (ds.toFinset \ wl.toFinset).erase d ⊆ ds.toFinset \ (wl ++ [d]).toFinset := by
        intro x hx
        simp only [Finset.mem_erase, Finset.mem_sdiff, List.mem_toFinset, List.mem_append, List.mem_singleton, not_or] at *
        tauto
      have h3 := Finset.card_le_card h2
      have h4 : (insert d (ds.toFinset \ wl.toFinset)).card ≤ ((ds.toFinset \ wl.toFinset).erase d).card + 1 := by
        have : insert d (ds.toFinset \ wl.toFinset) = insert d ((ds.toFinset \ wl.toFinset).erase d) := by
          ext x; simp only [Finset.mem_insert, Finset.mem_erase]; tauto
        rw [this]; exact Finset.card_insert_le _ _
      omega

theorem isSprp_verdict {w : Width} {n : ℕ} (hn : 2 < n) (hodd : n % 2 = 1) (hw : fits w n = true) (b : ℕ) :
    ∃ v, isSprp w n b = .ok v ∧ (v = true ↔ StrongPRP n b) := C04_is_sprp_iff w n b hn hodd hw

theorem allSprp_spec {w : Width} {n : ℕ} (hn : 2 < n) (hodd : n % 2 = 1) (hw : fits w n = true) :
    ∀ l : List ℕ, ∃ v, allSprp w n l = .ok v ∧ (v = true ↔ ∀ b ∈ l, StrongPRP n b)
  | [] => ⟨true, rfl, by simp⟩
  | x :: t => by
    obtain ⟨v, h1, h2⟩ := isSprp_verdict hn hodd hw x
    obtain ⟨v', h3, h4⟩ := allSprp_spec hn hodd hw t
    rw [allSprp, h1, Res.bind_ok]
    cases v
    · refine ⟨false, by simp, ?_⟩
      simp only [Bool.false_eq_true, List.mem_cons, forall_eq_or_imp, false_iff, not_and] at *
      exact fun h => absurd h h2
    · refine ⟨v', by simpa using h3, ?_⟩
      simp only [List.mem_cons, forall_eq_or_imp]
      rw [h4]
      simp only [true_iff] at h2
      exact ⟨fun h => ⟨h2, h⟩, fun h => h.2⟩

/-! ## Lucas tests on the type's largest value -/

theorem isSlprp_max (bld : Build) : isSlprp bld (some 128) (2 ^ 128 - 1) none none = .ok false := by
  cases bld <;> decide +kernel
theorem isEslprp_max (bld : Build) : isEslprp bld (some 128) (2 ^ 128 - 1) none = .ok false := by
  cases bld <;> decide +kernel

theorem isSlprp_total (bld : Build) {w : Width} (hstd : StdWidth w) {n : ℕ} (hn : 2 ^ 64 ≤ n) (hodd : n % 2 = 1)
    (hw : fits w n = true) : ∃ v, isSlprp bld w n none none = .ok v ∧
      (v = true → ∃ Q, jacobiSym (1 - 4 * Q) n = -1 ∧ (StrongLucasPRP n 1 Q ∨ lucasV 1 Q (n + 1) ≡ 0 [ZMOD n])) := by
  by_cases hmax : fits w (n + 1) = true
  · obtain ⟨_, Q, v, _, h2, h3⟩ := isSlprp_none_spec bld hstd hodd hmax
    refine ⟨v, h2, ?_⟩
    rintro rfl
    rcases h3 with ⟨_, _, h⟩ | ⟨_, h4, h5⟩
    · simp at h
    · exact ⟨Q, h4, h5.mp rfl⟩
  · have hne : n = 2 ^ 128 - 1 := by
      by_contra h
      exact hmax (succ_fits hstd hn hw h)
    have hw8 : w = some 128 := by
      rcases hstd with rfl | ⟨b, hb, rfl⟩
      · simp at hmax
      · simp only [List.mem_cons, List.not_mem_nil, or_false] at hb
        rw [fits_some] at hw
        rcases hb with rfl | rfl | rfl | rfl | rfl
        · omega
        · omega
        · omega
        · omega
        · rfl
    subst hne; subst hw8
    exact ⟨false, isSlprp_max bld, by simp⟩

theorem isEslprp_total (bld : Build) {w : Width} (hstd : StdWidth w) {n : ℕ} (hn : 2 ^ 64 ≤ n) (hodd : n % 2 = 1)
    (hw : fits w n = true) : ∃ v, isEslprp bld w n none = .ok v ∧
      (v = true → ∃ P : ℕ, 3 ≤ P ∧ jacobiSym ((P : ℤ) ^ 2 - 4) n = -1 ∧ ExtraStrongLucasPRP n P) := by
  by_cases hmax : fits w (n + 1) = true
  · obtain ⟨P, v, _, h2, h3⟩ := isEslprp_none_spec bld hstd hodd hmax
    refine ⟨v, h2, ?_⟩
    rintro rfl
    rcases h3 with ⟨_, _, h⟩ | ⟨h3, h4, h5⟩
    · simp at h
    · exact ⟨P, h3, h4, h5.mp rfl⟩
  · have hne : n = 2 ^ 128 - 1 := by
      by_contra h
      exact hmax (succ_fits hstd hn hw h)
    have hw8 : w = some 128 := by
      rcases hstd with rfl | ⟨b, hb, rfl⟩
      · simp at hmax
      · simp only [List.mem_cons, List.not_mem_nil, or_false] at hb
        rw [fits_some] at hw
        rcases hb with rfl | rfl | rfl | rfl | rfl
        · omega
        · omega
        · omega
        · omega
        · rfl
    subst hne; subst hw8
    exact ⟨false, isEslprp_max bld, by simp⟩

/-! ## the test itself -/

theorem isPrime_even (bld : Build) (w : Width) (list : List ℕ) {n : ℕ} (h : n % 2 = 0) (config) (draws) :
    isPrime bld w list n config draws = .ok (if n = 2 then .yes else .no) := by
  simp [isPrime, h]

theorem isPrime_small (bld : Build) (w : Width) (list : List ℕ) {n : ℕ} (hodd : n % 2 = 1) (h : n < 2 ^ 64) (config) (draws) :
    isPrime bld w list n config draws = .ok (if isPrime64 bld n then .yes else .no) := by
  have h0 : ¬ n % 2 = 0 := by omega
  simp only [isPrime, h0, if_false, h, if_true, Res.pure_def]

/-- below `2^64` the generic test is `is_prime64` -/
theorem isPrime_below (bld : Build) (w : Width) (list : List ℕ) {n : ℕ} (h : n < 2 ^ 64) (config) (draws) :
    isPrime bld w list n config draws = .ok (if isPrime64 bld n then .yes else .no) := by
  rcases Nat.mod_two_eq_zero_or_one n with h0 | h1
  · rw [isPrime_even bld w list h0]
    have : isPrime64 bld n = (n == 2) := by
      unfold isPrime64
      rw [and_one_eq]
      split
      · rw [eq_comm, beq_eq_false_iff_ne]; omega
      · rfl
    rw [this]; simp
  · exact isPrime_small bld w list h1 h config draws

/-- outcome above `2^64` when the witnesses have been chosen -/
theorem isPrime_large (bld : Build) {w : Width} (hstd : StdWidth w) (list : List ℕ) {n : ℕ} (hodd : n % 2 = 1)
    (hn : 2 ^ 64 ≤ n) (hw : fits w n = true) (config : Option PrimalityTestConfig) (draws wl : List ℕ)
    (hd : drawWitnesses draws (config.getD .default).sprpRandomTrials (list.take (config.getD .default).sprpTrials) = .ok wl) :
    (isPrime bld w list n config draws = .ok .no ∧ (¬ n.Prime ∨ ∃ b ∈ wl, n ∣ b)) ∨
    (isPrime bld w list n config draws = .ok (.probable (probability (config.getD .default))) ∧
      (∀ b ∈ wl, StrongPRP n b) ∧
      ((config.getD .default).slprpTest = true → isSlprp bld w n none none = .ok true) ∧
      ((config.getD .default).eslprpTest = true → isEslprp bld w n none = .ok true)) := by
  have h0 : ¬ n % 2 = 0 := by omega
  have h1 : ¬ n < 2 ^ 64 := by omega
  obtain ⟨a, ha, hb⟩ := allSprp_spec (by omega : 2 < n) hodd hw wl
  obtain ⟨s, hs, _⟩ := isSlprp_total bld hstd hn hodd hw
  obtain ⟨e, he, _⟩ := isEslprp_total bld hstd hn hodd hw
  have hprime : n.Prime → fits w (n + 1) = true := fun hp => succ_fits hstd hn hw (prime_ne_max hp)
  unfold isPrime
  simp only [h0, h1, if_false, hd, Res.bind_ok, ha, hs, he, Res.pure_def]
  cases a
  · left
    refine ⟨by simp, ?_⟩
    by_contra hc
    push Not at hc
    have := hb.mpr (fun b hbm => strongPRP_of_prime hc.1 (by omega) (hc.2 b hbm))
    simp at this
  · simp only [Bool.not_true, Bool.false_eq_true, if_false]
    by_cases hst : (config.getD .default).slprpTest = true
    · cases s
      · left
        refine ⟨by simp [hst], ?_⟩
        left; intro hp
        have := C10_is_slprp_prime bld w hstd n hp (by omega) (hprime hp)
        rw [hs] at this; simp at this
      · by_cases het : (config.getD .default).eslprpTest = true
        · cases e
          · left
            refine ⟨by simp [hst, het], ?_⟩
            left; intro hp
            have := C12_is_eslprp_prime bld w hstd n hp (by omega) (hprime hp)
            rw [he] at this; simp at this
          · right
            refine ⟨by simp [hst, het], hb.mp rfl, fun _ => rfl, fun _ => rfl⟩
        · right
          refine ⟨by simp [hst, het], hb.mp rfl, fun _ => rfl, fun h => absurd h het⟩
    · by_cases het : (config.getD .default).eslprpTest = true
      · cases e
        · left
          refine ⟨by simp [hst, het], ?_⟩
          left; intro hp
          have := C12_is_eslprp_prime bld w hstd n hp (by omega) (hprime hp)
          rw [he] at this; simp at this
        · right
          refine ⟨by simp [hst, het], hb.mp rfl, fun h => absurd h hst, fun _ => rfl⟩
      · right
        refine ⟨by simp [hst, het], hb.mp rfl, fun h => absurd h hst, fun h => absurd h het⟩

theorem isPrime_large_timeout (bld : Build) {w : Width} (list : List ℕ) {n : ℕ} (hodd : n % 2 = 1)
    (hn : 2 ^ 64 ≤ n) (config : Option PrimalityTestConfig) (draws : List ℕ)
    (hd : drawWitnesses draws (config.getD .default).sprpRandomTrials (list.take (config.getD .default).sprpTrials) = .timeout) :
    isPrime bld w list n config draws = .timeout := by
  have h0 : ¬ n % 2 = 0 := by omega
  have h1 : ¬ n < 2 ^ 64 := by omega
  unfold isPrime
  simp only [h0, h1, if_false, hd, Res.bind_timeout]

/-- the generic test never panics -/
theorem isPrime_ne_panic (bld : Build) {w : Width} (hstd : StdWidth w) (list : List ℕ) (n : ℕ) (hw : fits w n = true)
    (config : Option PrimalityTestConfig) (draws : List ℕ) : isPrime bld w list n config draws ≠ .panic := by
  rcases Nat.mod_two_eq_zero_or_one n with h | h
  · rw [isPrime_even bld w list h]; simp
  · rcases Nat.lt_or_ge n (2 ^ 64) with h2 | h2
    · rw [isPrime_small bld w list h h2]; simp
    · cases hd : drawWitnesses draws (config.getD .default).sprpRandomTrials (list.take (config.getD .default).sprpTrials) with
      | panic => exact absurd hd (drawWitnesses_ne_panic _ _ _)
      | timeout => rw [isPrime_large_timeout bld list h h2 config draws hd]; simp
      | ok wl =>
        rcases isPrime_large bld hstd list h h2 hw config draws wl hd with ⟨h3, _⟩ | ⟨h3, _⟩ <;> rw [h3] <;> simp

/-- a prime is never rejected when neither the buffer nor the random draws contain 0 -/
theorem isPrime_prime (bld : Build) {w : Width} (hstd : StdWidth w) (list : List ℕ) {p : ℕ} (hp : p.Prime) (hw : fits w p = true)
    (config : Option PrimalityTestConfig) (draws : List ℕ) (hl : ∀ x ∈ list, 0 < x ∧ x < 2 ^ 64)
    (hdr : ∀ x ∈ draws, 0 < x ∧ x < 2 ^ 64) (r : Primality)
    (h : isPrime bld w list p config draws = .ok r) : r = .yes ∨ r = .probable (probability (config.getD .default)) := by
  rcases Nat.lt_or_ge p (2 ^ 64) with h2 | h2
  · rw [isPrime_below bld w list h2, isPrime64_prime bld hp] at h
    left; simpa using h.symm
  · have hodd : p % 2 = 1 := by rcases hp.eq_two_or_odd with h | h <;> omega
    cases hd : drawWitnesses draws (config.getD .default).sprpRandomTrials (list.take (config.getD .default).sprpTrials) with
    | panic => exact absurd hd (drawWitnesses_ne_panic _ _ _)
    | timeout => rw [isPrime_large_timeout bld list hodd h2 config draws hd] at h; simp at h
    | ok wl =>
      rcases isPrime_large bld hstd list hodd h2 hw config draws wl hd with ⟨_, h4⟩ | ⟨h3, _⟩
      · rcases h4 with h4 | ⟨b, hb, hdb⟩
        · exact absurd hp h4
        · obtain ⟨ex, rfl, _, hx, _⟩ := drawWitnesses_spec _ _ _ _ hd
          have : 0 < b ∧ b < 2 ^ 64 := by
            rcases List.mem_append.mp hb with hb | hb
            · exact hl b (List.mem_of_mem_take hb)
            · exact hdr b (hx b hb).1
          have := Nat.le_of_dvd this.1 hdb
          omega
      · rw [h3] at h
        right; injection h with h; exact h.symm

end NumPrime
