import Verif.Proofs.OneLine32
import Verif.Props.Reachable
import Verif.Props.Consistency
import Verif.Props.Examples

/-! # C96: 32 bit numbers are always factored, whatever the random numbers -/

namespace NumPrime
open Spec Tables

/-! ## the divisor search -/

theorem bind_ne_panic {α β : Type} {x : Res α} {f : α → Res β} (hx : x ≠ .panic) (hf : ∀ a, x = .ok a → f a ≠ .panic) :
    (x >>= f) ≠ .panic := by
  cases x with
  | ok a => exact hf a rfl
  | panic => exact absurd rfl hx
  | timeout => intro h; cases h

theorem trySqufof_ne_panic {bld : Build} {fuel n r : ℕ} (hn : 0 < n) (hr : r ≤ 44) (hf : enough ≤ fuel) :
    ∀ ks : List ℕ, trySqufof bld 64 fuel n (2 ^ r) ks ≠ .panic := by
  intro ks
  induction ks with
  | nil => simp [trySqufof]
  | cons k ks ih =>
    unfold trySqufof
    split
    · rename_i hfit
      have hp : 2 ^ r ≤ 2 ^ 44 := Nat.pow_le_pow_right (by norm_num) hr
      have hq : isqrt (isqrt (n * k)) < 2 ^ 16 := by
        have h1 := (isqrt_spec (n * k)).1
        have h2 := (isqrt_spec (isqrt (n * k))).1
        have h3 := fits_some.mp hfit
        generalize isqrt (n * k) = s at *
        generalize isqrt s = q at *
        by_contra hc
        have h4 : 2 ^ 16 * 2 ^ 16 ≤ q * q := Nat.mul_le_mul (by omega) (by omega)
        have h5 : 2 ^ 32 * 2 ^ 32 ≤ s * s := Nat.mul_le_mul (by omega) (by omega)
        omega
      have hmod : isqrt (isqrt (n * k)) % 2 ^ 64 = isqrt (isqrt (n * k)) := Nat.mod_eq_of_lt (by omega)
      have hmi : 2 ^ r * 2 * isqrt (isqrt (n * k)) < 2 ^ 64 := by
        have := Nat.mul_le_mul (show 2 ^ r * 2 ≤ 2 ^ 45 by omega) hq.le
        omega
      rw [hmod, cmul_ok (fits_some.mpr (show 2 ^ r * 2 < 2 ^ 64 by omega)), Res.bind_ok, cmul_ok (fits_some.mpr hmi), Res.bind_ok]
      have hret : ∃ x, squfof bld (some 64) fuel n (n * k) (2 ^ r * 2 * isqrt (isqrt (n * k))) = .ok x := by
        generalize 2 ^ r * 2 * isqrt (isqrt (n * k)) = mi at *
        rw [Nat.mul_comm n k] at hfit ⊢
        refine C78_squfof_returns bld (some 64) fuel n k mi (fun c hc => by simp only [Option.some.injEq] at hc; omega) hn hfit ?_
        have hlog : Nat.log 2 (k * n) ≤ 128 := by
          have h1 := fits_some.mp hfit
          have h2 : k * n < 2 ^ 129 := lt_of_lt_of_le h1 (Nat.pow_le_pow_right (by norm_num) (by omega))
          exact Nat.lt_succ_iff.mp (Nat.log_lt_of_lt_pow' (by norm_num) h2)
        have h3 : mi * (Nat.log 2 (k * n) + 2) ≤ 2 ^ 64 * 130 := Nat.mul_le_mul hmi.le (by omega)
        have h4 : 2 ^ 64 * 130 ≤ enough := by norm_num [enough]
        omega
      obtain ⟨⟨d, i⟩, hx⟩ := hret
      rw [hx, Res.bind_ok]
      cases d with
      | none => exact ih
      | some p => simp
    · exact ih

theorem shift_mod {r m : ℕ} (hr : r ≤ 44) (hm : m < 2 ^ 64) : 2 ^ 44 ≤ 2 ^ 44 <<< (bits m / 6) ∧
    (2 ^ r <<< (bits m / 6)) % 2 ^ 64 = 2 ^ r <<< (bits m / 6) := by
  have hb : bits m ≤ 64 := by
    unfold bits
    rw [bitLen_eq_size]
    exact Nat.size_le.mpr hm
  have hs : bits m / 6 ≤ 10 := by omega
  constructor
  · rw [Nat.shiftLeft_eq]; exact Nat.le_mul_of_pos_right _ (by positivity)
  · apply Nat.mod_eq_of_lt
    rw [Nat.shiftLeft_eq, ← pow_add]
    exact Nat.pow_lt_pow_right (by norm_num) (by omega)

/-- what `one_line` with the multiplier 480 has to find for the search to succeed -/
def FoundEarly (n : ℕ) : Prop := ∃ i d, 1 ≤ i ∧ i * (480 * n) < (2 ^ 32 - 1) ^ 2 ∧ OneLineFinds n (480 * n) i d

theorem tryMethod_ne_panic {bld : Build} {fuel n k i r : ℕ} {rng : Rng} (hn : 1 < n) (hodd : n % 2 = 1) (h480 : 480 * n < 2 ^ 64)
    (hfe : FoundEarly n) (hr : r ≤ 44) (hf : enough ≤ fuel) : tryMethod bld 64 rng fuel n k i (2 ^ r) ≠ .panic := by
  unfold tryMethod
  split
  · refine mapR_ne_panic _ ?_
    unfold tryRho
    rw [if_neg (by omega)]
    refine mapR_ne_panic _ ?_
    unfold pollardRho
    split
    · omega
    · simp
  · refine mapR_ne_panic _ ?_
    have hfit : fits (some 64) (n * 480) = true := fits_some.mpr (by omega)
    rw [if_pos hfit, Nat.mul_comm n 480]
    intro hc
    obtain ⟨j, hj1, -, hj3, -, hj5⟩ := (C43_one_line_panics_iff bld 32 n 480 _ (by omega) (by norm_num) h480).mp hc
    obtain ⟨i, d, h1, h2, h3⟩ := hfe
    refine hj5 i h1 ?_ d h3
    by_contra hle
    have := Nat.mul_le_mul_right (480 * n) (show j ≤ i by omega)
    omega
  · exact mapR_ne_panic _ (trySqufof_ne_panic (by omega) hr hf _)

theorem tryMethod_found {bld : Build} {fuel n k : ℕ} {rng : Rng} (hn : 2 ^ 16 ≤ n) (h480 : 480 * n < 2 ^ 64)
    (hfe : FoundEarly n) : ∃ d, tryMethod bld 64 rng fuel n k 133 (2 ^ 44) = .ok (some d, k) := by
  have hfe' : ∃ i, 1 ≤ i ∧ i * (480 * n) < (2 ^ 32 - 1) ^ 2 ∧ ∃ d, OneLineFinds n (480 * n) i d := by
    obtain ⟨i, d, h1, h2, h3⟩ := hfe; exact ⟨i, h1, h2, d, h3⟩
  classical
  obtain ⟨h1, h2, d, h3⟩ := Nat.find_spec hfe'
  have hmin := fun j => Nat.find_min hfe' (m := j)
  generalize Nat.find hfe' = i at *
  have hi : i < 2 ^ 44 := by
    by_contra hc
    have := Nat.mul_le_mul (show 2 ^ 44 ≤ i by omega) (show 480 * 2 ^ 16 ≤ 480 * n by omega)
    omega
  refine ⟨d, ?_⟩
  have hfit : fits (some 64) (n * 480) = true := fits_some.mpr (by omega)
  have e : (133 : ℕ) % 3 = 1 := rfl
  simp only [tryMethod, e, hfit, if_true]
  rw [Nat.mul_comm n 480, (shift_mod le_rfl h480).2,
    (C43_one_line_finds_iff bld 32 n 480 _ d i (by omega) (by norm_num) h480).mpr ⟨h1, lt_of_lt_of_le hi (shift_mod le_rfl h480).1, h2, h3, ?_⟩]
  · rfl
  · intro j hj1 hj2 d' hd'
    refine hmin j hj2 ⟨hj1, ?_, d', hd'⟩
    exact lt_of_le_of_lt (Nat.mul_le_mul_right _ hj2.le) h2

theorem findDivisor_ne_panic {bld : Build} {fuel n : ℕ} {rng : Rng} (hn : 2 ^ 16 ≤ n) (hodd : n % 2 = 1) (h480 : 480 * n < 2 ^ 64)
    (hfe : FoundEarly n) (hf : enough ≤ fuel) : ∀ f k i, i ≤ 133 → findDivisor bld 64 rng fuel n f k i (2 ^ (i / 3)) ≠ .panic := by
  intro f
  induction f with
  | zero => intro k i hi; simp [findDivisor]
  | succ f ih =>
    intro k i hi
    unfold findDivisor
    rcases Nat.lt_or_eq_of_le hi with hlt | rfl
    · refine bind_ne_panic (tryMethod_ne_panic (by omega) hodd h480 hfe (by omega) hf) fun x _ => ?_
      obtain ⟨d, k'⟩ := x
      cases d with
      | some d => simp
      | none =>
        dsimp only
        by_cases h3 : (i + 1) % 3 = 0
        · have hp : 2 ^ (i / 3) * 2 = 2 ^ ((i + 1) / 3) := by
            rw [← pow_succ]; congr 1; omega
          have hlt : 2 ^ ((i + 1) / 3) < 2 ^ 64 := Nat.pow_lt_pow_right (by norm_num) (by omega)
          rw [if_pos h3, cmul_ok (fits_some.mpr (by rw [hp]; exact hlt)), Res.bind_ok, hp]
          exact ih _ _ (by omega)
        · rw [if_neg h3, Res.bind_ok]
          have : i / 3 = (i + 1) / 3 := by omega
          rw [this]
          exact ih _ _ (by omega)
    · obtain ⟨d, hd⟩ := tryMethod_found (bld := bld) (fuel := fuel) (k := k) (rng := rng) hn h480 hfe
      have e : (133 : ℕ) / 3 = 44 := rfl
      rw [e, hd, Res.bind_ok]
      simp

theorem search_returns {bld : Build} {fuel n k : ℕ} {rng : Rng} (hn : 2 ^ 16 ≤ n) (hodd : n % 2 = 1) (h480 : 480 * n < 2 ^ 64)
    (hfe : FoundEarly n) (hf : enough ≤ fuel) : ∃ x, search bld 64 rng fuel n k = .ok x := by
  have h1 := findDivisor_ne_panic (bld := bld) (rng := rng) hn hodd h480 hfe hf fuel k 0 (by omega)
  have h2 := search_ne_timeout (bld := bld) (b := 64) (k := k) (rng := rng) (by norm_num) (by norm_num) (show 0 < n by omega) hf
  unfold search at h2 ⊢
  simp only [Nat.zero_div, pow_zero] at h1
  cases h : findDivisor bld 64 rng fuel n fuel k 0 1 with
  | ok x => exact ⟨x, rfl⟩
  | panic => exact absurd h h1
  | timeout => exact absurd h h2

/-! ## numbers without small factors -/

theorem rough_factor {bld : Build} {n p : ℕ} (h : Rough bld n) (hp : p.Prime) (hd : p ∣ n) : 257 ≤ p := by
  by_contra hc
  exact h p hp (lt_of_lt_of_le (by omega : p < 257) (by cases bld <;> decide)) hd

theorem rough_30 {bld : Build} {n : ℕ} (h : Rough bld n) : Nat.Coprime n 30 := by
  rw [Nat.coprime_iff_gcd_eq_one]
  by_contra hc
  have hp := Nat.minFac_prime hc
  have hd := Nat.minFac_dvd (Nat.gcd n 30)
  have h1 := rough_factor h hp (hd.trans (Nat.gcd_dvd_left _ _))
  have h2 := Nat.le_of_dvd (by norm_num) (hd.trans (Nat.gcd_dvd_right n 30))
  omega

/-- a composite without small factors that is neither a square nor a cube splits into coprime parts -/
theorem coprime_split {bld : Build} {n : ℕ} (h1 : 1 < n) (h32 : n < 2 ^ 32) (hr : Rough bld n) (hnp : ¬ n.Prime)
    (hs : ¬ ∃ d, d ^ 2 = n) (hc : ¬ ∃ d, d ^ 3 = n) : ∃ a b, a * b = n ∧ Nat.Coprime a b ∧ b ≤ a ∧ 257 ≤ b := by
  have hp := Nat.minFac_prime (show n ≠ 1 by omega)
  have hpn := Nat.minFac_dvd n
  have hp257 := rough_factor hr hp (Nat.minFac_dvd n)
  obtain ⟨e, m, hm, hnm⟩ := Nat.exists_eq_pow_mul_and_not_dvd (show n ≠ 0 by omega) n.minFac hp.ne_one
  generalize n.minFac = p at *
  have hcop : Nat.Coprime (p ^ e) m := Nat.Coprime.pow_left e ((Nat.Prime.coprime_iff_not_dvd hp).mpr hm)
  have hm0 : m ≠ 0 := by rintro rfl; simp at hm
  have he0 : e ≠ 0 := by
    rintro rfl
    rw [pow_zero, one_mul] at hnm
    exact hm (hnm ▸ hpn)
  have he : e ≤ 3 := by
    by_contra hc'
    have h4 : p ^ 4 ≤ p ^ e := Nat.pow_le_pow_right (by omega) (by omega)
    have h5 : 257 ^ 4 ≤ p ^ 4 := Nat.pow_le_pow_left hp257 4
    have h6 : p ^ e ≤ n := by rw [hnm]; exact Nat.le_mul_of_pos_right _ (by omega)
    omega
  have hm1 : m ≠ 1 := by
    rintro rfl
    rw [mul_one] at hnm
    have : e = 1 ∨ e = 2 ∨ e = 3 := by omega
    rcases this with rfl | rfl | rfl
    · rw [pow_one] at hnm; exact hnp (hnm ▸ hp)
    · exact hs ⟨p, hnm.symm⟩
    · exact hc ⟨p, hnm.symm⟩
  have hm257 : 257 ≤ m := by
    have hq := Nat.minFac_prime hm1
    have := rough_factor hr hq ((Nat.minFac_dvd m).trans ⟨p ^ e, by rw [hnm, Nat.mul_comm]⟩)
    exact this.trans (Nat.minFac_le (by omega))
  have hpe : 257 ≤ p ^ e := hp257.trans (Nat.le_self_pow he0 p)
  rcases le_total m (p ^ e) with hle | hle
  · exact ⟨p ^ e, m, hnm.symm, hcop, hle, hm257⟩
  · exact ⟨m, p ^ e, by rw [hnm, Nat.mul_comm], hcop.symm, hle, hpe⟩

theorem foundEarly_u32 {bld : Build} {n : ℕ} (h1 : 1 < n) (h32 : n < 2 ^ 32) (hr : Rough bld n) (hnp : ¬ n.Prime)
    (hs : ¬ ∃ d, d ^ 2 = n) (hc : ¬ ∃ d, d ^ 3 = n) : FoundEarly n ∧ 2 ^ 16 ≤ n := by
  obtain ⟨a, b, rfl, hcop, hle, hb⟩ := coprime_split h1 h32 hr hnp hs hc
  refine ⟨oneLine_u32 hcop (rough_30 (hr.of_dvd ⟨b, rfl⟩)) (rough_30 (hr.of_dvd ⟨a, Nat.mul_comm _ _⟩)) hb hle h32, ?_⟩
  have := Nat.mul_le_mul (hb.trans hle) hb
  omega

/-! ## the worklist -/

theorem advanced64Loop_ne_panic {bld : Build} {fuel : ℕ} {rng : Rng} (hf : enough ≤ fuel) : ∀ (f k : ℕ) (todo done : List (ℕ × ℕ)),
    (∀ x ∈ todo, Todo64 bld x ∧ x.1 < 2 ^ 32) → advanced64Loop bld (search bld 64 rng fuel) f k todo done ≠ .panic := by
  intro f
  induction f with
  | zero =>
    intro k todo done ht
    cases todo with
    | nil => simp [advanced64Loop]
    | cons x t => simp [advanced64Loop]
  | succ f ih =>
    intro k todo done ht
    cases todo with
    | nil => simp [advanced64Loop]
    | cons x t =>
      obtain ⟨n, e⟩ := x
      obtain ⟨⟨h1, h64, hr, he⟩, h32⟩ := ht (n, e) (by simp)
      simp only at h1 h64 hr he h32
      have ht' : ∀ x ∈ t, Todo64 bld x ∧ x.1 < 2 ^ 32 := fun x hx => ht x (List.mem_cons_of_mem _ hx)
      simp only [advanced64Loop]
      cases hm : isPrime64Miller bld n with
      | true => rw [if_pos rfl]; exact ih _ _ _ ht'
      | false =>
        have hnp : ¬ n.Prime := fun hp => by
          rw [isPrime64Miller_of h1 hr (isPrime64_prime bld hp)] at hm; simp at hm
        obtain ⟨o, h2, ho2⟩ := sqrtExact_spec bld (some 64) (show 0 < n by omega) (fits_some.mpr h64)
        simp only [h2, Res.bind_ok, Bool.false_eq_true, if_false]
        cases o with
        | some d =>
          have hd2 := (ho2 d).mp rfl
          obtain ⟨a1, a2, a3⟩ := root_todo h1 (by norm_num) hd2
          refine ih _ _ _ (by
            intro x hx
            rcases List.mem_cons.mp hx with rfl | hx
            · exact ⟨⟨a1, by simp only; omega, hr.of_dvd a3, by simp only; omega⟩, by simp only; omega⟩
            · exact ht' x hx)
        | none =>
          have hns := not_isSquare_of (by omega) (fits_some.mpr h64) h2
          cases hc : cbrtExact bld (some 64) n with
          | some d =>
            have hd2 := (cbrtExact_spec bld (some 64) n d).mp hc
            obtain ⟨a1, a2, a3⟩ := root_todo h1 (by norm_num) hd2
            refine ih _ _ _ (by
              intro x hx
              rcases List.mem_cons.mp hx with rfl | hx
              · exact ⟨⟨a1, by simp only; omega, hr.of_dvd a3, by simp only; omega⟩, by simp only; omega⟩
              · exact ht' x hx)
          | none =>
            dsimp only
            have hs : ¬ ∃ d, d ^ 2 = n := fun ⟨d, hd⟩ => by cases (ho2 d).mpr hd
            have hcb : ¬ ∃ d, d ^ 3 = n := fun ⟨d, hd⟩ => by
              rw [(cbrtExact_spec bld (some 64) n d).mpr hd] at hc; cases hc
            obtain ⟨hfe, h16⟩ := foundEarly_u32 h1 h32 hr hnp hs hcb
            obtain ⟨⟨d, k1⟩, hx⟩ := search_returns (bld := bld) (k := k) (rng := rng) h16 (rough_odd hr) (by omega) hfe hf
            obtain ⟨b1, b2, b3⟩ := search_ok bld 64 (by norm_num) rng fuel n k d k1 h1 hr hns hx
            simp only [hx, Res.bind_ok, cdiv_ok (show d ≠ 0 by omega)]
            obtain ⟨hq1, hqlt, hqn, hq⟩ := cofactor h1 ⟨b1, b2, b3⟩
            refine ih _ _ _ (by
              intro x hx
              rcases List.mem_cons.mp hx with rfl | hx
              · exact ⟨⟨hq1, by simp only; omega, hr.of_dvd hqn, he⟩, by simp only; omega⟩
              · rcases List.mem_cons.mp hx with rfl | hx
                · exact ⟨⟨b2, by simp only; omega, hr.of_dvd b1, he⟩, by simp only; omega⟩
                · exact ht' x hx)

/-- **C96** `factorize64` returns for every positive number below `2^32`, whatever the random numbers, in both builds -/
theorem C96_factorize64_u32_returns (bld : Build) (rng : Rng) (fuel k n : ℕ) (hn : 1 ≤ n) (h32 : n < 2 ^ 32) (hf : 2 ^ 72 ≤ fuel) :
    ∃ m k', factorize64 bld rng fuel k n = .ok (m, k') := by
  have ht := C79_factorize64_terminates bld rng fuel k n (by omega) hf
  have hp : factorize64 bld rng fuel k n ≠ .panic := by
    rcases factorize64With_cases (bld := bld) (fuel := fuel) (k := k) hn (by omega : n < 2 ^ 64) with ⟨m', h1, -⟩ | ⟨m', r, hF, h2, h3⟩
    · rw [factorize64, h1]; simp
    · rw [factorize64, h3]
      refine mapR_ne_panic _ ?_
      refine advanced64Loop_ne_panic hf _ _ _ _ ?_
      intro x hx
      simp only [List.mem_singleton] at hx; subst hx
      refine ⟨h2, lt_of_le_of_lt (Nat.le_of_dvd hn ⟨mapProd m', ?_⟩) h32⟩
      rw [Nat.mul_comm]; exact hF.prod
  cases h : factorize64 bld rng fuel k n with
  | ok x => exact ⟨x.1, x.2, rfl⟩
  | panic => exact absurd h hp
  | timeout => exact absurd h ht

/-- **C96** so do `factorize128`, `factors` (without leaving a cofactor) and the generic `factorize`, for every integer type,
configuration and prime buffer -/
theorem C96_factorize_u32_returns (bld : Build) (rng : Rng) (fuel k n : ℕ) (hn : 1 ≤ n) (h32 : n < 2 ^ 32) (hf : 2 ^ 72 ≤ fuel) :
    ∃ m k', factorize64 bld rng fuel k n = .ok (m, k') ∧ factorize128 bld rng fuel k n = .ok (m, k') ∧
      (∀ w list config, factors bld w list rng fuel k n config = .ok (m, none, k')) ∧
      ∀ w list attempts, 1 ≤ attempts → factorize bld w list rng fuel attempts k n = .ok (m, k') := by
  obtain ⟨m, k', h⟩ := C96_factorize64_u32_returns bld rng fuel k n hn h32 hf
  have h128 : factorize128 bld rng fuel k n = .ok (m, k') := by
    rw [← h]
    simp only [factorize128, factorize128With, show n < 2 ^ 64 by omega, if_true, factorize64]
  have hfs : ∀ w list config, factors bld w list rng fuel k n config = .ok (m, none, k') := fun w list config => by
    simp only [factors, factorsWith, show n < 2 ^ 128 by omega, if_true, h128, Res.bind_ok]
    rfl
  refine ⟨m, k', h, h128, hfs, fun w list attempts ha => ?_⟩
  obtain ⟨a, rfl⟩ := Nat.exists_eq_add_of_le' ha
  simp only [factorize, hfs, Res.bind_ok]
  rfl

/-- **C96** and the result is the prime factorization: below `2^32` in the build without big tables, below `2^16` in both -/
theorem C96_factorize_u32_exact (bld : Build) (N : ℕ) (hN : bld = .small ∧ N = 2 ^ 32 ∨ N = 2 ^ 16) (rng : Rng) (fuel k n : ℕ)
    (hn : 1 ≤ n) (hlt : n < N) (hf : 2 ^ 72 ≤ fuel) :
    ∃ m k', IsFactorization m n ∧ factorize64 bld rng fuel k n = .ok (m, k') ∧ factorize128 bld rng fuel k n = .ok (m, k') ∧
      (∀ w list config, factors bld w list rng fuel k n config = .ok (m, none, k')) ∧
      ∀ w list attempts, 1 ≤ attempts → factorize bld w list rng fuel attempts k n = .ok (m, k') := by
  obtain ⟨m, k', h1, h2⟩ := C96_factorize_u32_returns bld rng fuel k n hn (by rcases hN with ⟨-, rfl⟩ | rfl <;> omega) hf
  refine ⟨m, k', ?_, h1, h2⟩
  rcases hN with ⟨rfl, rfl⟩ | rfl
  · exact factorize64_exactBelow testExact_u32 hn hlt h1
  · exact factorize64_exactBelow (testExact_u16 bld) hn hlt h1

/-- **C96** without overflow checks the functions return the same, again whatever the random numbers -/
theorem C96_factorize_u32_release (bld : Build) (rng : Rng) (fuel k n : ℕ) (hn : 1 ≤ n) (h32 : n < 2 ^ 32) (hf : 2 ^ 72 ≤ fuel) :
    ∃ v, factorize64 bld rng fuel k n = .ok v ∧ factorize64Rel bld rng fuel k n = .ok v ∧ factorize128Rel bld rng fuel k n = .ok v := by
  obtain ⟨m, k', h1, h2, -⟩ := C96_factorize_u32_returns bld rng fuel k n hn h32 hf
  exact ⟨(m, k'), h1, C80_factorize64_agrees bld rng fuel k n hn (by omega) _ h1, C80_factorize128_agrees bld rng fuel k n hn (by omega) _ h2⟩

/-- **C96** `moebius` returns below `2^32`, whatever the random numbers, in both builds -/
theorem C96_moebius_u32_returns (bld : Build) (w : Width) (rng : Rng) (fuel attempts k n : ℕ) (h32 : n < 2 ^ 32)
    (hf : 2 ^ 72 ≤ fuel) (ha : 1 ≤ attempts) : ∃ v, moebius bld w rng fuel attempts k n = .ok v := by
  have hodd : ∀ t, 1 ≤ t → t < 2 ^ 32 → ∃ v, moebiusOddPart bld w rng fuel attempts k t = .ok v := by
    intro t h1 ht
    unfold moebiusOddPart
    rw [csub_ok h1, Res.bind_ok]
    split
    · exact ⟨_, rfl⟩
    · split
      · exact ⟨_, rfl⟩
      · obtain ⟨m, k', -, -, -, h4⟩ := C96_factorize_u32_returns bld rng fuel k t h1 ht hf
        simp only [factorizeNew, h4 _ _ _ ha, Res.bind_ok]
        exact ⟨_, rfl⟩
  unfold moebius
  split
  · split
    · exact ⟨_, rfl⟩
    · obtain ⟨v, hv⟩ := hodd (n / 2) (by omega) (by omega)
      rw [hv, Res.bind_ok]
      exact ⟨_, rfl⟩
  · exact hodd n (by omega) h32

/-- **C96** and its value is the Möbius function -/
theorem C96_moebius_u32_exact (bld : Build) (N : ℕ) (hN : bld = .small ∧ N = 2 ^ 32 ∨ N = 2 ^ 16) (w : Width) (rng : Rng)
    (fuel attempts k n : ℕ) (hlt : n < N) (hf : 2 ^ 72 ≤ fuel) (ha : 1 ≤ attempts) :
    moebius bld w rng fuel attempts k n = .ok (ArithmeticFunction.moebius n) := by
  obtain ⟨v, hv⟩ := C96_moebius_u32_returns bld w rng fuel attempts k n (by rcases hN with ⟨-, rfl⟩ | rfl <;> omega) hf ha
  rw [hv]
  rcases hN with ⟨rfl, rfl⟩ | rfl
  · rw [moebius_exactBelow testExact_u32 hlt hv]
  · rw [moebius_exactBelow (testExact_u16 bld) hlt hv]

/-- **C96** `is_square_free` is exact there -/
theorem C96_is_square_free_u32_exact (bld : Build) (N : ℕ) (hN : bld = .small ∧ N = 2 ^ 32 ∨ N = 2 ^ 16) (w : Width) (rng : Rng)
    (fuel attempts k n : ℕ) (hlt : n < N) (hf : 2 ^ 72 ≤ fuel) (ha : 1 ≤ attempts) :
    isSquareFree bld w rng fuel attempts k n = .ok (decide (Squarefree n)) := by
  unfold isSquareFree
  rw [C96_moebius_u32_exact bld N hN w rng fuel attempts k n hlt hf ha, Res.bind_ok]
  simp only [Res.pure_def, Res.ok.injEq, decide_eq_decide]
  exact ArithmeticFunction.moebius_ne_zero_iff_squarefree

/-- the search is needed for this product of two primes above the table limit; all random numbers are 0, so that Pollard's rho never helps -/
example : factorize64 .small ⟨fun _ => 0, fun _ => []⟩ (2 ^ 72) 0 (65519 * 65521) = .ok ([(65519, 1), (65521, 1)], 2) ∧
    tryRho ⟨fun _ => 0, fun _ => []⟩ 0 (65519 * 65521) 1000 = .ok none := by decide +kernel

/-! ## The example programs -/

/-- **C96** the divisors example lists the divisors of every value below `2^32` (with big tables below `2^16`), whatever the random
numbers -/
theorem C96_divisors_u32 (bld : Build) (N : ℕ) (hN : bld = .small ∧ N = 2 ^ 32 ∨ N = 2 ^ 16) (rng : Rng) (fuel k n : ℕ)
    (hn : 1 ≤ n) (hlt : n < N) (hf : 2 ^ 72 ≤ fuel) : ∃ l, divisors bld rng fuel k n = .ok l ∧ ListsDivisors l n := by
  obtain ⟨m, k', h1, h2, -⟩ := C96_factorize_u32_exact bld N hN rng fuel k n hn hlt hf
  obtain ⟨l, h3, h4⟩ := C66_divisors_from_factorization m n hn (by rcases hN with ⟨-, rfl⟩ | rfl <;> omega) h1
  exact ⟨l, by rw [divisors, h2, Res.bind_ok]; exact h3, h4⟩

/-- **C96** the divisor sum example computes `σ_z` there or panics because the value does not fit `u64`, which does not happen for
`z ≤ 1` -/
theorem C96_divisor_sigma_u32 (bld : Build) (N : ℕ) (hN : bld = .small ∧ N = 2 ^ 32 ∨ N = 2 ^ 16) (rng : Rng) (fuel k n z : ℕ)
    (hn : 1 ≤ n) (hlt : n < N) (hf : 2 ^ 72 ≤ fuel) :
    divisorSigma bld rng fuel k n z =
      (if ArithmeticFunction.sigma z n < 2 ^ 64 then .ok (ArithmeticFunction.sigma z n) else .panic) ∧
      (z ≤ 1 → ArithmeticFunction.sigma z n < 2 ^ 64) := by
  obtain ⟨l, h1, h2⟩ := C96_divisors_u32 bld N hN rng fuel k n hn hlt hf
  refine ⟨by rw [divisorSigma, h1, Res.bind_ok, sumPow_eq z l 0 (by norm_num), zero_add, h2.sum_pow hn z], fun hz => ?_⟩
  have h32 : n < 2 ^ 32 := by rcases hN with ⟨-, rfl⟩ | rfl <;> omega
  rw [ArithmeticFunction.sigma_apply]
  have h3 : ∑ d ∈ n.divisors, d ^ z ≤ ∑ _d ∈ n.divisors, n := Finset.sum_le_sum (fun d hd => by
    have hd' := Nat.divisor_le hd
    have hd0 := Nat.pos_of_mem_divisors hd
    exact (Nat.pow_le_pow_right hd0 hz).trans (by rw [pow_one]; exact hd'))
  rw [Finset.sum_const, smul_eq_mul] at h3
  have h4 := Nat.card_divisors_le_self n
  calc _ ≤ _ := h3
    _ ≤ n * n := Nat.mul_le_mul_right _ h4
    _ < 2 ^ 32 * 2 ^ 32 := Nat.mul_lt_mul'' h32 h32
    _ = 2 ^ 64 := by norm_num

/-- **C96** the omega example counts the prime factors there -/
theorem C96_prime_omega_u32 (bld : Build) (N : ℕ) (hN : bld = .small ∧ N = 2 ^ 32 ∨ N = 2 ^ 16) (rng : Rng) (fuel k n : ℕ)
    (hn : 1 ≤ n) (hlt : n < N) (hf : 2 ^ 72 ≤ fuel) :
    primeOmega bld rng fuel k n = .ok (ArithmeticFunction.cardDistinctFactors n) ∧
    primeBigOmega bld rng fuel k n = .ok (ArithmeticFunction.cardFactors n) := by
  obtain ⟨m, k', h1, h2, -⟩ := C96_factorize_u32_exact bld N hN rng fuel k n hn hlt hf
  obtain ⟨h3, h4⟩ := factorization_omega h1 hn
  rw [primeOmega, primeBigOmega, h2]
  exact ⟨by rw [← h3]; rfl, by rw [← h4]; rfl⟩

example (rng : Rng) : ∃ l, divisors .small rng (2 ^ 72) 0 4294967291 = .ok l ∧ ListsDivisors l 4294967291 :=
  C96_divisors_u32 .small _ (Or.inl ⟨rfl, rfl⟩) rng _ 0 _ (by norm_num) (by norm_num) le_rfl
example (rng : Rng) : divisorSigma .small rng (2 ^ 72) 0 4294049777 1 = .ok (ArithmeticFunction.sigma 1 4294049777) := by
  obtain ⟨h1, h2⟩ := C96_divisor_sigma_u32 .small _ (Or.inl ⟨rfl, rfl⟩) rng (2 ^ 72) 0 4294049777 1 (by norm_num) (by norm_num) le_rfl
  rw [h1, if_pos (h2 le_rfl)]
example (rng : Rng) : primeOmega .big rng (2 ^ 72) 0 65535 = .ok (ArithmeticFunction.cardDistinctFactors 65535) :=
  (C96_prime_omega_u32 .big _ (Or.inr rfl) rng _ 0 _ (by norm_num) (by norm_num) le_rfl).1

end NumPrime
