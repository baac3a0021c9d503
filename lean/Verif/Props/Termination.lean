import Verif.Proofs.SqufofTerm
import Verif.Proofs.Worklist128
import Verif.Props.Factorize
import Verif.Props.Moebius

/-! # C78, C79: SQUFOF and the factorization functions do not run forever -/

namespace NumPrime
open Spec Tables

theorem two_isqrt_le (D : ℕ) : 2 * isqrt D + 2 ≤ 2 ^ (Nat.log 2 D + 2) := by
  have h1 := (isqrt_spec D).1
  have h2 : D < 2 ^ (Nat.log 2 D + 1) := Nat.lt_pow_succ_log_self (by norm_num) D
  have h3 : isqrt D ≤ D := by
    generalize isqrt D = r at *
    rcases Nat.eq_zero_or_pos r with h | h
    · omega
    · exact le_trans (Nat.le_mul_of_pos_left r h) h1
  rw [pow_succ]
  omega

/-- **C78** `squfof` returns for every target, multiplier and iteration limit: each backward loop ends after at most
`max_iter * (log2(k * n) + 2)` rounds. (`fuel` is the number of rounds granted to each backward loop.) -/
theorem C78_squfof_returns (bld : Build) (w : Width) (fuel n k maxIter : ℕ) (hb : ∀ b, w = some b → 2 ≤ b)
    (hn : 0 < n) (hw : fits w (k * n) = true) (hf : maxIter * (Nat.log 2 (k * n) + 2) ≤ fuel) :
    ∃ r, squfof bld w fuel n (k * n) maxIter = .ok r := by
  refine squfof_returns hn ⟨k, Nat.mul_comm _ _⟩ hw ?_ ?_
  · cases w with
    | none => rfl
    | some b => exact fits_some.mpr (sqrt_fits (hb b rfl) (fits_some.mp hw))
  · calc (2 * isqrt (k * n) + 2) ^ maxIter ≤ (2 ^ (Nat.log 2 (k * n) + 2)) ^ maxIter := Nat.pow_le_pow_left (two_isqrt_le _) _
      _ = 2 ^ (maxIter * (Nat.log 2 (k * n) + 2)) := by rw [← pow_mul, Nat.mul_comm]
      _ ≤ 2 ^ fuel := Nat.pow_le_pow_right (by norm_num) hf

-- the hypotheses are met; the factor 41 is found after a backward loop
example : squfof .big (some 64) (30 * 15) 11111 (1 * 11111) 30 = .ok (some 41, 5) ∧
    30 * (Nat.log 2 (1 * 11111) + 2) ≤ 30 * 15 := by decide +kernel

/-! ## the divisor search -/

theorem cadd_ne_timeout (w : Width) (a b : ℕ) : cadd w a b ≠ .timeout := by unfold cadd; split <;> simp
theorem csub_ne_timeout (a b : ℕ) : csub a b ≠ .timeout := by unfold csub; split <;> simp
theorem cdiv_ne_timeout (a b : ℕ) : cdiv a b ≠ .timeout := by unfold cdiv; split <;> simp

theorem bind_ne_timeout {α β : Type} {x : Res α} {f : α → Res β} (hx : x ≠ .timeout) (hf : ∀ a, x = .ok a → f a ≠ .timeout) :
    (x >>= f) ≠ .timeout := by
  cases x with
  | ok a => exact hf a rfl
  | panic => intro h; cases h
  | timeout => exact absurd rfl hx

theorem mapR_ne_timeout {α β : Type} {x : Res α} (f : α → β) (hx : x ≠ .timeout) : x.mapR f ≠ .timeout := by
  cases x with
  | ok a => intro h; cases h
  | panic => intro h; cases h
  | timeout => exact absurd rfl hx

theorem sqrtExactPrim_ne_timeout (b n : ℕ) : sqrtExactPrim b n ≠ .timeout := by
  unfold sqrtExactPrim
  dsimp only
  split
  · intro h; cases h
  · refine bind_ne_timeout (by simp only [cshr]; split <;> simp) fun t _ => ?_
    split <;> (intro h; cases h)

theorem sqrtExact_ne_timeout (bld : Build) (w : Width) (n : ℕ) : sqrtExact bld w n ≠ .timeout := by
  unfold sqrtExact
  split
  · unfold sqrtExactBig
    split
    · intro h; cases h
    · split
      · exact sqrtExactPrim_ne_timeout _ _
      · dsimp only
        split
        · intro h; cases h
        · split
          · intro h; cases h
          · cases bld <;> dsimp only <;> split <;> (intro h; cases h)
  · exact sqrtExactPrim_ne_timeout _ _

theorem oneLineLoop_ne_timeout {bld : Build} {w : Width} {n D maxIter : ℕ} : ∀ (f i ikn : ℕ),
    oneLineLoop bld w n D maxIter f i ikn ≠ .timeout := by
  intro f
  induction f with
  | zero => intro i ikn; simp [oneLineLoop]
  | succ f ih =>
    intro i ikn
    unfold oneLineLoop
    refine bind_ne_timeout (cadd_ne_timeout _ _ _) fun s _ => ?_
    refine bind_ne_timeout (cmul_ne_timeout _ _ _) fun ss _ => ?_
    refine bind_ne_timeout (csub_ne_timeout _ _) fun m _ => ?_
    refine bind_ne_timeout (sqrtExact_ne_timeout _ _ _) fun r _ => ?_
    refine bind_ne_timeout ?_ fun g _ => ?_
    · cases r with
      | none => simp
      | some t => exact mapR_ne_timeout _ (csub_ne_timeout _ _)
    · split
      · simp
      · split
        · exact ih _ _
        · simp

theorem oneLine_ne_timeout (bld : Build) (w : Width) (n D maxIter : ℕ) : oneLine bld w n D maxIter ≠ .timeout := by
  unfold oneLine
  split
  · simp
  · exact oneLineLoop_ne_timeout _ _ _

/-- a number of rounds that is enough for every backward loop -/
def enough : ℕ := 2 ^ 72

theorem trySqufof_ne_timeout {bld : Build} {b fuel n ratio : ℕ} (hb : 2 ≤ b) (hb2 : b ≤ 128) (hn : 0 < n) (hf : enough ≤ fuel) :
    ∀ ks : List ℕ, trySqufof bld b fuel n ratio ks ≠ .timeout := by
  intro ks
  induction ks with
  | nil => simp [trySqufof]
  | cons k ks ih =>
    unfold trySqufof
    split
    · rename_i hfit
      refine bind_ne_timeout (cmul_ne_timeout _ _ _) fun r2 _ => ?_
      refine bind_ne_timeout (cmul_ne_timeout _ _ _) fun mi hmi => ?_
      have hmi64 : mi < 2 ^ 64 := by
        unfold cmul at hmi
        split at hmi
        · rename_i h
          simp only [Res.ok.injEq] at hmi
          rw [← hmi]; exact fits_some.mp h
        · cases hmi
      have hret : ∃ r, squfof bld (some b) fuel n (n * k) mi = .ok r := by
        rw [Nat.mul_comm n k] at hfit ⊢
        refine C78_squfof_returns bld (some b) fuel n k mi (fun c hc => by simp only [Option.some.injEq] at hc; omega) hn hfit ?_
        have hlog : Nat.log 2 (k * n) ≤ 128 := by
          have h1 := fits_some.mp hfit
          have h2 : k * n < 2 ^ 129 := lt_of_lt_of_le h1 (Nat.pow_le_pow_right (by norm_num) (by omega))
          exact Nat.lt_succ_iff.mp (Nat.log_lt_of_lt_pow' (by norm_num) h2)
        have h3 : mi * (Nat.log 2 (k * n) + 2) ≤ 2 ^ 64 * 130 := Nat.mul_le_mul hmi64.le (by omega)
        have h4 : 2 ^ 64 * 130 ≤ enough := by norm_num [enough]
        omega
      obtain ⟨⟨d, i⟩, hr⟩ := hret
      rw [hr, Res.bind_ok]
      cases d with
      | none => exact ih
      | some p => simp
    · exact ih

theorem tryMethod_ne_timeout {bld : Build} {b fuel n k i ratio : ℕ} {rng : Rng} (hb : 2 ≤ b) (hb2 : b ≤ 128) (hn : 0 < n)
    (hf : enough ≤ fuel) : tryMethod bld b rng fuel n k i ratio ≠ .timeout := by
  unfold tryMethod
  split
  · refine mapR_ne_timeout _ ?_
    unfold tryRho
    split
    · simp
    · refine mapR_ne_timeout _ ?_
      unfold pollardRho
      split <;> simp
  · exact mapR_ne_timeout _ (oneLine_ne_timeout _ _ _ _ _)
  · exact mapR_ne_timeout _ (trySqufof_ne_timeout hb hb2 hn hf _)

theorem findDivisor_ne_timeout {bld : Build} {b fuel n : ℕ} {rng : Rng} (hb : 2 ≤ b) (hb2 : b ≤ 128) (hn : 0 < n)
    (hf : enough ≤ fuel) : ∀ f k i ratio, ratio = 2 ^ (i / 3) → ratio < 2 ^ 64 → 192 ≤ f + i →
    findDivisor bld b rng fuel n f k i ratio ≠ .timeout := by
  intro f
  induction f with
  | zero =>
    intro k i ratio h1 h2 h3
    exfalso
    rw [h1] at h2
    have := (Nat.pow_lt_pow_iff_right (by norm_num)).mp h2
    omega
  | succ f ih =>
    intro k i ratio h1 h2 h3
    unfold findDivisor
    refine bind_ne_timeout (tryMethod_ne_timeout hb hb2 hn hf) fun r _ => ?_
    obtain ⟨d, k'⟩ := r
    cases d with
    | some d => simp
    | none =>
      dsimp only
      by_cases hi : (i + 1) % 3 = 0
      · rw [if_pos hi]
        refine bind_ne_timeout (cmul_ne_timeout _ _ _) fun r hr => ?_
        unfold cmul at hr
        split at hr
        · rename_i hfit
          simp only [Res.ok.injEq] at hr
          refine ih _ _ _ ?_ (by rw [← hr]; exact fits_some.mp hfit) (by omega)
          rw [← hr, h1, ← pow_succ]
          congr 1
          omega
        · cases hr
      · rw [if_neg hi]
        refine bind_ne_timeout (by simp) fun r hr => ?_
        simp only [Res.ok.injEq] at hr
        rw [← hr]
        refine ih _ _ _ ?_ h2 (by omega)
        rw [h1]
        congr 1
        omega

theorem search_ne_timeout {bld : Build} {b fuel n k : ℕ} {rng : Rng} (hb : 2 ≤ b) (hb2 : b ≤ 128) (hn : 0 < n)
    (hf : enough ≤ fuel) : search bld b rng fuel n k ≠ .timeout :=
  findDivisor_ne_timeout hb hb2 hn hf _ _ _ _ (by norm_num) (by norm_num) (by have : 192 ≤ enough := by norm_num [enough]
                                                                              omega)

/-! ## the worklists -/

/-- bound for the number of rounds a worklist needs -/
def work (l : List (ℕ × ℕ)) : ℕ := (l.map (fun x => 2 * Nat.log 2 x.1 - 1)).sum

theorem work_cons (x : ℕ × ℕ) (l : List (ℕ × ℕ)) : work (x :: l) = (2 * Nat.log 2 x.1 - 1) + work l := by simp [work]

theorem log_pos_of {n : ℕ} (h : 1 < n) : 1 ≤ Nat.log 2 n := Nat.log_pos (by norm_num) h

theorem log_mul_le {a b : ℕ} (ha : 0 < a) (hb : 0 < b) : Nat.log 2 a + Nat.log 2 b ≤ Nat.log 2 (a * b) := by
  apply Nat.le_log_of_pow_le (by norm_num)
  rw [pow_add]
  exact Nat.mul_le_mul (Nat.pow_log_le_self 2 ha.ne') (Nat.pow_log_le_self 2 hb.ne')

theorem log_root {d e n : ℕ} (hd : 1 < d) (he : 2 ≤ e) (h : d ^ e = n) : Nat.log 2 d + 1 ≤ Nat.log 2 n := by
  have h1 : d * d ≤ n := by
    rw [← h, ← pow_two]
    exact Nat.pow_le_pow_right (by omega) he
  have := log_mul_le (show 0 < d by omega) (show 0 < d by omega)
  have := Nat.log_mono_right (b := 2) h1
  have := log_pos_of hd
  omega

theorem advanced64Loop_ne_timeout {bld : Build} {find : ℕ → ℕ → Res (ℕ × ℕ)} (hfind : FindOk bld find)
    (hnt : ∀ n k, 0 < n → find n k ≠ .timeout) : ∀ (f k : ℕ) (todo done : List (ℕ × ℕ)), (∀ x ∈ todo, Todo64 bld x) →
    work todo ≤ f → advanced64Loop bld find f k todo done ≠ .timeout := by
  intro f
  induction f with
  | zero =>
    intro k todo done ht hw
    cases todo with
    | nil => simp [advanced64Loop]
    | cons x t =>
      exfalso
      have := log_pos_of (ht x (by simp)).1
      rw [work_cons] at hw
      omega
  | succ f ih =>
    intro k todo done ht hw
    cases todo with
    | nil => simp [advanced64Loop]
    | cons x t =>
      obtain ⟨n, e⟩ := x
      obtain ⟨h1, h64, hr, he⟩ := ht (n, e) (by simp)
      simp only at h1 h64 hr he
      have ht' : ∀ x ∈ t, Todo64 bld x := fun x hx => ht x (List.mem_cons_of_mem _ hx)
      have hl := log_pos_of h1
      rw [work_cons] at hw
      simp only at hw
      simp only [advanced64Loop]
      split
      · exact ih _ _ _ ht' (by omega)
      · obtain ⟨o, h2, ho2⟩ := sqrtExact_spec bld (some 64) (show 0 < n by omega) (fits_some.mpr h64)
        simp only [h2, Res.bind_ok]
        cases o with
        | some d =>
          have hd2 := (ho2 d).mp rfl
          obtain ⟨a1, a2, a3⟩ := root_todo h1 (by norm_num) hd2
          have := log_root a1 (by norm_num) hd2
          refine ih _ _ _ (by
            intro x hx
            rcases List.mem_cons.mp hx with rfl | hx
            · exact ⟨a1, by simp only; omega, hr.of_dvd a3, by simp only; omega⟩
            · exact ht' x hx) (by rw [work_cons]; simp only; omega)
        | none =>
          have hns := not_isSquare_of (by omega) (fits_some.mpr h64) h2
          cases hc : cbrtExact bld (some 64) n with
          | some d =>
            have hd2 := (cbrtExact_spec bld (some 64) n d).mp hc
            obtain ⟨a1, a2, a3⟩ := root_todo h1 (by norm_num) hd2
            have := log_root a1 (by norm_num) hd2
            refine ih _ _ _ (by
              intro x hx
              rcases List.mem_cons.mp hx with rfl | hx
              · exact ⟨a1, by simp only; omega, hr.of_dvd a3, by simp only; omega⟩
              · exact ht' x hx) (by rw [work_cons]; simp only; omega)
          | none =>
            dsimp only
            refine bind_ne_timeout (hnt n k (by omega)) fun r hr2 => ?_
            obtain ⟨d, k1⟩ := r
            obtain ⟨b1, b2, b3⟩ := hfind n k d k1 h1 hr hns hr2
            simp only [cdiv_ok (show d ≠ 0 by omega), Res.bind_ok]
            obtain ⟨hq1, hqlt, hqn, hq⟩ := cofactor h1 ⟨b1, b2, b3⟩
            have := log_mul_le (show 0 < d by omega) (show 0 < n / d by omega)
            rw [hq] at this
            have := log_pos_of hq1
            have := log_pos_of b2
            refine ih _ _ _ (by
              intro x hx
              rcases List.mem_cons.mp hx with rfl | hx
              · exact ⟨hq1, by simp only; omega, hr.of_dvd hqn, he⟩
              · rcases List.mem_cons.mp hx with rfl | hx
                · exact ⟨b2, by simp only; omega, hr.of_dvd b1, he⟩
                · exact ht' x hx) (by rw [work_cons, work_cons]; simp only; omega)

theorem work_push (x : ℕ × ℕ) (t : List (ℕ × ℕ) × List (ℕ × ℕ)) :
    work (pushCofactor x t).1 + work (pushCofactor x t).2 = (2 * Nat.log 2 x.1 - 1) + (work t.1 + work t.2) := by
  unfold pushCofactor
  split <;> simp only [work_cons] <;> omega

theorem advanced128Loop_terminates {bld : Build} {find : ℕ → ℕ → Res (ℕ × ℕ)} (hfind : FindOk bld find)
    (hnt : ∀ n k, 0 < n → find n k ≠ .timeout) : ∀ (f k : ℕ) (t : List (ℕ × ℕ) × List (ℕ × ℕ)) (done : List (ℕ × ℕ)),
    Lists bld t → work t.1 + work t.2 ≤ f → advanced128Loop bld find f k t done ≠ .timeout ∧
    ∀ t64 l k', advanced128Loop bld find f k t done = .ok (t64, l, k') → work t64 ≤ f := by
  intro f
  induction f with
  | zero =>
    rintro k ⟨t1, t2⟩ done hL hw
    cases t1 with
    | nil =>
      simp only [advanced128Loop, ne_eq, reduceCtorEq, not_false_iff, true_and, Res.ok.injEq, Prod.mk.injEq]
      rintro t64 l k' ⟨rfl, -⟩
      simp only [work] at *
      omega
    | cons x t =>
      exfalso
      have := log_pos_of (hL.1 x (by simp)).1.1
      simp only [work_cons] at hw
      omega
  | succ f ih =>
    rintro k ⟨t1, t2⟩ done hL hw
    cases t1 with
    | nil =>
      simp only [advanced128Loop, ne_eq, reduceCtorEq, not_false_iff, true_and, Res.ok.injEq, Prod.mk.injEq]
      rintro t64 l k' ⟨rfl, -⟩
      simp only at hw
      omega
    | cons x t =>
      obtain ⟨n, e⟩ := x
      obtain ⟨⟨h1, h128, hr, he⟩, h64⟩ := hL.1 (n, e) (by simp)
      simp only at h1 h128 hr he h64
      have hL' : Lists bld (t, t2) := ⟨fun x hx => hL.1 x (List.mem_cons_of_mem _ hx), hL.2⟩
      have hl := log_pos_of h1
      simp only [work_cons] at hw
      obtain ⟨v, hv⟩ := isPrimeNew128_total bld h128
      have key : ∀ k t' done', Lists bld t' → work t'.1 + work t'.2 ≤ f →
          advanced128Loop bld find f k t' done' ≠ .timeout ∧
          ∀ t64 l k', advanced128Loop bld find f k t' done' = .ok (t64, l, k') → work t64 ≤ f + 1 := by
        intro k t' done' a b
        obtain ⟨c1, c2⟩ := ih k t' done' a b
        exact ⟨c1, fun t64 l k' h => by have := c2 t64 l k' h; omega⟩
      simp only [advanced128Loop, hv, Res.bind_ok]
      by_cases hm : v.probably = true
      · rw [if_pos hm]
        exact key _ _ _ hL' (by simp only; omega)
      · rw [if_neg hm]
        obtain ⟨o, h2, ho2⟩ := sqrtExact_spec bld (some 128) (show 0 < n by omega) (fits_some.mpr h128)
        simp only [h2, Res.bind_ok]
        cases o with
        | some d =>
          have hd2 := (ho2 d).mp rfl
          obtain ⟨a1, a2, a3⟩ := root_todo h1 (by norm_num) hd2
          have := log_root a1 (by norm_num) hd2
          exact key _ _ _ (hL'.push (x := (d, e * 2)) ⟨a1, by simp only; omega, hr.of_dvd a3, by simp only; omega⟩).1
            (by rw [work_push]; simp only; omega)
        | none =>
          have hns := not_isSquare_of (by omega) (fits_some.mpr h128) h2
          cases hc : cbrtExact bld (some 128) n with
          | some d =>
            have hd2 := (cbrtExact_spec bld (some 128) n d).mp hc
            obtain ⟨a1, a2, a3⟩ := root_todo h1 (by norm_num) hd2
            have := log_root a1 (by norm_num) hd2
            exact key _ _ _ (hL'.push (x := (d, e * 3)) ⟨a1, by simp only; omega, hr.of_dvd a3, by simp only; omega⟩).1
              (by rw [work_push]; simp only; omega)
          | none =>
            cases h3 : find n k with
            | panic => exact ⟨(by intro h; cases h), (by intro _ _ _ h; cases h)⟩
            | timeout => exact absurd h3 (hnt n k (by omega))
            | ok v =>
              obtain ⟨d, k1⟩ := v
              obtain ⟨b1, b2, b3⟩ := hfind n k d k1 h1 hr hns h3
              simp only [Res.bind_ok, cdiv_ok (show d ≠ 0 by omega)]
              obtain ⟨hq1, hqlt, hqn, hq⟩ := cofactor h1 ⟨b1, b2, b3⟩
              have hx1 : Todo bld (d, e) := ⟨b2, by simp only; omega, hr.of_dvd b1, he⟩
              have hx2 : Todo bld (n / d, e) := ⟨hq1, by simp only; omega, hr.of_dvd hqn, he⟩
              have := log_mul_le (show 0 < d by omega) (show 0 < n / d by omega)
              rw [hq] at this
              have := log_pos_of hq1
              have := log_pos_of b2
              exact key _ _ _ ((hL'.push hx1).1.push hx2).1 (by rw [work_push, work_push]; simp only; omega)

theorem work_single {r b : ℕ} (h : r < 2 ^ b) (hb : b ≤ 128) : work [(r, 1)] ≤ enough := by
  have h1 : Nat.log 2 r ≤ 128 := by
    have h2 : r < 2 ^ 129 := lt_of_lt_of_le h (Nat.pow_le_pow_right (by norm_num) (by omega))
    exact Nat.lt_succ_iff.mp (Nat.log_lt_of_lt_pow' (by norm_num) h2)
  have : 256 ≤ enough := by norm_num [enough]
  simp only [work, List.map_cons, List.map_nil, List.sum_cons, List.sum_nil]
  omega

/-- **C79** `factorize64` never runs forever: whatever the random source returns, it ends (with a map, or with the overflow
panic of C44) once every loop is granted `2^72` rounds -/
theorem C79_factorize64_terminates (bld : Build) (rng : Rng) (fuel k n : ℕ) (h64 : n < 2 ^ 64) (hf : 2 ^ 72 ≤ fuel) :
    factorize64 bld rng fuel k n ≠ .timeout := by
  rcases Nat.eq_zero_or_pos n with rfl | hn
  · rw [C44_factorize64_zero]; simp
  · rcases factorize64With_cases (bld := bld) (fuel := fuel) (k := k) hn h64 with ⟨m', h1, -⟩ | ⟨m', r, -, h2, h3⟩
    · rw [factorize64, h1]; simp
    · rw [factorize64, h3]
      refine mapR_ne_timeout _ ?_
      refine advanced64Loop_ne_timeout (search_ok bld 64 (by norm_num) rng fuel)
        (fun n k hn => search_ne_timeout (by norm_num) (by norm_num) hn hf) _ _ _ _ (by simpa using h2) ?_
      exact (work_single h2.2.1 (by norm_num)).trans hf

/-- **C79** the same for `factorize128` -/
theorem C79_factorize128_terminates (bld : Build) (rng : Rng) (fuel k n : ℕ) (h128 : n < 2 ^ 128) (hf : 2 ^ 72 ≤ fuel) :
    factorize128 bld rng fuel k n ≠ .timeout := by
  rcases Nat.lt_or_ge n (2 ^ 64) with h64 | h64
  · rw [factorize128, factorize128With, if_pos h64]
    exact C79_factorize64_terminates bld rng fuel k n h64 hf
  · rcases factorize128With_cases (bld := bld) (fuel := fuel) (k := k) h64 h128 with ⟨m', h1, -⟩ | ⟨m', r, -, h2, h3⟩
    · rw [factorize128, h1]; simp
    · rw [factorize128, h3]
      refine mapR_ne_timeout _ ?_
      have hL : Lists bld ([], []) := ⟨by simp, by simp⟩
      have hwk : work (pushCofactor (r, 1) ([], [])).1 + work (pushCofactor (r, 1) ([], [])).2 ≤ fuel := by
        rw [work_push]
        have := work_single h2.2.1 le_rfl
        simp only [work, List.map_cons, List.map_nil, List.sum_cons, List.sum_nil] at this ⊢
        have : enough ≤ fuel := hf
        omega
      obtain ⟨c1, c2⟩ := advanced128Loop_terminates (search_ok bld 128 (by norm_num) rng fuel)
        (fun n k hn => search_ne_timeout (by norm_num) (by norm_num) hn hf) fuel k _ [] (hL.push h2).1 hwk
      unfold factorize128Advanced
      refine bind_ne_timeout c1 fun x hx => ?_
      obtain ⟨t64, d, k1⟩ := x
      obtain ⟨-, a2, -⟩ := advanced128Loop_spec (search_ok bld 128 (by norm_num) rng fuel) _ _ _ _ _ _ _ (hL.push h2).1 (by simp) hx
      refine bind_ne_timeout ?_ fun y _ => by simp
      exact advanced64Loop_ne_timeout (search_ok bld 64 (by norm_num) rng fuel)
        (fun n k hn => search_ne_timeout (by norm_num) (by norm_num) hn hf) _ _ _ _ a2 (c2 t64 d k1 hx)

/-- **C79** `factors` on an integer below `2^128`, of any type and with any configuration -/
theorem C79_factors_terminates (bld : Build) (w : Width) (list : List ℕ) (rng : Rng) (fuel k n : ℕ)
    (config : Option FactorizationConfig) (h128 : n < 2 ^ 128) (hf : 2 ^ 72 ≤ fuel) :
    factors bld w list rng fuel k n config ≠ .timeout := by
  unfold factors factorsWith
  rw [if_pos h128]
  exact bind_ne_timeout (C79_factorize128_terminates bld rng fuel k n h128 hf) fun x _ => by intro h; cases h

/-- **C79** `factorize` on an integer below `2^128` makes one attempt only -/
theorem C79_factorize_terminates (bld : Build) (w : Width) (list : List ℕ) (rng : Rng) (fuel attempts k n : ℕ)
    (h128 : n < 2 ^ 128) (hf : 2 ^ 72 ≤ fuel) (ha : 1 ≤ attempts) :
    factorize bld w list rng fuel attempts k n ≠ .timeout := by
  obtain ⟨a, rfl⟩ := Nat.exists_eq_add_of_le' ha
  rw [factorize]
  refine bind_ne_timeout (C79_factors_terminates bld w list rng fuel k n none h128 hf) fun x hx => ?_
  unfold factors factorsWith at hx
  rw [if_pos h128, Res.bind_eq_ok] at hx
  obtain ⟨y, -, hy⟩ := hx
  simp only [Res.pure_def, Res.ok.injEq] at hy
  rw [← hy]
  intro h; cases h

/-- **C79** `moebius` on an integer below `2^128` -/
theorem C79_moebius_terminates (bld : Build) (w : Width) (rng : Rng) (fuel attempts k n : ℕ)
    (h128 : n < 2 ^ 128) (hf : 2 ^ 72 ≤ fuel) (ha : 1 ≤ attempts) : moebius bld w rng fuel attempts k n ≠ .timeout := by
  have hodd : ∀ t, t < 2 ^ 128 → moebiusOddPart bld w rng fuel attempts k t ≠ .timeout := by
    intro t ht
    unfold moebiusOddPart
    refine bind_ne_timeout (csub_ne_timeout _ _) fun v _ => ?_
    split
    · intro h; cases h
    · split
      · intro h; cases h
      · exact bind_ne_timeout (C79_factorize_terminates bld w _ rng fuel attempts k t ht hf ha) fun x _ => by intro h; cases h
  unfold moebius
  split
  · split
    · intro h; cases h
    · exact bind_ne_timeout (hodd _ (by omega)) fun x _ => by intro h; cases h
  · exact hodd _ h128

/-- **C79** `is_square_free` on an integer below `2^128` -/
theorem C79_is_square_free_terminates (bld : Build) (w : Width) (rng : Rng) (fuel attempts k n : ℕ)
    (h128 : n < 2 ^ 128) (hf : 2 ^ 72 ≤ fuel) (ha : 1 ≤ attempts) : isSquareFree bld w rng fuel attempts k n ≠ .timeout := by
  unfold isSquareFree
  exact bind_ne_timeout (C79_moebius_terminates bld w rng fuel attempts k n h128 hf ha) fun x _ => by intro h; cases h

-- a target that reaches the divisor search: 11119 * 11131 is a product of two primes above the table limit
example : (factorize64 .small ⟨fun j => 2 + j, fun _ => []⟩ (2 ^ 72) 0 (11119 * 11131)).mapR Prod.fst =
    .ok [(11119, 1), (11131, 1)] ∧ 11119 * 11131 < 2 ^ 64 := by decide +kernel

end NumPrime
