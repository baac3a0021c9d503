import Verif.Model.ReleaseNth
import Verif.Props.ReleasePi
import Verif.Props.Estimates

/-! # C97: the n-th prime in a build without overflow checks -/

namespace NumPrime
open Spec

/-! ## Agreement -/

/-- **C97** `nth_prime` without overflow checks returns what the version with checks returns, wherever that one returns, after
any history of calls: everything proved of the returned values (C32) holds there too -/
theorem C97_nth_prime_agrees (bld : Build) (o : Estimates) (g f : ℕ) (b : Buf) (hb : Reachable bld o g f b)
    (hl : ∀ p ∈ b.iter, p < 2 ^ 64) (n : ℕ) (hn : n < 2 ^ 64) (r : ℕ × Buf) (h : b.nthPrime bld o g f n = .ok r) :
    b.nthPrimeRel bld o g f n = .ok r := (nthPrime_rel bld o g f b n r ⟨hb.inv, hl⟩ hn h).1
/-! ## The search that does not end -/

/-- **C97** if the bounds `lo + 2 ≤ hi` of `nth_prime_bounds(n)` lie beyond `2^63` and the estimate of `π` stays below `n` for all
arguments below `2^63`, `nth_prime_est(n)` runs forever without overflow checks, whatever the number of rounds: the middle of the
interval always wraps around to a number below `2^63` -/
theorem C97_nth_prime_est_hangs (bld : Build) (o : Estimates) (n lo hi : ℕ)
    (hb : nthPrimeBounds bld (some 64) o n = .ok (some (lo, hi))) (hlo : lo + 2 ≤ hi) (hhi : 2 ^ 63 < hi)
    (hest : ∀ x < 2 ^ 63, ∃ v < n, primePiEst bld (some 64) o x = .ok v) (fuel : ℕ) :
    nthPrimeEstRel bld 64 o n fuel = .timeout := by
  have h64 := fits_some.mp (nthPrimeBounds_fits hb).2
  have key : ∀ f lo, lo + 2 ≤ hi → nthPrimeEstLoopRel bld 64 o n f lo hi = .timeout := by
    intro f
    induction f with
    | zero => intro lo _; rfl
    | succ f ih =>
      intro lo hlo
      simp only [nthPrimeEstLoopRel]
      have h1 : wsub 64 hi 1 = hi - 1 := wsub_eq h64 (by omega)
      rw [h1, if_neg (by omega)]
      have h2 : wadd 64 lo hi / 2 < 2 ^ 63 := by unfold wadd; omega
      obtain ⟨v, hv, he⟩ := hest _ h2
      simp only [primePiEst_rel he, Res.bind_ok, hv, if_true]
      exact ih _ (by omega)
  simp only [nthPrimeEstRel, hb, Res.bind_ok]
  rw [if_neg (by omega), key fuel lo hlo]

/-! ## The crate's own estimates -/

theorem log_two_pow_le (k : ℕ) : (k : ℝ) * Real.log 2 ≤ k * (69315 / 100000) :=
  mul_le_mul_of_nonneg_left (by have := Real.log_two_lt_d9; linarith) (Nat.cast_nonneg _)

/-- the sum of the series at 43.67, rounded up -/
theorem gram_4367 : ∑ i ∈ Finset.range 99, (4367 / 100 : ℚ) ^ (i + 1) / (((i + 1 : ℕ) : ℚ) * ((i + 1).factorial : ℚ)) ≤ 22 * 10 ^ 16 := by
  decide +kernel

theorem fPiEst_lt {F : FloatOps} (hF : F.Accurate) {x : ℕ} (h : 8162 ≤ x) (hx : x < 2 ^ 63) : fPiEst F x < 23 * 10 ^ 16 := by
  have h9 : (2 : ℕ) ^ 64 ≤ 2 ^ 990 := Nat.pow_le_pow_right (by norm_num) (by norm_num)
  obtain ⟨m, hm, h1, -⟩ := fPiEst_near hF h (by omega)
  clear h9
  have hL9 := log_ge_nine h
  have hL : Real.log x ≤ 4367 / 100 := by
    have h1 : Real.log x ≤ Real.log ((2 : ℝ) ^ 63) := Real.log_le_log (by exact_mod_cast (by omega : 0 < x)) (by exact_mod_cast hx.le)
    rw [Real.log_pow] at h1
    have := log_two_pow_le 63
    push_cast at h1 this
    linarith
  have hS : gramS (Real.log x) m ≤ 22 * 10 ^ 16 := by
    have h2 : gramS (Real.log x) m ≤ ∑ i ∈ Finset.range 99, (4367 / 100 : ℝ) ^ (i + 1) / (((i + 1 : ℕ) : ℝ) * ((i + 1).factorial : ℝ)) := by
      unfold gramS
      refine le_trans (Finset.sum_le_sum_of_subset_of_nonneg (t := Finset.range 99) (Finset.range_subset_range.mpr hm) (fun i _ _ => gramB_nonneg (by linarith) _)) ?_
      refine Finset.sum_le_sum (fun i _ => (gramB_le (by linarith) _).trans ?_)
      exact div_le_div_of_nonneg_right (pow_le_pow_left₀ (by linarith) hL _) (by positivity)
    refine h2.trans ?_
    have := gram_4367
    have h3 : ((∑ i ∈ Finset.range 99, (4367 / 100 : ℚ) ^ (i + 1) / (((i + 1 : ℕ) : ℚ) * ((i + 1).factorial : ℚ)) : ℚ) : ℝ) ≤
        ((22 * 10 ^ 16 : ℚ) : ℝ) := by exact_mod_cast this
    push_cast at h3 ⊢
    exact h3
  have h3 := (abs_le.mp h1).2
  have h4 : (1 + gramS (Real.log x) m) / 2 ^ 27 ≤ (1 + 22 * 10 ^ 16) / 2 ^ 27 := by gcongr
  have h5 : (1 + 22 * 10 ^ 16 : ℝ) / 2 ^ 27 ≤ 10 ^ 15 := by norm_num
  linarith

theorem fPiHi_lt {F : FloatOps} (hF : F.Accurate) {x : ℕ} (h : 11534336 ≤ x) (hx : x < 2 ^ 63) : fPiHi F x < 25 * 10 ^ 16 := by
  have h9 : (2 : ℕ) ^ 64 ≤ 2 ^ 990 := Nat.pow_le_pow_right (by norm_num) (by norm_num)
  obtain ⟨-, -, h3, -, h5⟩ := fPi_far hF h (show x ≤ 2 ^ 990 by omega)
  have hx' : (x : ℝ) ≤ 9223372036854775808 := by exact_mod_cast hx.le
  rcases Nat.lt_or_ge x (2 ^ 61) with hlt | hge
  · have hl := log_ge_of (n := 16) (c := 11534336) (by norm_num) h (by omega)
    have hlt' : (x : ℝ) ≤ 2305843009213693952 := by exact_mod_cast hlt.le
    push_cast at hl
    by_contra hc
    push Not at hc
    have := mul_le_mul hc hl (by norm_num) (by linarith)
    norm_num at this
    linarith
  · have hl : (61 : ℕ) * Real.log 2 ≤ Real.log x := by
      rw [← Real.log_pow]
      exact Real.log_le_log (by positivity) (by exact_mod_cast hge)
    have h2 := Real.log_two_gt_d9
    have hl2 := log_le_687 (show 1 ≤ x by omega) (show x ≤ 2 ^ 990 by omega)
    obtain ⟨-, hl3⟩ := fln_arg hF (show 3 ≤ x by omega) (show x ≤ 2 ^ 990 by omega)
    have hxr : (x : ℝ) ≤ 2 ^ 990 := hx'.trans (le_trans (by norm_num) (pow_le_pow_right₀ one_le_two (show 64 ≤ 990 by norm_num)))
    clear h9
    have hd : (1 : ℝ) / 2 ^ 38 ≤ 1 / 100 := by norm_num
    push_cast at hl
    obtain ⟨hl4, hl5⟩ := abs_le.mp hl3
    have k1 : 42 ≤ F.ln (F.ofNat x) := by linarith
    have hr : Rel (fPiHi F x) (x * (1 / F.ln (F.ofNat x)) * (1 + 1 / F.ln (F.ofNat x) * (1 + 1 / F.ln (F.ofNat x) *
        (2 + 1 / F.ln (F.ofNat x) * (759 / 100))))) 18 := by
      simp only [fPiHi]
      rw [if_pos (by omega)]
      exact rel_hi1 hF (by linarith) (by linarith) (by omega) hxr
    clear hxr
    have hb := hr.bounds.2
    generalize F.ln (F.ofNat x) = l at *
    have hu : 1 / l ≤ 1 / 42 := div_le_div_of_nonneg_left zero_le_one (by norm_num) k1
    have hu0 : 0 ≤ 1 / l := by positivity
    generalize 1 / l = u at *
    have v1 : u * (759 / 100) ≤ 1 / 42 * (759 / 100) := by linarith
    have v2 : u * (2 + u * (759 / 100)) ≤ 1 / 42 * (2 + 1 / 42 * (759 / 100)) := mul_le_mul hu (by linarith) (by linarith) (by norm_num)
    have v2' : 0 ≤ u * (2 + u * (759 / 100)) := mul_nonneg hu0 (by linarith)
    have v3 : u * (1 + u * (2 + u * (759 / 100))) ≤ 1 / 42 * (1 + 1 / 42 * (2 + 1 / 42 * (759 / 100))) :=
      mul_le_mul hu (by linarith) (by linarith) (by norm_num)
    have v3' : 0 ≤ u * (1 + u * (2 + u * (759 / 100))) := mul_nonneg hu0 (by linarith)
    have v4 : (x : ℝ) * u ≤ 9223372036854775808 * (1 / 42) := mul_le_mul hx' hu hu0 (by norm_num)
    have v5 := mul_le_mul v4 (show 1 + u * (1 + u * (2 + u * (759 / 100))) ≤ 1 + 1 / 42 * (1 + 1 / 42 * (2 + 1 / 42 * (759 / 100))) by linarith)
      (by linarith) (by norm_num)
    have v6 := mul_le_mul_of_nonneg_right v5 (show (0 : ℝ) ≤ 1 + 1 / 2 ^ 35 by norm_num)
    refine lt_of_le_of_lt (hb.trans v6) ?_
    norm_num

theorem primePiEst_lt (bld : Build) {F : FloatOps} (hF : F.Accurate) {x : ℕ} (hx : x < 2 ^ 63) :
    ∃ v < 25 * 10 ^ 16, primePiEst bld (some 64) (floatEstimates F) x = .ok v := by
  have h9 : (2 : ℕ) ^ 64 ≤ 2 ^ 990 := Nat.pow_le_pow_right (by norm_num) (by norm_num)
  obtain ⟨v, hv, hle, hb⟩ := C75_prime_pi_est_returns bld (some 64) std64 F hF x (by omega) (fits_some.mpr (by omega))
  refine ⟨v, ?_, hv⟩
  rcases Nat.lt_or_ge x 11534336 with hs | hs
  · omega
  cases bld
  · have h1 := primePiEst_big hF (by omega) (by omega) hv
    have h2 := fPiEst_lt hF (show 8162 ≤ x by omega) hx
    have h3 : (v : ℝ) < ((25 * 10 ^ 16 : ℕ) : ℝ) := by push_cast; linarith
    exact_mod_cast h3
  · obtain ⟨lo, hi, h1, -⟩ := C75_prime_pi_bounds_returns .small (some 64) F hF x (by omega) (fits_some.mpr (by omega))
    obtain ⟨-, h3⟩ := hb rfl lo hi h1
    obtain ⟨h252, hlast⟩ := not_table (bld := .small) (x := x) (by simp only [reduceCtorEq, if_false]; omega)
    obtain ⟨g1, g2, g3, g4⟩ := fPi_order hF h252 (by omega)
    rw [primePiBounds_float hF h252 (lt_finite (by omega)) hlast (fits_some.mpr (by omega)) g1 g2 g3 g4] at h1
    simp only [Res.ok.injEq, Prod.mk.injEq] at h1
    have : ⌊fPiHi F x⌋₊ < 25 * 10 ^ 16 := (Nat.floor_lt' (by norm_num)).mpr (by
      have := fPiHi_lt hF hs hx
      push_cast
      linarith)
    omega

/-- for arguments from `10^17` on the two bounds of `nth_prime_bounds` are far apart -/
theorem fNth_gap {F : FloatOps} (hF : F.Accurate) {x : ℕ} (h : 10 ^ 17 ≤ x) (hx : x < 2 ^ 64) : fNthLo F x + 3 ≤ fNthHi F x := by
  have h9 : (2 : ℕ) ^ 64 ≤ 2 ^ 990 := Nat.pow_le_pow_right (by norm_num) (by norm_num)
  have hx9 : x ≤ 2 ^ 990 := by omega
  obtain ⟨-, hl⟩ := fln_arg hF (show 3 ≤ x by omega) hx9
  have hll := flnln_arg hF (show 8162 ≤ x by omega) hx9
  have hxr : (x : ℝ) ≤ 2 ^ 64 := by exact_mod_cast hx.le
  have hx0 : (10 ^ 17 : ℝ) ≤ x := by exact_mod_cast h
  have hlog := log_ge_of (n := 13) (c := 759401) (by norm_num) (show 759401 ≤ x by omega) (by omega)
  have hlog2 := log_le_687 (by omega) hx9
  have hlog3 := log_log_le (L := Real.log x) (by push_cast at hlog; linarith) (by linarith)
  have hlog4 : 0 ≤ Real.log (Real.log x) := Real.log_nonneg (by push_cast at hlog; linarith)
  have hd : (1 : ℝ) / 2 ^ 38 ≤ 1 / 100 := by norm_num
  have hd2 : (1 : ℝ) / 2 ^ 39 ≤ 1 / 100 := by norm_num
  push_cast at hlog
  rw [abs_le] at hl hll
  have h998 : (2 : ℝ) ^ 64 ≤ 2 ^ 998 := pow_le_pow_right₀ one_le_two (by norm_num)
  have hn := (rel_ofNat hF (show 1 ≤ x by omega) (hxr.trans h998)).bounds
  have n1 : F.ofNat x ≤ 2 ^ 65 := by
    have : (x : ℝ) * (1 + 1 / 2 ^ 35) ≤ 2 ^ 64 * (1 + 1 / 2 ^ 35) := mul_le_mul_of_nonneg_right hxr (by norm_num)
    have : (2 : ℝ) ^ 64 * (1 + 1 / 2 ^ 35) ≤ 2 ^ 65 := by norm_num
    linarith
  have n2 : (10 ^ 16 : ℝ) ≤ F.ofNat x := by
    have : (x : ℝ) * (9 / 10) ≤ x * (1 - 1 / 2 ^ 35) := mul_le_mul_of_nonneg_left (by norm_num) (by linarith)
    linarith
  have m3 : 13 ≤ F.ln (F.ofNat x) := by linarith
  have m4 : F.ln (F.ofNat x) ≤ 700 := by linarith
  have m5 : -1 ≤ F.ln (F.ln (F.ofNat x)) := by linarith
  have m6 : F.ln (F.ln (F.ofNat x)) ≤ 8 := by linarith
  simp only [fNthLo, fNthHi]
  rw [if_pos (by omega), if_pos (by omega)]
  clear h9 hx9 h998
  generalize F.ln (F.ln (F.ofNat x)) = ll at *
  generalize F.ln (F.ofNat x) = l at *
  generalize F.ofNat x = n at *
  obtain ⟨p1, p2, p3, p4⟩ := nthP_bounds hF m3 m4 m5 m6
  obtain ⟨d1, d2⟩ := nthD_bounds hF m3 m4
  obtain ⟨s1, q⟩ := nthS_near hF m5 m6 (a := 11321) (b := 1000) (by norm_num)
  obtain ⟨s2, -⟩ := nthS_near hF m5 m6 (a := 10667) (b := 1000) (by norm_num)
  have hsq := sq_nonneg (ll - 3)
  have hsq2 : (ll - 3) ^ 2 ≤ 25 := by nlinarith
  have hsm : (1 : ℝ) / 2 ^ 30 ≤ 1 / 1000 := by norm_num
  have hll' : ll ^ 2 - 6 * ll = (ll - 3) ^ 2 - 9 := by ring
  rw [hll'] at q
  rw [abs_le] at q s1 s2
  norm_num at s1 s2
  have r1 := nthQ_near hF d1 d2 (s := nthS F ll 11321 1000) (by linarith) (by linarith)
  have r2 := nthQ_near hF d1 d2 (s := nthS F ll 10667 1000) (by linarith) (by linarith)
  have hdiff : 1 / 2 ≤ nthS F ll 11321 1000 - nthS F ll 10667 1000 := by linarith
  have hdd : 1 / 2 / nthD F l ≤ nthS F ll 11321 1000 / nthD F l - nthS F ll 10667 1000 / nthD F l := by
    rw [← sub_div]
    exact div_le_div_of_nonneg_right hdiff (by linarith)
  have h40 : (1 : ℝ) / 2 ^ 40 / nthD F l ≤ 1 / 10 / nthD F l := div_le_div_of_nonneg_right (by norm_num) (by linarith)
  have e10 : (1 : ℝ) / 2 / nthD F l = 5 * (1 / 10 / nthD F l) := by ring
  have hlow : (1 : ℝ) / 10 ^ 7 ≤ 1 / 10 / nthD F l := by
    rw [div_div, div_le_div_iff₀ (by positivity) (by linarith)]
    linarith
  have up1 : nthS F ll 11321 1000 / nthD F l ≤ 1 / 2 := by
    rw [div_le_iff₀ (by linarith)]
    linarith
  have lo2 : 0 ≤ nthS F ll 10667 1000 / nthD F l := div_nonneg (by linarith) (by linarith)
  rw [abs_le] at r1 r2
  have h40' : (1 : ℝ) / 10 / nthD F l ≤ 1 / 1000 := by
    rw [div_div, div_le_div_iff₀ (by linarith) (by positivity)]
    linarith
  have f1 := abs_le.mp (round_abs (M := 2000) (hF.sub (nthP F l ll) (F.div (nthS F ll 11321 1000) (nthD F l))) (by linarith) (by linarith) le_rfl)
  have f2 := abs_le.mp (round_abs (M := 2000) (hF.sub (nthP F l ll) (F.div (nthS F ll 10667 1000) (nthD F l))) (by linarith) (by linarith) le_rfl)
  have h36 : (1 : ℝ) / 2 ^ 36 ≤ 1 / 10 / nthD F l / 10 := by
    refine le_trans (by norm_num : (1 : ℝ) / 2 ^ 36 ≤ 1 / 10 ^ 7 / 10) ?_
    linarith
  have hm : ∀ e, 0 ≤ e → e ≤ 730 → |F.mul n e - n * e| ≤ n * (1 / 2 ^ 37) := by
    intro e he he2
    have h1 : |n * e| ≤ n * 730 := by
      rw [abs_of_nonneg (mul_nonneg (by linarith) he)]
      exact mul_le_mul_of_nonneg_left he2 (by linarith)
    have h2 : n * 730 ≤ 2 ^ 1000 := by
      have : n * 730 ≤ 2 ^ 65 * 2 ^ 10 := mul_le_mul n1 (by norm_num) (by norm_num) (by positivity)
      refine this.trans ?_
      rw [← pow_add]
      exact pow_le_pow_right₀ one_le_two (by norm_num)
    have h3 := (hF.mul n e).le h1 h2
    have h4 := tiny_le
    have h5 : n * 730 / 2 ^ 48 = n * (730 / 2 ^ 48) := by ring
    have h6 : n * (730 / 2 ^ 48 + 1 / 2 ^ 60) ≤ n * (1 / 2 ^ 37) := mul_le_mul_of_nonneg_left (by norm_num) (by linarith)
    have h7 : (1 : ℝ) / 2 ^ 60 ≤ n * (1 / 2 ^ 60) := le_mul_of_one_le_left (by norm_num) (by linarith)
    rw [h5] at h3
    linarith
  have g1 := abs_le.mp (hm (F.sub (nthP F l ll) (F.div (nthS F ll 11321 1000) (nthD F l))) (by linarith) (by linarith))
  have g2 := abs_le.mp (hm (F.sub (nthP F l ll) (F.div (nthS F ll 10667 1000) (nthD F l))) (by linarith) (by linarith))
  have hfar : F.sub (nthP F l ll) (F.div (nthS F ll 11321 1000) (nthD F l)) + 1 / 10 ^ 7 ≤
    F.sub (nthP F l ll) (F.div (nthS F ll 10667 1000) (nthD F l)) := by linarith
  have hn2 := mul_le_mul_of_nonneg_left hfar (show 0 ≤ n by linarith)
  have hn3 : n * (1 / 10 ^ 7) - 2 * (n * (1 / 2 ^ 37)) = n * (1 / 10 ^ 7 - 2 / 2 ^ 37) := by ring
  have hn4 : (3 : ℝ) ≤ n * (1 / 10 ^ 7 - 2 / 2 ^ 37) := by
    refine le_trans ?_ (mul_le_mul_of_nonneg_right n2 (by norm_num))
    norm_num
  change F.mul n (F.sub (nthP F l ll) (F.div (nthS F ll 11321 1000) (nthD F l))) + 3 ≤
    F.mul n (F.sub (nthP F l ll) (F.div (nthS F ll 10667 1000) (nthD F l)))
  rw [mul_add] at hn2
  linarith

/-- the bounds for `n` between `25 * 10^16` and `4 * 10^17` -/
theorem nthBounds_wide (bld : Build) {F : FloatOps} (hF : F.Accurate) {n : ℕ} (h1 : 25 * 10 ^ 16 ≤ n) (h2 : n ≤ 4 * 10 ^ 17) :
    ∃ lo hi, nthPrimeBounds bld (some 64) (floatEstimates F) n = .ok (some (lo, hi)) ∧ 2 ^ 63 < lo ∧ lo + 2 ≤ hi := by
  have h9 : (2 : ℕ) ^ 64 ≤ 2 ^ 990 := Nat.pow_le_pow_right (by norm_num) (by norm_num)
  have hlen := smallPrimes_length_le bld
  have he := nthBounds_eq (bld := bld) (w := some 64) hF (n := n) (by omega) (by omega)
  obtain ⟨g1, g2, g3⟩ := fNth_far hF (show 759401 < n by omega) (show n ≤ 2 ^ 990 by omega)
  clear h9
  have gap := fNth_gap hF (show 10 ^ 17 ≤ n by omega) (by omega)
  have hn1 : (25 * 10 ^ 16 : ℝ) ≤ n := by exact_mod_cast h1
  have hn2 : (n : ℝ) ≤ 4 * 10 ^ 17 := by exact_mod_cast h2
  have hl : (57 : ℕ) * Real.log 2 ≤ Real.log n := by
    rw [← Real.log_pow]
    exact Real.log_le_log (by positivity) (by norm_num; linarith)
  have hl' : Real.log n ≤ (59 : ℕ) * Real.log 2 := by
    rw [← Real.log_pow]
    exact Real.log_le_log (by linarith) (by norm_num; linarith)
  have t1 := Real.log_two_gt_d9
  have t2 := Real.log_two_lt_d9
  push_cast at hl hl'
  have e1 := Real.exp_one_lt_d9
  have e2 := Real.exp_one_gt_d9
  have hll : 1 ≤ Real.log (Real.log n) := (Real.le_log_iff_exp_le (by linarith)).mpr (by linarith)
  have hll' : Real.log (Real.log n) ≤ 4 := by
    rw [Real.log_le_iff_le_exp (by linarith)]
    have h3 : Real.exp (4 : ℝ) = Real.exp 1 ^ 4 := by rw [← Real.exp_nat_mul]; norm_num
    have h4 : (27 / 10 : ℝ) ^ 4 ≤ Real.exp 1 ^ 4 := pow_le_pow_left₀ (by norm_num) (by linarith) 4
    rw [h3]
    norm_num at h4
    linarith
  have c1 : (25 * 10 ^ 16 : ℝ) * (375 / 10) ≤ n * (Real.log n + Real.log (Real.log n) - 3) :=
    mul_le_mul hn1 (by linarith) (by norm_num) (by linarith)
  have c2 : n * (Real.log n + Real.log (Real.log n) + 1) ≤ (4 * 10 ^ 17 : ℝ) * (459 / 10) :=
    mul_le_mul hn2 (by linarith) (by linarith) (by norm_num)
  have f1 : 2 ^ 63 + 1 ≤ ⌊fNthLo F n⌋₊ := Nat.le_floor (by push_cast; norm_num at c1 ⊢; linarith)
  have f2 : ⌊fNthHi F n⌋₊ < 2 ^ 64 := (Nat.floor_lt' (by norm_num)).mpr (by push_cast; norm_num at c2 ⊢; linarith)
  have f3 : ⌊fNthLo F n⌋₊ + 2 ≤ ⌊fNthHi F n⌋₊ := by
    have h0 : 0 ≤ fNthLo F n := by norm_num at c1; linarith
    have := Nat.floor_le h0
    exact Nat.le_floor (by push_cast; linarith)
  rw [if_pos (fits_some.mpr f2)] at he
  exact ⟨_, _, he, by omega, f3⟩

/-- **C97** finding: for every `n` from `25 * 10^16` to `4 * 10^17` the call `nth_prime_est(n)` on `u64` never returns without
overflow checks, whatever the number of rounds, and panics with them -/
theorem C97_nth_prime_est_u64_hangs (bld : Build) (F : FloatOps) (hF : F.Accurate) (n : ℕ) (h1 : 25 * 10 ^ 16 ≤ n)
    (h2 : n ≤ 4 * 10 ^ 17) (fuel : ℕ) :
    nthPrimeEstRel bld 64 (floatEstimates F) n fuel = .timeout ∧
      nthPrimeEst bld (some 64) (floatEstimates F) n (fuel + 1) = .panic := by
  obtain ⟨lo, hi, hb, h3, h4⟩ := nthBounds_wide bld hF h1 h2
  refine ⟨C97_nth_prime_est_hangs bld _ n lo hi hb h4 (by omega) (fun x hx => ?_) fuel, ?_⟩
  · obtain ⟨v, hv, he⟩ := primePiEst_lt bld hF hx
    exact ⟨v, by omega, he⟩
  · have hc : cadd (some 64) lo hi = .panic := by
      unfold cadd
      rw [if_neg (by rw [fits_some]; omega)]
    simp only [nthPrimeEst, hb, Res.bind_ok]
    rw [if_neg (by omega)]
    simp only [nthPrimeEstLoop, csub_ok (show 1 ≤ hi by omega), Res.bind_ok]
    rw [if_neg (by omega), hc]
    rfl

/-- **C97** finding: for every `n` from `25 * 10^16` to `28 * 10^16` the `n`-th prime fits `u64`, but `nth_prime(n)` never returns
without overflow checks, whatever the buffer (holding at most `n` primes) and the number of rounds, and panics with them -/
theorem C97_nth_prime_hangs (bld : Build) (F : FloatOps) (hF : F.Accurate) (n : ℕ) (h1 : 25 * 10 ^ 16 ≤ n)
    (h2 : n ≤ 28 * 10 ^ 16) (g f : ℕ) (b : Buf) (hb : b.iter.length ≤ n) :
    b.nthPrimeRel bld (floatEstimates F) g f n = .timeout ∧ b.nthPrime bld (floatEstimates F) (g + 1) f n = .panic ∧
      nthPrime n < 2 ^ 64 := by
  have hb' : ¬ n < b.list.length := by unfold Buf.iter at hb; omega
  refine ⟨?_, ?_, nthPrime_u64 (by omega) h2⟩
  · unfold Buf.nthPrimeRel nthPrimeWithRel
    rw [if_neg hb', if_neg (by omega), (C97_nth_prime_est_u64_hangs bld F hF n h1 (by omega) g).1]
    rfl
  · unfold Buf.nthPrime nthPrimeWith
    rw [if_neg hb', if_neg (by omega), (C97_nth_prime_est_u64_hangs bld F hF n h1 (by omega) g).2]
    rfl

example (b : Buf) (hb : b.iter.length ≤ 26 * 10 ^ 16) (g f : ℕ) :
    b.nthPrimeRel .small (floatEstimates FloatOps.ieee) g f (26 * 10 ^ 16) = .timeout :=
  (C97_nth_prime_hangs .small _ ieee_accurate _ (by norm_num) (by norm_num) g f b hb).1

/-- **C97** with the floating point bounds of the crate, `nth_prime(n)` without overflow checks returns the `n`-th prime for every
`1 ≤ n ≤ 2 * 10^17`, after any history in which the stored primes stayed below `2^32` (beyond 4096 if `is_prime64` has no
pseudoprimes) -/
theorem C97_nth_prime_release_exact (bld : Build) (F : FloatOps) (hF : F.Accurate) (n : ℕ) (hn : 1 ≤ n) (h17 : n ≤ 2 * 10 ^ 17)
    (hex : 4096 < n → NoPseudoprimes bld) :
    ∃ G, ∀ g f b, G ≤ g → 2 ^ 63 ≤ f → Reachable bld (floatEstimates F) g f b → (∀ p ∈ b.iter, p < 2 ^ 32) →
      ∃ b', b.nthPrimeRel bld (floatEstimates F) g f n = .ok (nthPrime n, b') := by
  rcases Nat.lt_or_ge 4096 n with h4 | h4
  · obtain ⟨G, hG⟩ := C32_nth_prime_float_partial bld (hex h4) F hF n hn h17
    refine ⟨G, fun g f b h1 h2 h3 hs => ?_⟩
    obtain ⟨b', hb⟩ := hG g f b h1 h2 h3 hs
    exact ⟨b', C97_nth_prime_agrees bld _ g f b h3 (fun p hp => (hs p hp).trans (by norm_num)) n (by omega) _ hb⟩
  · obtain ⟨G, hG⟩ := C32_nth_prime_float bld F hF n hn h4
    refine ⟨G, fun g f b h1 _ h3 hs => ?_⟩
    obtain ⟨b', hb⟩ := hG g f b h1 h3 hs
    exact ⟨b', C97_nth_prime_agrees bld _ g f b h3 (fun p hp => (hs p hp).trans (by norm_num)) n (by omega) _ hb⟩

/-- the hypotheses of `C97_nth_prime_agrees` and `C97_nth_prime_release_exact` hold for the new buffer -/
example (bld : Build) : ∃ g f b', (Buf.new bld).nthPrimeRel bld (floatEstimates FloatOps.ieee) g f 4000 = .ok (nthPrime 4000, b') := by
  obtain ⟨G, hG⟩ := C97_nth_prime_release_exact bld _ ieee_accurate 4000 (by norm_num) (by norm_num) (fun h => by omega)
  have h0 := smallPrimesNext_le bld
  obtain ⟨b', hb⟩ := hG G (2 ^ 63) (Buf.new bld) le_rfl le_rfl ⟨[], rfl⟩ (fun p hp => by
    have := ((Buf.inv_new bld).mem.mp hp).2
    simp only [Buf.new] at this; omega)
  exact ⟨G, 2 ^ 63, b', hb⟩

example (bld : Build) : ∃ lo hi v, nthPrimeEstRel bld 64 (floatEstimates FloatOps.ieee) (10 ^ 17) (hi - lo) = .ok (some v) ∧ lo ≤ v ∧ v ≤ hi := by
  obtain ⟨lo, hi, -, h⟩ := C36_nth_prime_est_u64 bld _ ieee_accurate (10 ^ 17) (by norm_num) (by norm_num)
  obtain ⟨v, hv, h1⟩ := h (hi - lo) le_rfl
  exact ⟨lo, hi, v, C97_nth_prime_est_agrees _ _ _ _ _ hv, h1⟩

end NumPrime
