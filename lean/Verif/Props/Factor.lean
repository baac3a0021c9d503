import Verif.Proofs.Divisors
import Verif.Proofs.PrimeList

/-! # C37 – C43: the factorization algorithms of src/factor.rs

`w` is the integer type: `some b` for an unsigned machine integer of `b` bits, `none` for big integers. -/

namespace NumPrime
open Spec

/-- the residual of a result, whether it is `Ok` or `Err` -/
def residual : Except ℕ ℕ → ℕ
  | .ok r => r
  | .error r => r

/-- the effective limit -/
def tdBound (n : ℕ) : Option ℕ → ℕ
  | some l => min (isqrt n + 1) l
  | none => isqrt n + 1

theorem trialDivision_inv {w : Width} {primes : List ℕ} {n : ℕ} {limit : Option ℕ} {m : List (ℕ × ℕ)} {e : Except ℕ ℕ}
    (hn : 1 ≤ n) (hp : ∀ p ∈ primes, p.Prime) (h : trialDivision w primes n limit = .ok (m, e)) :
    ∃ lim, lim = tdBound n limit ∧
      FMap m (residual e) n ∧ ∃ tried rest, primes = tried ++ rest ∧ (∀ x ∈ m, x.1 ∈ tried) ∧
      (∀ p ∈ tried, ¬ p ∣ residual e) ∧ (∀ p ∈ tried, p ≤ lim) ∧
      (rest = [] ∨ residual e = 1 ∨ ∃ q t, rest = q :: t ∧ lim < q) ∧
      (∀ r, e = .ok r → r = 1 ∨ ∃ q t, rest = q :: t ∧ isqrt n + 1 < q) := by
  simp only [trialDivision, Res.bind_eq_ok] at h
  obtain ⟨ts, h1, lim, h2, ⟨m', r, b⟩, h3, h4⟩ := h
  have hts : ts = isqrt n + 1 := by
    unfold cadd at h1; split at h1
    · injection h1 with h1; exact h1.symm
    · simp at h1
  subst hts
  have hlim : lim = tdBound n limit := by
    cases limit with
    | none => simp only [Res.ok.injEq] at h2; exact h2.symm
    | some l =>
      simp only [Res.mapR_eq_ok] at h2
      obtain ⟨l', h5, h6⟩ := h2
      rw [(unwrapFit_ok.mp h5).2] at h6
      exact h6.symm
  have hle : lim ≤ isqrt n + 1 := by rw [hlim]; cases limit <;> simp [tdBound]
  simp only [Res.pure_def, Res.ok.injEq, Prod.mk.injEq] at h4
  obtain ⟨rfl, rfl⟩ := h4
  obtain ⟨g1, tried, rest, g2, g3, g4, g5, g6, g7, -⟩ :=
    trialLoop_spec hle primes [] n [] m' r b hp (FMap.nil hn) (by simp) (by simp) h3
  have hres : residual (if b = true then .ok r else .error r) = r := by split <;> rfl
  refine ⟨lim, hlim, by rw [hres]; exact g1, tried, rest, g2, by simpa using g3, by rw [hres]; simpa using g4, g5,
    by rw [hres]; exact g6, ?_⟩
  intro r' hr'
  split at hr'
  · rename_i hb
    injection hr' with hr'
    subst hr'
    exact g7 hb
  · cases hr'

/-- **C37** for every iterator of primes (in any order, with repetitions): the map and the residual multiply to `n`; the
primes tried form a prefix of the iterator; the map lists exactly the tried primes dividing `n`, each with its
multiplicity in `n`, in order; no tried prime divides the residual; the iteration stops early only at residual 1 or at
the first value above the limit `min(⌊√n⌋ + 1, limit)`. -/
theorem C37_trial_division (w : Width) (primes : List ℕ) (n : ℕ) (limit : Option ℕ) (m : List (ℕ × ℕ)) (e : Except ℕ ℕ)
    (hn : 1 ≤ n) (hp : ∀ p ∈ primes, p.Prime) (h : trialDivision w primes n limit = .ok (m, e)) :
    n = product m * residual e ∧ Ordered m ∧ ∃ tried rest, primes = tried ++ rest ∧
      (∀ p k, (p, k) ∈ m ↔ p ∈ tried ∧ p ∣ n ∧ k = n.factorization p) ∧
      (∀ p ∈ tried, ¬ p ∣ residual e) ∧
      (rest = [] ∨ residual e = 1 ∨ ∃ q t, rest = q :: t ∧ (Nat.sqrt n + 1 < q ∨ ∃ l, limit = some l ∧ l < q)) := by
  obtain ⟨lim, hlim, hF, tried, rest, h1, h2, h3, h4, h5, h6⟩ := trialDivision_inv hn hp h
  refine ⟨hF.prod, hF.sorted, tried, rest, h1, fun p k => ⟨fun hm => ⟨h2 _ hm, hF.dvd hm, (hF.fact hm).symm⟩, ?_⟩, h3, ?_⟩
  · rintro ⟨t1, t2, rfl⟩
    have hpp : p.Prime := hp p (by rw [h1]; exact List.mem_append_left _ t1)
    have hpm : p ∣ mapProd m := by
      rw [hF.prod] at t2
      rcases (hpp.dvd_mul.mp t2) with hd | hd
      · exact hd
      · exact absurd hd (h3 p t1)
    obtain ⟨⟨p', k⟩, hx, rfl⟩ := List.mem_map.mp (mapProd_dvd hF.prime hpp hpm)
    rw [hF.fact hx]; exact hx
  · rcases h5 with h5 | h5 | ⟨q, t, h5, h7⟩
    · exact Or.inl h5
    · exact Or.inr (Or.inl h5)
    · refine Or.inr (Or.inr ⟨q, t, h5, ?_⟩)
      have hsq : Nat.sqrt n = isqrt n := by
        have := isqrt_spec n
        exact (Nat.eq_sqrt.mpr this).symm
      rw [hsq]
      cases limit with
      | none => left; rw [hlim] at h7; exact h7
      | some l =>
        simp only [tdBound] at hlim
        rcases Nat.lt_or_ge (isqrt n + 1) q with h8 | h8
        · exact Or.inl h8
        · exact Or.inr ⟨l, rfl, by rw [hlim] at h7; omega⟩

/-- **C37** `trial_division` returns whenever the values it converts fit the type -/
theorem C37_trial_division_returns (w : Width) (primes : List ℕ) (n : ℕ) (limit : Option ℕ) (hn : 1 ≤ n)
    (hp : ∀ p ∈ primes, p.Prime) (hfit : ∀ p ∈ primes, fits w p = true) (hlim : ∀ l, limit = some l → fits w l = true)
    (hs : fits w (Nat.sqrt n + 1) = true) : ∃ v, trialDivision w primes n limit = .ok v := by
  have hsq : isqrt n = Nat.sqrt n := Nat.eq_sqrt.mpr (isqrt_spec n)
  rw [← hsq] at hs
  have h1 : ∃ lim, (match limit with
    | some l => (unwrapFit w l).mapR (fun l => min (isqrt n + 1) l)
    | none => .ok (isqrt n + 1) : Res ℕ) = .ok lim := by
    cases limit with
    | none => exact ⟨_, rfl⟩
    | some l => exact ⟨_, by simp only [unwrapFit, hlim l rfl, if_true, Res.mapR_ok]; rfl⟩
  obtain ⟨lim, hl⟩ := h1
  obtain ⟨⟨m, r, b⟩, hv⟩ := trialLoop_returns (w := w) (tsqrt := isqrt n + 1) (limit := lim) primes n []
    (fun p h => (hp p h).two_le) hfit hn
  refine ⟨(m, if b then .ok r else .error r), ?_⟩
  simp only [trialDivision, cadd_ok hs, Res.bind_ok]
  cases limit with
  | none =>
    simp only [Res.ok.injEq] at hl
    subst hl
    simp only [Res.bind_ok, hv]
    rfl
  | some l =>
    simp only at hl
    simp only [hl, Res.bind_ok, hv]
    rfl

example : trialDivision (some 16) [2, 3, 5, 7, 11] 63000 (some 10) = .ok ([(2, 3), (3, 2), (5, 3), (7, 1)], .ok 1) ∧
    trialDivision (some 16) [7, 2, 2, 11, 13] 62608 none = .ok ([(2, 4), (7, 1), (13, 1)], .error 43) ∧
    trialDivision none [2, 3, 5, 7, 11, 13] 10403 (some 7) = .ok ([], .error 10403) := by decide +kernel

/-- **C38** if the iterator yields all primes below some bound in order and the result is `Ok(r)`, then `r` is 1 or a prime
not in the map, so the map with `r` added is the prime factorization of `n` -/
theorem C38_trial_division_ok (w : Width) (N n : ℕ) (limit : Option ℕ) (m : List (ℕ × ℕ)) (r : ℕ) (hn : 1 ≤ n)
    (h : trialDivision w ((List.range N).filter (fun p => Nat.Prime p)) n limit = .ok (m, .ok r)) :
    (r = 1 ∧ IsFactorization m n) ∨ (r.Prime ∧ r ∉ m.map Prod.fst ∧ IsFactorization (mapInsert m r 1) n) := by
  have hp : ∀ p ∈ primesBelow N, p.Prime := fun p hp => (mem_primesBelow.mp hp).1
  obtain ⟨lim, hlim, hF, tried, rest, h1, h2, h3, h4, h5, h6⟩ := trialDivision_inv hn hp h
  simp only [residual] at hF h3 h5
  have hcase : r = 1 ∨ r.Prime := by
    rcases h6 r rfl with h7 | ⟨q, t, h7, h8⟩
    · exact Or.inl h7
    · have hsort := primesBelow_sorted N
      rw [h1, h7] at hsort
      have hqN : q ∈ primesBelow N := by rw [h1, h7]; simp
      refine one_or_prime_of_no_small hF.rpos ?_ h8 ?_
      · have := hF.prod
        exact Nat.le_of_dvd hn ⟨mapProd m, by rw [Nat.mul_comm]; exact this⟩
      · intro p hpp hpq
        apply h3
        have hpN : p ∈ primesBelow N :=
          mem_primesBelow.mpr ⟨hpp, lt_trans hpq (mem_primesBelow.mp hqN).2⟩
        rw [h1, h7] at hpN
        rcases List.mem_append.mp hpN with hpN | hpN
        · exact hpN
        · exfalso
          have h9 := (List.pairwise_append.mp hsort).2.1
          rw [List.pairwise_cons] at h9
          rcases List.mem_cons.mp hpN with rfl | hpN
          · omega
          · have := h9.1 p hpN; omega
  rcases hcase with rfl | hr
  · exact Or.inl ⟨rfl, hF.finish_one⟩
  · refine Or.inr ⟨hr, ?_, hF.finish_prime hr⟩
    intro hc
    obtain ⟨x, hx, rfl⟩ := List.mem_map.mp hc
    exact hF.nodvd x hx dvd_rfl

example : trialDivision (some 64) ((List.range 30).filter (fun p => Nat.Prime p)) 202 none = .ok ([(2, 1)], .ok 101) := by
  decide +kernel

/-- **C39** `pollard_rho` on a positive target always returns, after at most `max_iter` iterations, and a factor it returns
is a proper divisor; whatever the start, offset and iteration limit -/
theorem C39_pollard_rho (n start offset maxIter : ℕ) (hn : 0 < n) :
    ∃ o k, pollardRho n start offset maxIter = .ok (o, k) ∧ k ≤ maxIter ∧ ∀ d, o = some d → ProperDivisor d n := by
  refine ⟨_, _, by simp only [pollardRho, hn.ne', if_false]; rfl, ?_, ?_⟩
  · have := (rhoLoop_iters n offset maxIter ⟨0, 1, start, start, 1 % n, start, false⟩).2
    simpa using this
  · intro d hd
    exact rhoLoop_divisor hn _ _ _ hd

/-- **C39** on the target 0 `pollard_rho` panics, with every start, offset and limit (remainder by zero) -/
theorem C39_pollard_rho_zero (start offset maxIter : ℕ) : pollardRho 0 start offset maxIter = .panic := rfl

example : pollardRho 8051 2 1 100 = .ok (some 97, 8) := by decide +kernel
-- a run in which the combined gcd fails and the algorithm backtracks
example : pollardRho 9 3 1 100 = .ok (some 3, 5) := by decide +kernel

theorem sqrt_fits {b D : ℕ} (hb : 2 ≤ b) (hD : D < 2 ^ b) : isqrt D + isqrt D < 2 ^ b := by
  have h1 := (isqrt_spec D).1
  generalize isqrt D = r at *
  have h4 : 4 ≤ 2 ^ b := by
    calc 4 = 2 ^ 2 := rfl
      _ ≤ 2 ^ b := Nat.pow_le_pow_right (by norm_num) hb
  rcases Nat.lt_or_ge r 2 with h2 | h2
  · omega
  · have : 2 * r ≤ r * r := Nat.mul_le_mul_right _ h2
    omega

theorem squfof_main {bld : Build} {w : Width} {fuel n D maxIter : ℕ} (hn : 0 < n) (hdvd : n ∣ D)
    (hw : fits w D = true) (hw2 : fits w (isqrt D + isqrt D) = true) :
    squfof bld w fuel n D maxIter ≠ .panic ∧
    (¬ IsSquare D → ∀ d k, squfof bld w fuel n D maxIter = .ok (some d, k) → ProperDivisor d n) := by
  obtain ⟨h1, h2⟩ := isqrt_spec D
  have hc : ¬ (n = 0 ∨ D % n ≠ 0) := by
    have := Nat.mod_eq_zero_of_dvd hdvd
    omega
  simp only [squfof, hc, if_false]
  generalize hrd : isqrt D = rd at *
  rw [cmul_ok (fits_mono h1 hw), Res.bind_ok, csub_ok h1, Res.bind_ok]
  by_cases hq : D - rd * rd = 0
  · simp only [hq, if_true, Res.pure_def, ne_eq, reduceCtorEq, not_false_iff, true_and]
    intro hns
    exact absurd ⟨rd, by omega⟩ hns
  · simp only [hq, if_false]
    have hlt : rd * rd < D := by omega
    have hpos : 0 < rd := by
      rcases Nat.eq_zero_or_pos rd with h0 | h0
      · subst h0; omega
      · exact h0
    have hinv : SqInv D rd rd (D - rd * rd) 1 := by
      refine ⟨hpos, le_rfl, by omega, ?_, one_pos, by omega⟩
      have : (rd + 1) * (rd + 1) = rd * rd + rd + rd + 1 := by ring
      omega
    have := squfofForward_spec (bld := bld) (fuel := fuel) (n := n) (maxIter := maxIter) hlt h2 hw hw2 (maxIter - 1) 1 rd
      (D - rd * rd) 1 hinv
    exact ⟨this.1, fun _ => this.2⟩

/-- **C40 (partial)** if the multiplied target is not a perfect square, a factor returned by `squfof` is a proper divisor of
the target. Missing: perfect squares, for which the claim is false (`C40_squfof_square`). -/
theorem C40_squfof_partial (bld : Build) (w : Width) (fuel n k maxIter d i : ℕ) (hb : ∀ b, w = some b → 2 ≤ b)
    (hn : 0 < n) (hw : fits w (k * n) = true) (hsq : ¬ IsSquare (k * n))
    (h : squfof bld w fuel n (k * n) maxIter = .ok (some d, i)) : ProperDivisor d n := by
  refine (squfof_main hn ⟨k, Nat.mul_comm _ _⟩ hw ?_).2 hsq d i h
  cases w with
  | none => rfl
  | some b => exact fits_some.mpr (sqrt_fits (hb b rfl) (fits_some.mp hw))

/-- **C40, finding** for a perfect square `k * n` the square root is returned unchecked: it may be the target itself or no
divisor of it at all -/
theorem C40_squfof_square (bld : Build) (fuel maxIter : ℕ) :
    squfof bld (some 64) fuel 3 (3 * 3) maxIter = .ok (some 3, 0) ∧
    squfof bld (some 64) fuel 3 (12 * 3) maxIter = .ok (some 6, 0) := by
  have h9 : isqrt 9 = 3 := by decide
  have h36 : isqrt 36 = 6 := by decide
  simp [squfof, h9, h36, cmul, csub, fits]

example : squfof .big (some 64) 100 11111 (1 * 11111) 30 = .ok (some 41, 5) ∧ ¬ IsSquare (1 * 11111) := by
  refine ⟨by decide +kernel, ?_⟩
  rintro ⟨r, hr⟩
  have h1 : r < 106 := by nlinarith
  have h2 : 105 < r := by nlinarith
  omega

/-- **C41** no arithmetic in `squfof` overflows, underflows or divides by zero, for any target, multiplier and iteration
limit for which the product is representable -/
theorem C41_squfof_no_panic (bld : Build) (w : Width) (fuel n k maxIter : ℕ) (hb : ∀ b, w = some b → 2 ≤ b)
    (hn : 0 < n) (hw : fits w (k * n) = true) : squfof bld w fuel n (k * n) maxIter ≠ .panic := by
  refine (squfof_main hn ⟨k, Nat.mul_comm _ _⟩ hw ?_).1
  cases w with
  | none => rfl
  | some b => exact fits_some.mpr (sqrt_fits (hb b rfl) (fits_some.mp hw))

example : squfof .big (some 8) 100 85 (3 * 85) 30 ≠ .panic ∧ fits (some 8) (3 * 85) = true := by decide +kernel

/-- **C42** a factor returned by `one_line` is a proper divisor of the target -/
theorem C42_one_line (bld : Build) (w : Width) (n mulTarget maxIter d i : ℕ)
    (h : oneLine bld w n mulTarget maxIter = .ok (some d, i)) : ProperDivisor d n := by
  unfold oneLine at h
  split at h
  · simp at h
  · rename_i hc
    exact oneLineLoop_divisor (by omega) _ _ _ _ _ h

example : oneLine .big (some 64) 8061 (480 * 8061) 100 = .ok (some 2687, 30) := by decide +kernel

/-- **C43 (partial)** for `u64`, `one_line` returns without overflow if `mul_target * (max_iter - 1) < (2^32 - 1)^2`. Missing:
larger products, for which `s * s` can overflow (`C43_one_line_overflow`). -/
theorem C43_one_line_returns_partial (bld : Build) (n k maxIter : ℕ) (hn : 0 < n) (hk : 0 < k)
    (h : k * n * (maxIter - 1) < (2 ^ 32 - 1) ^ 2) (hkn : k * n < 2 ^ 64) :
    ∃ v, oneLine bld (some 64) n (k * n) maxIter = .ok v := by
  have hc : ¬ (n = 0 ∨ k * n % n ≠ 0) := by simp; omega
  simp only [oneLine, hc, if_false]
  refine oneLineLoop_ne_panic _ _ _ (Nat.mul_pos hk hn) (fun j hj _ => ?_) (fits_some.mpr hkn)
  have e : k * n + j * (k * n) = k * n * (j + 1) := by ring
  rw [e]
  have hle : k * n * (j + 1) ≤ k * n * (maxIter - 1) := Nat.mul_le_mul_left _ (by omega)
  have hs := (isqrt_spec (k * n * (j + 1))).1
  generalize isqrt (k * n * (j + 1)) = s at *
  have : s < 2 ^ 32 - 1 := by
    by_contra hge
    have h2 : (2 ^ 32 - 1) * (2 ^ 32 - 1) ≤ s * s := Nat.mul_le_mul (by omega) (by omega)
    rw [pow_two] at h
    omega
  refine fits_some.mpr (lt_of_le_of_lt (Nat.mul_le_mul (show s + 1 ≤ 2 ^ 32 - 1 by omega) (show s + 1 ≤ 2 ^ 32 - 1 by omega)) ?_)
  norm_num

/-- **C43** for big integers `one_line` always returns -/
theorem C43_one_line_big (bld : Build) (n k maxIter : ℕ) (hn : 0 < n) (hk : 0 < k) :
    ∃ v, oneLine bld none n (k * n) maxIter = .ok v := by
  have hc : ¬ (n = 0 ∨ k * n % n ≠ 0) := by simp; omega
  simp only [oneLine, hc, if_false]
  exact oneLineLoop_ne_panic _ _ _ (Nat.mul_pos hk hn) (fun _ _ _ => rfl) rfl

/-- **C43, finding** for `u64` targets from `(2^32 - 1)^2` on, the very first round overflows -/
theorem C43_one_line_overflow (bld : Build) (n maxIter : ℕ) (h1 : (2 ^ 32 - 1) ^ 2 ≤ n) (h2 : n < 2 ^ 64)
    (hm : 2 ≤ maxIter) : oneLine bld (some 64) n n maxIter = .panic := by
  have hc : ¬ (n = 0 ∨ n % n ≠ 0) := by simp; omega
  obtain ⟨f, hf⟩ : ∃ f, maxIter - 1 = f + 1 := ⟨maxIter - 2, by omega⟩
  have hs : isqrt n = 2 ^ 32 - 1 := by
    have := isqrt_spec n
    have h3 := this.1
    have h4 := this.2
    generalize isqrt n = s at *
    have a1 : s < 2 ^ 32 := by
      by_contra hge
      have := Nat.mul_le_mul (show 2 ^ 32 ≤ s by omega) (show 2 ^ 32 ≤ s by omega)
      omega
    have a2 : 2 ^ 32 - 1 ≤ s := by
      by_contra hge
      have := Nat.mul_le_mul (show s + 1 ≤ 2 ^ 32 - 1 by omega) (show s + 1 ≤ 2 ^ 32 - 1 by omega)
      rw [pow_two] at h1
      omega
    omega
  simp only [oneLine, hc, if_false, hf, oneLineLoop, hs]
  simp [cadd, cmul, fits]

example : oneLine .big (some 64) 18446744065119617029 18446744065119617029 2 = .panic := by decide +kernel

/-- round `i` of the one line method finds the factor `d`: with `s` the least integer above the square root of `i * m`, the
difference `s^2 - i * m` is a square `t^2`, and `gcd (n, s - t) = d` is neither 1 nor `n` -/
def Spec.OneLineFinds (n m i d : ℕ) : Prop :=
  ∃ t, t ^ 2 = (Nat.sqrt (i * m) + 1) ^ 2 - i * m ∧ d = Nat.gcd n (Nat.sqrt (i * m) + 1 - t) ∧ d ≠ 1 ∧ d ≠ n

/-- the square of the integer above the square root of `x` does not fit into `2 c` bits -/
theorem sqrt_overflow (c x : ℕ) :
    2 ^ (2 * c) ≤ (Nat.sqrt x + 1) * (Nat.sqrt x + 1) ↔ (2 ^ c - 1) ^ 2 ≤ x := by
  have e : 2 ^ (2 * c) = 2 ^ c * 2 ^ c := by rw [← pow_add]; congr 1; omega
  have hp : 0 < 2 ^ c := by positivity
  rw [e]
  rw [pow_two, Nat.mul_self_le_mul_self_iff, ← Nat.le_sqrt]
  omega

/-- the rounds of `one_line` from round `i` on: when they panic, and what they return -/
theorem oneLineLoop_exact (bld : Build) (c : ℕ) {n M : ℕ} (hn : 0 < n) (hM : 0 < M) (maxIter : ℕ) : ∀ f i : ℕ, 1 ≤ i →
    i * M < 2 ^ (2 * c) →
    (oneLineLoop bld (some (2 * c)) n M maxIter f i (i * M) = .panic ↔
      ∃ j, i ≤ j ∧ j < i + f ∧ (2 ^ c - 1) ^ 2 ≤ j * M ∧ j * M < 2 ^ (2 * c) ∧ ∀ l, i ≤ l → l < j → ∀ d, ¬ OneLineFinds n M l d) ∧
    ∀ d r, oneLineLoop bld (some (2 * c)) n M maxIter f i (i * M) = .ok (some d, r) ↔
      i ≤ r ∧ r < i + f ∧ r * M < (2 ^ c - 1) ^ 2 ∧ OneLineFinds n M r d ∧ ∀ l, i ≤ l → l < r → ∀ d', ¬ OneLineFinds n M l d' := by
  intro f
  induction f with
  | zero =>
    intro i _ _
    refine ⟨⟨fun h => by simp [oneLineLoop] at h, ?_⟩, fun d r => ⟨fun h => by simp [oneLineLoop] at h, ?_⟩⟩
    · rintro ⟨j, h1, h2, -⟩; omega
    · rintro ⟨h1, h2, -⟩; omega
  | succ f ih =>
    intro i hi hlt
    have hpos : 0 < i * M := Nat.mul_pos hi hM
    have hsq : isqrt (i * M) = Nat.sqrt (i * M) := isqrt_eq _
    have hmono : ∀ j, i < j → (i + 1) * M ≤ j * M := fun j hj => Nat.mul_le_mul_right _ hj
    have hs1 : Nat.sqrt (i * M) * Nat.sqrt (i * M) ≤ i * M := Nat.sqrt_le _
    have hs2 : i * M < (Nat.sqrt (i * M) + 1) * (Nat.sqrt (i * M) + 1) := Nat.lt_succ_sqrt _
    have hov := sqrt_overflow c (i * M)
    have hc : 1 ≤ c := by
      by_contra h
      have : c = 0 := by omega
      subst this
      simp at hlt; omega
    have hsc : Nat.sqrt (i * M) < 2 ^ c := by
      rw [Nat.sqrt_lt, ← pow_add, ← two_mul]; exact hlt
    have h2c : 2 ^ c * 2 ≤ 2 ^ (2 * c) := by
      rw [← pow_succ]; exact Nat.pow_le_pow_right (by norm_num) (by omega)
    have hadd : cadd (some (2 * c)) (isqrt (i * M)) 1 = .ok (Nat.sqrt (i * M) + 1) := by
      rw [hsq]; exact cadd_ok (fits_some.mpr (by have : 0 < 2 ^ c := by positivity
                                                 omega))
    have hunf : oneLineLoop bld (some (2 * c)) n M maxIter (f + 1) i (i * M) = (do
      let s ← cadd (some (2 * c)) (isqrt (i * M)) 1
      let ss ← cmul (some (2 * c)) s s
      let m ← csub ss (i * M)
      let r ← sqrtExact bld (some (2 * c)) m
      let g ← (match r with
        | some t => (csub s t).mapR (fun d => some (Nat.gcd n d))
        | none => .ok none : Res (Option Nat))
      if g.isSome ∧ g ≠ some 1 ∧ g ≠ some n then return (g, i)
      else if fits (some (2 * c)) (i * M + M) then oneLineLoop bld (some (2 * c)) n M maxIter f (i + 1) (i * M + M)
      else return (none, i)) := rfl
    rw [hunf, hadd, Res.bind_ok]
    by_cases hof : (2 ^ c - 1) ^ 2 ≤ i * M
    · have hcm : cmul (some (2 * c)) (Nat.sqrt (i * M) + 1) (Nat.sqrt (i * M) + 1) = .panic := by
        have := hov.mpr hof
        rw [cmul, if_neg]
        rw [fits_some]; omega
      rw [hcm]
      refine ⟨⟨fun _ => ⟨i, le_rfl, by omega, hof, hlt, fun l h1 h2 => by omega⟩, fun _ => rfl⟩, fun d r => ⟨fun h => (by cases h), ?_⟩⟩
      rintro ⟨h1, -, h2, -⟩
      have := Nat.mul_le_mul_right M h1
      omega
    · have hnov : (Nat.sqrt (i * M) + 1) * (Nat.sqrt (i * M) + 1) < 2 ^ (2 * c) := by
        by_contra h; exact hof (hov.mp (by omega))
      rw [cmul_ok (fits_some.mpr hnov), Res.bind_ok, csub_ok hs2.le, Res.bind_ok]
      obtain ⟨o, ho, hr⟩ := sqrtExact_spec bld (some (2 * c)) (n := (Nat.sqrt (i * M) + 1) * (Nat.sqrt (i * M) + 1) - i * M)
        (by omega) (fits_some.mpr (by omega))
      rw [ho, Res.bind_ok]
      -- what the round finds
      have hfind : ∃ g : Option ℕ, (match (generalizing := false) o with
          | some t => (csub (Nat.sqrt (i * M) + 1) t).mapR (fun d => some (Nat.gcd n d))
          | none => .ok none : Res (Option ℕ)) = .ok g ∧
          ∀ d, OneLineFinds n M i d ↔ (g = some d ∧ d ≠ 1 ∧ d ≠ n) := by
        cases o with
        | none =>
          refine ⟨none, rfl, fun d => ⟨?_, fun h => by simp at h⟩⟩
          rintro ⟨t, h1, -⟩
          rw [pow_two (Nat.sqrt (i * M) + 1)] at h1
          have := (hr t).mpr h1
          simp at this
        | some t =>
          have h1 := (hr t).mp rfl
          have hle : t ≤ Nat.sqrt (i * M) + 1 := by
            by_contra hgt
            have := Nat.mul_le_mul (show Nat.sqrt (i * M) + 1 ≤ t by omega) (show Nat.sqrt (i * M) + 1 ≤ t by omega)
            rw [pow_two] at h1
            omega
          refine ⟨some (Nat.gcd n (Nat.sqrt (i * M) + 1 - t)), by simp only [csub_ok hle, Res.mapR_ok], fun d => ⟨?_, ?_⟩⟩
          · rintro ⟨t', h2, h3, h4⟩
            rw [pow_two (Nat.sqrt (i * M) + 1)] at h2
            have := (hr t').mpr h2
            injection this with this
            subst this
            exact ⟨by rw [h3], h4⟩
          · rintro ⟨h2, h3⟩
            injection h2 with h2
            exact ⟨t, by rw [h1, pow_two], h2.symm, h3⟩
      obtain ⟨g, hg, hgf⟩ := hfind
      rw [hg, Res.bind_ok]
      by_cases hfd : ∃ d, OneLineFinds n M i d
      · obtain ⟨d, hd⟩ := hfd
        obtain ⟨e1, e2, e3⟩ := (hgf d).mp hd
        rw [if_pos ⟨by simp [e1], by simp [e1, e2], by simp [e1, e3]⟩]
        refine ⟨⟨fun h => by simp [Res.pure_def] at h, ?_⟩, fun d' r => ⟨fun h => ?_, ?_⟩⟩
        · rintro ⟨j, h1, h2, h3, h4, h5⟩
          rcases Nat.eq_or_lt_of_le h1 with rfl | h6
          · exact absurd h3 hof
          · exact absurd hd (h5 i le_rfl h6 d)
        · simp only [Res.pure_def, Res.ok.injEq, Prod.mk.injEq] at h
          obtain ⟨h1, rfl⟩ := h
          rw [e1] at h1
          injection h1 with h1
          subst h1
          exact ⟨le_rfl, by omega, by omega, hd, fun l h1 h2 => by omega⟩
        · rintro ⟨h1, h2, h3, h4, h5⟩
          rcases Nat.eq_or_lt_of_le h1 with rfl | h6
          · obtain ⟨e4, -, -⟩ := (hgf d').mp h4
            simp [Res.pure_def, e4]
          · exact absurd hd (h5 i le_rfl h6 d)
      · have hno : ¬ (g.isSome ∧ g ≠ some 1 ∧ g ≠ some n) := by
          rintro ⟨h1, h2, h3⟩
          obtain ⟨d, rfl⟩ := Option.isSome_iff_exists.mp h1
          exact hfd ⟨d, (hgf d).mpr ⟨rfl, by rintro rfl; exact h2 rfl, by rintro rfl; exact h3 rfl⟩⟩
        have hno' : ∀ d, ¬ OneLineFinds n M i d := fun d hd => hfd ⟨d, hd⟩
        rw [if_neg hno]
        have esucc : i * M + M = (i + 1) * M := by ring
        rw [esucc]
        by_cases hft : (i + 1) * M < 2 ^ (2 * c)
        · rw [if_pos (fits_some.mpr hft)]
          obtain ⟨g1, g2⟩ := ih (i + 1) (by omega) hft
          refine ⟨?_, fun d r => ?_⟩
          · rw [g1]
            constructor
            · rintro ⟨j, h1, h2, h3, h4, h5⟩
              refine ⟨j, by omega, by omega, h3, h4, fun l h6 h7 d => ?_⟩
              rcases Nat.eq_or_lt_of_le h6 with rfl | h8
              · exact hno' d
              · exact h5 l h8 h7 d
            · rintro ⟨j, h1, h2, h3, h4, h5⟩
              have : i ≠ j := by rintro rfl; exact hof h3
              exact ⟨j, by omega, by omega, h3, h4, fun l h6 h7 d => h5 l (by omega) h7 d⟩
          · rw [g2]
            constructor
            · rintro ⟨h1, h2, h3, h4, h5⟩
              refine ⟨by omega, by omega, h3, h4, fun l h6 h7 d => ?_⟩
              rcases Nat.eq_or_lt_of_le h6 with rfl | h8
              · exact hno' d
              · exact h5 l h8 h7 d
            · rintro ⟨h1, h2, h3, h4, h5⟩
              have : i ≠ r := by rintro rfl; exact hno' d h4
              exact ⟨by omega, by omega, h3, h4, fun l h6 h7 d => h5 l (by omega) h7 d⟩
        · rw [if_neg (by rw [fits_some]; exact hft)]
          refine ⟨⟨fun h => by simp [Res.pure_def] at h, ?_⟩, fun d r => ⟨fun h => by simp [Res.pure_def] at h, ?_⟩⟩
          · rintro ⟨j, h1, h2, h3, h4, h5⟩
            rcases Nat.eq_or_lt_of_le h1 with rfl | h6
            · exact absurd h3 hof
            · have := hmono j h6
              omega
          · rintro ⟨h1, h2, h3, h4, h5⟩
            rcases Nat.eq_or_lt_of_le h1 with rfl | h6
            · exact absurd h4 (hno' d)
            · have := hmono r h6
              have : (2 ^ c - 1) ^ 2 ≤ 2 ^ (2 * c) := by
                rw [two_mul, pow_add, pow_two]
                exact Nat.mul_le_mul (Nat.sub_le _ _) (Nat.sub_le _ _)
              omega

/-- **C43** exactly when `one_line` panics, on the unsigned types of even width `2 c`: when a round before the limit is reached, with
nothing found before, for which `i * k * n` lies between `(2^c - 1)^2` and `2^(2 c)` -/
theorem C43_one_line_panics_iff (bld : Build) (c n k maxIter : ℕ) (hn : 0 < n) (hk : 0 < k) (hkn : k * n < 2 ^ (2 * c)) :
    oneLine bld (some (2 * c)) n (k * n) maxIter = .panic ↔
      ∃ i, 1 ≤ i ∧ i < maxIter ∧ (2 ^ c - 1) ^ 2 ≤ i * (k * n) ∧ i * (k * n) < 2 ^ (2 * c) ∧
        ∀ j, 1 ≤ j → j < i → ∀ d, ¬ OneLineFinds n (k * n) j d := by
  have hc : ¬ (n = 0 ∨ k * n % n ≠ 0) := by simp; omega
  have h := (oneLineLoop_exact bld c hn (Nat.mul_pos hk hn) maxIter (maxIter - 1) 1 le_rfl (by rwa [one_mul])).1
  rw [one_mul] at h
  rw [oneLine, if_neg hc, h]
  constructor
  · rintro ⟨j, h1, h2, h3⟩; exact ⟨j, h1, by omega, h3⟩
  · rintro ⟨j, h1, h2, h3⟩; exact ⟨j, h1, by omega, h3⟩

/-- **C43** exactly which factor `one_line` returns, and in which round: the first that the method finds -/
theorem C43_one_line_finds_iff (bld : Build) (c n k maxIter d i : ℕ) (hn : 0 < n) (hk : 0 < k) (hkn : k * n < 2 ^ (2 * c)) :
    oneLine bld (some (2 * c)) n (k * n) maxIter = .ok (some d, i) ↔
      1 ≤ i ∧ i < maxIter ∧ i * (k * n) < (2 ^ c - 1) ^ 2 ∧ OneLineFinds n (k * n) i d ∧
        ∀ j, 1 ≤ j → j < i → ∀ d', ¬ OneLineFinds n (k * n) j d' := by
  have hc : ¬ (n = 0 ∨ k * n % n ≠ 0) := by simp; omega
  have h := (oneLineLoop_exact bld c hn (Nat.mul_pos hk hn) maxIter (maxIter - 1) 1 le_rfl (by rwa [one_mul])).2 d i
  rw [one_mul] at h
  rw [oneLine, if_neg hc, h]
  constructor
  · rintro ⟨h1, h2, h3⟩; exact ⟨h1, by omega, h3⟩
  · rintro ⟨h1, h2, h3⟩; exact ⟨h1, by omega, h3⟩


-- the second round panics here, after a first round without a factor, and not in the first
example : oneLine .big (some 8) 113 113 3 = .panic ∧ oneLine .big (some 8) 113 113 2 = .ok (none, 2) := by decide +kernel

-- 30 rounds until the factor is found
example : Spec.OneLineFinds 8061 (480 * 8061) 30 2687 :=
  ((C43_one_line_finds_iff .big 32 8061 480 100 2687 30 (by norm_num) (by norm_num) (by norm_num)).mp (by decide +kernel)).2.2.2.1

end NumPrime
