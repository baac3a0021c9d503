import Verif.Model.ReleasePrimality
import Verif.Props.LucasSearch
import Verif.Props.Sprp
import Mathlib.Tactic.NormNum.LegendreSymbol

/-! # C100: the probable prime tests in builds without overflow checks -/

namespace NumPrime
open Spec

theorem cshr_some_ok {b a s v : ℕ} (h : cshr (some b) a s = .ok v) : s < b ∧ v = a >>> s := by
  simp only [cshr] at h
  split at h
  · rename_i hs
    exact ⟨hs, (Res.ok.injEq _ _ ▸ h).symm⟩
  · cases h

theorem isizeChecked_inv {z v : Int} (h : isizeChecked z = .ok v) : (-2 ^ 63 ≤ z ∧ z < 2 ^ 63) ∧ v = z := by
  unfold isizeChecked at h
  split at h
  · rename_i hz
    injection h with h
    exact ⟨hz, h.symm⟩
  · cases h

theorem bmod_isize {z : Int} (h : -2 ^ 63 ≤ z ∧ z < 2 ^ 63) : z.bmod (2 ^ 64) = z := by
  rw [Int.bmod_eq_of_le] <;> omega

theorem cmul_inv {w : Width} {a b c : Nat} (h : cmul w a b = .ok c) : fits w (a * b) = true ∧ c = a * b := by
  unfold cmul at h
  split at h
  · rename_i hz
    injection h with h
    exact ⟨hz, h.symm⟩
  · cases h

theorem lucasDiscRel_of_ok {p : Nat} {q d : Int} (h : lucasDisc p q = .ok d) : lucasDiscRel p q = .ok d := by
  unfold lucasDisc at h
  rw [Res.bind_eq_ok] at h
  obtain ⟨pp, h0, h⟩ := h
  rw [Res.bind_eq_ok] at h
  obtain ⟨q4, h1, h⟩ := h
  rw [Res.bind_eq_ok] at h
  obtain ⟨d', h2, h⟩ := h
  have a0 := cmul_inv h0
  have a1 := isizeChecked_inv h1
  have a2 := isizeChecked_inv h2
  clear h0 h1 h2
  have e0 : wmul 64 p p = pp := by
    rw [a0.2, wmul, Nat.mod_eq_of_lt (fits_some.mp a0.1)]
  have e1 := bmod_isize a1.1
  have e2 := bmod_isize a2.1
  rw [← a1.2] at e1
  rw [← a2.2] at e2
  unfold lucasDiscRel
  rw [e0, ← a1.2, e1, ← a2.2, e2]
  exact h
theorem lucasDeltaRel_of_ok {b n x : ℕ} {d : ℤ} (hn : n < 2 ^ b) (h : lucasDelta (some b) n d = .ok x) :
    lucasDeltaRel b n d = .ok x := by
  simp only [lucasDelta, lucasDeltaRel] at h ⊢
  split
  · rename_i hj; rwa [if_pos hj] at h
  · rename_i hj
    rw [if_neg hj] at h
    split
    · rename_i hj
      rw [if_pos hj] at h
      simp only [cadd] at h
      split at h
      · rename_i hf
        rw [fits_some] at hf
        rw [wadd, Nat.mod_eq_of_lt hf]; exact h
      · cases h
    · rename_i hj
      rw [if_neg hj] at h
      split
      · rename_i hj
        rw [if_pos hj] at h
        simp only [csub] at h
        split at h
        · rename_i h1
          rw [wsub, show n + 2 ^ b - 1 = (n - 1) + 2 ^ b by omega, Nat.add_mod_right, Nat.mod_eq_of_lt (by omega)]
          exact h
        · cases h
      · rename_i hj
        rwa [if_neg hj] at h

theorem lucasDRel_of_ok {e : Bool} {p : ℕ} {q d : ℤ} (h : lucasD e p q = .ok d) : lucasDRel e p q = .ok d := by
  cases e with
  | false => simpa only [lucasD, lucasDRel, Bool.false_eq_true, if_false] using h
  | true =>
    simp only [lucasD, lucasDRel, if_true] at h ⊢
    exact lucasDiscRel_of_ok h

theorem slprpTailRel_of_ok {b n p delta : ℕ} {q : ℤ} {v : Bool} (h : slprpTail (some b) n p q delta = .ok v) :
    slprpTailRel b n p q delta = v := by
  simp only [slprpTail, Res.bind_eq_ok] at h
  obtain ⟨base, h1, h2⟩ := h
  obtain ⟨hs, rfl⟩ := cshr_some_ok h1
  simp only [slprpTailRel, Nat.mod_eq_of_lt hs]
  split
  · rename_i hc; rw [if_pos hc] at h2; simpa using h2
  · rename_i hc
    rw [if_neg hc] at h2
    split
    · rename_i hc; rw [if_pos hc] at h2; simpa using h2
    · rename_i hc
      rw [if_neg hc] at h2
      simp only [Res.pure_def] at h2
      by_cases hq : q ≥ 0
      · simp only [hq, if_true] at h2 ⊢
        split <;> (rename_i hc'; simp only [hc', if_true, if_false] at h2; simpa using h2)
      · simp only [hq, if_false] at h2 ⊢
        split <;> (rename_i hc'; simp only [hc', if_true, if_false] at h2; simpa using h2)

theorem eslprpTailRel_of_ok {b n p delta : ℕ} {v : Bool} (hb : b ≤ 128) (hn : n < 2 ^ b) (h : eslprpTail (some b) n p delta = .ok v) :
    eslprpTailRel b n p delta = v := by
  simp only [eslprpTail, Res.bind_eq_ok] at h
  obtain ⟨base, h1, c1, h2, h3⟩ := h
  obtain ⟨hs, rfl⟩ := cshr_some_ok h1
  have hc : c1 = decide ((lucasm p 1 n (delta >>> trailingZeros (some b) delta)).1 = 0 ∧
      ((lucasm p 1 n (delta >>> trailingZeros (some b) delta)).2 = 2 ∨
        (lucasm p 1 n (delta >>> trailingZeros (some b) delta)).2 = wsub b n 2)) := by
    generalize lucasm p 1 n (delta >>> trailingZeros (some b) delta) = uv at *
    split at h2
    · rename_i h0
      split at h2
      · rename_i h2'
        obtain rfl : true = c1 := by simpa using h2
        simp [h0, h2']
      · rename_i h2'
        simp only [csub] at h2
        split at h2
        · rename_i hle
          obtain rfl : (uv.2 == n - 2) = c1 := by simpa [Res.mapR] using h2
          have : wsub b n 2 = n - 2 := by
            rw [wsub, show n + 2 ^ b - 2 = (n - 2) + 2 ^ b by omega, Nat.add_mod_right, Nat.mod_eq_of_lt (by omega)]
          rw [this, Bool.eq_iff_iff]
          simp [h0, h2']
        · simp [Res.mapR] at h2
    · rename_i h0
      obtain rfl : false = c1 := by simpa using h2
      simp [h0]
  subst hc
  simp only [eslprpTailRel, Nat.mod_eq_of_lt hs]
  split
  · rename_i hc
    simp only [hc, decide_true, if_true] at h3
    simpa using h3
  · rename_i hc
    simp only [hc, decide_false, Bool.false_eq_true, if_false] at h3
    split
    · rename_i h0
      rw [if_pos h0] at h3
      simpa using h3
    · rename_i h0
      rw [if_neg h0] at h3
      simp only [Res.bind_eq_ok, csub] at h3
      obtain ⟨s1, h4, h5⟩ := h3
      split at h4
      · rename_i hle
        obtain rfl : trailingZeros (some b) delta - 1 = s1 := by simpa using h4
        have : wsub 64 (trailingZeros (some b) delta) 1 = trailingZeros (some b) delta - 1 := by
          generalize trailingZeros (some b) delta = s at *
          rw [wsub, show s + 2 ^ 64 - 1 = (s - 1) + 2 ^ 64 by omega, Nat.add_mod_right, Nat.mod_eq_of_lt (by omega)]
        rw [this]
        simpa using h5
      · cases h4

/-- **C100** without overflow checks `is_sprp` gives the same verdict for every number but 1; the number 1, for which the debug build
panics, is reported as a probable prime -/
theorem C100_is_sprp_release (b n a : ℕ) (hn : n < 2 ^ b) :
    (n ≠ 1 → isSprp (some b) n a = .ok (isSprpRel b n a)) ∧ isSprp (some b) 1 a = .panic ∧ isSprpRel b 1 a = true := by
  refine ⟨fun h1 => ?_, C04_sprp_one_panics b a, ?_⟩
  · simp only [isSprp, testSprp, isSprpRel, testSprpRel]
    split
    · rfl
    · rename_i h
      have hlt : trailingZeros (some b) (n - 1) < b := by
        rw [trailingZeros, if_neg (by omega)]
        have h2 := (tz_spec (n := n - 1) (by omega)).1
        have h3 := Nat.le_of_dvd (by omega) h2
        exact (Nat.pow_lt_pow_iff_right (a := 2) (by norm_num)).mp (by omega)
      simp only [cshr, hlt, if_true, Res.bind_ok, Res.pure_def, Res.mapR_ok]
  · simp [isSprpRel, testSprpRel, testSprpCore, SprpResult.verdict, powm_eq, Nat.mod_one]

theorem eslprpWithRel_of_ok {b n p : ℕ} {d : ℤ} {v : Bool} (hb : b ≤ 128) (hn : n < 2 ^ b) (h : eslprpWith (some b) n p d = .ok v) :
    eslprpWithRel b n p d = .ok v := by
  unfold eslprpWith at h
  unfold eslprpWithRel
  rw [Res.bind_eq_ok] at h ⊢
  obtain ⟨u, h6, h⟩ := h
  refine ⟨u, h6, ?_⟩
  rw [Res.bind_eq_ok] at h ⊢
  obtain ⟨delta, h7, h8⟩ := h
  refine ⟨delta, lucasDeltaRel_of_ok hn h7, ?_⟩
  rw [eslprpTailRel_of_ok hb hn h8, Res.pure_def]

/-- **C100** whatever a Lucas test returns with overflow checks, it returns without them -/
theorem C100_lucas_release_agrees (bld : Build) (b n : ℕ) (hb : b ≤ 128) (hn : n < 2 ^ b) (p : Option ℕ) (q : Option ℤ) (v : Bool) :
    (isLprp bld (some b) n p q = .ok v → isLprpRel bld b n p q = .ok v) ∧
    (isSlprp bld (some b) n p q = .ok v → isSlprpRel bld b n p q = .ok v) ∧
    (isEslprp bld (some b) n p = .ok v → isEslprpRel bld b n p = .ok v) := by
  refine ⟨fun h => ?_, fun h => ?_, fun h => ?_⟩
  · unfold isLprp at h
    unfold isLprpRel
    split at h
    · rename_i h1; rw [if_pos h1]; exact h
    rename_i h1; rw [if_neg h1]
    split at h
    · rename_i h2; rw [if_pos h2]; exact h
    rename_i h2; rw [if_neg h2]
    rw [Res.bind_eq_ok] at h ⊢
    obtain ⟨pq, h3, h⟩ := h
    refine ⟨pq, h3, ?_⟩
    split at h
    · rename_i h4; rw [if_pos h4]; exact h
    rename_i h4; rw [if_neg h4]
    simp only [lprpWith, Res.bind_eq_ok] at h ⊢
    obtain ⟨d, h5, u, h6, delta, h7, h8⟩ := h
    exact ⟨d, lucasDRel_of_ok h5, u, h6, delta, lucasDeltaRel_of_ok hn h7, h8⟩
  · unfold isSlprp at h
    unfold isSlprpRel
    split at h
    · rename_i h1; rw [if_pos h1]; exact h
    rename_i h1; rw [if_neg h1]
    split at h
    · rename_i h2; rw [if_pos h2]; exact h
    rename_i h2; rw [if_neg h2]
    rw [Res.bind_eq_ok] at h ⊢
    obtain ⟨pq, h3, h⟩ := h
    refine ⟨pq, h3, ?_⟩
    split at h
    · rename_i h4; rw [if_pos h4]; exact h
    rename_i h4; rw [if_neg h4]
    simp only [slprpWith, Res.bind_eq_ok] at h ⊢
    obtain ⟨d, h5, u, h6, delta, h7, h8⟩ := h
    exact ⟨d, lucasDRel_of_ok h5, u, h6, delta, lucasDeltaRel_of_ok hn h7, by rw [slprpTailRel_of_ok h8]; rfl⟩
  · have he : isEslprp bld (some b) n p = (do
        if n < 1 then return false
        if n % 2 = 0 then return false
        let pp ← eslprpParamRel bld b n p
        if p.isNone ∧ pp = 0 then return false
        let d ← lucasD p.isSome pp 1
        eslprpWith (some b) n pp d) := by
      cases p <;> rfl
    rw [he] at h
    clear he
    unfold isEslprpRel
    split at h
    · rename_i h1; rw [if_pos h1]; exact h
    rename_i h1; rw [if_neg h1]
    split at h
    · rename_i h2; rw [if_pos h2]; exact h
    rename_i h2; rw [if_neg h2]
    rw [Res.bind_eq_ok] at h ⊢
    obtain ⟨pp, h3, h⟩ := h
    refine ⟨pp, h3, ?_⟩
    split at h
    · rename_i h4; rw [if_pos h4]; exact h
    rename_i h4; rw [if_neg h4]
    rw [Res.bind_eq_ok] at h ⊢
    obtain ⟨d, h5, h⟩ := h
    exact ⟨d, lucasDRel_of_ok h5, eslprpWithRel_of_ok hb hn h⟩

/-- `delta` is zero: the Lucas tests accept -/
theorem lucasm_zero {n : ℕ} (hn : 2 < n) (p : ℕ) (q : ℤ) : lucasm p q n 0 = (0, 2) := by
  have h1 : 1 % n = 1 := Nat.mod_eq_of_lt (by omega)
  have h2 : (1 + 1) % n = 2 := Nat.mod_eq_of_lt (by omega)
  simp [lucasm, bits, bitLen, lucasLoop, h1, dblm, mulm, subm, h2]

theorem eslprpTailRel_zero {b n : ℕ} (hn : 2 < n) (p : ℕ) : eslprpTailRel b n p 0 = true := by
  unfold eslprpTailRel
  extract_lets shift base uv
  have huv : uv = (0, 2) := by
    have h0 : base = 0 := Nat.zero_shiftRight _
    have h1 : uv = lucasm p 1 n base := rfl
    rw [h1, h0, lucasm_zero hn]
  rw [if_pos]
  rw [huv]
  exact ⟨rfl, Or.inl rfl⟩

theorem eslprpWithRel_zero {b n : ℕ} {d : ℤ} {u : Unit} (p : ℕ) (hn : 2 < n) (hc : lucasConv (some b) p 1 d = .ok u)
    (hd : lucasDeltaRel b n d = .ok 0) : eslprpWithRel b n p d = .ok true := by
  rw [eslprpWithRel, hc, Res.bind_ok, hd, Res.bind_ok, eslprpTailRel_zero hn, Res.pure_def]

theorem lucasDeltaRel_max {b n : ℕ} {d : ℤ} (hodd : n % 2 = 1) (hpow : n + 1 = 2 ^ b) (hj : jacobiSym d n = -1) :
    lucasDeltaRel b n d = .ok 0 := by
  have h := reduceD_jacobi (d := d) hodd
  rw [hj] at h
  have hw : wadd b n 1 = 0 := by rw [wadd, hpow, Nat.mod_self]
  unfold lucasDeltaRel
  rw [h, hw]
  rfl

theorem lucas_rel_zero (bld : Build) {b n p : ℕ} {q d : ℤ} {u : Unit} (hn : 2 < n) (hodd : n % 2 = 1)
    (hdr : lucasDRel true p q = .ok d) (hc : lucasConv (some b) p q d = .ok u) (hdelr : lucasDeltaRel b n d = .ok 0) :
    isLprpRel bld b n (some p) (some q) = .ok true ∧ isSlprpRel bld b n (some p) (some q) = .ok true ∧
    (q = 1 → isEslprpRel bld b n (some p) = .ok true) := by
  have h1 : ¬ n < 1 := by omega
  have h2 : ¬ n % 2 = 0 := by omega
  have hl := lucasm_zero hn
  have hpar : lucasParams bld (some b) n (some p) (some q) = .ok (p, q) := rfl
  have hdr' : lucasDRel ((some p).isSome && (some q).isSome) p q = .ok d := hdr
  refine ⟨?_, ?_, ?_⟩
  · unfold isLprpRel
    rw [if_neg h1, if_neg h2, hpar, Res.bind_ok, if_neg (by simp), hdr', Res.bind_ok, hc, Res.bind_ok, hdelr, Res.bind_ok, hl]
    rfl
  · have ht : slprpTailRel b n p q 0 = true := by
      simp [slprpTailRel, hl]
    unfold isSlprpRel
    rw [if_neg h1, if_neg h2, hpar, Res.bind_ok, if_neg (by simp), hdr', Res.bind_ok, hc, Res.bind_ok, hdelr, Res.bind_ok, ht,
      Res.pure_def]
  · rintro rfl
    have hw := eslprpWithRel_zero p hn hc hdelr
    have hp : eslprpParamRel bld b n (some p) = .ok p := rfl
    have hdr2 : lucasDRel (some p).isSome p 1 = .ok d := hdr
    unfold isEslprpRel
    rw [if_neg h1, if_neg h2, hp, Res.bind_ok, if_neg (by simp), hdr2, Res.bind_ok, hw]

/-- **C100** finding: for the largest number `2^b - 1` of a type and parameters with the Jacobi symbol -1 the debug build panics, since
`n + 1` overflows; without overflow checks all three Lucas tests report this composite number as a probable prime -/
theorem C100_lucas_release_max (bld : Build) (b : ℕ) (hb : b ∈ [8, 16, 32, 64, 128]) (p : ℕ) (q : ℤ) (ha : LucasArgs (some b) p q)
    (hj : jacobiSym ((p : ℤ) ^ 2 - 4 * q) (2 ^ b - 1 : ℕ) = -1) :
    ¬ (2 ^ b - 1).Prime ∧
    isLprp bld (some b) (2 ^ b - 1) (some p) (some q) = .panic ∧ isLprpRel bld b (2 ^ b - 1) (some p) (some q) = .ok true ∧
    isSlprp bld (some b) (2 ^ b - 1) (some p) (some q) = .panic ∧ isSlprpRel bld b (2 ^ b - 1) (some p) (some q) = .ok true ∧
    (q = 1 → isEslprp bld (some b) (2 ^ b - 1) (some p) = .panic ∧ isEslprpRel bld b (2 ^ b - 1) (some p) = .ok true) := by
  have hbig : 255 ≤ 2 ^ b - 1 ∧ (2 ^ b - 1) % 2 = 1 ∧ (2 ^ b - 1) % 3 = 0 := by
    fin_cases hb <;> norm_num
  have hpow : 2 ^ b - 1 + 1 = 2 ^ b := by have := Nat.one_le_two_pow (n := b); omega
  generalize hN : 2 ^ b - 1 = n at *
  obtain ⟨h255, hodd, h3⟩ := hbig
  have h1 : ¬ n < 1 := by omega
  have h2 : ¬ n % 2 = 0 := by omega
  have hd := lucasDisc_ok ha
  have hdr : lucasDRel true p q = .ok ((p : ℤ) ^ 2 - 4 * q) := lucasDRel_of_ok (by rw [lucasD, if_pos rfl]; exact hd)
  have hc := lucasConv_ok ha.2.2.2.2.1 ha.2.2.2.2.2.1 ha.2.2.2.2.2.2
  have hdel : lucasDelta (some b) n ((p : ℤ) ^ 2 - 4 * q) = .panic := by
    simp only [lucasDelta, reduceD_jacobi hodd, hj]
    have : fits (some b) (n + 1) = false := by
      rw [Bool.eq_false_iff, ne_eq, fits_some]; omega
    simp [cadd, this]
  have hdelr : lucasDeltaRel b n ((p : ℤ) ^ 2 - 4 * q) = .ok 0 := by
    exact lucasDeltaRel_max hodd hpow hj
  have hr := lucas_rel_zero bld (by omega) hodd hdr hc hdelr
  clear hdelr hdr
  generalize (p : ℤ) ^ 2 - 4 * q = d at hd hc hdel
  refine ⟨fun hp => ?_, ?_, hr.1, ?_, hr.2.1, fun hq => ⟨?_, hr.2.2 hq⟩⟩
  · have := (Nat.prime_dvd_prime_iff_eq Nat.prime_three hp).mp (Nat.dvd_of_mod_eq_zero h3)
    omega
  · simp [isLprp, h1, h2, lucasParams, lucasD, hd, lprpWith, hc, hdel]
  · simp [isSlprp, h1, h2, lucasParams, lucasD, hd, slprpWith, hc, hdel]
  · subst hq
    simp [isEslprp, h1, h2, lucasD, hd, eslprpWith, hc, hdel]

/-- the largest number of a type is divisible by 5, the first discriminant of both searches -/
theorem lucas_default_max (bld : Build) (b : ℕ) (n : ℕ) (h5 : n % 5 = 0) (hbig : 255 ≤ n) (hodd : n % 2 = 1)
    (hf : fits (some b) 5 = true) :
    isLprp bld (some b) n none none = .ok false ∧ isSlprp bld (some b) n none none = .ok false ∧
    isEslprp bld (some b) n none = .ok false := by
  have hj : jacobi 5 n = 0 := by
    rw [jacobi_eq hodd]
    exact jacobi_zero_of_dvd (s := 5) (by norm_num) (Nat.dvd_of_mod_eq_zero h5) (by omega) (by norm_num)
  have h1 : ¬ n < 1 := by omega
  have hne : (5 : ℕ) ≠ n := by omega
  have hs : pqSelfridge bld (some b) n = .ok (0, 0) := by
    rw [pqSelfridge, show 2 * n + 10 = (2 * n + 9) + 1 from rfl, pqSelfridgeLoop]
    simp [hj, hne]
  have hp : pBruteforce bld (some b) n = .ok 0 := by
    rw [pBruteforce, pBruteforceLoop]
    simp [fromWord, hf, hj, hne]
  exact ⟨by simp [isLprp, lucasParams, h1, hodd, hs], by simp [isSlprp, lucasParams, h1, hodd, hs], by simp [isEslprp, h1, hodd, hp]⟩

/-- **C100** without explicit parameters the three Lucas tests return in both kinds of builds, for every number of the type, the same verdict -/
theorem C100_lucas_release_default (bld : Build) (b n : ℕ) (hb : b ∈ [8, 16, 32, 64, 128]) (hn : n < 2 ^ b) :
    (∃ v, isLprp bld (some b) n none none = .ok v ∧ isLprpRel bld b n none none = .ok v) ∧
    (∃ v, isSlprp bld (some b) n none none = .ok v ∧ isSlprpRel bld b n none none = .ok v) ∧
    (∃ v, isEslprp bld (some b) n none = .ok v ∧ isEslprpRel bld b n none = .ok v) := by
  have hb' : b ≤ 128 := by fin_cases hb <;> norm_num
  have hstd : StdWidth (some b) := Or.inr ⟨b, hb, rfl⟩
  suffices h : (∃ v, isLprp bld (some b) n none none = .ok v) ∧ (∃ v, isSlprp bld (some b) n none none = .ok v) ∧
      ∃ v, isEslprp bld (some b) n none = .ok v by
    obtain ⟨⟨v1, h1⟩, ⟨v2, h2⟩, ⟨v3, h3⟩⟩ := h
    exact ⟨⟨v1, h1, (C100_lucas_release_agrees bld b n hb' hn none none v1).1 h1⟩,
      ⟨v2, h2, (C100_lucas_release_agrees bld b n hb' hn none none v2).2.1 h2⟩,
      ⟨v3, h3, (C100_lucas_release_agrees bld b n hb' hn none none v3).2.2 h3⟩⟩
  rcases Nat.mod_two_eq_zero_or_one n with he | hodd
  · have e1 : isLprp bld (some b) n none none = .ok false := by
      unfold isLprp; split
      · rfl
      · rfl
    have e2 : isSlprp bld (some b) n none none = .ok false := by
      unfold isSlprp; split
      · rfl
      · rfl
    have e3 : isEslprp bld (some b) n none = .ok false := by
      unfold isEslprp; split
      · rfl
      · rfl
    exact ⟨⟨_, e1⟩, ⟨_, e2⟩, ⟨_, e3⟩⟩
  by_cases hlt : n + 1 < 2 ^ b
  · have hf : fits (some b) (n + 1) = true := fits_some.mpr hlt
    obtain ⟨v1, h1, -⟩ := C89_is_lprp_default bld (some b) hstd n hodd hf
    obtain ⟨v2, h2, -⟩ := C89_is_slprp_default bld (some b) hstd n hodd hf
    obtain ⟨v3, h3, -⟩ := C89_is_eslprp_default bld (some b) hstd n hodd hf
    exact ⟨⟨v1, h1⟩, ⟨v2, h2⟩, ⟨v3, h3⟩⟩
  · have hN : 2 ^ b - 1 = n := by omega
    have hbig : 255 ≤ n ∧ n % 5 = 0 := by
      rw [← hN]
      fin_cases hb <;> norm_num
    have h := lucas_default_max bld b n hbig.2 hbig.1 hodd (std_fits hstd (by norm_num))
    exact ⟨⟨_, h.1⟩, ⟨_, h.2.1⟩, ⟨_, h.2.2⟩⟩

-- 255 = 3 * 5 * 17 as a `u8` with P = 1, Q = 2; 65535 as a `u16` with P = 9
example : isLprpRel .big 8 255 (some 1) (some 2) = .ok true ∧ isEslprpRel .big 16 65535 (some 9) = .ok true :=
  ⟨(C100_lucas_release_max .big 8 (by simp) 1 2 ⟨by norm_num, by norm_num, by norm_num, by norm_num, rfl, rfl, rfl⟩
      (by norm_num)).2.2.1,
    ((C100_lucas_release_max .big 16 (by simp) 9 1 ⟨by norm_num, by norm_num, by norm_num, by norm_num, rfl, rfl, rfl⟩
      (by norm_num)).2.2.2.2.2 rfl).2⟩

-- 7 is a strong probable prime to the base 3 in both builds; the number 1 only without overflow checks
example : isSprp (some 8) 7 3 = .ok (isSprpRel 8 7 3) ∧ isSprp (some 8) 1 3 = .panic ∧ isSprpRel 8 1 3 = true :=
  ⟨(C100_is_sprp_release 8 7 3 (by norm_num)).1 (by norm_num), (C100_is_sprp_release 8 7 3 (by norm_num)).2⟩

end NumPrime
