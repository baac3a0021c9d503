import Verif.Props.Rand
import Verif.Props.Consistency

/-! # C94: which random words lead to which prime -/

namespace NumPrime
open Spec Tables

namespace Spec

/-- `p` is the least prime that is at least `t` -/
def IsFirstPrime (t p : ℕ) : Prop := IsLeast {q : ℕ | q.Prime ∧ t ≤ q} p

/-- the numbers on which `next_prime` panics in the build without big tables (C21) -/
def NextPanics (bld : Build) (t : ℕ) : Prop := bld = .small ∧ 252 ≤ t ∧ t ≤ 255

end Spec

theorem nextPrime_first {bld : Build} {b : ℕ} (hb : PrimWidth b) (hN : TestExactBelow bld (2 ^ b)) {t p : ℕ} {config : Option PrimalityTestConfig}
    (hp : IsFirstPrime t p)
    (hne : t ≠ p) (hpb : p < 2 ^ b) (hbad : ¬ NextPanics bld t) (draws : ℕ → List ℕ) :
    ∃ F, ∀ fuel, F ≤ fuel → nextPrime bld (some b) t config draws fuel = .ok (some p) := by
  have hlt : t < p := lt_of_le_of_ne hp.1.2 hne
  have hret : ∃ o F, ∀ fuel, F ≤ fuel → nextPrime bld (some b) t config (fun _ => []) fuel = .ok o := by
    have hen : ∀ s, fits (some b) s = true → isPrimeNew bld (some b) s config [] ≠ .timeout := fun s hs => by
      rw [isPrimeNew, isPrime_below bld _ _ (fits_64 hb.le hs)]; simp
    cases bld with
    | big => exact C19_next_prime_returns (some b) hb.std t config _ goodDraws_nil hen
    | small =>
      have hbad' : ¬ (252 ≤ t ∧ t ≤ 255) := fun h => hbad ⟨rfl, h⟩
      obtain ⟨F, hF⟩ := C21_next_prime_small_partial (some b) hb.std t hbad' config _ goodDraws_nil hen
      have hF' : ∀ fuel, F ≤ fuel → nextPrime .small (some b) t config (fun _ => []) fuel = .ok (some p) := by
        intro fuel hf
        rcases hF fuel hf with ⟨r, h1, h2, h3, h4, h5⟩ | ⟨h1, h2⟩
        · have hr : r.Prime := hN.2 r (fits_lt h3) (accepted_is64 (fits_64 hb.le h3) h4)
          rw [h1, le_antisymm (h5 p hp.1.1 hlt) (hp.2 ⟨hr, h2.le⟩)]
        · have := h2 p hp.1.1 hlt
          rw [lt_fits hpb] at this; simp at this
      exact ⟨_, F, hF'⟩
  obtain ⟨o, F, hF⟩ := hret
  refine ⟨F, fun fuel hf => ?_⟩
  rw [nextPrime_draws bld hb.le t config _ (fun _ => []) fuel, hF fuel hf]
  have hc := nextPrime_contract bld (some b) hb.std t config _ goodDraws_nil fuel _ (hF fuel hf)
  cases o with
  | none =>
    have := hc.2 rfl p hp.1.1 hlt
    rw [lt_fits hpb] at this; simp at this
  | some r =>
    obtain ⟨h1, h2, h3, h4⟩ := hc.1 r rfl
    have hr : r.Prime := hN.2 r (fits_lt h2) (accepted_is64 (fits_64 hb.le h2) h3)
    rw [le_antisymm (h4 p hp.1.1 hlt) (hp.2 ⟨hr, h1.le⟩)]

theorem genLoop_first {bld : Build} {b : ℕ} (hb : PrimWidth b) (hN : TestExactBelow bld (2 ^ b)) {src : RandSource} {mk : ℕ → Res ℕ}
    {k t p : ℕ} (hmk : mk k = .ok t) (hp : IsFirstPrime t p) (hpb : p < 2 ^ b) (hbad : ¬ NextPanics bld t) :
    ∃ F, ∀ fuel, F ≤ fuel → genLoop mk (fun _ t => .ok (isPrime64 bld t))
      (fun k t => nextPrime bld (some b) t none (src.draws k) fuel) fuel k = .ok (p, k + 1) := by
  by_cases hne : t = p
  · refine ⟨1, fun fuel hf => ?_⟩
    obtain ⟨f, rfl⟩ : ∃ f, fuel = f + 1 := ⟨fuel - 1, by omega⟩
    subst hne
    have := isPrime64_prime bld hp.1.1
    simp only [genLoop, hmk, Res.bind_ok, this, if_true]
    rfl
  · obtain ⟨F, hF⟩ := nextPrime_first (config := none) hb hN hp hne hpb hbad (src.draws k)
    refine ⟨F + 1, fun fuel hf => ?_⟩
    have hn := hF fuel (by omega)
    have hnp : isPrime64 bld t = false := by
      by_contra h
      have hlt : t < p := lt_of_le_of_ne hp.1.2 hne
      have hprime := hN.2 t (by omega) (by simpa using h)
      exact hne (le_antisymm hp.1.2 (hp.2 ⟨hprime, le_rfl⟩))
    obtain ⟨f, rfl⟩ : ∃ f, fuel = f + 1 := ⟨fuel - 1, by omega⟩
    simp only [genLoop, hmk, Res.bind_ok, hnp, Bool.false_eq_true, if_false, hn]
    rfl

/-- **C94** `gen_prime` returns the first prime from the number given by the leading `bits` bits of the random word, made odd. If
there is none in the type it goes on with the next word. -/
theorem C94_gen_prime_first (bld : Build) (b : ℕ) (hb : PrimWidth b) (hN : TestExactBelow bld (2 ^ b)) (src : RandSource)
    (bits k p : ℕ) (h0 : 0 < bits) (hbits : bits ≤ b)
    (hp : IsFirstPrime ((src.value k % 2 ^ b / 2 ^ (b - bits)) ||| 1) p) (hpb : p < 2 ^ b)
    (hbad : ¬ NextPanics bld ((src.value k % 2 ^ b / 2 ^ (b - bits)) ||| 1)) :
    ∃ F, ∀ fuel, F ≤ fuel → genPrimePrim bld src b fuel bits k = .ok (p, k + 1) := by
  have hgt : ¬ bits > b := by omega
  simp only [genPrimePrim, hgt, if_false]
  exact genLoop_first hb hN (drawBits_eq h0 hbits _) hp hpb hbad

/-- **C94** the same for `gen_prime_exact`, which also sets the leading bit -/
theorem C94_gen_prime_exact_first (bld : Build) (b : ℕ) (hb : PrimWidth b) (hN : TestExactBelow bld (2 ^ b)) (src : RandSource)
    (bits k p : ℕ) (h0 : 0 < bits) (hbits : bits ≤ b)
    (hp : IsFirstPrime ((src.value k % 2 ^ b / 2 ^ (b - bits)) ||| 1 ||| 2 ^ (bits - 1)) p) (hpb : p < 2 ^ b)
    (hbad : ¬ NextPanics bld ((src.value k % 2 ^ b / 2 ^ (b - bits)) ||| 1 ||| 2 ^ (bits - 1))) :
    ∃ F, ∀ fuel, F ≤ fuel → genPrimeExactPrim bld src b fuel bits k = .ok (p, k + 1) := by
  have hgt : ¬ bits > b := by omega
  simp only [genPrimeExactPrim, hgt, if_false]
  exact genLoop_first hb hN (drawExact_eq h0 hbits _) hp hpb hbad

/-- **C94** when the bit size is exceeded: the result of `gen_prime` is below `2^bits` exactly if there is a prime between the last
number drawn and `2^bits` -/
theorem C94_gen_prime_within_iff (bld : Build) (b : ℕ) (hb : PrimWidth b) (hN : TestExactBelow bld (2 ^ b)) (src : RandSource)
    (fuel bits k p k' : ℕ) (h : genPrimePrim bld src b fuel bits k = .ok (p, k')) :
    k < k' ∧ IsFirstPrime ((src.value (k' - 1) % 2 ^ b / 2 ^ (b - bits)) ||| 1) p ∧
      (p < 2 ^ bits ↔ ∃ q, q.Prime ∧ q < 2 ^ bits ∧ (src.value (k' - 1) % 2 ^ b / 2 ^ (b - bits)) ||| 1 ≤ q) := by
  have hpr : p.Prime := by
    obtain ⟨h1, h2⟩ := C59_gen_prime_prim bld src b hb fuel bits k p k' (Or.inl h)
    exact hN.2 p h1 h2
  obtain ⟨h1, h2⟩ := not_gt_of_ok h
  obtain ⟨j, t, a1, a2, a3, a4, _, a6⟩ := primLoop_contract hb (drawBits_fits h1) h2
  obtain ⟨h0, _, _⟩ := drawBits_ok h1 a3
  rw [drawBits_eq h0 h1] at a3
  injection a3 with a3
  have hj : k' - 1 = j := by omega
  rw [hj, a3]
  exact ⟨by omega, ⟨⟨hpr, a4⟩, fun q hq => a6 q hq.1 hq.2⟩, fun h => ⟨p, hpr, h, a4⟩, fun ⟨q, q1, q2, q3⟩ => lt_of_le_of_lt (a6 q q1 q3) q2⟩

/-- **C94** the same for `gen_prime_exact` -/
theorem C94_gen_prime_exact_within_iff (bld : Build) (b : ℕ) (hb : PrimWidth b) (hN : TestExactBelow bld (2 ^ b)) (src : RandSource)
    (fuel bits k p k' : ℕ) (h : genPrimeExactPrim bld src b fuel bits k = .ok (p, k')) :
    k < k' ∧ IsFirstPrime ((src.value (k' - 1) % 2 ^ b / 2 ^ (b - bits)) ||| 1 ||| 2 ^ (bits - 1)) p ∧
      (p < 2 ^ bits ↔
        ∃ q, q.Prime ∧ q < 2 ^ bits ∧ (src.value (k' - 1) % 2 ^ b / 2 ^ (b - bits)) ||| 1 ||| 2 ^ (bits - 1) ≤ q) := by
  have hpr : p.Prime := by
    obtain ⟨h1, h2⟩ := C59_gen_prime_prim bld src b hb fuel bits k p k' (Or.inr h)
    exact hN.2 p h1 h2
  obtain ⟨h1, h2⟩ := not_gt_of_ok h
  obtain ⟨j, t, a1, a2, a3, a4, _, a6⟩ := primLoop_contract hb (drawExact_fits h1) h2
  obtain ⟨h0, _, _⟩ := drawExact_ok h1 a3
  rw [drawExact_eq h0 h1] at a3
  injection a3 with a3
  have hj : k' - 1 = j := by omega
  rw [hj, a3]
  exact ⟨by omega, ⟨⟨hpr, a4⟩, fun q hq => a6 q hq.1 hq.2⟩, fun h => ⟨p, hpr, h, a4⟩, fun ⟨q, q1, q2, q3⟩ => lt_of_le_of_lt (a6 q q1 q3) q2⟩

/-! ## the distribution -/

namespace Spec

/-- the generator returns `p` from the first word if that word is `v` -/
def Yields (gen : RandSource → ℕ → ℕ → Res (ℕ × ℕ)) (v p : ℕ) : Prop :=
  ∀ (src : RandSource) (k : ℕ), src.value k = v → ∃ F, ∀ fuel, F ≤ fuel → gen src fuel k = .ok (p, k + 1)

end Spec

theorem isFirstPrime_iff {t p q : ℕ} (hp : p.Prime) (hq : IsPrevPrime p q) : IsFirstPrime t p ↔ q < t ∧ t ≤ p := by
  constructor
  · rintro ⟨⟨-, h2⟩, h3⟩
    refine ⟨?_, h2⟩
    by_contra hc
    have := h3 ⟨hq.1.1, (by omega : t ≤ q)⟩
    have := hq.1.2
    omega
  · rintro ⟨h1, h2⟩
    refine ⟨⟨hp, h2⟩, fun r hr => ?_⟩
    by_contra hc
    have := hq.2 ⟨hr.1, (by omega : r < p)⟩
    have := hr.2
    omega

theorem not_nextPanics {bld : Build} {t p : ℕ} (hp : IsFirstPrime t p) (hbad : ¬ (bld = .small ∧ p = 257)) : ¬ NextPanics bld t := by
  rintro ⟨c1, c2, c3⟩
  have hp' : p ≤ 257 := hp.2 ⟨by norm_num, by omega⟩
  have hne : p ≠ 257 := fun e => hbad ⟨c1, e⟩
  have h1 := hp.1.2
  have h2 := hp.1.1
  have : 252 ≤ p := by omega
  have : p ≤ 256 := by omega
  interval_cases p <;> revert h2 <;> norm_num

theorem odd_of_prev {p q : ℕ} (hp : p.Prime) (h3 : 3 < p) (hq : IsPrevPrime p q) : p % 2 = 1 ∧ q % 2 = 1 := by
  have h1 : 3 ≤ q := hq.2 ⟨Nat.prime_three, h3⟩
  exact ⟨hp.eq_two_or_odd.resolve_left (by omega), hq.1.1.eq_two_or_odd.resolve_left (by omega)⟩

open scoped Classical in
/-- counting the words, for any outcome that depends on the leading bits made odd as stated in `key` -/
theorem card_leading {b bits p q : ℕ} {Y : ℕ → Prop} (hbits : bits ≤ b) (hp : p.Prime) (h3 : 3 < p) (hlt : p < 2 ^ bits)
    (hq : IsPrevPrime p q) (key : ∀ v < 2 ^ b, Y v ↔
      q < (v % 2 ^ b / 2 ^ (b - bits)) ||| 1 ∧ (v % 2 ^ b / 2 ^ (b - bits)) ||| 1 ≤ p) :
    {v ∈ Finset.range (2 ^ b) | Y v}.card = (p - q) * 2 ^ (b - bits) := by
  obtain ⟨ho1, ho2⟩ := odd_of_prev hp h3 hq
  have hs : 0 < 2 ^ (b - bits) := Nat.two_pow_pos _
  have hb2 : 2 ^ bits * 2 ^ (b - bits) = 2 ^ b := by rw [← pow_add]; congr 1; omega
  have hqp := hq.1.2
  have hset : {v ∈ Finset.range (2 ^ b) | Y v} =
      Finset.Ico ((q + 1) * 2 ^ (b - bits)) ((p + 1) * 2 ^ (b - bits)) := by
    ext v
    have hle : (p + 1) * 2 ^ (b - bits) ≤ 2 ^ b := by rw [← hb2]; exact Nat.mul_le_mul_right _ hlt
    simp only [Finset.mem_filter, Finset.mem_range, Finset.mem_Ico]
    rw [← Nat.le_div_iff_mul_le hs, ← Nat.div_lt_iff_lt_mul hs]
    constructor
    · rintro ⟨h1, h2⟩
      have := (key v h1).mp h2
      rw [or_one_eq, Nat.mod_eq_of_lt h1] at this
      omega
    · rintro ⟨h1, h2⟩
      have hv : v < 2 ^ b := lt_of_lt_of_le ((Nat.div_lt_iff_lt_mul hs).mp h2) hle
      refine ⟨hv, (key v hv).mpr ?_⟩
      rw [or_one_eq, Nat.mod_eq_of_lt hv]
      omega
  rw [hset, Nat.card_Ico, ← Nat.sub_mul]
  congr 1
  omega

open scoped Classical in
/-- **C94** the primes are not equally likely: `gen_prime(bits)` returns a prime `p > 3` below `2^bits` for exactly
`(p - q) * 2^(BITS - bits)` of the `2^BITS` random words, where `q` is the prime before `p` -/
theorem C94_gen_prime_words (bld : Build) (b : ℕ) (hb : PrimWidth b) (hN : TestExactBelow bld (2 ^ b)) (bits p q : ℕ)
    (h0 : 0 < bits) (hbits : bits ≤ b) (hp : p.Prime) (h3 : 3 < p) (hlt : p < 2 ^ bits) (hq : IsPrevPrime p q)
    (hbad : ¬ (bld = .small ∧ p = 257)) :
    {v ∈ Finset.range (2 ^ b) | Yields (fun src fuel k => genPrimePrim bld src b fuel bits k) v p}.card = (p - q) * 2 ^ (b - bits) := by
  have hpb : p < 2 ^ b := lt_of_lt_of_le hlt (Nat.pow_le_pow_right (by norm_num) hbits)
  have hqp := hq.1.2
  have key : ∀ v < 2 ^ b, Yields (fun src fuel k => genPrimePrim bld src b fuel bits k) v p ↔
      q < (v % 2 ^ b / 2 ^ (b - bits)) ||| 1 ∧ (v % 2 ^ b / 2 ^ (b - bits)) ||| 1 ≤ p := by
    intro v hv
    constructor
    · intro h
      obtain ⟨F, hF⟩ := h ⟨fun _ => v, fun _ _ => []⟩ 0 rfl
      have := (C94_gen_prime_within_iff bld b hb hN _ _ _ _ _ _ (hF F le_rfl)).2.1
      exact (isFirstPrime_iff hp hq).mp this
    · rintro h src k rfl
      exact C94_gen_prime_first bld b hb hN src bits k p h0 hbits ((isFirstPrime_iff hp hq).mpr h) hpb
        (not_nextPanics ((isFirstPrime_iff hp hq).mpr h) hbad)
  exact card_leading hbits hp h3 hlt hq key

theorem or_lead {h t : ℕ} (n : ℕ) (hh : h = 2 ^ n) (ht : t < 2 * h) : t ||| h = h + t % h := by
  subst hh
  have hm : t % 2 ^ n < 2 ^ n := Nat.mod_lt _ (Nat.two_pow_pos _)
  have h1 := Nat.two_pow_add_eq_or_of_lt hm 1
  rw [mul_one] at h1
  rw [h1]
  apply Nat.eq_of_testBit_eq
  intro i
  simp only [Nat.testBit_or, Nat.testBit_two_pow, Nat.testBit_mod_two_pow]
  by_cases hi : n = i
  · simp [hi]
  · by_cases hlt : i < n
    · simp [hi, hlt]
    · have : t.testBit i = false := Nat.testBit_lt_two_pow (lt_of_lt_of_le ht (by
        rw [← pow_succ']; exact Nat.pow_le_pow_right (by norm_num) (by omega)))
      simp [hi, this]

open scoped Classical in
theorem card_leading_exact {b bits p q : ℕ} {Y : ℕ → Prop} (hbits : bits ≤ b) (hp : p.Prime) (h3 : 3 < p) (hlt : p < 2 ^ bits)
    (hq : IsPrevPrime p q) (key : ∀ v < 2 ^ b, Y v ↔ q < (v % 2 ^ b / 2 ^ (b - bits)) ||| 1 ||| 2 ^ (bits - 1) ∧
      (v % 2 ^ b / 2 ^ (b - bits)) ||| 1 ||| 2 ^ (bits - 1) ≤ p) :
    {v ∈ Finset.range (2 ^ b) | Y v}.card = 2 * (p - max q (2 ^ (bits - 1) - 1)) * 2 ^ (b - bits) := by
  obtain ⟨ho1, ho2⟩ := odd_of_prev hp h3 hq
  have hb3 : 2 < bits := by
    by_contra hc
    have : 2 ^ bits ≤ 2 ^ 2 := Nat.pow_le_pow_right (by norm_num) (by omega)
    omega
  have h0 : 0 < bits := by omega
  have hpb : p < 2 ^ b := lt_of_lt_of_le hlt (Nat.pow_le_pow_right (by norm_num) hbits)
  have hs : 0 < 2 ^ (b - bits) := Nat.two_pow_pos _
  have hb2 : 2 ^ bits * 2 ^ (b - bits) = 2 ^ b := by rw [← pow_add]; congr 1; omega
  have hh2 : 2 ^ bits = 2 * 2 ^ (bits - 1) := by rw [← pow_succ']; congr 1; omega
  have hev : 2 ^ (bits - 1) % 2 = 0 := by
    rw [show bits - 1 = (bits - 2) + 1 by omega, pow_succ]; simp
  have hqp := hq.1.2
  generalize hS : 2 ^ (b - bits) = S at *
  generalize hH : 2 ^ (bits - 1) = h at *
  have hmk : ∀ v < 2 ^ b, (v % 2 ^ b / S) ||| 1 ||| h = h + 2 * (v / S % h / 2) + 1 := by
    intro v hv
    have hw : v / S < 2 * h := by
      rw [Nat.div_lt_iff_lt_mul hs, ← hh2, hb2]; exact hv
    rw [Nat.mod_eq_of_lt hv, or_one_eq, or_lead (bits - 1) hH.symm (by omega)]
    have e1 : (2 * (v / S / 2) + 1) % h = 2 * (v / S % h / 2) + 1 := by
      rcases Nat.lt_or_ge (v / S) h with hl | hl
      · rw [Nat.mod_eq_of_lt hl, Nat.mod_eq_of_lt (by omega)]
      · rw [Nat.mod_eq_sub_mod hl, Nat.mod_eq_of_lt (show v / S - h < h by omega),
          Nat.mod_eq_sub_mod (by omega), Nat.mod_eq_of_lt (by omega)]
        omega
    rw [e1]; omega
  have hset : {v ∈ Finset.range (2 ^ b) | Y v} =
      Finset.Ico ((max q (h - 1) + 1 - h) * S) ((p + 1 - h) * S) ∪ Finset.Ico ((max q (h - 1) + 1) * S) ((max (p + 1) h) * S) := by
    ext v
    have hle : (max (p + 1) h) * S ≤ 2 ^ b := by rw [← hb2]; exact Nat.mul_le_mul_right _ (by omega)
    have hle2 : (p + 1 - h) * S ≤ 2 ^ b := by rw [← hb2]; exact Nat.mul_le_mul_right _ (by omega)
    simp only [Finset.mem_filter, Finset.mem_range, Finset.mem_union, Finset.mem_Ico]
    rw [← Nat.le_div_iff_mul_le hs, ← Nat.div_lt_iff_lt_mul hs, ← Nat.le_div_iff_mul_le hs, ← Nat.div_lt_iff_lt_mul hs]
    have main : ∀ v < 2 ^ b, (Y v ↔
        (max q (h - 1) + 1 - h ≤ v / S ∧ v / S < p + 1 - h ∨ max q (h - 1) + 1 ≤ v / S ∧ v / S < max (p + 1) h)) := by
      intro v hv
      have hw : v / S < 2 * h := by
        rw [Nat.div_lt_iff_lt_mul hs, ← hh2, hb2]; exact hv
      rw [key v hv, hmk v hv]
      generalize v / S = t at *
      rcases Nat.lt_or_ge t h with hl | hl
      · rw [Nat.mod_eq_of_lt hl]; omega
      · rw [Nat.mod_eq_sub_mod hl, Nat.mod_eq_of_lt (show t - h < h by omega)]; omega
    constructor
    · rintro ⟨h1, h2⟩; exact (main v h1).mp h2
    · intro hd
      have hv : v < 2 ^ b := by
        rcases hd with hd | hd
        · exact lt_of_lt_of_le ((Nat.div_lt_iff_lt_mul hs).mp hd.2) hle2
        · exact lt_of_lt_of_le ((Nat.div_lt_iff_lt_mul hs).mp hd.2) hle
      exact ⟨hv, (main v hv).mpr hd⟩
  rw [hset, Finset.card_union_of_disjoint, Nat.card_Ico, Nat.card_Ico, ← Nat.sub_mul, ← Nat.sub_mul, ← Nat.add_mul]
  · congr 1; omega
  · rw [Finset.disjoint_left]
    intro v h1 h2
    simp only [Finset.mem_Ico] at h1 h2
    rw [← Nat.le_div_iff_mul_le hs, ← Nat.div_lt_iff_lt_mul hs] at h1 h2
    omega

open scoped Classical in
/-- **C94** `gen_prime_exact(bits)` returns a prime `p > 3` below `2^bits` for exactly `2 * (p - q') * 2^(BITS - bits)` of the random
words, where `q'` is the larger of the prime before `p` and `2^(bits-1) - 1` -/
theorem C94_gen_prime_exact_words (bld : Build) (b : ℕ) (hb : PrimWidth b) (hN : TestExactBelow bld (2 ^ b)) (bits p q : ℕ)
    (hbits : bits ≤ b) (hp : p.Prime) (h3 : 3 < p) (hlt : p < 2 ^ bits) (hq : IsPrevPrime p q) (hbad : ¬ (bld = .small ∧ p = 257)) :
    {v ∈ Finset.range (2 ^ b) | Yields (fun src fuel k => genPrimeExactPrim bld src b fuel bits k) v p}.card =
      2 * (p - max q (2 ^ (bits - 1) - 1)) * 2 ^ (b - bits) := by
  have hb3 : 2 < bits := by
    by_contra hc
    have : 2 ^ bits ≤ 2 ^ 2 := Nat.pow_le_pow_right (by norm_num) (by omega)
    omega
  have h0 : 0 < bits := by omega
  have hpb : p < 2 ^ b := lt_of_lt_of_le hlt (Nat.pow_le_pow_right (by norm_num) hbits)
  have hqp := hq.1.2
  have key : ∀ v < 2 ^ b, Yields (fun src fuel k => genPrimeExactPrim bld src b fuel bits k) v p ↔
      q < (v % 2 ^ b / 2 ^ (b - bits)) ||| 1 ||| 2 ^ (bits - 1) ∧ (v % 2 ^ b / 2 ^ (b - bits)) ||| 1 ||| 2 ^ (bits - 1) ≤ p := by
    intro v hv
    constructor
    · intro h
      obtain ⟨F, hF⟩ := h ⟨fun _ => v, fun _ _ => []⟩ 0 rfl
      have := (C94_gen_prime_exact_within_iff bld b hb hN _ _ _ _ _ _ (hF F le_rfl)).2.1
      exact (isFirstPrime_iff hp hq).mp this
    · rintro h src k rfl
      exact C94_gen_prime_exact_first bld b hb hN src bits k p h0 hbits ((isFirstPrime_iff hp hq).mpr h) hpb
        (not_nextPanics ((isFirstPrime_iff hp hq).mpr h) hbad)
  exact card_leading_exact hbits hp h3 hlt hq key

/-! ### concrete cases -/

theorem prev_113_109 : IsPrevPrime 113 109 := by
  refine ⟨⟨by norm_num, by norm_num⟩, fun q hq => ?_⟩
  by_contra hc
  have h1 : 110 ≤ q := by omega
  have h2 : q ≤ 112 := by have := hq.2; omega
  interval_cases q <;> exact absurd hq.1 (by norm_num)

theorem prev_127_113 : IsPrevPrime 127 113 := by
  refine ⟨⟨by norm_num, by norm_num⟩, fun q hq => ?_⟩
  by_contra hc
  have h1 : 114 ≤ q := by omega
  have h2 : q ≤ 126 := by have := hq.2; omega
  interval_cases q <;> exact absurd hq.1 (by norm_num)

open scoped Classical in
/-- of the 256 words of a `u8` generator 28 lead to `127` but only 8 to `113` when a 7 bit prime is asked for -/
example (bld : Build) :
    {v ∈ Finset.range (2 ^ 8) | Yields (fun src fuel k => genPrimePrim bld src 8 fuel 7 k) v 127}.card = 28 ∧
    {v ∈ Finset.range (2 ^ 8) | Yields (fun src fuel k => genPrimePrim bld src 8 fuel 7 k) v 113}.card = 8 := by
  have hN : TestExactBelow bld (2 ^ 8) := ⟨by norm_num, fun p hp => (testExact_u16 bld).2 p (by omega)⟩
  exact ⟨C94_gen_prime_words bld 8 (Or.inl rfl) hN 7 127 113 (by norm_num) (by norm_num) (by norm_num) (by norm_num) (by norm_num)
      prev_127_113 (by norm_num),
    C94_gen_prime_words bld 8 (Or.inl rfl) hN 7 113 109 (by norm_num) (by norm_num) (by norm_num) (by norm_num) (by norm_num)
      prev_113_109 (by norm_num)⟩

open scoped Classical in
example (bld : Build) :
    {v ∈ Finset.range (2 ^ 16) | Yields (fun src fuel k => genPrimeExactPrim bld src 16 fuel 7 k) v 127}.card = 2 * 14 * 2 ^ 9 :=
  C94_gen_prime_exact_words bld 16 (Or.inr (Or.inl rfl)) (testExact_u16 bld) 7 127 113 (by norm_num) (by norm_num) (by norm_num)
    (by norm_num) prev_127_113 (by norm_num)

end NumPrime
