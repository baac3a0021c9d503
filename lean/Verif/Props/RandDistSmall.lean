import Verif.Props.RandDistWide

/-! # C94: the primes left out of the count, 2 and 3, and 257 without big tables -/

namespace NumPrime
open Spec Tables

/-- the generators return a prime of a machine type exactly from the words whose number has it as first prime and on which `next_prime`
does not panic -/
theorem yields_prim_iff {bld : Build} {b : ℕ} (hb : PrimWidth b) (hN : TestExactBelow bld (2 ^ b)) {mk : RandSource → ℕ → Res ℕ}
    {v t p : ℕ} (hmk : ∀ src k, src.value k = v → mk src k = .ok t) (ht : t < 2 ^ b) (hp : p.Prime) (hpb : p < 2 ^ b) :
    Yields (fun src fuel k => genLoop (mk src) (fun _ t => .ok (isPrime64 bld t))
      (fun k t => nextPrime bld (some b) t none (src.draws k) fuel) fuel k) v p ↔ IsFirstPrime t p ∧ ¬ NextPanics bld t := by
  constructor
  · intro h
    obtain ⟨F, hF⟩ := h ⟨fun _ => v, fun _ _ => []⟩ 0 rfl
    refine ⟨genLoop_first_conv (next := fun fuel k t => nextPrime bld (some b) t none (fun _ => []) fuel) hb hN
      (Or.inr ⟨b, b, rfl, rfl, le_rfl⟩) (hmk ⟨fun _ => v, fun _ _ => []⟩ 0 rfl) rfl (fun _ => rfl) hp hpb hF, ?_⟩
    rintro ⟨rfl, c2, c3⟩
    obtain ⟨j, s, h1, h2, h3, h4⟩ := genLoop_spec _ _ _ _ (hF F le_rfl)
    obtain rfl : j = 0 := by omega
    rw [hmk ⟨fun _ => v, fun _ _ => []⟩ 0 rfl] at h3
    injection h3 with h3
    subst h3
    rcases h4 with ⟨h4, h5⟩ | ⟨h4, h5⟩
    · injection h4 with h4
      have := hN.2 t ht h4
      interval_cases t <;> revert this <;> norm_num
    · rw [C21_next_prime_panics _ t c2 c3] at h5
      simp at h5
  · rintro ⟨h, hbad⟩ src k hv
    exact genLoop_first hb hN (hmk src k hv) h hpb hbad

theorem yields_wide_iff {bld : Build} {b : ℕ} (hb : PrimWidth b) (hN : TestExactBelow bld (2 ^ b)) {w : Width} (hw : Wider (some b) w)
    {config : Option PrimalityTestConfig} {mk : RandSource → ℕ → Res ℕ} {test : RandSource → ℕ → ℕ → Res Bool} {v t p : ℕ}
    (hmk : ∀ src k, src.value k = v → mk src k = .ok t) (htest : ∀ src k, test src k t = .ok (isPrime64 bld t))
    (ht : t < 2 ^ b) (hp : p.Prime) (hpb : p < 2 ^ b) :
    Yields (fun src fuel k => genLoop (mk src) (test src) (fun k t => nextPrime bld w t config (src.draws k) fuel) fuel k) v p ↔
      IsFirstPrime t p ∧ ¬ NextPanics bld t := by
  constructor
  · intro h
    obtain ⟨F, hF⟩ := h ⟨fun _ => v, fun _ _ => []⟩ 0 rfl
    refine ⟨genLoop_first_conv (next := fun fuel k t => nextPrime bld w t config (fun _ => []) fuel) hb hN hw
      (hmk ⟨fun _ => v, fun _ _ => []⟩ 0 rfl) (htest _ 0) (fun _ => rfl) hp hpb hF, ?_⟩
    rintro ⟨rfl, c2, c3⟩
    obtain ⟨j, s, h1, h2, h3, h4⟩ := genLoop_spec _ _ _ _ (hF F le_rfl)
    obtain rfl : j = 0 := by omega
    rw [hmk ⟨fun _ => v, fun _ _ => []⟩ 0 rfl] at h3
    injection h3 with h3
    subst h3
    rw [htest] at h4
    rcases h4 with ⟨h4, h5⟩ | ⟨h4, h5⟩
    · injection h4 with h4
      have := hN.2 t ht h4
      interval_cases t <;> revert this <;> norm_num
    · rw [C21_next_prime_panics _ t c2 c3] at h5
      simp at h5
  · rintro ⟨h, hbad⟩ src k hv
    exact genLoop_first_wide (next := fun fuel k t => nextPrime bld w t config (src.draws k) fuel) hb hN hw (hmk src k hv)
      (htest src k) (fun _ => rfl) h hpb hbad

/-- the odd number from which alone the primes 2, 3 and, without big tables, 257 are reached -/
theorem first_small {bld : Build} {t : ℕ} (ho : t % 2 = 1) : ((IsFirstPrime t 2 ∧ ¬ NextPanics bld t) ↔ t = 1) ∧
    ((IsFirstPrime t 3 ∧ ¬ NextPanics bld t) ↔ t = 3) ∧ (bld = .small → ((IsFirstPrime t 257 ∧ ¬ NextPanics bld t) ↔ t = 257)) := by
  refine ⟨⟨fun h => ?_, ?_⟩, ⟨fun h => ?_, ?_⟩, fun hs => ⟨fun h => ?_, ?_⟩⟩
  · have := h.1.1.2; omega
  · rintro rfl
    exact ⟨⟨⟨by norm_num, by norm_num⟩, fun q hq => hq.1.two_le⟩, fun h => by have := h.2.1; omega⟩
  · have h1 := h.1.1.2
    by_contra hc
    have := h.1.2 ⟨Nat.prime_two, by omega⟩
    omega
  · rintro rfl
    exact ⟨⟨⟨by norm_num, le_rfl⟩, fun q hq => hq.2⟩, fun h => by have := h.2.1; omega⟩
  · have h1 := h.1.1.2
    by_contra hc
    have : ¬ t ≤ 251 := fun h2 => by have := h.1.2 ⟨(by norm_num : Nat.Prime 251), h2⟩; omega
    exact h.2 ⟨hs, by omega, by omega⟩
  · rintro rfl
    exact ⟨⟨⟨by norm_num, le_rfl⟩, fun q hq => hq.2⟩, fun h => by have := h.2.2; omega⟩

open scoped Classical in
/-- one odd number comes from two numbers drawn -/
theorem card_one {B bits c : ℕ} {Y : ℕ → Prop} (hB : bits ≤ B) (ho : c % 2 = 1) (hc : c < 2 ^ bits)
    (key : ∀ v < 2 ^ B, Y v ↔ (v % 2 ^ B / 2 ^ (B - bits)) ||| 1 = c) :
    {v ∈ Finset.range (2 ^ B) | Y v}.card = 2 * 2 ^ (B - bits) := by
  have hs : 0 < 2 ^ (B - bits) := Nat.two_pow_pos _
  have hb2 : 2 ^ bits * 2 ^ (B - bits) = 2 ^ B := by rw [← pow_add]; congr 1; omega
  have hset : {v ∈ Finset.range (2 ^ B) | Y v} = Finset.Ico ((c - 1) * 2 ^ (B - bits)) ((c + 1) * 2 ^ (B - bits)) := by
    ext v
    have hle : (c + 1) * 2 ^ (B - bits) ≤ 2 ^ B := by rw [← hb2]; exact Nat.mul_le_mul_right _ hc
    simp only [Finset.mem_filter, Finset.mem_range, Finset.mem_Ico]
    rw [← Nat.le_div_iff_mul_le hs, ← Nat.div_lt_iff_lt_mul hs]
    constructor
    · rintro ⟨h1, h2⟩
      have := (key v h1).mp h2
      rw [or_one_eq, Nat.mod_eq_of_lt h1] at this
      omega
    · rintro ⟨h1, h2⟩
      have hv : v < 2 ^ B := lt_of_lt_of_le ((Nat.div_lt_iff_lt_mul hs).mp h2) hle
      refine ⟨hv, (key v hv).mpr ?_⟩
      rw [or_one_eq, Nat.mod_eq_of_lt hv]
      omega
  rw [hset, Nat.card_Ico, ← Nat.sub_mul]
  congr 1
  omega

namespace Spec

/-- the primes that are reached from one odd number only: 2 from 1, 3 from 3, and 257 from 257 if `next_prime` panics on 253 and 255 -/
def OneStart (bld : Build) (p c : ℕ) : Prop := (p = 2 ∧ c = 1) ∨ (p = 3 ∧ c = 3) ∨ (bld = .small ∧ p = 257 ∧ c = 257)

end Spec

theorem Spec.OneStart.iff {bld : Build} {p c t : ℕ} (h : OneStart bld p c) (ho : t % 2 = 1) : (IsFirstPrime t p ∧ ¬ NextPanics bld t) ↔ t = c := by
  obtain ⟨h1, h2, h3⟩ := first_small (bld := bld) ho
  rcases h with ⟨rfl, rfl⟩ | ⟨rfl, rfl⟩ | ⟨hs, rfl, rfl⟩
  · exact h1
  · exact h2
  · exact h3 hs

theorem Spec.OneStart.facts {bld : Build} {p c : ℕ} (h : OneStart bld p c) : p.Prime ∧ c % 2 = 1 ∧ c ≤ p := by
  rcases h with ⟨rfl, rfl⟩ | ⟨rfl, rfl⟩ | ⟨hs, rfl, rfl⟩ <;> norm_num

open scoped Classical in
/-- **C94** the primes 2 and 3, and 257 in a build without big tables: `gen_prime(bits)` returns each of them from exactly
`2 * 2^(BITS - bits)` of the random words (for 257 in place of the `6 * 2^(BITS - bits)` of a build with big tables) -/
theorem C94_gen_prime_words_small (bld : Build) (b : ℕ) (hb : PrimWidth b) (hN : TestExactBelow bld (2 ^ b)) (bits p c : ℕ)
    (h0 : 0 < bits) (hbits : bits ≤ b) (hp : OneStart bld p c) (hlt : p < 2 ^ bits) :
    {v ∈ Finset.range (2 ^ b) | Yields (fun src fuel k => genPrimePrim bld src b fuel bits k) v p}.card = 2 * 2 ^ (b - bits) := by
  have hgt : ¬ bits > b := by omega
  have hle : 2 ^ bits ≤ 2 ^ b := Nat.pow_le_pow_right (by norm_num) hbits
  obtain ⟨f1, f2, f3⟩ := hp.facts
  refine card_one hbits f2 (lt_of_le_of_lt f3 hlt) (fun v hv => ?_)
  simp only [genPrimePrim, hgt, if_false]
  rw [← hp.iff (lead_odd _)]
  exact yields_prim_iff (mk := fun src k => drawBits b bits (src.value k)) hb hN (fun src k h => by rw [h]; exact drawBits_eq h0 hbits _)
    (lt_of_lt_of_le (lead_lt h0 hbits) hle) f1 (lt_of_lt_of_le hlt hle)

open scoped Classical in
/-- **C94** the same for `u128` -/
theorem C94_gen_prime_words_small_u128 (bld : Build) (b : ℕ) (hb : PrimWidth b) (hN : TestExactBelow bld (2 ^ b))
    (config : Option PrimalityTestConfig) (bits p c : ℕ) (h0 : 0 < bits) (hbits : bits ≤ b) (hp : OneStart bld p c) (hlt : p < 2 ^ bits) :
    {v ∈ Finset.range (2 ^ 128) | Yields (fun src fuel k => genPrime128 bld src config fuel bits k) v p}.card = 2 * 2 ^ (128 - bits) := by
  have h64 : b ≤ 64 := hb.le
  have hgt : ¬ bits > 128 := by omega
  have hle : 2 ^ bits ≤ 2 ^ b := Nat.pow_le_pow_right (by norm_num) hbits
  obtain ⟨f1, f2, f3⟩ := hp.facts
  refine card_one (by omega) f2 (lt_of_le_of_lt f3 hlt) (fun v hv => ?_)
  simp only [genPrime128, hgt, if_false]
  rw [← hp.iff (lead_odd _)]
  have hl := lead_lt (v := v) (B := 128) h0 (by omega)
  exact yields_wide_iff (mk := fun src k => drawBits 128 bits (src.value k)) (test := fun src => testMint bld src config) hb hN (w := some 128)
    (Or.inr ⟨b, 128, rfl, rfl, by omega⟩) (fun src k h => by rw [h]; exact drawBits_eq h0 (by omega) _)
    (fun src k => testMint_below bld src config k _ (lead_odd _) (lt_of_lt_of_le hl (Nat.pow_le_pow_right (by norm_num) (by omega))))
    (lt_of_lt_of_le hl hle) f1 (lt_of_lt_of_le hlt hle)

open scoped Classical in
/-- **C94** and for `BigUint`: two of the `2^bits` numbers -/
theorem C94_gen_prime_words_small_big (bld : Build) (b : ℕ) (hb : PrimWidth b) (hN : TestExactBelow bld (2 ^ b))
    (config : Option PrimalityTestConfig) (bits p c : ℕ) (h0 : 0 < bits) (hbits : bits ≤ b) (hp : OneStart bld p c) (hlt : p < 2 ^ bits) :
    {v ∈ Finset.range (2 ^ bits) | Yields (fun src fuel k => genPrimeBig bld src config fuel bits k) v p}.card = 2 := by
  have h64 : b ≤ 64 := hb.le
  have hle : 2 ^ bits ≤ 2 ^ b := Nat.pow_le_pow_right (by norm_num) hbits
  obtain ⟨f1, f2, f3⟩ := hp.facts
  have hc := card_one (B := bits) (Y := fun v => Yields (fun src fuel k => genPrimeBig bld src config fuel bits k) v p) le_rfl f2
    (lt_of_le_of_lt f3 hlt) (fun v hv => ?_)
  · simpa using hc
  have ht : (v % 2 ^ bits / 2 ^ (bits - bits)) ||| 1 = (v % 2 ^ bits) ||| 1 := by simp
  have hl := lead_lt (v := v) h0 le_rfl
  rw [ht] at hl ⊢
  simp only [genPrimeBig]
  rw [← hp.iff (lead_odd _)]
  exact yields_wide_iff (mk := fun src k => .ok ((src.value k % 2 ^ bits) ||| 1)) (test := fun src => testPlain bld none src config) hb hN
    (w := none) (Or.inl rfl) (fun src k h => by rw [h])
    (fun src k => testPlain_below bld none src config k _ (lt_of_lt_of_le hl (Nat.pow_le_pow_right (by norm_num) (by omega))))
    (lt_of_lt_of_le hl hle) f1 (lt_of_lt_of_le hlt hle)

open scoped Classical in
/-- without big tables 257 comes from 2 of the 512 numbers below `2^9` -/
example (config : Option PrimalityTestConfig) :
    {v ∈ Finset.range (2 ^ 9) | Yields (fun src fuel k => genPrimeBig .small src config fuel 9 k) v 257}.card = 2 ∧
    {v ∈ Finset.range (2 ^ 16) | Yields (fun src fuel k => genPrimePrim .small src 16 fuel 9 k) v 3}.card = 2 ^ 8 ∧
    {v ∈ Finset.range (2 ^ 128) | Yields (fun src fuel k => genPrime128 .big src config fuel 9 k) v 2}.card = 2 * 2 ^ 119 :=
  ⟨C94_gen_prime_words_small_big .small 16 (Or.inr (Or.inl rfl)) (testExact_u16 _) config 9 257 257 (by norm_num) (by norm_num)
      (Or.inr (Or.inr ⟨rfl, rfl, rfl⟩)) (by norm_num),
    C94_gen_prime_words_small .small 16 (Or.inr (Or.inl rfl)) (testExact_u16 _) 9 3 3 (by norm_num) (by norm_num)
      (Or.inr (Or.inl ⟨rfl, rfl⟩)) (by norm_num),
    C94_gen_prime_words_small_u128 .big 16 (Or.inr (Or.inl rfl)) (testExact_u16 _) config 9 2 1 (by norm_num) (by norm_num)
      (Or.inl ⟨rfl, rfl⟩) (by norm_num)⟩

/-! ## how often the bit size is exceeded -/

theorem yields_unique {gen : RandSource → ℕ → ℕ → Res (ℕ × ℕ)} {v p p' : ℕ} (h : Yields gen v p) (h' : Yields gen v p') : p = p' := by
  obtain ⟨F, hF⟩ := h ⟨fun _ => v, fun _ _ => []⟩ 0 rfl
  obtain ⟨F', hF'⟩ := h' ⟨fun _ => v, fun _ _ => []⟩ 0 rfl
  have e := (hF (max F F') (le_max_left _ _)).symm.trans (hF' (max F F') (le_max_right _ _))
  injection e with e
  injection e with e1 e2

theorem not_yields_panics {bld : Build} {w : Width} {config : Option PrimalityTestConfig} {mk : RandSource → ℕ → Res ℕ}
    {test : RandSource → ℕ → ℕ → Res Bool} {v t p : ℕ} (hmk : ∀ src k, src.value k = v → mk src k = .ok t)
    (htest : ∀ src k, test src k t = .ok (isPrime64 bld t)) (hpan : NextPanics bld t) :
    ¬ Yields (fun src fuel k => genLoop (mk src) (test src) (fun k t => nextPrime bld w t config (src.draws k) fuel) fuel k) v p := by
  intro h
  obtain ⟨F, hF⟩ := h ⟨fun _ => v, fun _ _ => []⟩ 0 rfl
  obtain ⟨rfl, c2, c3⟩ := hpan
  obtain ⟨j, s, h1, h2, h3, h4⟩ := genLoop_spec _ _ _ _ (hF F le_rfl)
  obtain rfl : j = 0 := by omega
  rw [hmk ⟨fun _ => v, fun _ _ => []⟩ 0 rfl] at h3
  injection h3 with h3
  subst h3
  rw [htest] at h4
  rcases h4 with ⟨h4, h5⟩ | ⟨h4, h5⟩
  · injection h4 with h4
    have := (testExact_u16 .small).2 t (by omega) h4
    interval_cases t <;> revert this <;> norm_num
  · rw [C21_next_prime_panics _ t c2 c3] at h5
    simp at h5

theorem exists_first (t : ℕ) : ∃ p, IsFirstPrime t p := by
  classical
  have hex : ∃ q, q.Prime ∧ t ≤ q := by
    obtain ⟨p, h1, h2⟩ := Nat.exists_infinite_primes t
    exact ⟨p, h2, h1⟩
  exact ⟨Nat.find hex, Nat.find_spec hex, fun q hq => Nat.find_min' hex hq⟩

theorem over_iff {bld : Build} {b bits q : ℕ} {gen : RandSource → ℕ → ℕ → Res (ℕ × ℕ)} (hbits : bits < b)
    (hq : IsPrevPrime (2 ^ bits) q) (h8 : ¬ (bld = .small ∧ bits = 8)) {v t : ℕ} (hl : t < 2 ^ bits)
    (hy : ∀ p, IsFirstPrime t p → p < 2 ^ b → ¬ NextPanics bld t → Yields gen v p)
    (hn : ∀ p, NextPanics bld t → ¬ Yields gen v p) : (∃ p, 2 ^ bits ≤ p ∧ Yields gen v p) ↔ q < t := by
  have hqlt := hq.1.2
  have hq2 := hq.1.1.two_le
  have hnext : 2 ^ bits * 2 ≤ 2 ^ b := by rw [← pow_succ]; exact Nat.pow_le_pow_right (by norm_num) hbits
  obtain ⟨r, hr⟩ := exists_first t
  have hrb : r < 2 ^ b := by
    obtain ⟨p, h1, h2, h3⟩ := Nat.exists_prime_lt_and_le_two_mul (2 ^ bits - 1) (by omega)
    have := hr.2 ⟨h1, by omega⟩
    omega
  constructor
  · rintro ⟨p, h1, h2⟩
    by_contra hc
    have hrq : r ≤ q := hr.2 ⟨hq.1.1, by omega⟩
    by_cases hp : NextPanics bld t
    · exact hn p hp h2
    · have := yields_unique h2 (hy r hr hrb hp)
      omega
  · intro h
    have hbig : 2 ^ bits ≤ r := by
      by_contra hc
      have := hq.2 ⟨hr.1.1, by omega⟩
      have := hr.1.2
      omega
    refine ⟨r, hbig, hy r hr hrb ?_⟩
    rintro ⟨c1, c2, c3⟩
    have hb9 : bits = 8 := by
      rcases Nat.lt_or_ge bits 8 with hlt | hge
      · have : 2 ^ bits ≤ 2 ^ 7 := Nat.pow_le_pow_right (by norm_num) (by omega)
        omega
      · by_contra hne
        have : 2 ^ 9 ≤ 2 ^ bits := Nat.pow_le_pow_right (by norm_num) (by omega)
        have := hq.2 ⟨(by norm_num : Nat.Prime 257), by omega⟩
        omega
    exact h8 ⟨c1, hb9⟩

open scoped Classical in
theorem card_over {bld : Build} {B b bits q : ℕ} {gen : RandSource → ℕ → ℕ → Res (ℕ × ℕ)} (hB : bits ≤ B) (hbits : bits < b)
    (hq : IsPrevPrime (2 ^ bits) q) (h8 : ¬ (bld = .small ∧ bits = 8))
    (hy : ∀ v p, IsFirstPrime ((v % 2 ^ B / 2 ^ (B - bits)) ||| 1) p → p < 2 ^ b →
      ¬ NextPanics bld ((v % 2 ^ B / 2 ^ (B - bits)) ||| 1) → Yields gen v p)
    (hn : ∀ v p, NextPanics bld ((v % 2 ^ B / 2 ^ (B - bits)) ||| 1) → ¬ Yields gen v p) :
    {v ∈ Finset.range (2 ^ B) | ∃ p, 2 ^ bits ≤ p ∧ Yields gen v p}.card = (2 ^ bits - 1 - q) * 2 ^ (B - bits) := by
  have hs : 0 < 2 ^ (B - bits) := Nat.two_pow_pos _
  have hb2 : 2 ^ bits * 2 ^ (B - bits) = 2 ^ B := by rw [← pow_add]; congr 1; omega
  have hqlt := hq.1.2
  have hq2 := hq.1.1.two_le
  have h0 : 2 ≤ bits := by
    by_contra hc
    have : 2 ^ bits ≤ 2 ^ 1 := Nat.pow_le_pow_right (by norm_num) (by omega)
    omega
  have hq3 : 3 ≤ q := by
    have : 2 ^ 2 ≤ 2 ^ bits := Nat.pow_le_pow_right (by norm_num) h0
    exact hq.2 ⟨Nat.prime_three, by omega⟩
  have ho : q % 2 = 1 := hq.1.1.eq_two_or_odd.resolve_left (by omega)
  have key : ∀ v, (∃ p, 2 ^ bits ≤ p ∧ Yields gen v p) ↔ q < (v % 2 ^ B / 2 ^ (B - bits)) ||| 1 := fun v =>
    over_iff hbits hq h8 (lead_lt (by omega : 0 < bits) hB) (hy v) (hn v)
  have hset : {v ∈ Finset.range (2 ^ B) | ∃ p, 2 ^ bits ≤ p ∧ Yields gen v p} = Finset.Ico ((q + 1) * 2 ^ (B - bits)) (2 ^ B) := by
    ext v
    simp only [Finset.mem_filter, Finset.mem_range, Finset.mem_Ico]
    rw [← Nat.le_div_iff_mul_le hs, key v, and_comm]
    refine and_congr_left fun hv => ?_
    rw [or_one_eq, Nat.mod_eq_of_lt hv]
    omega
  rw [hset, Nat.card_Ico, ← hb2, ← Nat.sub_mul]
  congr 1
  omega

open scoped Classical in
theorem card_over_exact {bld : Build} {B b bits q : ℕ} {gen : RandSource → ℕ → ℕ → Res (ℕ × ℕ)} (hB : bits ≤ B) (hbits : bits < b)
    (hq : IsPrevPrime (2 ^ bits) q) (h8 : ¬ (bld = .small ∧ bits = 8))
    (hy : ∀ v p, IsFirstPrime ((v % 2 ^ B / 2 ^ (B - bits)) ||| 1 ||| 2 ^ (bits - 1)) p → p < 2 ^ b →
      ¬ NextPanics bld ((v % 2 ^ B / 2 ^ (B - bits)) ||| 1 ||| 2 ^ (bits - 1)) → Yields gen v p)
    (hn : ∀ v p, NextPanics bld ((v % 2 ^ B / 2 ^ (B - bits)) ||| 1 ||| 2 ^ (bits - 1)) → ¬ Yields gen v p) :
    {v ∈ Finset.range (2 ^ B) | ∃ p, 2 ^ bits ≤ p ∧ Yields gen v p}.card = 2 * (2 ^ bits - 1 - q) * 2 ^ (B - bits) := by
  have hs : 0 < 2 ^ (B - bits) := Nat.two_pow_pos _
  have hb2 : 2 ^ bits * 2 ^ (B - bits) = 2 ^ B := by rw [← pow_add]; congr 1; omega
  have hqlt := hq.1.2
  have hq2 := hq.1.1.two_le
  have h0 : 2 ≤ bits := by
    by_contra hc
    have : 2 ^ bits ≤ 2 ^ 1 := Nat.pow_le_pow_right (by norm_num) (by omega)
    omega
  have hq3 : 3 ≤ q := by
    have : 2 ^ 2 ≤ 2 ^ bits := Nat.pow_le_pow_right (by norm_num) h0
    exact hq.2 ⟨Nat.prime_three, by omega⟩
  have ho : q % 2 = 1 := hq.1.1.eq_two_or_odd.resolve_left (by omega)
  have key : ∀ v, (∃ p, 2 ^ bits ≤ p ∧ Yields gen v p) ↔ q < (v % 2 ^ B / 2 ^ (B - bits)) ||| 1 ||| 2 ^ (bits - 1) := fun v =>
    over_iff hbits hq h8 (lead_exact_lt (by omega : 0 < bits) hB) (hy v) (hn v)
  have hh2 : 2 ^ bits = 2 * 2 ^ (bits - 1) := by rw [← pow_succ']; congr 1; omega
  have hev : 2 ^ (bits - 1) % 2 = 0 := by
    rw [show bits - 1 = (bits - 2) + 1 by omega, pow_succ]; simp
  have hqh : 2 ^ (bits - 1) < q := by
    obtain ⟨p, h1, h2, h3⟩ := Nat.exists_prime_lt_and_le_two_mul (2 ^ (bits - 1)) (by positivity)
    have hne : p ≠ 2 ^ bits := by
      rintro rfl
      have := h1.eq_two_or_odd
      omega
    have := hq.2 ⟨h1, by omega⟩
    omega
  generalize hS : 2 ^ (B - bits) = S at *
  generalize hH : 2 ^ (bits - 1) = h at *
  have hmk : ∀ v < 2 ^ B, (v % 2 ^ B / S) ||| 1 ||| h = h + 2 * (v / S % h / 2) + 1 := by
    intro v hv
    have hw : v / S < 2 * h := by
      rw [Nat.div_lt_iff_lt_mul hs, ← hh2, hb2]; exact hv
    rw [Nat.mod_eq_of_lt hv, or_one_eq, or_lead (bits - 1) hH.symm (by omega)]
    have e1 : (2 * (v / S / 2) + 1) % h = 2 * (v / S % h / 2) + 1 := by
      rcases Nat.lt_or_ge (v / S) h with hl | hl
      · rw [Nat.mod_eq_of_lt hl, Nat.mod_eq_of_lt (by omega)]
      · rw [Nat.mod_eq_sub_mod hl, Nat.mod_eq_of_lt (show v / S - h < h by omega),
          Nat.mod_eq_sub_mod (by omega), Nat.mod_eq_of_lt (by omega)]
        omega
    rw [e1]; omega
  have hset : {v ∈ Finset.range (2 ^ B) | ∃ p, 2 ^ bits ≤ p ∧ Yields gen v p} =
      Finset.Ico ((q + 1 - h) * S) (h * S) ∪ Finset.Ico ((q + 1) * S) (2 * h * S) := by
    ext v
    have hle : 2 * h * S = 2 ^ B := by rw [← hb2, hh2]
    simp only [Finset.mem_filter, Finset.mem_range, Finset.mem_union, Finset.mem_Ico]
    rw [← Nat.le_div_iff_mul_le hs, ← Nat.div_lt_iff_lt_mul hs, ← Nat.le_div_iff_mul_le hs, ← Nat.div_lt_iff_lt_mul hs]
    have hiff : v < 2 ^ B ↔ v / S < 2 * h := by rw [Nat.div_lt_iff_lt_mul hs, hle]
    rw [key v]
    constructor
    · rintro ⟨h1, h2⟩
      have hw := hiff.mp h1
      rw [hmk v h1] at h2
      generalize v / S = t at *
      rcases Nat.lt_or_ge t h with hl | hl
      · rw [Nat.mod_eq_of_lt hl] at h2; omega
      · rw [Nat.mod_eq_sub_mod hl, Nat.mod_eq_of_lt (show t - h < h by omega)] at h2; omega
    · intro hd
      have hw : v / S < 2 * h := by omega
      have hv := hiff.mpr hw
      refine ⟨hv, ?_⟩
      rw [hmk v hv]
      generalize v / S = t at *
      rcases Nat.lt_or_ge t h with hl | hl
      · rw [Nat.mod_eq_of_lt hl]; omega
      · rw [Nat.mod_eq_sub_mod hl, Nat.mod_eq_of_lt (show t - h < h by omega)]; omega
  rw [hset, Finset.card_union_of_disjoint, Nat.card_Ico, Nat.card_Ico, ← Nat.sub_mul, ← Nat.sub_mul, ← Nat.add_mul]
  · congr 1; omega
  · rw [Finset.disjoint_left]
    intro v h1 h2
    simp only [Finset.mem_Ico] at h1 h2
    rw [← Nat.le_div_iff_mul_le hs, ← Nat.div_lt_iff_lt_mul hs] at h1 h2
    omega

open scoped Classical in
/-- **C94** how often `gen_prime(bits)` gives a prime that is too long: for exactly `(2^bits - 1 - q) * 2^(BITS - bits)` of the random
words, where `q` is the largest prime below `2^bits` -/
theorem C94_exceeds_words (bld : Build) (b : ℕ) (hb : PrimWidth b) (hN : TestExactBelow bld (2 ^ b)) (bits q : ℕ) (hbits : bits < b)
    (hq : IsPrevPrime (2 ^ bits) q) (h8 : ¬ (bld = .small ∧ bits = 8)) :
    {v ∈ Finset.range (2 ^ b) | ∃ p, 2 ^ bits ≤ p ∧ Yields (fun src fuel k => genPrimePrim bld src b fuel bits k) v p}.card =
      (2 ^ bits - 1 - q) * 2 ^ (b - bits) := by
  have h0 : 0 < bits := by
    rcases Nat.eq_zero_or_pos bits with rfl | h
    · have := hq.1.1.two_le; have := hq.1.2; omega
    · exact h
  have hgt : ¬ bits > b := by omega
  refine card_over (b := b) hbits.le hbits hq h8 (fun v p hp hpb hbad src k hv => ?_) (fun v p hpan => ?_)
  · subst hv
    exact C94_gen_prime_first bld b hb hN src bits k p h0 hbits.le hp hpb hbad
  · simp only [genPrimePrim, hgt, if_false]
    exact not_yields_panics (mk := fun src k => drawBits b bits (src.value k)) (test := fun _ _ t => .ok (isPrime64 bld t))
      (fun src k h => by rw [h]; exact drawBits_eq h0 hbits.le _) (fun _ _ => rfl) hpan

open scoped Classical in
/-- **C94** the same for `u128` -/
theorem C94_exceeds_words_u128 (bld : Build) (b : ℕ) (hb : PrimWidth b) (hN : TestExactBelow bld (2 ^ b))
    (config : Option PrimalityTestConfig) (bits q : ℕ) (hbits : bits < b)
    (hq : IsPrevPrime (2 ^ bits) q) (h8 : ¬ (bld = .small ∧ bits = 8)) :
    {v ∈ Finset.range (2 ^ 128) | ∃ p, 2 ^ bits ≤ p ∧ Yields (fun src fuel k => genPrime128 bld src config fuel bits k) v p}.card =
      (2 ^ bits - 1 - q) * 2 ^ (128 - bits) := by
  have h0 : 0 < bits := by
    rcases Nat.eq_zero_or_pos bits with rfl | h
    · have := hq.1.1.two_le; have := hq.1.2; omega
    · exact h
  have h64 : b ≤ 64 := hb.le
  have hgt : ¬ bits > 128 := by omega
  have hmk : ∀ v (src : RandSource) k, src.value k = v →
      drawBits 128 bits (src.value k) = .ok ((v % 2 ^ 128 / 2 ^ (128 - bits)) ||| 1) :=
    fun v src k h => by rw [h]; exact drawBits_eq h0 (by omega) _
  have htest : ∀ v (src : RandSource) k, testMint bld src config k ((v % 2 ^ 128 / 2 ^ (128 - bits)) ||| 1) =
      .ok (isPrime64 bld ((v % 2 ^ 128 / 2 ^ (128 - bits)) ||| 1)) := fun v src k =>
    testMint_below bld src config k _ (lead_odd _)
      (lt_of_lt_of_le (lead_lt h0 (by omega)) (Nat.pow_le_pow_right (by norm_num) (by omega)))
  refine card_over (b := b) (by omega) hbits hq h8 (fun v p hp hpb hbad src k hv => ?_) (fun v p hpan => ?_)
  · simp only [genPrime128, hgt, if_false]
    exact genLoop_first_wide (next := fun fuel k t => nextPrime bld (some 128) t none (src.draws k) fuel) hb hN
      (Or.inr ⟨b, 128, rfl, rfl, by omega⟩) (hmk v src k hv) (htest v src k) (fun _ => rfl) hp hpb hbad
  · simp only [genPrime128, hgt, if_false]
    exact not_yields_panics (mk := fun src k => drawBits 128 bits (src.value k)) (test := fun src => testMint bld src config)
      (hmk v) (htest v) hpan

open scoped Classical in
/-- **C94** and for `BigUint`: `2^bits - 1 - q` of the `2^bits` numbers that can be drawn -/
theorem C94_exceeds_words_big (bld : Build) (b : ℕ) (hb : PrimWidth b) (hN : TestExactBelow bld (2 ^ b))
    (config : Option PrimalityTestConfig) (bits q : ℕ) (hbits : bits < b)
    (hq : IsPrevPrime (2 ^ bits) q) (h8 : ¬ (bld = .small ∧ bits = 8)) :
    {v ∈ Finset.range (2 ^ bits) | ∃ p, 2 ^ bits ≤ p ∧ Yields (fun src fuel k => genPrimeBig bld src config fuel bits k) v p}.card =
      2 ^ bits - 1 - q := by
  have h0 : 0 < bits := by
    rcases Nat.eq_zero_or_pos bits with rfl | h
    · have := hq.1.1.two_le; have := hq.1.2; omega
    · exact h
  have h64 : b ≤ 64 := hb.le
  have hmk : ∀ v (src : RandSource) k, src.value k = v →
      (Res.ok ((src.value k % 2 ^ bits) ||| 1) : Res ℕ) = .ok ((v % 2 ^ bits / 2 ^ (bits - bits)) ||| 1) :=
    fun v src k h => by rw [h]; simp
  have htest : ∀ v (src : RandSource) k, testPlain bld none src config k ((v % 2 ^ bits / 2 ^ (bits - bits)) ||| 1) =
      .ok (isPrime64 bld ((v % 2 ^ bits / 2 ^ (bits - bits)) ||| 1)) := fun v src k =>
    testPlain_below bld none src config k _
      (lt_of_lt_of_le (lead_lt h0 le_rfl) (Nat.pow_le_pow_right (by norm_num) (by omega)))
  have hc := card_over (bld := bld) (B := bits) (b := b) (gen := fun src fuel k => genPrimeBig bld src config fuel bits k) le_rfl hbits hq h8
    (fun v p hp hpb hbad src k hv => ?_) (fun v p hpan => ?_)
  · simpa using hc
  · exact genLoop_first_wide (next := fun fuel k t => nextPrime bld none t config (src.draws k) fuel) hb hN
      (Or.inl rfl) (hmk v src k hv) (htest v src k) (fun _ => rfl) hp hpb hbad
  · exact not_yields_panics (mk := fun src k => .ok ((src.value k % 2 ^ bits) ||| 1)) (test := fun src => testPlain bld none src config)
      (hmk v) (htest v) hpan

open scoped Classical in
/-- **C94** how often `gen_prime_exact(bits)` gives a prime that is too long: for exactly `2 * (2^bits - 1 - q) * 2^(BITS - bits)` of the random
words, where `q` is the largest prime below `2^bits` -/
theorem C94_exact_exceeds_words (bld : Build) (b : ℕ) (hb : PrimWidth b) (hN : TestExactBelow bld (2 ^ b)) (bits q : ℕ) (hbits : bits < b)
    (hq : IsPrevPrime (2 ^ bits) q) (h8 : ¬ (bld = .small ∧ bits = 8)) :
    {v ∈ Finset.range (2 ^ b) | ∃ p, 2 ^ bits ≤ p ∧ Yields (fun src fuel k => genPrimeExactPrim bld src b fuel bits k) v p}.card =
      2 * (2 ^ bits - 1 - q) * 2 ^ (b - bits) := by
  have h0 : 0 < bits := by
    rcases Nat.eq_zero_or_pos bits with rfl | h
    · have := hq.1.1.two_le; have := hq.1.2; omega
    · exact h
  have hgt : ¬ bits > b := by omega
  refine card_over_exact (b := b) hbits.le hbits hq h8 (fun v p hp hpb hbad src k hv => ?_) (fun v p hpan => ?_)
  · subst hv
    exact C94_gen_prime_exact_first bld b hb hN src bits k p h0 hbits.le hp hpb hbad
  · simp only [genPrimeExactPrim, hgt, if_false]
    exact not_yields_panics (mk := fun src k => drawExact b bits (src.value k)) (test := fun _ _ t => .ok (isPrime64 bld t))
      (fun src k h => by rw [h]; exact drawExact_eq h0 hbits.le _) (fun _ _ => rfl) hpan

open scoped Classical in
/-- **C94** the same for `u128` -/
theorem C94_exact_exceeds_words_u128 (bld : Build) (b : ℕ) (hb : PrimWidth b) (hN : TestExactBelow bld (2 ^ b))
    (config : Option PrimalityTestConfig) (bits q : ℕ) (hbits : bits < b)
    (hq : IsPrevPrime (2 ^ bits) q) (h8 : ¬ (bld = .small ∧ bits = 8)) :
    {v ∈ Finset.range (2 ^ 128) | ∃ p, 2 ^ bits ≤ p ∧ Yields (fun src fuel k => genPrimeExact128 bld src config fuel bits k) v p}.card =
      2 * (2 ^ bits - 1 - q) * 2 ^ (128 - bits) := by
  have h0 : 0 < bits := by
    rcases Nat.eq_zero_or_pos bits with rfl | h
    · have := hq.1.1.two_le; have := hq.1.2; omega
    · exact h
  have h64 : b ≤ 64 := hb.le
  have hgt : ¬ bits > 128 := by omega
  have hmk : ∀ v (src : RandSource) k, src.value k = v →
      drawExact 128 bits (src.value k) = .ok ((v % 2 ^ 128 / 2 ^ (128 - bits)) ||| 1 ||| 2 ^ (bits - 1)) :=
    fun v src k h => by rw [h]; exact drawExact_eq h0 (by omega) _
  have htest : ∀ v (src : RandSource) k, testMint bld src config k ((v % 2 ^ 128 / 2 ^ (128 - bits)) ||| 1 ||| 2 ^ (bits - 1)) =
      .ok (isPrime64 bld ((v % 2 ^ 128 / 2 ^ (128 - bits)) ||| 1 ||| 2 ^ (bits - 1))) := fun v src k =>
    testMint_below bld src config k _ (lead_exact_odd _ _)
      (lt_of_lt_of_le (lead_exact_lt h0 (by omega)) (Nat.pow_le_pow_right (by norm_num) (by omega)))
  refine card_over_exact (b := b) (by omega) hbits hq h8 (fun v p hp hpb hbad src k hv => ?_) (fun v p hpan => ?_)
  · simp only [genPrimeExact128, hgt, if_false]
    exact genLoop_first_wide (next := fun fuel k t => nextPrime bld (some 128) t none (src.draws k) fuel) hb hN
      (Or.inr ⟨b, 128, rfl, rfl, by omega⟩) (hmk v src k hv) (htest v src k) (fun _ => rfl) hp hpb hbad
  · simp only [genPrimeExact128, hgt, if_false]
    exact not_yields_panics (mk := fun src k => drawExact 128 bits (src.value k)) (test := fun src => testMint bld src config)
      (hmk v) (htest v) hpan

open scoped Classical in
/-- **C94** and for `BigUint`: `2 * (2^bits - 1 - q)` of the `2^bits` numbers that can be drawn -/
theorem C94_exact_exceeds_words_big (bld : Build) (b : ℕ) (hb : PrimWidth b) (hN : TestExactBelow bld (2 ^ b))
    (config : Option PrimalityTestConfig) (bits q : ℕ) (hbits : bits < b)
    (hq : IsPrevPrime (2 ^ bits) q) (h8 : ¬ (bld = .small ∧ bits = 8)) :
    {v ∈ Finset.range (2 ^ bits) | ∃ p, 2 ^ bits ≤ p ∧ Yields (fun src fuel k => genPrimeExactBig bld src config fuel bits k) v p}.card =
      2 * (2 ^ bits - 1 - q) := by
  have h0 : 0 < bits := by
    rcases Nat.eq_zero_or_pos bits with rfl | h
    · have := hq.1.1.two_le; have := hq.1.2; omega
    · exact h
  have h64 : b ≤ 64 := hb.le
  have hmk : ∀ v (src : RandSource) k, src.value k = v →
      ((csub bits 1).mapR (fun s => ((src.value k % 2 ^ bits) ||| 1) ||| (1 <<< s)) : Res ℕ) = .ok ((v % 2 ^ bits / 2 ^ (bits - bits)) ||| 1 ||| 2 ^ (bits - 1)) :=
    fun v src k h => by rw [h, csub, if_pos (by omega), Res.mapR_ok, Nat.one_shiftLeft]; simp
  have htest : ∀ v (src : RandSource) k, testPlain bld none src config k ((v % 2 ^ bits / 2 ^ (bits - bits)) ||| 1 ||| 2 ^ (bits - 1)) =
      .ok (isPrime64 bld ((v % 2 ^ bits / 2 ^ (bits - bits)) ||| 1 ||| 2 ^ (bits - 1))) := fun v src k =>
    testPlain_below bld none src config k _
      (lt_of_lt_of_le (lead_exact_lt h0 le_rfl) (Nat.pow_le_pow_right (by norm_num) (by omega)))
  have hc := card_over_exact (bld := bld) (B := bits) (b := b) (gen := fun src fuel k => genPrimeExactBig bld src config fuel bits k) le_rfl hbits hq h8
    (fun v p hp hpb hbad src k hv => ?_) (fun v p hpan => ?_)
  · simpa using hc
  · exact genLoop_first_wide (next := fun fuel k t => nextPrime bld none t config (src.draws k) fuel) hb hN
      (Or.inl rfl) (hmk v src k hv) (htest v src k) (fun _ => rfl) hp hpb hbad
  · exact not_yields_panics (mk := fun src k => (csub bits 1).mapR (fun s => ((src.value k % 2 ^ bits) ||| 1) ||| (1 <<< s))) (test := fun src => testPlain bld none src config)
      (hmk v) (htest v) hpan

open scoped Classical in
/-- asked for 6 bits, a `BigUint` generator returns a 7 bit prime (67) from the two numbers 62 and 63 of the 64, since 61 is the last prime
below 64; a `u8` generator does so from 8 of the 256 words -/
example (bld : Build) (config : Option PrimalityTestConfig) :
    {v ∈ Finset.range (2 ^ 6) | ∃ p, 2 ^ 6 ≤ p ∧ Yields (fun src fuel k => genPrimeBig bld src config fuel 6 k) v p}.card = 2 ∧
    {v ∈ Finset.range (2 ^ 8) | ∃ p, 2 ^ 6 ≤ p ∧ Yields (fun src fuel k => genPrimePrim bld src 8 fuel 6 k) v p}.card = 8 ∧
    {v ∈ Finset.range (2 ^ 6) | ∃ p, 2 ^ 6 ≤ p ∧ Yields (fun src fuel k => genPrimeExactBig bld src config fuel 6 k) v p}.card = 4 ∧
    {v ∈ Finset.range (2 ^ 128) | ∃ p, 2 ^ 6 ≤ p ∧ Yields (fun src fuel k => genPrimeExact128 bld src config fuel 6 k) v p}.card =
      4 * 2 ^ 122 := by
  have h64 : IsPrevPrime (2 ^ 6) 61 := by
    refine ⟨⟨by norm_num, by norm_num⟩, fun q hq => ?_⟩
    by_contra hc
    have h1 : 62 ≤ q := by omega
    have h2 : q ≤ 63 := by have := hq.2; omega
    interval_cases q <;> exact absurd hq.1 (by norm_num)
  have hN : TestExactBelow bld (2 ^ 8) := ⟨by norm_num, fun p hp => (testExact_u16 bld).2 p (by omega)⟩
  exact ⟨C94_exceeds_words_big bld 16 (Or.inr (Or.inl rfl)) (testExact_u16 bld) config 6 61 (by norm_num) h64 (by norm_num),
    C94_exceeds_words bld 8 (Or.inl rfl) hN 6 61 (by norm_num) h64 (by norm_num),
    C94_exact_exceeds_words_big bld 16 (Or.inr (Or.inl rfl)) (testExact_u16 bld) config 6 61 (by norm_num) h64 (by norm_num),
    C94_exact_exceeds_words_u128 bld 16 (Or.inr (Or.inl rfl)) (testExact_u16 bld) config 6 61 (by norm_num) h64 (by norm_num)⟩

end NumPrime
