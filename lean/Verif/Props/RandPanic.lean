import Verif.Props.RandDistSafe

/-! # C119: how often the generators panic in a build without big tables -/

namespace NumPrime
open Spec Tables

namespace Spec

/-- the generator panics if the first word is `v`, whatever the other words are -/
def PanicsOn (gen : RandSource → ℕ → ℕ → Res (ℕ × ℕ)) (v : ℕ) : Prop :=
  ∀ (src : RandSource) (k : ℕ), src.value k = v → ∃ F, ∀ fuel, F ≤ fuel → gen src fuel k = .panic

end Spec

theorem panicsOn_loop {w : Width} {config : Option PrimalityTestConfig} {mk : RandSource → ℕ → Res ℕ}
    {test : RandSource → ℕ → ℕ → Res Bool} {v t : ℕ} (hmk : ∀ src k, src.value k = v → mk src k = .ok t)
    (htest : ∀ src k, test src k t = .ok (isPrime64 .small t)) (h1 : 252 ≤ t) (h2 : t ≤ 255) :
    PanicsOn (fun src fuel k => genLoop (mk src) (test src) (fun k t => nextPrime .small w t config (src.draws k) fuel) fuel k) v := by
  intro src k hv
  refine ⟨1, fun fuel hf => ?_⟩
  obtain ⟨f, rfl⟩ : ∃ f, fuel = f + 1 := ⟨fuel - 1, by omega⟩
  have hnp : isPrime64 .small t = false := by
    by_contra h
    have := (testExact_u16 .small).2 t (by omega) (by simpa using h)
    interval_cases t <;> revert this <;> norm_num
  simp only [genLoop, hmk src k hv, Res.bind_ok, htest, hnp, Bool.false_eq_true, if_false, C21_next_prime_panics w t h1 h2]
  rfl

theorem not_panicsOn_of_yields {gen : RandSource → ℕ → ℕ → Res (ℕ × ℕ)} {v p : ℕ} (h : Yields gen v p) : ¬ PanicsOn gen v := by
  intro hp
  obtain ⟨F, hF⟩ := h ⟨fun _ => v, fun _ _ => []⟩ 0 rfl
  obtain ⟨F', hF'⟩ := hp ⟨fun _ => v, fun _ _ => []⟩ 0 rfl
  have e := (hF (max F F') (le_max_left _ _)).symm.trans (hF' (max F F') (le_max_right _ _))
  simp at e

/-- the loop of the generators of the machine types does not panic on any other number -/
theorem not_panicsOn_prim {b : ℕ} (hb : PrimWidth b) {mk : RandSource → ℕ → Res ℕ} {v t : ℕ}
    (hmk : ∀ src k, src.value k = v → mk src k = .ok t) (hno : ¬ (252 ≤ t ∧ t ≤ 255)) :
    ¬ PanicsOn (fun src fuel k => genLoop (mk src) (fun _ t => .ok (isPrime64 .small t))
      (fun k t => nextPrime .small (some b) t none (src.draws k) fuel) fuel k) v := by
  intro hp
  obtain ⟨F', hF'⟩ := hp ⟨fun _ => v, fun _ _ => []⟩ 0 rfl
  obtain ⟨o, F, hF⟩ := nextPrime_returns .small (some b) hb.std t none (fun _ => []) goodDraws_nil (fun s hs => by
    rw [isPrimeNew, isPrime_below _ _ _ (fits_64 hb.le hs)]; simp) (fun _ => hno)
  have key : ∀ fuel, F ≤ fuel → ∀ f k, genLoop (mk ⟨fun _ => v, fun _ _ => []⟩) (fun _ t => .ok (isPrime64 .small t))
      (fun k t => nextPrime .small (some b) t none (fun _ => []) fuel) f k ≠ .panic := by
    intro fuel hf f
    induction f with
    | zero => intro k; simp [genLoop]
    | succ f ih =>
      intro k
      simp only [genLoop, hmk ⟨fun _ => v, fun _ _ => []⟩ k rfl, Res.bind_ok]
      split
      · simp [Res.pure_def]
      · rw [hF fuel hf, Res.bind_ok]
        cases o with
        | none => exact ih (k + 1)
        | some p => simp [Res.pure_def]
  exact key (max F F') (le_max_left _ _) _ _ (hF' (max F F') (le_max_right _ _))

/-- nor does that of the wide types, when the bit size is below `b` -/
theorem not_panicsOn_wide {b bits : ℕ} {G : RandSource → ℕ → ℕ → Res (ℕ × ℕ)} {v t : ℕ} (hG : Starts .small b G v t) (h0 : 0 < bits)
    (hbits : bits < b) (ht : t < 2 ^ bits) (hno : ¬ (252 ≤ t ∧ t ≤ 255)) : ¬ PanicsOn G v := by
  obtain ⟨r, hr⟩ := exists_first t
  have hrb : r < 2 ^ b := by
    have h1 : 2 ^ 1 ≤ 2 ^ bits := Nat.pow_le_pow_right (by norm_num) h0
    obtain ⟨p, h1, h2, h3⟩ := Nat.exists_prime_lt_and_le_two_mul (2 ^ bits - 1) (by omega)
    have := hr.2 ⟨h1, by omega⟩
    have hnext : 2 ^ bits * 2 ≤ 2 ^ b := by rw [← pow_succ]; exact Nat.pow_le_pow_right (by norm_num) hbits
    omega
  exact not_panicsOn_of_yields (hG.yields r hr hrb (fun h => hno h.2))

open scoped Classical in
theorem card_panics {B bits : ℕ} {Y : ℕ → Prop} (h8 : 8 ≤ bits) (hB : bits ≤ B)
    (key : ∀ v < 2 ^ B, Y v ↔ 252 ≤ (v % 2 ^ B / 2 ^ (B - bits)) ||| 1 ∧ (v % 2 ^ B / 2 ^ (B - bits)) ||| 1 ≤ 255) :
    {v ∈ Finset.range (2 ^ B) | Y v}.card = 4 * 2 ^ (B - bits) := by
  have hs : 0 < 2 ^ (B - bits) := Nat.two_pow_pos _
  have hb2 : 2 ^ bits * 2 ^ (B - bits) = 2 ^ B := by rw [← pow_add]; congr 1; omega
  have h256 : 2 ^ 8 ≤ 2 ^ bits := Nat.pow_le_pow_right (by norm_num) h8
  have hset : {v ∈ Finset.range (2 ^ B) | Y v} = Finset.Ico (252 * 2 ^ (B - bits)) (256 * 2 ^ (B - bits)) := by
    ext v
    have hle : 256 * 2 ^ (B - bits) ≤ 2 ^ B := by rw [← hb2]; exact Nat.mul_le_mul_right _ h256
    simp only [Finset.mem_filter, Finset.mem_range, Finset.mem_Ico]
    rw [← Nat.le_div_iff_mul_le hs, ← Nat.div_lt_iff_lt_mul hs]
    constructor
    · rintro ⟨h1, h2⟩
      have := (key v h1).mp h2
      rw [or_one_eq, Nat.mod_eq_of_lt h1] at this
      omega
    · rintro ⟨h1, h2⟩
      have hv : v < 2 ^ B := lt_of_lt_of_le ((Nat.div_lt_iff_lt_mul hs).mp h2) hle
      refine ⟨hv, (key v hv).mpr ?_⟩
      rw [or_one_eq, Nat.mod_eq_of_lt hv]
      omega
  rw [hset, Nat.card_Ico, ← Nat.sub_mul]

open scoped Classical in
theorem card_panics_exact {B : ℕ} {Y : ℕ → Prop} (hB : 8 ≤ B)
    (key : ∀ v < 2 ^ B, Y v ↔ 252 ≤ (v % 2 ^ B / 2 ^ (B - 8)) ||| 1 ||| 2 ^ (8 - 1) ∧
      (v % 2 ^ B / 2 ^ (B - 8)) ||| 1 ||| 2 ^ (8 - 1) ≤ 255) :
    {v ∈ Finset.range (2 ^ B) | Y v}.card = 8 * 2 ^ (B - 8) := by
  have hs : 0 < 2 ^ (B - 8) := Nat.two_pow_pos _
  have hb2 : 2 ^ 8 * 2 ^ (B - 8) = 2 ^ B := by rw [← pow_add]; congr 1; omega
  have hset : {v ∈ Finset.range (2 ^ B) | Y v} =
      Finset.Ico (124 * 2 ^ (B - 8)) (128 * 2 ^ (B - 8)) ∪ Finset.Ico (252 * 2 ^ (B - 8)) (256 * 2 ^ (B - 8)) := by
    ext v
    simp only [Finset.mem_filter, Finset.mem_range, Finset.mem_union, Finset.mem_Ico]
    rw [← Nat.le_div_iff_mul_le hs, ← Nat.div_lt_iff_lt_mul hs, ← Nat.le_div_iff_mul_le hs, ← Nat.div_lt_iff_lt_mul hs]
    have hiff : v < 2 ^ B ↔ v / 2 ^ (B - 8) < 256 := by rw [Nat.div_lt_iff_lt_mul hs, ← hb2]; norm_num
    have hm : ∀ u < 256, (252 ≤ u ||| 1 ||| 2 ^ (8 - 1) ∧ u ||| 1 ||| 2 ^ (8 - 1) ≤ 255) ↔
        (124 ≤ u ∧ u < 128 ∨ 252 ≤ u ∧ u < 256) := by decide +kernel
    constructor
    · rintro ⟨h1, h2⟩
      have h3 := (key v h1).mp h2
      rw [Nat.mod_eq_of_lt h1] at h3
      exact (hm _ (hiff.mp h1)).mp h3
    · intro hd
      have hw : v / 2 ^ (B - 8) < 256 := by omega
      have hv := hiff.mpr hw
      refine ⟨hv, (key v hv).mpr ?_⟩
      rw [Nat.mod_eq_of_lt hv]
      exact (hm _ hw).mpr hd
  rw [hset, Finset.card_union_of_disjoint, Nat.card_Ico, Nat.card_Ico, ← Nat.sub_mul, ← Nat.sub_mul, ← Nat.add_mul]
  rw [Finset.disjoint_left]
  intro v h1 h2
  simp only [Finset.mem_Ico] at h1 h2
  rw [← Nat.le_div_iff_mul_le hs, ← Nat.div_lt_iff_lt_mul hs] at h1 h2
  omega

open scoped Classical in
/-- **C119** without big tables `gen_prime(bits)`, `bits ≥ 8`, panics on the first word for exactly `4 * 2^(BITS - bits)` of the `2^BITS`
words (one in `2^(bits-2)`), from which it would have to return 257 -/
theorem C119_gen_prime_panics (b : ℕ) (hb : PrimWidth b) (bits : ℕ) (h8 : 8 ≤ bits) (hbits : bits ≤ b) :
    {v ∈ Finset.range (2 ^ b) | PanicsOn (fun src fuel k => genPrimePrim .small src b fuel bits k) v}.card = 4 * 2 ^ (b - bits) := by
  have hgt : ¬ bits > b := by omega
  refine card_panics h8 hbits (fun v _ => ?_)
  simp only [genPrimePrim, hgt, if_false]
  have hmk : ∀ (src : RandSource) k, src.value k = v → drawBits b bits (src.value k) = .ok ((v % 2 ^ b / 2 ^ (b - bits)) ||| 1) :=
    fun src k h => by rw [h]; exact drawBits_eq (by omega) hbits _
  constructor
  · intro h
    by_contra hno
    exact not_panicsOn_prim (mk := fun src k => drawBits b bits (src.value k)) hb hmk hno h
  · rintro ⟨h1, h2⟩
    exact panicsOn_loop (mk := fun src k => drawBits b bits (src.value k)) (test := fun _ _ t => .ok (isPrime64 .small t)) hmk
      (fun _ _ => rfl) h1 h2

open scoped Classical in
/-- **C119** `gen_prime_exact(8)` panics on the first word for one word in 32 -/
theorem C119_gen_prime_exact_panics (b : ℕ) (hb : PrimWidth b) :
    {v ∈ Finset.range (2 ^ b) | PanicsOn (fun src fuel k => genPrimeExactPrim .small src b fuel 8 k) v}.card = 8 * 2 ^ (b - 8) := by
  have h8 : 8 ≤ b := by rcases hb with rfl | rfl | rfl | rfl <;> norm_num
  have hgt : ¬ 8 > b := by omega
  refine card_panics_exact h8 (fun v _ => ?_)
  simp only [genPrimeExactPrim, hgt, if_false]
  have hmk : ∀ (src : RandSource) k, src.value k = v →
      drawExact b 8 (src.value k) = .ok ((v % 2 ^ b / 2 ^ (b - 8)) ||| 1 ||| 2 ^ (8 - 1)) :=
    fun src k h => by rw [h]; exact drawExact_eq (by omega) h8 _
  constructor
  · intro h
    by_contra hno
    exact not_panicsOn_prim (mk := fun src k => drawExact b 8 (src.value k)) hb hmk hno h
  · rintro ⟨h1, h2⟩
    exact panicsOn_loop (mk := fun src k => drawExact b 8 (src.value k)) (test := fun _ _ t => .ok (isPrime64 .small t)) hmk
      (fun _ _ => rfl) h1 h2

open scoped Classical in
/-- **C119** `gen_prime(bits)` of `u128`, for bit sizes below `b` -/
theorem C119_gen_prime_panics_u128 (b : ℕ) (hb : PrimWidth b) (hN : TestExactBelow .small (2 ^ b)) (config : Option PrimalityTestConfig)
    (bits : ℕ) (h8 : 8 ≤ bits) (hbits : bits < b) :
    {v ∈ Finset.range (2 ^ 128) | PanicsOn (fun src fuel k => genPrime128 .small src config fuel bits k) v}.card = 4 * 2 ^ (128 - bits) := by
  have h64 : b ≤ 64 := hb.le
  have hgt : ¬ bits > 128 := by omega
  have hle : 2 ^ bits ≤ 2 ^ 64 := Nat.pow_le_pow_right (by norm_num) (by omega)
  refine card_panics h8 (by omega) (fun v _ => ?_)
  simp only [genPrime128, hgt, if_false]
  have hl := lead_lt (v := v) (B := 128) (bits := bits) (by omega) (by omega)
  have hmk : ∀ (src : RandSource) k, src.value k = v → drawBits 128 bits (src.value k) = .ok ((v % 2 ^ 128 / 2 ^ (128 - bits)) ||| 1) :=
    fun src k h => by rw [h]; exact drawBits_eq (by omega) (by omega) _
  have htest : ∀ (src : RandSource) k, testMint .small src config k ((v % 2 ^ 128 / 2 ^ (128 - bits)) ||| 1) = _ :=
    fun src k => testMint_below' .small src config k _ (by omega)
  constructor
  · intro h
    by_contra hno
    exact not_panicsOn_wide (starts_loop (mk := fun src k => drawBits 128 bits (src.value k)) (test := fun src => testMint .small src config)
      hb hN (Or.inr ⟨b, 128, rfl, rfl, by omega⟩) hmk htest) (by omega) hbits hl hno h
  · rintro ⟨h1, h2⟩
    exact panicsOn_loop (mk := fun src k => drawBits 128 bits (src.value k)) (test := fun src => testMint .small src config) hmk
      htest h1 h2

open scoped Classical in
/-- **C119** `gen_prime(bits)` of `BigUint` panics for 4 of the `2^bits` numbers that can be drawn -/
theorem C119_gen_prime_panics_big (b : ℕ) (hb : PrimWidth b) (hN : TestExactBelow .small (2 ^ b)) (config : Option PrimalityTestConfig)
    (bits : ℕ) (h8 : 8 ≤ bits) (hbits : bits < b) :
    {v ∈ Finset.range (2 ^ bits) | PanicsOn (fun src fuel k => genPrimeBig .small src config fuel bits k) v}.card = 4 := by
  have h64 : b ≤ 64 := hb.le
  have hle : 2 ^ bits ≤ 2 ^ 64 := Nat.pow_le_pow_right (by norm_num) (by omega)
  have hc := card_panics (B := bits) (Y := PanicsOn (fun src fuel k => genPrimeBig .small src config fuel bits k)) h8 le_rfl (fun v _ => ?_)
  · simpa using hc
  have hl := lead_lt (v := v) (B := bits) (bits := bits) (by omega) le_rfl
  have hmk : ∀ (src : RandSource) k, src.value k = v →
      (Res.ok ((src.value k % 2 ^ bits) ||| 1) : Res ℕ) = .ok ((v % 2 ^ bits / 2 ^ (bits - bits)) ||| 1) :=
    fun src k h => by rw [h]; simp
  have htest : ∀ (src : RandSource) k, testPlain .small none src config k ((v % 2 ^ bits / 2 ^ (bits - bits)) ||| 1) = _ :=
    fun src k => testPlain_below .small none src config k _ (by omega)
  constructor
  · intro h
    by_contra hno
    exact not_panicsOn_wide (starts_loop (mk := fun src k => .ok ((src.value k % 2 ^ bits) ||| 1))
      (test := fun src => testPlain .small none src config) hb hN (Or.inl rfl) hmk htest) (by omega) hbits hl hno h
  · rintro ⟨h1, h2⟩
    exact panicsOn_loop (mk := fun src k => .ok ((src.value k % 2 ^ bits) ||| 1)) (test := fun src => testPlain .small none src config) hmk
      htest h1 h2

/-- **C119** for no other bit size is there a word on which `gen_prime_exact` panics, nor one on which `gen_prime` panics below 8 bits -/
theorem C119_no_panics (b : ℕ) (hb : PrimWidth b) (bits : ℕ) (h0 : 0 < bits) (hbits : bits ≤ b) (v : ℕ) :
    (bits < 8 → ¬ PanicsOn (fun src fuel k => genPrimePrim .small src b fuel bits k) v) ∧
    (bits ≠ 8 → ¬ PanicsOn (fun src fuel k => genPrimeExactPrim .small src b fuel bits k) v) := by
  have hgt : ¬ bits > b := by omega
  have hl := lead_lt (v := v) h0 hbits
  have hx := lead_exact_lt (v := v) h0 hbits
  constructor
  · intro h8
    have h7 : 2 ^ bits ≤ 2 ^ 7 := Nat.pow_le_pow_right (by norm_num) (by omega)
    simp only [genPrimePrim, hgt, if_false]
    exact not_panicsOn_prim (mk := fun src k => drawBits b bits (src.value k)) hb
      (fun src k h => by rw [h]; exact drawBits_eq h0 hbits _) (by omega)
  · intro h8
    simp only [genPrimeExactPrim, hgt, if_false]
    refine not_panicsOn_prim (mk := fun src k => drawExact b bits (src.value k)) hb
      (fun src k h => by rw [h]; exact drawExact_eq h0 hbits _) ?_
    rcases Nat.lt_or_ge bits 8 with hlt | hge
    · have h7 : 2 ^ bits ≤ 2 ^ 7 := Nat.pow_le_pow_right (by norm_num) (by omega)
      omega
    · have h9 : 2 ^ 8 ≤ 2 ^ (bits - 1) := Nat.pow_le_pow_right (by norm_num) (by omega)
      have := Nat.right_le_or (n := (v % 2 ^ b / 2 ^ (b - bits)) ||| 1) (m := 2 ^ (bits - 1))
      omega

open scoped Classical in
/-- **C119** `gen_prime_exact(8)` of `u128` -/
theorem C119_gen_prime_exact_panics_u128 (config : Option PrimalityTestConfig) :
    {v ∈ Finset.range (2 ^ 128) | PanicsOn (fun src fuel k => genPrimeExact128 .small src config fuel 8 k) v}.card = 8 * 2 ^ (128 - 8) := by
  have hgt : ¬ 8 > 128 := by omega
  refine card_panics_exact (by norm_num) (fun v _ => ?_)
  simp only [genPrimeExact128, hgt, if_false]
  have hl := lead_exact_lt (v := v) (B := 128) (bits := 8) (by omega) (by omega)
  have hmk : ∀ (src : RandSource) k, src.value k = v →
      drawExact 128 8 (src.value k) = .ok ((v % 2 ^ 128 / 2 ^ (128 - 8)) ||| 1 ||| 2 ^ (8 - 1)) :=
    fun src k h => by rw [h]; exact drawExact_eq (by omega) (by omega) _
  have htest : ∀ (src : RandSource) k, testMint .small src config k ((v % 2 ^ 128 / 2 ^ (128 - 8)) ||| 1 ||| 2 ^ (8 - 1)) = _ :=
    fun src k => testMint_below' .small src config k _ (by omega)
  constructor
  · intro h
    by_contra hno
    exact not_panicsOn_wide (starts_loop (mk := fun src k => drawExact 128 8 (src.value k)) (test := fun src => testMint .small src config)
      (Or.inr (Or.inl rfl)) (testExact_u16 .small) (Or.inr ⟨16, 128, rfl, rfl, by omega⟩) hmk htest) (by omega) (by omega) hl hno h
  · rintro ⟨h1, h2⟩
    exact panicsOn_loop (mk := fun src k => drawExact 128 8 (src.value k)) (test := fun src => testMint .small src config) hmk
      htest h1 h2

open scoped Classical in
/-- **C119** `gen_prime_exact(8)` of `BigUint`: 8 of the 256 numbers -/
theorem C119_gen_prime_exact_panics_big (config : Option PrimalityTestConfig) :
    {v ∈ Finset.range (2 ^ 8) | PanicsOn (fun src fuel k => genPrimeExactBig .small src config fuel 8 k) v}.card = 8 := by
  have hc := card_panics_exact (B := 8) (Y := PanicsOn (fun src fuel k => genPrimeExactBig .small src config fuel 8 k)) le_rfl
    (fun v _ => ?_)
  · simpa using hc
  have hl := lead_exact_lt (v := v) (B := 8) (bits := 8) (by omega) le_rfl
  have hmk : ∀ (src : RandSource) k, src.value k = v →
      ((csub 8 1).mapR (fun s => ((src.value k % 2 ^ 8) ||| 1) ||| (1 <<< s)) : Res ℕ) =
        .ok ((v % 2 ^ 8 / 2 ^ (8 - 8)) ||| 1 ||| 2 ^ (8 - 1)) :=
    fun src k h => by rw [h, csub, if_pos (by omega), Res.mapR_ok, Nat.one_shiftLeft]; simp
  have htest : ∀ (src : RandSource) k, testPlain .small none src config k ((v % 2 ^ 8 / 2 ^ (8 - 8)) ||| 1 ||| 2 ^ (8 - 1)) = _ :=
    fun src k => testPlain_below .small none src config k _ (by omega)
  constructor
  · intro h
    by_contra hno
    exact not_panicsOn_wide (starts_loop (mk := fun src k => (csub 8 1).mapR (fun s => ((src.value k % 2 ^ 8) ||| 1) ||| (1 <<< s)))
      (test := fun src => testPlain .small none src config) (Or.inr (Or.inl rfl)) (testExact_u16 .small) (Or.inl rfl) hmk htest)
      (by omega) (by omega) hl hno h
  · rintro ⟨h1, h2⟩
    exact panicsOn_loop (mk := fun src k => (csub 8 1).mapR (fun s => ((src.value k % 2 ^ 8) ||| 1) ||| (1 <<< s)))
      (test := fun src => testPlain .small none src config) hmk htest h1 h2

/-! ### concrete cases -/

open scoped Classical in
/-- `gen_prime(8)` of a `u8` generator panics for 4 of the 256 words, `gen_prime_exact(8)` for 8; `gen_prime(10)` of `BigUint` for 4 of the 1024 -/
example (config : Option PrimalityTestConfig) :
    {v ∈ Finset.range (2 ^ 8) | PanicsOn (fun src fuel k => genPrimePrim .small src 8 fuel 8 k) v}.card = 4 ∧
    {v ∈ Finset.range (2 ^ 8) | PanicsOn (fun src fuel k => genPrimeExactPrim .small src 8 fuel 8 k) v}.card = 8 ∧
    {v ∈ Finset.range (2 ^ 10) | PanicsOn (fun src fuel k => genPrimeBig .small src config fuel 10 k) v}.card = 4 :=
  ⟨C119_gen_prime_panics 8 (Or.inl rfl) 8 le_rfl le_rfl, C119_gen_prime_exact_panics 8 (Or.inl rfl),
    C119_gen_prime_panics_big 32 (Or.inr (Or.inr (Or.inl rfl))) testExact_u32 config 10 (by norm_num) (by norm_num)⟩

end NumPrime
