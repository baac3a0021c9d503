import Verif.Proofs.Tables
import Verif.Proofs.Sprp

/-! # `is_prime64` -/

namespace NumPrime
open Tables Spec

theorem sprp64_iff {n : ℕ} (hn : 2 < n) (hodd : n % 2 = 1) (b : ℕ) : sprp64 n b = true ↔ StrongPRP n b := by
  unfold sprp64
  rw [testSprpCore_verdict hn hodd, strongPRP_iff hn]

theorem sprp64_prime {p : ℕ} (hp : p.Prime) (h2 : 2 < p) {b : ℕ} (hb : ¬ p ∣ b) : sprp64 p b = true := by
  unfold sprp64
  rw [testSprpCore_prime hp h2 hb]; rfl

/-- the Miller-Rabin bases that `is_prime64_miller` uses for the target `n` -/
def millerBases : Build → ℕ → List ℕ
  | .small, n => if n < 2 ^ 32 then [2, 7, 61] else [2, 325, 9375, 28178, 450775, 9780504, 1795265022]
  | .big, n =>
    if n < 2 ^ 32 then [mrBase32.getD (hash32 n) 0]
    else [2, mrBase64At (hash64 n) % 4096, mrBase64At (hash64 n) / 4096]

theorem and_4095 (b : ℕ) : b &&& 4095 = b % 4096 := Nat.and_two_pow_sub_one_eq_mod b 12

theorem isPrime64Miller_eq (bld : Build) (n : ℕ) : isPrime64Miller bld n = (millerBases bld n).all (sprp64 n) := by
  cases bld
  · simp only [isPrime64Miller, millerBases]
    split
    · simp [isPrime32Miller]
    · rw [and_4095, Nat.shiftRight_eq_div_pow]
      cases h : sprp64 n 2 <;> simp [h]
  · simp only [isPrime64Miller, millerBases]
    split <;> rfl

theorem isPrime64Miller_iff {bld : Build} {n : ℕ} (hn : 2 < n) (hodd : n % 2 = 1) :
    isPrime64Miller bld n = true ↔ ∀ b ∈ millerBases bld n, StrongPRP n b := by
  rw [isPrime64Miller_eq, List.all_eq_true]
  exact forall₂_congr fun b _ => sprp64_iff hn hodd b

theorem hash32_lt (n : ℕ) : hash32 n < 256 := by
  unfold hash32
  exact Nat.lt_succ_of_le Nat.and_le_right

theorem hash64_lt (n : ℕ) : hash64 n < 16384 := by
  unfold hash64
  exact Nat.lt_succ_of_le Nat.and_le_right

/-- check used below: no number `≥ 8167` without a factor 2, 3, 5, 7 divides the base selected for it -/
def base32Check (l : List ℕ) : Bool := l.zipIdx.all fun x =>
    decide (0 < x.1) && decide (x.1 < 65536) &&
    [1, 2, 3, 4, 5, 6, 7, 8].all fun k => x.1 % k != 0 || decide (x.1 / k < 8167) || hash32 (x.1 / k) != x.2 ||
      [2, 3, 5, 7].any fun d => x.1 / k % d == 0

theorem mrBase32_check : base32Check mrBase32 = true := by decide +kernel

theorem mrBase32_length : mrBase32.length = 256 := by decide +kernel

theorem base32_not_dvd {l : List ℕ} (hl : l.length = 256) (hc : base32Check l = true) {p : ℕ} (hp : p.Prime) (h : 8167 ≤ p) :
    ¬ p ∣ l.getD (hash32 p) 0 := by
  intro hd
  have hlt := hash32_lt p
  have hmem : (l.getD (hash32 p) 0, hash32 p) ∈ l.zipIdx := by
    rw [List.mem_zipIdx_iff_getElem?, List.getD_eq_getElem?_getD,
      List.getElem?_eq_getElem (by rw [hl]; exact hlt)]
    simp
  have := List.all_eq_true.mp hc _ hmem
  simp only [Bool.and_eq_true, decide_eq_true_iff] at this
  obtain ⟨⟨h0, h1⟩, h2⟩ := this
  obtain ⟨k, hk⟩ := hd
  have hk8 : k ≤ 8 := by
    by_contra hc
    have : 8167 * 9 ≤ p * k := Nat.mul_le_mul h (by omega)
    omega
  have hk0 : 0 < k := by
    rcases Nat.eq_zero_or_pos k with hz | hz
    · rw [hz, Nat.mul_zero] at hk; omega
    · exact hz
  have hdiv : l.getD (hash32 p) 0 / k = p := by rw [hk]; exact Nat.mul_div_cancel _ hk0
  have hkm : k ∈ [1, 2, 3, 4, 5, 6, 7, 8] := by
    interval_cases k <;> simp
  have h3 := List.all_eq_true.mp h2 k hkm
  simp only [hdiv] at h3
  have hm0 : l.getD (hash32 p) 0 % k = 0 := by rw [hk]; exact Nat.mul_mod_left p k
  have hlt : ¬ p < 8167 := by omega
  simp only [hm0, hlt, bne_self_eq_false, decide_false, Bool.or_false, Bool.false_or, List.any_eq_true] at h3
  obtain ⟨d, hd, h4⟩ := h3
  have h5 : d ∣ p := Nat.dvd_of_mod_eq_zero (by simpa using h4)
  rcases (Nat.dvd_prime hp).mp h5 with h6 | h6
  · subst h6; simp at hd
  · subst h6; simp at hd; omega

/-- no prime above the small prime table divides the base selected for it -/
theorem mrBase32_not_dvd {p : ℕ} (hp : p.Prime) (h : 8167 ≤ p) : ¬ p ∣ mrBase32.getD (hash32 p) 0 :=
  base32_not_dvd mrBase32_length mrBase32_check hp h

/-- check used below: shape of the chunks, and both packed bases are nonzero -/
def base64Check (cs : List (List ℕ)) : Bool := cs.all fun c => decide (c.length = 512) && c.all fun b =>
    decide (b < 2 ^ 32) && b % 4096 != 0 && b / 4096 != 0

theorem mrBase64_check : base64Check mrBase64Chunks = true := by decide +kernel

theorem mrBase64Chunks_length : mrBase64Chunks.length = 32 := by decide +kernel

theorem base64_spec {cs : List (List ℕ)} (hl : cs.length = 32) (hc : base64Check cs = true) (h : ℕ) (hh : h < 16384) :
    (cs.getD (h / 512) []).getD (h % 512) 0 < 2 ^ 32 ∧ (cs.getD (h / 512) []).getD (h % 512) 0 % 4096 ≠ 0 ∧
      (cs.getD (h / 512) []).getD (h % 512) 0 / 4096 ≠ 0 := by
  have h1 : h / 512 < cs.length := by rw [hl]; omega
  have e1 : cs.getD (h / 512) [] = cs[h / 512] := by
    rw [List.getD_eq_getElem?_getD, List.getElem?_eq_getElem h1, Option.getD_some]
  rw [e1]
  have h2 := List.all_eq_true.mp hc _ (List.getElem_mem h1)
  rw [Bool.and_eq_true, decide_eq_true_iff] at h2
  have h3 : h % 512 < cs[h / 512].length := by rw [h2.1]; omega
  have e2 : cs[h / 512].getD (h % 512) 0 = cs[h / 512][h % 512] := by
    rw [List.getD_eq_getElem?_getD, List.getElem?_eq_getElem h3, Option.getD_some]
  rw [e2]
  have h4 := List.all_eq_true.mp h2.2 _ (List.getElem_mem h3)
  simpa [and_assoc] using h4

theorem mrBase64At_spec (h : ℕ) (hh : h < 16384) :
    mrBase64At h < 2 ^ 32 ∧ mrBase64At h % 4096 ≠ 0 ∧ mrBase64At h / 4096 ≠ 0 :=
  base64_spec mrBase64Chunks_length mrBase64_check h hh

/-- lower bound of the numbers handed to `is_prime64_miller` -/
def millerMin : Build → ℕ
  | .small => 257
  | .big => 8167

theorem millerBases_not_dvd {bld : Build} {p : ℕ} (hp : p.Prime) (hmin : millerMin bld ≤ p) (b : ℕ)
    (hb : b ∈ millerBases bld p) : ¬ p ∣ b := by
  have hlt : ∀ b, 0 < b → b < p → ¬ p ∣ b := fun b h1 h2 h3 => by have := Nat.le_of_dvd h1 h3; omega
  cases bld
  · simp only [millerBases] at hb
    simp only [millerMin] at hmin
    split at hb <;> rename_i hs
    · simp only [List.mem_singleton] at hb
      rw [hb]; exact mrBase32_not_dvd hp hmin
    · obtain ⟨h1, h2, h3⟩ := mrBase64At_spec _ (hash64_lt p)
      simp only [List.mem_cons, List.not_mem_nil, or_false] at hb
      rcases hb with rfl | rfl | rfl
      · exact hlt _ (by norm_num) (by omega)
      · exact hlt _ (by omega) (by omega)
      · exact hlt _ (by omega) (by omega)
  · simp only [millerBases] at hb
    simp only [millerMin] at hmin
    split at hb <;> rename_i hs
    · simp only [List.mem_cons, List.not_mem_nil, or_false] at hb
      exact hlt _ (by omega) (by omega)
    · simp only [List.mem_cons, List.not_mem_nil, or_false] at hb
      exact hlt _ (by omega) (by omega)

/-- a prime beyond the small prime table passes `is_prime64_miller` -/
theorem isPrime64Miller_prime {bld : Build} {p : ℕ} (hp : p.Prime) (hmin : millerMin bld ≤ p) :
    isPrime64Miller bld p = true := by
  have h2 : 2 < p := by have : 257 ≤ millerMin bld := by cases bld <;> decide
                        omega
  rw [isPrime64Miller_iff h2 (by rcases hp.eq_two_or_odd with h | h <;> omega)]
  intro b hb
  exact strongPRP_of_prime hp h2 (millerBases_not_dvd hp hmin b hb)

theorem inTable_lt {bld : Build} {n : ℕ} (h : inTable bld n = true) : n < smallPrimesNext bld := by
  cases bld
  · simpa [inTable] using h
  · have : n < 256 := by simpa [inTable] using h
    show n < 257; omega

theorem not_inTable {bld : Build} {n : ℕ} (h : inTable bld n = false) (hodd : n % 2 = 1) : smallPrimesNext bld ≤ n := by
  cases bld
  · simpa [inTable] using h
  · have : ¬ n < 256 := by simpa [inTable] using h
    show 257 ≤ n; omega

theorem millerMin_eq (bld : Build) : millerMin bld = smallPrimesNext bld := by cases bld <;> rfl

theorem and_one_eq (n : ℕ) : n &&& 1 = n % 2 := Nat.and_one_is_mod n

/-- complete description of `is_prime64` -/
theorem isPrime64_iff (bld : Build) (n : ℕ) : isPrime64 bld n = true ↔
    (n.Prime ∧ n < smallPrimesNext bld) ∨
    (smallPrimesNext bld ≤ n ∧ n % 2 = 1 ∧ Nat.gcd n (wheelSize bld) = 1 ∧ ∀ b ∈ millerBases bld n, StrongPRP n b) := by
  have hN := le_smallPrimesNext bld
  unfold isPrime64
  rw [and_one_eq]
  split
  · rename_i h
    simp only [Bool.false_eq_true, false_iff, not_or, not_and]
    exact ⟨fun hp => by have := hp.two_le; omega, fun h1 => by omega⟩
  · split
    · rename_i h1 h2
      simp only [beq_iff_eq]
      constructor
      · rintro rfl; exact Or.inl ⟨Nat.prime_two, by omega⟩
      · rintro (⟨hp, _⟩ | ⟨_, h, _⟩)
        · rcases hp.eq_two_or_odd with h | h <;> omega
        · omega
    · rename_i h1 h2
      have hodd : n % 2 = 1 := by omega
      split
      · rename_i h3
        have h4 := inTable_lt h3
        rw [binarySearch_isOk (smallPrimes_sorted bld), mem_smallPrimes]
        constructor
        · exact fun h => Or.inl h
        · rintro (h | ⟨h, _⟩)
          · exact h
          · omega
      · rename_i h3
        have h4 := not_inTable (by simpa using h3) hodd
        split
        · rename_i h5
          rw [wheelRejects_iff] at h5
          simp only [Bool.false_eq_true, false_iff, not_or, not_and]
          exact ⟨fun _ => by omega, fun _ _ h => absurd h h5⟩
        · rename_i h5
          have h6 : Nat.gcd n (wheelSize bld) = 1 := by
            by_contra h; exact h5 ((wheelRejects_iff bld n).mpr h)
          rw [isPrime64Miller_iff (by omega) hodd]
          constructor
          · exact fun h => Or.inr ⟨h4, hodd, h6, h⟩
          · rintro (h | ⟨_, _, _, h⟩)
            · omega
            · exact h

theorem isPrime64_prime (bld : Build) {p : ℕ} (hp : p.Prime) : isPrime64 bld p = true := by
  rw [isPrime64_iff]
  have hN := le_smallPrimesNext bld
  rcases Nat.lt_or_ge p (smallPrimesNext bld) with h | h
  · exact Or.inl ⟨hp, h⟩
  · have h2 : 2 < p := by omega
    have hodd : p % 2 = 1 := by rcases hp.eq_two_or_odd with h | h <;> omega
    refine Or.inr ⟨h, hodd, coprime_wheel_of_prime hp (by have := wheelSize_lt bld; omega), ?_⟩
    exact (isPrime64Miller_iff h2 hodd).mp (isPrime64Miller_prime hp (by rw [millerMin_eq]; exact h))

end NumPrime
