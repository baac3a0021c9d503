import Verif.Proofs.Float32
import Verif.Props.IsPrimeGen

/-! # C17, C83: probabilities

The numbers reported with `Probable`, in `f32` arithmetic. -/

namespace NumPrime

namespace Spec

/-- the documented probability: `1 - 4^-k` for `k` rounds of the strong test, `1 - 4/15` for each Lucas test -/
def testProbability (c : PrimalityTestConfig) : ℚ :=
  (1 - (if c.sprpTrials = 0 then 0 else (1 / 4 : ℚ) ^ c.sprpTrials)) *
  (1 - (if c.sprpRandomTrials = 0 then 0 else (1 / 4 : ℚ) ^ c.sprpRandomTrials)) *
  (if c.slprpTest then 11 / 15 else 1) * (if c.eslprpTest then 11 / 15 else 1)

end Spec
open Spec

theorem asI32_small {k : ℕ} (h : k < 2 ^ 31) : asI32 k = k := by
  unfold asI32
  rw [Int.bmod_eq_of_le] <;> omega

/-- the value of the factor: exact up to 12 rounds, 1 from 13 rounds on -/
def mrValue (k : ℕ) : ℚ := if k = 0 then 1 else if k ≤ 12 then 1 - 1 / 4 ^ k else 1

theorem mrFactor_eq {k : ℕ} (h0 : 0 < k) (h : k < 2 ^ 31) : mrFactor k = .fin (mrValue k) := by
  unfold mrFactor
  rw [asI32_small h]
  rcases Nat.lt_or_ge k 75 with h1 | h1
  · clear h
    have : ∀ k : ℕ, k < 75 → 0 < k → F32.oneSub (F32.powiQuarter (k : ℤ)) = .fin (mrValue k) := by decide +kernel
    exact this k h1 h0
  · have : F32.powiQuarter (k : ℤ) = .fin 0 := by
      rw [F32.powiQuarter, if_pos (by omega), if_neg (by omega)]
    rw [this, mrValue, if_neg (by omega), if_neg (by omega)]
    decide +kernel

/-- the number of rounds that determines the reported probability -/
def capped (c : PrimalityTestConfig) : PrimalityTestConfig := { c with sprpTrials := min c.sprpTrials 13, sprpRandomTrials := min c.sprpRandomTrials 13 }

theorem mrFactor_capped {k : ℕ} (h0 : 0 < k) (h : k < 2 ^ 31) : mrFactor (min k 13) = mrFactor k := by
  rw [mrFactor_eq (by omega) (by omega), mrFactor_eq h0 h]
  unfold mrValue
  rcases Nat.lt_or_ge k 13 with h1 | h1
  · rw [min_eq_left (by omega)]
  · rw [min_eq_right (by omega), if_neg (by omega), if_neg (by omega), if_neg (by omega), if_neg (by omega)]

theorem probability_capped (c : PrimalityTestConfig) (h1 : c.sprpTrials < 2 ^ 31) (h2 : c.sprpRandomTrials < 2 ^ 31) :
    probability (capped c) = probability c := by
  obtain ⟨k1, k2, s, e⟩ := c
  simp only at h1 h2
  have e1 : (min k1 13 > 0) ↔ (k1 > 0) := by omega
  have e2 : (min k2 13 > 0) ↔ (k2 > 0) := by omega
  simp only [probability, capped, e1, e2]
  by_cases a1 : k1 > 0 <;> by_cases a2 : k2 > 0 <;>
    simp only [a1, a2, if_true, if_false, mrFactor_capped, h1, h2]

/-- what is checked of the finitely many values -/
def probOk (k1 k2 : ℕ) (s e : Bool) : Bool :=
  match probability ⟨k1, k2, s, e⟩ with
  | .fin v => decide (0 < v ∧ v ≤ 1 ∧ (v < 1 ↔ (1 ≤ k1 ∧ k1 ≤ 12) ∨ (1 ≤ k2 ∧ k2 ≤ 12) ∨ s = true ∨ e = true) ∧
      |v - testProbability ⟨k1, k2, s, e⟩| ≤ 1 / 2 ^ 23)
  | _ => false

theorem probOk_all : ∀ k1 < 14, ∀ k2 < 14, ∀ s e : Bool, probOk k1 k2 s e = true := by decide +kernel

theorem testProbability_capped (c : PrimalityTestConfig) : |testProbability (capped c) - testProbability c| ≤ 1 / 2 ^ 25 := by
  obtain ⟨k1, k2, s, e⟩ := c
  have hm : ∀ k : ℕ, 0 ≤ (1 - (if k = 0 then 0 else (1 / 4 : ℚ) ^ k)) ∧ (1 - (if k = 0 then 0 else (1 / 4 : ℚ) ^ k)) ≤ 1 ∧
      |(1 - (if min k 13 = 0 then 0 else (1 / 4 : ℚ) ^ (min k 13))) - (1 - (if k = 0 then 0 else (1 / 4 : ℚ) ^ k))| ≤ 1 / 2 ^ 26 := by
    intro k
    have hp : ∀ j : ℕ, (0 : ℚ) ≤ (1 / 4) ^ j ∧ (1 / 4 : ℚ) ^ j ≤ 1 := fun j =>
      ⟨by positivity, pow_le_one₀ (by norm_num) (by norm_num)⟩
    have hk := hp k
    refine ⟨by split <;> linarith, by split <;> linarith, ?_⟩
    rcases Nat.lt_or_ge k 13 with h | h
    · rw [min_eq_left (by omega)]; simp
    · rw [min_eq_right (by omega), if_neg (by omega), if_neg (by omega)]
      have : (1 / 4 : ℚ) ^ k ≤ (1 / 4) ^ 13 := pow_le_pow_of_le_one (by norm_num) (by norm_num) h
      rw [abs_le]
      constructor <;> norm_num at this hk ⊢ <;> linarith
  obtain ⟨a1, a2, a3⟩ := hm k1
  obtain ⟨b1, b2, b3⟩ := hm k2
  have b1' := (hm (min k2 13)).1
  have b2' := (hm (min k2 13)).2.1
  change |(1 - (if min k1 13 = 0 then 0 else (1 / 4 : ℚ) ^ (min k1 13))) * (1 - (if min k2 13 = 0 then 0 else (1 / 4 : ℚ) ^ (min k2 13))) *
    (if s then (11 / 15 : ℚ) else 1) * (if e then (11 / 15 : ℚ) else 1) - (1 - (if k1 = 0 then 0 else (1 / 4 : ℚ) ^ k1)) *
    (1 - (if k2 = 0 then 0 else (1 / 4 : ℚ) ^ k2)) * (if s then (11 / 15 : ℚ) else 1) * (if e then (11 / 15 : ℚ) else 1)| ≤ _
  generalize (1 - (if k1 = 0 then 0 else (1 / 4 : ℚ) ^ k1)) = x at *
  generalize (1 - (if k2 = 0 then 0 else (1 / 4 : ℚ) ^ k2)) = y at *
  generalize (1 - (if min k1 13 = 0 then 0 else (1 / 4 : ℚ) ^ (min k1 13))) = x' at *
  generalize (1 - (if min k2 13 = 0 then 0 else (1 / 4 : ℚ) ^ (min k2 13))) = y' at *
  have hl : ∀ b : Bool, 0 ≤ (if b then (11 / 15 : ℚ) else 1) ∧ (if b then (11 / 15 : ℚ) else 1) ≤ 1 := by
    intro b; cases b <;> norm_num
  obtain ⟨s1, s2⟩ := hl s
  obtain ⟨e1, e2⟩ := hl e
  generalize (if s then (11 / 15 : ℚ) else 1) = u at *
  generalize (if e then (11 / 15 : ℚ) else 1) = v at *
  have e3 : x' * y' * u * v - x * y * u * v = ((x' - x) * y' + x * (y' - y)) * (u * v) := by ring
  have huv : u * v ≤ 1 := mul_le_one₀ s2 e1 e2
  have huv0 : 0 ≤ u * v := mul_nonneg s1 e1
  rw [e3, abs_mul, abs_of_nonneg huv0]
  have h3 : |(x' - x) * y' + x * (y' - y)| ≤ 1 / 2 ^ 25 := by
    refine (abs_add_le _ _).trans ?_
    rw [abs_mul, abs_mul, abs_of_nonneg b1', abs_of_nonneg a1]
    have : |x' - x| * y' ≤ 1 / 2 ^ 26 * 1 := mul_le_mul a3 b2' b1' (by norm_num)
    have : x * |y' - y| ≤ 1 * (1 / 2 ^ 26) := mul_le_mul a2 b3 (abs_nonneg _) (by norm_num)
    norm_num at *
    linarith
  calc _ ≤ 1 / 2 ^ 25 * 1 := mul_le_mul h3 huv huv0 (by norm_num)
    _ = _ := by norm_num

/-- **C83 (partial)** the probability reported with `Probable`, for trial numbers below `2^31`: it lies in `(0, 1]`, within
`2^-22` of the documented product, and is less than 1 if and only if a Lucas test or between 1 and 12 rounds of one kind are configured.
Missing: `p < 1` for other configurations, which is false (`C83_reported_certain`), and trial numbers from `2^31` on, for
which the value need not be a probability (`C83_reported_negative`). -/
theorem C83_reported_partial (c : PrimalityTestConfig) (h1 : c.sprpTrials < 2 ^ 31) (h2 : c.sprpRandomTrials < 2 ^ 31) :
    ∃ v, probability c = .fin v ∧ 0 < v ∧ v ≤ 1 ∧ |v - testProbability c| ≤ 1 / 2 ^ 22 ∧
      (v < 1 ↔ (1 ≤ c.sprpTrials ∧ c.sprpTrials ≤ 12) ∨ (1 ≤ c.sprpRandomTrials ∧ c.sprpRandomTrials ≤ 12) ∨
        c.slprpTest = true ∨ c.eslprpTest = true) := by
  have hp := probability_capped c h1 h2
  have ht := testProbability_capped c
  have h := probOk_all (min c.sprpTrials 13) (by omega) (min c.sprpRandomTrials 13) (by omega) c.slprpTest c.eslprpTest
  unfold probOk at h
  change probability ⟨min c.sprpTrials 13, min c.sprpRandomTrials 13, c.slprpTest, c.eslprpTest⟩ = _ at hp
  rw [hp] at h
  split at h
  · rename_i v hv
    obtain ⟨g1, g2, g3, g4⟩ := of_decide_eq_true h
    refine ⟨v, hv, g1, g2, ?_, ?_⟩
    · have := abs_sub_le v (testProbability (capped c)) (testProbability c)
      change |v - testProbability (capped c)| ≤ _ at g4
      refine this.trans ((add_le_add g4 ht).trans (by norm_num))
    · rw [g3]
      have e1 : (1 ≤ min c.sprpTrials 13 ∧ min c.sprpTrials 13 ≤ 12) ↔ (1 ≤ c.sprpTrials ∧ c.sprpTrials ≤ 12) := by omega
      have e2 : (1 ≤ min c.sprpRandomTrials 13 ∧ min c.sprpRandomTrials 13 ≤ 12) ↔
        (1 ≤ c.sprpRandomTrials ∧ c.sprpRandomTrials ≤ 12) := by omega
      rw [e1, e2]
  · cases h

/-- **C83 (partial)** the same for a call of `is_prime` -/
theorem C83_is_prime_partial (bld : Build) (w : Width) (hstd : StdWidth w) (list : List ℕ) (n : ℕ) (hw : fits w n = true)
    (h64 : 2 ^ 64 ≤ n) (config : Option PrimalityTestConfig) (draws : List ℕ) (p : F32)
    (h1 : (config.getD .default).sprpTrials < 2 ^ 31) (h2 : (config.getD .default).sprpRandomTrials < 2 ^ 31)
    (h : isPrime bld w list n config draws = .ok (.probable p)) :
    ∃ v, p = .fin v ∧ 0 < v ∧ v ≤ 1 ∧ |v - testProbability (config.getD .default)| ≤ 1 / 2 ^ 22 := by
  obtain ⟨v, g1, g2, g3, g4, -⟩ := C83_reported_partial _ h1 h2
  rcases C15_above_2_64 bld w hstd list n hw h64 config draws _ h with h | h
  · cases h
  · injection h with h
    exact ⟨v, by rw [h, g1], g2, g3, g4⟩

/-- **C83, finding** with 13 rounds or more of the strong test and no Lucas test the reported probability is exactly 1, although
nothing was proved -/
theorem C83_reported_certain (k1 k2 : ℕ) (h1 : 13 ≤ k1) (h2 : k1 < 2 ^ 31) (h3 : 13 ≤ k2 ∨ k2 = 0) (h4 : k2 < 2 ^ 31) :
    probability ⟨k1, k2, false, false⟩ = .fin 1 := by
  obtain ⟨v, e, -, g2, -, g4⟩ := C83_reported_partial ⟨k1, k2, false, false⟩ h2 h4
  have : ¬ v < 1 := by rw [g4]; simp; omega
  rw [e, le_antisymm g2 (not_lt.mp this)]

/-- **C83, finding** "probability 1" is no certainty: `3317044064679887385961981 = 1287836182261 * 2575672364521` is a strong probable
prime to the first 13 primes, and with these 13 trials `is_prime` reports it as prime with probability exactly 1 -/
theorem C83_certain_but_composite (bld : Build) :
    isPrimeNew bld (some 128) 3317044064679887385961981 (some ⟨13, 0, false, false⟩) [] = .ok (.probable (.fin 1)) ∧
    ¬ Nat.Prime 3317044064679887385961981 := by
  refine ⟨by cases bld <;> decide +kernel, ?_⟩
  rw [show 3317044064679887385961981 = 1287836182261 * 2575672364521 by norm_num]
  exact Nat.not_prime_mul (by norm_num) (by norm_num)

/-- **C83, finding** the number of trials is cast to `i32`: with `usize::MAX` trials ("all stored primes") the reported
probability is `-3`, with `2^32` trials it is 0, and with `2^31` trials it is negative infinity -/
theorem C83_reported_negative : probability ⟨2 ^ 64 - 1, 0, false, false⟩ = .fin (-3) ∧
    probability ⟨2 ^ 32, 0, false, false⟩ = .fin 0 ∧ probability ⟨2 ^ 31, 0, false, false⟩ = .inf true := by
  decide +kernel

-- the default configuration reports (1 - 1/16) * (1 - 1/64); the cast is reached by a call
example : isPrime .big (some 128) (smallPrimes .big) 18446744073709551653 none [10, 11, 12] =
    .ok (.probable (.fin (945 / 1024))) := by decide +kernel
example : isPrime .small (some 128) (smallPrimes .small) 18446744073709551653 (some ⟨2 ^ 64 - 1, 0, false, false⟩) [] =
    .ok (.probable (.fin (-3))) := by decide +kernel

/-! ## the combinators -/

/-- a verdict whose probability, if it has one, is an `f32` in the unit interval -/
def Primality.Valid : Primality → Prop
  | .probable (.fin p) => IsF32 p ∧ 0 ≤ p ∧ p ≤ 1
  | .probable _ => False
  | _ => True

/-- **C17** a deterministic answer of a conjunction / disjunction -/
theorem C17_deterministic (a b : Primality) :
    (a.and b = .yes ↔ a = .yes ∧ b = .yes) ∧ (a.and b = .no ↔ a = .no ∨ b = .no) ∧
    (a.or b = .yes ↔ a = .yes ∨ b = .yes) ∧ (a.or b = .no ↔ a = .no ∧ b = .no) := by
  cases a <;> cases b <;> simp [Primality.and, Primality.or]

/-- **C17** commutativity, for every pair of verdicts (infinite and undefined probabilities included) -/
theorem C17_comm (a b : Primality) : a.and b = b.and a ∧ a.or b = b.or a := by
  cases a <;> cases b <;> simp [Primality.and, Primality.or, F32.mul_comm]

/-- **C17 (partial)** associativity, unless all three verdicts are `Probable`. In that case it is false
(`C17_assoc_fails`). -/
theorem C17_assoc_partial (a b c : Primality) (h : ¬ ∃ p q r, a = .probable p ∧ b = .probable q ∧ c = .probable r) :
    (a.and b).and c = a.and (b.and c) ∧ (a.or b).or c = a.or (b.or c) := by
  cases a <;> cases b <;> cases c <;> simp [Primality.and, Primality.or] at h ⊢

/-- **C17, finding** probabilities are rounded after every operation, so neither `&` nor `|` is associative -/
theorem C17_assoc_fails :
    (let a := Primality.probable (.fin (3 / 4)); let b := Primality.probable (.fin (8388609 / 16777216))
     (a.and b).and b ≠ a.and (b.and b)) ∧
    (let a := Primality.probable (.fin (3 / 4)); let b := Primality.probable (.fin (4236247 / 8388608))
     (a.or b).or b ≠ a.or (b.or b)) := by
  decide +kernel

theorem F32.oneSub_unit {p : ℚ} (h0 : 0 ≤ p) (h1 : p ≤ 1) : F32.oneSub (.fin p) = .fin (roundNonneg (1 - p)) ∧
    0 ≤ roundNonneg (1 - p) ∧ roundNonneg (1 - p) ≤ 1 ∧ |roundNonneg (1 - p) - (1 - p)| ≤ 1 / 2 ^ 25 := by
  obtain ⟨a, b, c⟩ := F32.round_unit (show 0 ≤ 1 - p by linarith) (by linarith)
  exact ⟨a, b, c, roundNonneg_error (by linarith) (by linarith)⟩

theorem F32.mul_unit {p q : ℚ} (h0 : 0 ≤ p) (h1 : p ≤ 1) (g0 : 0 ≤ q) (g1 : q ≤ 1) :
    F32.mul (.fin p) (.fin q) = .fin (roundNonneg (p * q)) ∧
    0 ≤ roundNonneg (p * q) ∧ roundNonneg (p * q) ≤ 1 ∧ |roundNonneg (p * q) - p * q| ≤ 1 / 2 ^ 25 := by
  have a0 := mul_nonneg h0 g0
  have a1 := mul_le_one₀ h1 g0 g1
  obtain ⟨a, b, c⟩ := F32.round_unit a0 a1
  exact ⟨a, b, c, roundNonneg_error a0 a1⟩

/-- **C17** `&` of two probabilities: the product up to `2^-25`, and at most either of them -/
theorem C17_and_value (p q : ℚ) (hp : (Primality.probable (.fin p)).Valid) (hq : (Primality.probable (.fin q)).Valid) :
    ∃ v, (Primality.probable (.fin p)).and (.probable (.fin q)) = .probable (.fin v) ∧ |v - p * q| ≤ 1 / 2 ^ 25 ∧
      0 ≤ v ∧ v ≤ p ∧ v ≤ q := by
  obtain ⟨hp, h0, h1⟩ := hp
  obtain ⟨hq, g0, g1⟩ := hq
  obtain ⟨a, b, -, d⟩ := F32.mul_unit h0 h1 g0 g1
  refine ⟨_, by simp only [Primality.and, a], d, b, ?_, ?_⟩
  · exact roundNonneg_le (mul_nonneg h0 g0) hp (mul_le_of_le_one_right h0 g1)
  · exact roundNonneg_le (mul_nonneg h0 g0) hq (mul_le_of_le_one_left g0 h1)

/-- **C17** `|` of two probabilities: the probability that one of two independent events occurs, up to `2^-23` -/
theorem C17_or_value (p q : ℚ) (hp : (Primality.probable (.fin p)).Valid) (hq : (Primality.probable (.fin q)).Valid) :
    ∃ v, (Primality.probable (.fin p)).or (.probable (.fin q)) = .probable (.fin v) ∧
      |v - (p + q - p * q)| ≤ 1 / 2 ^ 23 ∧ 0 ≤ v ∧ v ≤ 1 := by
  obtain ⟨-, h0, h1⟩ := hp
  obtain ⟨-, g0, g1⟩ := hq
  obtain ⟨a1, a2, a3, a4⟩ := F32.oneSub_unit h0 h1
  obtain ⟨b1, b2, b3, b4⟩ := F32.oneSub_unit g0 g1
  obtain ⟨c1, c2, c3, c4⟩ := F32.mul_unit a2 a3 b2 b3
  obtain ⟨d1, d2, d3, d4⟩ := F32.oneSub_unit c2 c3
  refine ⟨_, by simp only [Primality.or, a1, b1, c1, d1], ?_, d2, d3⟩
  generalize roundNonneg (1 - roundNonneg (roundNonneg (1 - p) * roundNonneg (1 - q))) = z at *
  generalize roundNonneg (roundNonneg (1 - p) * roundNonneg (1 - q)) = w at *
  generalize roundNonneg (1 - p) = x at *
  generalize roundNonneg (1 - q) = y at *
  have e : z - (p + q - p * q) = (z - (1 - w)) - (w - x * y) - ((x - (1 - p)) * y + (1 - p) * (y - (1 - q))) := by ring
  rw [e]
  have h3 : |(x - (1 - p)) * y + (1 - p) * (y - (1 - q))| ≤ 1 / 2 ^ 24 := by
    refine (abs_add_le _ _).trans ?_
    rw [abs_mul, abs_mul, abs_of_nonneg b2, abs_of_nonneg (by linarith : 0 ≤ 1 - p)]
    have : |x - (1 - p)| * y ≤ 1 / 2 ^ 25 * 1 := mul_le_mul a4 b3 b2 (by norm_num)
    have : (1 - p) * |y - (1 - q)| ≤ 1 * (1 / 2 ^ 25) := mul_le_mul (by linarith) b4 (abs_nonneg _) (by norm_num)
    norm_num at *
    linarith
  refine (abs_sub _ _).trans ((add_le_add ((abs_sub _ _).trans (add_le_add d4 c4)) h3).trans (by norm_num))

theorem roundNonneg_valid {q : ℚ} (h0 : 0 ≤ q) (h1 : q ≤ 1) : (Primality.probable (.fin (roundNonneg q))).Valid :=
  ⟨roundNonneg_isF32 q h0, (F32.round_unit h0 h1).2⟩

/-- **C17 (partial)** probabilities stay in `[0, 1]`. The lower bound 0 is attained by underflow (`C17_underflow`), so
the interval `(0, 1]` of the property is not preserved. -/
theorem C17_valid_partial (a b : Primality) (ha : a.Valid) (hb : b.Valid) : (a.and b).Valid ∧ (a.or b).Valid := by
  rcases a with _ | _ | (p | _ | _) <;> rcases b with _ | _ | (q | _ | _) <;>
    first
    | exact ⟨trivial, trivial⟩ | exact ⟨ha, hb⟩ | exact ⟨hb, ha⟩ | exact ⟨trivial, ha⟩ | exact ⟨trivial, hb⟩
    | exact ⟨ha, trivial⟩ | exact ⟨hb, trivial⟩ | exact ha.elim | exact hb.elim
    | skip
  obtain ⟨-, h0, h1⟩ := ha
  obtain ⟨-, g0, g1⟩ := hb
  obtain ⟨a1, a2, a3, a4⟩ := F32.oneSub_unit h0 h1
  obtain ⟨b1, b2, b3, b4⟩ := F32.oneSub_unit g0 g1
  obtain ⟨c1, c2, c3, c4⟩ := F32.mul_unit a2 a3 b2 b3
  obtain ⟨d1, d2, d3, d4⟩ := F32.oneSub_unit c2 c3
  simp only [Primality.and, Primality.or, a1, b1, c1, d1, (F32.mul_unit h0 h1 g0 g1).1]
  exact ⟨roundNonneg_valid (mul_nonneg h0 g0) (mul_le_one₀ h1 g0 g1), roundNonneg_valid (by linarith) (by linarith)⟩

/-- **C17, finding** `&` of two positive probabilities can be 0, and `|` of two probabilities can be smaller than both of them -/
theorem C17_underflow :
    (Primality.probable (.fin (1 / 2 ^ 75))).and (.probable (.fin (1 / 2 ^ 75))) = .probable (.fin 0) ∧
    (Primality.probable (.fin (1 / 2 ^ 30))).or (.probable (.fin (1 / 2 ^ 30))) = .probable (.fin 0) := by
  decide +kernel

example : (Primality.probable (.fin (3 / 4))).and (.probable (.fin (1 / 2))) = .probable (.fin (3 / 8)) := by decide +kernel
example : (Primality.probable (.fin (3 / 4))).Valid := ⟨⟨3, -2, by norm_num, by norm_num, by norm_num⟩, by norm_num, by norm_num⟩

end NumPrime
