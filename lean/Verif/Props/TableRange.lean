import Verif.Proofs.IsPrime
import Verif.Model.Lookup
import Verif.Tables.ZetaLog

/-! # C104: table lookups and shifts by table residues are in range

A lookup outside of a table panics in every build, and so does a shift by 64 or more bits with overflow checks. Most models read tables
with a default value. Model/Lookup.lean has the same functions with every index, shift and narrowing conversion checked; the theorems below
say that no check ever fails, so both agree. -/

namespace NumPrime
open Tables

/-- lookup in a table kept in 32 chunks of 512 entries -/
theorem chunk_lookup {cs : List (List ℕ)} (hl : cs.length = 32) (hc : base64Check cs = true) (h : ℕ) (hh : h < 16384) :
    ∃ c, cs[h / 512]? = some c ∧ c.length = 512 ∧ c[h % 512]? = some ((cs.getD (h / 512) []).getD (h % 512) 0) := by
  have h1 : h / 512 < cs.length := by rw [hl]; omega
  have e1 : cs.getD (h / 512) [] = cs[h / 512] := by
    rw [List.getD_eq_getElem?_getD, List.getElem?_eq_getElem h1, Option.getD_some]
  have h2 := List.all_eq_true.mp hc _ (List.getElem_mem h1)
  rw [Bool.and_eq_true, decide_eq_true_iff] at h2
  have h3 : h % 512 < cs[h / 512].length := by rw [h2.1]; omega
  refine ⟨cs[h / 512], List.getElem?_eq_getElem h1, h2.1, ?_⟩
  rw [e1, List.getD_eq_getElem?_getD, List.getElem?_eq_getElem h3, Option.getD_some]

/-- **C104** `is_prime64`, build with big tables: the hash of every number is an index of the table of bases (32 bit: 256 entries;
64 bit: 16384 entries, kept here in 32 chunks of 512) -/
theorem C104_base_lookup (n : ℕ) :
    hash32 n < mrBase32.length ∧ hash64 n < 16384 ∧ mrBase64Chunks.length = 32 ∧
    ∃ c, mrBase64Chunks[hash64 n / 512]? = some c ∧ c.length = 512 ∧ c[hash64 n % 512]? = some (mrBase64At (hash64 n)) :=
  ⟨lt_of_lt_of_eq (hash32_lt n) mrBase32_length.symm, hash64_lt n, mrBase64Chunks_length,
    chunk_lookup mrBase64Chunks_length mrBase64_check _ (hash64_lt n)⟩

/-- **C104** `is_prime64`, `next_prime` and `prev_prime`: every residue modulo the wheel size is an index of both wheel tables, and the
steps along the wheel stay residues -/
theorem C104_wheel_lookup (bld : Build) (n d : ℕ) :
    n % wheelSize bld < (wheelNext bld).length ∧ n % wheelSize bld < (wheelPrev bld).length ∧
    addm (n % wheelSize bld) d (wheelSize bld) < (wheelNext bld).length ∧
    subm (n % wheelSize bld) d (wheelSize bld) < (wheelPrev bld).length := by
  have hp : 0 < wheelSize bld := lt_of_lt_of_le (by norm_num) (wheelSize_pos bld)
  rw [wheelNext_length, wheelPrev_length]
  exact ⟨Nat.mod_lt _ hp, Nat.mod_lt _ hp, Nat.mod_lt _ hp, by unfold subm; exact Nat.mod_lt _ hp⟩

/-- **C104** `moebius`: the index is within the four words of the table and the shift below 64 -/
theorem C104_moebius_lookup (v : ℕ) (hv : v < 256) : v >>> 6 < moebiusOdd.length ∧ v &&& 63 < 64 := by
  have h : ∀ v < 256, v >>> 6 < moebiusOdd.length ∧ v &&& 63 < 64 := by decide +kernel
  exact h v hv

/-- **C104** `sqrt_exact` and `cbrt_exact` of big integers, build with big tables: there is one table per modulus, every residue has a
bit in it and fits `u16` -/
theorem C104_residue_lookup_big (n : ℕ) :
    quadModuliB.length = quadResidualB.length ∧ cubicModuliB.length = cubicResidualB.length ∧
    (∀ x ∈ quadModuliB.zip quadResidualB, n % x.1 / 64 < x.2.length ∧ n % x.1 < 2 ^ 16) ∧
    ∀ x ∈ cubicModuliB.zip cubicResidualB, n % x.1 / 64 < x.2.length ∧ n % x.1 < 2 ^ 16 := by
  have h1 : ∀ x ∈ quadModuliB.zip quadResidualB, 0 < x.1 ∧ x.1 ≤ 64 * x.2.length ∧ x.1 ≤ 2 ^ 16 := by decide +kernel
  have h2 : ∀ x ∈ cubicModuliB.zip cubicResidualB, 0 < x.1 ∧ x.1 ≤ 64 * x.2.length ∧ x.1 ≤ 2 ^ 16 := by decide +kernel
  have key : ∀ m l : ℕ, 0 < m ∧ m ≤ 64 * l ∧ m ≤ 2 ^ 16 → n % m / 64 < l ∧ n % m < 2 ^ 16 := by
    intro m l ⟨h0, h3, h4⟩
    have := Nat.mod_lt n h0
    omega
  exact ⟨by decide +kernel, by decide +kernel, fun x hx => key _ _ (h1 x hx), fun x hx => key _ _ (h2 x hx)⟩

/-- **C104** the same functions in the build without big tables: there is one word per modulus, every residue fits `u8` and the shifts are
below 64 (for squares after masking, which matters for the modulus 65 only) -/
theorem C104_residue_lookup_small (n : ℕ) :
    quadModuliS.length = quadResidualS.length ∧ cubicModuliS.length = cubicResidualS.length ∧
    (∀ m ∈ quadModuliS, n % m < 2 ^ 8 ∧ (n % m) &&& 63 < 64 ∧ (m ≠ 65 → (n % m) &&& 63 = n % m)) ∧
    ∀ m ∈ cubicModuliS, n % m < 64 := by
  have h1 : ∀ m ∈ quadModuliS, 0 < m ∧ (m ≤ 64 ∨ m = 65) := by decide +kernel
  have h2 : ∀ m ∈ cubicModuliS, 0 < m ∧ m ≤ 64 := by decide +kernel
  have h3 : ∀ r, r &&& 63 = r % 64 := fun r => Nat.and_two_pow_sub_one_eq_mod r 6
  refine ⟨by decide +kernel, by decide +kernel, fun m hm => ?_, fun m hm => ?_⟩
  · obtain ⟨h0, h4⟩ := h1 m hm
    have := Nat.mod_lt n h0
    rw [h3]
    omega
  · obtain ⟨h0, h4⟩ := h2 m hm
    have := Nat.mod_lt n h0
    omega

/-- **C104** `prime_pi_est`: the series uses the first 64 entries of the table, which has exactly as many -/
theorem C104_zeta_lookup (k : ℕ) (h1 : 1 ≤ k) (h64 : k ≤ 64) : k - 1 < zetaLogTable.length ∧ zetaLogTable.length = 64 := by
  have h : zetaLogTable.length = 64 := by decide +kernel
  omega

/-! ## the functions with checked lookups -/

theorem idx_ok {l : List ℕ} {i : ℕ} (h : i < l.length) : idx l i = .ok (l.getD i 0) := by
  unfold idx
  rw [List.getElem?_eq_getElem h, List.getD_eq_getElem?_getD, List.getElem?_eq_getElem h, Option.getD_some]

theorem idxChunk_ok {cs : List (List ℕ)} (hl : cs.length = 32) (hc : base64Check cs = true) (h : ℕ) (hh : h < 16384) :
    idxChunk cs h = .ok ((cs.getD (h / 512) []).getD (h % 512) 0) := by
  obtain ⟨c, h1, -, h2⟩ := chunk_lookup hl hc h hh
  unfold idxChunk idx
  rw [h1]
  simp only [Res.bind_ok]
  rw [h2]

theorem idxBase64_ok (n : ℕ) : idxBase64 (hash64 n) = .ok (mrBase64At (hash64 n)) :=
  idxChunk_ok mrBase64Chunks_length mrBase64_check _ (hash64_lt n)

theorem shr64_ok {x s : ℕ} (h : s < 64) : shr64 x s = .ok (x >>> s) := if_pos h

theorem isPrime64MillerIdx_ok (bld : Build) (n : ℕ) : isPrime64MillerIdx bld n = .ok (isPrime64Miller bld n) := by
  cases bld with
  | small => simp only [isPrime64MillerIdx, isPrime64Miller, apply_ite Res.ok]
  | big =>
    simp only [isPrime64MillerIdx, isPrime64Miller, isPrime32Miller, apply_ite Res.ok]
    rw [idx_ok (C104_base_lookup n).1, idxBase64_ok]
    simp only [Res.bind_ok, Res.pure_def]

theorem wheelRejectsIdx_ok (bld : Build) (n : ℕ) : wheelRejectsIdx bld n = .ok (wheelRejects bld n) := by
  have h1 := (C104_wheel_lookup bld n 0).1
  unfold wheelRejectsIdx wheelRejects
  simp only
  by_cases h0 : n % wheelSize bld = 0
  · rw [if_pos h0, h0]; rfl
  · rw [if_neg h0, idx_ok h1, idx_ok (show n % wheelSize bld - 1 < (wheelNext bld).length by omega), beq_eq_false_iff_ne.mpr h0]
    simp only [Res.bind_ok, Res.pure_def, Bool.false_or]

/-- **C104** `is_prime64` returns a value for every number: none of its lookups panics -/
theorem C104_is_prime64 (bld : Build) (n : ℕ) : isPrime64Idx bld n = .ok (isPrime64 bld n) := by
  unfold isPrime64Idx isPrime64
  rw [wheelRejectsIdx_ok, isPrime64MillerIdx_ok]
  simp only [Res.bind_ok, Res.pure_def]
  split_ifs <;> rfl

/-- **C104** the search loop of `next_prime` never leaves the wheel table -/
theorem C104_next_prime (bld : Build) (w : Width) (config : Option PrimalityTestConfig) (draws : ℕ → List ℕ) (fuel t n : ℕ) :
    nextPrimeLoopIdx bld w config draws fuel t (n % wheelSize bld) = nextPrimeLoop bld w config draws fuel t (n % wheelSize bld) := by
  induction fuel generalizing t n with
  | zero => rfl
  | succ f ih =>
    unfold nextPrimeLoopIdx nextPrimeLoop
    rw [idx_ok (C104_wheel_lookup bld n 0).1]
    simp only [Res.bind_ok, addm, ih]

/-- **C104** the search loop of `prev_prime` never leaves the wheel table -/
theorem C104_prev_prime (bld : Build) (w : Width) (config : Option PrimalityTestConfig) (draws : ℕ → List ℕ) (fuel t n : ℕ) :
    prevPrimeLoopIdx bld w config draws fuel t (n % wheelSize bld) = prevPrimeLoop bld w config draws fuel t (n % wheelSize bld) := by
  induction fuel generalizing t n with
  | zero => rfl
  | succ f ih =>
    unfold prevPrimeLoopIdx prevPrimeLoop
    rw [idx_ok (C104_wheel_lookup bld n 0).2.1]
    simp only [Res.bind_ok, subm, ih]

/-- **C104** `moebius` on odd targets up to 256 -/
theorem C104_moebius (n : ℕ) (hodd : n % 2 = 1) (hn : n ≤ 256) : moebiusLookupIdx (n - 1) = .ok (moebiusLookup (n - 1)) := by
  have h : ∀ n ≤ 256, n % 2 = 1 → moebiusLookupIdx (n - 1) = .ok (moebiusLookup (n - 1)) := by decide +kernel
  exact h n hn hodd

theorem residueLoopB_ok (n : ℕ) : ∀ l : List (ℕ × List ℕ), (∀ x ∈ l, n % x.1 / 64 < x.2.length ∧ n % x.1 < 2 ^ 16) →
    residueLoopB n l = .ok (l.any fun (m, res) => residueBitB res (n % m) == 0)
  | [], _ => rfl
  | (m, res) :: t, h => by
    obtain ⟨h1, h2⟩ := h (m, res) List.mem_cons_self
    unfold residueLoopB toUnwrap
    rw [if_pos h2]
    simp only [Res.bind_ok]
    rw [idx_ok h1]
    simp only [Res.bind_ok]
    rw [shr64_ok (Nat.mod_lt _ (by norm_num))]
    simp only [Res.bind_ok, List.any_cons, residueBitB, Res.pure_def]
    rw [residueLoopB_ok n t fun x hx => h x (List.mem_cons_of_mem _ hx)]
    split_ifs with h3
    · rw [h3, beq_self_eq_true, Bool.true_or]
    · rw [beq_eq_false_iff_ne.mpr h3, Bool.false_or]; rfl

theorem quadLoopS_ok (n : ℕ) : ∀ l : List (ℕ × ℕ), (∀ x ∈ l, n % x.1 < 2 ^ 8) →
    quadLoopS n l = .ok (l.any fun (m, res) => (res >>> ((n % m) &&& 63)) &&& 1 == 0)
  | [], _ => rfl
  | (m, res) :: t, h => by
    have h2 := h (m, res) List.mem_cons_self
    unfold quadLoopS toUnwrap
    rw [if_pos h2]
    simp only [Res.bind_ok]
    rw [shr64_ok (Nat.and_lt_two_pow _ (show 63 < 2 ^ 6 by norm_num))]
    simp only [Res.bind_ok, List.any_cons, Res.pure_def]
    rw [quadLoopS_ok n t fun x hx => h x (List.mem_cons_of_mem _ hx)]
    split_ifs with h3
    · simp [h3]
    · rw [beq_eq_false_iff_ne.mpr h3, Bool.false_or]

theorem cubicLoopS_ok (n : ℕ) : ∀ l : List (ℕ × ℕ), (∀ x ∈ l, n % x.1 < 64) →
    cubicLoopS n l = .ok (l.any fun (m, res) => (res >>> (n % m)) &&& 1 == 0)
  | [], _ => rfl
  | (m, res) :: t, h => by
    have h2 : n % m < 64 := h (m, res) List.mem_cons_self
    unfold cubicLoopS toUnwrap
    rw [if_pos (lt_trans h2 (by norm_num))]
    simp only [Res.bind_ok]
    rw [shr64_ok h2]
    simp only [Res.bind_ok, List.any_cons, Res.pure_def]
    rw [cubicLoopS_ok n t fun x hx => h x (List.mem_cons_of_mem _ hx)]
    split_ifs with h3
    · simp [h3]
    · rw [beq_eq_false_iff_ne.mpr h3, Bool.false_or]

/-- **C104** `sqrt_exact` of every big integer: no residue fails to convert or leaves its table -/
theorem C104_sqrt_exact (bld : Build) (n : ℕ) : sqrtExactBigIdx bld n = sqrtExactBig bld n := by
  unfold sqrtExactBigIdx sqrtExactBig
  rw [residueLoopB_ok n _ (C104_residue_lookup_big n).2.2.1,
    quadLoopS_ok n _ fun x hx => ((C104_residue_lookup_small n).2.2.1 _ (List.of_mem_zip hx).1).1]
  cases bld <;> rfl

/-- **C104** `cbrt_exact` of every big integer -/
theorem C104_cbrt_exact (bld : Build) (n : ℕ) : cbrtExactBigIdx bld n = .ok (cbrtExactBig bld n) := by
  unfold cbrtExactBigIdx cbrtExactBig
  rw [residueLoopB_ok n _ (C104_residue_lookup_big n).2.2.2,
    cubicLoopS_ok n _ fun x hx => (C104_residue_lookup_small n).2.2.2 _ (List.of_mem_zip hx).1]
  cases bld <;> simp only [Res.bind_ok, Res.pure_def] <;> split_ifs <;> rfl

example : isPrime64Idx .big 1000003 = .ok true ∧ isPrime64Idx .small 1000001 = .ok false := by decide +kernel
example : idx (wheelNext .small) 30 = .panic ∧ idx (wheelNext .small) 29 = .ok 2 := by decide +kernel
example : sqrtExactBigIdx .big ((2 ^ 33 + 1) ^ 2) = .ok (some (2 ^ 33 + 1)) := by
  rw [C104_sqrt_exact]; decide +kernel
example : cbrtExactBigIdx .small (5 * 2 ^ 66) = .ok none := by decide +kernel
example : moebiusLookupIdx 104 = .ok (-1) ∧ moebiusLookupIdx 63 ≠ .panic := by decide +kernel

end NumPrime
