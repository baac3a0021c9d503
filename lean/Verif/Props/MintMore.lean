import Verif.Model.MintMore
import Verif.Props.MintOps
import Verif.Props.Roots

/-! # C77: the remaining methods of `SmallMint`; C98: `SmallMint` without debug assertions -/

namespace NumPrime
open Mint Spec

/-- **C77** `pow` of a plain number is its exact power if that fits the type, and panics otherwise; a reduced number has no `pow` -/
theorem C77_pow (w : Width) (a e r m : ℕ) :
    (Mint.pow w (left a) e = if fits w (a ^ e) then .ok (left (a ^ e)) else .panic) ∧ Mint.pow w (right r m) e = .panic :=
  ⟨rfl, rfl⟩

example : Mint.pow (some 8) (left 3) 5 = .ok (left 243) ∧ Mint.pow (some 8) (left 3) 6 = .panic := by decide

/-- **C77** `%` panics exactly for an even plain divisor of a plain number, for a plain divisor other than the modulus of a reduced
number, and for a reduced divisor; `a % m` is congruent to `a`, and taking the remainder again changes nothing -/
theorem C77_rem_total (a b : Mint) :
    (rem a b = .panic ↔ b.isReduced = true ∨ (∃ x m, a = left x ∧ b = left m ∧ m % 2 = 0) ∨
      (∃ x m m', a = right x m ∧ b = left m' ∧ m ≠ m')) ∧
    (∀ r, rem a b = .ok r → rem r b = .ok r ∧ r.isReduced = true ∧ (r.value : ZMod b.value) = a.value) := by
  cases a with
  | left x =>
    cases b with
    | left m =>
      constructor
      · simp only [rem, reduced]; split <;> simp [Mint.isReduced] <;> omega
      · intro r
        simp only [rem, reduced]
        split
        · intro h
          simp only [Res.ok.injEq] at h
          subst h
          exact ⟨by simp [rem], rfl, ZMod.natCast_mod x m⟩
        · simp
    | right y m => simp [rem, Mint.isReduced]
  | right x m =>
    cases b with
    | left m' =>
      constructor
      · simp only [rem]; split <;> simp [Mint.isReduced] <;> omega
      · intro r
        simp only [rem]
        split
        · rename_i hm
          intro h
          simp only [Res.ok.injEq] at h
          subst h hm
          exact ⟨by simp [rem], rfl, rfl⟩
        · simp
    | right y m' => simp [rem, Mint.isReduced]

example : rem (left 20) (left 7) = .ok (right 6 7) ∧ rem (right 6 7) (left 7) = .ok (right 6 7) ∧ rem (right 6 7) (left 5) = .panic := by decide

/-- **C77** the modular operations with two operands panic unless both are reduced by the plain number given as the modulus -/
theorem C77_modular_ops_panic (a b m : Mint) :
    (maddm a b m = .panic ↔ ¬ ∃ x y k, a = right x k ∧ b = right y k ∧ m = left k) ∧
    (msubm a b m = .panic ↔ ¬ ∃ x y k, a = right x k ∧ b = right y k ∧ m = left k) ∧
    (mmulm a b m = .panic ↔ ¬ ∃ x y k, a = right x k ∧ b = right y k ∧ m = left k) := by
  cases a <;> cases b <;> cases m <;> simp [maddm, msubm, mmulm]

/-- **C77** a plain number has the exact bits, bit length, trailing zeros, shifts and roots of the integer -/
theorem C77_plain_bits (w : Width) (v : ℕ) :
    (∀ i, (∀ n, w = some n → i < n) → mbit w (left v) i = .ok (decide (v / 2 ^ i % 2 = 1))) ∧
    (∀ i n, w = some n → n ≤ i → mbit w (left v) i = .panic) ∧
    (∃ l, mbits (left v) = .ok l ∧ v < 2 ^ l ∧ ∀ k, v < 2 ^ k → l ≤ k) ∧
    (v ≠ 0 → ∃ t, mtrailingZeros w (left v) = .ok t ∧ 2 ^ t ∣ v ∧ ¬ 2 ^ (t + 1) ∣ v) ∧
    mtrailingZeros w (left 0) = .ok (w.getD 0) ∧
    (∀ s, (∀ n, w = some n → s < n) → mshr w (left v) s = .ok (left (v / 2 ^ s))) ∧
    (∀ s n, w = some n → n ≤ s → mshr w (left v) s = .panic) := by
  refine ⟨fun i hi => ?_, fun i n h hi => ?_, ⟨v.size, ?_, Nat.lt_size_self v, fun k h => Nat.size_le.mpr h⟩, fun h0 => ?_, rfl,
    fun s h => ?_, fun s n h hs => ?_⟩
  · obtain ⟨x, h1, h2⟩ := C58_bit w v i hi
    simp only [mbit, plain, Res.bind]
    rw [h1]
    congr 1
    rw [Bool.eq_iff_iff, h2, decide_eq_true_iff]
  · subst h
    simp [mbit, plain, Res.bind, bit, Nat.not_lt.mpr hi]
  · simp only [mbits, plain, Res.mapR_ok, bitLen_eq_size]
  · refine ⟨tz v, by simp [mtrailingZeros, plain, Res.mapR, trailingZeros, h0], (tz_spec (by omega)).1, fun h => ?_⟩
    have h2 := (tz_spec (n := v) (by omega)).2
    obtain ⟨c, hc⟩ := h
    have h3 : v / 2 ^ tz v = 2 * c :=
      Nat.div_eq_of_eq_mul_right (by positivity) (by rw [← mul_assoc, ← pow_succ]; exact hc)
    omega
  · cases w with
    | none => simp [mshr, plain, Res.bind, cshr, Res.mapR, Nat.shiftRight_eq_div_pow]
    | some n => simp [mshr, plain, Res.bind, cshr, Res.mapR, h n rfl, Nat.shiftRight_eq_div_pow]
  · subst h
    simp [mshr, plain, Res.bind, cshr, Res.mapR, Nat.not_lt.mpr hs]

example : mbits (left 20) = .ok 5 ∧ mtrailingZeros (some 8) (left 20) = .ok 2 ∧ mshr (some 8) (left 20) 2 = .ok (left 5) ∧
    mshr (some 8) (left 20) 8 = .panic ∧ mbit (some 8) (left 20) 4 = .ok true ∧ mbit (some 8) (left 20) 8 = .panic := by decide

/-- **C77** roots of a plain number: `nth_root` rounds down, `nth_root_exact` and `is_square` find exactly the perfect powers -/
theorem C77_plain_roots (v k : ℕ) (hk : 1 ≤ k) :
    (∃ r, mnthRoot (left v) k = .ok (left r) ∧ r ^ k ≤ v ∧ v < (r + 1) ^ k) ∧
    (∀ r, mnthRootExact (left v) k = .ok (some (left r)) ↔ r ^ k = v) ∧
    (mnthRootExact (left v) k = .ok none ↔ ¬ ∃ r, r ^ k = v) ∧
    (Mint.isSquare (left v) = .ok true ↔ IsSquare v) ∧ (Mint.isSquare (left v) = .ok false ↔ ¬ IsSquare v) := by
  have hk0 : k ≠ 0 := by omega
  have he := nthRootExact_iff hk0 v
  have h2 := nthRootExact_iff (e := 2) (by norm_num) v
  have hs : (nthRootExact v 2).isSome = true ↔ IsSquare v := by
    rw [Option.isSome_iff_exists]
    constructor
    · rintro ⟨r, hr⟩
      exact ⟨r, by rw [← (h2 r).mp hr, sq]⟩
    · rintro ⟨r, hr⟩
      exact ⟨r, (h2 r).mpr (by rw [hr, sq])⟩
  refine ⟨⟨iroot k v, by simp [mnthRoot, plain, Res.bind, hk0], iroot_spec hk0 v⟩, fun r => ?_, ?_, ?_, ?_⟩
  · rw [← he r]
    simp [mnthRootExact, plain, Res.mapR]
  · simp only [mnthRootExact, plain, Res.mapR, Res.ok.injEq, Option.map_eq_none_iff]
    constructor
    · rintro h ⟨r, hr⟩
      rw [(he r).mpr hr] at h
      simp at h
    · intro h
      cases hx : nthRootExact v k with
      | none => rfl
      | some r => exact absurd ⟨r, (he r).mp hx⟩ h
  · simp only [Mint.isSquare, plain, Res.mapR, Res.ok.injEq]; exact hs
  · simp only [Mint.isSquare, plain, Res.mapR, Res.ok.injEq, ← hs, Bool.not_eq_true]

example : mnthRoot (left 30) 3 = .ok (left 3) ∧ mnthRootExact (left 27) 3 = .ok (some (left 3)) ∧
    mnthRootExact (left 28) 3 = .ok none ∧ Mint.isSquare (left 36) = .ok true := by decide +kernel

/-- **C77** a reduced number has no bits, shifts or roots: these calls panic; and no number has an `invm` -/
theorem C77_reduced_panics (w : Width) (r m k : ℕ) (a b : Mint) :
    mbit w (right r m) k = .panic ∧ mbits (right r m) = .panic ∧ mtrailingZeros w (right r m) = .panic ∧
    mshr w (right r m) k = .panic ∧ mnthRoot (right r m) k = .panic ∧ mnthRootExact (right r m) k = .panic ∧
    Mint.isSquare (right r m) = .panic ∧ minvm a b = .panic :=
  ⟨rfl, rfl, rfl, rfl, rfl, rfl, rfl, rfl⟩

/-- **C77** the Jacobi symbol of a plain or reduced number over a plain odd number; it is undefined (`None`, a panic of `jacobi`) for an even one -/
theorem C77_jacobi (a : Mint) (n : ℕ) :
    (n % 2 = 1 → mcheckedJacobi a (left n) = .ok (some (jacobiSym a.value n)) ∧ mjacobi a (left n) = .ok (jacobiSym a.value n)) ∧
    (n % 2 = 0 → mcheckedJacobi a (left n) = .ok none ∧ mjacobi a (left n) = .panic) := by
  constructor
  · intro h
    simp [mcheckedJacobi, mjacobi, h, jacobi_eq h]
  · intro h
    simp [mcheckedJacobi, mjacobi, h]

example : mcheckedJacobi (right 5 21) (left 21) = .ok (some 1) ∧ mcheckedJacobi (left 5) (left 20) = .ok none := by decide +kernel

/-- **C77** the parity tests are those of the value; exactly one of them is true -/
theorem C77_parity (a : Mint) : (a.isOdd = true ↔ ¬ 2 ∣ a.value) ∧ a.isOdd = !a.isEven := by
  have h : a.isOdd = true ↔ a.value % 2 = 1 := by simp [isOdd]
  refine ⟨by rw [h]; omega, ?_⟩
  rw [Bool.eq_iff_iff, h]
  simp [isEven]

/-- **C77** the conversions from and to 64-bit integers keep the value, and fail exactly if it does not fit -/
theorem C77_conversions (w : Width) :
    (∀ v b, fromU64 w v = some b → b.value = v ∧ b.isReduced = false) ∧ (∀ v, fromU64 w v = none ↔ fits w v = false) ∧
    (∀ (v : ℤ) b, fromI64 w v = some b → (b.value : ℤ) = v ∧ b.isReduced = false) ∧
    (∀ v : ℤ, fromI64 w v = none ↔ v < 0 ∨ fits w v.toNat = false) ∧
    (∀ a u, toU64 a = some u ↔ u = a.value ∧ a.value < 2 ^ 64) ∧ (∀ a u, toI64 a = some u ↔ u = a.value ∧ a.value < 2 ^ 63) := by
  refine ⟨fun v b => ?_, fun v => ?_, fun v b => ?_, fun v => ?_, fun a u => ?_, fun a u => ?_⟩
  · simp only [fromU64]
    split
    · intro h
      simp only [Option.some.injEq] at h
      subst h
      exact ⟨rfl, rfl⟩
    · simp
  · simp [fromU64]
  · simp only [fromI64]
    split
    · rename_i hc
      intro h
      simp only [Option.some.injEq] at h
      subst h
      exact ⟨Int.toNat_of_nonneg hc.1, rfl⟩
    · simp
  · simp only [fromI64]
    split
    · rename_i hc
      simp [hc.2]; omega
    · rename_i hc
      simp only [true_iff]
      by_cases h : 0 ≤ v
      · right; simpa [h] using hc
      · left; omega
  · simp only [toU64]; split <;> simp_all [eq_comm]
  · simp only [toI64]; split <;> simp_all [eq_comm]

example : fromU64 (some 8) 200 = some (left 200) ∧ fromU64 (some 8) 300 = none ∧ fromI64 (some 8) (-3) = none ∧ toU64 (right 5 7) = some 5 := by decide

/-- **C77** the forwarded methods see only the value of the number, whether it is reduced or not; the symbols panic for a reduced second
argument; what is read from a string or a floating point number is plain and has the value the integer type reads -/
theorem C77_forwarded {ε φ : Type} (l : ℕ → ℕ → Option ℤ) (k : ℕ → ℕ → ℤ) (p : String → ℕ → Except ε ℕ) (g : φ → Option ℕ)
    (h : ℕ → Option φ) (a : Mint) :
    (∀ n, mcheckedLegendre l a (left n) = .ok (l a.value n) ∧ mkronecker k a (left n) = .ok (k a.value n)) ∧
    (∀ n m, mcheckedLegendre l a (right n m) = .panic ∧ mkronecker k a (right n m) = .panic) ∧
    (∀ s r, (∀ v, p s r = .ok v → mfromStrRadix p s r = .ok (left v)) ∧ (∀ e, p s r = .error e → mfromStrRadix p s r = .error e)) ∧
    (∀ x, (∀ v, g x = some v → mfromF64 g x = some (left v)) ∧ (g x = none → mfromF64 g x = none)) ∧
    mtoF64 h a = h a.value ∧ (∀ v, (fromInt v).value = v ∧ (fromInt v).isReduced = false) ∧
    (∀ r m, (fromReduced r m).value = r ∧ (fromReduced r m).isReduced = true) := by
  refine ⟨fun n => ?_, fun n m => ?_, fun s r => ⟨fun v hv => ?_, fun e he => ?_⟩, fun x => ⟨fun v hv => ?_, fun hv => ?_⟩, ?_,
    fun v => ⟨rfl, rfl⟩, fun r m => ⟨rfl, rfl⟩⟩
  · cases a <;> exact ⟨rfl, rfl⟩
  · cases a <;> exact ⟨rfl, rfl⟩
  · simp [mfromStrRadix, hv, Except.map]
  · simp [mfromStrRadix, he, Except.map]
  · simp [mfromF64, hv]
  · simp [mfromF64, hv]
  · cases a <;> rfl

example : mkronecker (fun a n => (a : ℤ) - n) (right 5 7) (left 3) = .ok 2 ∧ mtoF64 (fun v => some (v : ℚ)) (right 5 7) = some 5 := by
  decide +kernel

/-! ## C98: release mode -/

/-- **C98** on numbers reduced by one modulus `m`, or plain, the operations without debug assertions are those with them -/
theorem C98_mint_release_agrees (m : ℕ) (a b : Mint) (ha : Over m a) (hb : Over m b) (e : Mint) :
    remRel a (left m) = rem a (left m) ∧ mnegmRel a (left m) = mnegm a (left m) ∧ mdblmRel a (left m) = mdblm a (left m) ∧
    msqmRel a (left m) = msqm a (left m) ∧ mpowmRel a e (left m) = mpowm a e (left m) ∧
    partialCmp a b = .ok (partialCmpRel a b) := by
  have hu : unaryRel a (left m) = unary a (left m) := by
    cases a with
    | left v => rfl
    | right v m' => obtain ⟨rfl, -⟩ := ha; simp [unary, unaryRel]
  refine ⟨?_, by rw [mnegmRel, hu, mnegm], by rw [mdblmRel, hu, mdblm], by rw [msqmRel, hu, msqm], ?_, ?_⟩
  · cases a with
    | left v => rfl
    | right v m' => obtain ⟨rfl, -⟩ := ha; simp [rem, remRel]
  · cases a with
    | left v => cases e <;> rfl
    | right v m' => obtain ⟨rfl, -⟩ := ha; cases e <;> simp [mpowm, mpowmRel]
  · cases a with
    | left v => cases b <;> rfl
    | right v m' =>
      obtain ⟨rfl, -⟩ := ha
      cases b with
      | left y => rfl
      | right y m2 => obtain ⟨rfl, -⟩ := hb; simp [partialCmp, partialCmpRel, value]

/-- **C98** whatever an operation returns with debug assertions, it returns without them -/
theorem C98_mint_release_refines (a b e r : Mint) :
    (rem a b = .ok r → remRel a b = .ok r) ∧ (mnegm a b = .ok r → mnegmRel a b = .ok r) ∧ (mdblm a b = .ok r → mdblmRel a b = .ok r) ∧
    (msqm a b = .ok r → msqmRel a b = .ok r) ∧ (mpowm a e b = .ok r → mpowmRel a e b = .ok r) := by
  have hu : ∀ x, unary a b = .ok x → unaryRel a b = .ok x := by
    intro x
    cases a <;> cases b <;> simp [unary, unaryRel]
    split <;> simp_all
  have hm : ∀ f : ℕ × ℕ → Mint, (unary a b).mapR f = .ok r → (unaryRel a b).mapR f = .ok r := by
    intro f
    cases hx : unary a b with
    | ok x => rw [hu x hx]; exact id
    | panic => simp [Res.mapR]
    | timeout => simp [Res.mapR]
  refine ⟨?_, hm _, hm _, hm _, ?_⟩
  · cases a <;> cases b <;> simp [rem, remRel]
    split <;> simp_all
  · cases a <;> cases b <;> cases e <;> simp [mpowm, mpowmRel]
    split <;> simp_all

/-- **C98** finding: where the debug build stops because the divisor is not the modulus of the reduced number, the release build goes on
with the old modulus: `a % m'` is `a` as it was, and `negm`, `dblm`, `sqm`, `powm` compute modulo the old `m` -/
theorem C98_mint_release_wrong_modulus (x m m' e : ℕ) (h : m ≠ m') :
    rem (right x m) (left m') = .panic ∧ remRel (right x m) (left m') = .ok (right x m) ∧
    msqm (right x m) (left m') = .panic ∧ msqmRel (right x m) (left m') = .ok (right (x * x % m) m) ∧
    mdblm (right x m) (left m') = .panic ∧ mdblmRel (right x m) (left m') = .ok (right ((x + x) % m) m) ∧
    mpowm (right x m) (left e) (left m') = .panic ∧ mpowmRel (right x m) (left e) (left m') = .ok (right (x ^ e % m) m) := by
  refine ⟨by simp [rem, h], rfl, by simp [msqm, unary, h, Res.mapR], rfl, by simp [mdblm, unary, h, Res.mapR], rfl, by simp [mpowm, h], ?_⟩
  simp [mpowmRel, powm_eq]

-- 10 modulo 21, remainder by 5: the release build answers 10
example : remRel (right 10 21) (left 5) = .ok (right 10 21) := by decide

end NumPrime
