import Verif.Proofs.Interval
import Verif.Proofs.SieveMask
import Verif.Proofs.PrimeList

/-! # Checking the floating point estimates block by block

A range of arguments is cut into blocks on which the estimates are evaluated in interval arithmetic and compared with the number
of primes. The block lengths come from a certificate; whatever it contains, a successful check proves the bounds. -/

namespace NumPrime
open Spec

/-- expression of `fPiLo` -/
def piLoE (x : ℕ) : FE :=
  bif Nat.ble 468049 x then .div .n (.sub (.sub .ln (.lit 1 1)) .aux)
  else bif Nat.ble 88789 x then
    .mul (.mul .n .aux) (.add (.lit 1 1) (.mul .aux (.add (.lit 1 1) (.mul (.lit 2 1) .aux))))
  else bif Nat.ble 5393 x then .div .n (.sub .ln (.lit 1 1))
  else bif Nat.ble 599 x then .mul (.mul .n .aux) (.add (.lit 1 1) .aux)
  else .mul .n .aux

/-- expression of `fPiHi` -/
def piHiE (x : ℕ) : FE :=
  bif Nat.ble 7398600000 x then
    .mul (.mul .n .aux) (.add (.lit 1 1) (.mul .aux (.add (.lit 1 1)
      (.mul .aux (.add (.lit 2 1) (.mul .aux (.lit 759 100)))))))
  else bif Nat.ble 2953652287 x then
    .mul (.mul .n .aux) (.add (.lit 1 1) (.mul .aux (.add (.lit 1 1) (.mul .aux (.lit 2334 1000)))))
  else bif Nat.ble 467345 x then .div .n (.sub (.sub .ln (.lit 1 1)) (.mul (.lit 12311 10000) .aux))
  else bif Nat.ble 29927 x then
    .mul (.mul .n .aux) (.add (.lit 1 1) (.mul .aux (.add (.lit 1 1) (.mul .aux (.lit 253816 100000)))))
  else bif Nat.ble 5668 x then .div .n (.sub .ln (.lit 1112 1000))
  else bif Nat.ble 148 x then .mul (.mul .n .aux) (.add (.lit 1 1) (.mul .aux (.lit 12762 10000)))
  else .mul (.mul (.lit 125506 100000) .n) .aux

def nthAE (a b : ℕ) : FE :=
  .mul .n (.add (.sub (.add .ln .aux) (.lit 1 1)) (.div (.sub .aux (.lit a b)) .ln))
def nthBE (a b : ℕ) : FE :=
  .mul .n (.sub (.add (.sub (.add .ln .aux) (.lit 1 1)) (.div (.sub .aux (.lit 2 1)) .ln))
    (.div (.add (.sub (.mul .aux .aux) (.mul (.lit 6 1) .aux)) (.lit a b)) (.mul (.mul (.lit 2 1) .ln) .ln)))
def nthCE (a b : ℕ) : FE := .mul .n (.sub (.add .ln .aux) (.lit a b))

/-- expression of `fNthLo` -/
def nthLoE (x : ℕ) : FE :=
  bif Nat.ble 317200 x then nthBE 11321 1000
  else bif Nat.ble 3520 x then nthAE 21 10
  else nthCE 1 1

/-- expression of `fNthHi` -/
def nthHiE (x : ℕ) : FE :=
  bif Nat.ble 46254381 x then nthBE 10667 1000
  else bif Nat.ble 8009824 x then nthBE 10273 1000
  else bif Nat.ble 688383 x then nthAE 2 1
  else bif Nat.ble 178974 x then nthAE 195 100
  else bif Nat.ble 39017 x then nthCE 9484 10000
  else bif Nat.ble 27076 x then nthAE 18 10
  else nthCE 5 10

theorem ble_cond {α : Type} (a b : ℕ) (x y : α) : (bif Nat.ble a b then x else y) = if b ≥ a then x else y := by
  rw [Bool.cond_eq_ite]
  simp only [Nat.ble_eq, ge_iff_le]

theorem piLoE_eval (F : FloatOps) (x : ℕ) :
    (piLoE x).eval F (F.ofNat x) (F.ln (F.ofNat x)) (F.div (F.lit 1 1) (F.ln (F.ofNat x))) = fPiLo F x := by
  simp only [piLoE, fPiLo, ble_cond]
  split_ifs <;> rfl

theorem piHiE_eval (F : FloatOps) (x : ℕ) :
    (piHiE x).eval F (F.ofNat x) (F.ln (F.ofNat x)) (F.div (F.lit 1 1) (F.ln (F.ofNat x))) = fPiHi F x := by
  simp only [piHiE, fPiHi, ble_cond]
  split_ifs <;> rfl

theorem nthLoE_eval (F : FloatOps) (x : ℕ) :
    (nthLoE x).eval F (F.ofNat x) (F.ln (F.ofNat x)) (F.ln (F.ln (F.ofNat x))) = fNthLo F x := by
  simp only [nthLoE, fNthLo, ble_cond]
  split_ifs <;> rfl

theorem nthHiE_eval (F : FloatOps) (x : ℕ) :
    (nthHiE x).eval F (F.ofNat x) (F.ln (F.ofNat x)) (F.ln (F.ln (F.ofNat x))) = fNthHi F x := by
  simp only [nthHiE, fNthHi, ble_cond]
  split_ifs <;> rfl

/-- no threshold of the list lies strictly inside the block -/
def noCut : List ℕ → ℕ → ℕ → Bool
  | [], _, _ => true
  | t :: ts, a, b => bif Nat.ble t a then noCut ts a b else bif Nat.ble t b then false else noCut ts a b

theorem noCut_iff {ts : List ℕ} {a b x : ℕ} (h : noCut ts a b = true) (ha : a ≤ x) (hb : x ≤ b) :
    ∀ t ∈ ts, (Nat.ble t x = Nat.ble t a) := by
  induction ts with
  | nil => simp
  | cons t ts ih =>
    simp only [noCut, ble_cond] at h
    intro u hu
    rcases List.mem_cons.mp hu with rfl | hu
    · split at h
      · rw [Bool.eq_iff_iff, Nat.ble_eq, Nat.ble_eq]
        omega
      · split at h
        · simp at h
        · rw [Bool.eq_iff_iff, Nat.ble_eq, Nat.ble_eq]
          omega
    · split at h
      · exact ih h u hu
      · split at h
        · simp at h
        · exact ih h u hu

def piCuts : List ℕ := [468049, 88789, 5393, 599, 7398600000, 2953652287, 467345, 29927, 5668, 148]
def nthCuts : List ℕ := [317200, 3520, 46254381, 8009824, 688383, 178974, 39017, 27076]

theorem piLoE_congr {a b x : ℕ} (h : noCut piCuts a b = true) (ha : a ≤ x) (hb : x ≤ b) : piLoE x = piLoE a := by
  have := noCut_iff h ha hb
  unfold piLoE
  rw [this 468049 (by decide), this 88789 (by decide), this 5393 (by decide), this 599 (by decide)]

theorem piHiE_congr {a b x : ℕ} (h : noCut piCuts a b = true) (ha : a ≤ x) (hb : x ≤ b) : piHiE x = piHiE a := by
  have := noCut_iff h ha hb
  unfold piHiE
  rw [this 7398600000 (by decide), this 2953652287 (by decide), this 467345 (by decide), this 29927 (by decide),
    this 5668 (by decide), this 148 (by decide)]

theorem nthLoE_congr {a b x : ℕ} (h : noCut nthCuts a b = true) (ha : a ≤ x) (hb : x ≤ b) : nthLoE x = nthLoE a := by
  have := noCut_iff h ha hb
  unfold nthLoE
  rw [this 317200 (by decide), this 3520 (by decide)]

theorem nthHiE_congr {a b x : ℕ} (h : noCut nthCuts a b = true) (ha : a ≤ x) (hb : x ≤ b) : nthHiE x = nthHiE a := by
  have := noCut_iff h ha hb
  unfold nthHiE
  rw [this 46254381 (by decide), this 8009824 (by decide), this 688383 (by decide), this 178974 (by decide),
    this 39017 (by decide), this 27076 (by decide)]

/-- `z < n * fixS` -/
def ltScaled (z : ℤ) (n : ℕ) : Bool :=
  match z with
  | .ofNat a => Nat.ble (Nat.succ a) (Nat.mul n fixS)
  | .negSucc _ => true

/-- `n * fixS ≤ z` -/
def leScaled (n : ℕ) (z : ℤ) : Bool :=
  match z with
  | .ofNat a => Nat.ble (Nat.mul n fixS) a
  | .negSucc _ => false

theorem ltScaled_lt {i : Iv} {x : ℝ} (h : i.has x) {n : ℕ} (hn : 0 < n) (hl : ltScaled i.hi n = true) : x < n := by
  have hS := fixS_pos
  have h2 := h.2
  have hn' : (0 : ℝ) < n := by exact_mod_cast hn
  have : x * fixS < n * fixS := by
    unfold ltScaled at hl
    cases hi : i.hi with
    | ofNat a =>
      rw [hi] at hl h2
      dsimp only at hl
      rw [Nat.ble_eq] at hl
      have : (a : ℝ) < ((n * fixS : ℕ) : ℝ) := by exact_mod_cast hl
      push_cast at this
      simp only [Int.ofNat_eq_natCast, Int.cast_natCast] at h2
      linarith
    | negSucc a =>
      rw [hi] at h2
      have h3 : ((Int.negSucc a : ℤ) : ℝ) < 0 := by exact_mod_cast Int.negSucc_lt_zero a
      have : 0 < (n : ℝ) * fixS := by positivity
      linarith
  exact lt_of_mul_lt_mul_right this hS.le

theorem leScaled_le {i : Iv} {x : ℝ} (h : i.has x) {n : ℕ} (hl : leScaled n i.lo = true) : (n : ℝ) ≤ x := by
  have hS := fixS_pos
  have h2 := h.1
  have : n * fixS ≤ x * fixS := by
    unfold leScaled at hl
    cases hi : i.lo with
    | ofNat a =>
      rw [hi] at hl h2
      dsimp only at hl
      rw [Nat.ble_eq] at hl
      have : ((n * fixS : ℕ) : ℝ) ≤ (a : ℝ) := by exact_mod_cast hl
      push_cast at this
      simp only [Int.ofNat_eq_natCast, Int.cast_natCast] at h2
      linarith
    | negSucc a =>
      rw [hi] at hl
      simp at hl
  exact le_of_mul_le_mul_right this hS

/-- chooses the reference point: the given one if it is near, a new one otherwise -/
def LnRef.near (r : LnRef) (i : Iv) (k : LnRef → Bool) : Bool :=
  match i with
  | ⟨.ofNat a, .ofNat b⟩ =>
    bif Nat.ble r.m a && Nat.ble (Nat.mul b 32) (Nat.mul r.m 33) then k r
    else bif Nat.ble 1 a then
      forceN a fun m => forceN (lnLo m) fun l => forceN (lnHi m) fun h => k ⟨m, l, h⟩
    else false
  | _ => false

theorem LnRef.near_sound {r : LnRef} (hr : r.Valid) {i : Iv} (k : LnRef → Bool) (h : r.near i k = true) :
    ∃ r' : LnRef, r'.Valid ∧ k r' = true := by
  unfold LnRef.near at h
  split at h
  · rename_i a b
    simp only [forceN_eq, Bool.cond_eq_ite] at h
    split at h
    · exact ⟨r, hr, h⟩
    · split at h
      · rename_i ha
        rw [Nat.ble_eq] at ha
        exact ⟨⟨a, lnLo a, lnHi a⟩, ⟨ha, lnLo_le ha, le_lnHi ha⟩, h⟩
      · simp at h
  · simp at h

/-- the box of `n`, `ln n`, `1 / ln n` for `n` in `[a, b]` -/
def piBox (r : LnRef) (a b : ℕ) (k : LnRef → Box → Bool) : Bool :=
  (Iv.ofNat a b).any fun n => r.near n fun r => (n.lnR r).any fun ln => (Iv.lit 1 1).any fun one => (one.div ln).any fun inv =>
    k r ⟨n, ln, inv⟩

/-- the box of `n`, `ln n`, `ln (ln n)` for `n` in `[a, b]` -/
def nthBox (r r2 : LnRef) (a b : ℕ) (k : LnRef → LnRef → Box → Bool) : Bool :=
  (Iv.ofNat a b).any fun n => r.near n fun r => (n.lnR r).any fun ln => r2.near ln fun r2 => (ln.lnR r2).any fun lnln =>
    k r r2 ⟨n, ln, lnln⟩

theorem piBox_sound {r : LnRef} (hr : r.Valid) {a b : ℕ} {k : LnRef → Box → Bool} (h : piBox r a b k = true) :
    ∃ r' B, r'.Valid ∧ k r' B = true ∧ ∀ F : FloatOps, F.Accurate → ∀ n, a ≤ n → n ≤ b →
      B.has (F.ofNat n) (F.ln (F.ofNat n)) (F.div (F.lit 1 1) (F.ln (F.ofNat n))) := by
  unfold piBox at h
  obtain ⟨i, hi, h⟩ := Option.any_eq_true _ _ |>.mp h
  obtain ⟨r', hr', h⟩ := LnRef.near_sound hr _ h
  obtain ⟨l, hl, h⟩ := Option.any_eq_true _ _ |>.mp h
  obtain ⟨o, ho, h⟩ := Option.any_eq_true _ _ |>.mp h
  obtain ⟨v, hv, h⟩ := Option.any_eq_true _ _ |>.mp h
  refine ⟨r', _, hr', h, fun F hF n ha hb => ?_⟩
  have h1 := Iv.ofNat_sound hF ha hb hi
  have h2 := Iv.lnR_sound hF hr' h1 hl
  exact ⟨h1, h2, Iv.div_sound hF (Iv.lit_sound hF ho) h2 hv⟩

theorem nthBox_sound {r r2 : LnRef} (hr : r.Valid) (hr2 : r2.Valid) {a b : ℕ} {k : LnRef → LnRef → Box → Bool}
    (h : nthBox r r2 a b k = true) :
    ∃ r' r2' B, r'.Valid ∧ r2'.Valid ∧ k r' r2' B = true ∧ ∀ F : FloatOps, F.Accurate → ∀ n, a ≤ n → n ≤ b →
      B.has (F.ofNat n) (F.ln (F.ofNat n)) (F.ln (F.ln (F.ofNat n))) := by
  unfold nthBox at h
  obtain ⟨i, hi, h⟩ := Option.any_eq_true _ _ |>.mp h
  obtain ⟨r', hr', h⟩ := LnRef.near_sound hr _ h
  obtain ⟨l, hl, h⟩ := Option.any_eq_true _ _ |>.mp h
  obtain ⟨r2', hr2', h⟩ := LnRef.near_sound hr2 _ h
  obtain ⟨v, hv, h⟩ := Option.any_eq_true _ _ |>.mp h
  refine ⟨r', r2', _, hr', hr2', h, fun F hF n ha hb => ?_⟩
  have h1 := Iv.ofNat_sound hF ha hb hi
  have h2 := Iv.lnR_sound hF hr' h1 hl
  exact ⟨h1, h2, Iv.lnR_sound hF hr2' h2 hv⟩

/-- the check of `prime_pi_bounds` on `[a, e)`: `M` is the mask of the primes, `k = π(a - 1)`, the certificate holds block lengths -/
def piPass (e ke : ℕ) : ℕ → ℕ → ℕ → ℕ → LnRef → ℕ → Bool
  | 0, _, _, _, _, _ => false
  | f + 1, M, a, k, r, cert => forceN (Nat.mod cert 32768) fun d =>
    bif Nat.beq d 0 then Nat.beq a e && Nat.beq k ke
    else forceN (Nat.add a d) fun a' => bif Nat.ble a' e && noCut piCuts a (Nat.sub a' 1) then
      forceN (Nat.mod M (Nat.pow 2 d)) fun ch => forceN (Nat.add (popMod (Nat.add (Nat.div d 16) 1) ch) k) fun c =>
        piBox r a (Nat.sub a' 1) fun r B =>
          ((piLoE a).ieval B).any fun l => bif ltScaled l.hi (Nat.succ k) && leScaled 0 l.lo then
            ((piHiE a).ieval B).any fun h => bif leScaled c h.lo && ltScaled h.hi (Nat.div a 2) then
              forceN (Nat.shiftRight M d) fun M => forceN (Nat.shiftRight cert 15) fun cert => piPass e ke f M a' c r cert
            else false
          else false
    else false

/-- the check of `nth_prime_bounds` for the primes in `[a, e)`; the certificate also holds the offset of the last prime of
each block -/
def nthPass (e ke : ℕ) : ℕ → ℕ → ℕ → ℕ → LnRef → LnRef → ℕ → Bool
  | 0, _, _, _, _, _, _ => false
  | f + 1, M, a, k, r, r2, cert => forceN (Nat.mod cert 32768) fun d =>
    bif Nat.beq d 0 then Nat.beq a e && Nat.beq k ke
    else forceN (Nat.add a d) fun a' => bif Nat.ble a' e then
      forceN (Nat.mod M (Nat.pow 2 d)) fun ch => forceN (Nat.add (popMod (Nat.add (Nat.div d 16) 1) ch) k) fun c =>
        forceN (Nat.shiftRight M d) fun M => forceN (Nat.mod (Nat.shiftRight cert 15) 32768) fun t =>
        forceN (Nat.shiftRight cert 30) fun cert =>
          bif Nat.beq c k then nthPass e ke f M a' c r r2 cert
          else bif noCut nthCuts (Nat.succ k) c then
            nthBox r r2 (Nat.succ k) c fun r r2 B =>
              ((nthLoE (Nat.succ k)).ieval B).any fun l =>
                bif ltScaled l.hi (Nat.succ a) && leScaled (bif Nat.ble c 4096 then 0 else 300) l.lo then
                  ((nthHiE (Nat.succ k)).ieval B).any fun h =>
                    bif Nat.ble (Nat.succ ch) (Nat.pow 2 (Nat.succ t)) && leScaled (Nat.add a t) h.lo &&
                      ltScaled h.hi (Nat.add (Nat.add a (Nat.div a 16)) 60) &&
                      ltScaled h.hi (Nat.mul (Nat.succ k) (Nat.succ k)) then
                      nthPass e ke f M a' c r r2 cert
                    else false
                else false
          else false
    else false

/-- the bounds of `prime_pi_bounds` are right at `x`, before truncation -/
structure PiOK (F : FloatOps) (x : ℕ) : Prop where
  lo : fPiLo F x < (Nat.primeCounting x : ℝ) + 1
  hi : (Nat.primeCounting x : ℝ) ≤ fPiHi F x
  lt : fPiHi F x < x / 2
  pos : 0 ≤ fPiLo F x

/-- the bounds of `nth_prime_bounds` are right at `n`, before truncation, and moderate -/
structure NthOK (F : FloatOps) (n : ℕ) : Prop where
  lo : fNthLo F n < (nthPrime n : ℝ) + 1
  hi : (nthPrime n : ℝ) ≤ fNthHi F n
  pos : 0 ≤ fNthLo F n
  big : 4096 < n → 300 ≤ fNthLo F n
  lt : fNthHi F n < ((nthPrime n + nthPrime n / 16 + 60 : ℕ) : ℝ)
  sq : fNthHi F n < (n : ℝ) * n

theorem mask_step {e M a d : ℕ} (ha : 0 < a) (hM : M = maskSpec a (e - a)) (hd : a + d ≤ e) (hd2 : d < 32768) :
    Nat.mod M (Nat.pow 2 d) = maskSpec a d ∧ Nat.shiftRight M d = maskSpec (a + d) (e - (a + d)) ∧
      popMod (Nat.add (Nat.div d 16) 1) (maskSpec a d) + Nat.primeCounting (a - 1) = Nat.primeCounting (a + d - 1) := by
  have h : e - a = d + (e - (a + d)) := by omega
  rw [h] at hM
  subst hM
  refine ⟨maskSpec_mod _ _ _, ?_, popMod_mask _ _ _ ha ?_ (by omega)⟩
  · show (_ : ℕ) >>> d = _
    rw [Nat.shiftRight_eq_div_pow, maskSpec_div]
  · show d ≤ 16 * (d / 16 + 1)
    omega

theorem piPass_sound {e ke : ℕ} : ∀ f M a k r cert, 2 ≤ a → a ≤ e → M = maskSpec a (e - a) → k = Nat.primeCounting (a - 1) →
    r.Valid → piPass e ke f M a k r cert = true →
    ke = Nat.primeCounting (e - 1) ∧ ∀ F : FloatOps, F.Accurate → ∀ x, a ≤ x → x < e → PiOK F x := by
  intro f
  induction f with
  | zero => intro M a k r cert _ _ _ _ _ h; simp [piPass] at h
  | succ f ih =>
    intro M a k r cert ha hae hM hk hr h
    simp only [piPass, forceN_eq, Bool.cond_eq_ite] at h
    have hd : Nat.mod cert 32768 < 32768 := Nat.mod_lt _ (by norm_num)
    generalize Nat.mod cert 32768 = d at h hd
    split at h
    · simp only [Bool.and_eq_true, Nat.beq_eq] at h
      obtain ⟨rfl, rfl⟩ := h
      exact ⟨hk, fun F _ x h1 h2 => absurd h1 (not_le.mpr h2)⟩
    · rename_i hd0
      rw [Nat.beq_eq] at hd0
      split at h
      swap
      · simp at h
      rename_i hc
      simp only [Bool.and_eq_true, Nat.ble_eq] at hc
      obtain ⟨hle, hcut⟩ := hc
      rw [Nat.add_eq] at hle h hcut
      obtain ⟨m1, m2, m3⟩ := mask_step (by omega) hM hle hd
      rw [m1, m2] at h
      rw [Nat.sub_eq] at h hcut
      obtain ⟨r', B, hr', h, hB⟩ := piBox_sound hr h
      obtain ⟨l, hl, h⟩ := Option.any_eq_true _ _ |>.mp h
      split at h
      swap
      · simp at h
      rename_i hlo
      rw [Bool.and_eq_true] at hlo
      obtain ⟨u, hu, h⟩ := Option.any_eq_true _ _ |>.mp h
      split at h
      swap
      · simp at h
      rename_i hhi
      rw [Bool.and_eq_true] at hhi
      rw [Nat.add_eq, hk, m3] at h hhi
      obtain ⟨h1, h2⟩ := ih _ _ _ _ _ (by omega) hle rfl rfl hr' h
      refine ⟨h1, fun F hF x hx hxe => ?_⟩
      rcases Nat.lt_or_ge x (a + d) with hxd | hxd
      · have hBx := hB F hF x hx (by omega)
        have v1 := FE.ieval_sound hF hBx _ hl
        have v2 := FE.ieval_sound hF hBx _ hu
        rw [← piLoE_congr hcut hx (by omega), piLoE_eval] at v1
        rw [← piHiE_congr hcut hx (by omega), piHiE_eval] at v2
        have w1 := ltScaled_lt v1 (Nat.succ_pos _) hlo.1
        have w2 := leScaled_le v2 hhi.1
        refine ⟨?_, ?_, ?_, by exact_mod_cast leScaled_le v1 hlo.2⟩
        rotate_left 2
        · have w3 := ltScaled_lt v2 (show 0 < Nat.div a 2 from Nat.div_pos ha two_pos) hhi.2
          have w4 : ((Nat.div a 2 : ℕ) : ℝ) ≤ (a : ℝ) / 2 := Nat.cast_div_le (n := 2)
          have w5 : (a : ℝ) ≤ x := by exact_mod_cast hx
          linarith
        · refine lt_of_lt_of_le w1 ?_
          have : Nat.primeCounting (a - 1) ≤ Nat.primeCounting x := Nat.monotone_primeCounting (by omega)
          rw [hk]
          exact_mod_cast Nat.succ_le_succ this
        · refine le_trans ?_ w2
          have : Nat.primeCounting x ≤ Nat.primeCounting (a + d - 1) := Nat.monotone_primeCounting (by omega)
          exact_mod_cast this
      · exact h2 F hF x hxd hxe

theorem nthPass_sound {e ke : ℕ} : ∀ f M a k r r2 cert, 0 < a → a ≤ e → M = maskSpec a (e - a) → k = Nat.primeCounting (a - 1) →
    r.Valid → r2.Valid → nthPass e ke f M a k r r2 cert = true →
    ke = Nat.primeCounting (e - 1) ∧ ∀ F : FloatOps, F.Accurate → ∀ n, k < n → n ≤ ke → NthOK F n := by
  intro f
  induction f with
  | zero => intro M a k r r2 cert _ _ _ _ _ _ h; simp [nthPass] at h
  | succ f ih =>
    intro M a k r r2 cert ha hae hM hk hr hr2 h
    simp only [nthPass, forceN_eq, Bool.cond_eq_ite] at h
    have hd : Nat.mod cert 32768 < 32768 := Nat.mod_lt _ (by norm_num)
    generalize Nat.mod cert 32768 = d at h hd
    split at h
    · simp only [Bool.and_eq_true, Nat.beq_eq] at h
      obtain ⟨rfl, rfl⟩ := h
      exact ⟨hk, fun F _ x h1 h2 => absurd h1 (not_lt.mpr h2)⟩
    · rename_i hd0
      rw [Nat.beq_eq] at hd0
      split at h
      swap
      · simp at h
      rename_i hle
      rw [Nat.ble_eq] at hle
      obtain ⟨m1, m2, m3⟩ := mask_step ha hM hle hd
      rw [m1, m2] at h
      simp only [Nat.add_eq] at hle h m3
      simp only [hk, m3] at h
      split at h
      · rename_i hck
        rw [Nat.beq_eq] at hck
        obtain ⟨h1, h2⟩ := ih _ _ _ _ _ _ (by omega) hle rfl rfl hr hr2 h
        refine ⟨h1, fun F hF n hn hne => h2 F hF n ?_ hne⟩
        omega
      · rename_i hck
        rw [Nat.beq_eq] at hck
        split at h
        swap
        · simp at h
        rename_i hcut
        generalize hT : (if (Nat.primeCounting (a + d - 1)).ble 4096 = true then 0 else 300) = T at h
        obtain ⟨r', r2', B, hr', hr2', h, hB⟩ := nthBox_sound hr hr2 h
        obtain ⟨l, hl, h⟩ := Option.any_eq_true _ _ |>.mp h
        split at h
        swap
        · simp at h
        rename_i hlo
        rw [Bool.and_eq_true] at hlo
        obtain ⟨u, hu, h⟩ := Option.any_eq_true _ _ |>.mp h
        split at h
        swap
        · simp at h
        rename_i hhi
        simp only [Bool.and_eq_true] at hhi
        obtain ⟨⟨⟨hht, hhi⟩, h31⟩, hsq⟩ := hhi
        rw [Nat.ble_eq] at hht
        obtain ⟨h1, h2⟩ := ih _ _ _ _ _ _ (by omega) hle rfl rfl hr' hr2' h
        refine ⟨h1, fun F hF n hn hne => ?_⟩
        rcases Nat.lt_or_ge (Nat.primeCounting (a + d - 1)) n with hnd | hnd
        · exact h2 F hF n hnd hne
        · rw [hk] at hn
          have hn1 : 1 ≤ n := by omega
          have hp := nthPrime_prime n
          have hq1 : a ≤ nthPrime n := by
            by_contra hc
            have := (nthPrime_le_iff hn1 (x := a - 1)).mp (by omega)
            omega
          have hq2 : nthPrime n ≤ a + d - 1 := (nthPrime_le_iff hn1).mpr hnd
          have hlog : nthPrime n - a ≤ Nat.mod (Nat.shiftRight cert 15) 32768 := by
            have h2 : (maskSpec a d).testBit (nthPrime n - a) = true := by
              refine (testBit_bits (fun i => (a + i).Prime) d _).mpr ⟨by omega, ?_⟩
              show (a + (nthPrime n - a)).Prime
              rwa [Nat.add_sub_cancel' hq1]
            have h3 := Nat.ge_two_pow_of_testBit h2
            exact Nat.le_of_lt_succ ((Nat.pow_lt_pow_iff_right (by norm_num : 1 < 2)).mp (lt_of_le_of_lt h3 hht))
          have hBx := hB F hF n hn hnd
          have v1 := FE.ieval_sound hF hBx _ hl
          have v2 := FE.ieval_sound hF hBx _ hu
          rw [← nthLoE_congr hcut hn hnd, nthLoE_eval] at v1
          rw [← nthHiE_congr hcut hn hnd, nthHiE_eval] at v2
          have w1 := ltScaled_lt v1 (Nat.succ_pos _) hlo.1
          have w2 := leScaled_le v2 hhi
          have w3 := leScaled_le v1 hlo.2
          have w4 := ltScaled_lt v2 (Nat.succ_pos _) h31
          have w5 := ltScaled_lt v2 (Nat.mul_pos (Nat.succ_pos _) (Nat.succ_pos _)) hsq
          refine ⟨?_, ?_, le_trans (Nat.cast_nonneg _) w3, fun hb => ?_, lt_of_lt_of_le w4 ?_, lt_of_lt_of_le w5 ?_⟩
          · refine lt_of_lt_of_le w1 ?_
            exact_mod_cast Nat.succ_le_succ hq1
          · refine le_trans ?_ w2
            have : nthPrime n ≤ a + Nat.mod (Nat.shiftRight cert 15) 32768 := by omega
            exact_mod_cast this
          · have hc : Nat.ble (Nat.primeCounting (a + d - 1)) 4096 ≠ true := by rw [Ne, Nat.ble_eq]; omega
            rw [if_neg hc] at hT
            subst hT
            exact_mod_cast w3
          · have : a + Nat.div a 16 + 60 ≤ nthPrime n + nthPrime n / 16 + 60 := by
              have : a / 16 ≤ nthPrime n / 16 := Nat.div_le_div_right hq1
              show a + a / 16 + 60 ≤ _
              omega
            exact_mod_cast this
          · exact_mod_cast Nat.mul_le_mul hn hn

/-- one segment: the sieve and both checks -/
def segCheck (A e k0 ke fp fn cp cn : ℕ) : Bool :=
  forceN (sieveMask A (Nat.sub e A)) fun M =>
    piPass e ke fp M A k0 ⟨1, 0, 0⟩ cp && nthPass e ke fn M A k0 ⟨1, 0, 0⟩ ⟨1, 0, 0⟩ cn

theorem segCheck_sound {A e k0 ke fp fn cp cn : ℕ} (hA : 2 ≤ A) (hAe : A ≤ e) (he : e ≤ 66699889)
    (hk : k0 = Nat.primeCounting (A - 1)) (h : segCheck A e k0 ke fp fn cp cn = true) :
    ke = Nat.primeCounting (e - 1) ∧ (∀ F : FloatOps, F.Accurate → ∀ x, A ≤ x → x < e → PiOK F x) ∧
      ∀ F : FloatOps, F.Accurate → ∀ n, k0 < n → n ≤ ke → NthOK F n := by
  unfold segCheck at h
  rw [forceN_eq, Bool.and_eq_true, Nat.sub_eq, sieveMask_eq hA (by omega)] at h
  have hv : (⟨1, 0, 0⟩ : LnRef).Valid := ⟨Nat.one_pos, by simp, by simp⟩
  obtain ⟨h1, h2⟩ := piPass_sound _ _ _ _ _ _ (by omega) hAe rfl hk hv h.1
  exact ⟨h1, h2, (nthPass_sound _ _ _ _ _ _ _ (by omega) hAe rfl hk hv hv h.2).2⟩

end NumPrime
