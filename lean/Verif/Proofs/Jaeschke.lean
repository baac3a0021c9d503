import Verif.Proofs.ExactSmall
import Verif.Proofs.Orders

/-! # No composite below `2^32` passes the strong tests to the bases 2, 7 and 61

The statement is due to Jaeschke (1993); here the search that proves it is a function evaluated by the kernel and proved sound.
If a prime `q` divides `n` and `n` passes, then `n - 1` is a multiple of the exponent `L q` of the group generated by 2, 7, 61
modulo `q`. The search chooses prime factors of `n` in descending order; with the product `M` of the primes chosen so far and the least
common multiple `l` of their exponents, `n` is a multiple of `M` and `n - 1` one of `l`. When few such `n` remain below `2^32` they are
tested one by one (`runStep`), otherwise the next prime is chosen (`kids`). A prime factor `q` above `2^16` occurs at most once, and
divides `gcd (2^(M-1) - 1, 7^(M-1) - 1, 61^(M-1) - 1)` where `n = M * q`; `noBig` checks that this number has no such factor. -/

namespace NumPrime
open Tables Spec

/-- passes the strong tests and has no factor 2, 3, 5, 7, 61 -/
structure Pass (n : ℕ) : Prop where
  cop : Nat.gcd n 12810 = 1
  s2 : StrongPRP n 2
  s7 : StrongPRP n 7
  s61 : StrongPRP n 61

/-- `n` is not `Pass` -/
def fails (n : ℕ) : Bool :=
  cond (Nat.beq (Nat.gcd n 12810) 1)
  (cond (Nat.beq (fermatPow 2 n) 1) (cond (Nat.beq (fermatPow 7 n) 1) (cond (Nat.beq (fermatPow 61 n) 1)
    (!(sprp64 n 2 && sprp64 n 7 && sprp64 n 61)) true) true) true) true

/-- `n, n + s, n + 2 s, … < 2 ^ 32` all fail -/
def runStep (s f : ℕ) : ℕ → Bool :=
  Nat.rec (motive := fun _ => ℕ → Bool) (fun _ => false)
    (fun _ ih n => force n fun n => cond (Nat.ble 4294967296 n) true (cond (fails n) (ih (Nat.add n s)) false)) f

/-- the coefficients of the Euclidean algorithm, up to sign -/
def invStep (f : ℕ) : ℕ → ℕ → ℕ → ℕ → ℕ :=
  Nat.rec (motive := fun _ => ℕ → ℕ → ℕ → ℕ → ℕ) (fun _ _ s0 _ => s0)
    (fun _ ih r0 r1 s0 s1 => Nat.rec s0 (fun _ _ => force (Nat.mod r0 r1) fun r2 =>
      force (Nat.add s0 (Nat.mul (Nat.div r0 r1) s1)) fun s2 => ih r1 r2 s1 s2) r1) f

/-- the inverse of `M` modulo `l`, up to sign (the callers check the value) -/
def invMod (M l : ℕ) : ℕ := force (Nat.mod M l) fun r => invStep 40 l r 0 1

/-- `t` is the inverse of `M` modulo `l`, and the multiples `M * t'` with `t'` congruent to `t` modulo `l` fail -/
def leafAt (M l t : ℕ) : Bool :=
  cond (Nat.beq (Nat.mod (Nat.mul M t) l) (Nat.mod 1 l)) (cond (Nat.ble t l)
    (force (Nat.mul M l) fun s => runStep s (Nat.add (Nat.div 4294967296 s) 2) (Nat.mul M t)) false) false
def leaf (M l : ℕ) : Bool :=
  force (invMod M l) fun t => cond (leafAt M l t) true (leafAt M l (Nat.sub l t))

/-- no prime above `2^16` can be the cofactor of `M` (`P` is a multiple of the smaller primes) -/
def noBig (P M : ℕ) : Bool :=
  cond (Nat.ble 65536 M) true (
    force (Nat.gcd (Nat.gcd (Nat.sub (Nat.pow 2 (Nat.sub M 1)) 1) (Nat.sub (Nat.pow 7 (Nat.sub M 1)) 1))
      (Nat.sub (Nat.pow 61 (Nat.sub M 1)) 1)) fun G =>
    Nat.beq (Nat.div G (Nat.gcd G (Nat.mod (Nat.pow (Nat.mod P G) 32) G))) 1)

/-- choose the next prime factor from the list -/
def kids (node : ℕ → ℕ → List (ℕ × ℕ) → Bool) (M l : ℕ) (ps : List (ℕ × ℕ)) : Bool :=
  List.rec (motive := fun _ => Bool) true
  (fun p ps ih => force p.1 fun r => force (Nat.mul M r) fun m =>
      cond (cond (Nat.ble 4294967296 m) true (force p.2 fun k => node m (Nat.div (Nat.mul l k) (Nat.gcd l k)) (p :: ps)))
        ih false) ps

def isLeaf (M l : ℕ) (ps : List (ℕ × ℕ)) : Bool :=
  List.rec (motive := fun _ => Bool) true (fun p _ _ => Nat.ble 4294967296 (Nat.mul (Nat.mul M l) (Nat.add 10 p.1))) ps

/-- no multiple of `M` below `2^32` passes -/
def node (P f : ℕ) : ℕ → ℕ → List (ℕ × ℕ) → Bool :=
  Nat.rec (motive := fun _ => ℕ → ℕ → List (ℕ × ℕ) → Bool) (fun _ _ _ => false)
    (fun _ ih M l ps => force l fun l => cond (Nat.beq (Nat.gcd M l) 1) (cond (fails M)
      (cond (isLeaf M l ps) (leaf M l) (cond (noBig P M) (kids ih M l ps) (leaf M l))) false) true) f

/-- no proper multiple of `M` below `2^32` passes, `M` the largest prime factor below `2^16` -/
def top (P M l : ℕ) (ps : List (ℕ × ℕ)) : Bool :=
  force M fun M => force l fun l => force (Nat.mul M l) fun s =>
  cond (isLeaf M l ps) (runStep s (Nat.add (Nat.div 4294967296 s) 2) (Nat.add M s))
    (cond (noBig P M) (kids (node P 10) M l ps) (runStep s (Nat.add (Nat.div 4294967296 s) 2) (Nat.add M s)))

/-- `top` for the first `k` primes of the list -/
def tops (P : ℕ) : ℕ → List (ℕ × ℕ) → Bool
  | 0, _ => true
  | _ + 1, [] => true
  | k + 1, (q, l) :: ps => cond (top P q l ((q, l) :: ps)) (tops P k ps) false

def prodPs : List (ℕ × ℕ) → ℕ → ℕ
  | [], a => a
  | (q, _) :: ps, a => force (Nat.mul q a) fun a => prodPs ps a

/-! ## Soundness of the search -/

theorem Pass.two_lt {n : ℕ} (h : Pass n) (h1 : 1 < n) : 2 < n ∧ n % 2 = 1 := by
  have : n % 2 = 1 := by
    have h2 : Nat.gcd n 2 = 1 := Nat.Coprime.coprime_dvd_right (by norm_num) h.cop
    by_contra hc
    have : 2 ∣ Nat.gcd n 2 := Nat.dvd_gcd (by omega) dvd_rfl
    rw [h2] at this; omega
  omega

theorem Pass.fermat {n : ℕ} (h : Pass n) (h1 : 1 < n) : 2 ^ (n - 1) % n = 1 ∧ 7 ^ (n - 1) % n = 1 ∧ 61 ^ (n - 1) % n = 1 := by
  have e : 1 % n = 1 := Nat.mod_eq_of_lt h1
  exact ⟨(fermat_of_strong h.s2).trans e, (fermat_of_strong h.s7).trans e, (fermat_of_strong h.s61).trans e⟩

theorem beq_false_of_ne {a b : ℕ} (h : a ≠ b) : Nat.beq a b = false := by
  rw [Bool.eq_false_iff]; intro h'; exact h (Nat.eq_of_beq_eq_true h')

theorem cond_eq_true_iff {a b c : Bool} : (cond a b c = true) ↔ (a = true ∧ b = true) ∨ (a = false ∧ c = true) := by
  cases a <;> simp

theorem fails_sound {n : ℕ} (h1 : 1 < n) (h : fails n = true) : ¬ Pass n := by
  intro hp
  obtain ⟨h2, hodd⟩ := hp.two_lt h1
  obtain ⟨f2, f7, f61⟩ := hp.fermat h1
  rw [fails, hp.cop, fermatPow_eq, fermatPow_eq, fermatPow_eq, f2, f7, f61, (sprp64_iff h2 hodd 2).mpr hp.s2,
    (sprp64_iff h2 hodd 7).mpr hp.s7, (sprp64_iff h2 hodd 61).mpr hp.s61] at h
  simp at h

theorem runStep_sound (s : ℕ) : ∀ (f n : ℕ), runStep s f n = true → ∀ k, n + k * s < 2 ^ 32 → fails (n + k * s) = true
  | 0, n, h, _, _ => by simp [runStep] at h
  | f + 1, n, h, k, hk => by
    have h' : (force n fun n => cond (Nat.ble 4294967296 n) true (cond (fails n) (runStep s f (Nat.add n s)) false)) = true := h
    rw [force_eq] at h'
    have hn : Nat.ble 4294967296 n = false := by
      rw [Bool.eq_false_iff, ne_eq, Nat.ble_eq]
      have : 0 ≤ k * s := Nat.zero_le _
      omega
    rw [hn] at h'
    simp only [cond_false, cond_eq_true_iff, Bool.false_eq_true, and_false, or_false] at h'
    cases k with
    | zero => simpa using h'.1
    | succ k =>
      have := runStep_sound s f (n + s) h'.2 k (by rw [Nat.succ_mul] at hk; omega)
      rwa [show n + s + k * s = n + (k + 1) * s by ring] at this

/-- every passing multiple of `M` is 1 modulo `l` -/
def Mult (M l : ℕ) : Prop := ∀ n, M ∣ n → 1 < n → Pass n → l ∣ n - 1

theorem leafAt_sound {M l t0 : ℕ} (hM : 1 < M) (hl : Mult M l) (h : leafAt M l t0 = true) (t : ℕ) (ht : 0 < t) (hN : M * t < 2 ^ 32) :
    ¬ Pass (M * t) := by
  intro hp
  have h1 : 1 < M * t := lt_of_lt_of_le hM (Nat.le_mul_of_pos_right M ht)
  have hd := hl _ (dvd_mul_right M t) h1 hp
  simp only [leafAt, force_eq, cond_eq_true_iff, Bool.false_eq_true, and_false, or_false] at h
  obtain ⟨he, hle, hr⟩ := h
  have he : M * t0 ≡ 1 [MOD l] := Nat.eq_of_beq_eq_true he
  have hle : t0 ≤ l := Nat.le_of_ble_eq_true hle
  have he' : M * t ≡ 1 [MOD l] := ((Nat.modEq_iff_dvd' h1.le).mpr hd).symm
  have hc : Nat.Coprime M l := by
    have : Nat.gcd (M * t) l = 1 := by rw [he'.gcd_eq, Nat.gcd_one_left]
    exact Nat.Coprime.coprime_dvd_left (dvd_mul_right M t) this
  have hm : t0 ≡ t [MOD l] := Nat.ModEq.cancel_left_of_coprime (by rw [Nat.gcd_comm]; exact hc) (he.trans he'.symm)
  rcases Nat.lt_or_ge t t0 with hlt | hge
  · have := (Nat.modEq_iff_dvd' hlt.le).mp hm.symm
    have := Nat.le_of_dvd (by omega) this
    omega
  · obtain ⟨k, hk⟩ := (Nat.modEq_iff_dvd' hge).mp hm
    have e : M * t = M * t0 + k * (M * l) := by
      have : t = t0 + l * k := by omega
      rw [this]; ring
    have := runStep_sound _ _ _ hr k (by show M * t0 + k * (M * l) < 2 ^ 32; omega)
    exact fails_sound h1 (by rw [e]; exact this) hp

theorem leaf_sound {M l : ℕ} (hM : 1 < M) (hl : Mult M l) (h : leaf M l = true) (t : ℕ) (ht : 0 < t) (hN : M * t < 2 ^ 32) :
    ¬ Pass (M * t) := by
  simp only [leaf, force_eq, cond_eq_true_iff] at h
  rcases h with h | h
  · exact leafAt_sound hM hl h.1 t ht hN
  · exact leafAt_sound hM hl h.2 t ht hN

theorem pow_sub_one_of_pass {M q b : ℕ} (hq : q.Prime) (hb : ¬ q ∣ b) (hM : 0 < M) (h : b ^ (M * q - 1) % (M * q) = 1) :
    q ∣ b ^ (M - 1) - 1 := by
  haveI : Fact q.Prime := ⟨hq⟩
  have h1 : b ^ (M * q - 1) ≡ 1 [MOD q] := by
    have : b ^ (M * q - 1) ≡ 1 [MOD (M * q)] := by
      rw [Nat.ModEq, h, Nat.mod_eq_of_lt]
      have := hq.two_le
      nlinarith
    exact this.of_dvd (dvd_mul_left q M)
  have h2 : b ^ (q - 1) ≡ 1 [MOD q] := by
    have := Nat.ModEq.pow_totient ((Nat.coprime_comm.mp ((Nat.Prime.coprime_iff_not_dvd hq).mpr hb)))
    rwa [Nat.totient_prime hq] at this
  have e : M * q - 1 = (q - 1) * M + (M - 1) := by
    obtain ⟨q', rfl⟩ := Nat.exists_eq_succ_of_ne_zero hq.ne_zero
    obtain ⟨M', rfl⟩ := Nat.exists_eq_succ_of_ne_zero hM.ne'
    simp only [Nat.succ_eq_add_one, Nat.add_sub_cancel]
    have : (M' + 1) * (q' + 1) = q' * (M' + 1) + M' + 1 := by ring
    omega
  rw [e, pow_add, pow_mul] at h1
  have h3 : b ^ (M - 1) ≡ 1 [MOD q] := by
    refine Nat.ModEq.trans ?_ h1
    have := ((h2.pow M).mul_right (b ^ (M - 1))).symm
    rwa [one_pow, one_mul] at this
  have hpos : 1 ≤ b ^ (M - 1) := by
    apply Nat.one_le_pow
    by_contra h0
    exact hb (by rw [show b = 0 by omega]; exact dvd_zero q)
  exact (Nat.modEq_iff_dvd' hpos).mp h3.symm

theorem noBig_sound {P M q : ℕ} (hM : 0 < M) (hP : ¬ q ∣ P) (hq : q.Prime) (hq16 : 65536 ≤ q) (hN : M * q < 2 ^ 32) (h : noBig P M = true) :
    ¬ Pass (M * q) := by
  intro hp
  have h1 : 1 < M * q := lt_of_lt_of_le hq.one_lt (Nat.le_mul_of_pos_left q hM)
  have hMlt : M < 65536 := by
    by_contra hc
    have : 65536 * 65536 ≤ M * q := Nat.mul_le_mul (by omega) hq16
    omega
  obtain ⟨f2, f7, f61⟩ := hp.fermat h1
  have nb : ∀ b, b ≠ 0 → b < 65536 → ¬ q ∣ b := fun b h0 hb hd => by
    have := Nat.le_of_dvd (by omega) hd
    omega
  have hble : Nat.ble 65536 M = false := by rw [Bool.eq_false_iff, ne_eq, Nat.ble_eq]; omega
  simp only [noBig, hble, cond_false, force_eq] at h
  have h := Nat.eq_of_beq_eq_true h
  have hG := Nat.dvd_gcd (Nat.dvd_gcd (pow_sub_one_of_pass hq (nb 2 (by norm_num) (by norm_num)) hM f2)
    (pow_sub_one_of_pass hq (nb 7 (by norm_num) (by norm_num)) hM f7)) (pow_sub_one_of_pass hq (nb 61 (by norm_num) (by norm_num)) hM f61)
  change Nat.gcd (Nat.gcd (2 ^ (M - 1) - 1) (7 ^ (M - 1) - 1)) (61 ^ (M - 1) - 1) / Nat.gcd (Nat.gcd (Nat.gcd (2 ^ (M - 1) - 1) (7 ^ (M - 1) - 1)) (61 ^ (M - 1) - 1))
    ((P % Nat.gcd (Nat.gcd (2 ^ (M - 1) - 1) (7 ^ (M - 1) - 1)) (61 ^ (M - 1) - 1)) ^ 32 % Nat.gcd (Nat.gcd (2 ^ (M - 1) - 1) (7 ^ (M - 1) - 1)) (61 ^ (M - 1) - 1)) = 1 at h
  generalize Nat.gcd (Nat.gcd (2 ^ (M - 1) - 1) (7 ^ (M - 1) - 1)) (61 ^ (M - 1) - 1) = G at h hG
  have hS : ¬ q ∣ (P % G) ^ 32 % G := by
    intro hd
    rw [Nat.dvd_mod_iff hG] at hd
    have := hq.dvd_of_dvd_pow hd
    rw [Nat.dvd_mod_iff hG] at this
    exact hP this
  have hg : ¬ q ∣ Nat.gcd G ((P % G) ^ 32 % G) := fun hd => hS (hd.trans (Nat.gcd_dvd_right _ _))
  have e := Nat.mul_div_cancel' (Nat.gcd_dvd_left G ((P % G) ^ 32 % G))
  rw [h, mul_one] at e
  exact hg (by rw [e]; exact hG)

/-- the prime factors of `t` are listed or large -/
def Factors (ps : List (ℕ × ℕ)) (t : ℕ) : Prop := ∀ p, p.Prime → p ∣ t → p ∈ ps.map Prod.fst ∨ 65536 ≤ p

theorem Factors.of_dvd {ps : List (ℕ × ℕ)} {s t : ℕ} (h : Factors ps t) (hd : s ∣ t) : Factors ps s :=
  fun p hp h1 => h p hp (h1.trans hd)

theorem Mult.lcm {M l r k : ℕ} (h1 : Mult M l) (h2 : Mult r k) : Mult (M * r) (Nat.div (Nat.mul l k) (Nat.gcd l k)) := by
  intro n hd hn hp
  exact Nat.lcm_dvd (h1 n (dvd_of_mul_right_dvd hd) hn hp) (h2 n (dvd_of_mul_left_dvd hd) hn hp)

theorem kids_cons (nd : ℕ → ℕ → List (ℕ × ℕ) → Bool) (M l r k : ℕ) (ps : List (ℕ × ℕ)) : kids nd M l ((r, k) :: ps) =
    cond (cond (Nat.ble 4294967296 (M * r)) true (nd (M * r) (Nat.div (Nat.mul l k) (Nat.gcd l k)) ((r, k) :: ps)))
      (kids nd M l ps) false := by
  have h : kids nd M l ((r, k) :: ps) = force r fun r' => force (Nat.mul M r') fun m =>
      cond (cond (Nat.ble 4294967296 m) true (force k fun k' => nd m (Nat.div (Nat.mul l k') (Nat.gcd l k')) ((r, k) :: ps)))
        (kids nd M l ps) false := rfl
  rw [h]
  simp only [force_eq]
  rfl

theorem kids_sound {nd : ℕ → ℕ → List (ℕ × ℕ) → Bool} {M l : ℕ} (hM : 1 < M) (hl : Mult M l) :
    ∀ ps : List (ℕ × ℕ), (∀ p ∈ ps, 1 < p.1 ∧ Mult p.1 p.2) →
    (∀ m k qs, (∀ p ∈ qs, p ∈ ps) → nd m k qs = true → 1 < m → Mult m k →
      ∀ t, 0 < t → m * t < 2 ^ 32 → Factors qs t → ¬ Pass (m * t)) →
    kids nd M l ps = true → ∀ t, 0 < t → M * t < 2 ^ 32 → Factors ps t → Pass (M * t) → Factors [] t
  | [], _, _, _, t, _, _, hf, _ => hf
  | (r, k) :: ps, hv, hnd, h, t, ht, hN, hf, hp => by
    rw [kids_cons] at h
    simp only [cond_eq_true_iff, Bool.false_eq_true, and_false, or_false] at h
    obtain ⟨hn, hk⟩ := h
    obtain ⟨hr1, hrk⟩ := hv (r, k) (by simp)
    by_cases hd : r ∣ t
    · exfalso
      obtain ⟨t', rfl⟩ := hd
      have ht' : 0 < t' := Nat.pos_of_ne_zero (by rintro rfl; simp at ht)
      rw [← mul_assoc] at hN hp
      rcases hn with ⟨hb, -⟩ | ⟨-, hn⟩
      · have : 4294967296 ≤ M * r := Nat.le_of_ble_eq_true hb
        have := Nat.le_mul_of_pos_right (M * r) ht'
        omega
      · exact hnd _ _ _ (fun p hp => hp) hn (by show 1 < M * r; nlinarith) (hl.lcm hrk) t' ht' hN (hf.of_dvd (dvd_mul_left t' r)) hp
    · refine kids_sound hM hl ps (fun p hp => hv p (by simp [hp])) (fun m k qs hq => hnd m k qs (fun p hp => by simp [hq p hp])) hk t ht hN ?_ hp
      intro p hpp hpt
      rcases hf p hpp hpt with h | h
      · rw [List.map_cons, List.mem_cons] at h
        rcases h with h | h
        · exact absurd (by rw [h] at hpt; exact hpt) hd
        · exact Or.inl h
      · exact Or.inr h

theorem prime_of_factors_nil {M t : ℕ} (hM : 0 < M) (h1 : 1 < t) (hN : M * t < 2 ^ 32) (h : Factors [] t) : t.Prime ∧ 65536 ≤ t := by
  have hb : ∀ p, p.Prime → p ∣ t → 65536 ≤ p := fun p hp hd => by simpa using h p hp hd
  have hq := Nat.minFac_prime (show t ≠ 1 by omega)
  obtain ⟨s, hs⟩ := Nat.minFac_dvd t
  have hq16 := hb _ hq (Nat.minFac_dvd t)
  have htlt : t < 2 ^ 32 := lt_of_le_of_lt (Nat.le_mul_of_pos_left t hM) hN
  have hs1 : s = 1 := by
    by_contra hc
    have hs0 : s ≠ 0 := by rintro rfl; omega
    have h3 := hb _ (Nat.minFac_prime hc) ((Nat.minFac_dvd s).trans ⟨t.minFac, by rw [mul_comm]; exact hs⟩)
    have h4 := Nat.minFac_le (show 0 < s by omega)
    have : 65536 * 65536 ≤ t.minFac * s := Nat.mul_le_mul hq16 (by omega)
    omega
  rw [hs1, mul_one] at hs
  rw [hs]
  exact ⟨hq, hq16⟩

theorem inner_sound {P M l : ℕ} {nd : ℕ → ℕ → List (ℕ × ℕ) → Bool} {ps : List (ℕ × ℕ)} (hP : ∀ q, q.Prime → 65536 ≤ q → ¬ q ∣ P)
    (hM : 1 < M) (hl : Mult M l) (hv : ∀ p ∈ ps, 1 < p.1 ∧ Mult p.1 p.2)
    (hnd : ∀ m k qs, (∀ p ∈ qs, p ∈ ps) → nd m k qs = true → 1 < m → Mult m k →
      ∀ t, 0 < t → m * t < 2 ^ 32 → Factors qs t → ¬ Pass (m * t))
    (hb : noBig P M = true) (hk : kids nd M l ps = true) (t : ℕ) (ht : 1 < t) (hN : M * t < 2 ^ 32) (hf : Factors ps t) : ¬ Pass (M * t) := by
  intro hp
  have h1 := kids_sound hM hl ps hv hnd hk t (by omega) hN hf hp
  obtain ⟨h2, h3⟩ := prime_of_factors_nil (by omega) ht hN h1
  exact noBig_sound (by omega) (hP t h2 h3) h2 h3 hN hb hp

theorem node_sound {P : ℕ} (hP : ∀ q, q.Prime → 65536 ≤ q → ¬ q ∣ P) : ∀ (f M l : ℕ) (ps : List (ℕ × ℕ)),
    (∀ p ∈ ps, 1 < p.1 ∧ Mult p.1 p.2) → node P f M l ps = true → 1 < M → Mult M l →
    ∀ t, 0 < t → M * t < 2 ^ 32 → Factors ps t → ¬ Pass (M * t)
  | 0, _, _, _, _, h, _, _, _, _, _, _ => by simp [node] at h
  | f + 1, M, l, ps, hv, h, hM, hl, t, ht, hN, hf => by
    intro hp
    have h' : (force l fun l => cond (Nat.beq (Nat.gcd M l) 1) (cond (fails M)
      (cond (isLeaf M l ps) (leaf M l) (cond (noBig P M) (kids (node P f) M l ps) (leaf M l))) false) true) = true := h
    rw [force_eq] at h'
    have h1 : 1 < M * t := lt_of_lt_of_le hM (Nat.le_mul_of_pos_right M ht)
    have hg : Nat.gcd M l = 1 := by
      have hd := hl _ (dvd_mul_right M t) h1 hp
      have he' : M * t ≡ 1 [MOD l] := ((Nat.modEq_iff_dvd' h1.le).mpr hd).symm
      have : Nat.gcd (M * t) l = 1 := by rw [he'.gcd_eq, Nat.gcd_one_left]
      exact Nat.Coprime.coprime_dvd_left (dvd_mul_right M t) this
    rw [hg, show Nat.beq 1 1 = true from rfl, cond_true] at h'
    simp only [cond_eq_true_iff, Bool.false_eq_true, and_false, or_false] at h'
    obtain ⟨hfail, h'⟩ := h'
    rcases Nat.lt_or_ge 1 t with ht1 | ht1
    · rcases h' with h' | ⟨-, h' | h'⟩
      · exact leaf_sound hM hl h'.2 t ht hN hp
      · refine inner_sound hP hM hl hv ?_ h'.1 h'.2 t ht1 hN hf hp
        intro m k qs hq hnode hm hmk
        exact node_sound hP f m k qs (fun p hp => hv p (hq p hp)) hnode hm hmk
      · exact leaf_sound hM hl h'.2 t ht hN hp
    · rw [show t = 1 by omega, mul_one] at hp
      exact fails_sound hM hfail hp

theorem top_sound {P : ℕ} (hP : ∀ q, q.Prime → 65536 ≤ q → ¬ q ∣ P) {q l : ℕ} {ps : List (ℕ × ℕ)}
    (hv : ∀ p ∈ ps, 1 < p.1 ∧ Mult p.1 p.2) (h : top P q l ps = true) (hq : 1 < q) (hl : Mult q l) (hlq : l ∣ q - 1)
    (t : ℕ) (ht : 1 < t) (hN : q * t < 2 ^ 32) (hf : Factors ps t) : ¬ Pass (q * t) := by
  intro hp
  have h1 : 1 < q * t := lt_of_lt_of_le hq (Nat.le_mul_of_pos_right q (by omega))
  have hrun : runStep (q * l) (Nat.add (Nat.div 4294967296 (q * l)) 2) (q + q * l) = true → False := by
    intro hr
    have hd := hl _ (dvd_mul_right q t) h1 hp
    have h2 : l ∣ t - 1 := by
      have e : q * t - 1 = (q - 1) * t + (t - 1) := by
        obtain ⟨q', rfl⟩ := Nat.exists_eq_succ_of_ne_zero (show q ≠ 0 by omega)
        simp only [Nat.succ_eq_add_one, Nat.add_sub_cancel]
        have : (q' + 1) * t = q' * t + t := by ring
        omega
      rw [e] at hd
      exact (Nat.dvd_add_right (hlq.mul_right t)).mp hd
    obtain ⟨k, hk⟩ := h2
    cases k with
    | zero => omega
    | succ k =>
      have e : q * t = q + q * l + k * (q * l) := by
        have : t = 1 + l * (k + 1) := by omega
        rw [this]; ring
      have := runStep_sound _ _ _ hr k (by omega)
      exact fails_sound h1 (by rw [e]; exact this) hp
  simp only [top, force_eq, cond_eq_true_iff] at h
  rcases h with h | ⟨-, h | h⟩
  · exact hrun h.2
  · refine inner_sound hP hq hl hv ?_ h.1 h.2 t ht hN hf hp
    intro m k qs hqs hnode hm hmk
    exact node_sound hP 10 m k qs (fun p hp => hv p (hqs p hp)) hnode hm hmk
  · exact hrun h.2

theorem tops_sound {P : ℕ} : ∀ (k : ℕ) (ps : List (ℕ × ℕ)), tops P k ps = true → ∀ i < k, ∀ x rest, ps.drop i = x :: rest →
    top P x.1 x.2 (x :: rest) = true
  | 0, _, _, i, hi, _, _, _ => by omega
  | k + 1, [], _, i, _, x, rest, h => by simp at h
  | k + 1, (q, l) :: ps, h, i, hi, x, rest, hd => by
    simp only [tops, cond_eq_true_iff, Bool.false_eq_true, and_false, or_false] at h
    cases i with
    | zero =>
      simp only [List.drop_zero, List.cons.injEq] at hd
      obtain ⟨rfl, rfl⟩ := hd
      exact h.1
    | succ i => exact tops_sound k ps h.2 i (by omega) x rest (by simpa using hd)

theorem prodPs_eq : ∀ (ps : List (ℕ × ℕ)) (a : ℕ), prodPs ps a = (ps.map Prod.fst).prod * a
  | [], a => by simp [prodPs]
  | (q, _) :: ps, a => by
    rw [prodPs, force_eq, prodPs_eq ps]
    simp only [List.map_cons, List.prod_cons]
    show _ * (q * a) = _
    ring

/-! ## The list of exponents -/

/-- `b ^ e % q` -/
def powMod (b e q : ℕ) : ℕ :=
  Nat.mod (Nat.mul (Nat.pow (Nat.mod (Nat.pow b (Nat.div e 256)) q) 256) (Nat.pow b (Nat.mod e 256))) q

theorem powMod_eq (b e q : ℕ) : powMod b e q = b ^ e % q := by
  show (b ^ (e / 256) % q) ^ 256 * b ^ (e % 256) % q = b ^ e % q
  have h : (b ^ (e / 256) % q) ^ 256 ≡ (b ^ (e / 256)) ^ 256 [MOD q] := (Nat.mod_modEq _ _).pow _
  have h2 := h.mul_right (b ^ (e % 256))
  rw [← pow_mul, ← pow_add, show e / 256 * 256 + e % 256 = e by omega] at h2
  exact h2

/-- 2, 7 and 61 have power 1 for the exponent `e` -/
def allOne (q e : ℕ) : Bool :=
  force e fun e => cond (Nat.beq (powMod 2 e q) 1) (cond (Nat.beq (powMod 7 e q) 1) (Nat.beq (powMod 61 e q) 1) false) false

theorem allOne_iff {q e : ℕ} : allOne q e = true ↔ 2 ^ e % q = 1 ∧ 7 ^ e % q = 1 ∧ 61 ^ e % q = 1 := by
  simp only [allOne, force_eq, cond_eq_true_iff, Bool.false_eq_true, and_false, or_false, powMod_eq, Nat.beq_eq]

/-- no proper divisor of `L` obtained by one of the primes of the list -/
def minimalBy (q L : ℕ) (ps : List ℕ) : Bool :=
  List.rec (motive := fun _ => Bool) true
    (fun p _ ih => cond (Nat.beq (Nat.mod L p) 0) (cond (allOne q (Nat.div L p)) false ih) ih) ps

theorem minimalBy_sound (q L : ℕ) : ∀ ps, minimalBy q L ps = true → ∀ p ∈ ps, p ∣ L → allOne q (L / p) = false
  | [], _, p, hp, _ => by simp at hp
  | r :: ps, h, p, hp, hd => by
    have h' : cond (Nat.beq (Nat.mod L r) 0) (cond (allOne q (Nat.div L r)) false (minimalBy q L ps)) (minimalBy q L ps) = true := h
    rcases List.mem_cons.mp hp with rfl | hp
    · have h0 : Nat.mod L p = 0 := Nat.mod_eq_zero_of_dvd hd
      rw [h0, show Nat.beq 0 0 = true from rfl, cond_true] at h'
      by_contra hc
      rw [Bool.not_eq_false] at hc
      rw [show Nat.div L p = L / p from rfl, hc] at h'
      simp at h'
    · refine minimalBy_sound q L ps ?_ p hp hd
      simp only [cond_eq_true_iff] at h'
      tauto

/-- `L` is the exponent of the group generated by 2, 7, 61 modulo `q` -/
def checkOrder (q L : ℕ) : Bool :=
  force q fun q => force L fun L => cond (Nat.ble 2 q) (cond (Nat.ble L 65535) (cond (Nat.beq (Nat.mod (Nat.sub q 1) L) 0) (cond (allOne q L)
    (cond (minimalBy q L (smallPrimes .small)) (force (Nat.div L (Nat.gcd L (Nat.pow prod256 16))) fun c =>
      cond (Nat.beq (Nat.gcd c prod256) 1) (cond (Nat.beq c 1) true (cond (allOne q (Nat.div L c)) false true)) false) false) false) false) false) false

theorem pow_gcd_mod {b q m n : ℕ} (hq : 1 < q) (h1 : b ^ m % q = 1) (h2 : b ^ n % q = 1) : b ^ Nat.gcd m n % q = 1 := by
  have e : ∀ k, b ^ k % q = 1 ↔ (b : ZMod q) ^ k = 1 := fun k => by
    rw [show ((b : ZMod q) ^ k = 1) ↔ ((b ^ k : ℕ) : ZMod q) = ((1 : ℕ) : ZMod q) by push_cast; rfl, ZMod.natCast_eq_natCast_iff, Nat.ModEq,
      Nat.mod_eq_of_lt hq]
  rw [e] at *
  exact pow_gcd_eq_one.mpr ⟨h1, h2⟩

theorem pow_dvd_mod {b q m n : ℕ} (hq : 1 < q) (hd : m ∣ n) (h : b ^ m % q = 1) : b ^ n % q = 1 := by
  obtain ⟨k, rfl⟩ := hd
  have : b ^ m ≡ 1 [MOD q] := by rw [Nat.ModEq, h, Nat.mod_eq_of_lt hq]
  have := this.pow k
  rwa [one_pow, ← pow_mul, Nat.ModEq, Nat.mod_eq_of_lt hq] at this

theorem dvd_prod256_iff {p : ℕ} (hp : p.Prime) : p ∣ prod256 ↔ p ≤ 255 := by
  refine ⟨fun h => ?_, dvd_prod256 p hp⟩
  have e : prod256 = (smallPrimes .small).prod := by decide +kernel
  rw [e, (Nat.prime_iff.mp hp).dvd_prod_iff] at h
  obtain ⟨a, ha, hd⟩ := h
  obtain ⟨h1, h2⟩ := mem_smallPrimes.mp ha
  have h2 : a < 257 := h2
  have := (Nat.prime_dvd_prime_iff_eq hp h1).mp hd
  have : a ≠ 256 := by rintro rfl; revert h1; norm_num
  omega

theorem checkOrder_sound {q L : ℕ} (h : checkOrder q L = true) : 1 < q ∧ L ∣ q - 1 ∧ Mult q L := by
  simp only [checkOrder, force_eq, cond_eq_true_iff, Bool.false_eq_true, and_false, or_false, false_or, and_true] at h
  obtain ⟨hq, hL, hd, hone, hmin, hc1, hc2⟩ := h
  have hq : 2 ≤ q := Nat.le_of_ble_eq_true hq
  have hL : L ≤ 65535 := Nat.le_of_ble_eq_true hL
  have hd : (q - 1) % L = 0 := Nat.eq_of_beq_eq_true hd
  have hc1 : Nat.gcd (L / Nat.gcd L (prod256 ^ 16)) prod256 = 1 := Nat.eq_of_beq_eq_true hc1
  refine ⟨by omega, Nat.dvd_of_mod_eq_zero hd, fun n hn h1 hp => ?_⟩
  have hL0 : 0 < L := by
    rcases Nat.eq_zero_or_pos L with rfl | h
    · rw [Nat.mod_zero] at hd; omega
    · exact h
  obtain ⟨o2, o7, o61⟩ := allOne_iff.mp hone
  obtain ⟨f2, f7, f61⟩ := hp.fermat h1
  have low : ∀ b, b ^ (n - 1) % n = 1 → b ^ (n - 1) % q = 1 := fun b hb => by
    have : b ^ (n - 1) ≡ 1 [MOD n] := by rw [Nat.ModEq, hb, Nat.mod_eq_of_lt h1]
    have := this.of_dvd hn
    rwa [Nat.ModEq, Nat.mod_eq_of_lt (by omega : 1 < q)] at this
  have g2 := pow_gcd_mod (by omega) (low 2 f2) o2
  have g7 := pow_gcd_mod (by omega) (low 7 f7) o7
  have g61 := pow_gcd_mod (by omega) (low 61 f61) o61
  set g := Nat.gcd (n - 1) L with hg
  have hgL : g ∣ L := Nat.gcd_dvd_right _ _
  by_cases he : g = L
  · rw [← he]; exact Nat.gcd_dvd_left _ _
  exfalso
  obtain ⟨m, hm⟩ := hgL
  have hm1 : m ≠ 1 := by rintro rfl; rw [mul_one] at hm; exact he hm.symm
  have hpp := Nat.minFac_prime hm1
  obtain ⟨m', hm'⟩ := Nat.minFac_dvd m
  set p := m.minFac with hpdef
  have hLp : L = p * (g * m') := by rw [hm, hm']; ring
  have hpL : p ∣ L := ⟨_, hLp⟩
  have hdiv : L / p = g * m' := by rw [hLp, Nat.mul_div_cancel_left _ hpp.pos]
  have key : allOne q (L / p) = true := by
    rw [hdiv, allOne_iff]
    exact ⟨pow_dvd_mod (by omega) (dvd_mul_right g m') g2, pow_dvd_mod (by omega) (dvd_mul_right g m') g7,
      pow_dvd_mod (by omega) (dvd_mul_right g m') g61⟩
  rcases Nat.lt_or_ge 255 p with h255 | h255
  · have hcop : Nat.Coprime p (prod256 ^ 16) := by
      refine Nat.Coprime.pow_right 16 ((Nat.Prime.coprime_iff_not_dvd hpp).mpr fun h => ?_)
      have := (dvd_prod256_iff hpp).mp h
      omega
    have hpc : p ∣ L / Nat.gcd L (prod256 ^ 16) := by
      have e := Nat.mul_div_cancel' (Nat.gcd_dvd_left L (prod256 ^ 16))
      have h3 : p ∣ Nat.gcd L (prod256 ^ 16) * (L / Nat.gcd L (prod256 ^ 16)) := by rw [e]; exact hpL
      exact (Nat.Coprime.coprime_dvd_right (Nat.gcd_dvd_right _ _) hcop).dvd_of_dvd_mul_left h3
    have hcle : L / Nat.gcd L (prod256 ^ 16) ≤ L := Nat.div_le_self _ _
    change (Nat.beq (L / Nat.gcd L (prod256 ^ 16)) 1 = true) ∨ (Nat.beq (L / Nat.gcd L (prod256 ^ 16)) 1 = false ∧
      allOne q (L / (L / Nat.gcd L (prod256 ^ 16))) = false) at hc2
    generalize L / Nat.gcd L (prod256 ^ 16) = c at *
    obtain ⟨c', hc'⟩ := hpc
    have hc0 : 0 < c := by
      rcases Nat.eq_zero_or_pos c with rfl | h
      · rw [Nat.gcd_zero_left] at hc1
        exact absurd hc1 (by decide)
      · exact h
    have hone' : c' = 1 := by
      by_contra hne
      have h5 := Nat.minFac_prime hne
      have h6 : c' ≤ 255 := by
        by_contra h7
        have : 256 * 256 ≤ p * c' := Nat.mul_le_mul (by omega) (by omega)
        omega
      have h7 := Nat.minFac_le (show 0 < c' by rcases Nat.eq_zero_or_pos c' with rfl | h; · omega
                                               · exact h)
      have h8 : c'.minFac ∣ Nat.gcd c prod256 :=
        Nat.dvd_gcd ((Nat.minFac_dvd c').trans ⟨p, by rw [mul_comm]; exact hc'⟩) ((dvd_prod256_iff h5).mpr (by omega))
      rw [hc1, Nat.dvd_one] at h8
      exact h5.one_lt.ne' h8
    rw [hone', mul_one] at hc'
    rw [hc'] at hc2
    rcases hc2 with h3 | ⟨-, h3⟩
    · have := Nat.eq_of_beq_eq_true h3
      exact hpp.one_lt.ne' this
    · rw [key] at h3; simp at h3
  · have := minimalBy_sound q L (smallPrimes .small) hmin p (mem_smallPrimes.mpr ⟨hpp, by show p < 257; omega⟩) hpL
    rw [key] at this
    simp at this

/-- `x, x + 1, …, x + k - 1` have a factor below 256 -/
def allComposite (k : ℕ) : ℕ → Bool :=
  Nat.rec (motive := fun _ => ℕ → Bool) (fun _ => true)
    (fun _ ih x => force x fun x => cond (Nat.beq (Nat.gcd x prod256) 1) false (ih (Nat.add x 1))) k

theorem allComposite_sound : ∀ (k x : ℕ), allComposite k x = true → ∀ p, x ≤ p → p < x + k → Nat.gcd p prod256 ≠ 1
  | 0, x, _, p, h1, h2 => by omega
  | k + 1, x, h, p, h1, h2 => by
    have h' : (force x fun x => cond (Nat.beq (Nat.gcd x prod256) 1) false (allComposite k (Nat.add x 1))) = true := h
    simp only [force_eq, cond_eq_true_iff, Bool.false_eq_true, and_false, false_or] at h'
    rcases Nat.eq_or_lt_of_le h1 with rfl | h3
    · intro hc
      rw [hc] at h'
      simp at h'
    · exact allComposite_sound k (x + 1) h'.2 p h3 (by omega)

/-- the list is descending from `hi` and the numbers left out have small factors, down to 256; every exponent is right -/
def checkList (ps : List (ℕ × ℕ)) : ℕ → Bool :=
  List.rec (motive := fun _ => ℕ → Bool) (fun hi => Nat.ble hi 256)
    (fun p _ ih hi => force hi fun hi => force p.1 fun q => cond (checkOrder q p.2) (cond (Nat.ble hi 256) (ih hi)
      (cond (allComposite (Nat.sub hi (Nat.add q 1)) (Nat.add q 1)) (ih q) false)) false) ps

theorem checkList_sound : ∀ (ps : List (ℕ × ℕ)) (hi : ℕ), checkList ps hi = true →
    (∀ p ∈ ps, 1 < p.1 ∧ p.2 ∣ p.1 - 1 ∧ Mult p.1 p.2) ∧ ∀ r, r.Prime → 256 ≤ r → r < hi → r ∈ ps.map Prod.fst
  | [], hi, h => by
    have h' : hi ≤ 256 := Nat.le_of_ble_eq_true h
    refine ⟨by simp, fun r _ h1 h2 => by omega⟩
  | (q, L) :: ps, hi, h => by
    have h' : (force hi fun hi => force q fun q => cond (checkOrder q L) (cond (Nat.ble hi 256) (checkList ps hi)
      (cond (allComposite (Nat.sub hi (Nat.add q 1)) (Nat.add q 1)) (checkList ps q) false)) false) = true := h
    simp only [force_eq, cond_eq_true_iff, Bool.false_eq_true, and_false, or_false] at h'
    obtain ⟨h1, h2⟩ := h'
    have ho := checkOrder_sound h1
    rcases h2 with ⟨h3, h4⟩ | ⟨-, h3, h4⟩
    · obtain ⟨i1, i2⟩ := checkList_sound ps hi h4
      have h3 : hi ≤ 256 := Nat.le_of_ble_eq_true h3
      refine ⟨fun p hp => ?_, fun r _ h5 h6 => by omega⟩
      rcases List.mem_cons.mp hp with rfl | hp
      · exact ho
      · exact i1 p hp
    · obtain ⟨i1, i2⟩ := checkList_sound ps q h4
      refine ⟨fun p hp => ?_, fun r hr h5 h6 => ?_⟩
      · rcases List.mem_cons.mp hp with rfl | hp
        · exact ho
        · exact i1 p hp
      · rw [List.map_cons, List.mem_cons]
        rcases Nat.lt_trichotomy r q with h7 | h7 | h7
        · exact Or.inr (i2 r hr h5 h7)
        · exact Or.inl h7
        · exfalso
          refine allComposite_sound _ _ h3 r h7 (by show r < q + 1 + (hi - (q + 1)); omega) ?_
          refine (Nat.Prime.coprime_iff_not_dvd hr).mpr fun h => ?_
          have := (dvd_prod256_iff hr).mp h
          omega

set_option maxRecDepth 100000 in
theorem checkList_orders : checkList orders 65536 = true := by decide +kernel

theorem small_orders : ∀ p ∈ smallPrimes .small, p = 2 ∨ p = 3 ∨ p = 5 ∨ p = 7 ∨ p = 61 ∨ p ∈ orders25.map Prod.fst := by decide +kernel

end NumPrime
