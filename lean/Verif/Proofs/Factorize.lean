import Verif.Model.Factorize
import Verif.Proofs.Divisors
import Verif.Proofs.Trial
import Verif.Proofs.IsPrime
import Mathlib.Algebra.GCDMonoid.Nat
import Mathlib.Algebra.GroupWithZero.Associated

/-! Factorization: table-driven division, trial division by the table, the worklist loops. -/

namespace NumPrime
open Spec Tables

/-! ## table-driven division -/

theorem divExact64_spec {n p : ℕ} {pinv : ℕ × ℕ} (hn : n < 2 ^ 64) (hp : 0 < p) (h1 : p * pinv.1 % 2 ^ 64 = 1)
    (h2 : pinv.2 = (2 ^ 64 - 1) / p) : divExact64 n pinv = if p ∣ n then some (n / p) else none := by
  unfold divExact64 wmul64
  generalize hM : 2 ^ 64 = M at *
  have hM0 : 0 < M := by omega
  set q := n * pinv.1 % M with hq
  have hqp : q * p ≡ n [MOD M] := by
    have e1 : q ≡ n * pinv.1 [MOD M] := Nat.mod_modEq _ _
    have e2 : p * pinv.1 ≡ 1 [MOD M] := by
      unfold Nat.ModEq
      rw [h1, Nat.mod_eq_of_lt (by omega)]
    calc q * p ≡ n * pinv.1 * p [MOD M] := e1.mul_right p
      _ = n * (p * pinv.1) := by ring
      _ ≡ n * 1 [MOD M] := e2.mul_left n
      _ = n := by ring
  have hle : q ≤ pinv.2 ↔ q * p ≤ M - 1 := by rw [h2, Nat.le_div_iff_mul_le hp]
  by_cases hd : p ∣ n
  · obtain ⟨k, rfl⟩ := hd
    have hk : k ≤ p * k := Nat.le_mul_of_pos_left k hp
    have hqk : q = k := by
      have : q ≡ k [MOD M] := by
        have e1 : q ≡ p * k * pinv.1 [MOD M] := Nat.mod_modEq _ _
        have e2 : p * pinv.1 ≡ 1 [MOD M] := by
          unfold Nat.ModEq
          rw [h1, Nat.mod_eq_of_lt (by omega)]
        calc q ≡ p * k * pinv.1 [MOD M] := e1
          _ = (p * pinv.1) * k := by ring
          _ ≡ 1 * k [MOD M] := e2.mul_right k
          _ = k := by ring
      exact Nat.ModEq.eq_of_lt_of_lt this (Nat.mod_lt _ hM0) (by omega)
    have hc : q ≤ pinv.2 := by rw [hle, hqk, Nat.mul_comm]; omega
    rw [if_pos hc, if_pos (dvd_mul_right _ _), Nat.mul_div_cancel_left _ hp, hqk]
  · have hc : ¬ q ≤ pinv.2 := by
      rw [hle]
      intro hlt
      have : q * p = n := Nat.ModEq.eq_of_lt_of_lt hqp (by omega) hn
      exact hd ⟨q, by rw [← this, Nat.mul_comm]⟩
    simp only [hc, if_false, hd]

/-- the inverse table fits the prime table -/
def invCheck (l : List (ℕ × ℕ × ℕ)) : Bool := l.all fun x =>
  decide (x.1 * x.2.1 % 2 ^ 64 = 1) && decide (x.2.2 = (2 ^ 64 - 1) / x.1)

theorem primesWithInv_check : invCheck primesWithInv = true := by decide +kernel
theorem primesWithInv_fst : primesWithInv.map Prod.fst = (smallPrimes .big).drop 1 := by decide +kernel

theorem smallPrimes_drop (bld : Build) : smallPrimes bld = 2 :: (smallPrimes bld).drop 1 := by cases bld <;> decide +kernel

theorem mem_drop {bld : Build} {p : ℕ} : p ∈ (smallPrimes bld).drop 1 ↔ p.Prime ∧ p < smallPrimesNext bld ∧ p ≠ 2 := by
  have hs := smallPrimes_sorted bld
  have hm := mem_smallPrimes (bld := bld) (p := p)
  rw [smallPrimes_drop bld] at hs hm
  generalize (smallPrimes bld).drop 1 = l at *
  rw [List.pairwise_cons] at hs
  simp only [List.mem_cons] at hm
  constructor
  · intro h
    have := hm.mp (Or.inr h)
    exact ⟨this.1, this.2, by have := hs.1 p h; omega⟩
  · rintro ⟨h1, h2, h3⟩
    rcases hm.mpr ⟨h1, h2⟩ with h | h
    · exact absurd h h3
    · exact h

theorem drop_sorted (bld : Build) : ((smallPrimes bld).drop 1).Pairwise (· < ·) := by
  have hs := smallPrimes_sorted bld
  rw [smallPrimes_drop bld] at hs
  exact (List.pairwise_cons.mp hs).2

theorem primesWithInv_spec {p : ℕ} {pinv : ℕ × ℕ} (h : (p, pinv) ∈ primesWithInv) :
    p * pinv.1 % 2 ^ 64 = 1 ∧ pinv.2 = (2 ^ 64 - 1) / p ∧ p ∈ (smallPrimes .big).drop 1 := by
  have h1 := primesWithInv_check
  have h2 := primesWithInv_fst
  generalize primesWithInv = l at *
  unfold invCheck at h1
  rw [List.all_eq_true] at h1
  have := h1 _ h
  simp only [Bool.and_eq_true, decide_eq_true_eq] at this
  refine ⟨this.1, this.2, ?_⟩
  rw [← h2]
  exact List.mem_map_of_mem (f := Prod.fst) h

/-! ## dividing out one prime -/

/-- what dividing out `p` does to residual and map -/
def StepOk (p r : ℕ) (m : List (ℕ × ℕ)) (out : Res (ℕ × List (ℕ × ℕ))) : Prop :=
  ∃ r' m', out = .ok (r', m') ∧ r' ∣ r ∧ ¬ p ∣ r' ∧ ∀ n, FMap m r n → FMap m' r' n

theorem divOutMap_step {p r : ℕ} {m : List (ℕ × ℕ)} (hp : p.Prime) (hr : 0 < r) : StepOk p r m (divOutMap p (r + 1) r m) := by
  obtain ⟨r', e, h1, h2, h3⟩ := divOutMap_spec hp.two_le (r + 1) r m hr (by omega)
  refine ⟨r', _, h1, ⟨_, h2⟩, h3, fun n hF => ?_⟩
  by_cases he : e = 0
  · subst he
    simp only [pow_zero, mul_one] at h2
    subst h2
    exact hF
  · simp only [he, if_false]
    exact hF.step hp h2 h3 (Nat.pos_of_ne_zero he)

theorem divOut_spec {p : ℕ} {div : ℕ → Option ℕ} (hp : 2 ≤ p) : ∀ (f r e : ℕ), 0 < r → r < f →
    (∀ n ≤ r, div n = if p ∣ n then some (n / p) else none) →
    ∃ r' e', divOut div f r e = .ok (r', e + e') ∧ r = r' * p ^ e' ∧ ¬ p ∣ r' := by
  intro f
  induction f with
  | zero => intro r e _ h; omega
  | succ f ih =>
    intro r e hr hf hdiv
    simp only [divOut, hdiv r le_rfl]
    by_cases hd : p ∣ r
    · simp only [hd, if_true]
      have hlt : r / p < r := Nat.div_lt_self hr (by omega)
      have hpos : 0 < r / p := Nat.div_pos (Nat.le_of_dvd hr hd) (by omega)
      obtain ⟨r', e', h1, h2, h3⟩ := ih (r / p) (e + 1) hpos (by omega) (fun n hn => hdiv n (by omega))
      refine ⟨r', e' + 1, by rw [h1]; congr 2; omega, ?_, h3⟩
      rw [← Nat.div_mul_cancel hd, h2, pow_succ, mul_assoc]
    · simp only [hd, if_false]
      exact ⟨r, 0, by simp, by simp, hd⟩

theorem divOut_step {p r : ℕ} {m : List (ℕ × ℕ)} {div : ℕ → Option ℕ} (hp : p.Prime) (hr : 0 < r)
    (hdiv : ∀ n ≤ r, div n = if p ∣ n then some (n / p) else none) :
    StepOk p r m ((divOut div (r + 1) r 0).mapR (fun x => (x.1, if x.2 > 0 then mapInsert m p x.2 else m))) := by
  obtain ⟨r', e, h1, h2, h3⟩ := divOut_spec hp.two_le (r + 1) r 0 hr (by omega) hdiv
  rw [h1]
  simp only [Res.mapR_ok, Nat.zero_add]
  refine ⟨r', _, rfl, ⟨_, h2⟩, h3, fun n hF => ?_⟩
  by_cases he : e = 0
  · subst he
    simp only [pow_zero, mul_one] at h2
    subst h2
    exact hF
  · have hpos : e > 0 := Nat.pos_of_ne_zero he
    simp only [hpos, if_true]
    have hk : p ∉ m.map Prod.fst := by
      intro hc
      obtain ⟨x, hx, rfl⟩ := List.mem_map.mp hc
      exact hF.nodvd x hx (by rw [h2]; exact Dvd.dvd.mul_left (dvd_pow_self _ he) _)
    rw [mapInsert_eq_mapAdd _ hk]
    exact hF.step hp h2 h3 hpos

theorem divExact128_spec (n p : ℕ) : divExact128 n p = if p ∣ n then some (n / p) else none := by
  unfold divExact128
  simp only [Nat.dvd_iff_mod_eq_zero]

/-! ## trial division by the table -/

/-- the common shape of the four loops -/
def tdGen (stop : ℕ → Bool) : List (ℕ × (ℕ → List (ℕ × ℕ) → Res (ℕ × List (ℕ × ℕ)))) → ℕ → List (ℕ × ℕ) →
    Res (ℕ × List (ℕ × ℕ) × Bool)
  | [], r, m => .ok (r, m, false)
  | (p, step) :: ps, r, m => do
    if stop p then return (r, m, true)
    let (r, m) ← step r m
    if r = 1 then return (r, m, true)
    tdGen stop ps r m

theorem tdGen_spec {stop : ℕ → Bool} {B : ℕ} : ∀ (ps : List (ℕ × (ℕ → List (ℕ × ℕ) → Res (ℕ × List (ℕ × ℕ)))))
    (done : List ℕ) (r : ℕ) (m : List (ℕ × ℕ)) (n : ℕ),
    (∀ x ∈ ps, ∀ r m, 0 < r → r < B → StepOk x.1 r m (x.2 r m)) → r < B → FMap m r n → (∀ p ∈ done, ¬ p ∣ r) →
    ∃ r' m' b, tdGen stop ps r m = .ok (r', m', b) ∧ FMap m' r' n ∧ r' ∣ r ∧
      (b = false → (r' = r ∧ ps = []) ∨ r' ≠ 1) ∧
      (b = false → ∀ p ∈ done ++ ps.map Prod.fst, ¬ p ∣ r') ∧
      (b = true → r' = 1 ∨ ∃ tried q rest, ps.map Prod.fst = tried ++ q :: rest ∧ stop q = true ∧
        ∀ p ∈ done ++ tried, ¬ p ∣ r') := by
  intro ps
  induction ps with
  | nil =>
    intro done r m n _ _ hF hd
    exact ⟨r, m, false, rfl, hF, dvd_rfl, by simp, fun _ => by simpa using hd, by simp⟩
  | cons x ps ih =>
    obtain ⟨p, step⟩ := x
    intro done r m n hps hB hF hd
    simp only [tdGen]
    by_cases hs : stop p = true
    · simp only [hs, if_true]
      exact ⟨r, m, true, rfl, hF, dvd_rfl, by simp, by simp, fun _ => Or.inr ⟨[], p, ps.map Prod.fst, rfl, hs, by simpa using hd⟩⟩
    · simp only [hs, Bool.false_eq_true, if_false]
      obtain ⟨r1, m1, h1, h2, h3, h4⟩ := hps (p, step) (by simp) r m hF.rpos hB
      simp only at h1 h3
      rw [h1]
      simp only [Res.bind_ok]
      have hle : r1 ≤ r := Nat.le_of_dvd hF.rpos h2
      by_cases hr1 : r1 = 1
      · simp only [hr1, if_true]
        exact ⟨1, m1, true, rfl, hr1 ▸ h4 n hF, by simp, by simp, by simp, fun _ => Or.inl rfl⟩
      · simp only [hr1, if_false]
        obtain ⟨r', m', b, g1, g2, g3, g6, g4, g5⟩ := ih (done ++ [p]) r1 m1 n
          (fun x hx => hps x (List.mem_cons_of_mem _ hx)) (by omega) (h4 n hF) (by
            intro q hq
            rcases List.mem_append.mp hq with hq | hq
            · exact fun hc => hd q hq (hc.trans h2)
            · simp only [List.mem_singleton] at hq; subst hq; exact h3)
        refine ⟨r', m', b, g1, g2, g3.trans h2, fun hb => Or.inr ?_, fun hb => by simpa using g4 hb, fun hb => ?_⟩
        · rcases g6 hb with ⟨h, _⟩ | h
          · rw [h]; exact hr1
          · exact h
        rcases g5 hb with h | ⟨tried, q, rest, h5, h6, h7⟩
        · exact Or.inl h
        · exact Or.inr ⟨p :: tried, q, rest, by simp [h5], h6, by simpa using h7⟩

theorem tdSmall64_eq (tsqrt : ℕ) : ∀ (ps : List ℕ) (r : ℕ) (m : List (ℕ × ℕ)), tdSmall64 tsqrt ps r m =
    tdGen (fun p => decide (p > tsqrt)) (ps.map (fun p => (p, fun r m => divOutMap p (r + 1) r m))) r m := by
  intro ps
  induction ps with
  | nil => intro r m; rfl
  | cons p ps ih =>
    intro r m
    simp only [tdSmall64, List.map_cons, tdGen, ih, decide_eq_true_eq]

theorem tdSmall128_eq : ∀ (ps : List ℕ) (r : ℕ) (m : List (ℕ × ℕ)), tdSmall128 ps r m =
    tdGen (fun _ => false) (ps.map (fun p => (p, fun r m => divOutMap p (r + 1) r m))) r m := by
  intro ps
  induction ps with
  | nil => intro r m; rfl
  | cons p ps ih =>
    intro r m
    simp only [tdSmall128, List.map_cons, tdGen, ih, Bool.false_eq_true, if_false]

theorem mapR_bind {α β γ : Type} (x : Res α) (f : α → β) (g : β → Res γ) : (x.mapR f >>= g) = (x >>= fun a => g (f a)) := by
  cases x <;> rfl

theorem tdBig64_eq (tsqrt : ℕ) : ∀ (ps : List (ℕ × ℕ × ℕ)) (r : ℕ) (m : List (ℕ × ℕ)), tdBig64 tsqrt ps r m =
    tdGen (fun p => decide (p > tsqrt)) (ps.map (fun x => (x.1, fun r m =>
      (divOut (fun n => divExact64 n x.2) (r + 1) r 0).mapR (fun y => (y.1, if y.2 > 0 then mapInsert m x.1 y.2 else m))))) r m := by
  intro ps
  induction ps with
  | nil => intro r m; rfl
  | cons p ps ih =>
    intro r m
    simp only [tdBig64, List.map_cons, tdGen, ih, decide_eq_true_eq, mapR_bind]

theorem tdBig128_eq : ∀ (ps : List (ℕ × ℕ × ℕ)) (r : ℕ) (m : List (ℕ × ℕ)), tdBig128 ps r m =
    tdGen (fun _ => false) (ps.map (fun x => (x.1, fun r m =>
      (divOut (fun n => divExact128 n x.1) (r + 1) r 0).mapR (fun y => (y.1, if y.2 > 0 then mapInsert m x.1 y.2 else m))))) r m := by
  intro ps
  induction ps with
  | nil => intro r m; rfl
  | cons p ps ih =>
    intro r m
    simp only [tdBig128, List.map_cons, tdGen, ih, Bool.false_eq_true, if_false, mapR_bind]

/-- no prime below the table bound divides -/
def Rough (bld : Build) (r : ℕ) : Prop := ∀ p, p.Prime → p < smallPrimesNext bld → ¬ p ∣ r

theorem Rough.of_dvd {bld : Build} {r d : ℕ} (h : Rough bld r) (hd : d ∣ r) : Rough bld d :=
  fun p hp hl hc => h p hp hl (hc.trans hd)

theorem Rough.le {bld : Build} {r : ℕ} (h : Rough bld r) (h1 : 1 < r) : smallPrimesNext bld ≤ r := by
  by_contra hlt
  have hmf := Nat.minFac_prime (show r ≠ 1 by omega)
  exact h _ hmf (lt_of_le_of_lt (Nat.minFac_le (by omega)) (by omega)) (Nat.minFac_dvd r)

theorem Rough.odd {bld : Build} {r : ℕ} (h : Rough bld r) : r % 2 = 1 := by
  have := h 2 Nat.prime_two (by have := le_smallPrimesNext bld; omega)
  omega

theorem Rough.coprime {bld : Build} {r k : ℕ} (h : Rough bld r) (hk : 0 < k) (hlt : k < smallPrimesNext bld) :
    Nat.Coprime r k := by
  rw [Nat.coprime_iff_gcd_eq_one]
  by_contra hc
  have hmf := Nat.minFac_prime hc
  have hd := Nat.minFac_dvd (Nat.gcd r k)
  have h2 : (Nat.gcd r k).minFac ∣ k := hd.trans (Nat.gcd_dvd_right r k)
  exact h _ hmf (lt_of_le_of_lt (Nat.le_of_dvd hk h2) hlt) (hd.trans (Nat.gcd_dvd_left r k))

theorem rough_of {bld : Build} {r : ℕ} (h2 : r % 2 = 1) (h : ∀ p ∈ (smallPrimes bld).drop 1, ¬ p ∣ r) : Rough bld r := by
  intro p hp hl hd
  by_cases h2p : p = 2
  · subst h2p; omega
  · exact h p (mem_drop.mpr ⟨hp, hl, h2p⟩) hd

theorem drop_ne_nil (bld : Build) : List.map Prod.fst ([] : List (ℕ × (ℕ → List (ℕ × ℕ) → Res (ℕ × List (ℕ × ℕ))))) ≠
    (smallPrimes bld).drop 1 := by
  intro h
  have : 3 ∈ (smallPrimes bld).drop 1 := mem_drop.mpr ⟨Nat.prime_three, by have := le_smallPrimesNext bld; omega, by norm_num⟩
  rw [← h] at this
  simp at this

/-- outcome of the trial division of `factorize64` -/
theorem td64_spec {bld : Build} {n N r : ℕ} {m : List (ℕ × ℕ)} (hN : N < 2 ^ 64) (hr : r ≤ N) (hodd : r % 2 = 1)
    (hF : FMap m r n) : ∃ r' m' b, td64 bld (isqrt N + 1) r m = .ok (r', m', b) ∧ FMap m' r' n ∧ r' ≤ N ∧ r' % 2 = 1 ∧
      (b = false → r' ≠ 1 ∧ Rough bld r') ∧ (b = true → r' = 1 ∨ r'.Prime) := by
  have key : ∀ (ps : List (ℕ × (ℕ → List (ℕ × ℕ) → Res (ℕ × List (ℕ × ℕ))))),
      ps.map Prod.fst = (smallPrimes bld).drop 1 →
      (∀ x ∈ ps, ∀ r m, 0 < r → r < 2 ^ 64 → StepOk x.1 r m (x.2 r m)) →
      ∃ r' m' b, tdGen (fun p => decide (p > isqrt N + 1)) ps r m = .ok (r', m', b) ∧ FMap m' r' n ∧ r' ≤ N ∧ r' % 2 = 1 ∧
      (b = false → r' ≠ 1 ∧ Rough bld r') ∧ (b = true → r' = 1 ∨ r'.Prime) := by
    intro ps hps hstep
    obtain ⟨r', m', b, h1, h2, h3, h9, h4, h5⟩ := tdGen_spec (stop := fun p => decide (p > isqrt N + 1)) (B := 2 ^ 64) ps []
      r m n hstep (by omega) hF (by simp)
    have hle : r' ≤ r := Nat.le_of_dvd hF.rpos h3
    have hodd' : r' % 2 = 1 := by
      obtain ⟨c, rfl⟩ := h3
      rw [Nat.mul_mod] at hodd
      rcases Nat.mod_two_eq_zero_or_one r' with h0 | h0
      · rw [h0] at hodd; simp at hodd
      · exact h0
    refine ⟨r', m', b, h1, h2, by omega, hodd', fun hb => ⟨?_, rough_of hodd' ?_⟩, fun hb => ?_⟩
    · rcases h9 hb with ⟨_, h⟩ | h
      · subst h
        exact absurd hps (drop_ne_nil bld)
      · exact h
    · have := h4 hb
      rwa [List.nil_append, hps] at this
    · rcases h5 hb with h | ⟨tried, q, rest, h6, h7, h8⟩
      · exact Or.inl h
      · simp only [decide_eq_true_eq] at h7
        rw [hps] at h6
        have hs := drop_sorted bld
        rw [h6, List.pairwise_append, List.pairwise_cons] at hs
        refine one_or_prime_of_no_small h2.rpos (show r' ≤ N by omega) h7 (fun p hp hpq hd => ?_)
        by_cases h2p : p = 2
        · subst h2p; omega
        · have hqm : q ∈ (smallPrimes bld).drop 1 := by rw [h6]; simp
          have hpm : p ∈ (smallPrimes bld).drop 1 :=
            mem_drop.mpr ⟨hp, lt_trans hpq (mem_drop.mp hqm).2.1, h2p⟩
          rw [h6] at hpm
          rcases List.mem_append.mp hpm with hpm | hpm
          · exact h8 p (by simpa using hpm) hd
          · rcases List.mem_cons.mp hpm with rfl | hpm
            · omega
            · have := hs.2.1.1 p hpm; omega
  cases bld with
  | small =>
    simp only [td64, tdSmall64_eq]
    refine key _ (by rw [List.map_map]; exact List.map_id _) ?_
    intro x hx r m hr _
    obtain ⟨p, hp, rfl⟩ := List.mem_map.mp hx
    exact divOutMap_step (mem_drop.mp hp).1 hr
  | big =>
    simp only [td64, tdBig64_eq]
    refine key _ (by rw [List.map_map]; exact primesWithInv_fst) ?_
    intro x hx r m hr hlt
    obtain ⟨⟨p, pinv⟩, hp, rfl⟩ := List.mem_map.mp hx
    obtain ⟨h1, h2, h3⟩ := primesWithInv_spec hp
    have hpp := (mem_drop.mp h3).1
    exact divOut_step hpp hr (fun n hn => divExact64_spec (by omega) hpp.pos h1 h2)

/-- outcome of the trial division of `factorize128` -/
theorem td128_spec {bld : Build} {n r : ℕ} {m : List (ℕ × ℕ)} (hodd : r % 2 = 1)
    (hF : FMap m r n) : ∃ r' m' b, td128 bld r m = .ok (r', m', b) ∧ FMap m' r' n ∧ r' ≤ r ∧ r' % 2 = 1 ∧
      (b = false → r' ≠ 1 ∧ Rough bld r') ∧ (b = true → r' = 1) := by
  have key : ∀ (ps : List (ℕ × (ℕ → List (ℕ × ℕ) → Res (ℕ × List (ℕ × ℕ))))),
      ps.map Prod.fst = (smallPrimes bld).drop 1 →
      (∀ x ∈ ps, ∀ r m, 0 < r → StepOk x.1 r m (x.2 r m)) →
      ∃ r' m' b, tdGen (fun _ => false) ps r m = .ok (r', m', b) ∧ FMap m' r' n ∧ r' ≤ r ∧ r' % 2 = 1 ∧
      (b = false → r' ≠ 1 ∧ Rough bld r') ∧ (b = true → r' = 1) := by
    intro ps hps hstep
    obtain ⟨r', m', b, h1, h2, h3, h9, h4, h5⟩ := tdGen_spec (stop := fun _ => false) (B := r + 1) ps []
      r m n (fun x hx r m hr _ => hstep x hx r m hr) (by omega) hF (by simp)
    have hodd' : r' % 2 = 1 := by
      obtain ⟨c, rfl⟩ := h3
      rw [Nat.mul_mod] at hodd
      rcases Nat.mod_two_eq_zero_or_one r' with h0 | h0
      · rw [h0] at hodd; simp at hodd
      · exact h0
    refine ⟨r', m', b, h1, h2, Nat.le_of_dvd hF.rpos h3, hodd', fun hb => ⟨?_, rough_of hodd' ?_⟩, fun hb => ?_⟩
    · rcases h9 hb with ⟨_, h⟩ | h
      · subst h
        exact absurd hps (drop_ne_nil bld)
      · exact h
    · have := h4 hb
      rwa [List.nil_append, hps] at this
    · rcases h5 hb with h | ⟨tried, q, rest, h6, h7, h8⟩
      · exact h
      · simp at h7
  cases bld with
  | small =>
    simp only [td128, tdSmall128_eq]
    refine key _ (by rw [List.map_map]; exact List.map_id _) ?_
    intro x hx r m hr
    obtain ⟨p, hp, rfl⟩ := List.mem_map.mp hx
    exact divOutMap_step (mem_drop.mp hp).1 hr
  | big =>
    simp only [td128, tdBig128_eq]
    refine key _ (by rw [List.map_map]; exact primesWithInv_fst) ?_
    intro x hx r m hr
    obtain ⟨⟨p, pinv⟩, hp, rfl⟩ := List.mem_map.mp hx
    exact divOut_step (mem_drop.mp (primesWithInv_spec hp).2.2).1 hr (fun n _ => divExact128_spec n p)

end NumPrime
