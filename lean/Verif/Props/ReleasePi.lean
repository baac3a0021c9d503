import Verif.Model.ReleaseNth
import Verif.Props.Counting
import Verif.Props.ReleaseReserve
import Verif.Props.ReleasePrime
import Verif.Props.Settled
import Verif.Proofs.Binary64

/-! # C91: counting primes in a build without overflow checks -/

namespace NumPrime
open Spec
open Nat (primeCounting)
local notation "π" => primeCounting

theorem wsub_eq {x y : ℕ} (hx : x < 2 ^ 64) (h : y ≤ x) : wsub 64 x y = x - y := by
  unfold wsub; omega

theorem wadd_eq {x y : ℕ} (h : x + y < 2 ^ 64) : wadd 64 x y = x + y := by
  unfold wadd; omega

theorem wmul_eq {x y : ℕ} (h : x * y < 2 ^ 64) : wmul 64 x y = x * y := Nat.mod_eq_of_lt h

theorem csub_eq_ok {x y v : ℕ} (h : csub x y = .ok v) : y ≤ x ∧ v = x - y := by
  unfold csub at h
  split at h
  · simp at h; exact ⟨by omega, by omega⟩
  · simp at h

theorem cadd_eq_ok {x y v : ℕ} (h : cadd (some 64) x y = .ok v) : x + y < 2 ^ 64 ∧ v = x + y := by
  unfold cadd at h
  split at h
  · rename_i hf
    exact ⟨fits_some.mp hf, by simp at h; omega⟩
  · simp at h

theorem cmul_eq_ok {x y v : ℕ} (h : cmul (some 64) x y = .ok v) : x * y < 2 ^ 64 ∧ v = x * y := by
  unfold cmul at h
  split at h
  · rename_i hf
    exact ⟨fits_some.mp hf, by simp at h; omega⟩
  · simp at h

/-- on `u64` arguments and buffers with the property `P` the checked computation returning a value is all the other one needs -/
abbrev Agree (P : Buf → Prop) (f f' : Buf → ℕ → Res (ℕ × Buf)) : Prop :=
  ∀ b x r, P b → x < 2 ^ 64 → f b x = .ok r → f' b x = .ok r ∧ P r.2

theorem Agree.refl (f : Buf → ℕ → Res (ℕ × Buf)) : Agree (fun _ => True) f f := fun _ _ _ _ _ h => ⟨h, trivial⟩

theorem cdiv_eq_ok {x y v : ℕ} (h : cdiv x y = .ok v) : v ≤ x := by
  unfold cdiv at h
  split at h
  · simp at h
  · simp only [Res.ok.injEq] at h
    rw [← h]
    exact Nat.div_le_self _ _

theorem mem_rangeStep_one {a b i : ℕ} (h : i ∈ rangeStep a b 1) : a ≤ i ∧ i < b := by
  rw [rangeStep_one] at h
  simp only [List.mem_range'_1] at h
  omega

theorem piInner_rel {P : Buf → Prop} {pi nth pi' nth' : Buf → ℕ → Res (ℕ × Buf)} (hpi : Agree P pi pi') (hnth : Agree P nth nth') (w k : ℕ)
    (hw64 : w < 2 ^ 64) :
    ∀ (l : List ℕ) (b : Buf) (S v : ℕ) (b' : Buf), P b → (∀ j ∈ l, j < 2 ^ 64) → S < 2 ^ 64 → piInner pi nth w l b S = .ok (v, b') →
      v < 2 ^ 64 ∧ piInnerRel pi' nth' w l b ((S + k) % 2 ^ 64) = .ok ((v + k) % 2 ^ 64, b') ∧ P b' := by
  intro l
  induction l with
  | nil =>
    intro b S v b' hP _ hS h
    simp only [piInner, Res.ok.injEq, Prod.mk.injEq] at h
    obtain ⟨rfl, rfl⟩ := h
    exact ⟨hS, rfl, hP⟩
  | cons j js ih =>
    intro b S v b' hP hl hS h
    simp only [piInner, Res.bind_eq_ok] at h
    obtain ⟨⟨pj, b1⟩, h1, q, h2, ⟨u, b2⟩, h3, S', h4, h5⟩ := h
    dsimp only at h2 h3 h4 h5
    obtain ⟨h6, rfl⟩ := csub_eq_ok h4
    obtain ⟨e1, p1⟩ := hnth _ _ _ hP (hl j (by simp)) h1
    obtain ⟨e3, p3⟩ := hpi _ _ _ p1 (lt_of_le_of_lt (cdiv_eq_ok h2) hw64) h3
    obtain ⟨h7, h8, h9⟩ := ih _ _ _ _ p3 (fun i hi => hl i (by simp [hi])) (by omega) h5
    refine ⟨h7, ?_, h9⟩
    simp only [piInnerRel, e1, Res.bind_ok, h2, e3]
    rw [show wsub 64 ((S + k) % 2 ^ 64) u = (S - u + k) % 2 ^ 64 by unfold wsub; omega, h8]

theorem piOuter_rel {P : Buf → Prop} {pi nth pi' nth' : Buf → ℕ → Res (ℕ × Buf)} (hpi : Agree P pi pi') (hnth : Agree P nth nth')
    (x c k : ℕ) (hx : x < 2 ^ 64) :
    ∀ (l : List ℕ) (b : Buf) (S v : ℕ) (b' : Buf), P b → (∀ j ∈ l, j < 2 ^ 64) → S < 2 ^ 64 → piOuter pi nth x c l b S = .ok (v, b') →
      v < 2 ^ 64 ∧ piOuterRel pi' nth' x c l b ((S + k) % 2 ^ 64) = .ok ((v + k) % 2 ^ 64, b') ∧ P b' := by
  intro l
  induction l with
  | nil =>
    intro b S v b' hP _ hS h
    simp only [piOuter, Res.ok.injEq, Prod.mk.injEq] at h
    obtain ⟨rfl, rfl⟩ := h
    exact ⟨hS, rfl, hP⟩
  | cons i is ih =>
    intro b S v b' hP hlist hS h
    simp only [piOuter, Res.bind_eq_ok] at h
    obtain ⟨⟨p, b1⟩, h1, w, h2, ⟨u, b2⟩, h3, S', h4, h5⟩ := h
    dsimp only at h2 h3 h4 h5
    obtain ⟨h6, rfl⟩ := csub_eq_ok h4
    have hw64 : w < 2 ^ 64 := lt_of_le_of_lt (cdiv_eq_ok h2) hx
    have hi : i < 2 ^ 64 := hlist i (by simp)
    have his : ∀ j ∈ is, j < 2 ^ 64 := fun j hj => hlist j (by simp [hj])
    obtain ⟨e1, p1⟩ := hnth _ _ _ hP hi h1
    obtain ⟨e3, p3⟩ := hpi _ _ _ p1 hw64 h3
    have hw : wsub 64 ((S + k) % 2 ^ 64) u = (S - u + k) % 2 ^ 64 := by unfold wsub; omega
    simp only [piOuterRel, e1, Res.bind_ok, h2, e3, hw]
    by_cases hc : i ≤ c
    · rw [if_pos hc] at h5 ⊢
      simp only [Res.bind_eq_ok] at h5
      obtain ⟨⟨l, b3⟩, h7, l1, h8, ll, h9, i3, h10, ii, h11, d, h12, d', h13, S2, h14, ⟨S3, b4⟩, h15, h16⟩ := h5
      dsimp only at h8 h9 h10 h11 h12 h13 h14 h15 h16
      obtain ⟨e8, rfl⟩ := csub_eq_ok h8
      obtain ⟨e9, rfl⟩ := cmul_eq_ok h9
      obtain ⟨e10, rfl⟩ := csub_eq_ok h10
      obtain ⟨e11, rfl⟩ := cmul_eq_ok h11
      obtain ⟨e12, rfl⟩ := csub_eq_ok h12
      obtain ⟨e13, rfl⟩ := csub_eq_ok h13
      obtain ⟨e14, rfl⟩ := cadd_eq_ok h14
      have hl : l < 2 ^ 64 := by
        by_contra hc
        have : 2 ^ 64 * 1 ≤ l * (l - 1) := Nat.mul_le_mul (by omega) (by omega)
        omega
      have hsq : isqrt w < 2 ^ 64 := by
        rw [isqrt_eq]
        exact lt_of_le_of_lt (Nat.sqrt_le_self w) hw64
      obtain ⟨e7, p7⟩ := hpi _ _ _ p3 hsq h7
      obtain ⟨g1, g2, q2⟩ := piInner_rel hpi hnth w k hw64 _ _ _ _ _ p7 (fun j hj => by have := mem_rangeStep_one hj; omega) e14 h15
      obtain ⟨g3, g4, q4⟩ := ih _ _ _ _ q2 his g1 h16
      refine ⟨g3, ?_, q4⟩
      rw [e7, Res.bind_ok]
      dsimp only
      rw [wsub_eq hl e8, wmul_eq e9, wsub_eq hi e10, wmul_eq e11, wsub_eq e9 e12, wsub_eq (by omega) e13,
        show wadd 64 ((S - u + k) % 2 ^ 64) ((l * (l - 1) - i * (i - 3)) / 2 - 1) =
          (S - u + ((l * (l - 1) - i * (i - 3)) / 2 - 1) + k) % 2 ^ 64 by unfold wadd; omega, g2, Res.bind_ok]
      exact g4
    · rw [if_neg hc] at h5 ⊢
      exact ih _ _ _ _ p3 his (by omega) h5

/-- cached values are values of the type -/
def CacheFits (c : Cache) : Prop := ∀ e ∈ c.items, e.2 < 2 ^ 64

theorem CacheFits.get {c c' : Cache} {k : ℕ × ℕ} {v : ℕ} (h : c.get k = some (v, c')) (hc : CacheFits c) :
    v < 2 ^ 64 ∧ CacheFits c' := by
  unfold Cache.get at h
  cases hf : c.items.find? (fun e => e.1 == k) with
  | none => rw [hf] at h; simp at h
  | some e =>
    rw [hf] at h
    simp only [Option.some.injEq, Prod.mk.injEq] at h
    obtain ⟨rfl, rfl⟩ := h
    have h2 := List.mem_of_find?_eq_some hf
    refine ⟨hc e h2, ?_⟩
    intro e' he'
    simp only [List.mem_cons, List.mem_filter] at he'
    rcases he' with rfl | he'
    · exact hc _ h2
    · exact hc _ he'.1

theorem CacheFits.put {c : Cache} {k : ℕ × ℕ} {v : ℕ} (hc : CacheFits c) (hv : v < 2 ^ 64) : CacheFits (c.put k v) := by
  intro e he
  have he := List.mem_of_mem_take he
  simp only [List.mem_cons, List.mem_filter] at he
  rcases he with rfl | he
  · exact hv
  · exact hc _ he.1

theorem primePhi_rel {P : Buf → Prop} {nth nth' : Buf → ℕ → Res (ℕ × Buf)} (hnth : Agree P nth nth') : ∀ (a : ℕ) (b : Buf) (c : Cache) (x : ℕ)
    (r : ℕ × Buf × Cache), P b → a < 2 ^ 64 → CacheFits c → primePhiWith nth a b c x = .ok r →
    r.1 < 2 ^ 64 ∧ CacheFits r.2.2 ∧ primePhiRel nth' a b c x = .ok r ∧ P r.2.1 := by
  intro a
  induction a with
  | zero =>
    intro b c x r hP _ hc h
    simp only [primePhiWith] at h
    cases hg : c.get (x, 0) with
    | none => rw [hg] at h; simp at h
    | some q =>
      rw [hg] at h
      simp only [Res.ok.injEq] at h
      subst h
      obtain ⟨h1, h2⟩ := CacheFits.get hg hc
      refine ⟨h1, h2, ?_, hP⟩
      simp only [primePhiRel, hg]
  | succ a ih =>
    intro b c x r hP ha64 hc h
    simp only [primePhiWith] at h
    simp only [primePhiRel]
    by_cases ha : a + 1 = 1
    · simp only [ha, if_true, Res.bind_eq_ok, Res.pure_def, Res.ok.injEq] at h ⊢
      obtain ⟨s, h1, rfl⟩ := h
      obtain ⟨h2, rfl⟩ := cadd_eq_ok h1
      refine ⟨by simp only; omega, hc, ?_, hP⟩
      rw [wadd_eq h2]
    · rw [if_neg ha] at h ⊢
      cases hg : c.get (x, a + 1) with
      | some q =>
        rw [hg] at h
        simp only [Res.ok.injEq] at h
        subst h
        obtain ⟨h1, h2⟩ := CacheFits.get hg hc
        exact ⟨h1, h2, rfl, hP⟩
      | none =>
        rw [hg] at h
        simp only [Res.bind_eq_ok, Res.pure_def, Res.ok.injEq] at h
        obtain ⟨⟨t1, b1, c1⟩, h1, ⟨p, b2⟩, h2, q, h3, ⟨t2, b3, c3⟩, h4, t, h5, rfl⟩ := h
        dsimp only at h2 h3 h4 h5 ⊢
        obtain ⟨h6, rfl⟩ := csub_eq_ok h5
        obtain ⟨g1, g2, g3, p3⟩ := ih _ _ _ _ hP (by omega) hc h1
        obtain ⟨e2, p2⟩ := hnth _ _ _ p3 ha64 h2
        obtain ⟨g4, g5, g6, p6⟩ := ih _ _ _ _ p2 (by omega) g2 h4
        dsimp only at g1 g2 g4 g5
        refine ⟨by omega, g5.put (by omega), ?_, p6⟩
        simp only [g3, Res.bind_ok, e2, h3, g6, wsub_eq g1 h6, Res.pure_def]

/-! ## the n-th prime -/

theorem primePiEst_rel {bld : Build} {o : Estimates} {x v : ℕ} (h : primePiEst bld (some 64) o x = .ok v) :
    primePiEstRel bld 64 o x = .ok v := by
  cases bld
  · simp only [primePiEst, primePiEstRel] at h ⊢
    split at h
    · rename_i ht
      rw [if_pos ht]
      simp only [Res.bind_eq_ok] at h ⊢
      obtain ⟨⟨lo, hi⟩, h1, h2⟩ := h
      refine ⟨_, h1, ?_⟩
      dsimp only at h2 ⊢
      split at h2
      · simp at h2
      · exact h2
    · rename_i ht
      rw [if_neg ht]
      exact h
  · simp only [primePiEst, primePiEstRel, Res.bind_eq_ok] at h ⊢
    obtain ⟨⟨lo, hi⟩, h1, s, h2, h3⟩ := h
    obtain ⟨h4, rfl⟩ := cadd_eq_ok h2
    exact ⟨_, h1, by rw [wadd_eq h4]; exact h3⟩

theorem nthPrimeEstLoop_rel {bld : Build} {o : Estimates} {n : ℕ} : ∀ (f lo hi : ℕ) r, hi < 2 ^ 64 →
    nthPrimeEstLoop bld (some 64) o n f lo hi = .ok r → nthPrimeEstLoopRel bld 64 o n f lo hi = .ok r := by
  intro f
  induction f with
  | zero => intro lo hi r _ h; simp [nthPrimeEstLoop] at h
  | succ f ih =>
    intro lo hi r hhi h
    simp only [nthPrimeEstLoop, Res.bind_eq_ok] at h
    obtain ⟨h1, h2, h⟩ := h
    obtain ⟨h3, rfl⟩ := csub_eq_ok h2
    simp only [nthPrimeEstLoopRel]
    rw [wsub_eq hhi h3]
    split at h
    · rename_i hc; rw [if_pos hc]; exact h
    · rename_i hc
      rw [if_neg hc]
      simp only [Res.bind_eq_ok] at h
      obtain ⟨s, h4, m, h5, h6⟩ := h
      obtain ⟨h7, rfl⟩ := cadd_eq_ok h4
      simp only [wadd_eq h7, Res.bind_eq_ok]
      refine ⟨m, primePiEst_rel h5, ?_⟩
      split at h6
      · rename_i hm; rw [if_pos hm]; exact ih _ _ _ hhi h6
      · rename_i hm
        rw [if_neg hm]
        split at h6
        · rename_i hm2; rw [if_pos hm2]; exact ih _ _ _ (by omega) h6
        · rename_i hm2; rw [if_neg hm2]; exact h6

/-- **C97** `nth_prime_est` without overflow checks returns what the version with checks returns, wherever that one returns -/
theorem C97_nth_prime_est_agrees (bld : Build) (o : Estimates) (n fuel : ℕ) (r : Option ℕ)
    (h : nthPrimeEst bld (some 64) o n fuel = .ok r) : nthPrimeEstRel bld 64 o n fuel = .ok r := by
  simp only [nthPrimeEst, nthPrimeEstRel, Res.bind_eq_ok] at h ⊢
  obtain ⟨p, h1, h2⟩ := h
  refine ⟨p, h1, ?_⟩
  cases p with
  | none => exact h2
  | some p =>
    obtain ⟨lo, hi⟩ := p
    simp only at h2 ⊢
    split at h2
    · rename_i hc; rw [if_pos hc]; exact h2
    · rename_i hc
      rw [if_neg hc]
      exact nthPrimeEstLoop_rel _ _ _ _ (fits_some.mp (nthPrimeBounds_fits h1).2) h2

theorem nthPrimeEstLoop_lt {bld : Build} {o : Estimates} {n : ℕ} : ∀ (f lo hi v : ℕ), lo < 2 ^ 64 →
    nthPrimeEstLoop bld (some 64) o n f lo hi = .ok (some v) → v < 2 ^ 64 := by
  intro f
  induction f with
  | zero => intro lo hi v _ h; simp [nthPrimeEstLoop] at h
  | succ f ih =>
    intro lo hi v hlo h
    simp only [nthPrimeEstLoop, Res.bind_eq_ok] at h
    obtain ⟨h1, h2, h⟩ := h
    split at h
    · simp only [Res.pure_def, Res.ok.injEq, Option.some.injEq] at h; omega
    · simp only [Res.bind_eq_ok] at h
      obtain ⟨s, h4, m, h5, h6⟩ := h
      obtain ⟨h7, rfl⟩ := cadd_eq_ok h4
      split at h6
      · exact ih _ _ _ (by omega) h6
      · split at h6
        · exact ih _ _ _ hlo h6
        · simp only [Res.pure_def, Res.ok.injEq, Option.some.injEq] at h6; omega

theorem nthPrimeEst_lt {bld : Build} {o : Estimates} {n fuel v : ℕ} (h : nthPrimeEst bld (some 64) o n fuel = .ok (some v)) : v < 2 ^ 64 := by
  simp only [nthPrimeEst, Res.bind_eq_ok] at h
  obtain ⟨p, h1, h2⟩ := h
  cases p with
  | none => simp at h2
  | some p =>
    obtain ⟨lo, hi⟩ := p
    have hf := fits_some.mp (nthPrimeBounds_fits h1).1
    simp only at h2
    split at h2
    · simp only [Res.pure_def, Res.ok.injEq, Option.some.injEq] at h2; omega
    · exact nthPrimeEstLoop_lt _ _ _ _ hf h2

theorem prevPrime_below {bld : Build} {n g y : ℕ} {draws : ℕ → List ℕ} (hn : n < 2 ^ 64)
    (h : prevPrime bld (some 64) n none draws g = .ok (some y)) : y < n := by
  rcases Nat.lt_or_ge 2 n with h2 | h2
  · obtain ⟨r, F, h3, h4, -⟩ := prevPrime_u64 bld (some 64) n h2 hn none draws
    rcases C115_prev_prime bld (some 64) n none draws g (max g F) (by omega) with h5 | h5
    · rw [h] at h5; simp at h5
    · rw [h3 _ (by omega), h] at h5
      simp only [Res.ok.injEq, Option.some.injEq] at h5
      omega
  · simp [prevPrime, h2] at h

theorem walkDown_rel {bld : Build} {g n : ℕ} : ∀ (f x p : ℕ) r, p < 2 ^ 64 → x < 2 ^ 64 → nthWalkDown bld g n f x p = .ok r →
    nthWalkDownRel bld g n f x p = .ok r ∧ r.2 < 2 ^ 64 := by
  intro f
  induction f with
  | zero => intro x p r _ _ h; simp [nthWalkDown] at h
  | succ f ih =>
    intro x p r hp hx h
    simp only [nthWalkDown] at h
    simp only [nthWalkDownRel]
    split at h
    · rename_i hc
      rw [if_pos hc]
      simp only [Res.bind_eq_ok] at h ⊢
      obtain ⟨y, h1, h2⟩ := h
      cases y with
      | none => simp at h2
      | some y =>
        simp only [Res.bind_eq_ok] at h2
        obtain ⟨q, h3, h4⟩ := h2
        obtain ⟨h5, rfl⟩ := csub_eq_ok h3
        have hy := prevPrime_below hx h1
        obtain ⟨h6, h7⟩ := ih _ _ _ (by omega) (by omega) h4
        rw [C102_prev_prime_release bld 64 (by simp) x hx]
        exact ⟨⟨_, h1, by simp only [wsub_eq hp h5]; exact h6⟩, h7⟩
    · rename_i hc
      rw [if_neg hc]
      simp only [Res.ok.injEq] at h
      subst h
      exact ⟨rfl, hp⟩

theorem walkUp_rel {bld : Build} {g n : ℕ} : ∀ (f x p : ℕ) r, nthWalkUp bld g n f x p = .ok r →
    nthWalkUpRel bld g n f x p = .ok r := by
  intro f
  induction f with
  | zero => intro x p r h; simp [nthWalkUp] at h
  | succ f ih =>
    intro x p r h
    simp only [nthWalkUp] at h
    simp only [nthWalkUpRel]
    split at h
    · rename_i hc
      rw [if_pos hc]
      simp only [Res.bind_eq_ok] at h ⊢
      obtain ⟨y, h1, h2⟩ := h
      cases y with
      | none => simp at h2
      | some y =>
        simp only [Res.bind_eq_ok] at h2
        obtain ⟨q, h3, h4⟩ := h2
        obtain ⟨h5, rfl⟩ := cadd_eq_ok h3
        rw [C102_next_prime_release bld 64 (by simp)]
        exact ⟨_, h1, by simp only [wadd_eq h5]; exact ih _ _ _ h4⟩
    · rename_i hc
      rw [if_neg hc]
      exact h

theorem list_short {b : Buf} (hb : b.Inv) (h : ∀ p ∈ b.list, p < 2 ^ 64) : b.list.length < 2 ^ 64 := by
  rcases Nat.lt_or_ge b.next (2 ^ 64) with hn | hn
  · rw [hb.list_eq, primesBelow_length]
    have : Nat.count Nat.Prime b.next ≤ b.next := Nat.count_le _
    omega
  · have hs : b.list ⊆ primesBelow (2 ^ 64) := by
      intro p hp
      exact mem_primesBelow.mpr ⟨(hb.mem.mp hp).1, h p hp⟩
    have hnd : b.list.Nodup := hb.sorted.imp (fun h => h.ne)
    have := (List.subperm_of_subset hnd hs).length_le
    rw [primesBelow_length] at this
    have h2 : Nat.count Nat.Prime (2 ^ 64) < 2 ^ 64 := by
      have h3 : Nat.count Nat.Prime (2 + (2 ^ 64 - 2)) = Nat.count Nat.Prime 2 + _ := Nat.count_add _ _ _
      have h4 : Nat.count Nat.Prime 2 = 0 := by decide
      have h5 := Nat.count_le (fun k => Nat.Prime (2 + k)) (n := 2 ^ 64 - 2)
      rw [show 2 + (2 ^ 64 - 2) = 2 ^ 64 by norm_num] at h3
      omega
    omega

/-- the contents of a `Vec<u64>` -/
def Buf64 (b : Buf) : Prop := b.Inv ∧ ∀ p ∈ b.list, p < 2 ^ 64

theorem Buf64.reserve {b b' : Buf} {x : ℕ} (hb : Buf64 b) (h : b.reserve x = .ok b') : Buf64 b' := by
  obtain ⟨hi, hn⟩ := reserve_inv hb.1 h
  obtain ⟨hx, -⟩ := (reserve_ok_iff hb.1).mp ⟨_, h⟩
  refine ⟨hi, fun p hp => ?_⟩
  obtain ⟨hp1, hp2⟩ := hi.mem.mp hp
  rw [hn] at hp2
  rcases lt_max_iff.mp hp2 with h3 | h3
  · exact hb.2 p (hb.1.mem.mpr ⟨hp1, h3⟩)
  · omega

theorem Buf64.nprimes {bld : Build} {o : Estimates} {b : Buf} {n : ℕ} {r} (hb : Buf64 b) (h : Buf.nprimes bld o b n = .ok r) : Buf64 r.2 := by
  simp only [Buf.nprimes, Res.bind_eq_ok] at h
  obtain ⟨p, h1, h2⟩ := h
  cases p with
  | none => simp at h2
  | some p =>
    simp only [Res.bind_eq_ok] at h2
    obtain ⟨b', h3, h4⟩ := h2
    split at h4
    · simp at h4
    · simp only [Res.pure_def, Res.ok.injEq] at h4
      rw [← h4]
      exact hb.reserve h3

theorem primePi_u64 {bld : Build} {o : Estimates} {g f : ℕ} {b : Buf} {x : ℕ} {r : ℕ × Buf} (hb : b.Inv) (hl : ∀ p ∈ b.list, p < 2 ^ 64)
    (hx64 : x < 2 ^ 64) (h : primePi bld o g f b x = .ok r) : r.1 < 2 ^ 64 := by
  obtain ⟨v, b'⟩ := r
  show v < 2 ^ 64
  cases f with
  | zero => simp [primePi] at h
  | succ f =>
    simp only [primePi] at h
    cases hlast : b.list.getLast? with
    | none => rw [hlast] at h; simp at h
    | some last =>
      rw [hlast] at h
      simp only at h
      by_cases hsm : x ≤ last ∨ x ≤ 38873
      · rw [if_pos hsm] at h
        simp only [Res.bind_eq_ok, Res.pure_def, Res.ok.injEq, Prod.mk.injEq] at h
        obtain ⟨b0, h0, rfl, rfl⟩ := h
        obtain ⟨hi, hn⟩ := reserve_inv hb h0
        obtain ⟨hx, -⟩ := (reserve_ok_iff hb).mp ⟨_, h0⟩
        have := list_short hi (fun p hp => by
          obtain ⟨hp1, hp2⟩ := hi.mem.mp hp
          rw [hn] at hp2
          rcases lt_max_iff.mp hp2 with h3 | h3
          · exact hl p (hb.mem.mpr ⟨hp1, h3⟩)
          · omega)
        rw [hi.list_eq, binarySearch_upper (primesBelow_sorted _)]
        refine lt_of_le_of_lt ?_ this
        rw [hi.list_eq]
        exact List.length_filter_le _ _
      · rw [if_neg hsm] at h
        simp only [Res.bind_eq_ok] at h
        obtain ⟨b0, h0, ⟨a, b1⟩, h1, ⟨B, b2⟩, h2, ⟨c, b3⟩, h3, h⟩ := h
        dsimp only at h1 h2 h3 h
        by_cases ha : a = 0
        · rw [if_pos ha] at h; simp at h
        · rw [if_neg ha] at h
          simp only [Res.bind_eq_ok] at h
          obtain ⟨⟨phi, b4, c4⟩, h4, s1, h5, s2, h6, s3, h7, s4, h8, m, h9, S, h10, h11⟩ := h
          obtain ⟨e10, rfl⟩ := cadd_eq_ok h10
          obtain ⟨e5, -⟩ := cadd_eq_ok h5
          exact (piOuter_rel (Agree.refl _) (Agree.refl _) x c 0 hx64 _ _ _ _ _ trivial
            (fun j hj => by have := mem_rangeStep_one hj; omega) e10 h11).1


theorem nthPrimeWith_rel {bld : Build} {o : Estimates} {g : ℕ} {pi pi' : Buf → ℕ → Res (ℕ × Buf)} (hpi : Agree Buf64 pi pi')
    (hlt : ∀ b x r, Buf64 b → x < 2 ^ 64 → pi b x = .ok r → r.1 < 2 ^ 64) :
    Agree Buf64 (nthPrimeWith bld o g pi) (nthPrimeWithRel bld o g pi') := by
  intro b n r hb hn h
  unfold nthPrimeWith at h
  unfold nthPrimeWithRel
  split at h
  · rename_i h1
    rw [if_pos h1]
    simp only [Res.bind_eq_ok] at h
    obtain ⟨i, hi, h⟩ := h
    obtain ⟨h2, rfl⟩ := csub_eq_ok hi
    simp only [wsub_eq hn h2]
    refine ⟨h, ?_⟩
    split at h
    · simp only [Res.pure_def, Res.ok.injEq] at h; rw [← h]; exact hb
    · simp at h
  · rename_i h1
    rw [if_neg h1]
    split at h
    · rename_i h2
      rw [if_pos h2]
      simp only [Res.bind_eq_ok] at h ⊢
      obtain ⟨q, hq, h⟩ := h
      refine ⟨⟨q, nprimes_rel hq, h⟩, ?_⟩
      split at h
      · simp only [Res.pure_def, Res.ok.injEq] at h; rw [← h]; exact hb.nprimes hq
      · simp at h
    · rename_i h2
      rw [if_neg h2]
      simp only [Res.bind_eq_ok] at h ⊢
      obtain ⟨e, he, h⟩ := h
      cases e with
      | none => simp at h
      | some e =>
        have he64 := nthPrimeEst_lt he
        simp only [Res.bind_eq_ok] at h
        obtain ⟨y, hy, h⟩ := h
        cases y with
        | none => simp at h
        | some y =>
          have hy64 := prevPrime_below he64 hy
          simp only [Res.bind_eq_ok] at h
          obtain ⟨⟨p, b1⟩, hq, ⟨x1, p1⟩, h3, x2, h4, h5⟩ := h
          obtain ⟨e1, q1⟩ := hpi _ _ _ hb (by omega) hq
          simp only [Res.pure_def, Res.ok.injEq] at h5
          subst h5
          refine ⟨⟨_, C97_nth_prime_est_agrees _ _ _ _ _ he, ?_⟩, q1⟩
          simp only [Res.bind_eq_ok]
          rw [C102_prev_prime_release bld 64 (by simp) e he64]
          exact ⟨_, hy, by
            simp only [Res.bind_eq_ok]
            exact ⟨_, e1, _, (walkDown_rel _ _ _ _ (hlt _ _ _ hb (by omega) hq) (by omega) h3).1, _, walkUp_rel _ _ _ _ h4, rfl⟩⟩

theorem primePi_rel (bld : Build) (o : Estimates) (g : ℕ) : ∀ f, Agree Buf64 (primePi bld o g f) (primePiRel bld o g f) := by
  intro f
  induction f with
  | zero => intro b x r _ _ h; simp [primePi] at h
  | succ f ih =>
    intro buf x r hb hx h
    have hnth := nthPrimeWith_rel (bld := bld) (o := o) (g := g) ih (fun b x r hb hx h => primePi_u64 hb.1 hb.2 hx h)
    simp only [primePi] at h
    simp only [primePiRel]
    cases hl : buf.list.getLast? with
    | none => rw [hl] at h; simp at h
    | some last =>
      rw [hl] at h
      simp only at h ⊢
      by_cases hsm : x ≤ last ∨ x ≤ 38873
      · rw [if_pos hsm] at h ⊢
        simp only [Res.bind_eq_ok] at h ⊢
        obtain ⟨b0, h0, h⟩ := h
        refine ⟨⟨b0, reserve_rel h0, h⟩, ?_⟩
        simp only [Res.pure_def, Res.ok.injEq] at h
        rw [← h]
        exact hb.reserve h0
      · rw [if_neg hsm] at h ⊢
        simp only [Res.bind_eq_ok] at h
        obtain ⟨b0, h0, ⟨a, b1⟩, h1, ⟨B, b2⟩, h2, ⟨c, b3⟩, h3, h⟩ := h
        dsimp only at h1 h2 h3 h
        have hs1 : isqrt x < 2 ^ 64 := by rw [isqrt_eq]; exact lt_of_le_of_lt (Nat.sqrt_le_self x) hx
        have hs2 : isqrt (isqrt x) < 2 ^ 64 := by rw [isqrt_eq]; exact lt_of_le_of_lt (Nat.sqrt_le_self _) hs1
        have hs3 : icbrt x < 2 ^ 64 := by
          have h1 := (icbrt_spec x).1
          have h2 : icbrt x ≤ icbrt x ^ 3 := Nat.le_self_pow (by norm_num) _
          omega
        obtain ⟨e1, q1⟩ := ih _ _ _ (hb.reserve h0) hs2 h1
        obtain ⟨e2, q2⟩ := ih _ _ _ q1 hs1 h2
        obtain ⟨e3, q3⟩ := ih _ _ _ q2 hs3 h3
        simp only [reserve_rel h0, Res.bind_ok, e1, e2, e3]
        by_cases ha : a = 0
        · rw [if_pos ha] at h; simp at h
        · rw [if_neg ha] at h ⊢
          simp only [Res.bind_eq_ok] at h
          obtain ⟨⟨phi, b4, c4⟩, h4, s1, h5, s2, h6, s3, h7, s4, h8, m, h9, S, h10, h11⟩ := h
          dsimp only at h5 h6 h7 h8 h9 h10 h11
          obtain ⟨e5, rfl⟩ := cadd_eq_ok h5
          obtain ⟨e6, rfl⟩ := csub_eq_ok h6
          obtain ⟨e7, rfl⟩ := csub_eq_ok h7
          obtain ⟨e8, rfl⟩ := cadd_eq_ok h8
          obtain ⟨e9, rfl⟩ := cmul_eq_ok h9
          obtain ⟨e10, rfl⟩ := cadd_eq_ok h10
          obtain ⟨-, -, g4, q4⟩ := primePhi_rel hnth _ _ _ _ _ q3 (by omega) (by simp [CacheFits]) h4
          obtain ⟨v, b'⟩ := r
          obtain ⟨g5, g6, q6⟩ := piOuter_rel ih hnth x c 0 hx _ _ _ _ _ q4 (fun j hj => by have := mem_rangeStep_one hj; omega) e10 h11
          simp only [g4, Res.bind_ok]
          rw [wadd_eq e5, wsub_eq e5 e6, wsub_eq (by omega) e7, wadd_eq e8, wmul_eq e9, wadd_eq e10]
          simp only [add_zero, Nat.mod_eq_of_lt e10, Nat.mod_eq_of_lt g5] at g6
          exact ⟨g6, q6⟩

theorem nthPrime_rel (bld : Build) (o : Estimates) (g f : ℕ) :
    Agree Buf64 (nthPrimeWith bld o g (primePi bld o g f)) (nthPrimeWithRel bld o g (primePiRel bld o g f)) :=
  nthPrimeWith_rel (primePi_rel bld o g f) (fun _ _ _ hb hx h => primePi_u64 hb.1 hb.2 hx h)

/-- **C91** wherever the version with overflow checks returns, the one without returns the same value and buffer: everything
proved of returned values and of returning (C30, C31) holds there too -/
theorem C91_release_agrees (bld : Build) (o : Estimates) (g f : ℕ) (b : Buf) (hb : Reachable bld o g f b) (hl : ∀ p ∈ b.iter, p < 2 ^ 64) :
    (∀ x r, x < 2 ^ 64 → primePi bld o g f b x = .ok r → primePiRel bld o g f b x = .ok r) ∧
    (∀ x a (c : Cache) r, a < 2 ^ 64 → (∀ k v, (k, v) ∈ c.items → v < 2 ^ 64) → b.primePhi bld o g f x a c = .ok r →
      primePhiRel (Buf.nthPrimeRel bld o g f) a b c x = .ok r) :=
  ⟨fun x r hx h => (primePi_rel bld o g f b x r ⟨hb.inv, hl⟩ hx h).1, fun _ _ _ _ ha hc h =>
    (primePhi_rel (nthPrime_rel bld o g f) _ _ _ _ _ ⟨hb.inv, hl⟩ ha (fun e he => hc e.1 e.2 he) h).2.2.1⟩

/-! ## u64::MAX -/

local notation "nth" => Nat.nth Nat.Prime

/-- the value without overflow checks: right except at `u64::MAX`, where it is off by `2^63` -/
noncomputable def relPhi (x a : ℕ) : ℕ := if x = 2 ^ 64 - 1 then (legendrePhi x a + 2 ^ 63) % 2 ^ 64 else legendrePhi x a

theorem relPhi_one {x : ℕ} (hx : x < 2 ^ 64) : wadd 64 x 1 / 2 = relPhi x 1 := by
  unfold relPhi wadd
  rw [phi_one]
  split <;> omega

theorem relPhi_lt {x a : ℕ} (hx : x < 2 ^ 64) (ha : 1 ≤ a) : relPhi x a < 2 ^ 64 := by
  have := phi_le_half x ha
  unfold relPhi
  split <;> omega

theorem relPhi_rec {x a : ℕ} (hx : x < 2 ^ 64) (ha : 1 ≤ a) :
    wsub 64 (relPhi x a) (relPhi (x / nth a) a) = relPhi x (a + 1) := by
  have h1 := phi_rec x a
  have h2 := phi_le_half x ha
  have hp := (nth_prime_prime a).two_le
  have hd : x / nth a ≠ 2 ^ 64 - 1 := by
    have : x / nth a ≤ x / 2 := Nat.div_le_div_left hp (by norm_num)
    omega
  unfold relPhi wsub
  rw [if_neg hd]
  split <;> omega

/-- every cached value is a value of the function -/
def CacheRel (c : Cache) : Prop := ∀ e ∈ c.items, e.2 = relPhi e.1.1 e.1.2

theorem CacheRel.get {c c' : Cache} {k : ℕ × ℕ} {v : ℕ} (h : c.get k = some (v, c')) (hc : CacheRel c) :
    v = relPhi k.1 k.2 ∧ CacheRel c' := by
  unfold Cache.get at h
  cases hf : c.items.find? (fun e => e.1 == k) with
  | none => rw [hf] at h; simp at h
  | some e =>
    rw [hf] at h
    simp only [Option.some.injEq, Prod.mk.injEq] at h
    obtain ⟨rfl, rfl⟩ := h
    have h1 : e.1 = k := by simpa using List.find?_some hf
    have h2 := List.mem_of_find?_eq_some hf
    refine ⟨by rw [hc e h2, h1], ?_⟩
    intro e' he'
    simp only [List.mem_cons, List.mem_filter] at he'
    rcases he' with rfl | he'
    · exact hc _ h2
    · exact hc _ he'.1

theorem CacheRel.put {c : Cache} {k : ℕ × ℕ} {v : ℕ} (hc : CacheRel c) (hv : v = relPhi k.1 k.2) : CacheRel (c.put k v) := by
  intro e he
  have he := List.mem_of_mem_take he
  simp only [List.mem_cons, List.mem_filter] at he
  rcases he with rfl | he
  · exact hv
  · exact hc _ he.1

theorem primePhiRel_wp {s : Prop} {f : Buf → ℕ → Res (ℕ × Buf)} : ∀ (a : ℕ) (b : Buf) (c : Cache) (x : ℕ), 1 ≤ a →
    (∀ n, 1 ≤ n → n ≤ a → NthAt s f n) → BI s b → CacheRel c → x < 2 ^ 64 →
    WP s (primePhiRel f a b c x) (fun r => r.1 = relPhi x a ∧ BI s r.2.1 ∧ CacheRel r.2.2) := by
  intro a
  induction a with
  | zero => intro b c x h; omega
  | succ a ih =>
    intro b c x _ hn hb hc hx
    simp only [primePhiRel]
    by_cases ha : a + 1 = 1
    · simp only [ha, if_true]
      exact WP.ok ⟨relPhi_one hx, hb, hc⟩
    · rw [if_neg ha]
      cases hg : c.get (x, a + 1) with
      | some r =>
        obtain ⟨v, c'⟩ := r
        obtain ⟨h1, h2⟩ := CacheRel.get hg hc
        exact WP.ok ⟨h1, hb, h2⟩
      | none =>
        refine WP.bind (ih b c x (by omega) (fun n h1 h2 => hn n h1 (by omega)) hb hc hx) ?_
        rintro ⟨t1, b, c⟩ ⟨h1, hb, hc⟩
        refine WP.bind (hn (a + 1) (by omega) le_rfl b hb) ?_
        rintro ⟨p, b⟩ ⟨h2, hb⟩
        simp only at h1 h2 hb hc
        have hp : p = nth a := by rw [h2]; rfl
        have hpos : 0 < p := by rw [hp]; exact (nth_prime_prime a).pos
        dsimp only
        rw [cdiv_ok (by omega), Res.bind_ok]
        refine WP.bind (ih b c (x / p) (by omega) (fun n h1 h2 => hn n h1 (by omega)) hb hc
          (lt_of_le_of_lt (Nat.div_le_self x p) hx)) ?_
        rintro ⟨t2, b, c⟩ ⟨h3, hb, hc⟩
        simp only at h3 hb hc
        have hrec := relPhi_rec hx (show 1 ≤ a by omega)
        rw [← hp, ← h1, ← h3] at hrec
        exact WP.ok ⟨hrec, hb, hc.put hrec⟩

theorem BI.buf64 {b : Buf} (h : BI True b) : Buf64 b := ⟨h.1, fun p hp => lt_trans (h.2 trivial p hp) (by norm_num)⟩

theorem PiAt.rel {bld : Build} {o : Estimates} {g f x : ℕ} (hx : x < 2 ^ 64) (h : PiAt True (primePi bld o g f) x) :
    PiAt True (primePiRel bld o g f) x := by
  intro b hb
  obtain ⟨h1, h2⟩ := h b hb
  obtain ⟨r, hr⟩ := h2 trivial
  have hr' := (primePi_rel bld o g f b x r hb.buf64 hx hr).1
  exact ⟨fun r' h' => by rw [hr'] at h'; injection h' with h'; rw [← h']; exact h1 r hr, fun _ => ⟨r, hr'⟩⟩

theorem NthAt.rel {bld : Build} {o : Estimates} {g f n : ℕ} (hn : n < 2 ^ 64)
    (h : NthAt True (nthPrimeWith bld o g (primePi bld o g f)) n) : NthAt True (nthPrimeWithRel bld o g (primePiRel bld o g f)) n := by
  intro b hb
  obtain ⟨h1, h2⟩ := h b hb
  obtain ⟨r, hr⟩ := h2 trivial
  have hr' := (nthPrime_rel bld o g f b n r hb.buf64 hn hr).1
  exact ⟨fun r' h' => by rw [hr'] at h'; injection h' with h'; rw [← h']; exact h1 r hr, fun _ => ⟨r, hr'⟩⟩

theorem primeCounting_max_lt : π (2 ^ 64 - 1) < 2 ^ 63 := by
  have step : ∀ x p, 1 < p → p ∣ x + 1 → p < x + 1 → π (x + 1) = π x := by
    intro x p h1 h2 h3
    rw [← count_succ_eq, ← count_succ_eq, Nat.count_succ, if_neg (Nat.not_prime_of_dvd_of_lt h2 h1 h3)]
    rfl
  have h1 := primeCounting_le_half (2 ^ 64 - 4)
  have h2 := step (2 ^ 64 - 4) 13 (by norm_num) (by norm_num) (by norm_num)
  have h3 := step (2 ^ 64 - 3) 2 (by norm_num) (by norm_num) (by norm_num)
  have h4 := step (2 ^ 64 - 2) 3 (by norm_num) (by norm_num) (by norm_num)
  simp only [show 2 ^ 64 - 4 + 1 = 2 ^ 64 - 3 from rfl, show 2 ^ 64 - 3 + 1 = 2 ^ 64 - 2 from rfl,
    show 2 ^ 64 - 2 + 1 = 2 ^ 64 - 1 from rfl] at h2 h3 h4
  rw [h4, h3, h2]
  have : (2 ^ 64 - 4) / 2 + 1 < 2 ^ 63 := by norm_num
  omega

theorem primePiRel_max {bld : Build} {o : Estimates} {g : ℕ} (hex : NoPseudoprimes bld) (hg : EnoughFuel bld g) (f : ℕ)
    (hf : 2 ^ 64 ≤ f) (hest : GoodEstimates bld o (π (Nat.sqrt (2 ^ 64 - 1)))) (b : Buf) (hb : BI True b) :
    WP True (primePiRel bld o g f b (2 ^ 64 - 1)) (fun r => r.1 = π (2 ^ 64 - 1) + 2 ^ 63 ∧ BI True r.2) := by
  obtain ⟨f, rfl⟩ : ∃ k, f = k + 1 := ⟨f - 1, by omega⟩
  generalize hxd : 2 ^ 64 - 1 = x at *
  have h64 : x < 2 ^ 64 := by omega
  obtain ⟨last, hl1, hl2, hl3⟩ := hb.1.last
  have hlast := hb.2 trivial last hl2
  simp only [primePiRel, hl1]
  rw [if_neg (by omega), isqrt_eq, isqrt_eq]
  have hs32 : Nat.sqrt x < 2 ^ 32 := by rw [Nat.sqrt_lt']; exact h64
  have hor := or_one_le (Nat.sqrt x)
  have hor' := le_or_one (Nat.sqrt x)
  have hB := pi_sqrt_le h64
  have hsq : Nat.sqrt x * Nat.sqrt x ≤ x := Nat.sqrt_le x
  have hsq197 : 197 ≤ Nat.sqrt x := Nat.le_sqrt.mpr (by omega)
  have hr14 : 14 ≤ Nat.sqrt (Nat.sqrt x) := Nat.le_sqrt.mpr (by omega)
  obtain ⟨b0, hb0⟩ := (reserve_ok_iff hb.1 (limit := Nat.sqrt x)).mpr ⟨by omega, Or.inr (hb.2 trivial)⟩
  rw [reserve_rel hb0, Res.bind_ok]
  have hb' : BI True b0 := by
    obtain ⟨i1, i2⟩ := reserve_inv hb.1 hb0
    refine ⟨i1, fun hs p hp => ?_⟩
    have hpm := i1.mem.mp hp
    rcases le_total ((Nat.sqrt x ||| 1) + 2) b.next with hle | hle
    · exact hb.2 hs p (hb.1.mem.mpr ⟨hpm.1, by omega⟩)
    · have hne : p ≠ 2 ^ 32 := by
        rintro rfl
        exact absurd hpm.1 (Nat.not_prime_of_dvd_of_lt (m := 2) (by norm_num) (by norm_num) (by norm_num))
      have := or_one_eq (Nat.sqrt x)
      omega
  · have hsqlt : Nat.sqrt x < x := by nlinarith
    have hpi0 : ∀ y < x, PiAt True (primePi bld o g f) y := by
      intro y hy
      have hmono : π (Nat.sqrt y) ≤ π (Nat.sqrt x) := Nat.monotone_primeCounting (Nat.sqrt_le_sqrt hy.le)
      exact primePi_wp (fun _ => hg) f y (by omega) (fun _ => by omega) (fun _ => by omega) (fun _ => hex)
        (fun _ n h1 h2 => hest n h1 (by omega))
    have hpi : ∀ y < x, PiAt True (primePiRel bld o g f) y := fun y hy => (hpi0 y hy).rel (by omega)
    have hnth : ∀ n, 1 ≤ n → n ≤ π (Nat.sqrt x) → NthAt True (nthPrimeWithRel bld o g (primePiRel bld o g f)) n := by
      intro n hn1 hn2
      refine NthAt.rel (by omega) (fun b'' hb'' => ?_)
      have hnn : n * n < x := by
        have h1 := primeCounting_le_half (Nat.sqrt x)
        have h2 : n < Nat.sqrt x := by omega
        nlinarith
      obtain ⟨lo, hi, he, hh⟩ := hest.upTo n hn1 hn2
      refine nthPrimeWith_wp_upTo (s := True) (lo := lo) (hi := hi) hn1 (by omega) (fun h => hex.exactUpTo (2 ^ 64)) (fun _ => hg)
        (fun _ => he) (fun _ h => (hh h).2) ?_ b'' hb''
      intro h4 y hy1 hy2
      have := (hh h4).1
      have := hy2 trivial
      exact hpi0 y (by omega)
    have hpiA := hpi _ (lt_of_le_of_lt (Nat.sqrt_le_self (Nat.sqrt x)) hsqlt)
    refine WP.bind (hpiA _ hb') ?_
    rintro ⟨a, b1⟩ ⟨ha, hb1⟩
    dsimp only at ha hb1 ⊢
    refine WP.bind (hpi _ hsqlt _ hb1) ?_
    rintro ⟨B, b2⟩ ⟨hBe, hb2⟩
    dsimp only at hBe hb2 ⊢
    have hic : icbrt x < x := by
      obtain ⟨h1, _⟩ := icbrt_spec x
      by_contra hc
      have : x ^ 3 ≤ icbrt x ^ 3 := Nat.pow_le_pow_left (by omega) 3
      have h3 : x * x ≤ x ^ 3 := by rw [pow_succ, pow_two]; nlinarith
      nlinarith
    refine WP.bind (hpi _ hic _ hb2) ?_
    rintro ⟨c, b3⟩ ⟨hc, hb3⟩
    dsimp only at hc hb3 ⊢
    have ha6 : 6 ≤ a := by
      have h6 : π 14 = 6 := by decide +kernel
      rw [ha, ← h6]
      exact Nat.monotone_primeCounting hr14
    have haB : a ≤ B := by
      rw [ha, hBe]; exact Nat.monotone_primeCounting (Nat.sqrt_le_self _)
    rw [if_neg (by omega)]
    refine WP.bind (primePhiRel_wp a b3 ⟨a, []⟩ x (by omega)
      (fun n h1 h2 => hnth n h1 (by omega)) hb3 (by simp [CacheRel]) h64) ?_
    rintro ⟨phi, b4, c4⟩ ⟨hphi, hb4, _⟩
    dsimp only at hphi hb4 ⊢
    have hm := offset_le (show 1 ≤ a by omega) haB
    have hBB : B * B ≤ 2 ^ 31 * 2 ^ 31 := Nat.mul_le_mul (by omega) (by omega)
    have hphile := phi_le_half x (show 1 ≤ a by omega)
    rw [relPhi, if_pos hxd.symm] at hphi
    rw [wadd_eq (by omega : B + a < 2 ^ 64), wsub_eq (by omega) (by omega), wsub_eq (by omega) haB,
      wadd_eq (by omega : B - a + 1 < 2 ^ 64), wmul_eq (by omega), rangeStep_one, show B + 1 - (a + 1) = B - a by omega]
    have hS : wadd 64 phi ((B + a - 2) * (B - a + 1) / 2) =
        (legendrePhi x a + (B + a - 2) * (B - a + 1) / 2 + 2 ^ 63) % 2 ^ 64 := by
      rw [hphi]; unfold wadd; omega
    rw [hS]
    have h4 : x < nth a ^ 4 := by rw [ha]; exact lt_nth_fourth x
    have hmain := phi_main (x := x) (a := a) (by omega) (by omega)
    have hpred := sum_pred (a := a) (b := B) (by omega) haB
    have hsplit : ∑ i ∈ Finset.Ico a (π (Nat.sqrt x)), (legendrePhi (x / nth i) i + i - 1) =
        ∑ i ∈ Finset.Ico a (π (Nat.sqrt x)), legendrePhi (x / nth i) i + ∑ i ∈ Finset.Ico a (π (Nat.sqrt x)), (i - 1) := by
      rw [← Finset.sum_add_distrib]
      apply Finset.sum_congr rfl
      intro i hi
      rw [Finset.mem_Ico] at hi
      omega
    rw [hc]
    have hout := piOuter_wp (s := True) h64 hpi (fun j hj => hnth (j + 1) (by omega) (by omega)) (B - a) a b4
      (legendrePhi x a + (B + a - 2) * (B - a + 1) / 2) (by omega) (by omega)
      h4 hb4 (by
        rw [hsplit, ← hBe]
        rw [← hBe] at hmain
        omega) (by omega)
    obtain ⟨⟨v, b5⟩, hr⟩ := hout.2 trivial
    obtain ⟨hv, hb5⟩ := hout.1 _ hr
    dsimp only at hv hb5
    have hrel := (piOuter_rel (Agree.refl _) (Agree.refl _) x (π (icbrt x)) (2 ^ 63) h64 _ _ _ _ _ trivial
      (fun j hj => by simp only [List.mem_range'_1] at hj; omega) (by omega) hr).2.1
    rw [hrel]
    refine WP.ok ⟨?_, hb5⟩
    have := primeCounting_max_lt
    rw [hxd] at this
    dsimp only
    omega

/-- **C91** finding: without overflow checks `prime_pi(u64::MAX)` returns, but `2^63` too much (given that `is_prime64` has no
pseudoprimes): `x + 1` wraps around to 0 in the first term of the sieve function -/
theorem C91_prime_pi_max_release (bld : Build) (hex : NoPseudoprimes bld) (F : FloatOps) (hF : F.Accurate) :
    ∃ G, ∀ g f b, G ≤ g → 2 ^ 64 ≤ f → Reachable bld (floatEstimates F) g f b → (∀ p ∈ b.iter, p < 2 ^ 32) →
      ∃ b', primePiRel bld (floatEstimates F) g f b (2 ^ 64 - 1) = .ok (Nat.primeCounting (2 ^ 64 - 1) + 2 ^ 63, b') := by
  obtain ⟨G, hG⟩ := exists_fuel bld
  refine ⟨G, fun g f b hg hf h hs => ?_⟩
  have hq := pi_sqrt_le (show 2 ^ 64 - 1 < 2 ^ 64 by norm_num)
  have := primePiRel_max (o := floatEstimates F) hex (hG g hg) f hf (goodEstimates_float bld F hF (by omega)) b
    ⟨h.inv, fun _ => hs⟩
  obtain ⟨⟨v, b'⟩, hv⟩ := this.2 trivial
  exact ⟨b', hv.trans (by rw [show v = _ from (this.1 _ hv).1])⟩

/-- **C91** finding: the same for `prime_phi(u64::MAX, a)` with a new cache; for `a ≤ 4096` nothing is assumed of `is_prime64` -/
theorem C91_prime_phi_max_release (bld : Build) (F : FloatOps) (hF : F.Accurate) (a cap : ℕ) (ha : 1 ≤ a) (ha32 : a < 2 ^ 32)
    (hex : 4096 < a → NoPseudoprimes bld) :
    ∃ G, ∀ g f b, G ≤ g → a * a ≤ f → Reachable bld (floatEstimates F) g f b → (∀ p ∈ b.iter, p < 2 ^ 32) →
      ∃ b' c', primePhiRel (Buf.nthPrimeRel bld (floatEstimates F) g f) a b ⟨cap, []⟩
        (2 ^ 64 - 1) = .ok ((legendrePhi (2 ^ 64 - 1) a + 2 ^ 63) % 2 ^ 64, b', c') := by
  have hest := goodEstimates_float bld F hF (show a ≤ 2 * 10 ^ 17 by omega)
  obtain ⟨G, hG⟩ := exists_fuel bld
  refine ⟨G, fun g f b hg hf h hs => ?_⟩
  have hn : ∀ n, 1 ≤ n → n ≤ a → NthAt True (Buf.nthPrimeRel bld (floatEstimates F) g f) n := by
    intro n h1 h2
    refine NthAt.rel (by omega) (fun b hb => ?_)
    obtain ⟨lo, hi, he, hh⟩ := hest n h1 h2
    refine nthPrimeWith_wp (lo := lo) (hi := hi) h1 (by omega) (fun h => hex (by omega)) (fun _ => hG g hg) (fun _ => he) ?_ b hb
    intro h4 y hy hyh
    have hyh := hyh trivial
    have hhi := hh h4
    have hnn : n * n ≤ a * a := Nat.mul_le_mul h2 h2
    have hya : Nat.sqrt y < a := by rw [Nat.sqrt_lt]; omega
    have := primeCounting_le (Nat.sqrt y)
    exact primePi_wp (fun _ => hG g hg) f y (by omega) (fun _ => hy) (fun _ => by omega) (fun _ => hex (by omega))
      (fun _ n' h1' h2' => hest n' h1' (by omega))
  have := primePhiRel_wp (s := True) a b ⟨cap, []⟩ (2 ^ 64 - 1) ha hn ⟨h.inv, fun _ => hs⟩ (by simp [CacheRel]) (by norm_num)
  obtain ⟨⟨v, b', c'⟩, hv⟩ := this.2 trivial
  refine ⟨b', c', hv.trans ?_⟩
  rw [show v = _ from (this.1 _ hv).1, relPhi, if_pos rfl]

/-- the hypotheses of `C91_prime_phi_max_release` hold for `a = 6` with binary64 arithmetic, the new buffer and enough rounds -/
example (bld : Build) : ∃ g f b' c', primePhiRel (Buf.nthPrimeRel bld (floatEstimates FloatOps.ieee) g f) 6 (Buf.new bld) ⟨10, []⟩ (2 ^ 64 - 1) =
      .ok ((legendrePhi (2 ^ 64 - 1) 6 + 2 ^ 63) % 2 ^ 64, b', c') := by
  obtain ⟨G, hG⟩ := C91_prime_phi_max_release bld FloatOps.ieee ieee_accurate 6 10 (by norm_num) (by norm_num) (by norm_num)
  obtain ⟨b', c', h⟩ := hG G 36 (Buf.new bld) le_rfl (by norm_num) (reachable_start _ _ _ _) (safe_new bld)
  exact ⟨G, 36, b', c', h⟩

/-- and those of `C91_release_agrees` for 1000000 -/
example (bld : Build) : ∃ g f b', primePiRel bld (floatEstimates FloatOps.ieee) g f (Buf.new bld) 1000000 =
    .ok (Nat.primeCounting 1000000, b') := by
  obtain ⟨G, hG⟩ := C30_prime_pi_float bld FloatOps.ieee ieee_accurate 1000000 (by norm_num)
  obtain ⟨b', h⟩ := hG G 1000001 (Buf.new bld) le_rfl (by norm_num) (reachable_start _ _ _ _) (safe_new bld)
  exact ⟨G, 1000001, b', (C91_release_agrees bld _ G 1000001 _ (reachable_start _ _ _ _)
    (fun p hp => lt_trans (safe_new bld p hp) (by norm_num))).1 _ _ (by norm_num) h⟩

end NumPrime
