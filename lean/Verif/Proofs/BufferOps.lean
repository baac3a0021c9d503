import Verif.Proofs.PrimeList

/-! # Every operation keeps the buffer invariant -/

namespace NumPrime
open Tables Spec

theorem cmul_ne_timeout (w a b) : cmul w a b ≠ .timeout := by unfold cmul; split <;> simp

theorem sieveOld_ne_timeout {current L len : Nat} : ∀ (ps marks : List Nat),
    sieveOld current L len ps marks ≠ .timeout := by
  intro ps
  induction ps with
  | nil => intro marks; simp [sieveOld]
  | cons p ps ih =>
    intro marks
    simp only [sieveOld]
    have h1 := cmul_ne_timeout (some 64) p p
    cases hc : cmul (some 64) p p with
    | timeout => exact absurd hc h1
    | panic => simp
    | ok pp =>
      simp only [Res.bind_ok]
      have hstart : (if pp < current then cmul (some 64) p ((current / p) ||| 1) else .ok pp : Res Nat) ≠ .timeout := by
        split
        · exact cmul_ne_timeout _ _ _
        · simp
      cases hs : (if pp < current then cmul (some 64) p ((current / p) ||| 1) else .ok pp : Res Nat) with
      | timeout => exact absurd hs hstart
      | panic => simp
      | ok start =>
        simp only [Res.bind_ok]
        cases h2 : cmul (some 64) 2 p with
        | timeout => exact absurd h2 (cmul_ne_timeout _ _ _)
        | panic => simp
        | ok step =>
          simp only [Res.bind_ok]
          cases h3 : sieveMark current len (rangeStep start L step) marks with
          | timeout => exact absurd h3 (sieveMark_ne_timeout _ _)
          | panic => simp
          | ok mk => exact ih mk

/-- growing a buffer that holds a prime `≥ 2^32` overflows -/
theorem reserve_unsafe {b : Buf} (hb : b.Inv) (hs : ¬ b.Safe) {limit : Nat} (h : b.next ≤ (limit ||| 1) + 2) :
    b.reserve limit = .panic := by
  by_cases hl : (limit ||| 1) + 2 < 2 ^ 64
  · simp only [Buf.Safe, not_forall, not_lt] at hs
    obtain ⟨p, hp, hp2⟩ := hs
    obtain ⟨t, ht⟩ := hb.append
    have hd := (two_mem_drop ht hb.sorted).mpr ⟨hp, by omega⟩
    have h1 : ¬ b.next % 2 ≠ 1 := by have := hb.odd; omega
    have h2 : ¬ (limit ||| 1) + 2 < b.next := by omega
    simp only [Buf.reserve, cadd_ok (fits_some.mpr hl), Res.bind_ok, h1, if_false, h2]
    cases h3 : sieveOld b.next ((limit ||| 1) + 2) (((limit ||| 1) + 2 - b.next) / 2) (b.list.drop 1) [] with
    | timeout => exact absurd h3 (sieveOld_ne_timeout _ _)
    | panic => rfl
    | ok mk => exact absurd h3 (sieveOld_panic _ _ ⟨p, hd, hp2⟩ _)
  · exact reserve_overflow (by omega)

theorem reserve_ok_iff {b : Buf} (hb : b.Inv) {limit : Nat} :
    (∃ b', b.reserve limit = .ok b') ↔
      (limit ||| 1) + 2 < 2 ^ 64 ∧ ((limit ||| 1) + 2 < b.next ∨ b.Safe) := by
  constructor
  · rintro ⟨b', h⟩
    by_cases hl : (limit ||| 1) + 2 < 2 ^ 64
    · refine ⟨hl, ?_⟩
      by_contra hc
      rw [not_or, Nat.not_lt] at hc
      rw [reserve_unsafe hb hc.2 hc.1] at h
      simp at h
    · rw [reserve_overflow (by omega)] at h
      simp at h
  · rintro ⟨hl, h⟩
    rcases Nat.lt_or_ge ((limit ||| 1) + 2) b.next with hlt | hlt
    · exact ⟨_, reserve_noop hb.odd hl hlt⟩
    · exact ⟨_, reserve_grow hb (h.resolve_left (by omega)) hl hlt⟩

theorem reserve_ne_timeout {b : Buf} (hb : b.Inv) (limit : Nat) : b.reserve limit ≠ .timeout := by
  by_cases h : ∃ b', b.reserve limit = .ok b'
  · obtain ⟨b', h⟩ := h; simp [h]
  · rw [reserve_ok_iff hb] at h
    by_cases hl : (limit ||| 1) + 2 < 2 ^ 64
    · rw [not_and] at h
      have := h hl
      rw [not_or, Nat.not_lt] at this
      rw [reserve_unsafe hb this.2 this.1]; simp
    · rw [reserve_overflow (by omega)]; simp

theorem nprimes_ok {bld : Build} {o : Estimates} {b : Buf} (hb : b.Inv) {n : Nat} {l : List Nat} {b' : Buf}
    (h : Buf.nprimes bld o b n = .ok (l, b')) : l = firstPrimes n ∧ b'.Inv ∧ b.next ≤ b'.next := by
  simp only [Buf.nprimes, Res.bind_eq_ok] at h
  obtain ⟨o', _, h⟩ := h
  cases o' with
  | none => simp at h
  | some x =>
    obtain ⟨lo, hi⟩ := x
    simp only [Res.bind_eq_ok] at h
    obtain ⟨b2, h1, h⟩ := h
    obtain ⟨hi2, hn⟩ := reserve_inv hb h1
    split at h
    · simp at h
    · rename_i hlen
      simp only [Res.pure_def, Res.ok.injEq, Prod.mk.injEq] at h
      obtain ⟨rfl, rfl⟩ := h
      exact ⟨hi2.take (by omega), hi2, by omega⟩

/-- a call that keeps the invariant -/
def KeepsInv {α : Type} (f : Buf → Nat → Res (α × Buf)) : Prop :=
  ∀ b, b.Inv → ∀ x r b', f b x = .ok (r, b') → b'.Inv

theorem nthPrimeWith_keeps {bld o g} {pi : Buf → Nat → Res (Nat × Buf)} (hpi : KeepsInv pi) :
    KeepsInv (nthPrimeWith bld o g pi) := by
  intro b hb n r b' h
  simp only [nthPrimeWith] at h
  split at h
  · simp only [Res.bind_eq_ok] at h
    obtain ⟨i, _, h⟩ := h
    split at h
    · simp only [Res.pure_def, Res.ok.injEq, Prod.mk.injEq] at h
      rw [← h.2]; exact hb
    · simp at h
  · split at h
    · simp only [Res.bind_eq_ok] at h
      obtain ⟨⟨l, b2⟩, h1, h⟩ := h
      have := nprimes_ok hb h1
      dsimp only at h
      split at h
      · simp only [Res.pure_def, Res.ok.injEq, Prod.mk.injEq] at h
        rw [← h.2]; exact this.2.1
      · simp at h
    · simp only [Res.bind_eq_ok] at h
      obtain ⟨e, _, h⟩ := h
      cases e with
      | none => simp at h
      | some e =>
        simp only [Res.bind_eq_ok] at h
        obtain ⟨x, _, h⟩ := h
        cases x with
        | none => simp at h
        | some x =>
          simp only [Res.bind_eq_ok] at h
          obtain ⟨⟨p, b2⟩, h1, h⟩ := h
          have h2 := hpi b hb x p b2 h1
          obtain ⟨⟨x2, p2⟩, _, h⟩ := h
          obtain ⟨x3, _, h⟩ := h
          simp only [Res.pure_def, Res.ok.injEq, Prod.mk.injEq] at h
          rw [← h.2]; exact h2

theorem primePhiWith_keeps {nth : Buf → Nat → Res (Nat × Buf)} (hn : KeepsInv nth) :
    ∀ a b, b.Inv → ∀ c x v b' c', primePhiWith nth a b c x = .ok (v, b', c') → b'.Inv := by
  intro a
  induction a with
  | zero =>
    intro b hb c x v b' c' h
    simp only [primePhiWith] at h
    split at h
    · simp only [Res.ok.injEq, Prod.mk.injEq] at h
      rw [← h.2.1]; exact hb
    · simp at h
  | succ a ih =>
    intro b hb c x v b' c' h
    simp only [primePhiWith] at h
    split at h
    · simp only [Res.bind_eq_ok] at h
      obtain ⟨s, _, h⟩ := h
      simp only [Res.pure_def, Res.ok.injEq, Prod.mk.injEq] at h
      rw [← h.2.1]; exact hb
    · split at h
      · simp only [Res.ok.injEq, Prod.mk.injEq] at h
        rw [← h.2.1]; exact hb
      · simp only [Res.bind_eq_ok] at h
        obtain ⟨⟨t1, b1, c1⟩, h1, h⟩ := h
        have i1 := ih b hb _ _ _ _ _ h1
        obtain ⟨⟨pa, b2⟩, h2, h⟩ := h
        have i2 := hn _ i1 _ _ _ h2
        obtain ⟨q, _, h⟩ := h
        obtain ⟨⟨t2, b3, c3⟩, h3, h⟩ := h
        have i3 := ih b2 i2 _ _ _ _ _ h3
        obtain ⟨t, _, h⟩ := h
        simp only [Res.pure_def, Res.ok.injEq, Prod.mk.injEq] at h
        rw [← h.2.1]; exact i3

theorem piInner_keeps {pi nth : Buf → Nat → Res (Nat × Buf)} (hp : KeepsInv pi) (hn : KeepsInv nth) (w : Nat) :
    ∀ js b, b.Inv → ∀ s r b', piInner pi nth w js b s = .ok (r, b') → b'.Inv := by
  intro js
  induction js with
  | nil =>
    intro b hb s r b' h
    simp only [piInner, Res.ok.injEq, Prod.mk.injEq] at h
    rw [← h.2]; exact hb
  | cons j js ih =>
    intro b hb s r b' h
    simp only [piInner, Res.bind_eq_ok] at h
    obtain ⟨⟨pj, b1⟩, h1, h⟩ := h
    obtain ⟨q, _, h⟩ := h
    obtain ⟨⟨v, b2⟩, h2, h⟩ := h
    obtain ⟨s', _, h⟩ := h
    exact ih b2 (hp _ (hn _ hb _ _ _ h1) _ _ _ h2) _ _ _ h

theorem piOuter_keeps {pi nth : Buf → Nat → Res (Nat × Buf)} (hp : KeepsInv pi) (hn : KeepsInv nth) (limit c : Nat) :
    ∀ is b, b.Inv → ∀ s r b', piOuter pi nth limit c is b s = .ok (r, b') → b'.Inv := by
  intro is
  induction is with
  | nil =>
    intro b hb s r b' h
    simp only [piOuter, Res.ok.injEq, Prod.mk.injEq] at h
    rw [← h.2]; exact hb
  | cons i is ih =>
    intro b hb s r b' h
    simp only [piOuter, Res.bind_eq_ok] at h
    obtain ⟨⟨pj, b1⟩, h1, h⟩ := h
    obtain ⟨w, _, h⟩ := h
    obtain ⟨⟨v, b2⟩, h2, h⟩ := h
    obtain ⟨s', _, h⟩ := h
    have i2 := hp _ (hn _ hb _ _ _ h1) _ _ _ h2
    split at h
    · simp only [Res.bind_eq_ok] at h
      obtain ⟨⟨l, b3⟩, h3, h⟩ := h
      have i3 := hp _ i2 _ _ _ h3
      obtain ⟨_, _, _, _, _, _, _, _, _, _, _, _, _, _, ⟨s2, b4⟩, h4, h⟩ := h
      exact ih b4 (piInner_keeps hp hn w _ _ i3 _ _ _ h4) _ _ _ h
    · exact ih b2 i2 _ _ _ h

theorem primePi_keeps {bld o g} : ∀ f, KeepsInv (primePi bld o g f) := by
  intro f
  induction f with
  | zero => intro b hb x r b' h; simp [primePi] at h
  | succ f ih =>
    have hnth := nthPrimeWith_keeps (bld := bld) (o := o) (g := g) ih
    intro b hb x r b' h
    simp only [primePi] at h
    split at h
    · simp at h
    · split at h
      · simp only [Res.bind_eq_ok] at h
        obtain ⟨b1, h1, h⟩ := h
        simp only [Res.pure_def, Res.ok.injEq, Prod.mk.injEq] at h
        rw [← h.2]; exact (reserve_inv hb h1).1
      · simp only [Res.bind_eq_ok] at h
        obtain ⟨b1, h1, h⟩ := h
        have i1 := (reserve_inv hb h1).1
        obtain ⟨⟨a, b2⟩, h2, h⟩ := h
        have i2 := ih _ i1 _ _ _ h2
        obtain ⟨⟨bb, b3⟩, h3, h⟩ := h
        have i3 := ih _ i2 _ _ _ h3
        obtain ⟨⟨c, b4⟩, h4, h⟩ := h
        have i4 := ih _ i3 _ _ _ h4
        dsimp only at h
        split at h
        · simp at h
        · simp only [Res.bind_eq_ok] at h
          obtain ⟨⟨phi, b5, c5⟩, h5, h⟩ := h
          have i5 := primePhiWith_keeps hnth _ _ i4 _ _ _ _ _ h5
          obtain ⟨_, _, _, _, _, _, _, _, _, _, _, _, h⟩ := h
          exact piOuter_keeps ih hnth _ _ _ _ i5 _ _ _ h

theorem apply_keeps {bld o g f} {b b' : Buf} (hb : b.Inv) (op : BufOp) (h : op.apply bld o g f b = .ok b') : b'.Inv := by
  cases op with
  | reserve limit => exact (reserve_inv hb h).1
  | clear =>
    simp only [BufOp.apply, Res.ok.injEq] at h
    rw [← h]; exact Buf.inv_clear hb
  | primes limit =>
    simp only [BufOp.apply, Buf.primes, Res.mapR_eq_ok, Res.bind_eq_ok] at h
    obtain ⟨⟨l, b2⟩, ⟨b3, h1, h2⟩, rfl⟩ := h
    simp only [Res.pure_def, Res.ok.injEq, Prod.mk.injEq] at h2
    rw [← h2.2]; exact (reserve_inv hb h1).1
  | nprimes n =>
    simp only [BufOp.apply, Res.mapR_eq_ok] at h
    obtain ⟨⟨l, b2⟩, h1, rfl⟩ := h
    exact (nprimes_ok hb h1).2.1
  | primorial w n =>
    simp only [BufOp.apply, Buf.primorial, Res.mapR_eq_ok, Res.bind_eq_ok] at h
    obtain ⟨⟨l, b2⟩, ⟨⟨l2, b3⟩, h1, v, _, h2⟩, rfl⟩ := h
    simp only [Res.pure_def, Res.ok.injEq, Prod.mk.injEq] at h2
    rw [← h2.2]; exact (nprimes_ok hb h1).2.1
  | nthPrime n =>
    simp only [BufOp.apply, Res.mapR_eq_ok] at h
    obtain ⟨⟨l, b2⟩, h1, rfl⟩ := h
    exact nthPrimeWith_keeps (primePi_keeps f) _ hb _ _ _ h1
  | primePi l =>
    simp only [BufOp.apply, Res.mapR_eq_ok] at h
    obtain ⟨⟨l, b2⟩, h1, rfl⟩ := h
    exact primePi_keeps f _ hb _ _ _ h1
  | primePhi x a c =>
    simp only [BufOp.apply, Res.mapR_eq_ok] at h
    obtain ⟨⟨l, b2, c2⟩, h1, rfl⟩ := h
    exact primePhiWith_keeps (nthPrimeWith_keeps (primePi_keeps f)) _ _ hb _ _ _ _ _ h1

theorem run_keeps {bld o g f} : ∀ (ops : List BufOp) (b b' : Buf), b.Inv → b.run bld o g f ops = .ok b' → b'.Inv := by
  intro ops
  induction ops with
  | nil =>
    intro b b' hb h
    simp only [Buf.run, Res.ok.injEq] at h
    rw [← h]; exact hb
  | cons op ops ih =>
    intro b b' hb h
    simp only [Buf.run, Res.bind_eq_ok] at h
    obtain ⟨b1, h1, h⟩ := h
    exact ih b1 b' (apply_keeps hb op h1) h

end NumPrime
