import Verif.Model.ReleaseBuffer
import Verif.Props.ReleaseReserve

/-! # C33, C88: primorials that do not fit the result type -/

namespace NumPrime
open Spec Tables

theorem productW_acc {w : Width} : ∀ (l : List ℕ) (acc v : ℕ), fits w acc = true → productW w acc l = .ok v → fits w v = true := by
  intro l
  induction l with
  | nil => intro acc v ha h; simp only [productW, Res.ok.injEq] at h; rwa [← h]
  | cons p l ih =>
    intro acc v ha h
    simp only [productW, Res.bind_eq_ok] at h
    obtain ⟨p', h1, a', h2, h⟩ := h
    refine ih _ _ ?_ h
    unfold cmul at h2
    split at h2
    · rename_i hf
      injection h2 with h2
      rwa [← h2]
    · simp at h2

/-- **C33** with overflow checks `primorial(n)` returns exactly if the product of the first `n` primes fits the type
(given that `nprimes(n)` returns, see C25), and otherwise panics -/
theorem C33_primorial_returns_iff (bld : Build) (o : Estimates) (g f : ℕ) (b : Buf) (h : Reachable bld o g f b) (bits : ℕ)
    (hbits : 0 < bits) (n : ℕ) (l : List ℕ) (b' : Buf) (hn : Buf.nprimes bld o b n = .ok (l, b')) :
    ((∃ r, Buf.primorial bld (some bits) o b n = .ok r) ↔ ∏ i ∈ Finset.range n, Nat.nth Nat.Prime i < 2 ^ bits) ∧
    (2 ^ bits ≤ ∏ i ∈ Finset.range n, Nat.nth Nat.Prime i → Buf.primorial bld (some bits) o b n = .panic) := by
  have h1 : fits (some bits) 1 = true := by
    rw [fits_some]
    exact Nat.one_lt_two_pow hbits.ne'
  have key : (∃ r, Buf.primorial bld (some bits) o b n = .ok r) ↔ ∏ i ∈ Finset.range n, Nat.nth Nat.Prime i < 2 ^ bits := by
    constructor
    · rintro ⟨⟨v, b2⟩, hr⟩
      have hv := C33_primorial_exact bld o g f b h (some bits) n v b2 hr
      simp only [Buf.primorial, Res.bind_eq_ok, Prod.exists] at hr
      obtain ⟨l2, b3, _, v2, hp, hr⟩ := hr
      simp only [Res.pure_def, Res.ok.injEq, Prod.mk.injEq] at hr
      have := productW_acc _ _ _ h1 hp
      rw [hr.1, fits_some, hv] at this
      exact this
    · intro hlt
      exact ⟨_, C33_primorial_returns bld o g f b h (some bits) n l b' hn (by rw [fits_some]; exact hlt)⟩
  refine ⟨key, fun hge => ?_⟩
  have hno : ¬ ∃ r, Buf.primorial bld (some bits) o b n = .ok r := fun hc => absurd (key.mp hc) (by omega)
  have hgen : ∀ (l : List ℕ) (acc : ℕ), (∃ v, productW (some bits) acc l = .ok v) ∨ productW (some bits) acc l = .panic := by
    intro l
    induction l with
    | nil => intro acc; exact Or.inl ⟨acc, rfl⟩
    | cons p l ih =>
      intro acc
      by_cases c1 : fits (some bits) p = true
      · by_cases c2 : fits (some bits) (acc * p) = true
        · simp only [productW, unwrapFit, c1, if_true, Res.bind_ok, cmul_ok c2]
          exact ih _
        · right; simp [productW, unwrapFit, c1, cmul, c2]
      · right; simp [productW, unwrapFit, c1]
  rcases hgen l 1 with ⟨v, hv⟩ | hv
  · exact absurd ⟨(v, b'), by simp [Buf.primorial, hn, hv]⟩ hno
  · simp [Buf.primorial, hn, hv]

theorem productRel_ok {bits : ℕ} : ∀ (l : List ℕ) (acc : ℕ), acc < 2 ^ bits → (∀ p ∈ l, p < 2 ^ bits) →
    productRel bits acc l = .ok (acc * l.prod % 2 ^ bits) := by
  intro l
  induction l with
  | nil => intro acc ha _; simp [productRel, Nat.mod_eq_of_lt ha]
  | cons p l ih =>
    intro acc ha hl
    have hp : fits (some bits) p = true := by rw [fits_some]; exact hl p (by simp)
    simp only [productRel, unwrapFit, hp, if_true, Res.bind_ok, wmul]
    rw [ih _ (Nat.mod_lt _ (by positivity)) (fun q hq => hl q (List.mem_cons_of_mem _ hq)), List.prod_cons, ← Nat.mul_assoc,
      Nat.mod_mul_mod]

theorem productRel_panic {bits : ℕ} : ∀ (l : List ℕ) (acc : ℕ), (∃ p ∈ l, 2 ^ bits ≤ p) → productRel bits acc l = .panic := by
  intro l
  induction l with
  | nil => rintro acc ⟨p, hp, _⟩; simp at hp
  | cons p l ih =>
    rintro acc ⟨q, hq, hb⟩
    by_cases hp : fits (some bits) p = true
    · simp only [productRel, unwrapFit, hp, if_true, Res.bind_ok]
      refine ih _ ⟨q, ?_, hb⟩
      rcases List.mem_cons.mp hq with rfl | h
      · rw [fits_some] at hp; omega
      · exact h
    · simp [productRel, unwrapFit, hp]

/-- **C88** without overflow checks `primorial(n)` for a `bits` bit type is the true product reduced modulo `2^bits`, as long as
the `n`-th prime itself fits the type; beyond that it panics -/
theorem C88_primorial_release (bld : Build) (o : Estimates) (g f : ℕ) (b : Buf) (h : Reachable bld o g f b) (bits : ℕ)
    (hbits : 0 < bits) (n : ℕ) (l : List ℕ) (b' : Buf) (hn : Buf.nprimes bld o b n = .ok (l, b')) :
    ((∀ i < n, Nat.nth Nat.Prime i < 2 ^ bits) →
      Buf.primorialRel bld bits o b n = .ok ((∏ i ∈ Finset.range n, Nat.nth Nat.Prime i) % 2 ^ bits, b')) ∧
    ((∃ i < n, 2 ^ bits ≤ Nat.nth Nat.Prime i) → Buf.primorialRel bld bits o b n = .panic) := by
  have hl := (nprimes_ok h.inv hn).1
  constructor
  · intro hall
    have := productRel_ok (bits := bits) l 1 (Nat.one_lt_two_pow hbits.ne') (by
      intro p hp
      rw [hl, firstPrimes, List.mem_map] at hp
      obtain ⟨i, hi, rfl⟩ := hp
      exact hall i (List.mem_range.mp hi))
    simp only [Buf.primorialRel, nprimes_rel hn, Res.bind_ok, this]
    rw [hl, firstPrimes_prod, Nat.one_mul]
    rfl
  · rintro ⟨i, hi, hb⟩
    have := productRel_panic (bits := bits) l 1 ⟨_, by
      rw [hl, firstPrimes, List.mem_map]
      exact ⟨i, List.mem_range.mpr hi, rfl⟩, hb⟩
    simp [Buf.primorialRel, nprimes_rel hn, this]

/-- **C88** so without overflow checks the result is right exactly if the product fits the type -/
theorem C88_primorial_release_right_iff (bld : Build) (o : Estimates) (g f : ℕ) (b : Buf) (h : Reachable bld o g f b) (bits : ℕ)
    (hbits : 0 < bits) (n : ℕ) (l : List ℕ) (b' : Buf) (hn : Buf.nprimes bld o b n = .ok (l, b')) :
    (Buf.primorialRel bld bits o b n).mapR Prod.fst = .ok (∏ i ∈ Finset.range n, Nat.nth Nat.Prime i) ↔
      ∏ i ∈ Finset.range n, Nat.nth Nat.Prime i < 2 ^ bits := by
  obtain ⟨h1, h2⟩ := C88_primorial_release bld o g f b h bits hbits n l b' hn
  by_cases c : ∀ i < n, Nat.nth Nat.Prime i < 2 ^ bits
  · rw [h1 c]
    simp only [Res.mapR_ok, Res.ok.injEq]
    exact ⟨fun e => e ▸ Nat.mod_lt _ (by positivity), Nat.mod_eq_of_lt⟩
  · push Not at c
    rw [h2 c]
    obtain ⟨i, hi, hb⟩ := c
    constructor
    · intro hc; cases hc
    · intro hlt
      exfalso
      have hd : Nat.nth Nat.Prime i ∣ ∏ i ∈ Finset.range n, Nat.nth Nat.Prime i := Finset.dvd_prod_of_mem _ (Finset.mem_range.mpr hi)
      have := Nat.le_of_dvd (Finset.prod_pos fun j _ => (Nat.prime_nth_prime j).pos) hd
      omega

/-- **C88** whatever `primorial` returns with overflow checks it also returns without them -/
theorem C88_primorial_release_agrees (bld : Build) (o : Estimates) (g f : ℕ) (b : Buf) (h : Reachable bld o g f b) (bits : ℕ)
    (hbits : 0 < bits) (n : ℕ) (r : ℕ × Buf) (hr : Buf.primorial bld (some bits) o b n = .ok r) :
    Buf.primorialRel bld bits o b n = .ok r := by
  obtain ⟨v, b2⟩ := r
  have hr' := hr
  simp only [Buf.primorial, Res.bind_eq_ok, Prod.exists] at hr'
  obtain ⟨l, b3, hn, v2, hp, hr'⟩ := hr'
  simp only [Res.pure_def, Res.ok.injEq, Prod.mk.injEq] at hr'
  have hlt := (C33_primorial_returns_iff bld o g f b h bits hbits n l b3 hn).1.mp ⟨_, hr⟩
  have hv := C33_primorial_exact bld o g f b h (some bits) n v b2 hr
  have hall : ∀ i < n, Nat.nth Nat.Prime i < 2 ^ bits := fun i hi =>
    lt_of_le_of_lt (Nat.le_of_dvd (Finset.prod_pos fun j _ => (Nat.prime_nth_prime j).pos)
      (Finset.dvd_prod_of_mem _ (Finset.mem_range.mpr hi))) hlt
  rw [(C88_primorial_release bld o g f b h bits hbits n l b3 hn).1 hall, Nat.mod_eq_of_lt hlt, ← hv, hr'.2]

example : (Buf.primorialRel .small 8 exampleEstimates (Buf.new .small).clear 4).mapR Prod.fst = .ok 210 ∧
    (Buf.primorialRel .small 8 exampleEstimates (Buf.new .small).clear 5).mapR Prod.fst = .ok 6 ∧
    (Buf.primorial .small (some 8) exampleEstimates (Buf.new .small).clear 5).mapR Prod.fst = .panic := by
  decide +kernel
/-- `primorial::<u64>(16)` panics with overflow checks and silently is the wrong number without -/
example : (Buf.primorialRel .small 64 exampleEstimates (Buf.new .small).clear 16).mapR Prod.fst = .ok 14142414403480493114 ∧
    (Buf.primorial .small (some 64) exampleEstimates (Buf.new .small).clear 16).mapR Prod.fst = .panic := by
  decide +kernel

end NumPrime
