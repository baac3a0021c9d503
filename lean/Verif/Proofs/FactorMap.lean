import Verif.Proofs.Basic
import Verif.Spec.Factor
import Mathlib.Data.Nat.Factorization.Basic

/-! Lemmas about factor maps. -/

namespace NumPrime
open Spec

theorem product_eq (m : List (ℕ × ℕ)) : product m = mapProd m := rfl
theorem ordered_iff (m : List (ℕ × ℕ)) : Ordered m ↔ MapSorted m := Iff.rfl

theorem mapProd_ne_zero {m : List (ℕ × ℕ)} (h : ∀ x ∈ m, x.1.Prime) : mapProd m ≠ 0 := by
  induction m with
  | nil => simp
  | cons x t ih =>
    rw [mapProd_cons]
    exact mul_ne_zero (pow_ne_zero _ (h x (by simp)).ne_zero) (ih fun y hy => h y (List.mem_cons_of_mem _ hy))

theorem factorization_mapProd_of_not_mem {m : List (ℕ × ℕ)} (h : ∀ x ∈ m, x.1.Prime) {q : ℕ} (hq : q ∉ m.map Prod.fst) :
    (mapProd m).factorization q = 0 := by
  induction m with
  | nil => simp
  | cons x t ih =>
    have hx := h x (by simp)
    have ht : ∀ y ∈ t, y.1.Prime := fun y hy => h y (List.mem_cons_of_mem _ hy)
    rw [mapProd_cons, Nat.factorization_mul (pow_ne_zero _ hx.ne_zero) (mapProd_ne_zero ht), hx.factorization_pow]
    simp only [List.map_cons, List.mem_cons, not_or] at hq
    rw [Finsupp.add_apply, ih ht hq.2, Finsupp.single_apply, if_neg (Ne.symm hq.1)]

theorem factorization_mapProd_of_mem {m : List (ℕ × ℕ)} (hs : MapSorted m) (h : ∀ x ∈ m, x.1.Prime) {q e : ℕ}
    (hq : (q, e) ∈ m) : (mapProd m).factorization q = e := by
  induction m with
  | nil => simp at hq
  | cons x t ih =>
    have hx := h x (by simp)
    have ht : ∀ y ∈ t, y.1.Prime := fun y hy => h y (List.mem_cons_of_mem _ hy)
    simp only [MapSorted, List.map_cons, List.pairwise_cons] at hs
    rw [mapProd_cons, Nat.factorization_mul (pow_ne_zero _ hx.ne_zero) (mapProd_ne_zero ht), hx.factorization_pow,
      Finsupp.add_apply, Finsupp.single_apply]
    rcases List.mem_cons.mp hq with rfl | hq
    · have : q ∉ t.map Prod.fst := fun hc => lt_irrefl _ (hs.1 q hc)
      simp [factorization_mapProd_of_not_mem ht this]
    · have h1 := hs.1 q (List.mem_map_of_mem (f := Prod.fst) hq)
      rw [if_neg (by omega), ih hs.2 ht hq, zero_add]

/-- a factor map with residual: what trial division maintains -/
structure FMap (m : List (ℕ × ℕ)) (r n : ℕ) : Prop where
  sorted : MapSorted m
  prime : ∀ x ∈ m, x.1.Prime
  pos : ∀ x ∈ m, 0 < x.2
  prod : n = mapProd m * r
  rpos : 0 < r
  nodvd : ∀ x ∈ m, ¬ x.1 ∣ r

theorem FMap.ne_zero {m r n} (h : FMap m r n) : n ≠ 0 := by
  rw [h.prod]; exact mul_ne_zero (mapProd_ne_zero h.prime) h.rpos.ne'

theorem FMap.fact {m r n} (h : FMap m r n) {p e : ℕ} (hm : (p, e) ∈ m) : n.factorization p = e := by
  rw [h.prod, Nat.factorization_mul (mapProd_ne_zero h.prime) h.rpos.ne', Finsupp.add_apply,
    factorization_mapProd_of_mem h.sorted h.prime hm, Nat.factorization_eq_zero_of_not_dvd (h.nodvd _ hm), add_zero]

theorem FMap.dvd {m r n} (h : FMap m r n) {p e : ℕ} (hm : (p, e) ∈ m) : p ∣ n := by
  have := h.fact hm
  have h2 := h.pos _ hm
  exact Nat.dvd_of_factorization_pos (by simp only at h2; omega)

theorem mapProd_dvd {m : List (ℕ × ℕ)} {p : ℕ} (h : ∀ x ∈ m, x.1.Prime) (hp : p.Prime) (hd : p ∣ mapProd m) :
    p ∈ m.map Prod.fst := by
  by_contra hc
  have := factorization_mapProd_of_not_mem h hc
  have h2 := hp.factorization_pos_of_dvd (mapProd_ne_zero h) hd
  omega

/-- complete maps -/
theorem isFactorization_of {m : List (ℕ × ℕ)} {n : ℕ} (hs : MapSorted m) (hp : ∀ x ∈ m, x.1.Prime) (he : ∀ x ∈ m, 0 < x.2)
    (hprod : mapProd m = n) : IsFactorization m n := by
  refine ⟨hs, fun p e => ⟨fun hm => ?_, fun ⟨h1, h2, h3⟩ => ?_⟩⟩
  · have hf := factorization_mapProd_of_mem hs hp hm
    rw [hprod] at hf
    have := he _ hm
    exact ⟨hp _ hm, Nat.dvd_of_factorization_pos (by simp only at this; omega), hf.symm⟩
  · rw [← hprod] at h2 h3
    obtain ⟨⟨p', e'⟩, hx, rfl⟩ := List.mem_map.mp (mapProd_dvd hp h1 h2)
    rw [factorization_mapProd_of_mem hs hp hx] at h3
    simp only at h3 ⊢
    rw [h3]; exact hx

theorem FMap.nil {n : ℕ} (h : 0 < n) : FMap [] n n := by
  refine ⟨by simp [MapSorted], by simp, by simp, by simp, h, by simp⟩

theorem mapAdd_add (m : List (ℕ × ℕ)) (k a b : ℕ) : mapAdd (mapAdd m k a) k b = mapAdd m k (a + b) := by
  induction m with
  | nil => simp [mapAdd]
  | cons x t ih =>
    obtain ⟨k', v'⟩ := x
    simp only [mapAdd]
    split
    · simp [mapAdd]
    · rename_i h1
      split
      · rename_i h2; subst h2; simp [mapAdd]; omega
      · rename_i h2; simp [mapAdd, h1, h2, ih]

theorem mem_mapAdd_new {m : List (ℕ × ℕ)} {k e : ℕ} (hk : k ∉ m.map Prod.fst) (x : ℕ × ℕ) :
    x ∈ mapAdd m k e ↔ x = (k, e) ∨ x ∈ m := by
  induction m with
  | nil => simp [mapAdd]
  | cons y t ih =>
    obtain ⟨k', v'⟩ := y
    simp only [List.map_cons, List.mem_cons, not_or] at hk
    simp only [mapAdd]
    split
    · simp
    · simp only [hk.1, if_false, List.mem_cons, ih hk.2]; tauto

/-- dividing out a new prime -/
theorem FMap.step {m r n} (h : FMap m r n) {p e r' : ℕ} (hp : p.Prime) (hr : r = r' * p ^ e) (hnd : ¬ p ∣ r')
    (he : 0 < e) : FMap (mapAdd m p e) r' n := by
  have hpr : p ∣ r := by rw [hr]; exact Dvd.dvd.mul_left (dvd_pow_self p he.ne') _
  have hk : p ∉ m.map Prod.fst := by
    intro hc
    obtain ⟨x, hx, rfl⟩ := List.mem_map.mp hc
    exact h.nodvd x hx hpr
  have hd : r' ∣ r := ⟨p ^ e, hr⟩
  refine ⟨mapAdd_sorted h.sorted _ _, ?_, mapAdd_pos he h.pos, ?_, ?_, ?_⟩
  · intro x hx
    rcases (mem_mapAdd_new hk x).mp hx with rfl | hx
    · exact hp
    · exact h.prime x hx
  · rw [mapAdd_prod, h.prod, hr]; ring
  · exact Nat.pos_of_dvd_of_pos hd h.rpos
  · intro x hx
    rcases (mem_mapAdd_new hk x).mp hx with rfl | hx
    · exact hnd
    · exact fun hc => h.nodvd x hx (hc.trans hd)

/-- the last factor -/
theorem FMap.finish_one {m n} (h : FMap m 1 n) : IsFactorization m n :=
  isFactorization_of h.sorted h.prime h.pos (by rw [h.prod, mul_one])

theorem FMap.finish_prime {m r n} (h : FMap m r n) (hr : r.Prime) : IsFactorization (mapInsert m r 1) n := by
  have hk : r ∉ m.map Prod.fst := by
    intro hc
    obtain ⟨x, hx, rfl⟩ := List.mem_map.mp hc
    exact h.nodvd x hx dvd_rfl
  rw [mapInsert_eq_mapAdd _ hk]
  exact (h.step hr (by simp) (fun hc => hr.one_lt.ne' (Nat.dvd_one.mp hc)) one_pos).finish_one

end NumPrime
