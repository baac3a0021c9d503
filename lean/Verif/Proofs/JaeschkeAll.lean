import Verif.Proofs.JaeschkeRun1
import Verif.Proofs.JaeschkeRun2
import Verif.Proofs.JaeschkeRun3
import Verif.Proofs.JaeschkeRun4

/-! # `is_prime64` without the big table is exact below `2^32` -/

namespace NumPrime
open Tables Spec

theorem primeProd_eq : primeProd = prodPs orders 12810 := by decide +kernel

theorem orders_lt : ∀ p ∈ orders, p.1 < 65536 := by
  have : orders.all (fun p => Nat.ble (Nat.succ p.1) 65536) = true := by decide +kernel
  intro p hp
  exact Nat.le_of_ble_eq_true (List.all_eq_true.mp this p hp)

theorem orders_length : orders.length = 6537 := by decide +kernel

theorem not_dvd_primeProd (q : ℕ) (hq : q.Prime) (h : 65536 ≤ q) : ¬ q ∣ primeProd := by
  rw [primeProd_eq, prodPs_eq, hq.dvd_mul, (Nat.prime_iff.mp hq).dvd_prod_iff]
  rintro (⟨a, ha, hd⟩ | hd)
  · obtain ⟨p, hp, rfl⟩ := List.mem_map.mp ha
    have h1 := orders_lt p hp
    have h2 := ((checkList_sound orders 65536 checkList_orders).1 p hp).1
    have := Nat.le_of_dvd (by omega) hd
    omega
  · have := Nat.le_of_dvd (by norm_num) hd
    omega

theorem pick {a k i : ℕ} {x : ℕ × ℕ} {rest : List (ℕ × ℕ)} (h : tops primeProd k (orders.drop a) = true) (h1 : a ≤ i ∧ i < a + k)
    (hd : orders.drop i = x :: rest) : top primeProd x.1 x.2 (x :: rest) = true := by
  refine tops_sound k _ h (i - a) (by omega) x rest ?_
  rw [List.drop_drop, ← hd]
  congr 1
  omega

theorem top_orders {i : ℕ} {x : ℕ × ℕ} {rest : List (ℕ × ℕ)} (hd : orders.drop i = x :: rest) :
    top primeProd x.1 x.2 (x :: rest) = true := by
  have hi : i < 6537 := by
    by_contra hc
    rw [List.drop_eq_nil_of_le (by rw [orders_length]; omega)] at hd
    simp at hd
  rcases Nat.lt_or_ge i 4224 with h | h
  · exact pick searchRun0 (by omega) hd
  rcases Nat.lt_or_ge i 5421 with h | h
  · exact pick searchRun1 (by omega) hd
  rcases Nat.lt_or_ge i 5797 with h | h
  · exact pick searchRun2 (by omega) hd
  rcases Nat.lt_or_ge i 5977 with h | h
  · exact pick searchRun3 (by omega) hd
  rcases Nat.lt_or_ge i 6082 with h | h
  · exact pick searchRun4 (by omega) hd
  rcases Nat.lt_or_ge i 6149 with h | h
  · exact pick searchRun5 (by omega) hd
  rcases Nat.lt_or_ge i 6199 with h | h
  · exact pick searchRun6 (by omega) hd
  rcases Nat.lt_or_ge i 6240 with h | h
  · exact pick searchRun7 (by omega) hd
  rcases Nat.lt_or_ge i 6270 with h | h
  · exact pick searchRun8 (by omega) hd
  rcases Nat.lt_or_ge i 6295 with h | h
  · exact pick searchRun9 (by omega) hd
  rcases Nat.lt_or_ge i 6320 with h | h
  · exact pick searchRun10 (by omega) hd
  rcases Nat.lt_or_ge i 6347 with h | h
  · exact pick searchRun11 (by omega) hd
  rcases Nat.lt_or_ge i 6376 with h | h
  · exact pick searchRun12 (by omega) hd
  rcases Nat.lt_or_ge i 6407 with h | h
  · exact pick searchRun13 (by omega) hd
  rcases Nat.lt_or_ge i 6436 with h | h
  · exact pick searchRun14 (by omega) hd
  rcases Nat.lt_or_ge i 6462 with h | h
  · exact pick searchRun15 (by omega) hd
  rcases Nat.lt_or_ge i 6483 with h | h
  · exact pick searchRun16 (by omega) hd
  rcases Nat.lt_or_ge i 6498 with h | h
  · exact pick searchRun17 (by omega) hd
  rcases Nat.lt_or_ge i 6510 with h | h
  · exact pick searchRun18 (by omega) hd
  rcases Nat.lt_or_ge i 6520 with h | h
  · exact pick searchRun19 (by omega) hd
  exact pick searchRun20 (by omega) hd

theorem mem_orders {p : ℕ} (hp : p.Prime) (h1 : p < 65536) (h2 : ¬ p ∣ 12810) : ∃ L, (p, L) ∈ orders := by
  have : p ∈ orders.map Prod.fst := by
    rcases Nat.lt_or_ge p 256 with h | h
    · have := small_orders p (mem_smallPrimes.mpr ⟨hp, by show p < 257; omega⟩)
      rcases this with rfl | rfl | rfl | rfl | rfl | h3
      · exact absurd (by norm_num) h2
      · exact absurd (by norm_num) h2
      · exact absurd (by norm_num) h2
      · exact absurd (by norm_num) h2
      · exact absurd (by norm_num) h2
      · have hs : ∀ p ∈ orders25.map Prod.fst, p ∈ orders.map Prod.fst := by
          intro p hp
          simp only [orders, List.map_append, List.mem_append]
          tauto
        exact hs p h3
    · exact (checkList_sound orders 65536 checkList_orders).2 p hp h h1
  obtain ⟨⟨a, L⟩, h3, rfl⟩ := List.mem_map.mp this
  exact ⟨L, h3⟩

/-- no composite below `2^32` passes the strong tests to 2, 7 and 61 (and the wheel) -/
theorem prime_of_pass {n : ℕ} (h1 : 65536 ≤ n) (hn : n < 2 ^ 32) (hp : Pass n) : n.Prime := by
  by_contra hc
  have cop : ∀ p, p.Prime → p ∣ n → ¬ p ∣ 12810 := fun p hpp hd h => by
    have := Nat.dvd_gcd hd h
    rw [hp.cop, Nat.dvd_one] at this
    exact hpp.one_lt.ne' this
  have hm := Nat.minFac_prime (show n ≠ 1 by omega)
  have hms := Nat.minFac_sq_le_self (show 0 < n by omega) hc
  have hmlt : n.minFac < 65536 := by
    by_contra h
    have : 65536 ^ 2 ≤ n.minFac ^ 2 := Nat.pow_le_pow_left (by omega) 2
    omega
  obtain ⟨L, hL⟩ := mem_orders hm hmlt (cop _ hm (Nat.minFac_dvd n))
  obtain ⟨j, hj, hjx⟩ := List.mem_iff_getElem.mp hL
  have hex : ∃ i, ∃ h : i < orders.length, orders[i].1 ∣ n := ⟨j, hj, by rw [hjx]; exact Nat.minFac_dvd n⟩
  classical
  obtain ⟨hi, hdvd⟩ := Nat.find_spec hex
  have hmin := fun m (h : m < Nat.find hex) => Nat.find_min hex h
  generalize Nat.find hex = i at *
  have hdrop : orders.drop i = orders[i] :: orders.drop (i + 1) := List.drop_eq_getElem_cons hi
  have htop := top_orders hdrop
  have hmem : ∀ p ∈ orders, 1 < p.1 ∧ p.2 ∣ p.1 - 1 ∧ Mult p.1 p.2 := (checkList_sound orders 65536 checkList_orders).1
  have hq := hmem orders[i] (List.getElem_mem hi)
  obtain ⟨t, ht⟩ := hdvd
  have hqlt := orders_lt orders[i] (List.getElem_mem hi)
  have ht1 : 1 < t := by
    by_contra h
    have : orders[i].1 * t ≤ orders[i].1 * 1 := Nat.mul_le_mul_left _ (by omega)
    omega
  rw [ht] at hp hn
  refine top_sound not_dvd_primeProd (fun p hp => ?_) htop hq.1 hq.2.2 hq.2.1 t ht1 hn ?_ hp
  · have := hmem p (List.mem_of_mem_drop (i := i) (by rw [hdrop]; exact hp))
    exact ⟨this.1, this.2.2⟩
  · intro p hpp hpt
    have hpn : p ∣ n := by rw [ht]; exact hpt.mul_left _
    rcases Nat.lt_or_ge p 65536 with h | h
    · left
      obtain ⟨L', hL'⟩ := mem_orders hpp h (cop p hpp hpn)
      obtain ⟨k, hk, hkx⟩ := List.mem_iff_getElem.mp hL'
      have hik : i ≤ k := by
        by_contra hlt
        exact hmin k (by omega) ⟨hk, by rw [hkx]; exact hpn⟩
      rw [← hdrop]
      refine List.mem_map.mpr ⟨(p, L'), ?_, rfl⟩
      rw [List.mem_iff_getElem]
      refine ⟨k - i, by rw [List.length_drop]; omega, ?_⟩
      rw [List.getElem_drop]
      simp only [show i + (k - i) = k by omega, hkx]
    · exact Or.inr h

theorem isPrime64_exact_u32 {n : ℕ} (hn : n < 2 ^ 32) : isPrime64 .small n = true ↔ n.Prime := by
  rcases Nat.lt_or_ge n (2 ^ 16) with h16 | h16
  · exact isPrime64_exact_u16 .small h16
  refine ⟨fun h => ?_, fun hp => isPrime64_prime .small hp⟩
  rcases (isPrime64_iff .small n).mp h with h | ⟨h1, h2, h3, h4⟩
  · exact h.1
  · have hs : ∀ b ∈ [2, 7, 61], StrongPRP n b := fun b hb => h4 b (by simpa only [millerBases, hn, if_true] using hb)
    have h30 : Nat.Coprime n 30 := h3
    have hb : ∀ b ∈ [2, 7, 61], Nat.Coprime n b := fun b hb => by
      have hf := fermat_of_strong (hs b hb)
      have hf' : b ^ (n - 1) ≡ 1 [MOD n] := hf
      have h5 : Nat.gcd (b ^ (n - 1)) n = 1 := by rw [hf'.gcd_eq, Nat.gcd_one_left]
      exact Nat.coprime_comm.mp (Nat.Coprime.coprime_dvd_left (dvd_pow_self b (by omega)) h5)
    refine prime_of_pass (by omega) hn ⟨?_, hs 2 (by simp), hs 7 (by simp), hs 61 (by simp)⟩
    exact Nat.Coprime.mul_right (Nat.Coprime.mul_right h30 (hb 7 (by simp))) (hb 61 (by simp))

end NumPrime
