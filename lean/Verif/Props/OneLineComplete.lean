import Verif.Props.Release

/-! # C95: `one_line` finds a factor of every odd composite number -/

namespace NumPrime
open Spec

theorem oneLine_find_of {n M i s t : ℕ} (h : s ^ 2 = i * M + t ^ 2) (ht : 0 < t) (hst : t ^ 2 + 1 ≤ 2 * s)
    (g1 : Nat.gcd n (s - t) ≠ 1) (g2 : Nat.gcd n (s - t) ≠ n) : OneLineFinds n M i (Nat.gcd n (s - t)) := by
  have hpos : 0 < t ^ 2 := Nat.pow_pos ht
  have hs : Nat.sqrt (i * M) + 1 = s := by
    obtain ⟨r, rfl⟩ : ∃ r, s = r + 1 := ⟨s - 1, by omega⟩
    have h1 : Nat.sqrt (i * M) = r := by
      symm
      rw [Nat.eq_sqrt]
      constructor <;> nlinarith
    omega
  exact ⟨t, by rw [hs]; omega, by rw [hs], g1, g2⟩

/-- a square divides the target -/
theorem oneLine_square {k p q : ℕ} (hk : 0 < k) (hq : 0 < q) (hp : p.Prime) (hpk : ¬ p ∣ k) :
    ∃ i d, 1 ≤ i ∧ i < k * (p ^ 2 * q) ∧ OneLineFinds (p ^ 2 * q) (k * (p ^ 2 * q)) i d := by
  obtain ⟨r, rfl⟩ : ∃ r, p = r + 1 := ⟨p - 1, by have := hp.pos; omega⟩
  have hr : 1 ≤ r := by have := hp.two_le; omega
  have hndvd : ¬ (r + 1) ∣ k * r := by
    rw [hp.dvd_mul]
    rintro (h | h)
    · exact hpk h
    · have := Nat.le_of_dvd (by omega) h; omega
  have hkq : 1 ≤ k * q := Nat.mul_pos hk hq
  refine ⟨r * (k * r * q + 2), _, Nat.mul_pos hr (by omega), ?_,
    oneLine_find_of (s := k * r * (r + 1) * q + (r + 1)) (t := r + 1) (by ring) (by omega) ?_ ?_ ?_⟩
  · nlinarith [Nat.mul_le_mul hkq hr]
  · have h1 : 1 * (r * (r + 1)) ≤ k * q * (r * (r + 1)) := Nat.mul_le_mul_right _ hkq
    nlinarith
  · rw [Nat.add_sub_cancel]
    intro h
    have h2 : r + 1 ∣ Nat.gcd ((r + 1) ^ 2 * q) (k * r * (r + 1) * q) :=
      Nat.dvd_gcd ⟨(r + 1) * q, by ring⟩ ⟨k * r * q, by ring⟩
    rw [h, Nat.dvd_one] at h2
    omega
  · rw [Nat.add_sub_cancel]
    intro h
    have h2 : (r + 1) ^ 2 * q ∣ k * r * (r + 1) * q := by
      conv_lhs => rw [← h]
      exact Nat.gcd_dvd_right _ _
    apply hndvd
    have h3 : (r + 1) * ((r + 1) * q) ∣ k * r * ((r + 1) * q) := by
      convert h2 using 1 <;> ring
    exact Nat.dvd_of_mul_dvd_mul_right (Nat.mul_pos (by omega) hq) h3

/-- the target is a product of coprime odd numbers -/
theorem oneLine_coprime {k a b : ℕ} (hk : 0 < k) (ha : 3 ≤ a) (hb : 3 ≤ b) (hao : a % 2 = 1) (hab : Nat.Coprime a b)
    (hkb : Nat.Coprime k b) : ∃ i d, 1 ≤ i ∧ i < k * (a * b) ∧ OneLineFinds (a * b) (k * (a * b)) i d := by
  have hc : Nat.Coprime (k * a) b := Nat.Coprime.mul_left hkb hab
  obtain ⟨m, hm⟩ := Nat.exists_mul_mod_eq_one_of_coprime hc (by omega)
  obtain ⟨u, hu⟩ : ∃ u, u = 2 * m % b := ⟨_, rfl⟩
  have hub : u < b := hu ▸ Nat.mod_lt _ (by omega)
  have hcu : k * a * u % b = 2 := by
    rw [hu, Nat.mul_mod, Nat.mod_mod, ← Nat.mul_mod, show k * a * (2 * m) = 2 * (k * a * m) by ring, Nat.mul_mod, hm.2]
    rw [Nat.mul_one, Nat.mod_eq_of_lt (by omega : 2 < b)]
    exact Nat.mod_eq_of_lt (by omega)
  have hv := Nat.div_add_mod (k * a * u) b
  rw [hcu] at hv
  generalize k * a * u / b = v at hv
  have hu0 : 0 < u := by
    rcases Nat.eq_zero_or_pos u with h | h
    · rw [h] at hcu; simp at hcu
    · exact h
  have hka : 3 ≤ k * a := le_trans ha (Nat.le_mul_of_pos_left _ hk)
  have hv0 : 0 < v := by
    rcases Nat.eq_zero_or_pos v with h | h
    · rw [h] at hv
      have : k * a * 1 ≤ k * a * u := Nat.mul_le_mul_left _ hu0
      omega
    · exact h
  have hvlt : v < k * a := by
    have h1 : b * v < b * (k * a) := by
      have : k * a * u ≤ k * a * b := Nat.mul_le_mul_left _ hub.le
      have : k * a * b = b * (k * a) := by ring
      omega
    exact Nat.lt_of_mul_lt_mul_left h1
  refine ⟨u * v, _, Nat.mul_pos hu0 hv0, ?_, oneLine_find_of (s := b * v + 1) (t := 1) ?_ one_pos (by omega) ?_ ?_⟩
  · have h1 := Nat.mul_lt_mul'' hub hvlt
    have : b * (k * a) = k * (a * b) := by ring
    omega
  · have h1 : u * v * (k * (a * b)) = (b * v) * (k * a * u) := by ring
    rw [h1, ← hv]; ring
  · rw [Nat.add_sub_cancel]
    intro h
    have h2 : b ∣ Nat.gcd (a * b) (b * v) := Nat.dvd_gcd ⟨a, by ring⟩ ⟨v, rfl⟩
    rw [h, Nat.dvd_one] at h2
    omega
  · rw [Nat.add_sub_cancel]
    intro h
    have h2 : a * b ∣ b * v := by
      conv_lhs => rw [← h]
      exact Nat.gcd_dvd_right _ _
    have h3 : a ∣ 2 := by
      have h4 : a ∣ b * v := (Dvd.intro _ rfl).trans h2
      have h5 : a ∣ b * v + 2 := by rw [hv]; exact ⟨k * u, by ring⟩
      exact (Nat.dvd_add_right h4).mp h5
    have := Nat.le_of_dvd (by norm_num) h3
    omega

theorem oneLine_exists {n k : ℕ} (hk : 0 < k) (h1 : 1 < n) (hodd : n % 2 = 1) (hnp : ¬ n.Prime) (hkn : Nat.Coprime k n) :
    ∃ i d, 1 ≤ i ∧ i < k * n ∧ OneLineFinds n (k * n) i d := by
  have hp := Nat.minFac_prime (n := n) (by omega)
  obtain ⟨q, hq⟩ := Nat.minFac_dvd n
  have hq0 : 0 < q := by rcases Nat.eq_zero_or_pos q with h | h; · rw [h] at hq; omega
                         · exact h
  have hq1 : q ≠ 1 := by rintro rfl; rw [mul_one] at hq; exact hnp (hq ▸ hp)
  by_cases hd : n.minFac ∣ q
  · obtain ⟨r, hr⟩ := hd
    have hn : n = n.minFac ^ 2 * r := by
      conv_lhs => rw [hq, hr]
      ring
    have hr0 : 0 < r := by
      rcases Nat.eq_zero_or_pos r with h | h
      · rw [h] at hr; omega
      · exact h
    have hpk : ¬ n.minFac ∣ k := fun h => by
      have := Nat.dvd_gcd h (Nat.minFac_dvd n)
      rw [hkn] at this
      exact hp.one_lt.ne' (Nat.dvd_one.mp this)
    have := oneLine_square hk hr0 hp hpk
    rwa [← hn] at this
  · have hcop : Nat.Coprime n.minFac q := (Nat.Prime.coprime_iff_not_dvd hp).mpr hd
    have ho : n.minFac % 2 = 1 ∧ q % 2 = 1 := by
      have h2 : (n.minFac * q) % 2 = 1 := by rw [← hq]; exact hodd
      rcases Nat.mod_two_eq_zero_or_one n.minFac with h | h <;> rcases Nat.mod_two_eq_zero_or_one q with h' | h' <;>
        simp [Nat.mul_mod, h, h'] at h2 ⊢
    have := oneLine_coprime (k := k) (a := n.minFac) (b := q) hk (by have := hp.two_le; omega) (by omega) ho.1 hcop
      (Nat.Coprime.coprime_dvd_right ⟨n.minFac, by rw [Nat.mul_comm]; exact hq⟩ hkn)
    rwa [← hq] at this

/-- **C95** `one_line` finds a factor of every odd composite number within `k * n` rounds, on the unsigned types of even width `2 c`
for `k * n < 2^c` -/
theorem C95_one_line_complete (bld : Build) (c n k maxIter : ℕ) (hk : 0 < k) (h1 : 1 < n) (hodd : n % 2 = 1) (hnp : ¬ n.Prime)
    (hkn : Nat.Coprime k n) (hfit : k * n < 2 ^ c) (hM : k * n ≤ maxIter) :
    ∃ d i, oneLine bld (some (2 * c)) n (k * n) maxIter = .ok (some d, i) ∧ i < k * n ∧ ProperDivisor d n := by
  classical
  have hex := oneLine_exists hk h1 hodd hnp hkn
  have hex' : ∃ i, 1 ≤ i ∧ i < k * n ∧ ∃ d, OneLineFinds n (k * n) i d := by
    obtain ⟨i, d, a, b, e⟩ := hex; exact ⟨i, a, b, d, e⟩
  obtain ⟨a1, a2, d, hd⟩ := Nat.find_spec hex'
  have hmin := fun m hm => Nat.find_min hex' (m := m) hm
  generalize Nat.find hex' = i at *
  have hw : k * n < 2 ^ (2 * c) := lt_of_lt_of_le hfit (Nat.pow_le_pow_right (by norm_num) (by omega))
  have hres := (C43_one_line_finds_iff bld c n k maxIter d i (by omega) hk hw).mpr ⟨a1, by omega, by
    have h2 : i * (k * n) < (k * n) * (k * n) := Nat.mul_lt_mul_of_pos_right a2 (by omega)
    have h3 : k * n ≤ 2 ^ c - 1 := by omega
    have := Nat.mul_le_mul h3 h3
    rw [pow_two]; omega, hd, fun j h2 h3 d' hd' => hmin j h3 ⟨h2, by omega, d', hd'⟩⟩
  exact ⟨d, i, hres, a2, C42_one_line bld _ _ _ _ _ _ hres⟩

/-- **C95** for big integers without restriction; so with enough rounds `one_line` decides whether an odd number is composite -/
theorem C95_one_line_complete_big (bld : Build) (n k maxIter : ℕ) (hk : 0 < k) (h1 : 1 < n) (hodd : n % 2 = 1)
    (hkn : Nat.Coprime k n) (hM : k * n ≤ maxIter) :
    (∃ d i, oneLine bld none n (k * n) maxIter = .ok (some d, i)) ↔ ¬ n.Prime := by
  constructor
  · rintro ⟨d, i, h⟩ hp
    obtain ⟨a, b, e⟩ := C42_one_line bld _ _ _ _ _ _ h
    rcases (Nat.dvd_prime hp).mp a with rfl | rfl <;> omega
  · intro hnp
    obtain ⟨d, i, h, -, -⟩ := C95_one_line_complete bld (k * n) n k maxIter hk h1 hodd hnp hkn Nat.lt_two_pow_self hM
    have h2 : 0 < k * n := Nat.mul_pos hk (by omega)
    have hw : k * n < 2 ^ (2 * (k * n)) :=
      lt_of_lt_of_le Nat.lt_two_pow_self (Nat.pow_le_pow_right (by norm_num) (by omega))
    have h3 := C80_one_line_checked bld (2 * (k * n)) n k maxIter (by omega) (by omega) hw _ h
    obtain ⟨v, e1, e2, -⟩ := C80_one_line_release bld (2 * (k * n)) n k maxIter (by omega) (by omega) hw
    rw [h3] at e1
    injection e1 with e1
    subst e1
    exact ⟨d, i, e2 (Or.inl rfl)⟩

/-- a product of two close primes is found at once, one of distant primes later; the bound on the rounds is met by both -/
example : oneLine .big (some 64) (1009 * 1013) (1009 * 1013) (1009 * 1013) = .ok (some 1009, 1) := by decide +kernel
example : ∃ d i, oneLine .big (some 64) (11 * 50021) (1 * (11 * 50021)) 600000 = .ok (some d, i) ∧ i < 1 * (11 * 50021) ∧
    ProperDivisor d (11 * 50021) :=
  C95_one_line_complete .big 32 (11 * 50021) 1 600000 one_pos (by norm_num) (by norm_num) (by norm_num) (by norm_num) (by norm_num)
    (by norm_num)
example : oneLine .small (some 64) (17 ^ 3) (480 * 17 ^ 3) (480 * 17 ^ 3) = .ok (some 17, 5) := by decide +kernel

end NumPrime
