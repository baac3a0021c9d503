import Verif.Proofs.ExactSmall

/-! # C01, C02, C22, C68: `is_prime64` and the wheel tables -/

namespace NumPrime
open Tables Spec

/-- **C01** `is_prime64` returns true on every prime that fits in a `u64`, in both builds -/
theorem C01_is_prime64_prime (bld : Build) (p : ℕ) (hp : p.Prime) (_h64 : p < 2 ^ 64) : isPrime64 bld p = true :=
  isPrime64_prime bld hp

example : isPrime64 .big 18446744073709551557 = true ∧ isPrime64 .small 18446744073709551557 = true := by decide +kernel
example : isPrime64 .big 4294967291 = true ∧ isPrime64 .small 4294967291 = true := by decide +kernel

/-- The (published, computer-verified) claim behind the choice of the Miller-Rabin bases: no composite below `2^64`
passes the strong tests selected for it. It is an explicit hypothesis wherever it is used. -/
def NoPseudoprimes (bld : Build) : Prop :=
  ∀ n, n < 2 ^ 64 → smallPrimesNext bld ≤ n → n % 2 = 1 → Nat.gcd n (wheelSize bld) = 1 →
    (∀ b ∈ millerBases bld n, StrongPRP n b) → n.Prime

/-- **C02 (partial)** What `is_prime64` decides, for every `n` without any assumption: below the table bound
primality, above it "odd, coprime to the wheel and a strong probable prime to the listed bases". Missing for the full
claim: that no composite satisfies the second alternative, see `C02_is_prime64_exact_partial`. -/
theorem C02_is_prime64_iff_partial (bld : Build) (n : ℕ) : isPrime64 bld n = true ↔
    (n.Prime ∧ n < smallPrimesNext bld) ∨
    (smallPrimesNext bld ≤ n ∧ n % 2 = 1 ∧ Nat.gcd n (wheelSize bld) = 1 ∧ ∀ b ∈ millerBases bld n, StrongPRP n b) :=
  isPrime64_iff bld n

/-- **C02 (partial)** `is_prime64` is exact on all of `u64` if and only if the pseudoprime claim about the bases holds -/
theorem C02_is_prime64_exact_partial (bld : Build) :
    (∀ n < 2 ^ 64, (isPrime64 bld n = true ↔ n.Prime)) ↔ NoPseudoprimes bld := by
  constructor
  · intro h n h64 h1 h2 h3 h4
    exact (h n h64).mp ((isPrime64_iff bld n).mpr (Or.inr ⟨h1, h2, h3, h4⟩))
  · intro h n h64
    refine ⟨fun ht => ?_, fun hp => isPrime64_prime bld hp⟩
    rcases (isPrime64_iff bld n).mp ht with h1 | ⟨h1, h2, h3, h4⟩
    · exact h1.1
    · exact h n h64 h1 h2 h3 h4

/-- **C02 (partial)** every accepted number is at least 2, and odd unless it is 2 -/
theorem C02_accepted_ge_two_partial (bld : Build) (n : ℕ) (h : isPrime64 bld n = true) : 2 ≤ n ∧ (n = 2 ∨ n % 2 = 1) := by
  have := le_smallPrimesNext bld
  rcases (isPrime64_iff bld n).mp h with ⟨h1, _⟩ | ⟨h1, h2, _⟩
  · exact ⟨h1.two_le, h1.eq_two_or_odd⟩
  · exact ⟨by omega, Or.inr h2⟩

/-- **C02 (partial)** for every `u8` and `u16` value, `is_prime64` is exact, in both builds, without any assumption -/
theorem C02_is_prime64_exact_u16_partial (bld : Build) (n : ℕ) (hn : n < 2 ^ 16) : isPrime64 bld n = true ↔ n.Prime :=
  isPrime64_exact_u16 bld hn

-- 2047 = 23 * 89 and 65281 = 97 * 673 are strong pseudoprimes to base 2
example : sprp64 65281 2 = true ∧ isPrime64 .small 65281 = false := by decide +kernel

-- 3215031751 is a strong pseudoprime to bases 2, 3, 5, 7, and 3825123056546413051 to the primes up to 23
example : isPrime64 .big 3215031751 = false ∧ isPrime64 .small 3215031751 = false := by decide +kernel
example : isPrime64 .big 3825123056546413051 = false ∧ isPrime64 .small 3825123056546413051 = false := by decide +kernel

/-- **C68** a number with a prime factor in the wheel (2, 3, 5, and with big tables also 7, 11) other than itself is
rejected, without any appeal to pseudoprime tables -/
theorem C68_wheel_factor_rejected (bld : Build) (n q : ℕ) (hq : q.Prime) (hqw : q ∣ wheelSize bld) (hqn : q ∣ n)
    (hne : n ≠ q) : isPrime64 bld n = false := by
  rw [Bool.eq_false_iff]
  intro h
  rcases (isPrime64_iff bld n).mp h with ⟨h1, _⟩ | ⟨_, _, h3, _⟩
  · exact hne ((Nat.prime_dvd_prime_iff_eq hq h1).mp hqn).symm
  · have := Nat.dvd_gcd hqn hqw
    rw [h3] at this
    exact hq.one_lt.ne' (Nat.dvd_one.mp this)

/-- **C68** the wheel sizes are the products of the first 3 and first 5 primes -/
theorem C68_wheel_sizes : wheelSize .small = 2 * 3 * 5 ∧ wheelSize .big = 2 * 3 * 5 * 7 * 11 := by decide

/-- **C68** below the table bound (257, with big tables 8167) `is_prime64` is exact -/
theorem C68_table_exact (bld : Build) (n : ℕ) (hn : n < smallPrimesNext bld) : isPrime64 bld n = true ↔ n.Prime := by
  rw [isPrime64_iff]
  constructor
  · rintro (h | ⟨h, _⟩)
    · exact h.1
    · omega
  · exact fun h => Or.inl ⟨h, hn⟩

/-- **C68** the values of the table bound -/
theorem C68_table_bounds : smallPrimesNext .small = 257 ∧ smallPrimesNext .big = 8167 := by decide

example : isPrime64 .small (7 * 11 * 13) = false := by decide +kernel -- caught by Miller-Rabin, not by the wheel

/-- **C22** upwards: from any `n`, the offset looked up at `n mod WHEEL_SIZE` leads to the least number greater than `n`
that is coprime to the wheel modulus -/
theorem C22_wheel_next (bld : Build) (n : ℕ) :
    IsLeast {m : ℕ | Nat.Coprime m (wheelSize bld) ∧ n < m} (n + (wheelNext bld).getD (n % wheelSize bld) 0) := by
  have hp := wheelSize_pos bld
  have hm := Nat.mod_lt n (by omega : 0 < wheelSize bld)
  obtain ⟨a, b, c, d⟩ := wheelNext_spec bld (wheelSize bld - n % wheelSize bld - 1) (n % wheelSize bld) (by omega)
  constructor
  · refine ⟨?_, by omega⟩
    rw [gcd_mod_add] at b
    exact b
  · rintro m ⟨h1, h2⟩
    by_contra hlt
    have := c (m - n) (by omega) (by omega)
    rw [gcd_mod_add] at this
    have e : n + (m - n) = m := by omega
    rw [e] at this
    exact this h1

/-- **C22** downwards, for every `n > WHEEL_SIZE` (so that there is such a number) -/
theorem C22_wheel_prev (bld : Build) (n : ℕ) (hn : wheelSize bld < n) :
    (wheelPrev bld).getD (n % wheelSize bld) 0 ≤ n ∧
    IsGreatest {m : ℕ | Nat.Coprime m (wheelSize bld) ∧ m < n} (n - (wheelPrev bld).getD (n % wheelSize bld) 0) := by
  have hp := wheelSize_pos bld
  have hm := Nat.mod_lt n (by omega : 0 < wheelSize bld)
  obtain ⟨a, b, c, d⟩ := wheelPrev_spec bld (n % wheelSize bld) hm
  set o := (wheelPrev bld).getD (n % wheelSize bld) 0
  set W := wheelSize bld
  have key : ∀ j, j ≤ n % W + 1 → Nat.gcd (W + n % W - j) W = Nat.gcd (n - j) W := by
    intro j hj
    have e : W + n % W - j + W * (n / W) = n - j + W := by
      have := Nat.mod_add_div n W
      omega
    have h1 : Nat.gcd (W + n % W - j) W = Nat.gcd (W + n % W - j + W * (n / W)) W := by rw [Nat.gcd_add_mul_left_left]
    rw [h1, e, Nat.gcd_add_self_left]
  refine ⟨by omega, ⟨?_, by omega⟩, ?_⟩
  · rw [key o b] at c; exact c
  · rintro m ⟨h1, h2⟩
    by_contra hlt
    have := d (n - m) (by omega) (by omega)
    rw [key (n - m) (by omega)] at this
    have e : n - (n - m) = m := by omega
    rw [e] at this
    exact this h1

/-- **C22** the tables have one entry per residue, so no lookup is out of range -/
theorem C22_wheel_length (bld : Build) : (wheelNext bld).length = wheelSize bld ∧ (wheelPrev bld).length = wheelSize bld :=
  ⟨wheelNext_length bld, wheelPrev_length bld⟩

example : (wheelNext .big).getD (113 % 2310) 0 = 14 ∧ 113 + 14 = 127 := by decide +kernel

end NumPrime
