import Verif.Model.Examples
import Verif.Props.Factorize
import Verif.Props.Buffer
import Verif.Props.NextPrime
import Mathlib.NumberTheory.ArithmeticFunction.Misc
import Mathlib.NumberTheory.LucasLehmer

/-! # C66, C67, C73: the example programs -/

namespace NumPrime
open Spec Tables

/-- `l` lists the divisors of `n`, each once -/
def ListsDivisors (l : List ℕ) (n : ℕ) : Prop := l.Nodup ∧ ∀ d, d ∈ l ↔ d ∣ n

theorem cpow_ok {w : Width} {a e x : ℕ} (h : cpow w a e = .ok x) : x = a ^ e := by
  unfold cpow at h
  split at h
  · injection h with h; exact h.symm
  · simp at h

/-- one round of the inner loop, when nothing overflows -/
theorem mulAll_eq {p i : ℕ} : ∀ l : List ℕ, (∀ f ∈ l, 0 < f ∧ f * p ^ i < 2 ^ 64) →
    mulAll p i l = .ok (l.map (· * p ^ i))
  | [], _ => rfl
  | f :: t, h => by
    obtain ⟨h0, h1⟩ := h f List.mem_cons_self
    have hp : p ^ i < 2 ^ 64 := lt_of_le_of_lt (Nat.le_mul_of_pos_left _ h0) h1
    rw [mulAll, cpow, if_pos (by simpa [fits] using hp), Res.bind_ok, cmul, if_pos (by simpa [fits] using h1), Res.bind_ok,
      mulAll_eq t (fun f hf => h f (List.mem_cons_of_mem _ hf)), Res.bind_ok]
    rfl

theorem divisorsInner_eq {p : ℕ} {l : List ℕ} : ∀ c i, (∀ j, i ≤ j → j < i + c → ∀ f ∈ l, 0 < f ∧ f * p ^ j < 2 ^ 64) →
    divisorsInner l p c i = .ok ((List.range' i c).flatMap (fun j => l.map (· * p ^ j)))
  | 0, i, _ => rfl
  | c + 1, i, h => by
    rw [divisorsInner, mulAll_eq l (h i le_rfl (by omega)), Res.bind_ok,
      divisorsInner_eq c (i + 1) (fun j h1 h2 => h j (by omega) (by omega)), Res.bind_ok, List.range'_succ, List.flatMap_cons]
    rfl

/-- extending the divisors of `N` by a prime power coprime to `N` -/
theorem extend_divisors {l : List ℕ} {N p e : ℕ} (hl : ListsDivisors l N) (hN : 0 < N) (hp : p.Prime) (hpN : ¬ p ∣ N) :
    ListsDivisors (l ++ (List.range' 1 e).flatMap (fun j => l.map (· * p ^ j))) (N * p ^ e) := by
  have heq : l ++ (List.range' 1 e).flatMap (fun j => l.map (· * p ^ j)) =
      (List.range' 0 (e + 1)).flatMap (fun j => l.map (· * p ^ j)) := by
    rw [List.range'_succ, List.flatMap_cons]
    simp
  rw [heq]
  have hinj : ∀ {a b i j : ℕ}, a ∣ N → b ∣ N → a * p ^ i = b * p ^ j → i ≤ j → i = j := by
    intro a b i j ha hb h hij
    by_contra hne
    have : a = b * p ^ (j - i) := by
      have h3 : p ^ j = p ^ (j - i) * p ^ i := by rw [← pow_add]; congr 1; omega
      rw [h3, ← mul_assoc] at h
      exact Nat.eq_of_mul_eq_mul_right (pow_pos hp.pos _) h
    refine hpN (dvd_trans ?_ ha)
    rw [this]
    exact Dvd.dvd.mul_left (dvd_pow_self p (by omega)) b
  constructor
  · rw [List.nodup_flatMap]
    constructor
    · intro j _
      refine hl.1.map ?_
      intro a b hab
      exact Nat.eq_of_mul_eq_mul_right (pow_pos hp.pos _) hab
    · refine List.Pairwise.imp_of_mem ?_ (List.pairwise_lt_range' )
      intro i j _ _ hij
      simp only [Function.onFun]
      intro x hx hy
      obtain ⟨a, ha, rfl⟩ := List.mem_map.mp hx
      obtain ⟨b, hb, hab⟩ := List.mem_map.mp hy
      have := hinj ((hl.2 a).mp ha) ((hl.2 b).mp hb) hab.symm hij.le
      omega
  · intro d
    rw [List.mem_flatMap]
    constructor
    · rintro ⟨j, hj, hd⟩
      obtain ⟨a, ha, rfl⟩ := List.mem_map.mp hd
      rw [List.mem_range'_1] at hj
      exact Nat.mul_dvd_mul ((hl.2 a).mp ha) (pow_dvd_pow p (by omega))
    · intro hd
      obtain ⟨a, b, ha, hb, rfl⟩ := (Nat.dvd_mul).mp hd
      obtain ⟨j, hj, rfl⟩ := (Nat.dvd_prime_pow hp).mp hb
      exact ⟨j, by rw [List.mem_range'_1]; omega, List.mem_map_of_mem (f := fun x => x * p ^ j) ((hl.2 a).mpr ha)⟩

theorem divisorsLoop_eq : ∀ (m : List (ℕ × ℕ)) (l : List ℕ) (N : ℕ), ListsDivisors l N → 0 < N →
    (∀ x ∈ m, x.1.Prime ∧ ¬ x.1 ∣ N) → Ordered m → N * product m < 2 ^ 64 →
    ∃ r, divisorsLoop m l = .ok r ∧ ListsDivisors r (N * product m)
  | [], l, N, hl, _, _, _, _ => ⟨l, rfl, by simpa [product] using hl⟩
  | (p, e) :: t, l, N, hl, hN, hm, ho, hb => by
    obtain ⟨hp, hpN⟩ := hm (p, e) List.mem_cons_self
    have hpr : product ((p, e) :: t) = p ^ e * product t := by simp [product]
    rw [hpr, ← mul_assoc] at hb
    have hpos : 0 < product t := by
      refine List.prod_pos ?_
      intro x hx
      obtain ⟨y, hy, rfl⟩ := List.mem_map.mp hx
      exact pow_pos (hm y (List.mem_cons_of_mem _ hy)).1.pos _
    have hle : N * p ^ e < 2 ^ 64 := lt_of_le_of_lt (Nat.le_mul_of_pos_right _ hpos) hb
    have hin : divisorsInner l p e 1 = .ok ((List.range' 1 e).flatMap (fun j => l.map (· * p ^ j))) := by
      refine divisorsInner_eq e 1 (fun j h1 h2 f hf => ?_)
      have hfN := (hl.2 f).mp hf
      refine ⟨Nat.pos_of_dvd_of_pos hfN hN, lt_of_le_of_lt ?_ hle⟩
      exact Nat.mul_le_mul (Nat.le_of_dvd hN hfN) (Nat.pow_le_pow_right hp.pos (by omega))
    have ho' := List.pairwise_cons.mp ho
    obtain ⟨r, h1, h2⟩ := divisorsLoop_eq t _ (N * p ^ e) (extend_divisors hl hN hp hpN (e := e))
      (Nat.mul_pos hN (pow_pos hp.pos _)) (fun x hx => by
        obtain ⟨g1, g2⟩ := hm x (List.mem_cons_of_mem _ hx)
        refine ⟨g1, fun hc => ?_⟩
        rcases g1.dvd_mul.mp hc with hc | hc
        · exact g2 hc
        · have := (Nat.prime_dvd_prime_iff_eq g1 hp).mp (g1.dvd_of_dvd_pow hc)
          have h3 := ho'.1 x.1 (List.mem_map_of_mem hx)
          simp only at h3
          omega) ho'.2 hb
    refine ⟨r, ?_, by rw [hpr, ← mul_assoc]; exact h2⟩
    rw [divisorsLoop, hin, Res.bind_ok]
    exact h1

theorem factorization_product_eq {m : List (ℕ × ℕ)} {n : ℕ} (h : IsFactorization m n) (hn : 0 < n) : product m = n := by
  have hnd : (m.map Prod.fst).Nodup := h.1.imp (fun h => h.ne)
  have hnd2 : m.Nodup := List.Nodup.of_map _ hnd
  have : product m = ∏ x ∈ m.toFinset, x.1 ^ x.2 := by
    rw [product, List.prod_toFinset _ hnd2]
  rw [this]
  conv_rhs => rw [← Nat.factorization_prod_pow_eq_self hn.ne']
  rw [Finsupp.prod, Nat.support_factorization]
  refine Finset.prod_bij (fun x _ => x.1) ?_ ?_ ?_ ?_
  · rintro ⟨p, e⟩ hx
    have := (h.2 p e).mp (List.mem_toFinset.mp hx)
    exact Nat.mem_primeFactors.mpr ⟨this.1, this.2.1, hn.ne'⟩
  · rintro ⟨p, e⟩ hx ⟨q, e'⟩ hy hpq
    simp only at hpq
    subst hpq
    have h1 := (h.2 p e).mp (List.mem_toFinset.mp hx)
    have h2 := (h.2 p e').mp (List.mem_toFinset.mp hy)
    rw [h1.2.2, h2.2.2]
  · intro p hp
    obtain ⟨h1, h2, _⟩ := Nat.mem_primeFactors.mp hp
    exact ⟨(p, n.factorization p), List.mem_toFinset.mpr ((h.2 _ _).mpr ⟨h1, h2, rfl⟩), rfl⟩
  · rintro ⟨p, e⟩ hx
    have := (h.2 p e).mp (List.mem_toFinset.mp hx)
    rw [← this.2.2]

/-- **C66** from any correct factorization of a `u64` the enumeration (which panics on overflow) returns, and it lists
every divisor exactly once -/
theorem C66_divisors_from_factorization (m : List (ℕ × ℕ)) (n : ℕ) (hn : 0 < n) (h64 : n < 2 ^ 64) (h : IsFactorization m n) :
    ∃ l, divisorsLoop m [1] = .ok l ∧ ListsDivisors l n := by
  obtain ⟨r, h1, h2⟩ := divisorsLoop_eq m [1] 1 ⟨by simp, by simp⟩ one_pos
    (fun x hx => ⟨((h.2 x.1 x.2).mp hx).1, by
      have := ((h.2 x.1 x.2).mp hx).1.one_lt
      rw [Nat.dvd_one]; omega⟩) h.1 (by rw [one_mul, factorization_product_eq h hn]; exact h64)
  rw [one_mul, factorization_product_eq h hn] at h2
  exact ⟨r, h1, h2⟩

/-- **C66** the whole program: if `factorize64` returns and the primality test makes no mistake below `2^64`, `divisors(n)`
returns exactly the divisors of `n`, each once -/
theorem C66_divisors (bld : Build) (hex : NoPseudoprimes bld) (rng : Rng) (fuel k n : ℕ) (hn : 1 ≤ n) (h64 : n < 2 ^ 64)
    (r : List (ℕ × ℕ) × ℕ) (h : factorize64 bld rng fuel k n = .ok r) :
    ∃ l, divisors bld rng fuel k n = .ok l ∧ ListsDivisors l n := by
  obtain ⟨l, h1, h2⟩ := C66_divisors_from_factorization r.1 n hn h64 (C45_factorize64_exact bld hex rng fuel k n hn h64 _ r.2 h)
  exact ⟨l, by rw [divisors, h, Res.bind_ok]; exact h1, h2⟩

/-- **C66** no assumption is needed for numbers below the square of the first prime beyond the table -/
theorem C66_divisors_small (bld : Build) (rng : Rng) (fuel k n : ℕ) (hn : 1 ≤ n) (hlt : n < smallPrimesNext bld) (hf : 1 ≤ fuel) :
    ∃ l, divisors bld rng fuel k n = .ok l ∧ ListsDivisors l n := by
  have hN := smallPrimesNext_le bld
  have h2 := smallPrimesNext_prime bld
  have h64 : n < 2 ^ 64 := by omega
  obtain ⟨m, h, hm⟩ := C45_factorize64_smooth bld rng fuel k n hn h64 hf (by
    intro p q hp hq h1 h2 hd
    have := Nat.le_of_dvd hn hd
    have := Nat.le_mul_of_pos_right p hq.pos
    omega)
  obtain ⟨l, h1, h2⟩ := C66_divisors_from_factorization m n hn h64 (hm (C68_table_exact bld n hlt).mp)
  exact ⟨l, by rw [divisors, h, Res.bind_ok]; exact h1, h2⟩

example : divisorsLoop [(2, 2), (3, 1)] [1] = .ok [1, 2, 4, 3, 6, 12] := by decide +kernel
example : divisors .big exampleRng 5 0 360 = .ok [1, 2, 4, 8, 3, 6, 12, 24, 9, 18, 36, 72, 5, 10, 20, 40, 15, 30, 60, 120,
    45, 90, 180, 360] := by decide +kernel

/-! ## C67 -/

theorem sumPow_eq (z : ℕ) : ∀ (l : List ℕ) (s : ℕ), s < 2 ^ 64 → sumPow z l s =
    if s + (l.map (· ^ z)).sum < 2 ^ 64 then .ok (s + (l.map (· ^ z)).sum) else .panic
  | [], s, hs => by rw [sumPow]; simp only [List.map_nil, List.sum_nil, add_zero]; rw [if_pos hs]
  | d :: t, s, hs => by
    rw [sumPow, cpow]
    simp only [List.map_cons, List.sum_cons, ← add_assoc]
    by_cases h1 : d ^ z < 2 ^ 64
    · rw [if_pos (by simpa [fits] using h1), Res.bind_ok, cadd]
      by_cases h2 : s + d ^ z < 2 ^ 64
      · rw [if_pos (by simpa [fits] using h2), Res.bind_ok]
        exact sumPow_eq z t _ h2
      · rw [if_neg (by simpa [fits] using h2), if_neg (by omega)]
        rfl
    · rw [if_neg (by simpa [fits] using h1), if_neg (by omega)]
      rfl

theorem ListsDivisors.sum_pow {l : List ℕ} {n : ℕ} (h : ListsDivisors l n) (hn : 0 < n) (z : ℕ) :
    (l.map (· ^ z)).sum = ArithmeticFunction.sigma z n := by
  rw [ArithmeticFunction.sigma_apply]
  have : l.toFinset = n.divisors := by
    ext d
    rw [List.mem_toFinset, h.2, Nat.mem_divisors]
    exact ⟨fun h => ⟨h, hn.ne'⟩, fun h => h.1⟩
  rw [← this, List.sum_toFinset _ h.1]

/-- **C67** `divisor_sigma(n, z)` returns `σ_z(n)` when it fits a `u64`, and panics otherwise -/
theorem C67_divisor_sigma (bld : Build) (hex : NoPseudoprimes bld) (rng : Rng) (fuel k n z : ℕ) (hn : 1 ≤ n) (h64 : n < 2 ^ 64)
    (r : List (ℕ × ℕ) × ℕ) (h : factorize64 bld rng fuel k n = .ok r) :
    divisorSigma bld rng fuel k n z =
      if ArithmeticFunction.sigma z n < 2 ^ 64 then .ok (ArithmeticFunction.sigma z n) else .panic := by
  obtain ⟨l, h1, h2⟩ := C66_divisors bld hex rng fuel k n hn h64 r h
  rw [divisorSigma, h1, Res.bind_ok, sumPow_eq z l 0 (by norm_num), zero_add, h2.sum_pow hn z]

/-- **C67** from any correct factorization of a `u64` -/
theorem C67_divisor_sigma_from_factorization (m : List (ℕ × ℕ)) (n z : ℕ) (hn : 0 < n) (h64 : n < 2 ^ 64)
    (h : IsFactorization m n) : (divisorsLoop m [1] >>= fun l => sumPow z l 0) =
      if ArithmeticFunction.sigma z n < 2 ^ 64 then .ok (ArithmeticFunction.sigma z n) else .panic := by
  obtain ⟨l, h1, h2⟩ := C66_divisors_from_factorization m n hn h64 h
  rw [h1, Res.bind_ok, sumPow_eq z l 0 (by norm_num), zero_add, h2.sum_pow hn z]

theorem factorization_omega {m : List (ℕ × ℕ)} {n : ℕ} (h : IsFactorization m n) (hn : 0 < n) :
    m.length = ArithmeticFunction.cardDistinctFactors n ∧ (m.map Prod.snd).sum = ArithmeticFunction.cardFactors n := by
  have hnd : (m.map Prod.fst).Nodup := h.1.imp (fun h => h.ne)
  have hnd2 : m.Nodup := List.Nodup.of_map _ hnd
  have hset : (m.map Prod.fst).toFinset = n.primeFactors := by
    ext p
    rw [List.mem_toFinset, List.mem_map, Nat.mem_primeFactors]
    constructor
    · rintro ⟨⟨q, e⟩, hq, rfl⟩
      have := (h.2 q e).mp hq
      exact ⟨this.1, this.2.1, hn.ne'⟩
    · rintro ⟨h1, h2, _⟩
      exact ⟨(p, n.factorization p), (h.2 _ _).mpr ⟨h1, h2, rfl⟩, rfl⟩
  constructor
  · rw [ArithmeticFunction.cardDistinctFactors_apply]
    have : m.length = (m.map Prod.fst).toFinset.card := by rw [List.toFinset_card_of_nodup hnd, List.length_map]
    rw [this, hset]
    rfl
  · have h1 : (m.map Prod.snd) = (m.map Prod.fst).map n.factorization := by
      rw [List.map_map]
      refine List.map_congr_left ?_
      rintro ⟨p, e⟩ hx
      exact ((h.2 p e).mp hx).2.2
    rw [h1, ← List.sum_toFinset _ hnd, hset, ArithmeticFunction.cardFactors_eq_sum_factorization]
    rfl

/-- **C67** `prime_omega(n)` is `ω(n)`, `prime_Omega(n)` is `Ω(n)` -/
theorem C67_prime_omega (bld : Build) (hex : NoPseudoprimes bld) (rng : Rng) (fuel k n : ℕ) (hn : 1 ≤ n) (h64 : n < 2 ^ 64)
    (r : List (ℕ × ℕ) × ℕ) (h : factorize64 bld rng fuel k n = .ok r) :
    primeOmega bld rng fuel k n = .ok (ArithmeticFunction.cardDistinctFactors n) ∧
    primeBigOmega bld rng fuel k n = .ok (ArithmeticFunction.cardFactors n) := by
  obtain ⟨h1, h2⟩ := factorization_omega (C45_factorize64_exact bld hex rng fuel k n hn h64 r.1 r.2 h) hn
  rw [primeOmega, primeBigOmega, h]
  exact ⟨by rw [← h1]; rfl, by rw [← h2]; rfl⟩

/-- **C67** from any correct factorization -/
theorem C67_prime_omega_from_factorization (m : List (ℕ × ℕ)) (n : ℕ) (hn : 0 < n) (h : IsFactorization m n) :
    m.length = ArithmeticFunction.cardDistinctFactors n ∧ (m.map Prod.snd).sum = ArithmeticFunction.cardFactors n :=
  factorization_omega h hn

example : divisorSigma .big exampleRng 5 0 360 1 = .ok 1170 := by decide +kernel
example : divisorSigma .big exampleRng 5 0 (2 ^ 40) 2 = .panic := by decide +kernel
example : primeOmega .big exampleRng 5 0 360 = .ok 3 ∧ primeBigOmega .big exampleRng 5 0 360 = .ok 6 := by decide +kernel

/-! ## C73: the Mersenne prime example -/

theorem mersenne_primes : ∀ p ∈ [2, 3, 5, 7, 13, 17, 19, 31, 61, 89, 107, 127], (mersenne p).Prime := by
  intro p hp
  simp only [List.mem_cons, List.not_mem_nil, or_false] at hp
  rcases hp with rfl | rfl | rfl | rfl | rfl | rfl | rfl | rfl | rfl | rfl | rfl | rfl
  · norm_num [mersenne]
  all_goals exact lucas_lehmer_sufficiency _ (by norm_num) (by norm_num)

/-- numbers `2^p - 1` that are rejected whatever the random values are -/
theorem mersenne_rejected (bld : Build) : ∀ p ∈ [11, 23, 29, 37, 41, 43, 47, 53, 59, 67, 71, 73, 79, 83, 97, 101, 103, 109, 113],
    ∀ draws r, isPrimeNew bld (some 128) (2 ^ p - 1) none draws = .ok r → r.probably = false := by
  intro p hp draws r h
  by_contra hr
  have hr : r.probably = true := by simpa using hr
  by_cases h64 : 2 ^ p - 1 < 2 ^ 64
  · rw [isPrimeNew, isPrime_below bld _ _ h64] at h
    have : isPrime64 bld (2 ^ p - 1) = false := by
      have hall : ∀ p ∈ [11, 23, 29, 37, 41, 43, 47, 53, 59, 67, 71, 73, 79, 83, 97, 101, 103, 109, 113],
          2 ^ p - 1 < 2 ^ 64 → isPrime64 bld (2 ^ p - 1) = false := by cases bld <;> decide +kernel
      exact hall p hp h64
    rw [this] at h
    injection h with h
    rw [← h] at hr
    simp [Primality.probably] at hr
  · have hall : ∀ p ∈ [11, 23, 29, 37, 41, 43, 47, 53, 59, 67, 71, 73, 79, 83, 97, 101, 103, 109, 113],
        ¬ 2 ^ p - 1 < 2 ^ 64 → fits (some 128) (2 ^ p - 1) = true ∧ isSprp (some 128) (2 ^ p - 1) 3 = .ok false ∧
          3 ∈ (smallPrimes bld).take 2 := by
      cases bld <;> decide +kernel
    obtain ⟨h1, h2, h3⟩ := hall p hp h64
    have h4 : isPrime bld (some 128) (smallPrimes bld) (2 ^ p - 1) (some .default) draws = .ok r := h
    obtain ⟨g1, g2, _⟩ := C16_accepted_passes bld (some 128) (Or.inr ⟨128, by simp, rfl⟩) _ _ h1 (by omega) .default draws r h4 hr
    obtain ⟨v, e1, e2⟩ := isSprp_verdict (w := some 128) (by omega) g1 h1 3
    rw [h2] at e1
    injection e1 with e1
    have := e2.mpr (g2 3 h3)
    rw [← e1] at this
    simp at this

theorem mersenneFilter_mem {bld : Build} {draws : ℕ → List ℕ} : ∀ (l r : List ℕ), mersenneFilter bld draws l = .ok r →
    ∀ p, p ∈ r ↔ p ∈ l ∧ ∃ v, isPrimeNew bld (some 128) (2 ^ p - 1) none (draws (2 ^ p - 1)) = .ok v ∧ v.probably = true
  | [], r, h, p => by
    simp only [mersenneFilter, Res.ok.injEq] at h
    subst h
    simp
  | q :: t, r, h, p => by
    simp only [mersenneFilter, Res.bind_eq_ok] at h
    obtain ⟨m, h1, n, h2, v, h3, l, h4, h5⟩ := h
    have hm := cpow_ok h1
    have hn : n = 2 ^ q - 1 := by
      unfold csub at h2
      split at h2
      · injection h2 with h2; omega
      · simp at h2
    subst hn
    simp only [Res.pure_def, Res.ok.injEq] at h5
    have ih := mersenneFilter_mem t l h4 p
    rw [← h5]
    by_cases hv : v.probably = true
    · simp only [hv, if_true, List.mem_cons, ih]
      constructor
      · rintro (rfl | ⟨a, b⟩)
        · exact ⟨Or.inl rfl, v, h3, hv⟩
        · exact ⟨Or.inr a, b⟩
      · rintro ⟨rfl | a, b⟩
        · exact Or.inl rfl
        · exact Or.inr ⟨a, b⟩
    · simp only [hv, if_false, Bool.false_eq_true, List.mem_cons, ih]
      constructor
      · rintro ⟨a, b⟩
        exact ⟨Or.inr a, b⟩
      · rintro ⟨rfl | a, v', b1, b2⟩
        · rw [h3] at b1
          injection b1 with b1
          exact absurd (b1 ▸ b2) hv
        · exact ⟨a, v', b1, b2⟩

theorem primes128 (bld : Build) : (Buf.new bld).intoPrimes 128 = .ok [2, 3, 5, 7, 11, 13, 17, 19, 23, 29, 31, 37, 41, 43, 47,
    53, 59, 61, 67, 71, 73, 79, 83, 89, 97, 101, 103, 107, 109, 113, 127] := by cases bld <;> decide +kernel

/-- **C73** whatever non-zero values the random generator produces: if the example returns a list, it consists of exactly
the exponents `p < 128` for which `2^p - 1` is prime -/
theorem C73_mersenne (bld : Build) (draws : ℕ → List ℕ) (hdr : GoodDraws draws) (l : List ℕ)
    (h : listMersenne bld draws = .ok l) (p : ℕ) : p ∈ l ↔ p < 128 ∧ (mersenne p).Prime := by
  rw [listMersenne, primes128, Res.bind_ok] at h
  rw [mersenneFilter_mem _ _ h]
  have hw : p < 128 → fits (some 128) (2 ^ p - 1) = true := by
    intro hp
    have : 2 ^ p < 2 ^ 128 := Nat.pow_lt_pow_right (by norm_num) hp
    simp only [fits, decide_eq_true_eq]
    omega
  constructor
  · rintro ⟨hp, v, h1, h2⟩
    by_cases hc : p ∈ [2, 3, 5, 7, 13, 17, 19, 31, 61, 89, 107, 127]
    · refine ⟨?_, mersenne_primes p hc⟩
      simp only [List.mem_cons, List.not_mem_nil, or_false] at hc
      omega
    · have : p ∈ [11, 23, 29, 37, 41, 43, 47, 53, 59, 67, 71, 73, 79, 83, 97, 101, 103, 109, 113] := by
        simp only [List.mem_cons, List.not_mem_nil, or_false] at hc hp ⊢
        omega
      rw [mersenne_rejected bld p this _ v h1] at h2
      simp at h2
  · rintro ⟨h1, h2⟩
    have hpp : p.Prime := h2.of_mersenne
    have hmem : p ∈ [2, 3, 5, 7, 11, 13, 17, 19, 23, 29, 31, 37, 41, 43, 47,
        53, 59, 61, 67, 71, 73, 79, 83, 89, 97, 101, 103, 107, 109, 113, 127] := by
      have hall : ∀ p < 128, p.Prime → p ∈ [2, 3, 5, 7, 11, 13, 17, 19, 23, 29, 31, 37, 41, 43, 47,
        53, 59, 61, 67, 71, 73, 79, 83, 89, 97, 101, 103, 107, 109, 113, 127] := by decide +kernel
      exact hall p h1 hpp
    refine ⟨hmem, ?_⟩
    -- the filter has evaluated the test of `2^p - 1`
    have hex : ∀ (t r : List ℕ), mersenneFilter bld draws t = .ok r → ∀ q ∈ t,
        ∃ v, isPrimeNew bld (some 128) (2 ^ q - 1) none (draws (2 ^ q - 1)) = .ok v := by
      intro t
      induction t with
      | nil => intro r _ q hq; simp at hq
      | cons x t ih =>
        intro r hr q hq
        simp only [mersenneFilter, Res.bind_eq_ok] at hr
        obtain ⟨m, h1, n, h2, v, h3, l', h4, _⟩ := hr
        have hm := cpow_ok h1
        have hn : n = 2 ^ x - 1 := by
          unfold csub at h2
          split at h2
          · injection h2 with h2; omega
          · simp at h2
        subst hn
        rcases List.mem_cons.mp hq with rfl | hq
        · exact ⟨v, h3⟩
        · exact ih l' h4 q hq
    obtain ⟨v, hv⟩ := hex _ _ h p hmem
    exact ⟨v, hv, isPrimeNew_prime bld (Or.inr ⟨128, by simp, rfl⟩) h2 (hw h1) none (hdr _) hv⟩

/-- **C73** the example returns, as soon as the random generator produces enough different values -/
theorem C73_mersenne_returns (bld : Build) (draws : ℕ → List ℕ)
    (hen : ∀ t, 3 ≤ ((draws t).toFinset \ ((smallPrimes bld).take 2).toFinset).card) : ∃ l, listMersenne bld draws = .ok l := by
  rw [listMersenne, primes128, Res.bind_ok]
  have key : ∀ t : List ℕ, (∀ p ∈ t, p < 128) → ∃ l, mersenneFilter bld draws t = .ok l := by
    intro t
    induction t with
    | nil => intro _; exact ⟨_, rfl⟩
    | cons x t ih =>
      intro ht
      obtain ⟨l, hl⟩ := ih (fun p hp => ht p (List.mem_cons_of_mem _ hp))
      have hx : 2 ^ x < 2 ^ 128 := Nat.pow_lt_pow_right (by norm_num) (ht x List.mem_cons_self)
      have h1 : cpow (some 128) 2 x = .ok (2 ^ x) := if_pos (by simpa [fits] using hx)
      have h2 : csub (2 ^ x) 1 = .ok (2 ^ x - 1) := if_pos Nat.one_le_two_pow
      have hw : fits (some 128) (2 ^ x - 1) = true := by
        simp only [fits, decide_eq_true_eq]; omega
      obtain ⟨v, hv⟩ := C14_is_prime_returns bld (some 128) (Or.inr ⟨128, by simp, rfl⟩) (smallPrimes bld) (2 ^ x - 1) hw none
        (draws (2 ^ x - 1)) (hen _)
      refine ⟨if v.probably then x :: l else l, ?_⟩
      rw [mersenneFilter, h1, Res.bind_ok, h2, Res.bind_ok, isPrimeNew, hv, Res.bind_ok, hl, Res.bind_ok]
      rfl
  exact key _ (by decide)

example : listMersenne .big (fun _ => [5, 7, 11]) = .ok [2, 3, 5, 7, 13, 17, 19, 31, 61, 89, 107, 127] := by decide +kernel

end NumPrime
