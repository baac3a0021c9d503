import Verif.Proofs.Legendre
import Verif.Props.Buffer
import Verif.Props.NextPrime

/-! # Prime counting: loops of `prime_phi`, `prime_pi` and `nth_prime` -/

namespace NumPrime
open Spec

local notation "nth" => Nat.nth Nat.Prime
local notation "π" => Nat.primeCounting

/-- if the computation returns, its result satisfies `Q`; under the assumption `s` it does return -/
def WP {α : Type} (s : Prop) (r : Res α) (Q : α → Prop) : Prop :=
  (∀ a, r = .ok a → Q a) ∧ (s → ∃ a, r = .ok a)

theorem WP.ok {α : Type} {s : Prop} {a : α} {Q : α → Prop} (h : Q a) : WP s (.ok a) Q :=
  ⟨fun b hb => by injection hb with hb; exact hb ▸ h, fun _ => ⟨a, rfl⟩⟩

theorem WP.fail {α : Type} {s : Prop} {Q : α → Prop} {r : Res α} (h : ∀ a, r ≠ .ok a) (hs : ¬ s) : WP s r Q :=
  ⟨fun a ha => absurd ha (h a), fun h => absurd h hs⟩

theorem WP.mono {α : Type} {s : Prop} {r : Res α} {Q Q' : α → Prop} (h : WP s r Q) (hq : ∀ a, Q a → Q' a) : WP s r Q' :=
  ⟨fun a ha => hq a (h.1 a ha), h.2⟩

theorem WP.bind {α β : Type} {s : Prop} {r : Res α} {f : α → Res β} {P : α → Prop} {Q : β → Prop} (h : WP s r P)
    (hf : ∀ a, P a → WP s (f a) Q) : WP s (r >>= f) Q := by
  constructor
  · intro b hb
    obtain ⟨a, h1, h2⟩ := Res.bind_eq_ok.mp hb
    exact (hf a (h.1 a h1)).1 b h2
  · intro hs
    obtain ⟨a, ha⟩ := h.2 hs
    obtain ⟨b, hb⟩ := (hf a (h.1 a ha)).2 hs
    exact ⟨b, Res.bind_eq_ok.mpr ⟨a, ha, hb⟩⟩

/-- what is known of the buffer during a computation: the invariant and, where a result is guaranteed, that the squares of
its primes fit `u64` -/
def BI (s : Prop) (b : Buf) : Prop := b.Inv ∧ (s → b.Safe)

def PiAt (s : Prop) (pi : Buf → ℕ → Res (ℕ × Buf)) (x : ℕ) : Prop :=
  ∀ b, BI s b → WP s (pi b x) (fun r => r.1 = π x ∧ BI s r.2)

def NthAt (s : Prop) (f : Buf → ℕ → Res (ℕ × Buf)) (n : ℕ) : Prop :=
  ∀ b, BI s b → WP s (f b n) (fun r => r.1 = nthPrime n ∧ BI s r.2)

/-! ## prime_phi -/

/-- every cached value is a value of the function -/
def CacheOK (c : Cache) : Prop := ∀ e ∈ c.items, e.2 = legendrePhi e.1.1 e.1.2

theorem Cache.get_some {c c' : Cache} {k : ℕ × ℕ} {v : ℕ} (h : c.get k = some (v, c')) (hc : CacheOK c) :
    v = legendrePhi k.1 k.2 ∧ CacheOK c' := by
  unfold Cache.get at h
  cases hf : c.items.find? (fun e => e.1 == k) with
  | none => rw [hf] at h; simp at h
  | some e =>
    rw [hf] at h
    simp only [Option.some.injEq, Prod.mk.injEq] at h
    obtain ⟨rfl, rfl⟩ := h
    have h1 : e.1 = k := by simpa using List.find?_some hf
    have h2 := List.mem_of_find?_eq_some hf
    refine ⟨by rw [hc e h2, h1], ?_⟩
    intro e' he'
    simp only [List.mem_cons, List.mem_filter] at he'
    rcases he' with rfl | he'
    · exact hc _ h2
    · exact hc _ he'.1

theorem Cache.put_ok {c : Cache} {k : ℕ × ℕ} {v : ℕ} (hc : CacheOK c) (hv : v = legendrePhi k.1 k.2) :
    CacheOK (c.put k v) := by
  intro e he
  have he := List.mem_of_mem_take he
  simp only [List.mem_cons, List.mem_filter] at he
  rcases he with rfl | he
  · exact hv
  · exact hc _ he.1

theorem primePhiWith_wp {s : Prop} {f : Buf → ℕ → Res (ℕ × Buf)} : ∀ (a : ℕ) (b : Buf) (c : Cache) (x : ℕ), 1 ≤ a →
    (∀ n, 1 ≤ n → n ≤ a → NthAt s f n) → BI s b → CacheOK c → (s → x + 1 < 2 ^ 64) →
    WP s (primePhiWith f a b c x) (fun r => r.1 = legendrePhi x a ∧ BI s r.2.1 ∧ CacheOK r.2.2) := by
  intro a
  induction a with
  | zero => intro b c x h; omega
  | succ a ih =>
    intro b c x _ hn hb hc hx
    simp only [primePhiWith]
    by_cases ha : a + 1 = 1
    · simp only [ha, if_true]
      refine WP.bind (P := fun r => r = x + 1) ⟨fun r hr => ?_, fun hs => ⟨_, cadd_ok (fits_some.mpr (hx hs))⟩⟩ ?_
      · unfold cadd at hr
        split at hr
        · injection hr with hr; exact hr.symm
        · simp at hr
      · rintro _ rfl
        refine WP.ok ⟨?_, hb, hc⟩
        simp only [phi_one]
    · rw [if_neg ha]
      cases hg : c.get (x, a + 1) with
      | some r =>
        obtain ⟨v, c'⟩ := r
        obtain ⟨h1, h2⟩ := Cache.get_some hg hc
        exact WP.ok ⟨h1, hb, h2⟩
      | none =>
        refine WP.bind (ih b c x (by omega) (fun n h1 h2 => hn n h1 (by omega)) hb hc hx) ?_
        rintro ⟨t1, b, c⟩ ⟨h1, hb, hc⟩
        refine WP.bind (hn (a + 1) (by omega) le_rfl b hb) ?_
        rintro ⟨p, b⟩ ⟨h2, hb⟩
        simp only at h1 h2 hb hc
        have hp : p = nth a := by rw [h2]; rfl
        have hpos : 0 < p := by rw [hp]; exact (nth_prime_prime a).pos
        dsimp only
        rw [cdiv_ok (by omega), Res.bind_ok]
        refine WP.bind (ih b c (x / p) (by omega) (fun n h1 h2 => hn n h1 (by omega)) hb hc (fun hs => ?_)) ?_
        · have := hx hs
          have := Nat.div_le_self x p
          omega
        · rintro ⟨t2, b, c⟩ ⟨h3, hb, hc⟩
          simp only at h3 hb hc
          have hrec := phi_rec x a
          rw [← hp, ← h1, ← h3] at hrec
          dsimp only
          rw [csub_ok (by omega), Res.bind_ok]
          refine WP.ok ⟨by simp only; omega, hb, ?_⟩
          exact Cache.put_ok hc (by simp only; omega)

/-! ## prime_pi -/

theorem rangeStep_one (a b : ℕ) : rangeStep a b 1 = List.range' a (b - a) := by
  simp [rangeStep, List.range'_eq_map_range]

theorem piInner_wp {s : Prop} {pi f : Buf → ℕ → Res (ℕ × Buf)} {w R : ℕ} : ∀ (n k : ℕ) (b : Buf) (sum : ℕ), BI s b →
    (∀ j, k ≤ j → j < k + n → PiAt s pi (w / nth j)) →
    (∀ j, k ≤ j → j < k + n → NthAt s f (j + 1)) → sum = R + ∑ j ∈ Finset.Ico k (k + n), π (w / nth j) →
    WP s (piInner pi f w (List.range' (k + 1) n) b sum) (fun r => r.1 = R ∧ BI s r.2) := by
  intro n
  induction n with
  | zero =>
    intro k b sum hb _ _ hs
    simp only [add_zero, Finset.Ico_self, Finset.sum_empty] at hs
    exact WP.ok ⟨hs, hb⟩
  | succ n ih =>
    intro k b sum hb hpi hn hs
    rw [List.range'_succ, piInner]
    refine WP.bind (hn k le_rfl (by omega) b hb) ?_
    rintro ⟨p, b⟩ ⟨h1, hb⟩
    have hp : p = nth k := h1
    have hpos : 0 < p := by rw [hp]; exact (nth_prime_prime k).pos
    dsimp only
    rw [cdiv_ok (by omega), Res.bind_ok]
    refine WP.bind (hpi k le_rfl (by omega) |> fun h => by rw [← hp] at h; exact h b hb) ?_
    rintro ⟨v, b⟩ ⟨h2, hb⟩
    simp only at h2 hb
    rw [Finset.sum_eq_sum_Ico_succ_bot (by omega), ← hp] at hs
    dsimp only
    rw [csub_ok (by omega), Res.bind_ok]
    refine ih (k + 1) b _ hb (fun j h1 h2 => hpi j (by omega) (by omega))
      (fun j h1 h2 => hn j (by omega) (by omega)) ?_
    rw [show k + (n + 1) = k + 1 + n by omega] at hs
    omega

theorem lt_pi_icbrt {x i : ℕ} : i < π (icbrt x) ↔ nth i ^ 3 ≤ x := by
  obtain ⟨h1, h2⟩ := icbrt_spec x
  rw [← nth_le_iff]
  constructor
  · intro h
    exact (Nat.pow_le_pow_left h 3).trans h1
  · intro h
    by_contra hc
    have : (icbrt x + 1) ^ 3 ≤ nth i ^ 3 := Nat.pow_le_pow_left (by omega) 3
    omega

theorem pi_sqrt_le {w : ℕ} (h : w < 2 ^ 64) : π (Nat.sqrt w) ≤ 2 ^ 31 := by
  have h1 : Nat.sqrt w < 2 ^ 32 := by
    rw [Nat.sqrt_lt']
    exact h
  have := primeCounting_le_half (Nat.sqrt w)
  omega

theorem piOuter_wp {s : Prop} {pi f : Buf → ℕ → Res (ℕ × Buf)} {x : ℕ} (hx : x < 2 ^ 64)
    (hpi : ∀ y < x, PiAt s pi y)
    (hn : ∀ j < π (Nat.sqrt x), NthAt s f (j + 1)) : ∀ (n k : ℕ) (b : Buf) (sum : ℕ), k + n = π (Nat.sqrt x) → 2 ≤ k →
    x < nth k ^ 4 → BI s b →
    sum = π x + ∑ i ∈ Finset.Ico k (π (Nat.sqrt x)), (legendrePhi (x / nth i) i + i - 1) → sum ≤ 2 ^ 63 + 2 ^ 62 →
    WP s (piOuter pi f x (π (icbrt x)) (List.range' (k + 1) n) b sum) (fun r => r.1 = π x ∧ BI s r.2) := by
  intro n
  induction n with
  | zero =>
    intro k b sum hk _ _ hb hs _
    simp only [add_zero] at hk
    rw [hk, Finset.Ico_self, Finset.sum_empty] at hs
    exact WP.ok ⟨hs, hb⟩
  | succ n ih =>
    intro k b sum hk h2k h4 hb hs hbd
    have hkB : k < π (Nat.sqrt x) := by omega
    have hsq := sq_le_of_lt_pi hkB
    have hp2 := (nth_prime_prime k).two_le
    rw [List.range'_succ, piOuter]
    refine WP.bind (hn k hkB b hb) ?_
    rintro ⟨p, b⟩ ⟨h1, hb⟩
    have hp : p = nth k := h1
    simp only at hb
    dsimp only
    rw [cdiv_ok (by omega), Res.bind_ok]
    have hwx : x / p < x := by
      rw [hp]
      exact Nat.div_lt_self (by nlinarith) (by omega)
    have hw1 : 1 ≤ x / p := by
      rw [hp, Nat.one_le_div_iff (by omega)]
      nlinarith
    refine WP.bind (hpi _ hwx b hb) ?_
    rintro ⟨v, b⟩ ⟨h2, hb⟩
    simp only at h2 hb
    rw [Finset.sum_eq_sum_Ico_succ_bot hkB, ← hp] at hs
    have h4' : x < nth (k + 1) ^ 4 :=
      lt_of_lt_of_le h4 (Nat.pow_le_pow_left ((Nat.nth_strictMono infinite_primes).monotone (by omega)) 4)
    have hpos := phi_pos hw1 k
    dsimp only
    by_cases hc : k + 1 ≤ π (icbrt x)
    · obtain ⟨hkl, hT⟩ := phi_within (lt_pi_icbrt.mp hc) h4
      rw [← hp] at hkl hT
      have hDle : π (x / p) ≤ legendrePhi (x / p) k + k - 1 := by
        have : ∑ j ∈ Finset.Ico k (π (Nat.sqrt (x / p))), j ≤
            ∑ j ∈ Finset.Ico k (π (Nat.sqrt (x / p))), π (x / p / nth j) := by
          apply Finset.sum_le_sum
          intro j hj
          rw [Finset.mem_Ico] at hj
          exact (lt_pi_div hj.2).le
        omega
      rw [csub_ok (by omega), Res.bind_ok, if_pos hc]
      have hsw : Nat.sqrt (x / p) < x := lt_of_le_of_lt (Nat.sqrt_le_self _) hwx
      rw [isqrt_eq]
      refine WP.bind (hpi _ hsw b hb) ?_
      rintro ⟨l, b⟩ ⟨h3, hb⟩
      simp only at h3 hb
      rw [← h3] at hkl hT
      have hl31 : l ≤ 2 ^ 31 := by rw [h3]; exact pi_sqrt_le (by omega)
      have hlB : l ≤ π (Nat.sqrt x) := by
        rw [h3]; exact Nat.monotone_primeCounting (Nat.sqrt_le_sqrt (by omega))
      obtain ⟨o1, o2, o3⟩ := offset_eq (k := k + 1) (l := l) (by omega) (by omega)
      have hll : l * (l - 1) ≤ 2 ^ 31 * 2 ^ 31 := Nat.mul_le_mul hl31 (by omega)
      dsimp only
      rw [csub_ok (by omega), Res.bind_ok, cmul_ok (fits_some.mpr (by omega)), Res.bind_ok, csub_ok (by omega), Res.bind_ok,
        cmul_ok (fits_some.mpr (by omega)), Res.bind_ok, csub_ok o1, Res.bind_ok, csub_ok o2, Res.bind_ok, o3]
      have hk1 : k + 1 - 1 = k := by omega
      rw [hk1] at o3 ⊢
      have hd : ∑ j ∈ Finset.Ico k l, j ≤ 2 ^ 61 := by rw [← o3]; omega
      rw [cadd_ok (fits_some.mpr (by omega)), Res.bind_ok, rangeStep_one, show l + 1 - (k + 1) = l - k by omega]
      refine WP.bind (piInner_wp (R := π x + ∑ i ∈ Finset.Ico (k + 1) (π (Nat.sqrt x)), (legendrePhi (x / nth i) i + i - 1))
        (l - k) k b _ hb ?_ ?_ ?_) ?_
      · intro j _ _
        refine hpi _ (lt_of_le_of_lt (Nat.div_le_self _ _) hwx)
      · intro j _ _
        exact hn j (by omega)
      · rw [show k + (l - k) = l by omega]
        omega
      · rintro ⟨sum', b⟩ ⟨h5, hb⟩
        simp only at h5 hb
        refine ih (k + 1) b _ (by omega) (by omega) h4' hb h5 ?_
        omega
    · have hT := phi_beyond hkB (by
        by_contra hcc
        exact hc (lt_pi_icbrt.mpr (by omega)))
      rw [← hp] at hT
      rw [csub_ok (by omega), Res.bind_ok, if_neg hc]
      refine ih (k + 1) b _ (by omega) (by omega) h4' hb ?_ ?_ <;> omega

/-! ## nth_prime -/

/-- enough rounds for `prev_prime` and `next_prime` on every `u64`, and for the walks of `nth_prime` -/
structure EnoughFuel (bld : Build) (g : ℕ) : Prop where
  prev : ∀ n, 2 < n → n < 2 ^ 64 → ∃ r, prevPrime bld (some 64) n none (fun _ => []) g = .ok (some r)
  next : ∀ n, 256 ≤ n → n < 2 ^ 64 → ∃ r, nextPrime bld (some 64) n none (fun _ => []) g = .ok r
  ge : 2 ^ 65 ≤ g

theorem uniform_fuel {P : ℕ → ℕ → Prop} {N : ℕ} (h : ∀ n < N, ∃ F, ∀ g, F ≤ g → P n g) :
    ∃ F, ∀ g, F ≤ g → ∀ n < N, P n g := by
  induction N with
  | zero => exact ⟨0, fun _ _ n hn => by omega⟩
  | succ N ih =>
    obtain ⟨F, hF⟩ := ih (fun n hn => h n (by omega))
    obtain ⟨F', hF'⟩ := h N (by omega)
    refine ⟨max F F', fun g hg n hn => ?_⟩
    rcases Nat.lt_succ_iff_lt_or_eq.mp hn with h1 | h1
    · exact hF g (by omega) n h1
    · rw [h1]; exact hF' g (by omega)

theorem std64 : StdWidth (some 64) := Or.inr ⟨64, by simp, rfl⟩

theorem no_draws : GoodDraws (fun _ => []) := fun _ _ h => by simp at h

theorem exists_fuel (bld : Build) : ∃ F, ∀ g, F ≤ g → EnoughFuel bld g := by
  obtain ⟨F1, h1⟩ := uniform_fuel (N := 2 ^ 64)
    (P := fun n g => 2 < n → ∃ r, prevPrime bld (some 64) n none (fun _ => []) g = .ok (some r)) (by
      intro n hn
      by_cases h2 : 2 < n
      · obtain ⟨r, F, h, _⟩ := prevPrime_u64 bld (some 64) n h2 hn none (fun _ => [])
        exact ⟨F, fun g hg _ => ⟨r, h g hg⟩⟩
      · exact ⟨0, fun _ _ h => absurd h h2⟩)
  obtain ⟨F2, h2⟩ := uniform_fuel (N := 2 ^ 64)
    (P := fun n g => 256 ≤ n → ∃ r, nextPrime bld (some 64) n none (fun _ => []) g = .ok r) (by
      intro n hn
      by_cases h2 : 256 ≤ n
      · obtain ⟨r, F, h⟩ := nextPrime_returns bld (some 64) std64 n none (fun _ => []) no_draws
          (fun t ht => by rw [isPrimeNew, isPrime_below bld _ _ (fits_some.mp ht)]; simp) (fun _ => by omega)
        exact ⟨F, fun g hg _ => ⟨r, h g hg⟩⟩
      · exact ⟨0, fun _ _ h => absurd h h2⟩)
  refine ⟨max (max F1 F2) (2 ^ 65), fun g hg => ⟨fun n a b => ?_, fun n a b => ?_, ?_⟩⟩
  · exact h1 g (le_trans (le_trans (le_max_left _ _) (le_max_left _ _)) hg) n b a
  · exact h2 g (le_trans (le_trans (le_max_right _ _) (le_max_left _ _)) hg) n b a
  · exact le_trans (le_max_right _ _) hg

/-- `is_prime64` accepts no composite number (up to `K`, if `s` holds) -/
def ExactUpTo (s : Prop) (bld : Build) (K : ℕ) : Prop :=
  ∀ m < 2 ^ 64, (s → m ≤ K) → isPrime64 bld m = true → m.Prime

theorem NoPseudoprimes.exactUpTo {s : Prop} {bld : Build} (h : NoPseudoprimes bld) (K : ℕ) : ExactUpTo s bld K :=
  fun m hm _ hp => ((C02_is_prime64_exact_partial bld).mpr h m hm).mp hp

theorem prevPrime_wp {s : Prop} {bld : Build} {g x K : ℕ} (hex : ExactUpTo s bld K) (hg : s → EnoughFuel bld g)
    (hx : x < 2 ^ 64) (hK : s → x ≤ K) (hs : s → 2 < x) :
    WP s (prevPrime bld (some 64) x none (fun _ => []) g) (fun r => (r = none ∧ ¬ s) ∨
      ∃ y, r = some y ∧ y.Prime ∧ y < x ∧ ∀ q, q.Prime → q < x → q ≤ y) := by
  constructor
  · intro r hr
    by_cases h2 : 2 < x
    · obtain ⟨y, h1, h3, h4, h5⟩ := C20_prev_prime_some bld (some 64) std64 x h2 (fits_some.mpr hx) none _ no_draws g r hr
      exact Or.inr ⟨y, h1, accepted_prime64 (by omega) (hex y (by omega) (fun h => by have := hK h; omega)) h4, h3, h5⟩
    · rw [C20_prev_prime_none bld _ _ (by omega)] at hr
      injection hr with hr
      exact Or.inl ⟨hr.symm, fun h => h2 (hs h)⟩
  · intro h
    obtain ⟨r, hr⟩ := (hg h).prev x (hs h) hx
    exact ⟨_, hr⟩

theorem nthWalkDown_wp {s : Prop} {bld : Build} {g n K : ℕ} (hex : ExactUpTo s bld K) (hg : s → EnoughFuel bld g) (hn : 1 ≤ n) :
    ∀ f x p, x.Prime → x < 2 ^ 64 → (s → x ≤ K) → p = π x → (s → p < f) →
    WP s (nthWalkDown bld g n f x p) (fun r => r.1.Prime ∧ r.1 < 2 ^ 64 ∧ r.2 = π r.1 ∧ r.2 ≤ n ∧ (r.2 < n → r.1 = x)) := by
  intro f
  induction f with
  | zero =>
    intro x p _ _ _ _ hf
    refine WP.fail (fun a h => by simp [nthWalkDown] at h) (fun hs => by have := hf hs; omega)
  | succ f ih =>
    intro x p hx h64 hK hp hf
    simp only [nthWalkDown]
    by_cases hpn : p > n
    · rw [if_pos hpn]
      have hx3 : 2 < x := by
        by_contra hc
        have : x = 2 := by have := hx.two_le; omega
        have h2 : π 2 = 1 := by decide
        rw [this, h2] at hp
        omega
      refine WP.bind (prevPrime_wp hex hg h64 hK (fun _ => hx3)) ?_
      rintro r (⟨rfl, hns⟩ | ⟨y, rfl, hy1, hy2, hy3⟩)
      · exact WP.fail (fun a h => by simp at h) hns
      · dsimp only
        have := primeCounting_prev hx hy2 hy3
        rw [csub_ok (by omega), Res.bind_ok]
        refine (ih y (p - 1) hy1 (by omega) (fun hs => by have := hK hs; omega) (by omega) (fun hs => by have := hf hs; omega)).mono ?_
        rintro ⟨x', p'⟩ ⟨a1, a2, a3, a4, a5⟩
        refine ⟨a1, a2, a3, a4, fun hlt => ?_⟩
        have h6 := a5 hlt
        simp only at h6 a3 hlt
        rw [h6] at a3
        omega
    · rw [if_neg hpn]
      exact WP.ok ⟨hx, h64, hp, by simp only; omega, fun _ => rfl⟩

theorem nthWalkUp_wp {s : Prop} {bld : Build} {g n K : ℕ} (hex : ExactUpTo s bld K) (hg : s → EnoughFuel bld g) (hn : 1 ≤ n)
    (hn64 : n < 2 ^ 64) (hpn : s → nthPrime n < 2 ^ 64) (hK : s → nthPrime n ≤ K) : ∀ f x p, x.Prime → x < 2 ^ 64 → p = π x → p ≤ n →
    (s → p < n → 256 ≤ x) → (s → n < f + p) → WP s (nthWalkUp bld g n f x p) (fun r => r = nthPrime n) := by
  intro f
  induction f with
  | zero =>
    intro x p _ _ _ h _ hf
    refine WP.fail (fun a h => by simp [nthWalkUp] at h) (fun hs => by have := hf hs; omega)
  | succ f ih =>
    intro x p hx h64 hp hle h256 hf
    simp only [nthWalkUp]
    by_cases hlt : p < n
    · rw [if_pos hlt]
      refine WP.bind (P := fun r => (r = none ∧ ¬ s) ∨
        ∃ y, r = some y ∧ y.Prime ∧ x < y ∧ y < 2 ^ 64 ∧ ∀ q, q.Prime → x < q → y ≤ q) ⟨fun r hr => ?_, fun hs => ?_⟩ ?_
      · obtain ⟨c1, c2⟩ := nextPrime_contract bld (some 64) std64 x none _ no_draws g r hr
        have hq := nthPrime_prime n
        have hxq : x < nthPrime n := by
          by_contra hc
          have := (nthPrime_le_iff hn).mp (not_lt.mp hc)
          omega
        cases r with
        | none =>
          refine Or.inl ⟨rfl, fun hs => ?_⟩
          have := c2 rfl _ hq hxq
          rw [fits_some.mpr (hpn hs)] at this
          simp at this
        | some y =>
          obtain ⟨d1, d2, d3, d4⟩ := c1 y rfl
          have d5 := fits_some.mp d2
          exact Or.inr ⟨y, rfl, accepted_prime64 d5 (hex y d5 (fun hs => (d4 _ hq hxq).trans (hK hs))) d3, d1, d5, d4⟩
      · exact (hg hs).next x (h256 hs hlt) h64
      · rintro r (⟨rfl, hns⟩ | ⟨y, rfl, hy1, hy2, hy3, hy4⟩)
        · exact WP.fail (fun a h => by simp at h) hns
        · dsimp only
          have := primeCounting_next hy1 hy2 hy4
          rw [cadd_ok (fits_some.mpr (by omega)), Res.bind_ok]
          refine ih y (p + 1) hy1 hy3 (by omega) (by omega) (fun hs _ => ?_) (fun hs => by have := hf hs; omega)
          have := h256 hs hlt
          omega
    · rw [if_neg hlt]
      exact WP.ok (eq_nthPrime hx (by omega))

theorem nthPrimeEstLoop_le {bld : Build} {w : Width} {o : Estimates} {n : ℕ} : ∀ f lo hi x,
    nthPrimeEstLoop bld w o n f lo hi = .ok (some x) → x ≤ max lo hi := by
  intro f
  induction f with
  | zero => intro lo hi x h; simp [nthPrimeEstLoop] at h
  | succ f ih =>
    intro lo hi x h
    simp only [nthPrimeEstLoop, Res.bind_eq_ok] at h
    obtain ⟨h1, _, h⟩ := h
    split at h
    · simp only [Res.pure_def, Res.ok.injEq, Option.some.injEq] at h
      omega
    · simp only [Res.bind_eq_ok] at h
      obtain ⟨s, hs, m, _, h⟩ := h
      have hs : s = lo + hi := by
        unfold cadd at hs
        split at hs
        · injection hs with hs; exact hs.symm
        · simp at hs
      split at h
      · have := ih _ _ _ h; omega
      · split at h
        · have := ih _ _ _ h; omega
        · simp only [Res.pure_def, Res.ok.injEq, Option.some.injEq] at h
          omega

theorem nthPrimeBounds_fits {bld : Build} {w : Width} {o : Estimates} {n lo hi : ℕ}
    (h : nthPrimeBounds bld w o n = .ok (some (lo, hi))) : fits w lo = true ∧ fits w hi = true := by
  unfold nthPrimeBounds at h
  split at h
  · simp only [Res.ok.injEq, Option.some.injEq, Prod.mk.injEq] at h
    obtain ⟨rfl, rfl⟩ := h
    cases w <;> simp [fits]
  · split at h
    · simp only [Res.bind_eq_ok] at h
      obtain ⟨p, _, q, hq, h⟩ := h
      unfold unwrapFit at hq
      split at hq
      · rename_i hf
        injection hq with hq
        simp only [Res.pure_def, Res.ok.injEq, Option.some.injEq, Prod.mk.injEq] at h
        obtain ⟨rfl, rfl⟩ := h
        rw [← hq]
        exact ⟨hf, hf⟩
      · simp at hq
    · split at h
      · split at h
        · rename_i hf
          simp only [Res.ok.injEq, Option.some.injEq, Prod.mk.injEq] at h
          obtain ⟨rfl, rfl⟩ := h
          simpa using hf
        · simp at h
      · simp at h

/-- what `nth_prime(n)` needs of the floating point estimates to be sure to return -/
structure EstOK (bld : Build) (o : Estimates) (n lo hi : ℕ) : Prop where
  bounds : nthPrimeBounds bld (some 64) o n = .ok (some (lo, hi))
  le : lo ≤ hi
  above : n ≤ 4096 → nthPrime n ≤ hi
  lt64 : nthPrime n < 2 ^ 64
  lt : hi < 2 ^ 63
  small : n ≤ 4096 → hi < 2 ^ 31
  big : 4096 < n → 300 ≤ lo
  pi : 4096 < n → ∀ x, lo ≤ x → x < hi → ∃ v, primePiEst bld (some 64) o x = .ok v

theorem nthPrimeEst_wp {s : Prop} {bld : Build} {o : Estimates} {g n lo hi : ℕ} (hn : 4096 < n) (hg : s → EnoughFuel bld g)
    (hest : s → EstOK bld o n lo hi) :
    WP s (nthPrimeEst bld (some 64) o n g) (fun r => (r = none ∧ ¬ s) ∨
      ∃ e, r = some e ∧ e < 2 ^ 64 ∧ (s → lo ≤ e ∧ e ≤ hi)) := by
  constructor
  · intro r hr
    have hr0 := hr
    simp only [nthPrimeEst, Res.bind_eq_ok] at hr
    obtain ⟨ob, hb, hr⟩ := hr
    cases ob with
    | none =>
      simp only [Res.pure_def, Res.ok.injEq] at hr
      refine Or.inl ⟨hr.symm, fun hs => ?_⟩
      rw [(hest hs).bounds] at hb
      simp at hb
    | some lh =>
      obtain ⟨lo', hi'⟩ := lh
      obtain ⟨f1, f2⟩ := nthPrimeBounds_fits hb
      have f1 := fits_some.mp f1
      have f2 := fits_some.mp f2
      have hsome : ∃ e, r = some e ∧ e ≤ max lo' hi' := by
        dsimp only at hr
        split at hr
        · simp only [Res.pure_def, Res.ok.injEq] at hr
          exact ⟨lo', hr.symm, by omega⟩
        · cases r with
          | none =>
            exfalso
            have : ∀ f lo hi, nthPrimeEstLoop bld (some 64) o n f lo hi ≠ .ok none := by
              intro f
              induction f with
              | zero => intro lo hi h; simp [nthPrimeEstLoop] at h
              | succ f ih =>
                intro lo hi h
                simp only [nthPrimeEstLoop, Res.bind_eq_ok] at h
                obtain ⟨h1, _, h⟩ := h
                split at h
                · simp at h
                · simp only [Res.bind_eq_ok] at h
                  obtain ⟨s, hs, m, _, h⟩ := h
                  split at h
                  · exact ih _ _ h
                  · split at h
                    · exact ih _ _ h
                    · simp at h
            exact this _ _ _ hr
          | some e => exact ⟨e, rfl, nthPrimeEstLoop_le _ _ _ _ hr⟩
      obtain ⟨e, rfl, he⟩ := hsome
      refine Or.inr ⟨e, rfl, by omega, fun hs => ?_⟩
      obtain ⟨x, hx1, hx2⟩ := (C36_nth_prime_est bld (some 64) o n lo hi (hest hs).bounds (hest hs).le).2 g _ hr0
      injection hx1 with hx1
      rw [hx1]; exact hx2
  · intro hs
    have he := hest hs
    rcases Nat.lt_or_ge lo hi with h | h
    · have hne : ¬ lo = hi := by omega
      simp only [nthPrimeEst, he.bounds, Res.bind_ok, hne, if_false]
      have := (hg hs).ge
      have := he.lt
      obtain ⟨x, hx⟩ := (nthPrimeEstLoop_spec (bld := bld) (w := some 64) (o := o) (n := n) g lo hi h).2.2 (by omega)
        (fits_some.mpr (by omega)) (he.pi hn)
      exact ⟨_, hx⟩
    · have he2 : lo = hi := by have := he.le; omega
      exact ⟨some lo, by simp [nthPrimeEst, he.bounds, he2]⟩

theorem nthPrimeWith_wp_upTo {s : Prop} {bld : Build} {o : Estimates} {g n lo hi K : ℕ} {pi : Buf → ℕ → Res (ℕ × Buf)}
    (hn : 1 ≤ n) (hn64 : n < 2 ^ 64) (hex : 4096 < n → ExactUpTo s bld K) (hg : s → EnoughFuel bld g)
    (hest : s → EstOK bld o n lo hi) (hK : s → 4096 < n → hi ≤ K ∧ nthPrime n ≤ K) (hpi : 4096 < n → ∀ y, y + 1 < 2 ^ 64 → (s → y < hi) → PiAt s pi y)
    (b : Buf) (hb : BI s b) :
    WP s (nthPrimeWith bld o g pi b n) (fun r => r.1 = nthPrime n ∧ BI s r.2) := by
  unfold nthPrimeWith
  by_cases h1 : n < b.list.length
  · have he : b.list[n - 1]? = some (nthPrime n) := hb.1.getElem? (by omega)
    rw [if_pos h1, csub_ok hn, Res.bind_ok, he]
    exact WP.ok ⟨rfl, hb⟩
  rw [if_neg h1]
  by_cases h2 : n ≤ 4096
  · rw [if_pos h2]
    refine WP.bind (P := fun r => r.1 = firstPrimes n ∧ BI s r.2) ⟨?_, ?_⟩ ?_
    · rintro ⟨l, b'⟩ hr
      obtain ⟨c1, c2, c3⟩ := nprimes_ok hb.1 hr
      refine ⟨c1, c2, fun hs => ?_⟩
      -- the sieved range stays below 2^32
      have he := hest hs
      simp only [Buf.nprimes, he.bounds, Res.bind_ok, Res.bind_eq_ok] at hr
      obtain ⟨b2, hr2, hr⟩ := hr
      have hb2 : b' = b2 := by
        split at hr
        · simp at hr
        · simp only [Res.pure_def, Res.ok.injEq, Prod.mk.injEq] at hr
          exact hr.2.symm
      rw [hb2]
      obtain ⟨i1, i2⟩ := reserve_inv hb.1 hr2
      intro p hp
      have hpm := i1.mem.mp hp
      have hsm := he.small h2
      have := or_one_le hi
      rcases le_total ((hi ||| 1) + 2) b.next with hle | hle
      · exact hb.2 hs p (hb.1.mem.mpr ⟨hpm.1, by omega⟩)
      · omega
    · intro hs
      have he := hest hs
      have hsm := he.small h2
      have hor := or_one_le hi
      obtain ⟨b', hb'⟩ := (reserve_ok_iff hb.1 (limit := hi)).mpr ⟨by omega, Or.inr (hb.2 hs)⟩
      obtain ⟨i1, i2⟩ := reserve_inv hb.1 hb'
      have hlen : ¬ b'.list.length < n := by
        have h4 := he.above h2
        rw [nthPrime_le_iff hn, ← count_succ_eq] at h4
        rw [i1.length_eq]
        have : Nat.count Nat.Prime (hi + 1) ≤ Nat.count Nat.Prime b'.next :=
          Nat.count_monotone _ (by have := le_or_one hi; omega)
        omega
      refine ⟨(b'.list.take n, b'), ?_⟩
      simp only [Buf.nprimes, he.bounds, Res.bind_ok, hb', hlen, if_false]
      rfl
    · rintro ⟨l, b'⟩ ⟨c1, c2⟩
      simp only at c1 c2
      have : l.getLast? = some (nthPrime n) := by
        rw [c1, List.getLast?_eq_getElem?, firstPrimes_length]
        exact firstPrimes_getElem? (by omega)
      dsimp only
      rw [this]
      exact WP.ok ⟨rfl, c2⟩
  · have h4 : 4096 < n := by omega
    have hex := hex h4
    have hpi := hpi h4
    rw [if_neg h2]
    refine WP.bind (nthPrimeEst_wp h4 hg hest) ?_
    rintro r (⟨rfl, hns⟩ | ⟨e, rfl, he64, heb⟩)
    · exact WP.fail (fun a h => by simp at h) hns
    dsimp only
    have helo : s → 300 ≤ e := fun hs => by have := (hest hs).big h4; have := heb hs; omega
    refine WP.bind (prevPrime_wp hex hg he64 (fun hs => by have := hK hs h4; have := heb hs; omega)
      (fun hs => by have := helo hs; omega)) ?_
    rintro r (⟨rfl, hns⟩ | ⟨x, rfl, hx1, hx2, hx3⟩)
    · exact WP.fail (fun a h => by simp at h) hns
    dsimp only
    refine WP.bind (hpi x (by omega) (fun hs => by have := heb hs; omega) b hb) ?_
    rintro ⟨p, b'⟩ ⟨hp, hb'⟩
    simp only at hp hb'
    have hp64 : p < 2 ^ 64 := by have := primeCounting_le x; omega
    dsimp only
    refine WP.bind (nthWalkDown_wp hex hg hn g x p hx1 (by omega)
      (fun hs => by have := hK hs h4; have := heb hs; omega) hp (fun hs => by have := (hg hs).ge; omega)) ?_
    rintro ⟨x', p'⟩ ⟨a1, a2, a3, a4, a5⟩
    dsimp only at a1 a2 a3 a4 a5 ⊢
    refine WP.bind (nthWalkUp_wp hex hg hn hn64 (fun hs => (hest hs).lt64) (fun hs => (hK hs h4).2) g x' p' a1 a2 a3 a4
      (fun hs hlt => ?_) (fun hs => by have := (hg hs).ge; omega)) ?_
    · rw [a5 hlt]
      have := hx3 257 (by norm_num) (by have := helo hs; omega)
      omega
    · rintro _ rfl
      exact WP.ok ⟨rfl, hb'⟩

theorem nthPrimeWith_wp {s : Prop} {bld : Build} {o : Estimates} {g n lo hi : ℕ} {pi : Buf → ℕ → Res (ℕ × Buf)}
    (hn : 1 ≤ n) (hn64 : n < 2 ^ 64) (hex : 4096 < n → NoPseudoprimes bld) (hg : s → EnoughFuel bld g)
    (hest : s → EstOK bld o n lo hi) (hpi : 4096 < n → ∀ y, y + 1 < 2 ^ 64 → (s → y < hi) → PiAt s pi y)
    (b : Buf) (hb : BI s b) :
    WP s (nthPrimeWith bld o g pi b n) (fun r => r.1 = nthPrime n ∧ BI s r.2) :=
  nthPrimeWith_wp_upTo hn hn64 (fun h => (hex h).exactUpTo (max hi (nthPrime n))) hg hest
    (fun _ _ => ⟨le_max_left _ _, le_max_right _ _⟩) hpi b hb

/-! ## the recursion of prime_pi -/

theorem lt_nth_fourth (x : ℕ) : x < nth (π (Nat.sqrt (Nat.sqrt x))) ^ 4 := by
  have h1 := lt_nth_pi (Nat.sqrt (Nat.sqrt x))
  have h2 := Nat.lt_succ_sqrt (Nat.sqrt x)
  have h3 := Nat.lt_succ_sqrt x
  generalize Nat.sqrt (Nat.sqrt x) = r at *
  generalize Nat.sqrt x = q at *
  generalize nth (π r) = p at *
  simp only [Nat.succ_eq_add_one] at *
  have h4 : q + 1 ≤ (r + 1) * (r + 1) := h2
  calc x < (q + 1) * (q + 1) := h3
    _ ≤ ((r + 1) * (r + 1)) * ((r + 1) * (r + 1)) := Nat.mul_le_mul h4 h4
    _ = (r + 1) ^ 4 := by ring
    _ ≤ p ^ 4 := Nat.pow_le_pow_left h1 4

theorem offset_le {a b : ℕ} (ha : 1 ≤ a) (hab : a ≤ b) : (b + a - 2) * (b - a + 1) ≤ b * b := by
  obtain ⟨d, rfl⟩ := Nat.exists_eq_add_of_le hab
  obtain ⟨a, rfl⟩ := Nat.exists_eq_add_of_le ha
  have h1 : 1 + a + d + (1 + a) - 2 = 2 * a + d := by omega
  have h2 : 1 + a + d - (1 + a) + 1 = d + 1 := by omega
  rw [h1, h2]
  nlinarith

/-- the floating point bounds on the `n`-th prime that guarantee that `prime_pi` returns -/
def GoodEstimates (bld : Build) (o : Estimates) (N : ℕ) : Prop :=
  ∀ n, 1 ≤ n → n ≤ N → ∃ lo hi, EstOK bld o n lo hi ∧ (4096 < n → hi ≤ n * n)

/-- the same, with all the numbers that have to be tested up to `K` -/
def GoodEstimatesUpTo (bld : Build) (o : Estimates) (N K : ℕ) : Prop :=
  ∀ n, 1 ≤ n → n ≤ N → ∃ lo hi, EstOK bld o n lo hi ∧ (4096 < n → hi ≤ n * n ∧ hi ≤ K ∧ nthPrime n ≤ K)

theorem GoodEstimates.upTo {bld : Build} {o : Estimates} {N : ℕ} (h : GoodEstimates bld o N) :
    GoodEstimatesUpTo bld o N (2 ^ 64) := by
  intro n h1 h2
  obtain ⟨lo, hi, h3, h4⟩ := h n h1 h2
  have := h3.lt
  exact ⟨lo, hi, h3, fun h => ⟨h4 h, by omega, h3.lt64.le⟩⟩

theorem primePi_wp_upTo {s : Prop} {bld : Build} {o : Estimates} {g K : ℕ} (hg : s → EnoughFuel bld g) :
    ∀ f x, x < 2 ^ 64 → (s → x + 1 < 2 ^ 64) → (s → x < f) → (4096 < π (Nat.sqrt x) → ExactUpTo s bld K) →
      (s → GoodEstimatesUpTo bld o (π (Nat.sqrt x)) K) → PiAt s (primePi bld o g f) x := by
  intro f
  induction f with
  | zero =>
    intro x _ _ hf _ _ b _
    exact WP.fail (fun a h => by simp [primePi] at h) (fun hs => by have := hf hs; omega)
  | succ f ih =>
    intro x h64 h65 hf hex hest b hb
    obtain ⟨last, hl1, hl2, hl3⟩ := hb.1.last
    simp only [primePi, hl1]
    by_cases hsm : x ≤ last ∨ x ≤ 38873
    · rw [if_pos hsm]
      have hx32 : s → x < 2 ^ 32 := fun hs => by
        have := hb.2 hs last hl2
        omega
      have hor := or_one_le x
      have hor' := le_or_one x
      refine WP.bind (P := fun b' => BI s b' ∧ x < b'.next) ⟨?_, ?_⟩ ?_
      · intro b' hr
        obtain ⟨i1, i2⟩ := reserve_inv hb.1 hr
        refine ⟨⟨i1, fun hs p hp => ?_⟩, by omega⟩
        have hpm := i1.mem.mp hp
        have := hx32 hs
        rcases le_total ((x ||| 1) + 2) b.next with hle | hle
        · exact hb.2 hs p (hb.1.mem.mpr ⟨hpm.1, by omega⟩)
        · have hne : p ≠ 2 ^ 32 := by
            rintro rfl
            exact absurd hpm.1 (Nat.not_prime_of_dvd_of_lt (m := 2) (by norm_num) (by norm_num) (by norm_num))
          have := or_one_eq x
          omega
      · intro hs
        exact (reserve_ok_iff hb.1).mpr ⟨by have := hx32 hs; omega, Or.inr (hb.2 hs)⟩
      · rintro b' ⟨hb', hlt⟩
        refine WP.ok ⟨?_, hb'⟩
        simp only [hb'.1.list_eq]
        exact search_upper hlt
    · rw [if_neg hsm, isqrt_eq, isqrt_eq]
      rw [not_or] at hsm
      have hs32 : Nat.sqrt x < 2 ^ 32 := by rw [Nat.sqrt_lt']; exact h64
      have hor := or_one_le (Nat.sqrt x)
      have hor' := le_or_one (Nat.sqrt x)
      have hB := pi_sqrt_le h64
      have hsq : Nat.sqrt x * Nat.sqrt x ≤ x := Nat.sqrt_le x
      have hsq197 : 197 ≤ Nat.sqrt x := Nat.le_sqrt.mpr (by omega)
      have hr14 : 14 ≤ Nat.sqrt (Nat.sqrt x) := Nat.le_sqrt.mpr (by omega)
      refine WP.bind (P := fun b' => BI s b') ⟨?_, ?_⟩ ?_
      · intro b' hr
        obtain ⟨i1, i2⟩ := reserve_inv hb.1 hr
        refine ⟨i1, fun hs p hp => ?_⟩
        have hpm := i1.mem.mp hp
        rcases le_total ((Nat.sqrt x ||| 1) + 2) b.next with hle | hle
        · exact hb.2 hs p (hb.1.mem.mpr ⟨hpm.1, by omega⟩)
        · have hne : p ≠ 2 ^ 32 := by
            rintro rfl
            exact absurd hpm.1 (Nat.not_prime_of_dvd_of_lt (m := 2) (by norm_num) (by norm_num) (by norm_num))
          have := or_one_eq (Nat.sqrt x)
          omega
      · intro hs
        exact (reserve_ok_iff hb.1).mpr ⟨by omega, Or.inr (hb.2 hs)⟩
      · intro b' hb'
        -- the recursive calls
        have hsqlt : Nat.sqrt x < x := by nlinarith
        have hpi : ∀ y < x, PiAt s (primePi bld o g f) y := by
          intro y hy
          have hmono : π (Nat.sqrt y) ≤ π (Nat.sqrt x) := Nat.monotone_primeCounting (Nat.sqrt_le_sqrt hy.le)
          refine ih y (by omega) (fun hs => by omega) (fun hs => by have := hf hs; omega) (fun h => hex (by omega))
            (fun hs n h1 h2 => hest hs n h1 (by omega))
        have hnth : ∀ n, 1 ≤ n → n ≤ π (Nat.sqrt x) → NthAt s (nthPrimeWith bld o g (primePi bld o g f)) n := by
          intro n hn1 hn2 b'' hb''
          have hnn : n * n < x := by
            have h1 := primeCounting_le_half (Nat.sqrt x)
            have h2 : n < Nat.sqrt x := by omega
            nlinarith
          by_cases hs : s
          · obtain ⟨lo, hi, he, hh⟩ := hest hs n hn1 hn2
            refine nthPrimeWith_wp_upTo (lo := lo) (hi := hi) hn1 (by omega) (fun h => hex (by omega)) hg (fun _ => he)
              (fun _ h => (hh h).2) ?_ b'' hb''
            intro h4 y hy1 hy2
            have := (hh h4).1
            have := hy2 hs
            exact hpi y (by omega)
          · refine nthPrimeWith_wp_upTo (lo := 0) (hi := 0) hn1 (by omega) (fun h => hex (by omega)) hg (fun h => absurd h hs)
              (fun h => absurd h hs) ?_ b'' hb''
            intro h4 y hy1 _
            exact ih y (by omega) (fun h => absurd h hs) (fun h => absurd h hs) (fun _ => hex (by omega)) (fun h => absurd h hs)
        have hpiA := hpi _ (lt_of_le_of_lt (Nat.sqrt_le_self (Nat.sqrt x)) hsqlt)
        refine WP.bind (hpiA _ hb') ?_
        rintro ⟨a, b1⟩ ⟨ha, hb1⟩
        dsimp only at ha hb1 ⊢
        refine WP.bind (hpi _ hsqlt _ hb1) ?_
        rintro ⟨B, b2⟩ ⟨hBe, hb2⟩
        dsimp only at hBe hb2 ⊢
        have hic : icbrt x < x := by
          obtain ⟨h1, _⟩ := icbrt_spec x
          by_contra hc
          have : x ^ 3 ≤ icbrt x ^ 3 := Nat.pow_le_pow_left (by omega) 3
          have h3 : x * x ≤ x ^ 3 := by rw [pow_succ, pow_two]; nlinarith
          nlinarith
        refine WP.bind (hpi _ hic _ hb2) ?_
        rintro ⟨c, b3⟩ ⟨hc, hb3⟩
        dsimp only at hc hb3 ⊢
        have ha6 : 6 ≤ a := by
          have h6 : π 14 = 6 := by decide +kernel
          rw [ha, ← h6]
          exact Nat.monotone_primeCounting hr14
        have haB : a ≤ B := by
          rw [ha, hBe]; exact Nat.monotone_primeCounting (Nat.sqrt_le_self _)
        rw [if_neg (by omega)]
        refine WP.bind (primePhiWith_wp a b3 ⟨a, []⟩ x (by omega)
          (fun n h1 h2 => hnth n h1 (by omega)) hb3 (by simp [CacheOK]) h65) ?_
        rintro ⟨phi, b4, c4⟩ ⟨hphi, hb4, _⟩
        dsimp only at hphi hb4 ⊢
        have hm := offset_le (show 1 ≤ a by omega) haB
        have hBB : B * B ≤ 2 ^ 31 * 2 ^ 31 := Nat.mul_le_mul (by omega) (by omega)
        have hphile : phi ≤ 2 ^ 63 := by
          have := phi_le_half x (show 1 ≤ a by omega)
          omega
        rw [cadd_ok (fits_some.mpr (by omega)), Res.bind_ok, csub_ok (by omega), Res.bind_ok, csub_ok haB, Res.bind_ok,
          cadd_ok (fits_some.mpr (by omega)), Res.bind_ok, cmul_ok (fits_some.mpr (by omega)), Res.bind_ok,
          cadd_ok (fits_some.mpr (by omega)), Res.bind_ok, rangeStep_one, show B + 1 - (a + 1) = B - a by omega]
        have h4 : x < nth a ^ 4 := by rw [ha]; exact lt_nth_fourth x
        have hmain := phi_main (x := x) (a := a) (by omega) (by omega)
        have hpred := sum_pred (a := a) (b := B) (by omega) haB
        have hsplit : ∑ i ∈ Finset.Ico a (π (Nat.sqrt x)), (legendrePhi (x / nth i) i + i - 1) =
            ∑ i ∈ Finset.Ico a (π (Nat.sqrt x)), legendrePhi (x / nth i) i + ∑ i ∈ Finset.Ico a (π (Nat.sqrt x)), (i - 1) := by
          rw [← Finset.sum_add_distrib]
          apply Finset.sum_congr rfl
          intro i hi
          rw [Finset.mem_Ico] at hi
          omega
        rw [hc]
        refine (piOuter_wp h64 hpi (fun j hj => hnth (j + 1) (by omega) (by omega)) (B - a) a b4 _ (by omega) (by omega)
          h4 hb4 ?_ ?_)
        · rw [hsplit, ← hBe]
          rw [← hBe] at hmain
          omega
        · omega

theorem primePi_wp {s : Prop} {bld : Build} {o : Estimates} {g : ℕ} (hg : s → EnoughFuel bld g) (f x : ℕ) (h64 : x < 2 ^ 64)
    (h65 : s → x + 1 < 2 ^ 64) (hf : s → x < f) (hex : 4096 < π (Nat.sqrt x) → NoPseudoprimes bld)
    (hest : s → GoodEstimates bld o (π (Nat.sqrt x))) : PiAt s (primePi bld o g f) x :=
  primePi_wp_upTo hg f x h64 h65 hf (fun h => (hex h).exactUpTo (2 ^ 64)) (fun hs => (hest hs).upTo)

end NumPrime
