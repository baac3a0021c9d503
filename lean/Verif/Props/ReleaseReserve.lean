import Verif.Model.ReleaseBuffer
import Verif.Props.Buffer

/-! # C92: growing the buffer in a build without overflow checks -/

namespace NumPrime
open Spec

theorem wmul_fits {x y v : ℕ} (h : cmul (some 64) x y = .ok v) : v = wmul 64 x y := by
  unfold cmul at h
  split at h
  · rename_i hf
    simp only [Res.ok.injEq] at h
    rw [← h, wmul, Nat.mod_eq_of_lt (fits_some.mp hf)]
  · simp at h

theorem sieveOld_rel {current limit len : ℕ} : ∀ (ps m r : List ℕ), sieveOld current limit len ps m = .ok r →
    sieveOldRel current limit len ps m = .ok r := by
  intro ps
  induction ps with
  | nil => intro m r h; exact h
  | cons p ps ih =>
    intro m r h
    simp only [sieveOld, Res.bind_eq_ok] at h
    obtain ⟨pp, h1, start, h2, step, h3, m', h4, h5⟩ := h
    have e1 := wmul_fits h1
    have e3 := wmul_fits h3
    subst e1 e3
    have e2 : start = if wmul 64 p p < current then wmul 64 p ((current / p) ||| 1) else wmul 64 p p := by
      split at h2
      · rename_i hc; rw [if_pos hc]; exact wmul_fits h2
      · rename_i hc; rw [if_neg hc]; exact wmul_fits h2
    rw [e2] at h4
    simp only [sieveOldRel, h4, Res.bind_ok]
    exact ih _ _ h5

theorem sieveNew_rel {current limit len : ℕ} : ∀ (ps m r : List ℕ), sieveNew current limit len ps m = .ok r →
    sieveNewRel current limit len ps m = .ok r := by
  intro ps
  induction ps with
  | nil => intro m r h; exact h
  | cons p ps ih =>
    intro m r h
    simp only [sieveNew, Res.bind_eq_ok] at h
    obtain ⟨pp, h1, step, h3, m', h4, h5⟩ := h
    have e1 := wmul_fits h1
    have e3 := wmul_fits h3
    subst e1 e3
    simp only [sieveNewRel, h4, Res.bind_ok]
    exact ih _ _ h5

theorem reserve_rel {b b' : Buf} {limit : ℕ} (h : b.reserve limit = .ok b') : b.reserveRel limit = .ok b' := by
  simp only [Buf.reserve, Res.bind_eq_ok] at h
  obtain ⟨L, h1, h2⟩ := h
  have hL : L = wadd 64 (limit ||| 1) 2 := by
    unfold cadd at h1
    split at h1
    · rename_i hf
      simp only [Res.ok.injEq] at h1
      rw [← h1, wadd, Nat.mod_eq_of_lt (fits_some.mp hf)]
    · simp at h1
  subst hL
  split at h2
  · simp at h2
  · simp only [Buf.reserveRel]
    split at h2
    · rename_i hc; rw [if_pos hc]; exact h2
    · rename_i hc
      rw [if_neg hc]
      simp only [Res.bind_eq_ok] at h2 ⊢
      obtain ⟨m1, h3, m2, h4, h5⟩ := h2
      exact ⟨m1, sieveOld_rel _ _ _ h3, m2, sieveNew_rel _ _ _ h4, h5⟩

/-! ## what the wrapping sieve marks -/

/-- where the sieve starts to strike out for a known prime -/
def startRel (current p : ℕ) : ℕ := if wmul 64 p p < current then wmul 64 p ((current / p) ||| 1) else wmul 64 p p

theorem nprimes_rel {bld : Build} {o : Estimates} {b : Buf} {n : ℕ} {r} (h : Buf.nprimes bld o b n = .ok r) :
    Buf.nprimesRel bld o b n = .ok r := by
  simp only [Buf.nprimes, Buf.nprimesRel, Res.bind_eq_ok] at h ⊢
  obtain ⟨p, h1, h2⟩ := h
  refine ⟨p, h1, ?_⟩
  cases p with
  | none => simp at h2
  | some p =>
    simp only [Res.bind_eq_ok] at h2 ⊢
    obtain ⟨b', h3, h4⟩ := h2
    refine ⟨b', reserve_rel h3, ?_⟩
    split at h4
    · simp at h4
    · exact h4

theorem wmul_odd {x y : ℕ} (hx : x % 2 = 1) (hy : y % 2 = 1) : wmul 64 x y % 2 = 1 := by
  have : (x * y) % 2 = 1 := by rw [Nat.mul_mod, hx, hy]
  unfold wmul; omega

theorem startRel_odd {current p : ℕ} (hp : p % 2 = 1) : startRel current p % 2 = 1 := by
  unfold startRel
  split
  · exact wmul_odd hp (or_one_odd _)
  · exact wmul_odd hp hp

theorem mark_from {current L d s : ℕ} (hc : current % 2 = 1) (hL : L % 2 = 1) (hd : d % 2 = 0) (hp0 : 0 < d) (hs : s % 2 = 1)
    (marks : List ℕ) :
    ∃ marks', sieveMark current ((L - current) / 2) (rangeStep s L d) marks = .ok marks' ∧
      ∀ i, i < (L - current) / 2 → (i ∈ marks' ↔ i ∈ marks ∨ ∃ k, current + 2 * i = s + d * k) := by
  have hodd : ∀ m ∈ rangeStep s L d, m % 2 = 1 ∧ m < L := by
    intro m hm
    obtain ⟨k, rfl, hk⟩ := (mem_rangeStep hp0).mp hm
    refine ⟨?_, hk⟩
    have h2 : d * k % 2 = 0 := by rw [Nat.mul_mod, hd]; simp
    omega
  obtain ⟨mk, h1, h2⟩ := sieveMark_spec (current := current) (len := (L - current) / 2)
    (rangeStep s L d) marks (by
      intro m hm hcm
      have := hodd m hm
      omega)
  refine ⟨mk, h1, fun i hi => ?_⟩
  rw [h2]
  apply or_congr_right
  constructor
  · rintro ⟨m, hm, hcm, rfl⟩
    have := hodd m hm
    obtain ⟨k, rfl, hk⟩ := (mem_rangeStep hp0).mp hm
    exact ⟨k, by omega⟩
  · rintro ⟨k, hk⟩
    exact ⟨current + 2 * i, (mem_rangeStep hp0).mpr ⟨k, hk, by omega⟩, by omega, by omega⟩

theorem sieveOldRel_spec {current L : ℕ} (hc : current % 2 = 1) (hL : L % 2 = 1) : ∀ (ps marks : List ℕ),
    (∀ p ∈ ps, p % 2 = 1) →
    ∃ marks', sieveOldRel current L ((L - current) / 2) ps marks = .ok marks' ∧
      ∀ i, i < (L - current) / 2 →
        (i ∈ marks' ↔ i ∈ marks ∨ ∃ p ∈ ps, ∃ k, current + 2 * i = startRel current p + wmul 64 2 p * k) := by
  intro ps
  induction ps with
  | nil => intro marks _; exact ⟨marks, rfl, fun i _ => by simp⟩
  | cons p ps ih =>
    intro marks h
    have hp := h p (by simp)
    obtain ⟨mk, h1, h2⟩ := mark_from hc hL (d := wmul 64 2 p) (by unfold wmul; omega) (by unfold wmul; omega)
      (startRel_odd (current := current) hp) marks
    obtain ⟨mk', h3, h4⟩ := ih mk (fun q hq => h q (List.mem_cons_of_mem _ hq))
    refine ⟨mk', ?_, fun i hi => ?_⟩
    · unfold startRel at h1
      simp only [sieveOldRel, h1, Res.bind_ok, h3]
    · rw [h4 i hi, h2 i hi]
      simp only [List.mem_cons, exists_eq_or_imp]
      tauto

theorem sieveNewRel_spec {current L : ℕ} (hc : current % 2 = 1) (hL : L % 2 = 1) (ps marks : List ℕ)
    (h : ∀ p ∈ ps, p % 2 = 1 ∧ p < 2 ^ 32) :
    ∃ marks', sieveNewRel current L ((L - current) / 2) ps marks = .ok marks' ∧
      ∀ i, i < (L - current) / 2 →
        (i ∈ marks' ↔ i ∈ marks ∨ ∃ p ∈ ps, p ∣ current + 2 * i ∧ p * p ≤ current + 2 * i) := by
  obtain ⟨m, h1, h2⟩ := sieveNew_spec hc hL ps marks h
  exact ⟨m, sieveNew_rel _ _ _ h1, h2⟩

/-- for a prime below `2^32` the wrapping sieve strikes out what it should -/
theorem startRel_small {current p n : ℕ} (hbig : current + 2 ^ 32 < 2 ^ 64) (hp : p % 2 = 1) (hlt : p < 2 ^ 32) (hn : n % 2 = 1)
    (hcn : current ≤ n) : (∃ k, n = startRel current p + wmul 64 2 p * k) ↔ p ∣ n ∧ p * p ≤ n := by
  have hp0 : 0 < p := by omega
  have hpp : wmul 64 p p = p * p := Nat.mod_eq_of_lt (by nlinarith)
  rw [show wmul 64 2 p = 2 * p from Nat.mod_eq_of_lt (by omega)]
  unfold startRel
  rw [hpp]
  split
  · rename_i hlt2
    have h1 := or_one_le (current / p)
    have h2 : p * (current / p) ≤ current := Nat.mul_div_le _ _
    have h3 : p * (current / p ||| 1) ≤ p * (current / p + 1) := Nat.mul_le_mul_left _ h1
    have h4 : p * (current / p + 1) = p * (current / p) + p := by ring
    rw [show wmul 64 p (current / p ||| 1) = p * (current / p ||| 1) from Nat.mod_eq_of_lt (by omega),
      progression hp (or_one_odd _) hn]
    constructor
    · rintro ⟨a, _⟩; exact ⟨a, by omega⟩
    · rintro ⟨a, _⟩; exact ⟨a, first_multiple hp0 hn hcn a⟩
  · rw [progression hp hp hn]

/-- what remains of the invariant without overflow checks -/
structure Buf.RelInv (b : Buf) : Prop where
  append : ∃ t, b.list = primesBelow 55 ++ t
  sorted : b.list.Pairwise (· < ·)
  odd : b.next % 2 = 1
  ge : 55 ≤ b.next
  lt : b.next + 2 ^ 32 < 2 ^ 64
  sound : ∀ p ∈ b.list, p.Prime ∧ p < b.next
  small : ∀ p, p.Prime → p < b.next → p < 2 ^ 32 → p ∈ b.list

theorem Buf.Inv.rel {b : Buf} (h : b.Inv) (hlt : b.next + 2 ^ 32 < 2 ^ 64) : b.RelInv :=
  ⟨h.append, h.sorted, h.odd, h.ge, hlt, fun _ hp => h.mem.mp hp, fun _ h1 h2 _ => h.mem.mpr ⟨h1, h2⟩⟩

theorem reserveRel_inv {b : Buf} (hb : b.RelInv) {limit : ℕ} (hl : (limit ||| 1) + 2 + 2 ^ 32 < 2 ^ 64) :
    ∃ b', b.reserveRel limit = .ok b' ∧ b'.RelInv ∧ b'.next = max b.next ((limit ||| 1) + 2) ∧ b.list <+: b'.list := by
  have hw : wadd 64 (limit ||| 1) 2 = (limit ||| 1) + 2 := Nat.mod_eq_of_lt (by omega)
  set L := (limit ||| 1) + 2 with hLdef
  have hLodd : L % 2 = 1 := by have := or_one_odd limit; omega
  have hnodd := hb.odd
  have hge := hb.ge
  have hlt := hb.lt
  simp only [Buf.reserveRel, hw]
  by_cases hno : L < b.next
  · rw [if_pos hno]
    exact ⟨b, rfl, hb, by omega, List.prefix_refl _⟩
  rw [if_neg hno]
  obtain ⟨t, ht⟩ := hb.append
  have hdrop : ∀ p, p ∈ b.list.drop 1 ↔ p ∈ b.list ∧ p ≠ 2 := fun p => two_mem_drop ht hb.sorted
  obtain ⟨mk, m1, m2⟩ := sieveOldRel_spec hnodd hLodd (b.list.drop 1) [] (by
    intro p hp
    obtain ⟨q1, q2⟩ := (hdrop p).mp hp
    have q3 := hb.sound p q1
    exact q3.1.eq_two_or_odd.resolve_left q2)
  have hsq := isqrt_eq L
  have hsqle : isqrt L * isqrt L ≤ L := by rw [hsq]; exact Nat.sqrt_le L
  have hsqlt : isqrt L < 2 ^ 32 := by nlinarith
  obtain ⟨mk', n1, n2⟩ := sieveNewRel_spec hnodd hLodd (rangeStep b.next (isqrt L + 1) 2) mk (by
    intro p hp
    obtain ⟨k, rfl, hk⟩ := (mem_rangeStep (by norm_num)).mp hp
    omega)
  rw [m1, Res.bind_ok, n1, Res.bind_ok]
  have hmem : ∀ x, x ∈ b.list ++ (sieveZeros ((L - b.next) / 2) mk').map (fun x => x * 2 + b.next) ↔
      x ∈ b.list ∨ ∃ i, i < (L - b.next) / 2 ∧ i ∉ mk' ∧ x = b.next + 2 * i := by
    intro x
    rw [List.mem_append, List.mem_map]
    apply or_congr_right
    simp only [sieveZeros, List.mem_filter, List.mem_range, Bool.not_eq_true', List.contains_eq_mem, decide_eq_false_iff_not]
    constructor
    · rintro ⟨i, hi, rfl⟩; exact ⟨i, hi.1, hi.2, by ring⟩
    · rintro ⟨i, h1, h2, rfl⟩; exact ⟨i, ⟨h1, h2⟩, by ring⟩
  refine ⟨_, rfl, ⟨?_, ?_, hLodd, by simp only; omega, by simp only; omega, ?_, ?_⟩, by simp only; omega, List.prefix_append _ _⟩
  · exact ⟨_, by simp only [ht, List.append_assoc]; rfl⟩
  · simp only [List.pairwise_append]
    refine ⟨hb.sorted, ?_, ?_⟩
    · rw [List.pairwise_map]
      apply List.Pairwise.imp _ (List.Pairwise.filter _ List.pairwise_lt_range)
      intro x y hxy; omega
    · intro x hx y hy
      obtain ⟨z, _, rfl⟩ := List.mem_map.mp hy
      have := (hb.sound x hx).2
      omega
  · intro x hx
    rcases (hmem x).mp hx with hx | ⟨i, hi, hn, rfl⟩
    · have := hb.sound x hx
      exact ⟨this.1, by simp only; omega⟩
    · refine ⟨?_, by simp only; omega⟩
      by_contra hnp
      apply hn
      rw [n2 i hi, m2 i hi]
      have hmin := Nat.minFac_prime (n := b.next + 2 * i) (by omega)
      have hsq' := Nat.minFac_sq_le_self (n := b.next + 2 * i) (by omega) hnp
      have hd := Nat.minFac_dvd (b.next + 2 * i)
      set p := (b.next + 2 * i).minFac with hpdef
      have hp2 : p ≠ 2 := by
        intro h
        rw [h] at hd
        omega
      have hpo := hmin.eq_two_or_odd.resolve_left hp2
      have hpp : p * p ≤ b.next + 2 * i := by nlinarith
      have hp32 : p < 2 ^ 32 := by
        by_contra hc
        have : 2 ^ 32 * 2 ^ 32 ≤ p * p := Nat.mul_le_mul (by omega) (by omega)
        omega
      rcases Nat.lt_or_ge p b.next with hlt' | hlt'
      · refine Or.inl (Or.inr ⟨p, (hdrop p).mpr ⟨hb.small p hmin hlt' hp32, hp2⟩, ?_⟩)
        exact (startRel_small hlt hpo hp32 (by omega) (by omega)).mpr ⟨hd, hpp⟩
      · refine Or.inr ⟨p, ?_, hd, hpp⟩
        rw [mem_rangeStep (by norm_num)]
        refine ⟨(p - b.next) / 2, by omega, ?_⟩
        have : p ≤ Nat.sqrt L := Nat.le_sqrt.mpr (by omega)
        omega
  · intro x hx hxL hx32
    simp only at hxL
    rw [hmem]
    rcases Nat.lt_or_ge x b.next with h3 | h3
    · exact Or.inl (hb.small x hx h3 hx32)
    · right
      have hxo := hx.eq_two_or_odd.resolve_left (by omega)
      have hi : (x - b.next) / 2 < (L - b.next) / 2 := by omega
      refine ⟨(x - b.next) / 2, hi, ?_, by omega⟩
      rw [n2 _ hi, m2 _ hi, show b.next + 2 * ((x - b.next) / 2) = x by omega]
      have hbad : ∀ p, 1 < p → p ∣ x → p * p ≤ x → False := by
        intro p h1 h2 h3
        rcases (Nat.dvd_prime hx).mp h2 with rfl | rfl
        · omega
        · nlinarith
      rintro ((h | ⟨p, hp, hk⟩) | ⟨p, hp, h1, h2⟩)
      · simp at h
      · obtain ⟨q1, q2⟩ := (hdrop p).mp hp
        obtain ⟨q3, q4⟩ := hb.sound p q1
        obtain ⟨h1, h2⟩ := (startRel_small hlt (q3.eq_two_or_odd.resolve_left q2) (by omega) hxo h3).mp hk
        exact hbad p q3.one_lt h1 h2
      · obtain ⟨k, rfl, hk⟩ := (mem_rangeStep (by norm_num)).mp hp
        exact hbad _ (by omega) h1 h2

/-! ## the property -/

/-- a history of calls of `reserve` without overflow checks -/
def Buf.reserveAllRel (b : Buf) : List ℕ → Res Buf
  | [] => .ok b
  | l :: ls => do
    let b ← b.reserveRel l
    b.reserveAllRel ls

/-- **C92** wherever the version with overflow checks returns, the one without gives the same buffer -/
theorem C92_reserve_agrees (b b' : Buf) (limit : ℕ) (h : b.reserve limit = .ok b') : b.reserveRel limit = .ok b' :=
  reserve_rel h

/-- the hypothesis of `C92_reserve_agrees` holds for the new buffer and 20000 -/
example (bld : Build) : ∃ b', (Buf.new bld).reserve 20000 = .ok b' ∧ (Buf.new bld).reserveRel 20000 = .ok b' := by
  obtain ⟨b', h⟩ := (reserve_ok_iff (Buf.inv_new bld) (limit := 20000)).mpr ⟨by decide, Or.inr (by
    have h0 := smallPrimesNext_le bld
    intro p hp
    have := ((Buf.inv_new bld).mem.mp hp).2
    simp only [Buf.new] at this; omega)⟩
  exact ⟨b', h, C92_reserve_agrees _ _ _ h⟩

/-- **C92** the calls that panic with overflow checks because of a stored prime from `2^32` on: every sequence of requests below
`2^64 - 2^33` is served, everything stored afterwards is prime, in increasing order, and no prime below `2^32` is missing below
the largest request -/
theorem C92_reserve_sound (bld : Build) (limits : List ℕ) (hl : ∀ l ∈ limits, l < 2 ^ 64 - 2 ^ 33) :
    ∃ b, (Buf.new bld).reserveAllRel limits = .ok b ∧ (∀ p ∈ b.iter, p.Prime) ∧ b.iter.Pairwise (· < ·) ∧
      ∀ p, p.Prime → p < 2 ^ 32 → (∃ l ∈ limits, p ≤ l) → p ∈ b.iter := by
  have key : ∀ (limits : List ℕ) (b : Buf), (∀ l ∈ limits, l < 2 ^ 64 - 2 ^ 33) → b.RelInv →
      ∃ b', b.reserveAllRel limits = .ok b' ∧ b'.RelInv ∧ b.next ≤ b'.next ∧ ∀ l ∈ limits, l < b'.next := by
    intro limits
    induction limits with
    | nil => intro b _ hb; exact ⟨b, rfl, hb, le_rfl, by simp⟩
    | cons l ls ih =>
      intro b hl hb
      have h1 := hl l (by simp)
      have h2 := or_one_le l
      have h2' := le_or_one l
      obtain ⟨b1, e1, i1, n1, -⟩ := reserveRel_inv hb (limit := l) (by omega)
      obtain ⟨b2, e2, i2, n2, n3⟩ := ih b1 (fun l' h => hl l' (List.mem_cons_of_mem _ h)) i1
      refine ⟨b2, ?_, i2, by omega, ?_⟩
      · simp only [Buf.reserveAllRel, e1, Res.bind_ok, e2]
      · intro l' h'
        rcases List.mem_cons.mp h' with rfl | h'
        · omega
        · exact n3 l' h'
  have h0 := smallPrimesNext_le bld
  obtain ⟨b, e, i, -, n⟩ := key limits (Buf.new bld) hl ((Buf.inv_new bld).rel (by simp only [Buf.new]; omega))
  refine ⟨b, e, fun p hp => (i.sound p hp).1, i.sorted, ?_⟩
  rintro p hp h32 ⟨l, hl', hpl⟩
  have := n l hl'
  exact i.small p hp (by omega) h32

/-- a prime that the wrapping sieve strikes out -/
theorem prime_137438953727 : Nat.Prime 137438953727 := by
  have hq : Nat.Prime 1462116529 := by
    refine pratt (a := 7) [2, 2, 2, 2, 3, 3, 3, 3384529] (by norm_num) ?_ (by norm_num) (by decide +kernel) (by decide +kernel)
    intro f hf
    simp only [List.mem_cons, List.not_mem_nil, or_false] at hf
    rcases hf with rfl | rfl | rfl | rfl | rfl | rfl | rfl | rfl <;> norm_num
  refine pratt (a := 5) [2, 47, 1462116529] (by norm_num) ?_ (by norm_num) (by decide +kernel) ?_
  · intro f hf
    simp only [List.mem_cons, List.not_mem_nil, or_false] at hf
    rcases hf with rfl | rfl | rfl
    · norm_num
    · norm_num
    · exact hq
  · decide +kernel

/-- **C92, finding** primes are lost: after `reserve(4294967311)` a call `primes(137438953727)` does not list that prime. The square
of the stored prime 4294967311 wraps around to 128849019105, and the sieve strikes out every second multiple of 4294967311 from
there on. -/
theorem C92_primes_lost (bld : Build) : ∃ b l b', (Buf.new bld).reserveRel 4294967311 = .ok b ∧
    b.primesRel 137438953727 = .ok (l, b') ∧ Nat.Prime 137438953727 ∧ 137438953727 ∉ l ∧ b'.contains 137438953727 = false := by
  have h0 := smallPrimesNext_le bld
  have hnew := Buf.inv_new bld
  have hsafe : (Buf.new bld).Safe := by
    intro p hp
    have := (hnew.mem.mp hp).2
    simp only [Buf.new] at this; omega
  have h1 : (4294967311 ||| 1) + 2 = 4294967313 := by decide
  have hr := reserve_grow (limit := 4294967311) hnew hsafe (by rw [h1]; norm_num) (by rw [h1]; simp only [Buf.new]; omega)
  rw [h1] at hr
  have hi := (reserve_inv hnew hr).1
  have hrel := hi.rel (by norm_num)
  obtain ⟨b', e, i', -, -⟩ := reserveRel_inv hrel (limit := 137438953727) (by decide)
  have hlost : 137438953727 ∉ b'.list := by
    have hw : wadd 64 (137438953727 ||| 1) 2 = 137438953729 := by decide
    simp only [Buf.reserveRel, hw] at e
    rw [if_neg (by norm_num)] at e
    simp only [Res.bind_eq_ok] at e
    obtain ⟨m1, e1, m2, e2, e3⟩ := e
    simp only [Res.pure_def, Res.ok.injEq] at e3
    obtain ⟨t, ht⟩ := hi.append
    have hdrop := fun p => two_mem_drop (p := p) ht hi.sorted
    dsimp only at hdrop
    obtain ⟨m1', f1, g1⟩ := sieveOldRel_spec (current := 4294967313) (L := 137438953729) (by norm_num) (by norm_num)
      ((primesBelow 4294967313).drop 1) [] (by
        intro p hp
        obtain ⟨q1, q2⟩ := (hdrop p).mp hp
        exact (mem_primesBelow.mp q1).1.eq_two_or_odd.resolve_left q2)
    rw [e1] at f1
    injection f1 with f1
    subst f1
    have hnone : rangeStep 4294967313 (isqrt 137438953729 + 1) 2 = [] := by
      rw [List.eq_nil_iff_forall_not_mem]
      intro x hx
      obtain ⟨k, rfl, hk⟩ := (mem_rangeStep (by norm_num)).mp hx
      have h3 : isqrt 137438953729 < 370728 := by rw [isqrt_eq, Nat.sqrt_lt']; norm_num
      omega
    rw [hnone] at e2
    simp only [sieveNewRel, Res.ok.injEq] at e2
    subst e2
    rw [← e3]
    simp only [List.mem_append, List.mem_map, not_or, not_exists, not_and]
    refine ⟨fun h => ?_, fun x hx => ?_⟩
    · have := (mem_primesBelow.mp h).2
      omega
    · simp only [sieveZeros, List.mem_filter, List.mem_range, Bool.not_eq_true', List.contains_eq_mem,
        decide_eq_false_iff_not] at hx
      intro hxe
      apply hx.2
      rw [g1 x hx.1]
      refine Or.inr ⟨4294967311, (hdrop _).mpr ⟨mem_primesBelow.mpr ⟨prime_4294967311, by norm_num⟩, by norm_num⟩, 1, ?_⟩
      rw [show startRel 4294967313 4294967311 = 128849019105 by decide, show wmul 64 2 4294967311 = 8589934622 by decide]
      omega
  refine ⟨_, b'.list.take (binarySearch b'.list 137438953727).upper, b', reserve_rel hr,
    by simp only [Buf.primesRel, e, Res.bind_ok, Res.pure_def], prime_137438953727,
    fun h => hlost (List.mem_of_mem_take h), ?_⟩
  have := binarySearch_isOk i'.sorted 137438953727
  unfold Buf.contains
  by_contra hc
  rw [Bool.not_eq_false] at hc
  exact hlost (this.mp hc)

/-- **C92, finding** `reserve(u64::MAX)` and `reserve(u64::MAX - 1)` silently do nothing, whatever the history, so that
`primes(u64::MAX)` lists exactly what was stored before the call -/
theorem C92_reserve_max_noop (bld : Build) (o : Estimates) (g f : ℕ) (b : Buf) (h : Reachable bld o g f b) :
    b.reserveRel (2 ^ 64 - 1) = .ok b ∧ b.reserveRel (2 ^ 64 - 2) = .ok b ∧
    ((∀ p ∈ b.iter, p < 2 ^ 64) → b.primesRel (2 ^ 64 - 1) = .ok (b.iter, b)) := by
  have hge := h.inv.ge
  have hw : ∀ l, l = 2 ^ 64 - 1 ∨ l = 2 ^ 64 - 2 → b.reserveRel l = .ok b := by
    intro l hl
    have : wadd 64 (l ||| 1) 2 = 1 := by rcases hl with rfl | rfl <;> decide
    simp only [Buf.reserveRel, this]
    rw [if_pos (by omega)]
  refine ⟨hw _ (Or.inl rfl), hw _ (Or.inr rfl), fun hlt => ?_⟩
  simp only [Buf.primesRel, hw _ (Or.inl rfl), Res.bind_ok, Res.pure_def, Buf.iter]
  congr 2
  rw [List.take_of_length_le]
  rw [binarySearch_upper h.inv.sorted, List.filter_eq_self.mpr]
  intro p hp
  have := hlt p hp
  simp only [decide_eq_true_eq]
  omega

end NumPrime
