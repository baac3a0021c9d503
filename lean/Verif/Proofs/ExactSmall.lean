import Verif.Proofs.IsPrime

/-! # `is_prime64` is exact below `2^16`

Every composite below `2^16` without a factor in the wheel fails one of the tests selected for it. This is a finite
statement about all of them; the kernel evaluates a Fermat test (with rounds `x ↦ x^256 * b^digit`) for each, and the
strong test for the few that pass. -/

namespace NumPrime
open Tables Spec

/-- `f n`, with the argument reduced to a literal first -/
def force {α : Type} (n : ℕ) (f : ℕ → α) : α := Nat.rec (f 0) (fun k _ => f (Nat.succ k)) n

theorem force_eq {α : Type} (n : ℕ) (f : ℕ → α) : force n f = f n := by cases n <;> rfl

/-- `b ^ (n - 1) % n` for `n ≤ 2 ^ 24`, by digits of base 256 -/
def fermatPow (b n : ℕ) : ℕ :=
  force n fun n => force (n - 1) fun e => force b fun b =>
  Nat.mod (Nat.mul (Nat.pow (Nat.mod (Nat.mul (Nat.pow (Nat.mod (Nat.pow b (Nat.div e 65536)) n) 256)
    (Nat.pow b (Nat.mod (Nat.div e 256) 256))) n) 256) (Nat.pow b (Nat.mod e 256))) n

theorem fermatPow_eq (b n : ℕ) : fermatPow b n = b ^ (n - 1) % n := by
  simp only [fermatPow, force_eq]
  generalize n - 1 = e
  show ((b ^ (e / 65536) % n) ^ 256 * b ^ (e / 256 % 256) % n) ^ 256 * b ^ (e % 256) % n = b ^ e % n
  have h1 : (b ^ (e / 65536) % n) ^ 256 * b ^ (e / 256 % 256) ≡ b ^ (e / 256) [MOD n] := by
    have h : (b ^ (e / 65536) % n) ^ 256 ≡ (b ^ (e / 65536)) ^ 256 [MOD n] := (Nat.mod_modEq _ _).pow _
    refine (h.mul_right _).trans ?_
    rw [← pow_mul, ← pow_add]
    have : e / 65536 * 256 + e / 256 % 256 = e / 256 := by omega
    rw [this]
  have h2 : ((b ^ (e / 65536) % n) ^ 256 * b ^ (e / 256 % 256) % n) ^ 256 ≡ (b ^ (e / 256)) ^ 256 [MOD n] :=
    ((Nat.mod_modEq _ _).trans h1).pow _
  have h3 := h2.mul_right (b ^ (e % 256))
  rw [← pow_mul, ← pow_add] at h3
  have : e / 256 * 256 + e % 256 = e := by omega
  rw [this] at h3
  exact h3

theorem fermat_of_strong {n b : ℕ} (h : StrongPRP n b) : b ^ (n - 1) % n = 1 % n := by
  obtain ⟨s, d, -, hn, h | ⟨r, hr, h⟩⟩ := h
  · rw [hn, pow_mul]
    have := h.pow (2 ^ s)
    rwa [one_pow] at this
  · have h2 := h.pow (2 ^ (s - r))
    rw [← pow_mul, mul_assoc, ← pow_add, show r + (s - r) = s by omega, ← hn,
      (Nat.even_pow.mpr ⟨by decide, by omega⟩ : Even (2 ^ (s - r))).neg_one_pow] at h2
    have h3 : ((b ^ (n - 1) : ℕ) : ℤ) ≡ ((1 : ℕ) : ℤ) [ZMOD n] := by push_cast; exact h2
    exact Int.natCast_modEq_iff.mp h3

/-- the bases for 32-bit targets, packed into one number -/
def packedBase32 : ℕ := mrBase32.foldr (fun b r => b + 65536 * r) 0

theorem packedBase32_get : ∀ (l : List ℕ), (∀ b ∈ l, b < 65536) → ∀ i,
    l.foldr (fun b r => b + 65536 * r) 0 / 65536 ^ i % 65536 = l.getD i 0
  | [], _, i => by simp
  | b :: l, h, 0 => by
    have := h b (by simp)
    simp only [List.foldr_cons, pow_zero, Nat.div_one, List.getD_cons_zero]
    omega
  | b :: l, h, i + 1 => by
    have := h b (by simp)
    simp only [List.foldr_cons, List.getD_cons_succ]
    rw [← packedBase32_get l (fun x hx => h x (by simp [hx])) i, pow_succ', ← Nat.div_div_eq_div_mul]
    congr 2
    omega

/-- the base that the big-table build selects for a target below `2 ^ 32` -/
def base32 (P n : ℕ) : ℕ := Nat.mod (Nat.shiftRight P (Nat.mul 16 (hash32 n))) 65536

theorem mrBase32_lt : ∀ b ∈ mrBase32, b < 65536 := by
  have : mrBase32.all (fun b => decide (b < 65536)) = true := by decide +kernel
  simpa using this

theorem base32_eq (n : ℕ) : base32 packedBase32 n = mrBase32.getD (hash32 n) 0 := by
  rw [← packedBase32_get mrBase32 mrBase32_lt (hash32 n)]
  show packedBase32 >>> (16 * hash32 n) % 65536 = _
  rw [Nat.shiftRight_eq_div_pow, pow_mul]
  rfl

/-- `n` has no divisor in `P`, or has one in `W`, or fails one of the tests -/
def exactAt (W P : ℕ) (bases : ℕ → List ℕ) (n : ℕ) : Bool :=
  force n fun n => cond (Nat.beq (Nat.gcd n P) 1) true (cond (Nat.ble 2 (Nat.gcd n W)) true
    ((bases n).any fun b => cond (Nat.beq (fermatPow b n) 1) (!sprp64 n b) true))

theorem exactAt_spec {W P : ℕ} {bases : ℕ → List ℕ} {n : ℕ} (hn : 2 < n) (hodd : n % 2 = 1)
    (h : exactAt W P bases n = true) (hW : Nat.gcd n W = 1) (hs : ∀ b ∈ bases n, StrongPRP n b) : Nat.gcd n P = 1 := by
  simp only [exactAt, force_eq] at h
  by_contra hP
  have h1 : Nat.beq (Nat.gcd n P) 1 = false := by
    rw [Bool.eq_false_iff]; intro h; exact hP (Nat.eq_of_beq_eq_true h)
  rw [h1, hW] at h
  simp only [cond_false, show Nat.ble 2 1 = false from rfl, List.any_eq_true] at h
  obtain ⟨b, hb, h⟩ := h
  have hf := fermat_of_strong (hs b hb)
  rw [Nat.mod_eq_of_lt (show 1 < n by omega), ← fermatPow_eq] at hf
  rw [hf, show Nat.beq 1 1 = true from rfl, (sprp64_iff hn hodd b).mpr (hs b hb)] at h
  simp at h

/-- `f` on `lo, …, lo + 2 ^ d - 1` -/
def runOn (f : ℕ → Bool) : ℕ → ℕ → Bool
  | 0, lo => f lo
  | d + 1, lo => runOn f d lo && runOn f d (lo + 2 ^ d)

theorem runOn_spec {f : ℕ → Bool} : ∀ (d lo : ℕ), runOn f d lo = true → ∀ n, lo ≤ n → n < lo + 2 ^ d → f n = true
  | 0, lo, h, n, h1, h2 => by
    have : n = lo := by simp at h2; omega
    rw [this]; exact h
  | d + 1, lo, h, n, h1, h2 => by
    rw [runOn, Bool.and_eq_true] at h
    rcases Nat.lt_or_ge n (lo + 2 ^ d) with h3 | h3
    · exact runOn_spec d lo h.1 n h1 h3
    · exact runOn_spec d _ h.2 n h3 (by rw [pow_succ] at h2; omega)

/-- the numbers `30 k + r` with `r` coprime to 30 -/
def exactRow (W P : ℕ) (bases : ℕ → List ℕ) (k : ℕ) : Bool :=
  force (Nat.mul 30 k) fun m => [1, 7, 11, 13, 17, 19, 23, 29].all fun r => exactAt W P bases (Nat.add m r)

theorem exactRow_spec {W P : ℕ} {bases : ℕ → List ℕ} {n : ℕ} (h : exactRow W P bases (n / 30) = true)
    (h30 : Nat.gcd n 30 = 1) : exactAt W P bases n = true := by
  simp only [exactRow, force_eq, List.all_eq_true] at h
  have hr : ∀ r < 30, Nat.gcd r 30 = 1 → r ∈ [1, 7, 11, 13, 17, 19, 23, 29] := by decide
  have hg : Nat.gcd (n % 30) 30 = 1 := by rw [← Nat.gcd_rec, Nat.gcd_comm, h30]
  have := h (n % 30) (hr _ (Nat.mod_lt _ (by norm_num)) hg)
  rwa [show Nat.add (Nat.mul 30 (n / 30)) (n % 30) = n from Nat.div_add_mod n 30] at this

theorem prime_of_coprime {n m P : ℕ} (hP : ∀ p, p.Prime → p ≤ m → p ∣ P) (h2 : 2 ≤ n) (hn : n < (m + 1) ^ 2)
    (h : Nat.gcd n P = 1) : n.Prime := by
  by_contra hc
  have h1 := Nat.minFac_sq_le_self (by omega) hc
  have h3 : n.minFac ≤ m := by
    by_contra h
    have : (m + 1) ^ 2 ≤ n.minFac ^ 2 := Nat.pow_le_pow_left (by omega) 2
    omega
  have hp := Nat.minFac_prime (show n ≠ 1 by omega)
  have h4 := Nat.dvd_gcd (Nat.minFac_dvd n) (hP _ hp h3)
  rw [h, Nat.dvd_one] at h4
  exact hp.one_lt.ne' h4

def bases32 (P : ℕ) (n : ℕ) : List ℕ := [base32 P n]
def baseList (_ : ℕ) : List ℕ := [2, 7, 61]

/-- the product of the primes below 256 -/
def prod256 : ℕ := 64266330917908644872330635228106713310880186591609208114244758680898150367880703152525200743234420230

theorem dvd_prod256 (p : ℕ) (hp : p.Prime) (h : p ≤ 255) : p ∣ prod256 := by
  have hm : p ∈ smallPrimes .small := mem_smallPrimes.mpr ⟨hp, by show p < 257; omega⟩
  have hc : (smallPrimes .small).all (fun p => Nat.beq (prod256 % p) 0) = true := by decide +kernel
  exact Nat.dvd_of_mod_eq_zero (Nat.eq_of_beq_eq_true (List.all_eq_true.mp hc p hm))

def packedLit : ℕ := 3091984367207455763584571977071717744149943608784321000997467598817706944213423600653065224459453944111236912746758846203387838280725688780591472658382184903738969259910704807644128554935919062195432725060559715256613155981244669844673488777068012638953865452857503735523665083018889013872130604203524734651555430571716284692707100214421235432427480225996799361549078737595572868782015128892582918790752643685425389753737433104656965125416080633660865942136204338028802433388184360679805866201195697215463880711038626593622572782304054446910689104516110824735703454207267357781386375405394085059907602205648064498345467125977803862114752897670347613517716792370818848873699225995080928249687281290214910107703547576598861989200843495946495523558262360883200264455040046597771705956758359502083649149228742876870883245274796272770925377078619085990748367614567914891931806778256873970717270330299603329684867670195377145087194263415105006071284948086403920395860585730205442527429690782636172284690436042653208163435114018714423355845622599926604205001099743154999510939702722275185718619616389441549657030102325336313417328693753042128812720670890209739779617585491638785704575994008222908260894839494570148716514157320160147553511

theorem packedLit_eq : packedLit = packedBase32 := by decide +kernel

theorem run_big_0 : runOn (exactRow 77 prod256 (bases32 packedLit)) 10 272 = true := by decide +kernel
theorem run_big_1 : runOn (exactRow 77 prod256 (bases32 packedLit)) 9 1296 = true := by decide +kernel
theorem run_big_2 : runOn (exactRow 77 prod256 (bases32 packedLit)) 8 1808 = true := by decide +kernel
theorem run_big_3 : runOn (exactRow 77 prod256 (bases32 packedLit)) 7 2064 = true := by decide +kernel

theorem run_small_0 : runOn (exactRow 1 prod256 baseList) 11 9 = true := by decide +kernel
theorem run_small_1 : runOn (exactRow 1 prod256 baseList) 8 2057 = true := by decide +kernel

theorem row_big {k : ℕ} (h1 : 272 ≤ k) (h2 : k ≤ 2184) : exactRow 77 prod256 (bases32 packedLit) k = true := by
  rcases Nat.lt_or_ge k 1296 with h | h
  · exact runOn_spec _ _ run_big_0 k h1 (by omega)
  rcases Nat.lt_or_ge k 1808 with h' | h'
  · exact runOn_spec _ _ run_big_1 k h (by omega)
  rcases Nat.lt_or_ge k 2064 with h'' | h''
  · exact runOn_spec _ _ run_big_2 k h' (by omega)
  · exact runOn_spec _ _ run_big_3 k h'' (by omega)

theorem row_small {k : ℕ} (h1 : 9 ≤ k) (h2 : k ≤ 2184) : exactRow 1 prod256 baseList k = true := by
  rcases Nat.lt_or_ge k 2057 with h | h
  · exact runOn_spec _ _ run_small_0 k h1 (by omega)
  · exact runOn_spec _ _ run_small_1 k h (by omega)

theorem small_257 : ∀ n < 270, 257 ≤ n → Nat.gcd n 30 = 1 → isPrime64Miller .small n = true → n.Prime := by decide +kernel

theorem isPrime64_exact_u16 (bld : Build) {n : ℕ} (hn : n < 2 ^ 16) : isPrime64 bld n = true ↔ n.Prime := by
  refine ⟨fun h => ?_, fun hp => isPrime64_prime bld hp⟩
  rcases (isPrime64_iff bld n).mp h with h | ⟨h1, h2, h3, h4⟩
  · exact h.1
  · have hlt : n < 2 ^ 32 := by omega
    cases bld
    · have h1 : 8167 ≤ n := h1
      have h3 : Nat.gcd n 2310 = 1 := h3
      have g30 : Nat.gcd n 30 = 1 := Nat.Coprime.coprime_dvd_right (by norm_num) h3
      have g77 : Nat.gcd n 77 = 1 := Nat.Coprime.coprime_dvd_right (by norm_num) h3
      refine prime_of_coprime (m := 255) dvd_prod256 (by omega) (by omega)
        (exactAt_spec (by omega) h2 (exactRow_spec (row_big (by omega) (by omega)) g30) g77 ?_)
      intro b hb
      refine h4 b ?_
      simp only [bases32, packedLit_eq, base32_eq] at hb
      simpa only [millerBases, hlt, if_true] using hb
    · have h1 : 257 ≤ n := h1
      have h3 : Nat.gcd n 30 = 1 := h3
      rcases Nat.lt_or_ge n 270 with h270 | h270
      · exact small_257 n h270 h1 h3 ((isPrime64Miller_iff (by omega) h2).mpr h4)
      refine prime_of_coprime (m := 255) dvd_prod256 (by omega) (by omega)
        (exactAt_spec (by omega) h2 (exactRow_spec (row_small (by omega) (by omega)) h3) (Nat.gcd_one_right n) ?_)
      intro b hb
      refine h4 b ?_
      simpa only [millerBases, hlt, if_true, baseList] using hb

end NumPrime
