import Verif.Proofs.Gram

/-! # The floating point bounds for large arguments: they are ordered and of the right size

Relative errors of the operations on positive numbers, then the formulas. -/

namespace NumPrime

variable {F : FloatOps}

/-- `a'` is positive number `a` with relative error `d / 2^45` -/
def Rel (a' a : ℝ) (d : ℕ) : Prop := 1 / 2 ^ 900 ≤ a ∧ a ≤ 2 ^ 998 ∧ d ≤ 1000 ∧ |a' - a| ≤ d / 2 ^ 45 * a

theorem Rel.pos {a' a : ℝ} {d : ℕ} (h : Rel a' a d) : 0 < a := lt_of_lt_of_le (by positivity) h.1

theorem Rel.small {a' a : ℝ} {d : ℕ} (h : Rel a' a d) : (d : ℝ) / 2 ^ 45 ≤ 1 / 2 ^ 35 := by
  have : (d : ℝ) ≤ 1000 := by exact_mod_cast h.2.2.1
  rw [div_le_div_iff₀ (by positivity) (by positivity)]
  linarith

theorem Rel.bounds {a' a : ℝ} {d : ℕ} (h : Rel a' a d) : a * (1 - 1 / 2 ^ 35) ≤ a' ∧ a' ≤ a * (1 + 1 / 2 ^ 35) := by
  have h1 := mul_le_mul_of_nonneg_right h.small h.pos.le
  obtain ⟨h2, h3⟩ := abs_le.mp h.2.2.2
  constructor <;> linarith

theorem Rel.pos' {a' a : ℝ} {d : ℕ} (h : Rel a' a d) : 0 < a' := by
  have := h.bounds.1
  have h2 := h.pos
  have : 0 < a * (1 - 1 / 2 ^ 35) := mul_pos h2 (by norm_num)
  linarith

theorem Rel.refl {a : ℝ} (h1 : 1 / 2 ^ 900 ≤ a) (h2 : a ≤ 2 ^ 998) : Rel a a 0 := ⟨h1, h2, by norm_num, by simp⟩

/-- a rounded result -/
theorem Rel.round {e v a : ℝ} {d d' : ℕ} (hr : Rounds e v) (h1 : 1 / 2 ^ 900 ≤ a) (h2 : a ≤ 2 ^ 998) (hd' : d + 1 ≤ d') (hd : d' ≤ 1000)
    (h : |e - a| ≤ (d + 1 / 2) / 2 ^ 45 * a) : Rel v a d' := by
  refine ⟨h1, h2, hd, ?_⟩
  have ha : 0 < a := lt_of_lt_of_le (by positivity) h1
  have hd1 : (d : ℝ) + 1 ≤ d' := by exact_mod_cast hd'
  have hd0 : (d' : ℝ) ≤ 1000 := by exact_mod_cast hd
  have he : |e| ≤ 2 * a := by
    have : ((d : ℝ) + 1 / 2) / 2 ^ 45 * a ≤ 1 * a := by
      apply mul_le_mul_of_nonneg_right _ ha.le
      rw [div_le_one (by positivity)]
      have : (1000 : ℝ) ≤ 2 ^ 45 := by norm_num
      linarith
    rw [show e = (e - a) + a by ring]
    refine (abs_add_le _ _).trans ?_
    rw [abs_of_pos ha]
    linarith
  have h3 := hr.le he (le_trans (mul_le_mul_of_nonneg_left h2 zero_le_two) (by
    rw [show (2 : ℝ) ^ 1000 = 4 * 2 ^ 998 by rw [show (1000 : ℕ) = 2 + 998 from rfl, pow_add]; norm_num]
    exact mul_le_mul_of_nonneg_right (by norm_num) (by positivity)))
  have h4 : (1 : ℝ) / 2 ^ 1000 ≤ a / 2 ^ 100 := by
    rw [div_le_div_iff₀ (by positivity) (by positivity)]
    rw [div_le_iff₀ (by positivity)] at h1
    rw [show (2 : ℝ) ^ 1000 = 2 ^ 900 * 2 ^ 100 by rw [← pow_add]]
    calc 1 * (2 : ℝ) ^ 100 ≤ a * 2 ^ 900 * 2 ^ 100 := mul_le_mul_of_nonneg_right h1 (by positivity)
      _ = _ := by ring
  rw [show v - a = (v - e) + (e - a) by ring]
  refine (abs_add_le _ _).trans ?_
  have h5 : 2 * a / 2 ^ 48 + a / 2 ^ 100 ≤ 1 / 2 / 2 ^ 45 * a := by
    have : 2 * a / 2 ^ 48 + a / 2 ^ 100 = (2 / 2 ^ 48 + 1 / 2 ^ 100) * a := by ring
    rw [this]
    exact mul_le_mul_of_nonneg_right (by norm_num) ha.le
  have h6 : 1 / 2 / 2 ^ 45 * a + (d + 1 / 2) / 2 ^ 45 * a = ((d : ℝ) + 1) / 2 ^ 45 * a := by ring
  have h7 : ((d : ℝ) + 1) / 2 ^ 45 * a ≤ d' / 2 ^ 45 * a := by
    apply mul_le_mul_of_nonneg_right _ ha.le
    exact div_le_div_of_nonneg_right hd1 (by positivity)
  linarith

theorem rel_lit (hF : F.Accurate) {a b : ℕ} (h1 : 1 / 2 ^ 900 ≤ (a : ℝ) / b) (h2 : (a : ℝ) / b ≤ 2 ^ 998) : Rel (F.lit a b) (a / b) 1 :=
  Rel.round (d := 0) (hF.lit a b) h1 h2 (by norm_num) (by norm_num) (by
    rw [sub_self, abs_zero]
    have : 0 < (a : ℝ) / b := lt_of_lt_of_le (by positivity) h1
    positivity)

theorem rel_ofNat (hF : F.Accurate) {x : ℕ} (h1 : 1 ≤ x) (h2 : (x : ℝ) ≤ 2 ^ 998) : Rel (F.ofNat x) x 1 := by
  have hx : (1 : ℝ) ≤ x := by exact_mod_cast h1
  exact Rel.round (d := 0) (hF.ofNat x) (le_trans (by rw [div_le_one (by positivity)]; exact one_le_pow₀ (by norm_num)) hx)
    h2 (by norm_num) (by norm_num) (by
    rw [sub_self, abs_zero]
    positivity)

theorem rel_add (hF : F.Accurate) {a a' b b' : ℝ} {d e g : ℕ} (ha : Rel a' a d) (hb : Rel b' b e) (hd : d + 1 ≤ g) (he : e + 1 ≤ g)
    (hg : g ≤ 1000) (h2 : a + b ≤ 2 ^ 998) : Rel (F.add a' b') (a + b) g := by
  have hap := ha.pos
  have hbp := hb.pos
  obtain ⟨g', rfl⟩ : ∃ g', g = g' + 1 := ⟨g - 1, by omega⟩
  have hd' : (d : ℝ) ≤ g' := by exact_mod_cast (by omega : d ≤ g')
  have he' : (e : ℝ) ≤ g' := by exact_mod_cast (by omega : e ≤ g')
  refine Rel.round (d := g') (hF.add a' b') (by linarith [ha.1]) h2 le_rfl hg ?_
  rw [show a' + b' - (a + b) = (a' - a) + (b' - b) by ring]
  refine (abs_add_le _ _).trans ((add_le_add ha.2.2.2 hb.2.2.2).trans ?_)
  have h3 : (d : ℝ) / 2 ^ 45 * a ≤ (g' + 1 / 2) / 2 ^ 45 * a := by gcongr; linarith
  have h4 : (e : ℝ) / 2 ^ 45 * b ≤ (g' + 1 / 2) / 2 ^ 45 * b := by gcongr; linarith
  rw [mul_add]
  linarith

theorem rel_sub (hF : F.Accurate) {a a' b b' : ℝ} {d e g : ℕ} (ha : Rel a' a d) (hb : Rel b' b e) (hg : 2 * d + e + 1 ≤ g)
    (hg2 : g ≤ 1000) (h : 2 * b ≤ a) : Rel (F.sub a' b') (a - b) g := by
  have hap := ha.pos
  have hbp := hb.pos
  refine Rel.round (d := 2 * d + e) (hF.sub a' b') (by linarith [hb.1]) (by linarith [ha.2.1]) hg hg2 ?_
  rw [show a' - b' - (a - b) = (a' - a) - (b' - b) by ring]
  refine (abs_sub _ _).trans ((add_le_add ha.2.2.2 hb.2.2.2).trans ?_)
  have h3 : (d : ℝ) / 2 ^ 45 * a ≤ d / 2 ^ 45 * (2 * (a - b)) := by gcongr; linarith
  have h4 : (e : ℝ) / 2 ^ 45 * b ≤ e / 2 ^ 45 * (a - b) := by gcongr; linarith
  have h5 : (((2 * d + e : ℕ) : ℝ) + 1 / 2) / 2 ^ 45 * (a - b) = d / 2 ^ 45 * (2 * (a - b)) + e / 2 ^ 45 * (a - b) + 1 / 2 / 2 ^ 45 * (a - b) := by
    push_cast
    ring
  have h6 : 0 ≤ 1 / 2 / 2 ^ 45 * (a - b) := mul_nonneg (by positivity) (by linarith)
  linarith

theorem rel_mul (hF : F.Accurate) {a a' b b' : ℝ} {d e g : ℕ} (ha : Rel a' a d) (hb : Rel b' b e) (hg : d + e + 1 ≤ g)
    (hg2 : g ≤ 1000) (h1 : 1 / 2 ^ 900 ≤ a * b) (h2 : a * b ≤ 2 ^ 998) : Rel (F.mul a' b') (a * b) g := by
  have hap := ha.pos
  have hbp := hb.pos
  refine Rel.round (d := d + e) (hF.mul a' b') h1 h2 hg hg2 ?_
  have hab : 0 < a * b := mul_pos hap hbp
  rw [show a' * b' - a * b = (a' - a) * b + a * (b' - b) + (a' - a) * (b' - b) by ring]
  refine (abs_add3 (le_of_eq (abs_mul _ _)) (le_of_eq (abs_mul _ _)) (le_of_eq (abs_mul _ _))).trans ?_
  rw [abs_of_pos hap, abs_of_pos hbp]
  have t1 : |a' - a| * b ≤ d / 2 ^ 45 * a * b := mul_le_mul_of_nonneg_right ha.2.2.2 hbp.le
  have t2 : a * |b' - b| ≤ a * (e / 2 ^ 45 * b) := mul_le_mul_of_nonneg_left hb.2.2.2 hap.le
  have t3 : |a' - a| * |b' - b| ≤ (d / 2 ^ 45 * a) * (e / 2 ^ 45 * b) :=
    mul_le_mul ha.2.2.2 hb.2.2.2 (abs_nonneg _) (by positivity)
  have t4 : (d / 2 ^ 45 * a) * (e / 2 ^ 45 * b) = (d / 2 ^ 45) * (e / 2 ^ 45) * (a * b) := by ring
  have t5 : ((d : ℝ) / 2 ^ 45) * (e / 2 ^ 45) ≤ 1 / 2 ^ 35 * (1 / 2 ^ 35) := mul_le_mul ha.small hb.small (by positivity) (by positivity)
  have t6 : ((d : ℝ) / 2 ^ 45) * (e / 2 ^ 45) * (a * b) ≤ 1 / 2 / 2 ^ 45 * (a * b) :=
    mul_le_mul_of_nonneg_right (t5.trans (by norm_num)) hab.le
  have t7 : (((d + e : ℕ) : ℝ) + 1 / 2) / 2 ^ 45 * (a * b) = d / 2 ^ 45 * a * b + a * (e / 2 ^ 45 * b) + 1 / 2 / 2 ^ 45 * (a * b) := by
    push_cast
    ring
  linarith

theorem rel_div (hF : F.Accurate) {a a' b b' : ℝ} {d e g : ℕ} (ha : Rel a' a d) (hb : Rel b' b e) (hg : d + e + 1 ≤ g)
    (hg2 : g ≤ 1000) (h1 : 1 / 2 ^ 900 ≤ a / b) (h2 : a / b ≤ 2 ^ 998) : Rel (F.div a' b') (a / b) g := by
  have hap := ha.pos
  have hbp := hb.pos
  have hb'p := hb.pos'
  refine Rel.round (d := d + e) (hF.div a' b' hb'p.ne') h1 h2 hg hg2 ?_
  have hq : 0 < a / b := div_pos hap hbp
  have key : |a' / b' - a / b| ≤ (d / 2 ^ 45 + e / 2 ^ 45) * (a / b) * (b / b') := by
    have e1 : a' / b' - a / b = ((a' - a) * b - a * (b' - b)) / (b * b') := by
      field_simp
      ring
    rw [e1, abs_div, abs_of_pos (mul_pos hbp hb'p), div_le_iff₀ (mul_pos hbp hb'p)]
    have e2 : (d / 2 ^ 45 + e / 2 ^ 45) * (a / b) * (b / b') * (b * b') = d / 2 ^ 45 * a * b + a * (e / 2 ^ 45 * b) := by
      field_simp
    rw [e2]
    refine (abs_sub _ _).trans ?_
    rw [abs_mul, abs_mul, abs_of_pos hap, abs_of_pos hbp]
    exact add_le_add (mul_le_mul_of_nonneg_right ha.2.2.2 hbp.le) (mul_le_mul_of_nonneg_left hb.2.2.2 hap.le)
  refine key.trans ?_
  have h3 : b / b' ≤ 1 + 2 / 2 ^ 35 := by
    rw [div_le_iff₀ hb'p]
    have := hb.bounds.1
    have h4 : b ≤ (1 + 2 / 2 ^ 35) * (b * (1 - 1 / 2 ^ 35)) := by
      have : (1 : ℝ) ≤ (1 + 2 / 2 ^ 35) * (1 - 1 / 2 ^ 35) := by norm_num
      nlinarith
    refine h4.trans ?_
    exact mul_le_mul_of_nonneg_left this (by norm_num)
  have hs : (d : ℝ) / 2 ^ 45 + e / 2 ^ 45 ≤ 2 / 2 ^ 35 := by
    have := ha.small
    have := hb.small
    have e3 : (2 : ℝ) / 2 ^ 35 = 1 / 2 ^ 35 + 1 / 2 ^ 35 := by norm_num
    linarith
  have hs0 : 0 ≤ (d : ℝ) / 2 ^ 45 + e / 2 ^ 45 := by positivity
  calc (d / 2 ^ 45 + e / 2 ^ 45) * (a / b) * (b / b') ≤ (d / 2 ^ 45 + e / 2 ^ 45) * (a / b) * (1 + 2 / 2 ^ 35) :=
        mul_le_mul_of_nonneg_left h3 (by positivity)
    _ = ((d / 2 ^ 45 + e / 2 ^ 45) + (d / 2 ^ 45 + e / 2 ^ 45) * (2 / 2 ^ 35)) * (a / b) := by ring
    _ ≤ ((d / 2 ^ 45 + e / 2 ^ 45) + 1 / 2 / 2 ^ 45) * (a / b) := by
        apply mul_le_mul_of_nonneg_right _ hq.le
        have : ((d : ℝ) / 2 ^ 45 + e / 2 ^ 45) * (2 / 2 ^ 35) ≤ 2 / 2 ^ 35 * (2 / 2 ^ 35) := mul_le_mul_of_nonneg_right hs (by positivity)
        have : (2 : ℝ) / 2 ^ 35 * (2 / 2 ^ 35) ≤ 1 / 2 / 2 ^ 45 := by norm_num
        linarith
    _ = _ := by push_cast; ring

theorem tiny900_le {a : ℝ} (h : 1 / 10 ^ 20 ≤ a) : 1 / 2 ^ 900 ≤ a :=
  le_trans (div_le_div_of_nonneg_left zero_le_one (by positivity)
    (le_trans (by norm_num : (10 : ℝ) ^ 20 ≤ 2 ^ 100) (pow_le_pow_right₀ one_le_two (by norm_num)))) h

theorem le_big998 {a : ℝ} (h : a ≤ 10 ^ 20) : a ≤ 2 ^ 998 :=
  le_trans (h.trans (by norm_num : (10 : ℝ) ^ 20 ≤ 2 ^ 100)) (pow_le_pow_right₀ one_le_two (by norm_num))

/-- a quotient of moderate size times a number that may be large -/
theorem scaled_range {x q : ℝ} (hx : 1 ≤ x) (hx2 : x ≤ 2 ^ 990) (hq : 1 / 10 ^ 20 ≤ q) (hq2 : q ≤ 2) : 1 / 2 ^ 900 ≤ x * q ∧ x * q ≤ 2 ^ 998 := by
  refine ⟨tiny900_le (by nlinarith), ?_⟩
  refine (mul_le_mul hx2 hq2 (le_trans (by positivity) hq) (by positivity)).trans ?_
  rw [show (2 : ℝ) ^ 998 = 2 ^ 990 * 2 ^ 8 by rw [← pow_add]]
  exact mul_le_mul_of_nonneg_left (by norm_num) (by positivity)

section pi
variable {x : ℕ} {l : ℝ}

theorem rel_inv (hF : F.Accurate) (h1 : 16 ≤ l) (h2 : l ≤ 700) : Rel (F.div (F.lit 1 1) l) (1 / l) 2 := by
  have := rel_div hF (rel_lit (a := 1) (b := 1) hF (tiny900_le (by norm_num)) (le_big998 (by norm_num)))
    (Rel.refl (a := l) (tiny900_le (by linarith)) (le_big998 (by linarith))) (g := 2) (by norm_num) (by norm_num)
  simp only [Nat.cast_one, div_one] at this
  refine this (tiny900_le ?_) (le_big998 ?_)
  · rw [div_le_div_iff₀ (by positivity) (by linarith)]; linarith
  · rw [div_le_iff₀ (by linarith)]; linarith

theorem rel_one (hF : F.Accurate) : Rel (F.lit 1 1) 1 1 := by
  have := rel_lit (a := 1) (b := 1) hF (tiny900_le (by norm_num)) (le_big998 (by norm_num))
  simpa using this

theorem u_bounds (h1 : 16 ≤ l) (h2 : l ≤ 700) : 1 / 700 ≤ 1 / l ∧ 1 / l ≤ 1 / 16 :=
  ⟨div_le_div_of_nonneg_left zero_le_one (by linarith) h2, div_le_div_of_nonneg_left zero_le_one (by norm_num) h1⟩

/-- the lower bound for large arguments -/
theorem rel_lo (hF : F.Accurate) (h1 : 16 ≤ l) (h2 : l ≤ 700) (hx1 : 1 ≤ x) (hx : (x : ℝ) ≤ 2 ^ 990) :
    Rel (F.div (F.ofNat x) (F.sub (F.sub l (F.lit 1 1)) (F.div (F.lit 1 1) l))) (x / (l - 1 - 1 / l)) 9 := by
  obtain ⟨u1, u2⟩ := u_bounds h1 h2
  have hx0 : (1 : ℝ) ≤ x := by exact_mod_cast hx1
  have a1 : Rel (F.sub l (F.lit 1 1)) (l - 1) 2 :=
    rel_sub hF (Rel.refl (tiny900_le (by linarith)) (le_big998 (by linarith))) (rel_one hF) (by norm_num) (by norm_num) (by linarith)
  have a2 : Rel _ (l - 1 - 1 / l) 7 := rel_sub hF a1 (rel_inv hF h1 h2) (by norm_num) (by norm_num) (by linarith)
  have hq1 : 1 / 10 ^ 20 ≤ 1 / (l - 1 - 1 / l) := by
    rw [div_le_div_iff₀ (by positivity) (by linarith)]; linarith
  have hq2 : 1 / (l - 1 - 1 / l) ≤ 2 := by
    rw [div_le_iff₀ (by linarith)]; linarith
  obtain ⟨r1, r2⟩ := scaled_range hx0 hx hq1 hq2
  rw [mul_one_div] at r1 r2
  exact rel_div hF (rel_ofNat hF hx1 (hx.trans (pow_le_pow_right₀ one_le_two (by norm_num)))) a2 (by norm_num) (by norm_num) r1 r2

theorem rel_hi3 (hF : F.Accurate) (h1 : 16 ≤ l) (h2 : l ≤ 700) (hx1 : 1 ≤ x) (hx : (x : ℝ) ≤ 2 ^ 990) :
    Rel (F.div (F.ofNat x) (F.sub (F.sub l (F.lit 1 1)) (F.mul (F.lit 12311 10000) (F.div (F.lit 1 1) l))))
      (x / (l - 1 - 12311 / 10000 * (1 / l))) 11 := by
  obtain ⟨u1, u2⟩ := u_bounds h1 h2
  have hx0 : (1 : ℝ) ≤ x := by exact_mod_cast hx1
  have a1 : Rel (F.sub l (F.lit 1 1)) (l - 1) 2 :=
    rel_sub hF (Rel.refl (tiny900_le (by linarith)) (le_big998 (by linarith))) (rel_one hF) (by norm_num) (by norm_num) (by linarith)
  have al : Rel (F.lit 12311 10000) (12311 / 10000) 1 := by
    have := rel_lit (a := 12311) (b := 10000) hF (tiny900_le (by norm_num)) (le_big998 (by norm_num))
    simpa using this
  have am := rel_mul hF al (rel_inv hF h1 h2) (g := 4) (by norm_num) (by norm_num) (tiny900_le (by linarith)) (le_big998 (by linarith))
  have a2 : Rel _ (l - 1 - 12311 / 10000 * (1 / l)) 9 := rel_sub hF a1 am (by norm_num) (by norm_num) (by linarith)
  have hq1 : 1 / 10 ^ 20 ≤ 1 / (l - 1 - 12311 / 10000 * (1 / l)) := by
    rw [div_le_div_iff₀ (by positivity) (by linarith)]; linarith
  have hq2 : 1 / (l - 1 - 12311 / 10000 * (1 / l)) ≤ 2 := by
    rw [div_le_iff₀ (by linarith)]; linarith
  obtain ⟨r1, r2⟩ := scaled_range hx0 hx hq1 hq2
  rw [mul_one_div] at r1 r2
  exact rel_div hF (rel_ofNat hF hx1 (hx.trans (pow_le_pow_right₀ one_le_two (by norm_num)))) a2 (by norm_num) (by norm_num) r1 r2

theorem rel_nu (hF : F.Accurate) (h1 : 16 ≤ l) (h2 : l ≤ 700) (hx1 : 1 ≤ x) (hx : (x : ℝ) ≤ 2 ^ 990) :
    Rel (F.mul (F.ofNat x) (F.div (F.lit 1 1) l)) (x * (1 / l)) 4 := by
  obtain ⟨u1, u2⟩ := u_bounds h1 h2
  have hx0 : (1 : ℝ) ≤ x := by exact_mod_cast hx1
  obtain ⟨r1, r2⟩ := scaled_range hx0 hx (q := 1 / l) (by linarith) (by linarith)
  exact rel_mul hF (rel_ofNat hF hx1 (hx.trans (pow_le_pow_right₀ one_le_two (by norm_num)))) (rel_inv hF h1 h2) (by norm_num) (by norm_num) r1 r2

theorem rel_hi2 (hF : F.Accurate) (h1 : 16 ≤ l) (h2 : l ≤ 700) (hx1 : 1 ≤ x) (hx : (x : ℝ) ≤ 2 ^ 990) :
    Rel (F.mul (F.mul (F.ofNat x) (F.div (F.lit 1 1) l)) (F.add (F.lit 1 1) (F.mul (F.div (F.lit 1 1) l) (F.add (F.lit 1 1)
      (F.mul (F.div (F.lit 1 1) l) (F.lit 2334 1000))))))
      (x * (1 / l) * (1 + 1 / l * (1 + 1 / l * (2334 / 1000)))) 18 := by
  obtain ⟨u1, u2⟩ := u_bounds h1 h2
  have hx0 : (1 : ℝ) ≤ x := by exact_mod_cast hx1
  have hu := rel_inv hF h1 h2
  have hn := rel_nu hF h1 h2 hx1 hx
  generalize hue : 1 / l = u at *
  have al : Rel (F.lit 2334 1000) (2334 / 1000) 1 := by
    have := rel_lit (a := 2334) (b := 1000) hF (tiny900_le (by norm_num)) (le_big998 (by norm_num))
    simpa using this
  have a1 := rel_mul hF hu al (g := 4) (by norm_num) (by norm_num) (tiny900_le (by linarith)) (le_big998 (by linarith))
  have a2 := rel_add hF (rel_one hF) a1 (g := 5) (by norm_num) (by norm_num) (by norm_num) (le_big998 (by linarith))
  have a3 := rel_mul hF hu a2 (g := 8) (by norm_num) (by norm_num) (tiny900_le (by nlinarith)) (le_big998 (by nlinarith))
  have a4 := rel_add hF (rel_one hF) a3 (g := 9) (by norm_num) (by norm_num) (by norm_num) (le_big998 (by nlinarith))
  have hq1 : 1 / 10 ^ 20 ≤ u * (1 + u * (1 + u * (2334 / 1000))) := by
    have : 0 ≤ u * (u * (1 + u * (2334 / 1000))) := mul_nonneg (by linarith) (mul_nonneg (by linarith) (by linarith))
    nlinarith
  have hq2 : u * (1 + u * (1 + u * (2334 / 1000))) ≤ 2 := by
    have : u * (1 + u * (2334 / 1000)) ≤ 1 / 16 * 2 := mul_le_mul u2 (by linarith) (by linarith) (by norm_num)
    nlinarith
  obtain ⟨r1, r2⟩ := scaled_range hx0 hx hq1 hq2
  rw [← mul_assoc] at r1 r2
  exact rel_mul hF hn a4 (by norm_num) (by norm_num) r1 r2

theorem rel_hi1 (hF : F.Accurate) (h1 : 16 ≤ l) (h2 : l ≤ 700) (hx1 : 1 ≤ x) (hx : (x : ℝ) ≤ 2 ^ 990) :
    Rel (F.mul (F.mul (F.ofNat x) (F.div (F.lit 1 1) l)) (F.add (F.lit 1 1) (F.mul (F.div (F.lit 1 1) l) (F.add (F.lit 1 1)
      (F.mul (F.div (F.lit 1 1) l) (F.add (F.lit 2 1) (F.mul (F.div (F.lit 1 1) l) (F.lit 759 100))))))))
      (x * (1 / l) * (1 + 1 / l * (1 + 1 / l * (2 + 1 / l * (759 / 100))))) 18 := by
  obtain ⟨u1, u2⟩ := u_bounds h1 h2
  have hx0 : (1 : ℝ) ≤ x := by exact_mod_cast hx1
  have hu := rel_inv hF h1 h2
  have hn := rel_nu hF h1 h2 hx1 hx
  generalize hue : 1 / l = u at *
  have al : Rel (F.lit 759 100) (759 / 100) 1 := by
    have := rel_lit (a := 759) (b := 100) hF (tiny900_le (by norm_num)) (le_big998 (by norm_num))
    simpa using this
  have al2 : Rel (F.lit 2 1) 2 1 := by
    have := rel_lit (a := 2) (b := 1) hF (tiny900_le (by norm_num)) (le_big998 (by norm_num))
    simpa using this
  have a1 := rel_mul hF hu al (g := 4) (by norm_num) (by norm_num) (tiny900_le (by linarith)) (le_big998 (by linarith))
  have a2 := rel_add hF al2 a1 (g := 5) (by norm_num) (by norm_num) (by norm_num) (le_big998 (by linarith))
  have hm : u * (2 + u * (759 / 100)) ≤ 1 / 16 * 3 := mul_le_mul u2 (by linarith) (by linarith) (by norm_num)
  have hm0 : 0 ≤ u * (2 + u * (759 / 100)) := mul_nonneg (by linarith) (by linarith)
  have a3 := rel_mul hF hu a2 (g := 8) (by norm_num) (by norm_num) (tiny900_le (by nlinarith)) (le_big998 (by linarith))
  have a4 := rel_add hF (rel_one hF) a3 (g := 9) (by norm_num) (by norm_num) (by norm_num) (le_big998 (by linarith))
  generalize hv : u * (2 + u * (759 / 100)) = v at *
  have a5 := rel_mul hF hu a4 (g := 12) (by norm_num) (by norm_num) (tiny900_le (by nlinarith)) (le_big998 (by nlinarith))
  have a6 := rel_add hF (rel_one hF) a5 (g := 13) (by norm_num) (by norm_num) (by norm_num) (le_big998 (by nlinarith))
  have hq1 : 1 / 10 ^ 20 ≤ u * (1 + u * (1 + v)) := by
    have : 0 ≤ u * (u * (1 + v)) := mul_nonneg (by linarith) (mul_nonneg (by linarith) (by linarith))
    nlinarith
  have hq2 : u * (1 + u * (1 + v)) ≤ 2 := by
    have : u * (1 + v) ≤ 1 / 16 * 2 := mul_le_mul u2 (by linarith) (by linarith) (by norm_num)
    nlinarith
  obtain ⟨r1, r2⟩ := scaled_range hx0 hx hq1 hq2
  rw [← mul_assoc] at r1 r2
  exact rel_mul hF hn a6 (by norm_num) (by norm_num) r1 r2

/-- comparison of two numbers given with relative errors -/
theorem rel_le {a a' b b' : ℝ} {d e : ℕ} (ha : Rel a' a d) (hb : Rel b' b e) (hd : d ≤ 20) (he : e ≤ 20) (h : a * (1 + 50 / 2 ^ 45) ≤ b) :
    a' ≤ b' := by
  have hap := ha.pos
  have hbp := hb.pos
  have hd' : (d : ℝ) ≤ 20 := by exact_mod_cast hd
  have he' : (e : ℝ) ≤ 20 := by exact_mod_cast he
  have h1 := (abs_le.mp ha.2.2.2).2
  have h2 := (abs_le.mp hb.2.2.2).1
  have h3 : (d : ℝ) / 2 ^ 45 * a ≤ 20 / 2 ^ 45 * a := by gcongr
  have h4 : (e : ℝ) / 2 ^ 45 * b ≤ 20 / 2 ^ 45 * b := by gcongr
  have h5 : a * (1 + 50 / 2 ^ 45) * (1 - 20 / 2 ^ 45) ≤ b * (1 - 20 / 2 ^ 45) := mul_le_mul_of_nonneg_right h (by norm_num)
  have h6 : a * (1 + 20 / 2 ^ 45) ≤ a * ((1 + 50 / 2 ^ 45) * (1 - 20 / 2 ^ 45)) := mul_le_mul_of_nonneg_left (by norm_num) hap.le
  linarith

theorem lo_le_hi3 (h1 : 16 ≤ l) (h2 : l ≤ 700) (hx1 : 1 ≤ x) :
    x / (l - 1 - 1 / l) * (1 + 50 / 2 ^ 45) ≤ x / (l - 1 - 12311 / 10000 * (1 / l)) := by
  obtain ⟨u1, u2⟩ := u_bounds h1 h2
  have hx0 : (1 : ℝ) ≤ x := by exact_mod_cast hx1
  generalize 1 / l = u at *
  rw [div_mul_eq_mul_div, div_le_div_iff₀ (by linarith) (by linarith), mul_assoc]
  apply mul_le_mul_of_nonneg_left _ (by linarith)
  have : (50 / 2 ^ 45 : ℝ) * (l - 1 - 12311 / 10000 * u) ≤ 50 / 2 ^ 45 * 700 := mul_le_mul_of_nonneg_left (by linarith) (by norm_num)
  have : (50 / 2 ^ 45 : ℝ) * 700 ≤ 2311 / 10000 * (1 / 700) := by norm_num
  linarith

theorem lo_le_series {P : ℝ} (h1 : 16 ≤ l) (h2 : l ≤ 700) (hP : 1 + 50 / 2 ^ 45 ≤ P * (1 - 1 / l - (1 / l) ^ 2)) :
    x / (l - 1 - 1 / l) * (1 + 50 / 2 ^ 45) ≤ x * (1 / l) * P := by
  obtain ⟨u1, u2⟩ := u_bounds h1 h2
  have hx0 : (0 : ℝ) ≤ x := Nat.cast_nonneg x
  have hl : l * (1 / l) = 1 := by field_simp
  generalize 1 / l = u at *
  rw [div_mul_eq_mul_div, div_le_iff₀ (by linarith)]
  have : x * u * P * (l - 1 - u) = x * (P * (l * u - u - u ^ 2)) := by ring
  rw [this, hl]
  exact mul_le_mul_of_nonneg_left hP hx0

theorem log_ge_of_exp {x : ℕ} {c : ℝ} (hx : 1 ≤ x) (h : Real.exp c ≤ x) : c ≤ Real.log x :=
  (Real.le_log_iff_exp_le (by exact_mod_cast hx)).mpr h

theorem exp_le_of {n : ℕ} {c : ℝ} (h : (27183 / 10000 : ℝ) ^ n * (10 / 9) ≤ c) : Real.exp (n + 1 / 10) ≤ c := by
  have h1 : Real.exp 1 ≤ 27183 / 10000 := by have := Real.exp_one_lt_d9; linarith
  have h2 : Real.exp (n : ℝ) = Real.exp 1 ^ n := by rw [← Real.exp_nat_mul, mul_one]
  have h3 : Real.exp (1 / 10 : ℝ) ≤ 10 / 9 := by
    have := Real.exp_bound_div_one_sub_of_interval (x := 1 / 10) (by norm_num) (by norm_num)
    linarith
  rw [Real.exp_add, h2]
  refine le_trans (mul_le_mul (pow_le_pow_left₀ (Real.exp_pos 1).le h1 n) h3 (Real.exp_pos _).le (by positivity)) h

theorem log_ge_of {x n c : ℕ} (h : (27183 / 10000 : ℝ) ^ n * (10 / 9) ≤ c) (hx : c ≤ x) (hx1 : 1 ≤ x) : (n : ℝ) + 1 / 10 ≤ Real.log x :=
  (Real.le_log_iff_exp_le (by exact_mod_cast hx1)).mpr ((exp_le_of h).trans (by exact_mod_cast hx))

theorem log_le_of {x n c : ℕ} (h : (c : ℝ) ≤ (27182 / 10000 : ℝ) ^ n) (hx : x ≤ c) (hx1 : 1 ≤ x) : Real.log x ≤ n := by
  rw [Real.log_le_iff_le_exp (by exact_mod_cast hx1)]
  have h1 : 27182 / 10000 ≤ Real.exp 1 := by have := Real.exp_one_gt_d9; linarith
  have h2 : Real.exp (n : ℝ) = Real.exp 1 ^ n := by rw [← Real.exp_nat_mul, mul_one]
  have h3 : (x : ℝ) ≤ c := by exact_mod_cast hx
  rw [h2]
  exact h3.trans (h.trans (pow_le_pow_left₀ (by norm_num) h1 n))

/-- the bounds of `prime_pi_bounds` for large arguments are ordered and in range -/
theorem fPi_far (hF : F.Accurate) {x : ℕ} (h : 11534336 ≤ x) (hx : x ≤ 2 ^ 990) :
    1 ≤ fPiLo F x ∧ fPiLo F x ≤ fPiHi F x ∧ fPiHi F x < x / 2 ∧ 99 / 100 * x ≤ fPiLo F x * Real.log x ∧
      fPiHi F x * Real.log x ≤ 13 / 10 * x := by
  obtain ⟨-, hl⟩ := fln_arg hF (show 3 ≤ x by omega) hx
  have hxr : (x : ℝ) ≤ 2 ^ 990 := by
    have : ((x : ℕ) : ℝ) ≤ ((2 ^ 990 : ℕ) : ℝ) := Nat.cast_le.mpr hx
    rwa [Nat.cast_pow, Nat.cast_ofNat] at this
  have hx0 : (11534336 : ℝ) ≤ x := by exact_mod_cast h
  have hlog := log_ge_of (n := 16) (c := 11534336) (by norm_num) h (by omega)
  have hlog2 := log_le_687 (by omega) hx
  have hd : (1 : ℝ) / 2 ^ 38 ≤ 1 / 100 := by norm_num
  obtain ⟨hl1, hl2⟩ := abs_le.mp hl
  have hs : ∃ a d, d ≤ 20 ∧ Rel (fPiHi F x) a d ∧ x / (F.ln (F.ofNat x) - 1 - 1 / F.ln (F.ofNat x)) * (1 + 50 / 2 ^ 45) ≤ a ∧ a ≤ x * (1 / F.ln (F.ofNat x)) * (5 / 4) := by
    simp only [fPiHi]
    have hg1 : 2953652287 ≤ x → 21 ≤ F.ln (F.ofNat x) := fun hg => by
      have := log_ge_of (n := 21) (c := 2953652287) (by norm_num) hg (by omega)
      push_cast at this
      linarith
    have hg2 : x < 7398600000 → F.ln (F.ofNat x) ≤ 24 := fun hg => by
      have := log_le_of (n := 23) (c := 7398600000) (by norm_num) hg.le (by omega)
      push_cast at this
      linarith
    have k1 : 16 ≤ F.ln (F.ofNat x) := by push_cast at hlog; linarith
    have k2 : F.ln (F.ofNat x) ≤ 700 := by linarith
    generalize F.ln (F.ofNat x) = l at *
    obtain ⟨u1, u2⟩ := u_bounds k1 k2
    split
    · refine ⟨_, 18, by norm_num, rel_hi1 hF k1 k2 (by omega) hxr, lo_le_series k1 k2 ?_, ?_⟩
      · generalize 1 / l = u at *
        have e1 : (1 + u * (1 + u * (2 + u * (759 / 100)))) * (1 - u - u ^ 2) =
          1 + u ^ 3 * (459 / 100 - 959 / 100 * u - 759 / 100 * u ^ 2) := by ring
        have e2 : 1 ≤ 459 / 100 - 959 / 100 * u - 759 / 100 * u ^ 2 := by
          clear hx hxr
          nlinarith
        have e3 : (1 / 700) ^ 3 ≤ u ^ 3 := pow_le_pow_left₀ (by norm_num) u1 3
        have e4 : (1 / 700 : ℝ) ^ 3 * 1 ≤ u ^ 3 * (459 / 100 - 959 / 100 * u - 759 / 100 * u ^ 2) :=
          mul_le_mul e3 e2 zero_le_one (by positivity)
        rw [e1]
        have e5 : (50 / 2 ^ 45 : ℝ) ≤ (1 / 700 : ℝ) ^ 3 * 1 := by norm_num
        linarith
      · generalize 1 / l = u at *
        have hm : u * (2 + u * (759 / 100)) ≤ 1 / 16 * 3 := mul_le_mul u2 (by linarith) (by linarith) (by norm_num)
        have hm0 : 0 ≤ u * (2 + u * (759 / 100)) := mul_nonneg (by linarith) (by linarith)
        have hm2 : u * (1 + u * (2 + u * (759 / 100))) ≤ 1 / 16 * 2 := mul_le_mul u2 (by linarith) (by linarith) (by norm_num)
        exact mul_le_mul_of_nonneg_left (by linarith) (mul_nonneg (by linarith) (by linarith))
    · split
      · have k3 := hg1 (by omega)
        have k4 := hg2 (by omega)
        have u3 : 1 / l ≤ 1 / 21 := div_le_div_of_nonneg_left zero_le_one (by norm_num) k3
        have u4 : 1 / 24 ≤ 1 / l := div_le_div_of_nonneg_left zero_le_one (by linarith) k4
        refine ⟨_, 18, by norm_num, rel_hi2 hF k1 k2 (by omega) hxr, lo_le_series k1 k2 ?_, ?_⟩
        · generalize 1 / l = u at *
          have e1 : (1 + u * (1 + u * (2334 / 1000))) * (1 - u - u ^ 2) =
            1 + u ^ 2 * (334 / 1000 - 3334 / 1000 * u - 2334 / 1000 * u ^ 2) := by ring
          have e2 : 1 / 10 ≤ 334 / 1000 - 3334 / 1000 * u - 2334 / 1000 * u ^ 2 := by
            clear hx hxr
            nlinarith
          have e3 : (1 / 24) ^ 2 ≤ u ^ 2 := pow_le_pow_left₀ (by norm_num) u4 2
          have e4 : (1 / 24 : ℝ) ^ 2 * (1 / 10) ≤ u ^ 2 * (334 / 1000 - 3334 / 1000 * u - 2334 / 1000 * u ^ 2) :=
            mul_le_mul e3 e2 (by norm_num) (by positivity)
          rw [e1]
          have e5 : (50 / 2 ^ 45 : ℝ) ≤ (1 / 24 : ℝ) ^ 2 * (1 / 10) := by norm_num
          linarith
        · generalize 1 / l = u at *
          have hm2 : u * (1 + u * (2334 / 1000)) ≤ 1 / 16 * 2 := mul_le_mul u2 (by linarith) (by linarith) (by norm_num)
          have hm0 : 0 ≤ u * (1 + u * (2334 / 1000)) := mul_nonneg (by linarith) (by linarith)
          exact mul_le_mul_of_nonneg_left (by linarith) (mul_nonneg (by linarith) (by linarith))
      · rw [if_pos (by omega)]
        refine ⟨_, 11, by norm_num, rel_hi3 hF k1 k2 (by omega) hxr, lo_le_hi3 k1 k2 (by omega), ?_⟩
        rw [show (x : ℝ) * (1 / l) * (5 / 4) = x * (5 / 4) / l by ring, div_le_div_iff₀ (by linarith) (by linarith), mul_assoc]
        exact mul_le_mul_of_nonneg_left (by linarith) (by linarith)
  have k1 : 16 ≤ F.ln (F.ofNat x) := by push_cast at hlog; linarith
  have k2 : F.ln (F.ofNat x) ≤ 700 := by linarith
  have hlo : Rel (fPiLo F x) (x / (F.ln (F.ofNat x) - 1 - 1 / F.ln (F.ofNat x))) 9 := by
    simp only [fPiLo]
    rw [if_pos (by omega)]
    exact rel_lo hF k1 k2 (by omega) hxr
  obtain ⟨a, d, hd20, ha, hle, hlt⟩ := hs
  refine ⟨?_, rel_le hlo ha (by norm_num) hd20 hle, ?_, ?_, ?_⟩
  · obtain ⟨u1, u2⟩ := u_bounds k1 k2
    have h5 := hlo.bounds.1
    have h6 : (11534336 : ℝ) / 700 ≤ x / (F.ln (F.ofNat x) - 1 - 1 / F.ln (F.ofNat x)) :=
      div_le_div₀ (by linarith) hx0 (by linarith) (by linarith)
    have h7 : (11534336 : ℝ) / 700 * (1 - 1 / 2 ^ 35) ≤ x / (F.ln (F.ofNat x) - 1 - 1 / F.ln (F.ofNat x)) * (1 - 1 / 2 ^ 35) :=
      mul_le_mul_of_nonneg_right h6 (by norm_num)
    have h8 : (1 : ℝ) ≤ 11534336 / 700 * (1 - 1 / 2 ^ 35) := by norm_num
    linarith
  · have h5 := ha.bounds.2
    have hq : (x : ℝ) * (1 / F.ln (F.ofNat x)) * (5 / 4) ≤ x / 4 := by
      have := mul_le_mul_of_nonneg_left (u_bounds k1 k2).2 (show (0 : ℝ) ≤ x by linarith)
      linarith
    have h6 : a * (1 + 1 / 2 ^ 35) ≤ x / 4 * (1 + 1 / 2 ^ 35) := mul_le_mul_of_nonneg_right (hlt.trans hq) (by norm_num)
    have h7 : (x : ℝ) / 4 * (1 + 1 / 2 ^ 35) < x / 2 := by
      have : (x : ℝ) / 4 * (1 + 1 / 2 ^ 35) ≤ x / 4 * (3 / 2) := mul_le_mul_of_nonneg_left (by norm_num) (by linarith)
      linarith
    linarith
  · obtain ⟨u1, u2⟩ := u_bounds k1 k2
    have h5 := hlo.bounds.1
    have hL : F.ln (F.ofNat x) - 1 - 1 / F.ln (F.ofNat x) ≤ Real.log x := by linarith
    have hp : 0 < F.ln (F.ofNat x) - 1 - 1 / F.ln (F.ofNat x) := by linarith
    have h6 : (x : ℝ) / (F.ln (F.ofNat x) - 1 - 1 / F.ln (F.ofNat x)) * (99 / 100) ≤ fPiLo F x := by
      refine le_trans (mul_le_mul_of_nonneg_left (by norm_num) (by positivity)) h5
    have h7 : (x : ℝ) / (F.ln (F.ofNat x) - 1 - 1 / F.ln (F.ofNat x)) * (99 / 100) * Real.log x ≤ fPiLo F x * Real.log x :=
      mul_le_mul_of_nonneg_right h6 (by linarith)
    have h8 : (x : ℝ) ≤ x / (F.ln (F.ofNat x) - 1 - 1 / F.ln (F.ofNat x)) * Real.log x := by
      rw [div_mul_eq_mul_div, le_div_iff₀ hp]
      exact mul_le_mul_of_nonneg_left hL (by linarith)
    linarith
  · have h5 := ha.bounds.2
    have hlp : 0 < Real.log x := by push_cast at hlog; linarith
    have h6 : fPiHi F x ≤ x * (1 / F.ln (F.ofNat x)) * (51 / 40) := by
      refine h5.trans ?_
      have : a * (1 + 1 / 2 ^ 35) ≤ x * (1 / F.ln (F.ofNat x)) * (5 / 4) * (1 + 1 / 2 ^ 35) := mul_le_mul_of_nonneg_right hlt (by norm_num)
      have hx1 : 0 ≤ (x : ℝ) * (1 / F.ln (F.ofNat x)) := by positivity
      have hx2 : x * (1 / F.ln (F.ofNat x)) * ((5 / 4) * (1 + 1 / 2 ^ 35)) ≤ x * (1 / F.ln (F.ofNat x)) * (51 / 40) :=
        mul_le_mul_of_nonneg_left (by norm_num) hx1
      linarith
    have h7 : fPiHi F x * Real.log x ≤ x * (1 / F.ln (F.ofNat x)) * (51 / 40) * Real.log x := mul_le_mul_of_nonneg_right h6 hlp.le
    have h8 : 1 / F.ln (F.ofNat x) * Real.log x ≤ 101 / 100 := by
      rw [div_mul_eq_mul_div, div_le_iff₀ (by linarith)]
      linarith
    have h9 : (x : ℝ) * (1 / F.ln (F.ofNat x)) * (51 / 40) * Real.log x = x * (51 / 40) * (1 / F.ln (F.ofNat x) * Real.log x) := by ring
    have h10 : (x : ℝ) * (51 / 40) * (1 / F.ln (F.ofNat x) * Real.log x) ≤ x * (51 / 40) * (101 / 100) :=
      mul_le_mul_of_nonneg_left h8 (by linarith)
    linarith

end pi

/-! ## the bounds of the `n`-th prime -/

theorem round_abs {e v M : ℝ} (hr : Rounds e v) (h1 : -M ≤ e) (h2 : e ≤ M) (hM : M ≤ 2000) : |v - e| ≤ 1 / 2 ^ 36 := by
  have := hr.le (abs_le.mpr ⟨h1, h2⟩) (big_le (by linarith))
  have := tiny_le
  have : M / 2 ^ 48 ≤ 2000 / 2 ^ 48 := div_le_div_of_nonneg_right hM (by positivity)
  have : (2000 : ℝ) / 2 ^ 48 + 1 / 2 ^ 60 ≤ 1 / 2 ^ 36 := by norm_num
  linarith

section nth
variable {l ll : ℝ}

/-- the common part of the formulas -/
noncomputable def nthP (F : FloatOps) (l ll : ℝ) : ℝ :=
  F.add (F.sub (F.add l ll) (F.lit 1 1)) (F.div (F.sub ll (F.lit 2 1)) l)

theorem nthP_bounds (hF : F.Accurate) (h1 : 13 ≤ l) (h2 : l ≤ 700) (h3 : -1 ≤ ll) (h4 : ll ≤ 8) :
    10 ≤ nthP F l ll ∧ nthP F l ll ≤ 720 ∧ l + ll - 3 / 2 ≤ nthP F l ll ∧ nthP F l ll ≤ l + ll + 1 / 5 := by
  have e1 := abs_le.mp (round_abs (M := 2000) (hF.add l ll) (by linarith) (by linarith) le_rfl)
  have e2 := abs_le.mp (round_abs (M := 2000) (hF.lit 1 1) (by norm_num) (by norm_num) le_rfl)
  have e3 := abs_le.mp (round_abs (M := 2000) (hF.lit 2 1) (by norm_num) (by norm_num) le_rfl)
  norm_num at e2 e3
  have hs : (1 : ℝ) / 2 ^ 36 ≤ 1 / 100 := by norm_num
  have e4 := abs_le.mp (round_abs (M := 2000) (hF.sub (F.add l ll) (F.lit 1 1)) (by linarith) (by linarith) le_rfl)
  have e5 := abs_le.mp (round_abs (M := 2000) (hF.sub ll (F.lit 2 1)) (by linarith) (by linarith) le_rfl)
  have q1 : -(4 / 10) ≤ F.sub ll (F.lit 2 1) / l := by rw [le_div_iff₀ (by linarith)]; linarith
  have q2 : F.sub ll (F.lit 2 1) / l ≤ 1 := by rw [div_le_iff₀ (by linarith)]; linarith
  have e6 := abs_le.mp (round_abs (M := 2000) (hF.div (F.sub ll (F.lit 2 1)) l (by linarith)) (by linarith) (by linarith) le_rfl)
  have e7 := abs_le.mp (round_abs (M := 2000) (hF.add (F.sub (F.add l ll) (F.lit 1 1)) (F.div (F.sub ll (F.lit 2 1)) l)) (by linarith) (by linarith) le_rfl)
  refine ⟨?_, ?_, ?_, ?_⟩ <;> unfold nthP <;> linarith

/-- the denominator -/
noncomputable def nthD (F : FloatOps) (l : ℝ) : ℝ := F.mul (F.mul (F.lit 2 1) l) l

theorem nthD_bounds (hF : F.Accurate) (h1 : 13 ≤ l) (h2 : l ≤ 700) : 100 ≤ nthD F l ∧ nthD F l ≤ 10 ^ 6 := by
  have hl : Rel l l 0 := Rel.refl (tiny900_le (by linarith)) (le_big998 (by linarith))
  have a1 := rel_mul hF (rel_lit (a := 2) (b := 1) hF (tiny900_le (by norm_num)) (le_big998 (by norm_num))) hl (g := 2) (by norm_num)
    (by norm_num) (by norm_num1; exact tiny900_le (by linarith)) (by norm_num1; exact le_big998 (by linarith))
  have a2 := rel_mul hF a1 hl (g := 3) (by norm_num) (by norm_num) (by norm_num1; exact tiny900_le (by nlinarith))
    (by norm_num1; exact le_big998 (by nlinarith))
  have hb := a2.bounds
  norm_num at hb
  constructor <;> unfold nthD <;> nlinarith

/-- the numerator -/
noncomputable def nthS (F : FloatOps) (ll : ℝ) (a b : ℕ) : ℝ := F.add (F.sub (F.mul ll ll) (F.mul (F.lit 6 1) ll)) (F.lit a b)

theorem nthS_near (hF : F.Accurate) (h3 : -1 ≤ ll) (h4 : ll ≤ 8) {a b : ℕ} (hc : (a : ℝ) / b ≤ 12) :
    |nthS F ll a b - (F.sub (F.mul ll ll) (F.mul (F.lit 6 1) ll) + a / b)| ≤ 1 / 2 ^ 35 ∧
      |F.sub (F.mul ll ll) (F.mul (F.lit 6 1) ll) - (ll ^ 2 - 6 * ll)| ≤ 1 / 2 ^ 30 := by
  have hs : (1 : ℝ) / 2 ^ 36 ≤ 1 / 100 := by norm_num
  have hc0 : 0 ≤ (a : ℝ) / b := by positivity
  have e1 := abs_le.mp (round_abs (M := 2000) (hF.mul ll ll) (by nlinarith) (by nlinarith) le_rfl)
  have e2 := abs_le.mp (round_abs (M := 2000) (hF.lit 6 1) (by norm_num) (by norm_num) le_rfl)
  norm_num at e2
  have t1 : -(1 / 2 ^ 36 * 8) ≤ (F.lit 6 1 - 6) * ll ∧ (F.lit 6 1 - 6) * ll ≤ 1 / 2 ^ 36 * 8 := by
    apply abs_le.mp
    rw [abs_mul]
    refine mul_le_mul ?_ (abs_le.mpr ⟨by linarith, h4⟩) (abs_nonneg _) (by norm_num)
    rw [abs_le]
    norm_num
    constructor <;> linarith
  have t2 : F.lit 6 1 * ll = (F.lit 6 1 - 6) * ll + 6 * ll := by ring
  have e3 := abs_le.mp (round_abs (M := 2000) (hF.mul (F.lit 6 1) ll) (by linarith) (by linarith) le_rfl)
  have hq : 0 ≤ ll ^ 2 ∧ ll ^ 2 ≤ 64 := ⟨by positivity, by nlinarith⟩
  have hq2 : ll * ll = ll ^ 2 := by ring
  rw [hq2] at e1
  have e4 := abs_le.mp (round_abs (M := 2000) (hF.sub (F.mul ll ll) (F.mul (F.lit 6 1) ll)) (by linarith) (by linarith) le_rfl)
  have e5 := abs_le.mp (round_abs (M := 2000) (hF.lit a b) (by linarith) (by linarith) le_rfl)
  have e6 := abs_le.mp (round_abs (M := 2000) (hF.add (F.sub (F.mul ll ll) (F.mul (F.lit 6 1) ll)) (F.lit a b)) (by linarith) (by linarith) le_rfl)
  refine ⟨abs_le.mpr ?_, abs_le.mpr ?_⟩
  · unfold nthS
    have : (1 : ℝ) / 2 ^ 35 = 1 / 2 ^ 36 + 1 / 2 ^ 36 := by norm_num
    constructor <;> linarith
  · have : (1 : ℝ) / 2 ^ 36 + 1 / 2 ^ 36 + 1 / 2 ^ 36 + 1 / 2 ^ 36 * 8 ≤ 1 / 2 ^ 30 := by norm_num
    constructor <;> linarith

/-- the last term of the sum -/
theorem nthQ_near (hF : F.Accurate) {D s : ℝ} (hD : 100 ≤ D) (hD2 : D ≤ 10 ^ 6) (hs1 : 0 ≤ s) (hs2 : s ≤ 30) :
    |F.div s D - s / D| ≤ 1 / 2 ^ 40 / D := by
  have hq : |s / D| ≤ 30 / D := by
    rw [abs_of_nonneg (by positivity)]
    exact div_le_div_of_nonneg_right hs2 (by linarith)
  have hq2 : 30 / D ≤ 1 := by rw [div_le_one (by linarith)]; linarith
  have := (hF.div s D (by linarith)).le hq (big_le (by linarith))
  refine this.trans ?_
  have t : (1 : ℝ) / 2 ^ 1000 ≤ 1 / 2 ^ 42 / D := by
    refine le_trans (div_le_div_of_nonneg_left zero_le_one (by positivity) (pow_le_pow_right₀ one_le_two (show 100 ≤ 1000 by norm_num))) ?_
    rw [le_div_iff₀ (by linarith)]
    have : (1 : ℝ) / 2 ^ 100 * D ≤ 1 / 2 ^ 100 * 10 ^ 6 := mul_le_mul_of_nonneg_left hD2 (by norm_num)
    have : (1 : ℝ) / 2 ^ 100 * 10 ^ 6 ≤ 1 / 2 ^ 42 := by norm_num
    linarith
  have e : (30 : ℝ) / D / 2 ^ 48 + 1 / 2 ^ 42 / D ≤ 1 / 2 ^ 40 / D := by
    have : (30 : ℝ) / D / 2 ^ 48 + 1 / 2 ^ 42 / D = (30 / 2 ^ 48 + 1 / 2 ^ 42) / D := by ring
    rw [this]
    exact div_le_div_of_nonneg_right (by norm_num) (by linarith)
  linarith

/-- products with the argument preserve a clear inequality -/
theorem fmul_mono (hF : F.Accurate) {n e e' : ℝ} (hn : 1 ≤ n) (hn2 : n ≤ 2 ^ 990 * (11 / 10)) (he : 5 ≤ e) (he' : e' ≤ 730) (h : e + 1 / 10 ^ 7 ≤ e') :
    n * (e - 1 / 100) ≤ F.mul n e ∧ F.mul n e ≤ F.mul n e' ∧ F.mul n e' ≤ n * (e' + 1 / 100) := by
  have key : ∀ v, 5 ≤ v → v ≤ 730 → |F.mul n v - n * v| ≤ n * (1 / 2 ^ 37) := by
    intro v hv hv2
    have h1 : |n * v| ≤ n * 730 := by
      rw [abs_of_nonneg (by positivity)]
      exact mul_le_mul_of_nonneg_left hv2 (by linarith)
    have h2 : n * 730 ≤ 2 ^ 1000 := by
      rw [show (2 : ℝ) ^ 1000 = 2 ^ 990 * 2 ^ 10 by rw [← pow_add]]
      have := mul_le_mul_of_nonneg_right hn2 (show (0 : ℝ) ≤ 730 by norm_num)
      have h9 : (0 : ℝ) < 2 ^ 990 := by positivity
      clear h1 hn2
      generalize (2 : ℝ) ^ 990 = X at *
      linarith
    have h3 := (hF.mul n v).le h1 h2
    have h4 := tiny_le
    have h5 : (1 : ℝ) / 2 ^ 60 ≤ n * (1 / 2 ^ 60) := le_mul_of_one_le_left (by positivity) hn
    have h6 : n * 730 / 2 ^ 48 + n * (1 / 2 ^ 60) ≤ n * (1 / 2 ^ 37) := by
      have : n * 730 / 2 ^ 48 + n * (1 / 2 ^ 60) = n * (730 / 2 ^ 48 + 1 / 2 ^ 60) := by ring
      rw [this]
      exact mul_le_mul_of_nonneg_left (by norm_num) (by linarith)
    linarith
  have k1 := abs_le.mp (key e he (by linarith))
  have k2 := abs_le.mp (key e' (by linarith) he')
  have m1 : n * (e + 1 / 10 ^ 7) ≤ n * e' := mul_le_mul_of_nonneg_left h (by linarith)
  have m2 : n * (2 / 2 ^ 37) ≤ n * (1 / 10 ^ 7) := mul_le_mul_of_nonneg_left (by norm_num) (by linarith)
  have m5 : n * (1 / 2 ^ 37) ≤ n * (1 / 100) := mul_le_mul_of_nonneg_left (by norm_num) (by linarith)
  refine ⟨by linarith, by linarith, by linarith⟩

theorem nthB_pair (hF : F.Accurate) {n : ℝ} (hn : 1 ≤ n) (hn2 : n ≤ 2 ^ 990 * (11 / 10)) (h1 : 13 ≤ l) (h2 : l ≤ 700) (h3 : -1 ≤ ll) (h4 : ll ≤ 8)
    {a b : ℕ} (hc : 10 ≤ (a : ℝ) / b) (hc2 : (a : ℝ) / b + 6 / 10 ≤ (11321 : ℕ) / (1000 : ℕ)) :
    n * (l + ll - 5 / 2) ≤ fNthB F n l ll 11321 1000 ∧ fNthB F n l ll 11321 1000 ≤ fNthB F n l ll a b ∧
      fNthB F n l ll a b ≤ n * (l + ll + 1 / 2) := by
  obtain ⟨p1, p2, p3, p4⟩ := nthP_bounds hF h1 h2 h3 h4
  obtain ⟨d1, d2⟩ := nthD_bounds hF h1 h2
  obtain ⟨s1, q⟩ := nthS_near hF h3 h4 (a := 11321) (b := 1000) (by norm_num)
  obtain ⟨s2, -⟩ := nthS_near hF h3 h4 (a := a) (b := b) (hc2.trans' (by linarith) |>.trans (by norm_num))
  have hsq := sq_nonneg (ll - 3)
  have hsq2 : (ll - 3) ^ 2 ≤ 25 := by nlinarith
  have hsm : (1 : ℝ) / 2 ^ 30 ≤ 1 / 1000 := by norm_num
  have hsm2 : (1 : ℝ) / 2 ^ 35 ≤ 1 / 1000 := by norm_num
  have hll : ll ^ 2 - 6 * ll = (ll - 3) ^ 2 - 9 := by ring
  rw [hll] at q
  rw [abs_le] at q s1 s2
  have r1 := nthQ_near hF d1 d2 (s := nthS F ll 11321 1000) (by norm_num at s1 ⊢; linarith) (by norm_num at s1 ⊢; linarith)
  have r2 := nthQ_near hF d1 d2 (s := nthS F ll a b) (by linarith) (by norm_num at s2 hc2 ⊢; linarith)
  have hdiff : 1 / 2 ≤ nthS F ll 11321 1000 - nthS F ll a b := by linarith
  have hdd : 1 / 2 / nthD F l ≤ nthS F ll 11321 1000 / nthD F l - nthS F ll a b / nthD F l := by
    rw [← sub_div]
    exact div_le_div_of_nonneg_right hdiff (by linarith)
  have h40 : (1 : ℝ) / 2 ^ 40 / nthD F l ≤ 1 / 10 / nthD F l := div_le_div_of_nonneg_right (by norm_num) (by linarith)
  have e10 : (1 : ℝ) / 2 / nthD F l = 5 * (1 / 10 / nthD F l) := by ring
  have hlow : (1 : ℝ) / 10 ^ 7 ≤ 1 / 10 / nthD F l := by
    rw [div_div, div_le_div_iff₀ (by positivity) (by linarith)]
    linarith
  have up1 : nthS F ll 11321 1000 / nthD F l ≤ 1 / 2 := by
    rw [div_le_iff₀ (by linarith)]
    norm_num at s1
    linarith
  have lo2 : 0 ≤ nthS F ll a b / nthD F l := div_nonneg (by linarith) (by linarith)
  rw [abs_le] at r1 r2
  have h40' : (1 : ℝ) / 10 / nthD F l ≤ 1 / 1000 := by
    rw [div_div, div_le_div_iff₀ (by linarith) (by positivity)]
    linarith
  have f1 := abs_le.mp (round_abs (M := 2000) (hF.sub (nthP F l ll) (F.div (nthS F ll 11321 1000) (nthD F l))) (by linarith) (by linarith) le_rfl)
  have f2 := abs_le.mp (round_abs (M := 2000) (hF.sub (nthP F l ll) (F.div (nthS F ll a b) (nthD F l))) (by linarith) (by linarith) le_rfl)
  have h36 : (1 : ℝ) / 2 ^ 36 ≤ 1 / 10 / nthD F l / 10 := by
    refine le_trans (by norm_num : (1 : ℝ) / 2 ^ 36 ≤ 1 / 10 ^ 7 / 10) ?_
    linarith
  obtain ⟨g1, g2, g3⟩ := fmul_mono hF (e := F.sub (nthP F l ll) (F.div (nthS F ll 11321 1000) (nthD F l)))
    (e' := F.sub (nthP F l ll) (F.div (nthS F ll a b) (nthD F l))) hn hn2 (by linarith) (by linarith) (by linarith)
  exact ⟨le_trans (mul_le_mul_of_nonneg_left (by linarith) (by linarith)) g1, g2,
    g3.trans (mul_le_mul_of_nonneg_left (by linarith) (by linarith))⟩

theorem nthA_pair (hF : F.Accurate) {n : ℝ} (hn : 1 ≤ n) (hn2 : n ≤ 2 ^ 990 * (11 / 10)) (h1 : 13 ≤ l) (h2 : l ≤ 700) (h3 : -1 ≤ ll) (h4 : ll ≤ 8) :
    n * (l + ll - 5 / 2) ≤ fNthB F n l ll 11321 1000 ∧ fNthB F n l ll 11321 1000 ≤ fNthA F n l ll 2 1 ∧
      fNthA F n l ll 2 1 ≤ n * (l + ll + 1 / 2) := by
  obtain ⟨p1, p2, p3, p4⟩ := nthP_bounds hF h1 h2 h3 h4
  obtain ⟨d1, d2⟩ := nthD_bounds hF h1 h2
  obtain ⟨s1, q⟩ := nthS_near hF h3 h4 (a := 11321) (b := 1000) (by norm_num)
  have hsq := sq_nonneg (ll - 3)
  have hsq2 : (ll - 3) ^ 2 ≤ 25 := by nlinarith
  have hsm : (1 : ℝ) / 2 ^ 30 ≤ 1 / 1000 := by norm_num
  have hsm2 : (1 : ℝ) / 2 ^ 35 ≤ 1 / 1000 := by norm_num
  have hll : ll ^ 2 - 6 * ll = (ll - 3) ^ 2 - 9 := by ring
  rw [hll] at q
  rw [abs_le] at q s1
  norm_num at s1
  have r1 := nthQ_near hF d1 d2 (s := nthS F ll 11321 1000) (by linarith) (by linarith)
  have hdiff : 1 / 2 ≤ nthS F ll 11321 1000 := by linarith
  have hdd : 1 / 2 / nthD F l ≤ nthS F ll 11321 1000 / nthD F l := div_le_div_of_nonneg_right hdiff (by linarith)
  have h40 : (1 : ℝ) / 2 ^ 40 / nthD F l ≤ 1 / 10 / nthD F l := div_le_div_of_nonneg_right (by norm_num) (by linarith)
  have e10 : (1 : ℝ) / 2 / nthD F l = 5 * (1 / 10 / nthD F l) := by ring
  have hlow : (1 : ℝ) / 10 ^ 7 ≤ 1 / 10 / nthD F l := by
    rw [div_div, div_le_div_iff₀ (by positivity) (by linarith)]
    linarith
  have up1 : nthS F ll 11321 1000 / nthD F l ≤ 1 / 2 := by
    rw [div_le_iff₀ (by linarith)]
    linarith
  rw [abs_le] at r1
  have h40' : (1 : ℝ) / 10 / nthD F l ≤ 1 / 1000 := by
    rw [div_div, div_le_div_iff₀ (by linarith) (by positivity)]
    linarith
  have f1 := abs_le.mp (round_abs (M := 2000) (hF.sub (nthP F l ll) (F.div (nthS F ll 11321 1000) (nthD F l))) (by linarith) (by linarith) le_rfl)
  have h36 : (1 : ℝ) / 2 ^ 36 ≤ 1 / 10 / nthD F l / 10 := by
    refine le_trans (by norm_num : (1 : ℝ) / 2 ^ 36 ≤ 1 / 10 ^ 7 / 10) ?_
    linarith
  obtain ⟨g1, g2, g3⟩ := fmul_mono hF (e := F.sub (nthP F l ll) (F.div (nthS F ll 11321 1000) (nthD F l)))
    (e' := nthP F l ll) hn hn2 (by linarith) (by linarith) (by linarith)
  exact ⟨le_trans (mul_le_mul_of_nonneg_left (by linarith) (by linarith)) g1, g2,
    g3.trans (mul_le_mul_of_nonneg_left (by linarith) (by linarith))⟩

/-- the bounds of `nth_prime_bounds` for large arguments are ordered and in range -/
theorem fNth_far (hF : F.Accurate) {x : ℕ} (h : 759401 < x) (hx : x ≤ 2 ^ 990) :
    x * (Real.log x + Real.log (Real.log x) - 3) ≤ fNthLo F x ∧ fNthLo F x ≤ fNthHi F x ∧
      fNthHi F x ≤ x * (Real.log x + Real.log (Real.log x) + 1) := by
  obtain ⟨-, hl⟩ := fln_arg hF (show 3 ≤ x by omega) hx
  have hll := flnln_arg hF (show 8162 ≤ x by omega) hx
  have hxr : (x : ℝ) ≤ 2 ^ 990 := by
    have : ((x : ℕ) : ℝ) ≤ ((2 ^ 990 : ℕ) : ℝ) := Nat.cast_le.mpr hx
    rwa [Nat.cast_pow, Nat.cast_ofNat] at this
  have hx0 : (759401 : ℝ) ≤ x := by exact_mod_cast h.le
  have hlog := log_ge_of (n := 13) (c := 759401) (by norm_num) h.le (by omega)
  have hlog2 := log_le_687 (by omega) hx
  have hlog3 := log_log_le (L := Real.log x) (by push_cast at hlog; linarith) (by linarith)
  have hlog4 : 0 ≤ Real.log (Real.log x) := Real.log_nonneg (by push_cast at hlog; linarith)
  have hd : (1 : ℝ) / 2 ^ 38 ≤ 1 / 100 := by norm_num
  have hd2 : (1 : ℝ) / 2 ^ 39 ≤ 1 / 100 := by norm_num
  push_cast at hlog
  rw [abs_le] at hl hll
  have hn := (rel_ofNat hF (show 1 ≤ x by omega) (hxr.trans (pow_le_pow_right₀ one_le_two (by norm_num)))).bounds
  have n1 : F.ofNat x * 1 ≤ x * (11 / 10) := by
    have : (x : ℝ) * (1 + 1 / 2 ^ 35) ≤ x * (11 / 10) := mul_le_mul_of_nonneg_left (by norm_num) (by linarith)
    linarith
  have n2 : (x : ℝ) * (9 / 10) ≤ F.ofNat x := by
    have : (x : ℝ) * (9 / 10) ≤ x * (1 - 1 / 2 ^ 35) := mul_le_mul_of_nonneg_left (by norm_num) (by linarith)
    linarith
  have key : F.ofNat x * (F.ln (F.ofNat x) + F.ln (F.ln (F.ofNat x)) - 5 / 2) ≤ fNthLo F x ∧ fNthLo F x ≤ fNthHi F x ∧
      fNthHi F x ≤ F.ofNat x * (F.ln (F.ofNat x) + F.ln (F.ln (F.ofNat x)) + 1 / 2) := by
    have m1 : 1 ≤ F.ofNat x := by linarith
    have m2 : F.ofNat x ≤ 2 ^ 990 * (11 / 10) := by
      rw [mul_one] at n1
      exact n1.trans (mul_le_mul_of_nonneg_right hxr (show (0 : ℝ) ≤ 11 / 10 by norm_num))
    have m3 : 13 ≤ F.ln (F.ofNat x) := by linarith
    have m4 : F.ln (F.ofNat x) ≤ 700 := by linarith
    have m5 : -1 ≤ F.ln (F.ln (F.ofNat x)) := by linarith
    have m6 : F.ln (F.ln (F.ofNat x)) ≤ 8 := by linarith
    simp only [fNthLo, fNthHi]
    rw [if_pos (by omega)]
    split
    · exact nthB_pair hF m1 m2 m3 m4 m5 m6 (by norm_num) (by norm_num)
    · split
      · exact nthB_pair hF m1 m2 m3 m4 m5 m6 (by norm_num) (by norm_num)
      · rw [if_pos (by omega)]
        exact nthA_pair hF m1 m2 m3 m4 m5 m6
  obtain ⟨g1, g2, g3⟩ := key
  refine ⟨le_trans ?_ g1, g2, g3.trans ?_⟩
  · have c1 : (x : ℝ) * (1 - 1 / 2 ^ 35) * (Real.log x + Real.log (Real.log x) - 27 / 10) ≤
        F.ofNat x * (F.ln (F.ofNat x) + F.ln (F.ln (F.ofNat x)) - 5 / 2) :=
      mul_le_mul hn.1 (by linarith) (by linarith) (by linarith)
    have c2 : (x : ℝ) * (1 / 2 ^ 35 * (Real.log x + Real.log (Real.log x) - 27 / 10)) ≤ x * (1 / 10) := by
      apply mul_le_mul_of_nonneg_left _ (by linarith)
      have : (1 : ℝ) / 2 ^ 35 * (Real.log x + Real.log (Real.log x) - 27 / 10) ≤ 1 / 2 ^ 35 * 700 :=
        mul_le_mul_of_nonneg_left (by linarith) (by norm_num)
      have : (1 : ℝ) / 2 ^ 35 * 700 ≤ 1 / 10 := by norm_num
      linarith
    linarith
  · have c1 : F.ofNat x * (F.ln (F.ofNat x) + F.ln (F.ln (F.ofNat x)) + 1 / 2) ≤
        (x : ℝ) * (1 + 1 / 2 ^ 35) * (Real.log x + Real.log (Real.log x) + 7 / 10) :=
      mul_le_mul hn.2 (by linarith) (by linarith) (by positivity)
    have c2 : (x : ℝ) * (1 / 2 ^ 35 * (Real.log x + Real.log (Real.log x) + 7 / 10)) ≤ x * (1 / 10) := by
      apply mul_le_mul_of_nonneg_left _ (by linarith)
      have : (1 : ℝ) / 2 ^ 35 * (Real.log x + Real.log (Real.log x) + 7 / 10) ≤ 1 / 2 ^ 35 * 700 :=
        mul_le_mul_of_nonneg_left (by linarith) (by norm_num)
      have : (1 : ℝ) / 2 ^ 35 * 700 ≤ 1 / 10 := by norm_num
      linarith
    linarith

end nth

end NumPrime
