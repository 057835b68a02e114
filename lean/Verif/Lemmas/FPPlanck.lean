import Verif.Lemmas.FP
/-
The Planck function and its inverse in rounded arithmetic.
-/
namespace Verif.Lemmas
open XF Model PyNum

theorem uu_pos : 0 < uu := by unfold uu; positivity
theorem ul_eq : ul = 4 * uu := by unfold ul uu; norm_num
theorem uu_small : uu ≤ 1e-15 := by unfold uu; norm_num

section
variable (F : FP)

theorem near_lit (m : ℕ) (s : Bool) (e : ℕ) (h1 : (1e-200 : ℝ) ≤ OfScientific.ofScientific m s e)
    (h2 : (OfScientific.ofScientific m s e : ℝ) ≤ 1e200) :
    Near uu (OfScientific.ofScientific m s e : RF F) (OfScientific.ofScientific m s e : ℝ) :=
  near_rnd F h1 h2

theorem one_lit : (1.0 : RF F) = XF.fin 1 := by
  show F.rnd (1.0 : ℝ) = _
  rw [show (1.0 : ℝ) = 1 by norm_num, rnd_one]

theorem one_nat : (1 : RF F) = XF.fin 1 := by
  show F.rnd (((1 : ℕ) : ℤ) : ℝ) = _
  simpa using rnd_one F

theorem two_nat : (2 : RF F) = XF.fin 2 := by
  show F.rnd (((2 : ℕ) : ℤ) : ℝ) = _
  simpa using F.rnd_int 2 (by norm_num)

theorem near_pow {δ : ℝ} {a : XF} {x : ℝ} (n : ℕ) (h : Near δ a x) (hd : n * δ ≤ 1)
    (h1 : 1e-199 ≤ x ^ n) (h2 : x ^ n ≤ 1e199) : Near (n * δ + ul) (F.powNat a n) (x ^ n) := by
  obtain ⟨h0, y, rfl, h3, h4⟩ := h
  have hy : 0 < y := lt_of_lt_of_le (mul_pos h0 (Real.exp_pos _)) h3
  have h5 : x ^ n * Real.exp (-(n * δ)) ≤ y ^ n := by
    have := pow_le_pow_left₀ (mul_pos h0 (Real.exp_pos _)).le h3 n
    rwa [mul_pow, ← Real.exp_nat_mul, mul_neg] at this
  have h6 : y ^ n ≤ x ^ n * Real.exp (n * δ) := by
    have := pow_le_pow_left₀ hy.le h4 n
    rwa [mul_pow, ← Real.exp_nat_mul] at this
  have hx := pow_pos h0 n
  have he : Real.exp 1 < 3 := lt_trans Real.exp_one_lt_d9 (by norm_num)
  have hen : (1 : ℝ) / 3 ≤ Real.exp (-1) := by
    rw [Real.exp_neg, ← one_div]
    exact one_div_le_one_div_of_le (Real.exp_pos _) he.le
  have h7 : x ^ n / 3 ≤ y ^ n := by
    have : Real.exp (-1) ≤ Real.exp (-(n * δ)) := Real.exp_le_exp.2 (by linarith)
    have := mul_le_mul_of_nonneg_left (hen.trans this) hx.le
    linarith
  have h8 : y ^ n ≤ x ^ n * 3 := by
    have : Real.exp (n * δ) ≤ Real.exp 1 := Real.exp_le_exp.2 hd
    have := mul_le_mul_of_nonneg_left (this.trans he.le) hx.le
    linarith
  obtain ⟨z, ez, hz⟩ := F.powNat_near y n hy (by norm_num at h1 ⊢; linarith)
    (by norm_num at h2 ⊢; linarith)
  rw [ez]
  have := near_of_abs (u := 1 / 2 ^ 50) (pow_pos hy n) (by positivity) (by norm_num)
    (by rwa [mul_one_div])
  rw [show 2 * (1 / 2 ^ 50 : ℝ) = ul by unfold ul; ring] at this
  obtain ⟨_, z', e', h9, h10⟩ := this
  have := XF.fin.inj e'
  subst this
  refine ⟨hx, z, rfl, ?_, ?_⟩
  · rw [neg_add, Real.exp_add, ← mul_assoc]
    exact (mul_le_mul_of_nonneg_right h5 (Real.exp_pos _).le).trans h9
  · rw [Real.exp_add, ← mul_assoc]
    exact h10.trans (mul_le_mul_of_nonneg_right h6 (Real.exp_pos _).le)

theorem H_near : Near (3 * uu) (H_PLANCK : RF F) Spec.h := by
  have := near_mul F (near_lit F 662606957 true 8 (by norm_num) (by norm_num))
    (near_lit F 1 true 34 (by norm_num) (by norm_num)) (by have := uu_small; norm_num at this ⊢; linarith)
    (by norm_num) (by norm_num)
  have e : (6.62606957 * 1e-34 : ℝ) = Spec.h := by unfold Spec.h; norm_num
  have e2 : (OfScientific.ofScientific 662606957 true 8 * OfScientific.ofScientific 1 true 34 : ℝ) = Spec.h := e
  rw [e2] at this
  exact Near.mono this (by linarith)

theorem K_near : Near (3 * uu) (K_BOLTZMANN : RF F) Spec.k := by
  have := near_mul F (near_lit F 13806488 true 7 (by norm_num) (by norm_num))
    (near_lit F 1 true 23 (by norm_num) (by norm_num)) (by have := uu_small; norm_num at this ⊢; linarith)
    (by norm_num) (by norm_num)
  have e2 : (OfScientific.ofScientific 13806488 true 7 * OfScientific.ofScientific 1 true 23 : ℝ) = Spec.k := by
    unfold Spec.k; norm_num
  rw [e2] at this
  exact Near.mono this (by linarith)

theorem C_near : Near (3 * uu) (C_SPEED : RF F) Spec.c := by
  have := near_mul F (near_lit F 299792458 true 8 (by norm_num) (by norm_num))
    (near_lit F 1 false 8 (by norm_num) (by norm_num)) (by have := uu_small; norm_num at this ⊢; linarith)
    (by norm_num) (by norm_num)
  have e2 : (OfScientific.ofScientific 299792458 true 8 * OfScientific.ofScientific 1 false 8 : ℝ) = Spec.c := by
    unfold Spec.c; norm_num
  rw [e2] at this
  exact Near.mono this (by linarith)

theorem PC1_near : Near (11 * uu) (PLANCK_C1 : RF F) c1R := by
  have hu := uu_small
  norm_num at hu
  have h1 := near_mul F (H_near F) (C_near F) (by linarith) (by norm_num [Spec.h, Spec.c])
    (by norm_num [Spec.h, Spec.c])
  have h2 := near_div F h1 (K_near F) (by linarith) (by norm_num [Spec.h, Spec.c, Spec.k])
    (by norm_num [Spec.h, Spec.c, Spec.k])
  exact Near.mono h2 (by linarith)

theorem PC2_near : Near (15 * uu) (PLANCK_C2 : RF F) c2R := by
  have hu := uu_small
  norm_num at hu
  have h0 : Near 0 (2 : RF F) 2 := by rw [two_nat]; exact near_refl two_pos
  have h1 := near_mul F h0 (H_near F) (by linarith) (by norm_num [Spec.h]) (by norm_num [Spec.h])
  have h2 := near_pow F 2 (C_near F) (by norm_num; linarith) (by norm_num [Spec.c]) (by norm_num [Spec.c])
  have h3 := near_mul F h1 h2 (by rw [ul_eq]; push_cast; linarith) (by norm_num [Spec.h, Spec.c])
    (by norm_num [Spec.h, Spec.c])
  refine Near.mono h3 ?_
  rw [ul_eq]
  push_cast
  linarith

/-! ### The radiance -/

theorem c1R_bounds : 0.0143 ≤ c1R ∧ c1R ≤ 0.0144 := by
  constructor <;> norm_num [c1R, Spec.h, Spec.c, Spec.k]
theorem c2R_bounds : 1e-16 ≤ c2R ∧ c2R ≤ 1.2e-16 := by
  constructor <;> norm_num [c2R, Spec.h, Spec.c]

theorem wl_nom_near {w : ℝ} (h1 : 1e-8 ≤ w) (h2 : w ≤ 1e-2) :
    Near (20 * uu) (PLANCK_C2 / powNat (RF.of w) 5 : RF F) (c2R / w ^ 5) ∧
      1e-6 ≤ c2R / w ^ 5 ∧ c2R / w ^ 5 ≤ 1e25 := by
  have hu := uu_small
  norm_num at hu
  have hw : 0 < w := lt_of_lt_of_le (by norm_num) h1
  have h3 : (1e-8 : ℝ) ^ 5 ≤ w ^ 5 := pow_le_pow_left₀ (by norm_num) h1 5
  have h4 : w ^ 5 ≤ (1e-2 : ℝ) ^ 5 := pow_le_pow_left₀ hw.le h2 5
  have h5 := c2R_bounds
  have h6 : 1e-6 ≤ c2R / w ^ 5 := by
    rw [le_div_iff₀ (pow_pos hw 5)]
    norm_num at h4 h5 ⊢; linarith
  have h7 : c2R / w ^ 5 ≤ 1e25 := by
    rw [div_le_iff₀ (pow_pos hw 5)]
    norm_num at h3 h5 ⊢; linarith
  refine ⟨?_, h6, h7⟩
  have hp := near_pow F 5 (near_refl hw) (by norm_num) (by norm_num at h3 ⊢; linarith)
    (by norm_num at h4 ⊢; linarith)
  have := near_div F (PC2_near F) hp (by rw [ul_eq]; norm_num; linarith)
    (le_trans (by norm_num) h6) (le_trans h7 (by norm_num))
  exact Near.mono this (by rw [ul_eq]; norm_num; linarith)

theorem wl_arg_near {w : ℝ} (h1 : 1e-8 ≤ w) (h2 : w ≤ 1e-2) :
    Near (12 * uu) (PLANCK_C1 / RF.of w : RF F) (c1R / w) ∧ 1 ≤ c1R / w ∧ c1R / w ≤ 1e7 := by
  have hu := uu_small
  norm_num at hu
  have hw : 0 < w := lt_of_lt_of_le (by norm_num) h1
  have h5 := c1R_bounds
  have h6 : 1 ≤ c1R / w := by
    rw [le_div_iff₀ hw]; norm_num at h2 h5 ⊢; linarith
  have h7 : c1R / w ≤ 1e7 := by
    rw [div_le_iff₀ hw]; norm_num at h1 h5 ⊢; linarith
  refine ⟨?_, h6, h7⟩
  have := near_div F (PC1_near F) (near_refl hw) (by linarith)
    (le_trans (by norm_num) h6) (le_trans h7 (by norm_num))
  exact Near.mono this (by linarith)

theorem wn_nom_near {w : ℝ} (h1 : 1e2 ≤ w) (h2 : w ≤ 1e8) :
    Near (20 * uu) (PLANCK_C2 * powNat (RF.of w) 3 : RF F) (c2R * w ^ 3) ∧
      1e-10 ≤ c2R * w ^ 3 ∧ c2R * w ^ 3 ≤ 1e9 := by
  have hu := uu_small
  norm_num at hu
  have hw : 0 < w := lt_of_lt_of_le (by norm_num) h1
  have h3 : (1e2 : ℝ) ^ 3 ≤ w ^ 3 := pow_le_pow_left₀ (by norm_num) h1 3
  have h4 : w ^ 3 ≤ (1e8 : ℝ) ^ 3 := pow_le_pow_left₀ hw.le h2 3
  have h5 := c2R_bounds
  have h6 : 1e-10 ≤ c2R * w ^ 3 := by
    have := mul_le_mul h5.1 h3 (by norm_num) c2R_pos.le
    norm_num at this ⊢; linarith
  have h7 : c2R * w ^ 3 ≤ 1e9 := by
    have := mul_le_mul h5.2 h4 (pow_pos hw 3).le (by norm_num)
    norm_num at this ⊢; linarith
  refine ⟨?_, h6, h7⟩
  have hp := near_pow F 3 (near_refl hw) (by norm_num) (by norm_num at h3 ⊢; linarith)
    (by norm_num at h4 ⊢; linarith)
  have := near_mul F (PC2_near F) hp (by rw [ul_eq]; norm_num; linarith)
    (le_trans (by norm_num) h6) (le_trans h7 (by norm_num))
  exact Near.mono this (by rw [ul_eq]; norm_num; linarith)

theorem wn_arg_near {w : ℝ} (h1 : 1e2 ≤ w) (h2 : w ≤ 1e8) :
    Near (12 * uu) (PLANCK_C1 * RF.of w : RF F) (c1R * w) ∧ 1 ≤ c1R * w ∧ c1R * w ≤ 1e7 := by
  have hu := uu_small
  norm_num at hu
  have hw : 0 < w := lt_of_lt_of_le (by norm_num) h1
  have h5 := c1R_bounds
  have h6 : 1 ≤ c1R * w := by
    norm_num at h1 h5 ⊢; nlinarith
  have h7 : c1R * w ≤ 1e7 := by
    norm_num at h2 h5 ⊢; nlinarith
  refine ⟨?_, h6, h7⟩
  have := near_mul F (PC1_near F) (near_refl hw) (by linarith)
    (le_trans (by norm_num) h6) (le_trans h7 (by norm_num))
  exact Near.mono this (by linarith)

/-- the reciprocal temperature -/
theorem arg2_of {t : ℝ} (ht : 2e-6 ≤ t) : (planckArg2 (RF.of t) : RF F) = F.rnd (1 / t) := by
  have hu := uu_small
  norm_num at hu
  have ht0 : 0 < t := lt_of_lt_of_le (by norm_num) ht
  have h : (BB_EPSILON : RF F) = F.rnd 0.000001 := rfl
  obtain ⟨_, y, e, _, h2⟩ := near_rnd F (x := 0.000001) (by norm_num) (by norm_num)
  have hy : y < t := by
    have : Real.exp uu ≤ Real.exp (1 / 2) := Real.exp_le_exp.2 (by linarith)
    have h3 : Real.exp (1 / 2) ≤ 1.7 := by
      have := Real.exp_one_lt_d9
      have e2 : Real.exp (1 / 2) * Real.exp (1 / 2) = Real.exp 1 := by rw [← Real.exp_add]; norm_num
      by_contra hc
      push Not at hc
      nlinarith
    norm_num at h2 ht
    nlinarith
  have hg : PyNum.gt (PyNum.abs (RF.of t)) (BB_EPSILON : RF F) = true := by
    rw [h, e]
    show ltb (fin y) (fin |t|) = true
    simp only [ltb, decide_eq_true_eq]
    rwa [abs_of_pos ht0]
  unfold planckArg2
  rw [if_pos hg, one_lit]
  show F.rd (if t = 0 then signInf 1 else fin (1 / t)) = _
  rw [if_neg ht0.ne']
  rfl

/-- one entry, from its two constants -/
noncomputable def coreRad (N A t : ℝ) : XF :=
  F.rd (XF.div (fin N) (F.rd (XF.sub (F.exp (F.rd (XF.mul (fin A) (F.rnd (1 / t))))) (fin 1))))

theorem entry_core {wl : Bool} {w t N A : ℝ} (ht : 2e-6 ≤ t)
    (hN : (if wl then PLANCK_C2 / powNat (RF.of w) 5 else PLANCK_C2 * powNat (RF.of w) 3 : RF F) = fin N)
    (hA : (if wl then PLANCK_C1 / RF.of w else PLANCK_C1 * RF.of w : RF F) = fin A) :
    planckEntry wl (RF.of w : RF F) (RF.of t) = coreRad F N A t := by
  unfold planckEntry
  rw [hN, hA, arg2_of F ht, one_nat]
  rfl

theorem core_mono {N A t₁ t₂ : ℝ} (hN : 0 < N) (hA : 0 < A) (h1 : 0 < t₁) (h : t₁ ≤ t₂) :
    Lx (fin 0) (coreRad F N A t₁) ∧ Lx (coreRad F N A t₁) (coreRad F N A t₂) := by
  have h2 := h1.trans_le h
  have hr : ∀ t : ℝ, 0 < t → Lx (fin 0) (F.rnd (1 / t)) := fun t ht =>
    rd_nonneg F (lx_fin.2 (one_div_pos.2 ht).le)
  have hr12 : Lx (F.rnd (1 / t₂)) (F.rnd (1 / t₁)) :=
    F.rnd_mono _ _ (one_div_le_one_div_of_le h1 h)
  have he : ∀ t : ℝ, 0 < t → Lx (fin 0) (F.rd (XF.mul (fin A) (F.rnd (1 / t)))) := fun t ht =>
    rd_nonneg F (mul_nonneg_left hA (hr t ht))
  have he12 : Lx (F.rd (XF.mul (fin A) (F.rnd (1 / t₂)))) (F.rd (XF.mul (fin A) (F.rnd (1 / t₁)))) :=
    rd_mono F (mul_mono_left hA (hr _ h2) hr12)
  have hd : ∀ t : ℝ, 0 < t →
      Lx (fin 0) (F.rd (XF.sub (F.exp (F.rd (XF.mul (fin A) (F.rnd (1 / t))))) (fin 1))) := by
    intro t ht
    apply rd_nonneg
    have := sub_mono 1 (exp_ge_one F (he t ht))
    rwa [show XF.sub (fin 1) (fin 1) = fin 0 by simp [XF.sub, XF.add, XF.neg]] at this
  have hd12 := rd_mono F (sub_mono 1 (F.exp_mono _ _ he12))
  exact ⟨rd_nonneg F (div_nonneg' hN (hd _ h1)), rd_mono F (div_anti hN (hd _ h2) hd12)⟩

/-! ### Accuracy -/

theorem near_exp {δ : ℝ} {a : XF} {x : ℝ} (h : Near δ a x) (hd : 0 ≤ δ) (hd' : δ ≤ 0.1) (hx : x ≤ 300) :
    Near (2 * δ * x + ul) (F.exp a) (Real.exp x) := by
  obtain ⟨h0, y, rfl, h1, h2⟩ := h
  have e1 : Real.exp δ ≤ 1 + 2 * δ := by
    have := Real.exp_bound_div_one_sub_of_interval hd (by norm_num at hd' ⊢; linarith)
    refine this.trans ?_
    rw [div_le_iff₀ (by norm_num at hd' ⊢; linarith)]
    norm_num at hd'
    nlinarith
  have e2 : 1 - 2 * δ ≤ Real.exp (-δ) := by
    have := Real.add_one_le_exp (-δ); linarith
  have hy1 : x - 2 * δ * x ≤ y := by nlinarith
  have hy2 : y ≤ x + 2 * δ * x := by nlinarith
  have hy0 : 0 ≤ y := by norm_num at hd'; nlinarith
  obtain ⟨z, ez, hz⟩ := F.exp_near y (by rw [abs_of_nonneg hy0]; norm_num at hd'; nlinarith)
  rw [ez]
  have := near_of_abs (u := 1 / 2 ^ 50) (Real.exp_pos y) (by positivity) (by norm_num)
    (by rwa [mul_one_div])
  rw [show 2 * (1 / 2 ^ 50 : ℝ) = ul by unfold ul; ring] at this
  obtain ⟨_, z', e', h9, h10⟩ := this
  have := XF.fin.inj e'
  subst this
  refine ⟨Real.exp_pos _, z, rfl, ?_, ?_⟩
  · refine le_trans ?_ h9
    rw [← Real.exp_add, ← Real.exp_add]
    exact Real.exp_le_exp.2 (by linarith)
  · refine h10.trans ?_
    rw [← Real.exp_add, ← Real.exp_add]
    exact Real.exp_le_exp.2 (by linarith)

/-- subtracting 1 from a number near `E ≥ 2` -/
theorem near_sub_one {η : ℝ} {a : XF} {E : ℝ} (h : Near η a E) (hE : 2 ≤ E) (h0 : 0 ≤ η) (h1 : η ≤ 1 / 4) :
    Near (4 * η) (XF.sub a (fin 1)) (E - 1) := by
  obtain ⟨_, y, rfl, h3, h4⟩ := h
  have hs : 3 / 4 ≤ Real.exp (-η) := by have := Real.add_one_le_exp (-η); linarith
  have hs1 : Real.exp (-η) ≤ 1 := Real.exp_le_one_iff.2 (by linarith)
  have hr1 : 1 ≤ Real.exp η := Real.one_le_exp h0
  have e4 : Real.exp (-(4 * η)) = Real.exp (-η) ^ 4 := by
    rw [← Real.exp_nat_mul]; congr 1; push_cast; ring
  have e2 : Real.exp (2 * η) = Real.exp η ^ 2 := by
    rw [← Real.exp_nat_mul]; congr 1
  have e42 : Real.exp (2 * η) ≤ Real.exp (4 * η) := Real.exp_le_exp.2 (by linarith)
  refine ⟨by linarith, y - 1, ?_, ?_, ?_⟩
  · show fin (y + -1) = _
    rw [← sub_eq_add_neg]
  · rw [e4]
    generalize Real.exp (-η) = s at *
    have hs4 : s ^ 4 ≤ 2 * s - 1 := by nlinarith [mul_nonneg (sub_nonneg.2 hs1) (sub_nonneg.2 hs), sq_nonneg (s - 1), sq_nonneg s, mul_nonneg (mul_nonneg (sub_nonneg.2 hs1) (sub_nonneg.2 hs)) (by linarith : (0:ℝ) ≤ s)]
    have : (E - 1) * s ^ 4 ≤ (E - 1) * (2 * s - 1) := mul_le_mul_of_nonneg_left hs4 (by linarith)
    nlinarith
  · generalize Real.exp (4 * η) = r4 at *
    rw [e2] at e42
    generalize Real.exp η = r at *
    have h5 : 2 * r - 1 ≤ r4 := by nlinarith [sq_nonneg (r - 1)]
    have : (E - 1) * (2 * r - 1) ≤ (E - 1) * r4 := mul_le_mul_of_nonneg_left h5 (by linarith)
    nlinarith

theorem exp_range {x : ℝ} (h1 : 0.7 ≤ x) (h2 : x ≤ 300) : 2 ≤ Real.exp x ∧ Real.exp x ≤ 1e150 := by
  constructor
  · have h3 : Real.log 2 ≤ x := by have := Real.log_two_lt_d9; norm_num at h1 ⊢; linarith
    have := Real.exp_le_exp.2 h3
    rwa [Real.exp_log two_pos] at this
  · have h3 : Real.exp 3 ≤ 27 := by
      have he : Real.exp 1 < 3 := lt_trans Real.exp_one_lt_d9 (by norm_num)
      have e : Real.exp 3 = Real.exp 1 ^ 3 := by rw [← Real.exp_nat_mul]; norm_num
      rw [e]
      have := pow_le_pow_left₀ (Real.exp_pos 1).le he.le 3
      norm_num at this ⊢; linarith
    have e : Real.exp 300 = Real.exp 3 ^ 100 := by rw [← Real.exp_nat_mul]; norm_num
    have h4 : Real.exp 300 ≤ 27 ^ 100 := by
      rw [e]; exact pow_le_pow_left₀ (Real.exp_pos 3).le h3 100
    refine (Real.exp_le_exp.2 h2).trans (h4.trans ?_)
    norm_num

theorem core_near {N A Nx Ax t : ℝ} (hN : Near (20 * uu) (fin N) Nx) (hA : Near (12 * uu) (fin A) Ax)
    (hN1 : 1e-10 ≤ Nx) (hN2 : Nx ≤ 1e25) (hA1 : 1 ≤ Ax) (hA2 : Ax ≤ 1e7) (ht : 0 < t)
    (h1 : 0.7 ≤ Ax / t) (h2 : Ax / t ≤ 300) :
    Near ((38 + 112 * (Ax / t)) * uu) (coreRad F N A t) (Nx / (Real.exp (Ax / t) - 1)) := by
  have hu := uu_small
  have hu0 := uu_pos
  norm_num at hu
  have ht1 : t ≤ 1e8 := by
    have := (le_div_iff₀ ht).1 h1
    norm_num at this hA2 ⊢; linarith
  have ht2 : 1 / 300 ≤ t := by
    have := (div_le_iff₀ ht).1 h2
    linarith
  have hi1 : 1e-8 ≤ 1 / t := by
    rw [le_div_iff₀ ht]; norm_num at ht1 ⊢; linarith
  have hi2 : 1 / t ≤ 300 := by
    rw [div_le_iff₀ ht]; linarith
  have hb := near_rnd F (x := 1 / t) (le_trans (by norm_num) hi1) (le_trans hi2 (by norm_num))
  have e : Ax * (1 / t) = Ax / t := by ring
  have hc := near_mul F hA hb (by linarith) (by rw [e]; exact le_trans (by norm_num) h1)
    (by rw [e]; exact le_trans h2 (by norm_num))
  rw [e] at hc
  generalize Ax / t = x at *
  have hc' := Near.mono hc (show _ ≤ 14 * uu by linarith)
  have hd := near_exp F hc' (by linarith) (by norm_num; linarith) h2
  obtain ⟨hE1, hE2⟩ := exp_range h1 h2
  have hx0 : 0 ≤ x := le_trans (by norm_num) h1
  have hη : 2 * (14 * uu) * x + ul = (28 * x + 4) * uu := by rw [ul_eq]; ring
  rw [hη] at hd
  have hη1 : (28 * x + 4) * uu ≤ 1e-10 := by nlinarith
  norm_num at hη1
  have hη0 : 0 ≤ (28 * x + 4) * uu := mul_nonneg (by linarith) hu0.le
  have hf := (near_sub_one hd hE1 hη0 (by linarith)).rd F (by linarith) (le_trans (by norm_num) (by linarith : (1 : ℝ) ≤ Real.exp x - 1))
    (le_trans (by linarith : Real.exp x - 1 ≤ 1e150) (by norm_num))
  have hE0 : 0 < Real.exp x - 1 := by linarith
  have hg := near_div F hN hf (by linarith)
    (by rw [le_div_iff₀ hE0]; norm_num at hN1 hE2 ⊢; linarith)
    (by rw [div_le_iff₀ hE0]; norm_num at hN2 ⊢; linarith)
  exact Near.mono hg (by nlinarith)

/-! ### The inverse -/

theorem Near.comp {δ ε : ℝ} {a : XF} {x y : ℝ} (h : Near δ a y) (h' : Near ε (fin y) x) : Near (δ + ε) a x := by
  obtain ⟨_, z, rfl, h1, h2⟩ := h
  obtain ⟨h0, y', e, h3, h4⟩ := h'
  have := XF.fin.inj e
  subst this
  refine ⟨h0, z, rfl, le_trans ?_ h1, h2.trans ?_⟩
  · rw [neg_add, add_comm, Real.exp_add, ← mul_assoc]
    exact mul_le_mul_of_nonneg_right h3 (Real.exp_pos _).le
  · rw [add_comm, Real.exp_add, ← mul_assoc]
    exact mul_le_mul_of_nonneg_right h4 (Real.exp_pos _).le

theorem near_add_one {δ : ℝ} {a : XF} {x : ℝ} (h : Near δ a x) (hd : 0 ≤ δ) :
    Near δ (XF.add a (fin 1)) (x + 1) := by
  obtain ⟨h0, z, rfl, h1, h2⟩ := h
  have hs1 : Real.exp (-δ) ≤ 1 := Real.exp_le_one_iff.2 (by linarith)
  have hr1 : 1 ≤ Real.exp δ := Real.one_le_exp hd
  exact ⟨by linarith, z + 1, rfl, by nlinarith, by nlinarith⟩

theorem near_log {η : ℝ} {a : XF} {x : ℝ} (h : Near η a (Real.exp x)) (h0 : 0 ≤ η) (hη : η ≤ 0.1)
    (h1 : 0.7 ≤ x) (h2 : x ≤ 300) : Near (3 * η + ul) (F.log a) x := by
  have hx : 0 < x := lt_of_lt_of_le (by norm_num) h1
  obtain ⟨hE1, hE2⟩ := exp_range h1 h2
  obtain ⟨_, y, rfl, h3, h4⟩ := h
  rw [← Real.exp_add] at h3 h4
  have hy : 0 < y := lt_of_lt_of_le (Real.exp_pos _) h3
  have h5 : x + -η ≤ Real.log y := (Real.le_log_iff_exp_le hy).2 h3
  have h6 : Real.log y ≤ x + η := (Real.log_le_iff_le_exp hy).2 h4
  have h8 : y ≤ 1e200 := by
    refine h4.trans ?_
    have : Real.exp (x + η) ≤ Real.exp (x + 1) := Real.exp_le_exp.2 (by norm_num at hη ⊢; linarith)
    have he : Real.exp 1 < 3 := lt_trans Real.exp_one_lt_d9 (by norm_num)
    rw [Real.exp_add x 1] at this
    have h9 : Real.exp x * Real.exp 1 ≤ 1e150 * 3 := mul_le_mul hE2 he.le (Real.exp_pos _).le (by norm_num)
    norm_num at h9 ⊢; linarith
  have h9 : (1.5 : ℝ) ≤ y := by
    refine le_trans ?_ h3
    have := Real.add_one_le_exp (x + -η)
    norm_num at hη h1 ⊢; linarith
  obtain ⟨v, ev, hv⟩ := F.log_near y h9 h8
  have hl : 0 < Real.log y := lt_of_lt_of_le (by norm_num at hη h1 ⊢; linarith) h5
  rw [ev]
  rw [abs_of_pos hl] at hv
  have n1 := near_of_abs (u := 1 / 2 ^ 50) hl (by positivity) (by norm_num) (by rwa [mul_one_div])
  rw [show 2 * (1 / 2 ^ 50 : ℝ) = ul by unfold ul; ring] at n1
  have n2 : Near (2 * (10 / 7 * η)) (fin (Real.log y)) x := by
    apply near_of_abs hx (by linarith) (by norm_num at hη ⊢; linarith)
    rw [abs_le]
    norm_num at h1
    constructor <;> nlinarith
  exact Near.mono (n1.comp n2) (by linarith)

/-- from the quotient of nominator and radiance to `hc/(λkT)` -/
theorem near_invArg {δ : ℝ} {a : XF} {x : ℝ} (h : Near δ a (Real.exp x - 1)) (h0 : 0 ≤ δ) (hη : δ ≤ 0.05)
    (h1 : 0.7 ≤ x) (h2 : x ≤ 300) :
    Near (3 * δ + 7 * uu) (F.log (F.rd (XF.add a (fin 1)))) x := by
  have hu := uu_small
  have hu0 := uu_pos
  norm_num at hu hη
  obtain ⟨hE1, hE2⟩ := exp_range h1 h2
  have n1 := near_add_one h h0
  rw [sub_add_cancel] at n1
  have n2 := n1.rd F (by linarith) (le_trans (by norm_num) hE1) (hE2.trans (by norm_num))
  refine Near.mono (near_log F n2 (by linarith) (by norm_num; linarith) h1 h2) ?_
  rw [ul_eq]; linarith

theorem wl_inv_near {w t δ : ℝ} {L : RF F} (hw1 : 1e-8 ≤ w) (hw2 : w ≤ 1e-2) (ht : 0 < t)
    (h1 : 0.7 ≤ c1R / w / t) (h2 : c1R / w / t ≤ 300) (h0 : 0 ≤ δ) (hδ : δ ≤ 0.01)
    (hL : Near δ L (c2R / w ^ 5 / (Real.exp (c1R / w / t) - 1))) :
    Near (3 * δ + 83 * uu) (rad2tempPoint (α := RF F) (RF.of w) L) t := by
  have hu := uu_small
  have hu0 := uu_pos
  norm_num at hu hδ
  have hw : 0 < w := lt_of_lt_of_le (by norm_num) hw1
  have hw5 := pow_pos hw 5
  have h3 : (1e-8 : ℝ) ^ 5 ≤ w ^ 5 := pow_le_pow_left₀ (by norm_num) hw1 5
  have h4 : w ^ 5 ≤ (1e-2 : ℝ) ^ 5 := pow_le_pow_left₀ hw.le hw2 5
  have hb := c2R_bounds
  have hc := c1R_bounds
  set x := c1R / w / t with hx
  have hx0 : 0 < x := lt_of_lt_of_le (by norm_num) h1
  obtain ⟨hE1, hE2⟩ := exp_range h1 h2
  have hE0 : 0 < Real.exp x - 1 := by linarith
  have hp := near_pow F 5 (near_refl hw) (by norm_num) (by norm_num at h3 ⊢; linarith)
    (by norm_num at h4 ⊢; linarith)
  have e1 : c2R / w ^ 5 / (Real.exp x - 1) * w ^ 5 = c2R / (Real.exp x - 1) := by
    field_simp
  have n1 := near_mul F hL hp (by rw [ul_eq]; norm_num; linarith)
    (by rw [e1, le_div_iff₀ hE0]; norm_num at hb hE2 ⊢; linarith)
    (by rw [e1, div_le_iff₀ hE0]; norm_num at hb ⊢; linarith)
  rw [e1] at n1
  have e2 : c2R / (c2R / (Real.exp x - 1)) = Real.exp x - 1 := div_div_cancel₀ c2R_pos.ne'
  have n2 := near_div F (PC2_near F) n1 (by rw [ul_eq]; norm_num; linarith)
    (by rw [e2]; refine le_trans ?_ (by linarith : (1 : ℝ) ≤ Real.exp x - 1); norm_num)
    (by rw [e2]; refine le_trans (by linarith : Real.exp x - 1 ≤ 1e150) ?_; norm_num)
  rw [e2] at n2
  have n2' := Near.mono n2 (show _ ≤ δ + 21 * uu by rw [ul_eq]; norm_num; linarith)
  have n3 := near_invArg F n2' (by linarith) (by norm_num; linarith) h1 h2
  have hwx1 : 1e-10 ≤ w * x := by norm_num at hw1 h1 ⊢; nlinarith
  have hwx2 : w * x ≤ 3 := by norm_num at hw2 h2 ⊢; nlinarith
  have n4 := near_mul F (near_refl hw) n3 (by linarith) (le_trans (by norm_num) hwx1) (hwx2.trans (by norm_num))
  have e3 : c1R / (w * x) = t := by
    have hc0 := c1R_pos.ne'
    rw [hx]; field_simp
  have ht1 : t ≤ 1e10 := by
    rw [← e3, div_le_iff₀ (by positivity)]; norm_num at hwx1 hc ⊢; linarith
  have ht2 : 1e-5 ≤ t := by
    rw [← e3, le_div_iff₀ (by positivity)]; norm_num at hwx2 hc ⊢; linarith
  have n5 := near_div F (PC1_near F) n4 (by linarith) (by rw [e3]; exact le_trans (by norm_num) ht2)
    (by rw [e3]; exact ht1.trans (by norm_num))
  rw [e3] at n5
  have eq : rad2tempPoint (α := RF F) (RF.of w) L = F.rd (XF.div (PLANCK_C1 : RF F) (F.rd (XF.mul (fin w) (F.log (F.rd (XF.add
      (F.rd (XF.div (PLANCK_C2 : RF F) (F.rd (XF.mul L (F.powNat (fin w) 5))))) (fin 1))))))) := by
    unfold rad2tempPoint
    rw [one_lit]
    rfl
  rw [eq]
  exact Near.mono n5 (by linarith)

theorem wn_inv_near {w t δ : ℝ} {L : RF F} (hw1 : 1e2 ≤ w) (hw2 : w ≤ 1e8) (ht : 0 < t)
    (h1 : 0.7 ≤ c1R * w / t) (h2 : c1R * w / t ≤ 300) (h0 : 0 ≤ δ) (hδ : δ ≤ 0.01)
    (hL : Near δ L (c2R * w ^ 3 / (Real.exp (c1R * w / t) - 1))) :
    Near (3 * δ + 83 * uu) (wnRad2tempPoint (α := RF F) (RF.of w) L) t := by
  have hu := uu_small
  have hu0 := uu_pos
  norm_num at hu hδ
  obtain ⟨nN, hN1, hN2⟩ := wn_nom_near F hw1 hw2
  obtain ⟨nA, hA1, hA2⟩ := wn_arg_near F hw1 hw2
  have hN0 : 0 < c2R * w ^ 3 := lt_of_lt_of_le (by norm_num) hN1
  set x := c1R * w / t with hx
  have hx0 : 0 < x := lt_of_lt_of_le (by norm_num) h1
  obtain ⟨hE1, hE2⟩ := exp_range h1 h2
  have hE0 : 0 < Real.exp x - 1 := by linarith
  have e2 : c2R * w ^ 3 / (c2R * w ^ 3 / (Real.exp x - 1)) = Real.exp x - 1 := div_div_cancel₀ hN0.ne'
  have n2 := near_div F nN hL (by linarith)
    (by rw [e2]; refine le_trans ?_ (by linarith : (1 : ℝ) ≤ Real.exp x - 1); norm_num)
    (by rw [e2]; refine le_trans (by linarith : Real.exp x - 1 ≤ 1e150) ?_; norm_num)
  rw [e2] at n2
  have n2' := Near.mono n2 (show _ ≤ δ + 21 * uu by linarith)
  have n3 := near_invArg F n2' (by linarith) (by norm_num; linarith) h1 h2
  have e3 : c1R * w / x = t := by
    have : c1R * w ≠ 0 := (lt_of_lt_of_le one_pos hA1).ne'
    rw [hx, div_div_cancel₀ this]
  have ht1 : t ≤ 1e10 := by
    rw [← e3, div_le_iff₀ hx0]; norm_num at h1 hA2 ⊢; linarith
  have ht2 : 1e-5 ≤ t := by
    rw [← e3, le_div_iff₀ hx0]; norm_num at h2 hA1 ⊢; linarith
  have n5 := near_div F nA n3 (by linarith) (by rw [e3]; exact le_trans (by norm_num) ht2)
    (by rw [e3]; exact ht1.trans (by norm_num))
  rw [e3] at n5
  have eq : wnRad2tempPoint (α := RF F) (RF.of w) L = F.rd (XF.div (PLANCK_C1 * RF.of w : RF F) (F.log (F.rd (XF.add
      (F.rd (XF.div (PLANCK_C2 * powNat (RF.of w) 3 : RF F) L)) (fin 1))))) := by
    unfold wnRad2tempPoint
    rw [one_lit]
    rfl
  rw [eq]
  exact Near.mono n5 (by linarith)

/-! monotone -/

theorem mul_comm' (a b : XF) : XF.mul a b = XF.mul b a := by
  cases a <;> cases b <;> simp [XF.mul, mul_comm]

theorem wl_inv_mono {w : ℝ} (hw1 : 1e-8 ≤ w) (hw2 : w ≤ 1e-2) {L₁ L₂ : RF F} (h0 : Lx (fin 0) L₁) (h : Lx L₁ L₂) :
    Lx (fin 0) (rad2tempPoint (α := RF F) (RF.of w) L₁) ∧
      Lx (rad2tempPoint (α := RF F) (RF.of w) L₁) (rad2tempPoint (α := RF F) (RF.of w) L₂) := by
  have hw : 0 < w := lt_of_lt_of_le (by norm_num) hw1
  have h3 : (1e-8 : ℝ) ^ 5 ≤ w ^ 5 := pow_le_pow_left₀ (by norm_num) hw1 5
  have h4 : w ^ 5 ≤ (1e-2 : ℝ) ^ 5 := pow_le_pow_left₀ hw.le hw2 5
  obtain ⟨p, ep, hp⟩ := (near_pow F 5 (near_refl hw) (by norm_num) (by norm_num at h3 ⊢; linarith)
    (by norm_num at h4 ⊢; linarith)).pos
  obtain ⟨c1, e1, hc1⟩ := (PC1_near F).pos
  obtain ⟨c2, e2, hc2⟩ := (PC2_near F).pos
  have eq : ∀ L : RF F, rad2tempPoint (α := RF F) (RF.of w) L = F.rd (XF.div (fin c1) (F.rd (XF.mul (fin w) (F.log (F.rd (XF.add
      (F.rd (XF.div (fin c2) (F.rd (XF.mul (fin p) L)))) (fin 1))))))) := by
    intro L
    rw [← e1, ← e2, ← ep, mul_comm' _ L]
    unfold rad2tempPoint
    rw [one_lit]
    rfl
  have hs : ∀ L : XF, Lx (fin 0) L → Lx (fin 0) (F.rd (XF.mul (fin p) L)) := fun L hL =>
    rd_nonneg F (mul_nonneg_left hp hL)
  have hq : ∀ L : XF, Lx (fin 0) L → Lx (fin 1) (F.rd (XF.add (F.rd (XF.div (fin c2) (F.rd (XF.mul (fin p) L)))) (fin 1))) := by
    intro L hL
    have := rd_mono F (add_one_mono 1 (rd_nonneg F (div_nonneg' hc2 (hs L hL))))
    rwa [show F.rd (XF.add (fin 0) (fin 1)) = fin 1 by
      show F.rnd (0 + 1) = _
      rw [zero_add, rnd_one]] at this
  have hl : ∀ L : XF, Lx (fin 0) L → Lx (fin 0) (F.rd (XF.mul (fin w) (F.log (F.rd (XF.add (F.rd (XF.div (fin c2) (F.rd (XF.mul (fin p) L)))) (fin 1)))))) :=
    fun L hL => rd_nonneg F (mul_nonneg_left hw (log_ge_zero F (hq L hL)))
  have h0' := h0.trans h
  rw [eq, eq]
  refine ⟨rd_nonneg F (div_nonneg' hc1 (hl _ h0)), rd_mono F (div_anti hc1 (hl _ h0') ?_)⟩
  apply rd_mono
  apply mul_mono_left hw (log_ge_zero F (hq _ h0'))
  refine F.log_mono _ _ ((lx_fin.2 zero_le_one).trans (hq _ h0')) ?_
  apply rd_mono
  apply add_one_mono
  apply rd_mono
  exact div_anti hc2 (hs _ h0) (rd_mono F (mul_mono_left hp h0 h))

theorem wn_inv_mono {w : ℝ} (hw1 : 1e2 ≤ w) (hw2 : w ≤ 1e8) {L₁ L₂ : RF F} (h0 : Lx (fin 0) L₁) (h : Lx L₁ L₂) :
    Lx (fin 0) (wnRad2tempPoint (α := RF F) (RF.of w) L₁) ∧
      Lx (wnRad2tempPoint (α := RF F) (RF.of w) L₁) (wnRad2tempPoint (α := RF F) (RF.of w) L₂) := by
  obtain ⟨c1, e1, hc1⟩ := (wn_arg_near F hw1 hw2).1.pos
  obtain ⟨c2, e2, hc2⟩ := (wn_nom_near F hw1 hw2).1.pos
  have eq : ∀ L : RF F, wnRad2tempPoint (α := RF F) (RF.of w) L = F.rd (XF.div (fin c1) (F.log (F.rd (XF.add
      (F.rd (XF.div (fin c2) L)) (fin 1))))) := by
    intro L
    rw [← e1, ← e2]
    unfold wnRad2tempPoint
    rw [one_lit]
    rfl
  have hq : ∀ L : XF, Lx (fin 0) L → Lx (fin 1) (F.rd (XF.add (F.rd (XF.div (fin c2) L)) (fin 1))) := by
    intro L hL
    have := rd_mono F (add_one_mono 1 (rd_nonneg F (div_nonneg' hc2 hL)))
    rwa [show F.rd (XF.add (fin 0) (fin 1)) = fin 1 by
      show F.rnd (0 + 1) = _
      rw [zero_add, rnd_one]] at this
  have h0' := h0.trans h
  rw [eq, eq]
  refine ⟨rd_nonneg F (div_nonneg' hc1 (log_ge_zero F (hq _ h0))),
    rd_mono F (div_anti hc1 (log_ge_zero F (hq _ h0')) ?_)⟩
  refine F.log_mono _ _ ((lx_fin.2 zero_le_one).trans (hq _ h0')) ?_
  apply rd_mono
  apply add_one_mono
  apply rd_mono
  exact div_anti hc2 h0 h

end
end Verif.Lemmas
