import Verif.Lemmas.FPPlanck
import Verif.Lemmas.FPBand
import Verif.Props.FloatingPoint
/-
The SEVIRI conversion formulas with rounding.
-/
namespace Verif.Lemmas
open XF Model PyNum Props

/-- computed coefficients `v a b` near exact ones `V A B`, in the range of the published table -/
structure SevNear (F : FP) (v a b : RF F) (V A B : ℝ) : Prop where
  nv : Near (3 * uu) v V
  na : Near uu a A
  nb : Near uu b B
  V1 : 7e4 ≤ V
  V2 : V ≤ 3e5
  A1 : 0.99 ≤ A
  A2 : A ≤ 1
  B1 : 0.05 ≤ B
  B2 : B ≤ 4

section
variable (F : FP)

/-- numerator and exponent factor -/
theorem sev_nom {v a b : RF F} {V A B : ℝ} (h : SevNear F v a b V A B) :
    Near (29 * uu) (2 * H_PLANCK * powNat C_SPEED 2 * powNat v 3 : RF F) (c2R * V ^ 3) ∧
      1e-10 ≤ c2R * V ^ 3 ∧ c2R * V ^ 3 ≤ 1e9 := by
  have hu := uu_small
  norm_num at hu
  have hV1 := h.V1
  have hV2 := h.V2
  have h3 : (7e4 : ℝ) ^ 3 ≤ V ^ 3 := pow_le_pow_left₀ (by norm_num) hV1 3
  have h4 : V ^ 3 ≤ (3e5 : ℝ) ^ 3 := pow_le_pow_left₀ (le_trans (by norm_num) hV1) hV2 3
  norm_num at h3 h4
  have hb := c2R_bounds
  have hb1 : (1e-16 : ℝ) = 1 / 10000000000000000 := by norm_num
  have hb2 : (1.2e-16 : ℝ) = 12 / 100000000000000000 := by norm_num
  rw [hb1, hb2] at hb
  have r1 : 1e-10 ≤ c2R * V ^ 3 := by
    refine le_trans ?_ (mul_le_mul hb.1 h3 (by norm_num) (by linarith))
    norm_num
  have r2 : c2R * V ^ 3 ≤ 1e9 := by
    refine le_trans (mul_le_mul hb.2 h4 (by linarith) (by norm_num)) ?_
    norm_num
  have hp := near_pow F 3 h.nv (by norm_num; linarith) (le_trans (by norm_num) h3) (h4.trans (by norm_num))
  have := near_mul F (PC2_near F) hp (by rw [ul_eq]; norm_num; linarith) (le_trans (by norm_num) r1) (r2.trans (by norm_num))
  refine ⟨Near.mono this ?_, r1, r2⟩
  rw [ul_eq]; norm_num; linarith

theorem sev_arg {v a b : RF F} {V A B : ℝ} (h : SevNear F v a b V A B) :
    Near (15 * uu) (H_PLANCK * C_SPEED / K_BOLTZMANN * v : RF F) (c1R * V) ∧
      1000 ≤ c1R * V ∧ c1R * V ≤ 4320 := by
  have hu := uu_small
  norm_num at hu
  have hV1 := h.V1
  have hV2 := h.V2
  have hb := c1R_bounds
  norm_num at hV1 hV2 hb
  have r1 : 1000 ≤ c1R * V := by
    refine le_trans ?_ (mul_le_mul hb.1 hV1 (by norm_num) (by linarith))
    norm_num
  have r2 : c1R * V ≤ 4320 := by
    refine le_trans (mul_le_mul hb.2 hV2 (by linarith) (by norm_num)) ?_
    norm_num
  have := near_mul F (PC1_near F) h.nv (by linarith) (le_trans (by norm_num) r1) (r2.trans (by norm_num))
  exact ⟨Near.mono this (by linarith), r1, r2⟩

theorem sev_rad_mono {v a b : RF F} {V A B : ℝ} (h : SevNear F v a b V A B) {t₁ t₂ : RF F}
    (h0 : Lx (fin 0) t₁) (ht : Lx t₁ t₂) :
    Lx (fin 0) (seviriRadPoint (α := RF F) v a b t₁) ∧ Lx (seviriRadPoint (α := RF F) v a b t₁) (seviriRadPoint (α := RF F) v a b t₂) := by
  obtain ⟨N, eN, hN⟩ := (sev_nom F h).1.pos
  obtain ⟨A', eA, hA⟩ := (sev_arg F h).1.pos
  obtain ⟨a', ea, ha⟩ := h.na.pos
  obtain ⟨b', eb, hb⟩ := h.nb.pos
  have eq : ∀ t : RF F, seviriRadPoint (α := RF F) v a b t = F.rd (XF.div (fin N) (F.rd (XF.sub (F.exp (F.rd (XF.div (fin A')
      (F.rd (XF.add (F.rd (XF.mul (fin a') t)) (fin b')))))) (fin 1)))) := by
    intro t
    rw [← eN, ← eA, ← ea, ← eb]
    unfold seviriRadPoint
    simp only []
    rw [one_nat]
    rfl
  have hD : ∀ t : XF, Lx (fin 0) t → Lx (fin 0) (F.rd (XF.add (F.rd (XF.mul (fin a') t)) (fin b'))) := by
    intro t h0
    apply rd_nonneg
    have := add_one_mono b' (rd_nonneg F (mul_nonneg_left ha h0))
    exact (lx_fin.2 (by simpa using hb.le : (0 : ℝ) ≤ 0 + b')).trans this
  have hE : ∀ t : XF, Lx (fin 0) t → Lx (fin 0) (F.rd (XF.sub (F.exp (F.rd (XF.div (fin A')
      (F.rd (XF.add (F.rd (XF.mul (fin a') t)) (fin b')))))) (fin 1))) := by
    intro t h0
    apply rd_nonneg
    have := sub_mono 1 (exp_ge_one F (rd_nonneg F (div_nonneg' hA (hD t h0))))
    have e : XF.sub (fin 1) (fin 1) = fin 0 := by simp [XF.sub, XF.add, XF.neg]
    rwa [e] at this
  have h0' := h0.trans ht
  rw [eq, eq]
  refine ⟨rd_nonneg F (div_nonneg' hN (hE _ h0)), rd_mono F (div_anti hN (hE _ h0') ?_)⟩
  apply rd_mono
  apply sub_mono
  apply F.exp_mono
  apply rd_mono
  refine div_anti hA (hD _ h0) ?_
  apply rd_mono
  apply add_one_mono
  apply rd_mono
  exact mul_mono_left ha h0 ht

theorem sev_tb_mono {v a b : RF F} {V A B : ℝ} (h : SevNear F v a b V A B) {L₁ L₂ : RF F}
    (h0 : Lx (fin 0) L₁) (hL : Lx L₁ L₂) :
    Lx (seviriTbPoint (α := RF F) v a b L₁) (seviriTbPoint (α := RF F) v a b L₂) := by
  have hu := uu_small
  norm_num at hu
  have hA1 := h.A1
  have hA2 := h.A2
  have hB1 := h.B1
  have hB2 := h.B2
  norm_num at hA1 hA2 hB1 hB2
  have hA0 : 0 < A := by linarith
  have q1 : 0.05 ≤ B / A := by rw [le_div_iff₀ hA0]; norm_num; nlinarith
  have q2 : B / A ≤ 5 := by rw [div_le_iff₀ hA0]; nlinarith
  obtain ⟨N, eN, hN⟩ := (sev_nom F h).1.pos
  obtain ⟨A', eA, hA⟩ := (sev_arg F h).1.pos
  obtain ⟨a', ea, ha⟩ := h.na.pos
  obtain ⟨q, eq', hq⟩ := (near_div F h.nb h.na (by linarith) (le_trans (by norm_num) q1) (q2.trans (by norm_num))).pos
  have eq : ∀ L : RF F, seviriTbPoint (α := RF F) v a b L = F.rd (XF.sub (F.rd (XF.div (fin A') (F.rd (XF.mul (fin a') (F.log (F.rd (XF.add
      (F.rd (XF.div (fin N) L)) (fin 1)))))))) (fin q)) := by
    intro L
    rw [← eN, ← eA, ← eq', ← ea]
    unfold seviriTbPoint
    simp only []
    rw [one_nat]
    rfl
  have hq' : ∀ L : XF, Lx (fin 0) L → Lx (fin 1) (F.rd (XF.add (F.rd (XF.div (fin N) L)) (fin 1))) := by
    intro L hL
    have := rd_mono F (add_one_mono 1 (rd_nonneg F (div_nonneg' hN hL)))
    rwa [show F.rd (XF.add (fin 0) (fin 1)) = fin 1 by
      show F.rnd (0 + 1) = _
      rw [zero_add, rnd_one]] at this
  have h0' := h0.trans hL
  rw [eq, eq]
  apply rd_mono
  apply sub_mono
  apply rd_mono
  refine div_anti hA (rd_nonneg F (mul_nonneg_left ha (log_ge_zero F (hq' _ h0')))) ?_
  apply rd_mono
  refine mul_mono_left ha (log_ge_zero F (hq' _ h0')) ?_
  refine F.log_mono _ _ ((lx_fin.2 zero_le_one).trans (hq' _ h0')) ?_
  apply rd_mono
  apply add_one_mono
  apply rd_mono
  exact div_anti hN h0 hL

theorem sev_rad_near {v a b : RF F} {V A B t : ℝ} (h : SevNear F v a b V A B) (h1 : 100 ≤ t) (h2 : t ≤ 400) :
    2.4 ≤ c1R * V / (A * t + B) ∧ c1R * V / (A * t + B) ≤ 44 ∧
    Near ((47 + 152 * (c1R * V / (A * t + B))) * uu) (seviriRadPoint (α := RF F) v a b (RF.of t))
      (c2R * V ^ 3 / (Real.exp (c1R * V / (A * t + B)) - 1)) := by
  have hu := uu_small
  have hu0 := uu_pos
  norm_num at hu
  have hA1 := h.A1
  have hA2 := h.A2
  have hB1 := h.B1
  have hB2 := h.B2
  norm_num at hA1 hA2 hB1 hB2
  have hA0 : 0 < A := by linarith
  have ht0 : 0 < t := by linarith
  obtain ⟨nN, hN1, hN2⟩ := sev_nom F h
  obtain ⟨nA, hA1', hA2'⟩ := sev_arg F h
  have p1 : 99 ≤ A * t := by nlinarith
  have p2 : A * t ≤ 400 := by nlinarith
  have n1 := near_mul F h.na (near_refl ht0) (by linarith) (le_trans (by norm_num) p1) (p2.trans (by norm_num))
  have n2 : Near (3 * uu) (F.rd (XF.add (F.rd (XF.mul a (fin t))) b)) (A * t + B) := by
    have := (near0_add F (δ := 2 * uu) (a := F.rd (XF.mul a (fin t))) (b := b) (x := A * t) (y := B) (by linarith) (by linarith)
      (Or.inr ⟨le_trans (by norm_num) p1, p2.trans (by norm_num)⟩)
      (Or.inr ⟨le_trans (by norm_num) hB1, hB2.trans (by norm_num)⟩)
      (Or.inr (n1.mono (by linarith))) (Or.inr (h.nb.mono (by linarith)))).2
    rcases this with ⟨h, _⟩ | h
    · linarith
    · exact h.mono (by linarith)
  have d1 : 99 ≤ A * t + B := by linarith
  have d2 : A * t + B ≤ 404 := by linarith
  have hd0 : 0 < A * t + B := by linarith
  set D := A * t + B with hD
  have x1 : 2.4 ≤ c1R * V / D := by rw [le_div_iff₀ hd0]; norm_num; linarith
  have x2 : c1R * V / D ≤ 44 := by rw [div_le_iff₀ hd0]; linarith
  have n3 := near_div F nA n2 (by linarith) (le_trans (by norm_num) x1) (x2.trans (by norm_num))
  refine ⟨x1, x2, ?_⟩
  generalize c1R * V / D = x at *
  have n3' := Near.mono n3 (show _ ≤ 19 * uu by linarith)
  norm_num at x1
  have hx3 : (0.7 : ℝ) ≤ x := by norm_num; linarith
  have hx4 : x ≤ 300 := by linarith
  have hd := near_exp F n3' (by linarith) (by norm_num; linarith) hx4
  obtain ⟨hE1, hE2⟩ := exp_range hx3 hx4
  have hη : 2 * (19 * uu) * x + ul = (38 * x + 4) * uu := by rw [ul_eq]; ring
  rw [hη] at hd
  have hη1 : (38 * x + 4) * uu ≤ 1e-10 := by nlinarith
  norm_num at hη1
  have hη0 : 0 ≤ (38 * x + 4) * uu := mul_nonneg (by linarith) hu0.le
  have hf := (near_sub_one hd hE1 hη0 (by linarith)).rd F (by linarith) (le_trans (by norm_num) (by linarith : (1 : ℝ) ≤ Real.exp x - 1))
    (le_trans (by linarith : Real.exp x - 1 ≤ 1e150) (by norm_num))
  have hE0 : 0 < Real.exp x - 1 := by linarith
  have hg := near_div F nN hf (by linarith)
    (by rw [le_div_iff₀ hE0]; norm_num at hN1 hE2 ⊢; linarith)
    (by rw [div_le_iff₀ hE0]; norm_num at hN2 ⊢; linarith)
  have eq : seviriRadPoint (α := RF F) v a b (RF.of t) = F.rd (XF.div (2 * H_PLANCK * powNat C_SPEED 2 * powNat v 3 : RF F)
      (F.rd (XF.sub (F.exp (F.rd (XF.div (H_PLANCK * C_SPEED / K_BOLTZMANN * v : RF F)
      (F.rd (XF.add (F.rd (XF.mul a (fin t))) b))))) (fin 1)))) := by
    unfold seviriRadPoint
    simp only []
    rw [one_nat]
    rfl
  rw [eq]
  exact Near.mono hg (by nlinarith)

/-- the computed temperature of a computed radiance -/
theorem sev_tb_near {v a b L : RF F} {V A B t δ : ℝ} (h : SevNear F v a b V A B) (h1 : 100 ≤ t) (h2 : t ≤ 400)
    (h0 : 0 ≤ δ) (hδ : δ ≤ 1e-10)
    (hL : Near δ L (c2R * V ^ 3 / (Real.exp (c1R * V / (A * t + B)) - 1))) :
    ∃ T : ℝ, seviriTbPoint (α := RF F) v a b L = fin T ∧ |T - t| ≤ 900 * (3 * δ + 117 * uu) := by
  have hu := uu_small
  have hu0 := uu_pos
  norm_num at hu hδ
  have hA1 := h.A1
  have hA2 := h.A2
  have hB1 := h.B1
  have hB2 := h.B2
  norm_num at hA1 hA2 hB1 hB2
  have hA0 : 0 < A := by linarith
  obtain ⟨x1, x2, _⟩ := sev_rad_near F h h1 h2
  obtain ⟨nN, hN1, hN2⟩ := sev_nom F h
  obtain ⟨nA, hA1', hA2'⟩ := sev_arg F h
  have p1 : 99 ≤ A * t := by nlinarith
  have p2 : A * t ≤ 400 := by nlinarith
  have hd0 : 0 < A * t + B := by linarith
  have hN0 : 0 < c2R * V ^ 3 := lt_of_lt_of_le (by norm_num) hN1
  have e3 : c1R * V / (c1R * V / (A * t + B)) = A * t + B := div_div_cancel₀ (by linarith)
  set x := c1R * V / (A * t + B) with hx
  norm_num at x1
  have hx3 : (0.7 : ℝ) ≤ x := by norm_num; linarith
  have hx4 : x ≤ 300 := by linarith
  obtain ⟨hE1, hE2⟩ := exp_range hx3 hx4
  have e2 : c2R * V ^ 3 / (c2R * V ^ 3 / (Real.exp x - 1)) = Real.exp x - 1 := div_div_cancel₀ hN0.ne'
  have n2 := near_div F nN hL (by linarith)
    (by rw [e2]; refine le_trans ?_ (by linarith : (1 : ℝ) ≤ Real.exp x - 1); norm_num)
    (by rw [e2]; refine le_trans (by linarith : Real.exp x - 1 ≤ 1e150) ?_; norm_num)
  rw [e2] at n2
  have n2' := Near.mono n2 (show _ ≤ δ + 30 * uu by linarith)
  have n3 := near_invArg F n2' (by linarith) (by norm_num; linarith) hx3 hx4
  have ax1 : 1 ≤ A * x := by nlinarith
  have ax2 : A * x ≤ 44 := by nlinarith
  have n4 := near_mul F h.na n3 (by linarith) (le_trans (by norm_num) ax1) (ax2.trans (by norm_num))
  have e4 : c1R * V / (A * x) = t + B / A := by
    rw [mul_comm A x, ← div_div, e3]; field_simp
  have q1 : 0.05 ≤ B / A := by rw [le_div_iff₀ hA0]; norm_num; nlinarith
  have q2 : B / A ≤ 5 := by rw [div_le_iff₀ hA0]; nlinarith
  norm_num at q1
  have n5 := near_div F nA n4 (by linarith) (by rw [e4]; refine le_trans ?_ (show (100 : ℝ) ≤ _ by linarith); norm_num)
    (by rw [e4]; refine le_trans (show _ ≤ (405 : ℝ) by linarith) ?_; norm_num)
  rw [e4] at n5
  have n6 := near_div F h.nb h.na (by linarith) (le_trans (by norm_num) q1) (q2.trans (by norm_num))
  obtain ⟨y, ey, hy⟩ := near_abs n5 (by linarith) (by norm_num; linarith)
  obtain ⟨q, eq', hq⟩ := near_abs n6 (by linarith) (by norm_num; linarith)
  have hz : |(y - q) - t| ≤ 405 * (2 * (3 * δ + 115 * uu)) + 30 * uu := by
    have e : (y - q) - t = (y - (t + B / A)) - (q - B / A) := by ring
    rw [e]
    refine (abs_sub _ _).trans (add_le_add (hy.trans ?_) (hq.trans ?_))
    · exact mul_le_mul (by linarith) (by linarith) (by linarith) (by norm_num)
    · nlinarith
  have hz' := abs_le.1 hz
  have hz1 : 99 ≤ y - q := by linarith
  have hz2 : y - q ≤ 401 := by linarith
  obtain ⟨T, eT, hT⟩ := F.rnd_near (y - q) (le_trans (by norm_num) hz1) (hz2.trans (by norm_num))
  refine ⟨T, ?_, ?_⟩
  · have eq : seviriTbPoint (α := RF F) v a b L = F.rd (XF.sub (F.rd (XF.div (H_PLANCK * C_SPEED / K_BOLTZMANN * v : RF F)
        (F.rd (XF.mul a (F.log (F.rd (XF.add
        (F.rd (XF.div (2 * H_PLANCK * powNat C_SPEED 2 * powNat v 3 : RF F) L)) (fin 1)))))))) (F.rd (XF.div b a))) := by
      unfold seviriTbPoint
      simp only []
      rw [one_nat]
      rfl
    rw [eq, ey, eq']
    exact eT
  · have e : T - t = (T - (y - q)) + (y - q - t) := by ring
    rw [e]
    refine (abs_add_le _ _).trans ?_
    have : (y - q) / 2 ^ 52 ≤ 401 * uu := by
      unfold uu
      rw [← mul_div_assoc]
      gcongr
      linarith
    linarith
end
end Verif.Lemmas
