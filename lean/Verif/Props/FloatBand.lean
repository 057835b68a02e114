import Verif.Lemmas.FPBand
import Verif.Props.FloatingPoint
/-
Properties C118, C119: band radiances as they are computed in floating point.
-/
namespace Verif.Props
open XF Model PyNum Lemmas Spec

/-- A band in floating point: positions in SI units in a sensible range for the wave space, with
gaps from 1e-20 to 1e9, and responses that are zero or from 1e-10 to 1e10, not all zero. -/
structure FpBand (ws : String) (w r : List ℝ) : Prop where
  gaps : Gaps w
  range : ∀ x ∈ w, if ws = "wavenumber" then 1e2 ≤ x ∧ x ≤ 1e8 else 1e-8 ≤ x ∧ x ≤ 1e-2
  resp : ∀ y ∈ r, y = 0 ∨ (1e-10 ≤ y ∧ y ≤ 1e10)
  len : w.length = r.length
  size : w.length ≤ 2 ^ 20
  integral : 0 < trap w r

/-- A converter holding these samples and the trapezoid integral of the response computed from them. -/
structure FpLoaded {F : FP} (c : RadTb (RF F)) (w r : List ℝ) : Prop where
  wave : c.wave = w.map RF.of
  response : c.response = r.map RF.of
  integral : NP.trapezoid c.response c.wave = .ok c.rsr_integral

/-- Planck's law in either wave space -/
noncomputable def planckOf (ws : String) (x t : ℝ) : ℝ :=
  if ws = "wavenumber" then planckWavenumber x t else planckWavelength x t

/-- hc/(λkT) or hcν/(kT) -/
noncomputable def planckX (ws : String) (x t : ℝ) : ℝ :=
  if ws = "wavenumber" then Spec.h * Spec.c * x / (Spec.k * t) else Spec.h * Spec.c / (x * Spec.k * t)

/-- the band radiance by the trapezoid rule, in exact arithmetic -/
noncomputable def exactBand (ws : String) (w r : List ℝ) (norm : Bool) (t : ℝ) : ℝ :=
  let v := trap w (List.zipWith (fun x y => planckOf ws x t * y) w r)
  if norm then v / trap w r else v

section
variable (F : FP)

theorem gaps_ne {w r : List ℝ} (h : 0 < trap w r) : w ≠ [] := by
  rintro rfl; simp [trap] at h

theorem ws_ne (ws : String) : (ws != WAVE_NUMBER) = true ↔ ws ≠ "wavenumber" := by
  simp [WAVE_NUMBER]

theorem entry_mono {ws : String} {x t₁ t₂ : ℝ}
    (hx : if ws = "wavenumber" then 1e2 ≤ x ∧ x ≤ 1e8 else 1e-8 ≤ x ∧ x ≤ 1e-2)
    (h1 : 2e-6 ≤ t₁) (h : t₁ ≤ t₂) (h2 : t₂ ≤ 1e5) :
    ∃ a b : ℝ, planckEntry (ws != WAVE_NUMBER) (RF.of x : RF F) (RF.of t₁) = RF.of a ∧
      planckEntry (ws != WAVE_NUMBER) (RF.of x : RF F) (RF.of t₂) = RF.of b ∧ 0 ≤ a ∧ a ≤ b ∧ b ≤ 1e33 := by
  have ht0 : 0 < t₁ := lt_of_lt_of_le (by norm_num) h1
  have hu := uu_small
  have hu0 := uu_pos
  norm_num at hu
  have big : ∀ {N Nx : ℝ}, Near (20 * uu) (fin N) Nx → Nx ≤ 1e25 → N ≤ 1e26 := by
    intro N Nx ⟨_, y, e, _, h4⟩ hN
    cases e
    refine h4.trans ?_
    have := mul_le_mul hN (exp_le_three (δ := 20 * uu) (by linarith)) (Real.exp_pos _).le (by norm_num)
    norm_num at this ⊢; linarith
  have low : ∀ {A Ax : ℝ}, Near (12 * uu) (fin A) Ax → 1 ≤ Ax → 0.9 ≤ A := by
    intro A Ax ⟨_, y, e, h3, _⟩ hA
    cases e
    have := Real.add_one_le_exp (-(12 * uu))
    norm_num; nlinarith
  have fin' : ∀ {N A Nx Ax : ℝ}, Near (20 * uu) (fin N) Nx → Nx ≤ 1e25 → Near (12 * uu) (fin A) Ax → 1 ≤ Ax →
      0 < N → 0 < A → ∃ a b : ℝ, coreRad F N A t₁ = fin a ∧ coreRad F N A t₂ = fin b ∧ 0 ≤ a ∧ a ≤ b ∧ b ≤ 1e33 := by
    intro N A Nx Ax nN hN nA hA pN pA
    obtain ⟨a, ea, ha, _⟩ := core_finite F pN (big nN hN) (low nA hA) ht0 (h.trans h2)
    obtain ⟨b, eb, _, hb⟩ := core_finite F pN (big nN hN) (low nA hA) (ht0.trans_le h) h2
    have := (core_mono F pN pA ht0 h).2
    rw [ea, eb] at this
    exact ⟨a, b, ea, eb, ha, lx_fin.1 this, hb⟩
  by_cases hws : ws = "wavenumber"
  · rw [if_pos hws] at hx
    have e : (ws != WAVE_NUMBER) = false := by simp [hws, WAVE_NUMBER]
    obtain ⟨nN, _, hN⟩ := wn_nom_near F hx.1 hx.2
    obtain ⟨nA, hA, _⟩ := wn_arg_near F hx.1 hx.2
    obtain ⟨N, eN, pN⟩ := nN.pos
    obtain ⟨A, eA, pA⟩ := nA.pos
    obtain ⟨a, b, ea, eb, h'⟩ := fin' (eN ▸ nN) (hN.trans (by norm_num)) (eA ▸ nA) hA pN pA
    exact ⟨a, b, by rw [e, entry_core F (wl := false) h1 eN eA]; exact ea,
      by rw [e, entry_core F (wl := false) (h1.trans h) eN eA]; exact eb, h'⟩
  · rw [if_neg hws] at hx
    have e : (ws != WAVE_NUMBER) = true := (ws_ne ws).2 hws
    obtain ⟨nN, _, hN⟩ := wl_nom_near F hx.1 hx.2
    obtain ⟨nA, hA, _⟩ := wl_arg_near F hx.1 hx.2
    obtain ⟨N, eN, pN⟩ := nN.pos
    obtain ⟨A, eA, pA⟩ := nA.pos
    obtain ⟨a, b, ea, eb, h'⟩ := fin' (eN ▸ nN) hN (eA ▸ nA) hA pN pA
    exact ⟨a, b, by rw [e, entry_core F (wl := true) h1 eN eA]; exact ea,
      by rw [e, entry_core F (wl := true) (h1.trans h) eN eA]; exact eb, h'⟩

theorem zipWith_maps {α β γ δ ε : Type} (g : γ → δ → ε) (f : α → γ) (h : β → δ) (w : List α) (r : List β) :
    List.zipWith g (w.map f) (r.map h) = (w.zip r).map fun p => g (f p.1) (h p.2) := by
  rw [List.zipWith_map, List.map_zip_eq_zipWith]; rfl

/-- the integral of the response is positive and finite -/
theorem integral_pos {c : RadTb (RF F)} {w r : List ℝ} {ws : String} (hc : FpLoaded c w r) (hb : FpBand ws w r) :
    Near ((4 + 2 * w.length) * uu) c.rsr_integral (trap w r) := by
  have h := hc.integral
  rw [hc.wave, hc.response, trapezoid_val _ _ (by simp [hb.len])] at h
  have h' := Except.ok.inj h
  have := trapVal_near F (δ := 0) le_rfl (by norm_num) hb.gaps (ys := r.map RF.of) (vs := r) (by
    rw [List.forall₂_map_left_iff, List.forall₂_same]
    intro y hy
    rcases hb.resp y hy with h | h
    · exact ⟨Or.inl h, Or.inl ⟨h, by rw [h]; rfl⟩⟩
    · exact ⟨Or.inr ⟨le_trans (by norm_num) h.1, h.2.trans (by norm_num)⟩,
        Or.inr (near_refl (lt_of_lt_of_le (by norm_num) h.1))⟩) hb.size
  rw [← h']
  rcases this.1 with h3 | h3
  · exact absurd h3.1 hb.integral.ne'
  · rwa [zero_add] at h3

theorem bandVal_mono {c : RadTb (RF F)} {w r : List ℝ} (hc : FpLoaded c w r) (hb : FpBand c.wavespace w r)
    (norm : Bool) {t₁ t₂ : ℝ} (h1 : 2e-6 ≤ t₁) (h : t₁ ≤ t₂) (h2 : t₂ ≤ 1e5) :
    Lx (fin 0) (bandVal (α := RF F) c norm (RF.of t₁)) ∧
      Lx (bandVal (α := RF F) c norm (RF.of t₁)) (bandVal (α := RF F) c norm (RF.of t₂)) := by
  have key := trapVal_mono F hb.gaps
    (ys := List.zipWith (· * ·) (c.wave.map fun w => planckEntry (c.wavespace != WAVE_NUMBER) w (RF.of t₁)) c.response)
    (ys' := List.zipWith (· * ·) (c.wave.map fun w => planckEntry (c.wavespace != WAVE_NUMBER) w (RF.of t₂)) c.response) (by
      rw [hc.wave, hc.response, List.map_map, List.map_map, zipWith_maps, zipWith_maps]
      unfold LeL
      rw [List.forall₂_map_left_iff, List.forall₂_map_right_iff, List.forall₂_same]
      intro p hp
      obtain ⟨p1, p2⟩ := List.of_mem_zip hp
      obtain ⟨a, b, ea, eb, ha, hab, _⟩ := entry_mono F (hb.range _ p1) h1 h h2
      simp only [Function.comp]
      rw [ea, eb]
      have hr : 0 ≤ p.2 := by
        rcases hb.resp _ p2 with h | h
        · exact h.ge
        · exact le_trans (by norm_num) h.1
      exact ⟨rd_nonneg F (lx_fin.2 (mul_nonneg ha hr)), rd_mono F (lx_fin.2 (mul_le_mul_of_nonneg_right hab hr))⟩)
  rw [← hc.wave] at key
  cases norm
  · exact key
  · obtain ⟨I, eI, pI⟩ := (integral_pos F hc hb).pos
    have := div_mono_right pI key.1 key.2
    rw [← eI] at this
    exact ⟨rd_nonneg F this.1, rd_mono F this.2⟩

/-- the normalised radiance is finite -/
theorem bandVal_finite {c : RadTb (RF F)} {w r : List ℝ} (hc : FpLoaded c w r) (hb : FpBand c.wavespace w r)
    {t : ℝ} (h1 : 2e-6 ≤ t) (h2 : t ≤ 1e5) :
    ∃ v : ℝ, bandVal (α := RF F) c true (RF.of t) = RF.of v ∧ 0 ≤ v ∧ v ≤ 1e34 := by
  have hu := uu_small
  have hu0 := uu_pos
  norm_num at hu
  obtain ⟨g, hg⟩ : ∃ g : ℝ × ℝ → RF F, ∀ p, g p = F.rnd (1e33 * p.2) := ⟨_, fun _ => rfl⟩
  have key := trapVal_mono F hb.gaps
    (ys := List.zipWith (· * ·) (c.wave.map fun w => planckEntry (c.wavespace != WAVE_NUMBER) w (RF.of t)) c.response)
    (ys' := (w.zip r).map g) (by
      rw [hc.wave, hc.response, List.map_map, zipWith_maps]
      unfold LeL
      rw [List.forall₂_map_left_iff, List.forall₂_map_right_iff, List.forall₂_same]
      intro p hp
      obtain ⟨p1, p2⟩ := List.of_mem_zip hp
      obtain ⟨a, b, ea, _, ha, hab, hb'⟩ := entry_mono F (hb.range _ p1) h1 le_rfl h2
      simp only [Function.comp]
      rw [ea, hg]
      have hr : 0 ≤ p.2 := by
        rcases hb.resp _ p2 with h | h
        · exact h.ge
        · exact le_trans (by norm_num) h.1
      exact ⟨rd_nonneg F (lx_fin.2 (mul_nonneg ha hr)),
        rd_mono F (lx_fin.2 (mul_le_mul_of_nonneg_right (hab.trans hb') hr))⟩)
  have hT := trapVal_near F (δ := uu) hu0.le (by linarith) hb.gaps (ys := (w.zip r).map g)
    (vs := (w.zip r).map fun p => 1e33 * p.2) (by
      rw [List.forall₂_map_left_iff, List.forall₂_map_right_iff, List.forall₂_same]
      intro p hp
      obtain ⟨_, p2⟩ := List.of_mem_zip hp
      rw [hg]
      rcases hb.resp _ p2 with h | h
      · refine ⟨Or.inl (by rw [h, mul_zero]), Or.inl ⟨by rw [h, mul_zero], ?_⟩⟩
        rw [h, mul_zero]; exact rnd_zero F
      · have l1 : (1e23 : ℝ) ≤ 1e33 * p.2 := by
          have := h.1; norm_num at this ⊢; linarith
        have l2 : (1e33 : ℝ) * p.2 ≤ 1e43 := by
          have := h.2; norm_num at this ⊢; linarith
        exact ⟨Or.inr ⟨le_trans (by norm_num) l1, l2.trans (by norm_num)⟩,
          Or.inr (near_rnd F (le_trans (by norm_num) l1) (l2.trans (by norm_num)))⟩) hb.size
  have e : trap w ((w.zip r).map fun p => 1e33 * p.2) = 1e33 * trap w r := by
    have := trap_smul (X := Prod.fst) (Y := Prod.snd) 1e33 (w.zip r)
    rwa [zip_map_fst hb.len, zip_map_snd hb.len] at this
  rw [e] at hT
  have hI := integral_pos F hc hb
  have h0 := hb.integral
  have hT' := hT.1.resolve_left (fun h => by
    have := h.1
    rcases mul_eq_zero.1 this with h | h
    · norm_num at h
    · exact h0.ne' h)
  have hl : (w.length : ℝ) ≤ 2 ^ 20 := by exact_mod_cast hb.size
  have hlu : (w.length : ℝ) * uu ≤ 1e-8 := by
    have := mul_le_mul hl hu hu0.le (by norm_num)
    refine this.trans ?_; norm_num
  norm_num at hlu
  have hl0 : 0 ≤ (w.length : ℝ) * uu := mul_nonneg (Nat.cast_nonneg _) hu0.le
  have q : 1e33 * trap w r / trap w r = 1e33 := mul_div_cancel_right₀ _ h0.ne'
  have hd := near_div F hT' hI (by nlinarith) (by rw [q]; norm_num) (by rw [q]; norm_num)
  rw [q] at hd
  obtain ⟨_, y, ey, _, hy⟩ := hd.mono (show _ ≤ (1 : ℝ) by nlinarith)
  obtain ⟨I, eI, pI⟩ := hI.pos
  have hv := div_mono_right pI key.1 key.2
  rw [← eI] at hv
  have v1 := rd_nonneg F hv.1
  have v2 := rd_mono F hv.2
  rw [ey, ← hc.wave] at v2
  rw [← hc.wave] at v1
  obtain ⟨v, ev, hv0, hv1⟩ := fin_of_le v1 v2
  refine ⟨v, ev, hv0, hv1.trans (hy.trans ?_)⟩
  have := mul_le_mul_of_nonneg_left (exp_le_three (δ := 1) le_rfl) (show (0 : ℝ) ≤ 1e33 by norm_num)
  refine this.trans ?_; norm_num

end

/-! ### C118 -/

/-- C118: the computed band radiances of a list of temperatures are numbers, not negative, and never
smaller for a higher temperature. -/
theorem C118_band_radiance_never_decreases (F : FP) (c : RadTb (RF F)) (w r : List ℝ) (hc : FpLoaded c w r)
    (hb : FpBand c.wavespace w r) (nc : Int) (norm : Bool) (ts : List ℝ) (hts : ts ≠ [])
    (ht : ∀ t ∈ ts, 2e-6 ≤ t ∧ t ≤ 1e5) :
    ∃ (b : ℝ → RF F) (res : RadResult (RF F)), c.tb2radiance nc (ts.map RF.of) none norm = .ok res ∧
      res.radiance = .arr (ts.map b) ∧
      ∀ t₁ ∈ ts, ∀ t₂ ∈ ts, t₁ ≤ t₂ → RF.Le (RF.of 0) (b t₁) ∧ RF.Le (b t₁) (b t₂) := by
  refine ⟨fun t => bandVal c norm (RF.of t), _, tb2radiance_val c ?_ ?_ nc _ (by simpa using hts) norm, ?_, ?_⟩
  · rw [hc.wave]; simpa using gaps_ne hb.integral
  · rw [hc.wave, hc.response]; simp [hb.len]
  · simp [Function.comp_def]
  · intro t₁ m1 t₂ m2 h
    exact bandVal_mono F hc hb norm (ht _ m1).1 h (ht _ m2).2

/-- a converter with three samples around 11 micron, in double precision -/
noncomputable def exFpConv : RadTb (RF Double.fp) :=
  { platform_name := "P", instrument := "i", bandname := some "ch4", detector := "det-1"
    wavespace := WAVE_LENGTH, tb_resolution := RF.of 0.1, tb_scale := 1.0 / RF.of 0.1
    wave_unit := "1e-6 m", wave_si_scale := RF.of 1e-6, rsr := [], rsrInstrument := .none
    wave := [10e-6, 11e-6, 12e-6].map RF.of, response := [0, 1, 0].map RF.of
    rsr_integral := trapVal ([0, 1, 0].map RF.of) ([10e-6, 11e-6, 12e-6].map RF.of) }

theorem exFpConv_loaded : FpLoaded exFpConv [10e-6, 11e-6, 12e-6] [0, 1, 0] :=
  ⟨rfl, rfl, trapezoid_val _ _ rfl⟩

theorem exFpBand : FpBand exFpConv.wavespace [10e-6, 11e-6, 12e-6] [0, 1, 0] where
  gaps := by simp only [Gaps]; norm_num
  range := by
    intro x hx
    rw [if_neg (by decide +kernel)]
    simp at hx; rcases hx with rfl | rfl | rfl <;> norm_num
  resp := by intro x hx; simp at hx; rcases hx with rfl | rfl | rfl <;> norm_num
  len := rfl
  size := by simp
  integral := by simp [trap]; norm_num

example : ∃ (b : ℝ → RF Double.fp) (res : RadResult (RF Double.fp)),
    exFpConv.tb2radiance 0 ([220, 300].map RF.of) none true = .ok res ∧ res.radiance = .arr ([220, 300].map b) ∧
      ∀ t₁ ∈ ([220, 300] : List ℝ), ∀ t₂ ∈ ([220, 300] : List ℝ), t₁ ≤ t₂ →
        RF.Le (RF.of 0) (b t₁) ∧ RF.Le (b t₁) (b t₂) :=
  C118_band_radiance_never_decreases Double.fp exFpConv _ _ exFpConv_loaded exFpBand 0 true [220, 300] (by simp)
    (by intro t ht; simp at ht; rcases ht with rfl | rfl <;> norm_num)

/-! ### C119 -/

section
variable (F : FP)

theorem entry_near {ws : String} {x t X : ℝ}
    (hx : if ws = "wavenumber" then 1e2 ≤ x ∧ x ≤ 1e8 else 1e-8 ≤ x ∧ x ≤ 1e-2) (ht : 0 < t)
    (h1 : 0.7 ≤ planckX ws x t) (h2 : planckX ws x t ≤ X) (hX : X ≤ 300) :
    Near ((38 + 112 * X) * uu) (planckEntry (α := RF F) (ws != WAVE_NUMBER) (RF.of x) (RF.of t)) (planckOf ws x t) ∧
      1e-160 ≤ planckOf ws x t ∧ planckOf ws x t ≤ 1e25 := by
  have hu0 := uu_pos
  have hXm : (38 + 112 * planckX ws x t) * uu ≤ (38 + 112 * X) * uu :=
    mul_le_mul_of_nonneg_right (by linarith) hu0.le
  obtain ⟨E1, E2⟩ := exp_range h1 (h2.trans hX)
  have rng : ∀ {N : ℝ}, 1e-10 ≤ N → N ≤ 1e25 →
      1e-160 ≤ N / (Real.exp (planckX ws x t) - 1) ∧ N / (Real.exp (planckX ws x t) - 1) ≤ 1e25 := by
    intro N hN1 hN2
    have hN0 : 0 < N := lt_of_lt_of_le (by norm_num) hN1
    have hE : 0 < Real.exp (planckX ws x t) - 1 := by linarith
    constructor
    · rw [le_div_iff₀ hE]
      refine le_trans ?_ hN1
      have : (1e-160 : ℝ) * (Real.exp (planckX ws x t) - 1) ≤ 1e-160 * 1e150 :=
        mul_le_mul_of_nonneg_left (by linarith) (by norm_num)
      refine this.trans ?_; norm_num
    · rw [div_le_iff₀ hE]
      nlinarith
  by_cases hws : ws = "wavenumber"
  · have e : (ws != WAVE_NUMBER) = false := by simp [hws, WAVE_NUMBER]
    rw [if_pos hws] at hx
    have eX : planckX ws x t = Spec.h * Spec.c * x / (Spec.k * t) := if_pos hws
    have eP : planckOf ws x t = planckWavenumber x t := if_pos hws
    obtain ⟨b, hb, hn⟩ := wn_radiance_near F x t hx ht (eX ▸ ⟨h1, h2.trans hX⟩)
    rw [blackbody_wn, planck_entries _ _ _ (by simp) (by simp)] at hb
    have hb' : planckEntry false (RF.of x : RF F) (RF.of t) = b := by
      have := Except.ok.inj hb
      simpa using this
    obtain ⟨_, n1, n2⟩ := wn_nom_near F hx.1 hx.2
    refine ⟨?_, ?_⟩
    · rw [e, hb', eP]
      rw [eX] at hXm
      exact hn.mono hXm
    · rw [eP]
      unfold planckWavenumber
      rw [← eX]
      exact rng n1 (n2.trans (by norm_num))
  · have e : (ws != WAVE_NUMBER) = true := (ws_ne ws).2 hws
    rw [if_neg hws] at hx
    have eX : planckX ws x t = Spec.h * Spec.c / (x * Spec.k * t) := if_neg hws
    have eP : planckOf ws x t = planckWavelength x t := if_neg hws
    obtain ⟨b, hb, hn⟩ := wl_radiance_near F x t hx ht (eX ▸ ⟨h1, h2.trans hX⟩)
    rw [blackbody, planck_entries _ _ _ (by simp) (by simp)] at hb
    have hb' : planckEntry true (RF.of x : RF F) (RF.of t) = b := by
      have := Except.ok.inj hb
      simpa using this
    obtain ⟨_, n1, n2⟩ := wl_nom_near F hx.1 hx.2
    refine ⟨?_, ?_⟩
    · rw [e, hb', eP]
      rw [eX] at hXm
      exact hn.mono hXm
    · rw [eP]
      unfold planckWavelength
      rw [← eX]
      exact rng (le_trans (by norm_num) n1) n2

omit F in
theorem gaps_nonDec {w : List ℝ} (h : Gaps w) : NonDec w := by
  have : List.IsChain (· ≤ ·) w := by
    induction w with
    | nil => exact .nil
    | cons a w ih =>
      cases w with
      | nil => exact .singleton _
      | cons b w =>
        refine .cons_cons ?_ (ih h.2)
        have := h.1.1
        linarith [show (0:ℝ) ≤ 1e-20 by norm_num]
  exact List.isChain_iff_pairwise.1 this

theorem bandVal_near {c : RadTb (RF F)} {w r : List ℝ} (hc : FpLoaded c w r) (hb : FpBand c.wavespace w r)
    (norm : Bool) {t X : ℝ} (ht : 0 < t) (hX : X ≤ 300) (hX0 : 0 ≤ X)
    (hx : ∀ x ∈ w, 0.7 ≤ planckX c.wavespace x t ∧ planckX c.wavespace x t ≤ X) :
    Near ((49 + 112 * X + 4 * w.length) * uu) (bandVal (α := RF F) c norm (RF.of t))
      (exactBand c.wavespace w r norm t) := by
  have hu := uu_small
  have hu0 := uu_pos
  norm_num at hu
  have hl : (w.length : ℝ) ≤ 2 ^ 20 := by exact_mod_cast hb.size
  have hl0 : (0 : ℝ) ≤ w.length := Nat.cast_nonneg _
  have hlu : w.length * uu ≤ 1e-8 := by
    have := mul_le_mul hl hu hu0.le (by positivity)
    refine this.trans ?_; norm_num
  norm_num at hlu
  have sX : (38 + 112 * X) * uu ≤ 1e-3 := by
    have := mul_le_mul (show 38 + 112 * X ≤ 33638 by linarith) hu hu0.le (by norm_num)
    refine this.trans ?_; norm_num
  norm_num at sX
  have sX0 : 0 ≤ (38 + 112 * X) * uu := mul_nonneg (by linarith) hu0.le
  have rows : List.Forall₂ (fun (a : RF F) (y : ℝ) => In0 1e-170 1e50 y ∧ Near0 ((38 + 112 * X) * uu + uu) a y)
      (List.zipWith (· * ·) (c.wave.map fun w => planckEntry (c.wavespace != WAVE_NUMBER) w (RF.of t)) c.response)
      (List.zipWith (fun x y => planckOf c.wavespace x t * y) w r) := by
    rw [hc.wave, hc.response, List.map_map, zipWith_maps]
    have := zipWith_maps (fun x y => planckOf c.wavespace x t * y) id id w r
    rw [List.map_id, List.map_id] at this
    rw [this, List.forall₂_map_left_iff, List.forall₂_map_right_iff, List.forall₂_same]
    intro p hp
    obtain ⟨p1, p2⟩ := List.of_mem_zip hp
    obtain ⟨hn, l1, l2⟩ := entry_near F (hb.range _ p1) ht (hx _ p1).1 (hx _ p1).2 hX
    simp only [Function.comp, id]
    show In0 _ _ _ ∧ Near0 _ (F.rd (XF.mul (planckEntry (α := RF F) (c.wavespace != WAVE_NUMBER) (RF.of p.1) (RF.of t)) (fin p.2))) _
    rcases hb.resp _ p2 with h | h
    · obtain ⟨z, ez, _⟩ := hn.pos
      refine ⟨Or.inl (by rw [h, mul_zero]), Or.inl ⟨by rw [h, mul_zero], ?_⟩⟩
      rw [ez, h]
      show F.rnd (z * 0) = _
      rw [mul_zero, rnd_zero]
    · have h0 : 0 < p.2 := lt_of_lt_of_le (by norm_num) h.1
      have hp0 := hn.1
      have m1 : 1e-170 ≤ planckOf c.wavespace p.1 t * p.2 := by
        have := mul_le_mul l1 h.1 (by norm_num) hp0.le
        refine le_trans ?_ this; norm_num
      have m2 : planckOf c.wavespace p.1 t * p.2 ≤ 1e50 := by
        have := mul_le_mul l2 h.2 h0.le (by norm_num)
        refine this.trans ?_; norm_num
      have := near_mul F hn (near_refl h0) (by norm_num; linarith) (le_trans (by norm_num) m1) (m2.trans (by norm_num))
      exact ⟨Or.inr ⟨m1, m2⟩, Or.inr (this.mono (by linarith))⟩
  obtain ⟨hI, hIr⟩ := trapVal_near F (by linarith) (by linarith) hb.gaps rows hb.size
  rw [← hc.wave] at hI
  have hlen := hb.len
  have mean := trap_mean_bounds Prod.fst Prod.snd (fun p => planckOf c.wavespace p.1 t) (w.zip r)
    (by rw [zip_map_fst hlen]; exact gaps_nonDec hb.gaps)
    (fun p hp => by
      rcases hb.resp _ (List.of_mem_zip hp).2 with h | h
      · exact h.ge
      · exact le_trans (by norm_num) h.1) 1e-160 1e25
    (fun p hp => (entry_near F (hb.range _ (List.of_mem_zip hp).1) ht (hx _ (List.of_mem_zip hp).1).1
      (hx _ (List.of_mem_zip hp).1).2 hX).2.1)
    (fun p hp => (entry_near F (hb.range _ (List.of_mem_zip hp).1) ht (hx _ (List.of_mem_zip hp).1).1
      (hx _ (List.of_mem_zip hp).1).2 hX).2.2)
  have ez : List.zipWith (fun x y => planckOf c.wavespace x t * y) w r =
      (w.zip r).map fun p => p.2 * planckOf c.wavespace p.1 t := by
    have := zipWith_maps (fun x y => planckOf c.wavespace x t * y) id id w r
    rw [List.map_id, List.map_id] at this
    rw [this]
    apply List.map_congr_left
    intro p _
    exact mul_comm _ _
  rw [zip_map_fst hlen, zip_map_snd hlen, ← ez] at mean
  have hT := hb.integral
  have pos : 0 < trap w (List.zipWith (fun x y => planckOf c.wavespace x t * y) w r) :=
    lt_of_lt_of_le (mul_pos (by norm_num) hT) mean.1
  have hI' := hI.resolve_left (fun h => pos.ne' h.1)
  have hIr' := hIr.resolve_left pos.ne'
  unfold bandVal exactBand
  cases norm
  · exact hI'.mono (by nlinarith)
  · have hJ := integral_pos F hc hb
    have := near_div F hI' hJ (by nlinarith)
      (by rw [le_div_iff₀ hT]; refine le_trans ?_ mean.1
          exact mul_le_mul_of_nonneg_right (by norm_num) hT.le)
      (by rw [div_le_iff₀ hT]; refine mean.2.trans ?_
          exact mul_le_mul_of_nonneg_right (by norm_num) hT.le)
    exact this.mono (by nlinarith)

end

/-- C119: where `x = hc/(λkT)` is between 0.7 and `X ≤ 300` at all samples of the band, the computed
band radiance (normalised or not) is a finite number and differs from the exact trapezoid value by less
than the fraction `(49 + 112 X + 4 n)/2^50`, `n` the number of samples. -/
theorem C119_band_radiance_accuracy (F : FP) (c : RadTb (RF F)) (w r : List ℝ) (hc : FpLoaded c w r)
    (hb : FpBand c.wavespace w r) (nc : Int) (norm : Bool) (t X : ℝ) (ht : 0 < t) (hX0 : 0 ≤ X) (hX : X ≤ 300)
    (hx : ∀ x ∈ w, 0.7 ≤ planckX c.wavespace x t ∧ planckX c.wavespace x t ≤ X) :
    ∃ (v : ℝ) (res : RadResult (RF F)), c.tb2radiance nc [RF.of t] none norm = .ok res ∧
      res.radiance = .arr [RF.of v] ∧
      |v - exactBand c.wavespace w r norm t| ≤
        exactBand c.wavespace w r norm t * (49 + 112 * X + 4 * w.length) / 2 ^ 50 := by
  have hn := bandVal_near F hc hb norm ht hX hX0 hx
  have hu := uu_small
  have hu0 := uu_pos
  norm_num at hu
  have hl : (w.length : ℝ) ≤ 2 ^ 20 := by exact_mod_cast hb.size
  have hl0 : (0 : ℝ) ≤ w.length := Nat.cast_nonneg _
  obtain ⟨v, e, hv⟩ := near_abs hn (mul_nonneg (by linarith) hu0.le) (by
    have : 49 + 112 * X + 4 * (w.length : ℝ) ≤ 1e8 := by
      have h2 : (2 : ℝ) ^ 20 = 1048576 := by norm_num
      rw [h2] at hl
      have h3 : (1e8 : ℝ) = 100000000 := by norm_num
      rw [h3]; linarith
    have := mul_le_mul this hu hu0.le (by norm_num)
    refine this.trans ?_; norm_num)
  refine ⟨v, _, tb2radiance_val c ?_ ?_ nc [RF.of t] (by simp) norm, ?_, hv.trans (le_of_eq ?_)⟩
  · rw [hc.wave]; simpa using gaps_ne hb.integral
  · rw [hc.wave, hc.response]; simp [hb.len]
  · simp only [List.map_cons, List.map_nil]
    exact congrArg (fun z => Rad.arr [z]) e
  · unfold uu; ring

example : ∃ (v : ℝ) (res : RadResult (RF Double.fp)), exFpConv.tb2radiance 0 [RF.of 300] none true = .ok res ∧
    res.radiance = .arr [RF.of v] ∧
    |v - exactBand exFpConv.wavespace [10e-6, 11e-6, 12e-6] [0, 1, 0] true 300| ≤
      exactBand exFpConv.wavespace [10e-6, 11e-6, 12e-6] [0, 1, 0] true 300 * (49 + 112 * 6 + 4 * (3 : ℕ)) / 2 ^ 50 :=
  C119_band_radiance_accuracy Double.fp exFpConv _ _ exFpConv_loaded exFpBand 0 true 300 6 (by norm_num) (by norm_num)
    (by norm_num) (by
      intro x hx
      unfold planckX
      rw [if_neg (by decide +kernel)]
      simp at hx
      rcases hx with rfl | rfl | rfl <;> norm_num [Spec.h, Spec.c, Spec.k])

end Verif.Props
