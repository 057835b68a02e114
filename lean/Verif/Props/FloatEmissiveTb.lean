import Verif.Props.FloatEmissive
/-
Property C195: how accurate computed brightness temperatures of bands and the emissive temperatures are.
-/
namespace Verif.Props
open XF Model PyNum Lemmas Spec

section
variable (F : FP)

theorem near_symm {δ x y : ℝ} (hy : 0 < y) (h : Near δ (fin y) x) : Near δ (fin x) y := by
  obtain ⟨hx, z, e, h1, h2⟩ := h
  cases e
  refine ⟨hy, x, rfl, ?_, ?_⟩
  · rw [Real.exp_neg, ← div_eq_mul_inv, div_le_iff₀ (Real.exp_pos _)]; exact h2
  · rw [Real.exp_neg, ← div_eq_mul_inv, div_le_iff₀ (Real.exp_pos _)] at h1; exact h1

/-- the exponential of two close numbers -/
theorem near_real_exp {δ x y : ℝ} (h0 : 0 ≤ δ) (h1 : δ ≤ 0.1) (h : Near δ (fin y) x) :
    Near (2 * δ * x) (fin (Real.exp y)) (Real.exp x) := by
  obtain ⟨z, e, hz⟩ := near_abs h h0 h1
  cases e
  obtain ⟨h2, h3⟩ := abs_le.1 hz
  refine ⟨Real.exp_pos _, _, rfl, ?_, ?_⟩ <;> rw [← Real.exp_add] <;> exact Real.exp_le_exp.2 (by linarith)

/-- the radiance at a slightly different wavelength -/
theorem planck_shift {l l' t : ℝ} (ht : 0 < t) (h : Near (3 * uu) (fin l') l)
    (h1 : 0.71 ≤ c1R / l / t) (h2 : c1R / l / t ≤ 299) :
    (0.7 ≤ c1R / l' / t ∧ c1R / l' / t ≤ 300) ∧
      Near ((15 + 25 * (c1R / l / t)) * uu) (fin (c2R / l ^ 5 / (Real.exp (c1R / l / t) - 1)))
        (c2R / l' ^ 5 / (Real.exp (c1R / l' / t) - 1)) := by
  have hu := uu_small
  have hu0 := uu_pos
  norm_num at hu h1 h2
  have hl : 0 < l := h.1
  obtain ⟨y, e, hy⟩ := h.pos
  cases e
  have hs := near_symm hy h
  have hc := c1R_bounds
  have hc2 := c2R_bounds
  have c1 : 0 < c1R := lt_of_lt_of_le (by norm_num) hc.1
  have c2 : 0 < c2R := lt_of_lt_of_le (by norm_num) hc2.1
  have q : Near (0 + 3 * uu + 0) (XF.div (XF.div (fin c1R) (fin l)) (fin t)) (c1R / l' / t) :=
    near_div' (near_div' (near_refl c1) hs) (near_refl ht)
  rw [show XF.div (XF.div (fin c1R) (fin l)) (fin t) = fin (c1R / l / t) by
    show (fin c1R / fin l) / fin t = _
    rw [fin_div _ (ne_of_gt hl), fin_div _ (ne_of_gt ht)]] at q
  have q' : Near (3 * uu) (fin (c1R / l / t)) (c1R / l' / t) := q.mono (by linarith)
  obtain ⟨x, hx⟩ : ∃ x, x = c1R / l / t := ⟨_, rfl⟩
  obtain ⟨x', hx'⟩ : ∃ x', x' = c1R / l' / t := ⟨_, rfl⟩
  rw [← hx, ← hx'] at q'
  rw [← hx] at h1 h2 ⊢
  rw [← hx']
  obtain ⟨z, ez, hz⟩ := near_abs (near_symm q'.1 (near_symm (by linarith) q')) (by linarith) (by norm_num; linarith)
  cases ez
  obtain ⟨a1, a2⟩ := abs_le.1 hz
  have x0 : 0 < x' := q'.1
  have b1 : x' ≤ x * 1.001 := by
    have : x' * (2 * (3 * uu)) ≤ x' * 1e-4 := mul_le_mul_of_nonneg_left (by norm_num; linarith) x0.le
    norm_num at this ⊢; linarith
  have b2 : x ≤ x' * 1.001 := by
    have : x' * (2 * (3 * uu)) ≤ x' * 1e-4 := mul_le_mul_of_nonneg_left (by norm_num; linarith) x0.le
    norm_num at this ⊢; linarith
  have b3 : 0.7 ≤ x' := by norm_num at b2 ⊢; linarith
  have b4 : x' ≤ 300 := by norm_num at b1; linarith
  refine ⟨⟨b3, b4⟩, ?_⟩
  have e1 := near_real_exp (δ := 3 * uu) (by linarith) (by norm_num; linarith) q'
  have hE := exp_range b3 b4
  have e0 : 2 * (3 * uu) * x' ≤ 6.006 * uu * x := by
    have := mul_le_mul_of_nonneg_left b1 (show 0 ≤ 2 * (3 * uu) by linarith)
    refine this.trans (le_of_eq (by ring))
  have e2 := near_sub_one e1 hE.1 (by positivity) (by
    have := mul_le_mul hu b4 x0.le (by norm_num)
    norm_num at this ⊢; linarith)
  have p1 : Near (3 * uu + 3 * uu + 3 * uu + 3 * uu + 3 * uu)
      (XF.mul (XF.mul (XF.mul (XF.mul (fin l) (fin l)) (fin l)) (fin l)) (fin l)) (l' * l' * l' * l' * l') :=
    near_mul' (near_mul' (near_mul' (near_mul' hs hs) hs) hs) hs
  have p2 : Near (15 * uu) (fin (l ^ 5)) (l' ^ 5) := by
    have e : XF.mul (XF.mul (XF.mul (XF.mul (fin l) (fin l)) (fin l)) (fin l)) (fin l) = fin (l ^ 5) := by
      show fin (l * l * l * l * l) = _
      congr 1; ring
    rw [e, show l' * l' * l' * l' * l' = l' ^ 5 by ring] at p1
    exact p1.mono (by linarith)
  have r := near_div' (near_div' (near_refl c2) p2) e2
  have hx1 : Real.exp x - 1 ≠ 0 := by
    have : (0.7 : ℝ) ≤ x := by norm_num; linarith
    have := (exp_range this (by linarith)).1
    linarith
  rw [show XF.div (XF.div (fin c2R) (fin (l ^ 5))) (XF.sub (fin (Real.exp x)) (fin 1)) =
      fin (c2R / l ^ 5 / (Real.exp x - 1)) by
    show (fin c2R / fin (l ^ 5)) / fin (Real.exp x - 1) = _
    rw [fin_div _ (ne_of_gt (pow_pos hl 5)), fin_div _ hx1]] at r
  refine r.mono ?_
  have : 0 ≤ uu * x := mul_nonneg hu0.le (by linarith)
  nlinarith

/-- the computed wavelength in metre of a central wavelength in micrometer -/
theorem central_metre {cw : ℝ} (h : 0.02 ≤ cw ∧ cw ≤ 9000) :
    ∃ l', (RF.of cw * 1e-6 : RF F) = RF.of l' ∧ Near (3 * uu) (fin l') (cw * 1e-6) ∧ 1e-8 ≤ l' ∧ l' ≤ 1e-2 := by
  have hu := uu_small
  have hu0 := uu_pos
  norm_num at hu
  obtain ⟨h1, h2⟩ := h
  norm_num at h1
  have n1 := near_lit F 1 true 6 (by norm_num) (by norm_num)
  have n2 : Near (0 + uu + uu) (F.rd (XF.mul (fin cw) (OfScientific.ofScientific (α := RF F) 1 true 6)))
      (cw * OfScientific.ofScientific 1 true 6) :=
    near_mul F (near_refl (by linarith)) n1 (by linarith) (by norm_num; linarith) (by norm_num; linarith)
  obtain ⟨l', e, hl'⟩ := n2.pos
  have n3 : Near (3 * uu) (fin l') (cw * 1e-6) := by
    rw [e] at n2
    exact n2.mono (by linarith)
  refine ⟨l', e, n3, ?_⟩
  obtain ⟨y, ey, hy⟩ := near_abs n3 (by linarith) (by norm_num; linarith)
  cases ey
  obtain ⟨a1, a2⟩ := abs_le.1 hy
  have h3 : cw * 1e-6 * (2 * (3 * uu)) ≤ cw * 1e-6 * 0.001 :=
    mul_le_mul_of_nonneg_left (by norm_num; linarith) (by norm_num; linarith)
  norm_num at h3 a1 a2 ⊢
  constructor <;> linarith

/-- the temperature computed for a radiance close to that of `t` -/
theorem temp_of_near {cw t η : ℝ} {L : RF F} (hcw : 0.02 ≤ cw ∧ cw ≤ 9000) (ht : 0 < t)
    (h1 : 0.71 ≤ Spec.h * Spec.c / (cw * 1e-6 * Spec.k * t)) (h2 : Spec.h * Spec.c / (cw * 1e-6 * Spec.k * t) ≤ 299)
    (h0 : 0 ≤ η) (hη : η ≤ 0.009) (hL : Near η L (planckWavelength (cw * 1e-6) t)) :
    ∃ τ : ℝ, rad2tempPoint (RF.of cw * 1e-6 : RF F) L = RF.of τ ∧
      |τ - t| ≤ t * (6 * η + (128 + 75 * (Spec.h * Spec.c / (cw * 1e-6 * Spec.k * t))) / 2 ^ 50) := by
  have hu := uu_small
  have hu0 := uu_pos
  norm_num at hu
  obtain ⟨l', e, n, b1, b2⟩ := central_metre F hcw
  unfold planckWavelength at hL
  rw [arg_eq_wl] at h1 h2 hL ⊢
  obtain ⟨⟨c1, c2⟩, s⟩ := planck_shift ht n h1 h2
  obtain ⟨x, hx⟩ : ∃ x, x = c1R / (cw * 1e-6) / t := ⟨_, rfl⟩
  rw [← hx] at h1 h2 s hL ⊢
  have key := wl_inv_near F (δ := η + (15 + 25 * x) * uu) b1 b2 ht c1 c2 (by
      have : (0 : ℝ) ≤ x := le_trans (by norm_num) h1
      positivity) (by
      have : (15 + 25 * x) * uu ≤ 7490 * 1e-15 := mul_le_mul (by linarith) (by norm_num; linarith) hu0.le (by norm_num)
      norm_num at this hη ⊢; linarith) (hL.comp s)
  rw [e]
  obtain ⟨τ, eτ, hτ⟩ := near_abs key (by
      have : (0 : ℝ) ≤ x := le_trans (by norm_num) h1
      positivity) (by
      have : (15 + 25 * x) * uu ≤ 7490 * 1e-15 := mul_le_mul (by linarith) (by norm_num; linarith) hu0.le (by norm_num)
      norm_num at this hη ⊢; linarith)
  refine ⟨τ, eτ, hτ.trans (le_of_eq ?_)⟩
  have eU : uu = 2 / 4503599627370496 := by unfold uu; norm_num
  rw [eU]; ring

end

/-- C195: the brightness temperatures `radiance2tb` computes for positive band radiances are those of a blackbody of that
radiance at the band's central wavelength, up to the fraction `(128 + 75 x)/2^50`, where `x` is the exponent of Planck's law. -/
theorem C195_band_temperature (F : FP) (c : RadTb (RF F)) (order : List Nat) (rads : List ℝ)
    (b : BandRsr (RF F)) (det : DetRsr (RF F)) (cw : ℝ)
    (hb : converterLookup c.wavespace c.rsrInstrument c.rsr c.bandname = .ok b)
    (hd : Dict.getItem b c.detector = .ok det)
    (hcw : Dict.getItem det "central_wavelength" = .ok (.num (RF.of cw))) (hr : 0.02 ≤ cw ∧ cw ≤ 9000) :
    ∃ T : ℝ → RF F, c.radiance2tb order (.nd (rads.map RF.of)) = .ok (.nd (rads.map T)) ∧
      ∀ L ∈ rads, ∀ t x : ℝ, 0 < t → planckWavelength (cw * 1e-6) t = L → x = Spec.h * Spec.c / (cw * 1e-6 * Spec.k * t) →
        0.71 ≤ x → x ≤ 299 → ∃ τ : ℝ, T L = RF.of τ ∧ |τ - t| ≤ t * ((128 + 75 * x) / 2 ^ 50) := by
  have hg : getNum det "central_wavelength" = .ok (RF.of cw : RF F) := by simp [getNum, hcw, bind, Except.bind]; rfl
  refine ⟨fun L => rad2tempPoint (RF.of cw * 1e-6 : RF F) (RF.of L), ?_, ?_⟩
  · simp only [RadTb.radiance2tb, hb, hd, hg, bind, Except.bind]
    show Except.ok (Val.nd (List.map _ _)) = _
    simp [List.map_map, Function.comp_def]
  · intro L _ t x ht hL hx h1 h2
    subst hx
    have pos : 0 < L := by
      rw [← hL]; unfold planckWavelength
      rw [arg_eq_wl] at h1 h2 ⊢
      have := (exp_range (le_trans (by norm_num) h1) (by linarith)).1
      have hl : 0 < cw * 1e-6 := mul_pos (lt_of_lt_of_le (by norm_num) hr.1) (by norm_num)
      have hk : (0 : ℝ) < 2 * Spec.h * Spec.c ^ 2 := by unfold Spec.h Spec.c; norm_num
      exact div_pos (div_pos hk (pow_pos hl 5)) (by linarith)
    obtain ⟨τ, e, h⟩ := temp_of_near F (η := 0) (L := RF.of L) hr ht h1 h2 le_rfl (by norm_num) (by
      rw [hL]; exact near_refl pos)
    exact ⟨τ, e, h.trans (le_of_eq (by ring))⟩

/-- C195: after a retrieval without a look-up table, the emissive temperature of a pixel differs from the
temperature of a blackbody with the exact emissive radiance by at most the fraction `12 η + (128 + 75 x)/2^50`,
where `η` is the relative error of the emissive radiance (C179). -/
theorem C195_emissive_temperature (F : FP) (s : Nir (RF F)) (nc : Int) (sc : Scene (RF F)) (w r : List ℝ)
    (hc : FpLoaded s.conv w r) (hb : FpBand s.conv.wavespace w r) (hrsr : s.conv.rsr ≠ [])
    (hpx : sc.pixels ≠ []) (hl : sc.lut.getD s.lut = none) (hsh : sc.shape = [sc.pixels.length])
    (flux thr : ℝ) (hflux : s.solar_flux = RF.of flux) (hf : 1e-3 ≤ flux ∧ flux ≤ 1e4)
    (hthr : s.sunz_threshold = RF.of thr) (ht : 0 ≤ thr ∧ thr ≤ 90)
    (b : BandRsr (RF F)) (det : DetRsr (RF F)) (cw : ℝ)
    (hlook : converterLookup s.conv.wavespace s.conv.rsrInstrument s.conv.rsr s.conv.bandname = .ok b)
    (hd : Dict.getItem b s.conv.detector = .ok det)
    (hcw : Dict.getItem det "central_wavelength" = .ok (.num (RF.of cw))) (hr : 0.02 ≤ cw ∧ cw ≤ 9000) :
    ∃ (out : NirOut (RF F)) (s' s'' : Nir (RF F)) (θ : Pixel (RF F) → RF F), reflectance nc sc s = (.ok out, s') ∧
      Nir.emissivePart3x true s' = (.ok (some ⟨sc.shape, sc.pixels.map θ⟩), s'') ∧
      ∀ p ∈ sc.pixels, ∀ z a t u X L B T S E ρ η t' x : ℝ, p.zenith = RF.of z → p.nir = RF.of a → p.therm = RF.of t →
        0 < a → 0 < t →
        (sc.useCo2 = true → p.co2 = RF.of u ∧ (100 ≤ t ∧ t ≤ 400) ∧ 100 ≤ u ∧ u ≤ 400) →
        (∀ l, s.masking_limit = some l → ∃ m : ℝ, l = RF.of m ∧ 0 ≤ z ∧ z ≤ m) → X ≤ 300 →
        (∀ x ∈ w, (0.7 ≤ planckX s.conv.wavespace x a ∧ planckX s.conv.wavespace x a ≤ X) ∧
          0.7 ≤ planckX s.conv.wavespace x t ∧ planckX s.conv.wavespace x t ≤ X) →
        L = exactBand s.conv.wavespace w r false a → 1e-100 ≤ L → L ≤ 1000 →
        B = exactBand s.conv.wavespace w r false t → 1e-100 ≤ B → B ≤ 1000 →
        E = exactBand s.conv.wavespace w r true t → 1e-100 ≤ E → E ≤ 1e100 →
        T = B * exactCorr sc.useCo2 t u → S = exactSun flux thr z → 0.006 ≤ S - T →
        ρ = (L - T) / (S - T) → ρ < 1 →
        η = (146 + 229 * X + 12 * w.length) / 2 ^ 50 * ((1 + |ρ|) / (1 - ρ)) * ((L + T + flux / Real.pi) / (S - T)) →
        0 ≤ η → η ≤ 0.004 → 0 < t' → planckWavelength (cw * 1e-6) t' = E * (1 - ρ) →
        x = Spec.h * Spec.c / (cw * 1e-6 * Spec.k * t') → 0.71 ≤ x → x ≤ 299 →
        ∃ τ : ℝ, θ p = RF.of τ ∧ |τ - t'| ≤ t' * (12 * η + (128 + 75 * x) / 2 ^ 50) := by
  obtain ⟨out, s', s'', e, h1, h2, h3⟩ := C179_emissive_accuracy F s nc sc w r hc hb hrsr hpx hl hsh flux thr hflux hf hthr ht
  have hne : s.conv.wave ≠ [] := by rw [hc.wave]; simpa using gaps_ne hb.integral
  have hlen : s.conv.wave.length = s.conv.response.length := by rw [hc.wave, hc.response]; simp [hb.len]
  obtain ⟨out', g1, g2⟩ := reflectance_run s nc sc (bandVal s.conv true)
    { rsr := hrsr
      pixels := hpx
      shape := by rw [hsh]; simp
      converts := by
        rw [hl]
        intro ts hts
        exact ⟨_, tb2radiance_val s.conv hne hlen nc ts hts true, rfl⟩
      flat := Or.inr hsh }
  rw [h1] at g1
  have es : s' = afterRetrieval s (bandVal s.conv true) sc.useCo2 sc.shape sc.pixels := congrArg Prod.snd g1
  obtain ⟨s3, h4⟩ := emissive_run s (bandVal s.conv true) sc.useCo2 sc.shape sc.pixels
  rw [← es, h2] at h4
  have ee : sc.pixels.map e = sc.pixels.map (pxEmissive s (bandVal s.conv true) sc.useCo2) := by
    have := congrArg Prod.fst h4
    simpa using this
  have hg : getNum det "central_wavelength" = .ok (RF.of cw : RF F) := by simp [getNum, hcw, bind, Except.bind]; rfl
  obtain ⟨s4, h5⟩ := emissive_tb_run s (bandVal s.conv true) sc.useCo2 sc.shape sc.pixels
    (sc.pixels.map fun p => rad2tempPoint (RF.of cw * 1e-6 : RF F) (pxEmissive s (bandVal s.conv true) sc.useCo2 p)) (by
      simp only [RadTb.radiance2tb, hlook, hd, hg, bind, Except.bind]
      show Except.ok (Val.nd (List.map _ _)) = _
      simp [List.map_map, Function.comp_def])
  rw [← es] at h5
  refine ⟨out, s', s4, _, h1, h5, ?_⟩
  intro p hp z a t u X L B T S E ρ η t' x hz hpn hpt ha ht' hu hlim hX hx eL L1 L2 eB B1 B2 eE E1 E2 eT eS hD eρ hρ eη η0 η1
    t0 ht'' ex x1 x2
  obtain ⟨ε, eε, hε⟩ := h3 p hp z a t u X L B T S E hz hpn hpt ha ht' hu hlim hX hx eL L1 L2 eB B1 B2 eE E1 E2 eT eS hD
  have ep : e p = pxEmissive s (bandVal s.conv true) sc.useCo2 p := List.map_inj_left.1 ee p hp
  rw [← eρ] at hε
  have E0 : 0 < E := lt_of_lt_of_le (by norm_num) E1
  have hpos : 0 < E * (1 - ρ) := mul_pos E0 (by linarith)
  have rel : |ε - E * (1 - ρ)| ≤ E * (1 - ρ) * η := by
    refine hε.trans (le_of_eq ?_)
    rw [eη]
    have : (1 - ρ) ≠ 0 := by linarith
    field_simp
  subst ex
  obtain ⟨τ, eτ, hτ⟩ := temp_of_near F (η := 2 * η) (L := RF.of ε) hr t0 x1 x2 (by linarith) (by norm_num at η1 ⊢; linarith) (by
    rw [ht'']
    exact near_of_abs hpos η0 (by norm_num at η1; linarith) rel)
  refine ⟨τ, ?_, hτ.trans (le_of_eq (by ring))⟩
  rw [← ep, eε]
  exact eτ

/-! ### Example -/

theorem exTb_x {L : ℝ} (h1 : 1e-102 ≤ L) (h2 : L ≤ 2e9) :
    0.71 ≤ Spec.h * Spec.c / (4 * 1e-6 * Spec.k * brightnessTemperature (4 * 1e-6) L) ∧
      Spec.h * Spec.c / (4 * 1e-6 * Spec.k * brightnessTemperature (4 * 1e-6) L) ≤ 299 := by
  have L0 : 0 < L := lt_of_lt_of_le (by norm_num) h1
  obtain ⟨q, hq⟩ : ∃ q, q = 2 * Spec.h * Spec.c ^ 2 / ((4 * 1e-6) ^ 5 * L) := ⟨_, rfl⟩
  have q1 : 40 ≤ q := by
    rw [hq, le_div_iff₀ (by positivity)]
    unfold Spec.h Spec.c
    norm_num at h2 ⊢; linarith
  have q2 : q + 1 ≤ 1e115 := by
    have : q ≤ 1e114 := by
      rw [hq, div_le_iff₀ (by positivity)]
      unfold Spec.h Spec.c
      norm_num at h1 ⊢; linarith
    refine (add_le_add_left this 1).trans (by norm_num)
  have hlog : 0 < Real.log (q + 1) := Real.log_pos (by linarith)
  have e : Spec.h * Spec.c / (4 * 1e-6 * Spec.k * brightnessTemperature (4 * 1e-6) L) = Real.log (q + 1) := by
    unfold brightnessTemperature
    rw [← hq]
    have h3 : Spec.h * Spec.c ≠ 0 := by unfold Spec.h Spec.c; norm_num
    have h4 : Spec.k ≠ 0 := by unfold Spec.k; norm_num
    field_simp
    exact div_self h3
  rw [e]
  constructor
  · refine le_trans (show (0.71 : ℝ) ≤ 1 by norm_num) ((Real.le_log_iff_exp_le (by linarith)).2 ?_)
    have := Real.exp_one_lt_d9
    norm_num at this; linarith
  · rw [Real.log_le_iff_le_exp (by linarith)]
    refine q2.trans ?_
    have : Real.exp 299 = Real.exp 1 ^ 299 := by rw [← Real.exp_nat_mul]; norm_num
    rw [this]
    have h5 : (2.7 : ℝ) ≤ Real.exp 1 := by
      have := Real.exp_one_gt_d9
      norm_num at this ⊢; linarith
    refine le_trans (b := (2.7 : ℝ) ^ 150 * 2.7 ^ 149) (by norm_num) ?_
    rw [← pow_add]
    exact pow_le_pow_left₀ (by norm_num) h5 299

/-- the band of the examples, with a central wavelength -/
noncomputable def exTbBand : BandRsr (RF Double.fp) := [("det-1", [("central_wavelength", .num (RF.of 4))])]

noncomputable def exTbNir : Nir (RF Double.fp) := { exAccNir with conv := { exFpConv with rsr := [("ch4", exTbBand)] } }

example : ∃ T τ : ℝ, exTbNir.conv.radiance2tb [] (.nd [RF.of 1e5]) = .ok (.nd [RF.of τ]) ∧ 0 < T ∧
    planckWavelength (4 * 1e-6) T = 1e5 ∧ |τ - T| ≤ T * (23000 / 2 ^ 50) := by
  obtain ⟨T, h1, h2⟩ := C195_band_temperature Double.fp exTbNir.conv [] [1e5] exTbBand _ 4 rfl rfl rfl (by norm_num)
  obtain ⟨x1, x2⟩ := exTb_x (L := 1e5) (by norm_num) (by norm_num)
  have hT := bt_pos (w := 4 * 1e-6) (L := 1e5) (by norm_num) (by norm_num)
  obtain ⟨τ, e, h⟩ := h2 1e5 (by simp) (brightnessTemperature (4 * 1e-6) 1e5) _ hT (planck_bt_wl (by norm_num) (by norm_num)) rfl x1 x2
  refine ⟨_, τ, ?_, hT, planck_bt_wl (by norm_num) (by norm_num), h.trans (mul_le_mul_of_nonneg_left ?_ hT.le)⟩
  · have := h1
    simp only [List.map_cons, List.map_nil, e] at this
    exact this
  · exact div_le_div_of_nonneg_right (by linarith) (by positivity)

example : ∃ s' s'', ∃ τ T : ℝ, (reflectance 0 exAccScene exTbNir).2 = s' ∧
    Nir.emissivePart3x true s' = (.ok (some ⟨[1], [RF.of τ]⟩), s'') ∧ 0 < T ∧ |τ - T| ≤ T * 1e-9 := by
  obtain ⟨out, s', s'', θ, h1, h2, h3⟩ := C195_emissive_temperature Double.fp exTbNir 0 exAccScene [10e-6, 11e-6, 12e-6] [0, 1, 0]
    ⟨exFpConv_loaded.1, exFpConv_loaded.2, exFpConv_loaded.3⟩ exFpBand (by simp [exTbNir]) (by simp [exAccScene]) rfl rfl
    1e4 85 rfl (by norm_num) rfl (by norm_num) exTbBand _ 4 rfl rfl rfl (by norm_num)
  have b1 := exAcc_band (t := 290) (by norm_num) (by norm_num)
  have b2 := exAcc_band (t := 280) (by norm_num) (by norm_num)
  have b3 := exAcc_norm (t := 280) (by norm_num) (by norm_num)
  have e3 : exactBand exAccNir.conv.wavespace [10e-6, 11e-6, 12e-6] [0, 1, 0] true 280 =
      exactBand exAccNir.conv.wavespace [10e-6, 11e-6, 12e-6] [0, 1, 0] false 280 / 1e-6 := by
    unfold exactBand
    simp only [if_true, Bool.false_eq_true, if_false]
    congr 1
    simp only [trap]; norm_num
  obtain ⟨L, hL⟩ : ∃ L, L = exactBand exTbNir.conv.wavespace [10e-6, 11e-6, 12e-6] [0, 1, 0] false 290 := ⟨_, rfl⟩
  obtain ⟨B, hB⟩ : ∃ B, B = exactBand exTbNir.conv.wavespace [10e-6, 11e-6, 12e-6] [0, 1, 0] false 280 := ⟨_, rfl⟩
  obtain ⟨E, hE⟩ : ∃ E, E = exactBand exTbNir.conv.wavespace [10e-6, 11e-6, 12e-6] [0, 1, 0] true 280 := ⟨_, rfl⟩
  replace b1 : 1e-100 ≤ L ∧ L ≤ 1000 := hL ▸ b1
  replace b2 : 1e-100 ≤ B ∧ B ≤ 1000 := hB ▸ b2
  replace b3 : 1e-100 ≤ E ∧ E ≤ 1e100 := hE ▸ b3
  replace e3 : E = B / 1e-6 := by rw [hE, hB]; exact e3
  obtain ⟨T, hT⟩ : ∃ T, T = B * exactCorr exAccScene.useCo2 280 250 := ⟨_, rfl⟩
  obtain ⟨S, hS⟩ : ∃ S, S = exactSun 1e4 85 0 := ⟨_, rfl⟩
  have s1 : S = 1e4 / Real.pi := by
    rw [hS]; unfold exactSun
    rw [max_self, min_eq_left (by norm_num), zero_mul, Real.cos_zero, mul_one]
  have s2 : 2500 ≤ S := by
    rw [s1, le_div_iff₀ Real.pi_pos]; have := Real.pi_le_four; norm_num; linarith
  have s3 : S ≤ 3334 := by
    rw [s1, div_le_iff₀ Real.pi_pos]; have := Real.pi_gt_three; norm_num; linarith
  have c1 : exactCorr exAccScene.useCo2 280 250 ≤ 1 ∧ 0 ≤ exactCorr exAccScene.useCo2 280 250 := by
    rw [show exAccScene.useCo2 = true from rfl]; unfold exactCorr; constructor <;> norm_num
  have B0 : 0 ≤ B := le_trans (by norm_num) b2.1
  have L0 : 0 ≤ L := le_trans (by norm_num) b1.1
  have t1 : T ≤ 1000 := by rw [hT]; exact (mul_le_of_le_one_right B0 c1.1).trans b2.2
  have t0 : 0 ≤ T := by rw [hT]; exact mul_nonneg B0 c1.2
  have D : 0 < S - T := by linarith
  obtain ⟨ρ, hρ⟩ : ∃ ρ, ρ = (L - T) / (S - T) := ⟨_, rfl⟩
  have ρ1 : ρ ≤ 0.7 := by rw [hρ, div_le_iff₀ D]; norm_num; linarith [b1.2]
  have ρ2 : -0.7 ≤ ρ := by rw [hρ, le_div_iff₀ D]; norm_num; linarith [b1.2]
  norm_num at ρ1 ρ2
  have ρ3 : |ρ| ≤ 7 / 10 := abs_le.2 ⟨by linarith, by linarith⟩
  have k1 : 0 ≤ (1 + |ρ|) / (1 - ρ) ∧ (1 + |ρ|) / (1 - ρ) ≤ 6 :=
    ⟨div_nonneg (by linarith [abs_nonneg ρ]) (by linarith), by rw [div_le_iff₀ (by linarith)]; linarith⟩
  have k2 : 0 ≤ (L + T + 1e4 / Real.pi) / (S - T) ∧ (L + T + 1e4 / Real.pi) / (S - T) ≤ 4 := by
    rw [← s1]
    refine ⟨div_nonneg (by linarith) D.le, ?_⟩
    rw [div_le_iff₀ D]; linarith [b1.2]
  obtain ⟨η, hη⟩ : ∃ η : ℝ, η = (146 + 229 * 10 + 12 * ([10e-6, 11e-6, 12e-6] : List ℝ).length) / 2 ^ 50 *
      ((1 + |ρ|) / (1 - ρ)) * ((L + T + 1e4 / Real.pi) / (S - T)) := ⟨_, rfl⟩
  have η0 : 0 ≤ η := by
    rw [hη]; exact mul_nonneg (mul_nonneg (by positivity) k1.1) k2.1
  have η1 : η ≤ 6e-11 := by
    rw [hη]
    refine (mul_le_mul (mul_le_mul_of_nonneg_left k1.2 (by positivity)) k2.2 k2.1 (by positivity)).trans ?_
    norm_num
  have EB : 1e-101 ≤ E * (1 - ρ) ∧ E * (1 - ρ) ≤ 1.7e9 := by
    have : E ≤ 1e9 := by rw [e3, div_le_iff₀ (by norm_num)]; refine b2.2.trans (by norm_num)
    have m1 := mul_le_mul this (show 1 - ρ ≤ 1.7 by norm_num; linarith) (by linarith) (by norm_num)
    have m2 := mul_le_mul b3.1 (show 0.3 ≤ 1 - ρ by norm_num; linarith) (by norm_num) (le_trans (by norm_num) b3.1)
    exact ⟨le_trans (by norm_num) m2, m1.trans (by norm_num)⟩
  obtain ⟨x1, x2⟩ := exTb_x (L := E * (1 - ρ)) (le_trans (by norm_num) EB.1) (EB.2.trans (by norm_num))
  have pos : 0 < E * (1 - ρ) := lt_of_lt_of_le (by norm_num) EB.1
  have hT' := bt_pos (w := 4 * 1e-6) (by norm_num) pos
  obtain ⟨τ, eτ, hτ⟩ := h3 ⟨RF.of 0, RF.of 290, RF.of 280, RF.of 250⟩ (by simp [exAccScene]) 0 290 280 250 10 L B T S E ρ η
    (brightnessTemperature (4 * 1e-6) (E * (1 - ρ))) _ rfl rfl rfl
    (by norm_num) (by norm_num) (fun _ => ⟨rfl, by norm_num, by norm_num⟩)
    (fun l hl => ⟨88, (Option.some.inj hl).symm, by norm_num⟩) (by norm_num)
    (fun x hx => ⟨exAcc_x (by norm_num) (by norm_num) hx, exAcc_x (by norm_num) (by norm_num) hx⟩)
    hL b1.1 b1.2 hB b2.1 b2.2 hE b3.1 b3.2 hT hS (by norm_num; linarith) hρ (by linarith) hη η0
    (η1.trans (by norm_num)) hT' (planck_bt_wl (by norm_num) pos) rfl x1 x2
  refine ⟨s', s'', τ, _, by rw [h1], ?_, hT', hτ.trans (mul_le_mul_of_nonneg_left ?_ hT'.le)⟩
  · rw [h2]; simp [exAccScene, eτ]
  · have : (128 + 75 * (Spec.h * Spec.c / (4 * 1e-6 * Spec.k * brightnessTemperature (4 * 1e-6) (E * (1 - ρ))))) / 2 ^ 50 ≤
        (128 + 75 * 299) / 2 ^ 50 := div_le_div_of_nonneg_right (by linarith) (by positivity)
    refine (add_le_add (mul_le_mul_of_nonneg_left η1 (by norm_num)) this).trans (by norm_num)

end Verif.Props
