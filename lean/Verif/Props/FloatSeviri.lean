import Verif.Lemmas.FPSeviri
import Verif.Spec.Seviri
/-
Properties C121 and C122: the SEVIRI conversions as they are computed, with rounding.
-/
namespace Verif.Props
open XF Model PyNum Lemmas Spec

theorem sev_coefs (F : FP) {ch sat : String} {vc A B : ℝ} (h : (ch, sat, vc, A, B) ∈ seviriCoefficients) :
    ∃ v a b : RF F, seviriCoefs (α := RF F) ⟨sat, ch⟩ = .ok (v, a, b) ∧ SevNear F v a b (vc * 100) A B := by
  have hu := uu_small
  norm_num at hu
  have key : ∀ (m : ℕ) (e : ℕ) (V : ℝ), (OfScientific.ofScientific m true e : ℝ) = V → 700 ≤ V → V ≤ 3000 →
      Near (3 * uu) ((OfScientific.ofScientific m true e : RF F) * (100.0 : RF F)) (V * 100) := by
    rintro m e V rfl h1 h2
    have h100 : Near uu (100.0 : RF F) (100.0 : ℝ) := near_lit F 1000 true 1 (by norm_num) (by norm_num)
    have e100 : (100.0 : ℝ) = 100 := by norm_num
    rw [e100] at h100
    have hp1 : (1 : ℝ) ≤ OfScientific.ofScientific m true e * 100 := by linarith
    have hp2 : OfScientific.ofScientific m true e * 100 ≤ (1000000 : ℝ) := by linarith
    have := near_mul F (near_lit F m true e (le_trans (by norm_num) h1) (h2.trans (by norm_num))) h100 (by linarith)
      (le_trans (by norm_num) hp1) (hp2.trans (by norm_num))
    exact this.mono (by linarith)
  have key2 : ∀ (m : ℕ) (e : ℕ) (V : ℝ), (OfScientific.ofScientific m true e : ℝ) = V → 0.01 ≤ V → V ≤ 10 →
      Near uu (OfScientific.ofScientific m true e : RF F) V := by
    rintro m e V rfl h1 h2
    exact near_lit F m true e (le_trans (by norm_num) h1) (h2.trans (by norm_num))
  simp only [seviriCoefficients, List.mem_cons, List.not_mem_nil, or_false, Prod.mk.injEq] at h
  rcases h with h | h | h | h | h | h | h | h | h | h | h | h | h | h | h | h <;>
  (obtain ⟨rfl, rfl, rfl, rfl, rfl⟩ := h
   exact ⟨_, _, _, rfl, key _ _ _ rfl (by norm_num) (by norm_num), key2 _ _ _ rfl (by norm_num) (by norm_num),
     key2 _ _ _ rfl (by norm_num) (by norm_num), by norm_num, by norm_num, by norm_num, by norm_num, by norm_num, by norm_num⟩)

/-- C121: for every tabulated channel and satellite, computed radiances are numbers, not negative,
and never smaller for a higher temperature (zero and infinity included). -/
theorem C121_seviri_radiance_never_decreases (F : FP) (ch sat : String) (vc A B : ℝ)
    (h : (ch, sat, vc, A, B) ∈ seviriCoefficients) :
    ∃ b : RF F → RF F, (∀ ts : List (RF F), ∃ res : RadResult (RF F), (SeviriConv.mk sat ch).tb2radiance ts = .ok res ∧
        res.radiance = .arr (ts.map b)) ∧
      ∀ t₁ t₂ : RF F, RF.Le (RF.of 0) t₁ → RF.Le t₁ t₂ → RF.Le (RF.of 0) (b t₁) ∧ RF.Le (b t₁) (b t₂) := by
  obtain ⟨v, a, b, hc, hs⟩ := sev_coefs F h
  refine ⟨seviriRadPoint v a b, fun ts => ⟨⟨.arr (ts.map (seviriRadPoint v a b)), "W/m^2 sr^-1 (m^-1)^-1", 1.0⟩, ?_, rfl⟩,
    fun t₁ t₂ h0 h1 => sev_rad_mono F hs h0 h1⟩
  simp [SeviriConv.tb2radiance, hc, bind, Except.bind, pure, Except.pure]

example : ∃ b : RF Double.fp → RF Double.fp,
    (∀ ts, ∃ res, (SeviriConv.mk "Meteosat-9" "IR10.8").tb2radiance ts = .ok res ∧ res.radiance = .arr (ts.map b)) ∧
      RF.Le (b (RF.of 280)) (b (RF.of 280.1)) := by
  obtain ⟨b, h, hm⟩ := C121_seviri_radiance_never_decreases Double.fp "IR10.8" "Meteosat-9" 931.700 0.9983 0.640
    (by simp [seviriCoefficients])
  refine ⟨b, h, (hm _ _ (lx_fin.2 ?_) (lx_fin.2 ?_)).2⟩ <;> norm_num

/-- C121: computed temperatures are numbers and never smaller for a higher radiance (zero and
infinity included). -/
theorem C121_seviri_temperature_never_decreases (F : FP) (ch sat : String) (vc A B : ℝ)
    (h : (ch, sat, vc, A, B) ∈ seviriCoefficients) :
    ∃ b : RF F → RF F, (∀ rads : List (RF F), (SeviriConv.mk sat ch).radiance2tb rads = .ok (rads.map b)) ∧
      ∀ L₁ L₂ : RF F, RF.Le (RF.of 0) L₁ → RF.Le L₁ L₂ → RF.Le (b L₁) (b L₂) := by
  obtain ⟨v, a, b, hc, hs⟩ := sev_coefs F h
  refine ⟨seviriTbPoint v a b, fun rads => ?_, fun t₁ t₂ h0 h1 => sev_tb_mono F hs h0 h1⟩
  simp [SeviriConv.radiance2tb, hc, bind, Except.bind, pure, Except.pure]

example : ∃ b : RF Double.fp → RF Double.fp,
    (∀ rads, (SeviriConv.mk "Meteosat-9" "IR10.8").radiance2tb rads = .ok (rads.map b)) ∧
      RF.Le (b (RF.of 1e-4)) (b (RF.of 2e-4)) := by
  obtain ⟨b, h, hm⟩ := C121_seviri_temperature_never_decreases Double.fp "IR10.8" "Meteosat-9" 931.700 0.9983 0.640
    (by simp [seviriCoefficients])
  refine ⟨b, h, hm _ _ (lx_fin.2 ?_) (lx_fin.2 ?_)⟩ <;> norm_num

theorem sev_spec {V A B t : ℝ} : seviriRadiance V A B t = c2R * V ^ 3 / (Real.exp (c1R * V / (A * t + B)) - 1) := rfl

/-- C122: from 100 to 400 K the computed radiance is within 1.4e-11 of the published formula
(relative). -/
theorem C122_seviri_radiance_accuracy (F : FP) (ch sat : String) (vc A B : ℝ)
    (h : (ch, sat, vc, A, B) ∈ seviriCoefficients) (t : ℝ) (h1 : 100 ≤ t) (h2 : t ≤ 400) :
    ∃ (L : ℝ) (res : RadResult (RF F)), (SeviriConv.mk sat ch).tb2radiance [RF.of t] = .ok res ∧
      res.radiance = .arr [RF.of L] ∧
      |L - seviriRadiance (vc * 100) A B t| ≤ seviriRadiance (vc * 100) A B t * 1.4e-11 := by
  obtain ⟨v, a, b, hc, hs⟩ := sev_coefs F h
  obtain ⟨x1, x2, hn⟩ := sev_rad_near F hs h1 h2
  rw [← sev_spec] at hn
  have hu := uu_small
  have hu0 := uu_pos
  norm_num at hu x1
  have hδ : (47 + 152 * (c1R * (vc * 100) / (A * t + B))) * uu ≤ 6735 * uu :=
    mul_le_mul_of_nonneg_right (by linarith) hu0.le
  have hn' := Near.mono hn hδ
  obtain ⟨L, e, hL⟩ := near_abs hn' (by linarith) (by norm_num; linarith)
  refine ⟨L, ⟨.arr [seviriRadPoint v a b (RF.of t)], "W/m^2 sr^-1 (m^-1)^-1", 1.0⟩, ?_, ?_, hL.trans ?_⟩
  · simp [SeviriConv.tb2radiance, hc, bind, Except.bind, pure, Except.pure]
  · exact congrArg (fun z => Rad.arr [z]) e
  · refine mul_le_mul_of_nonneg_left ?_ hn.1.le
    norm_num; linarith

example : ∃ (L : ℝ) (res : RadResult (RF Double.fp)), (SeviriConv.mk "Meteosat-8" "IR3.9").tb2radiance [RF.of 290] = .ok res ∧
    res.radiance = .arr [RF.of L] ∧ |L - seviriRadiance (2567.330 * 100) 0.9956 3.410 290| ≤
      seviriRadiance (2567.330 * 100) 0.9956 3.410 290 * 1.4e-11 :=
  C122_seviri_radiance_accuracy Double.fp "IR3.9" "Meteosat-8" 2567.330 0.9956 3.410 (by simp [seviriCoefficients])
    290 (by norm_num) (by norm_num)

/-- C122: converting a temperature from 100 to 400 K to radiance and back ends within 1e-8 K. -/
theorem C122_seviri_round_trip_accuracy (F : FP) (ch sat : String) (vc A B : ℝ)
    (h : (ch, sat, vc, A, B) ∈ seviriCoefficients) (t : ℝ) (h1 : 100 ≤ t) (h2 : t ≤ 400) :
    ∃ (L : RF F) (T : ℝ) (res : RadResult (RF F)), (SeviriConv.mk sat ch).tb2radiance [RF.of t] = .ok res ∧
      res.radiance = .arr [L] ∧ (SeviriConv.mk sat ch).radiance2tb [L] = .ok [RF.of T] ∧ |T - t| ≤ 1e-8 := by
  obtain ⟨v, a, b, hc, hs⟩ := sev_coefs F h
  obtain ⟨x1, x2, hn⟩ := sev_rad_near F hs h1 h2
  have hu := uu_small
  have hu0 := uu_pos
  norm_num at hu x1
  have hδ : (47 + 152 * (c1R * (vc * 100) / (A * t + B))) * uu ≤ 6735 * uu :=
    mul_le_mul_of_nonneg_right (by linarith) hu0.le
  have hn' := Near.mono hn hδ
  obtain ⟨T, e, hT⟩ := sev_tb_near F hs h1 h2 (by linarith) (by norm_num; linarith) hn'
  refine ⟨seviriRadPoint v a b (RF.of t), T, ⟨.arr [seviriRadPoint v a b (RF.of t)], "W/m^2 sr^-1 (m^-1)^-1", 1.0⟩,
    ?_, rfl, ?_, hT.trans ?_⟩
  · simp [SeviriConv.tb2radiance, hc, bind, Except.bind, pure, Except.pure]
  · have : (SeviriConv.mk sat ch).radiance2tb [seviriRadPoint (α := RF F) v a b (RF.of t)] =
        .ok [seviriTbPoint (α := RF F) v a b (seviriRadPoint v a b (RF.of t))] := by
      simp [SeviriConv.radiance2tb, hc, bind, Except.bind, pure, Except.pure]
    rw [this]
    exact congrArg (fun z => Except.ok [z]) e
  · have : uu ≤ 4.5e-16 := by unfold uu; norm_num
    norm_num at this ⊢; linarith

example : ∃ (L : RF Double.fp) (T : ℝ) (res : RadResult (RF Double.fp)),
    (SeviriConv.mk "Meteosat-8" "IR3.9").tb2radiance [RF.of 290] = .ok res ∧
      res.radiance = .arr [L] ∧ (SeviriConv.mk "Meteosat-8" "IR3.9").radiance2tb [L] = .ok [RF.of T] ∧ |T - 290| ≤ 1e-8 :=
  C122_seviri_round_trip_accuracy Double.fp "IR3.9" "Meteosat-8" 2567.330 0.9956 3.410 (by simp [seviriCoefficients])
    290 (by norm_num) (by norm_num)

end Verif.Props
