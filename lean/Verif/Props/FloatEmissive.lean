import Verif.Props.FloatReflectance
import Verif.Props.NirRetrieval
/-
Property C179: how accurate the computed emissive part of the 3.x micron radiance is.
-/
namespace Verif.Props
open XF Model PyNum Lemmas Spec

section
variable (F : FP)

/-- a radiance times one minus a reflectance, each with a small error -/
theorem emis_near {B b ρ ρ' δ η : ℝ} (hB : 1e-100 ≤ B ∧ B ≤ 1e100) (hb : |b - B| ≤ B * δ) (hδ0 : 0 ≤ δ) (hδ : δ ≤ 0.005)
    (hη : η ≤ 0.009) (hρ1 : |ρ| ≤ 1e8) (hρ : |ρ' - ρ| ≤ η * (1 + |ρ|)) :
    ∃ x v, F.rnd (1 - ρ') = fin x ∧ F.rnd (b * x) = fin v ∧
      |v - B * (1 - ρ)| ≤ B * (1 + |ρ|) * (1.02 * δ + η + 0.6 / 2 ^ 50) := by
  have B0 : 0 < B := lt_of_lt_of_le (by norm_num) hB.1
  obtain ⟨g, hg⟩ : ∃ g, g = 1 + |ρ| := ⟨_, rfl⟩
  have g1 : 1 ≤ g := by rw [hg]; linarith [abs_nonneg ρ]
  have g2 : g ≤ 1.1e8 := by rw [hg]; norm_num at hρ1 ⊢; linarith
  rw [← hg] at hρ ⊢
  norm_num at hη hδ g2
  have one : |1 - ρ| ≤ g := by rw [hg]; refine (abs_sub _ _).trans ?_; rw [abs_one]
  have k1 : |1 - ρ'| ≤ 1.009 * g := by
    have e : 1 - ρ' = (1 - ρ) - (ρ' - ρ) := by ring
    rw [e]
    refine (abs_sub _ _).trans ?_
    have := mul_le_mul_of_nonneg_right hη (show 0 ≤ g by linarith)
    norm_num; linarith
  obtain ⟨x, ex, hx⟩ := rnd_any F (1 - ρ') (k1.trans (by norm_num; linarith))
  have k2 : |x - (1 - ρ)| ≤ g * (η + 0.26 / 2 ^ 50) := by
    have e : x - (1 - ρ) = (x - (1 - ρ')) - (ρ' - ρ) := by ring
    rw [e]
    refine (abs_sub _ _).trans ?_
    have : |1 - ρ'| / 2 ^ 52 + 2e-200 ≤ g * (0.26 / 2 ^ 50) := by
      refine (add_le_add_left (div_le_div_of_nonneg_right k1 (by positivity)) _).trans ?_
      norm_num; linarith
    linarith
  have k3 : |x| ≤ 1.01 * g := by
    have e : x = (x - (1 - ρ)) + (1 - ρ) := by ring
    rw [e]
    refine (abs_add_le _ _).trans ?_
    have : g * (η + 0.26 / 2 ^ 50) ≤ g * 0.0095 := mul_le_mul_of_nonneg_left (by norm_num; linarith) (by linarith)
    norm_num at this k2 ⊢; linarith
  have b1 : |b| ≤ 1.005 * B := by
    have e : b = (b - B) + B := by ring
    rw [e]
    refine (abs_add_le _ _).trans ?_
    rw [abs_of_pos B0]
    have := mul_le_mul_of_nonneg_left hδ B0.le
    norm_num; linarith
  have Bg : 0 ≤ B * g := by positivity
  have k4 : |b * x| ≤ 1.016 * (B * g) := by
    rw [abs_mul]
    refine (mul_le_mul b1 k3 (abs_nonneg _) (by positivity)).trans ?_
    rw [show (1.005 : ℝ) * B * (1.01 * g) = 1.01505 * (B * g) by ring]
    exact mul_le_mul_of_nonneg_right (by norm_num) Bg
  have Bg1 : B * g ≤ 1e110 := (mul_le_mul hB.2 g2 (by linarith) (by norm_num)).trans (by norm_num)
  have Bg2 : 1e-100 ≤ B * g := hB.1.trans (le_mul_of_one_le_right B0.le g1)
  obtain ⟨v, ev, hv⟩ := rnd_any F (b * x) (k4.trans (by
    refine (mul_le_mul_of_nonneg_left Bg1 (by norm_num)).trans (by norm_num)))
  refine ⟨x, v, ex, ev, ?_⟩
  have s1 : |v - b * x| ≤ B * g * (0.26 / 2 ^ 50) := by
    refine hv.trans ((add_le_add_left (div_le_div_of_nonneg_right k4 (by positivity)) _).trans ?_)
    norm_num at Bg2 ⊢; linarith
  have s2 : |(b - B) * x| ≤ B * g * (1.01 * δ) := by
    rw [abs_mul]
    exact (mul_le_mul hb k3 (abs_nonneg _) (by positivity)).trans (le_of_eq (by ring))
  have s3 : |B * (x - (1 - ρ))| ≤ B * g * (η + 0.26 / 2 ^ 50) := by
    rw [abs_mul, abs_of_pos B0, mul_assoc]
    exact mul_le_mul_of_nonneg_left k2 B0.le
  have e : v - B * (1 - ρ) = (v - b * x) + ((b - B) * x + B * (x - (1 - ρ))) := by ring
  rw [e]
  refine (abs_add_le _ _).trans ((add_le_add s1 ((abs_add_le _ _).trans (add_le_add s2 s3))).trans ?_)
  rw [← mul_add, ← mul_add]
  refine mul_le_mul_of_nonneg_left ?_ Bg
  norm_num; linarith

end

/-- C179: after a retrieval without a look-up table, the emissive part of every pixel on the day side
is a number, and it differs from the thermal radiance times one minus the reflectance of the exact
formulas by at most (146 + 229·X + 12·n)/2^50 times the thermal radiance, times one plus the
reflectance, times the sum of the radiances over the difference of sunlight and thermal radiance. -/
theorem C179_emissive_accuracy (F : FP) (s : Nir (RF F)) (nc : Int) (sc : Scene (RF F)) (w r : List ℝ)
    (hc : FpLoaded s.conv w r) (hb : FpBand s.conv.wavespace w r) (hrsr : s.conv.rsr ≠ [])
    (hpx : sc.pixels ≠ []) (hl : sc.lut.getD s.lut = none) (hsh : sc.shape = [sc.pixels.length])
    (flux thr : ℝ) (hflux : s.solar_flux = RF.of flux) (hf : 1e-3 ≤ flux ∧ flux ≤ 1e4)
    (hthr : s.sunz_threshold = RF.of thr) (ht : 0 ≤ thr ∧ thr ≤ 90) :
    ∃ (out : NirOut (RF F)) (s' s'' : Nir (RF F)) (e : Pixel (RF F) → RF F), reflectance nc sc s = (.ok out, s') ∧
      Nir.emissivePart3x false s' = (.ok (some ⟨sc.shape, sc.pixels.map e⟩), s'') ∧
      ∀ p ∈ sc.pixels, ∀ z a t u X L B T S E : ℝ, p.zenith = RF.of z → p.nir = RF.of a → p.therm = RF.of t →
        0 < a → 0 < t →
        (sc.useCo2 = true → p.co2 = RF.of u ∧ (100 ≤ t ∧ t ≤ 400) ∧ 100 ≤ u ∧ u ≤ 400) →
        (∀ l, s.masking_limit = some l → ∃ m : ℝ, l = RF.of m ∧ 0 ≤ z ∧ z ≤ m) → X ≤ 300 →
        (∀ x ∈ w, (0.7 ≤ planckX s.conv.wavespace x a ∧ planckX s.conv.wavespace x a ≤ X) ∧
          0.7 ≤ planckX s.conv.wavespace x t ∧ planckX s.conv.wavespace x t ≤ X) →
        L = exactBand s.conv.wavespace w r false a → 1e-100 ≤ L → L ≤ 1000 →
        B = exactBand s.conv.wavespace w r false t → 1e-100 ≤ B → B ≤ 1000 →
        E = exactBand s.conv.wavespace w r true t → 1e-100 ≤ E → E ≤ 1e100 →
        T = B * exactCorr sc.useCo2 t u → S = exactSun flux thr z → 0.006 ≤ S - T →
        ∃ ε : ℝ, e p = RF.of ε ∧ |ε - E * (1 - (L - T) / (S - T))| ≤
          (146 + 229 * X + 12 * w.length) / 2 ^ 50 * E * (1 + |(L - T) / (S - T)|) *
            ((L + T + flux / Real.pi) / (S - T)) := by
  have hne : s.conv.wave ≠ [] := by rw [hc.wave]; simpa using gaps_ne hb.integral
  have hlen : s.conv.wave.length = s.conv.response.length := by rw [hc.wave, hc.response]; simp [hb.len]
  obtain ⟨out, h1, h2⟩ := reflectance_run s nc sc (bandVal s.conv true)
    { rsr := hrsr
      pixels := hpx
      shape := by rw [hsh]; simp
      converts := by
        rw [hl]
        intro ts hts
        exact ⟨_, tb2radiance_val s.conv hne hlen nc ts hts true, rfl⟩
      flat := Or.inr hsh }
  obtain ⟨s'', h3⟩ := emissive_run s (bandVal s.conv true) sc.useCo2 sc.shape sc.pixels
  refine ⟨out, _, s'', _, h1, h3, ?_⟩
  intro p _ z a t u X L B T S E hz hp hpt ha ht' hu hlim hX hx eL L1 L2 eB B1 B2 eE E1 E2 eT eS hD
  obtain ⟨ρ', e1, hρ'⟩ := px_near F hc hb hf ht s.masking_limit sc.useCo2 p (bandVal s.conv true) hz hp hpt rfl rfl ha ht'
    hu hlim hX hx (by rw [← eL]; exact ⟨L1, L2⟩) (by rw [← eB]; exact ⟨B1, B2⟩) (by rw [← eB, ← eT, ← eS]; exact hD)
  rw [← eL, ← eB, ← eT, ← eS] at hρ'
  have hw : w ≠ [] := gaps_ne hb.integral
  obtain ⟨x0, hx0⟩ := List.exists_mem_of_ne_nil w hw
  have hX0 : 0 ≤ X := by have := (hx x0 hx0).1; norm_num at this; linarith [this.1, this.2]
  have T0 : 0 < T := by
    rw [eT, eB]
    exact (therm_near F hc hb ht' hX hX0 (fun x h => (hx x h).2) (by rw [← eB]; exact ⟨B1, B2⟩) (bandVal s.conv true) sc.useCo2 p hpt rfl hu).2.1
  have n1 := bandVal_near F hc hb true ht' hX hX0 (fun x h => (hx x h).2)
  rw [← eE] at n1
  have hl' : (w.length : ℝ) ≤ 1048576 := by
    have : w.length ≤ 1048576 := hb.size.trans (by norm_num)
    exact_mod_cast this
  have hl0 : (0 : ℝ) ≤ w.length := Nat.cast_nonneg _
  have eU : uu = 2 / 4503599627370496 := by unfold uu; norm_num
  obtain ⟨n, hn⟩ : ∃ n : ℝ, n = (w.length : ℝ) := ⟨_, rfl⟩
  rw [← hn] at n1 hl' hl0 hρ' ⊢
  obtain ⟨b, eb, hb'⟩ := near_abs n1 (by rw [eU]; positivity) (by rw [eU]; norm_num; linarith)
  rw [show 2 * ((49 + 112 * X + 4 * n) * uu) = (49 + 112 * X + 4 * n) / 2 ^ 50 by rw [eU]; norm_num; ring] at hb'
  obtain ⟨Φ, hΦ⟩ : ∃ Φ : ℝ, Φ = flux / Real.pi := ⟨_, rfl⟩
  have Φ0 : 0 < Φ := by rw [hΦ]; exact div_pos (lt_of_lt_of_le (by norm_num) hf.1) Real.pi_pos
  have Φ1 : Φ ≤ 3334 := by
    have h3 := Real.pi_gt_three
    rw [hΦ, div_le_iff₀ Real.pi_pos]
    have := hf.2
    norm_num at this
    nlinarith
  have SΦ : S ≤ Φ := by
    refine (le_abs_self S).trans ?_
    rw [eS, hΦ]; unfold exactSun
    rw [mul_div_right_comm, abs_mul, abs_of_pos (by rw [← hΦ]; exact Φ0)]
    exact mul_le_of_le_one_right (by rw [← hΦ]; exact Φ0.le) (Real.abs_cos_le_one _)
  rw [← hΦ] at hρ' ⊢
  have L0 : 0 < L := lt_of_lt_of_le (by norm_num) L1
  have hD' := hD
  norm_num at hD'
  have D0 : 0 < S - T := lt_of_lt_of_le (by norm_num) hD'
  have K1 : 1 ≤ (L + T + Φ) / (S - T) := (one_le_div D0).2 (by linarith)
  have K2 : (L + T + Φ) / (S - T) ≤ 1.3e6 := by
    rw [div_le_iff₀ D0]; norm_num; linarith
  obtain ⟨K, hK⟩ : ∃ K, K = (L + T + Φ) / (S - T) := ⟨_, rfl⟩
  have r1 : |(L - T) / (S - T)| ≤ 1e8 := by
    rw [abs_div, abs_of_pos D0, div_le_iff₀ D0, abs_le]
    norm_num; constructor <;> linarith
  obtain ⟨ρ, hρ⟩ : ∃ ρ, ρ = (L - T) / (S - T) := ⟨_, rfl⟩
  rw [← hK, ← hρ] at hρ' ⊢
  rw [← hK] at K1 K2
  rw [← hρ] at r1
  have c1 : (95 + 114 * X + 7 * n) / 2 ^ 50 ≤ 6.7e-9 := by
    rw [div_le_iff₀ (by positivity)]; norm_num; linarith
  obtain ⟨x, v, ex, ev, hv⟩ := emis_near F (B := E) (b := b) (ρ := ρ) (ρ' := ρ') (δ := (49 + 112 * X + 4 * n) / 2 ^ 50)
    (η := (95 + 114 * X + 7 * n) / 2 ^ 50 * K) ⟨E1, E2⟩ hb' (by positivity)
    (by rw [div_le_iff₀ (by positivity)]; norm_num; linarith)
    ((mul_le_mul c1 K2 (by linarith) (by norm_num)).trans (by norm_num)) r1 (hρ'.trans (le_of_eq (by ring)))
  refine ⟨v, ?_, hv.trans ?_⟩
  · have key : (bandVal s.conv true p.therm * (1 - pxValue (α := RF F) s.conv.rsr_integral s.solar_flux s.sunz_threshold s.masking_limit
        (bandVal s.conv true) sc.useCo2 p) : RF F) = RF.of v := by
      rw [hflux, hthr, e1, hpt, show bandVal (α := RF F) s.conv true (RF.of t) = RF.of b from eb]
      rw [show (1 : RF F) = RF.of 1 from one_nat F]
      rw [show (RF.of 1 - RF.of ρ' : RF F) = RF.of x from ex]
      exact ev
    unfold pxEmissive
    rw [key]
    rfl
  · have E0 : 0 < E := lt_of_lt_of_le (by norm_num) E1
    have : 1.02 * ((49 + 112 * X + 4 * n) / 2 ^ 50) + (95 + 114 * X + 7 * n) / 2 ^ 50 * K + 0.6 / 2 ^ 50 ≤
        (146 + 229 * X + 12 * n) / 2 ^ 50 * K := by
      have : 1.02 * ((49 + 112 * X + 4 * n) / 2 ^ 50) + 0.6 / 2 ^ 50 ≤ (51 + 115 * X + 5 * n) / 2 ^ 50 * K := by
        refine le_trans ?_ (le_mul_of_one_le_right (by positivity) K1)
        norm_num; linarith
      refine (le_of_eq (by ring)).trans ((add_le_add_left this ((95 + 114 * X + 7 * n) / 2 ^ 50 * K)).trans (le_of_eq (by ring)))
    refine (mul_le_mul_of_nonneg_left this (by positivity)).trans (le_of_eq (by ring))

/-- the normalised thermal radiance of the example -/
theorem exAcc_norm {t : ℝ} (h1 : 280 ≤ t) (h2 : t ≤ 290) :
    1e-100 ≤ exactBand exAccNir.conv.wavespace [10e-6, 11e-6, 12e-6] [0, 1, 0] true t ∧
      exactBand exAccNir.conv.wavespace [10e-6, 11e-6, 12e-6] [0, 1, 0] true t ≤ 1e100 := by
  have e : exactBand exAccNir.conv.wavespace [10e-6, 11e-6, 12e-6] [0, 1, 0] true t =
      exactBand exAccNir.conv.wavespace [10e-6, 11e-6, 12e-6] [0, 1, 0] false t / 1e-6 := by
    unfold exactBand
    simp only [if_true, Bool.false_eq_true, if_false]
    congr 1
    simp only [trap]; norm_num
  obtain ⟨b1, b2⟩ := exAcc_band h1 h2
  rw [e]
  constructor
  · rw [le_div_iff₀ (by norm_num)]
    refine le_trans ?_ b1; norm_num
  · rw [div_le_iff₀ (by norm_num)]
    refine b2.trans ?_; norm_num

example : ∃ s' s'', ∃ ε : ℝ, (reflectance 0 exAccScene exAccNir).2 = s' ∧
    Nir.emissivePart3x false s' = (.ok (some ⟨[1], [RF.of ε]⟩), s'') := by
  obtain ⟨out, s', s'', e, h1, h2, h3⟩ := C179_emissive_accuracy Double.fp exAccNir 0 exAccScene _ _
    ⟨exFpConv_loaded.1, exFpConv_loaded.2, exFpConv_loaded.3⟩ exFpBand (by simp [exAccNir]) (by simp [exAccScene]) rfl rfl
    1e4 85 rfl (by norm_num) rfl (by norm_num)
  have b1 := exAcc_band (t := 290) (by norm_num) (by norm_num)
  have b2 := exAcc_band (t := 280) (by norm_num) (by norm_num)
  have b3 := exAcc_norm (t := 280) (by norm_num) (by norm_num)
  obtain ⟨ε, eε, _⟩ := h3 ⟨RF.of 0, RF.of 290, RF.of 280, RF.of 250⟩ (by simp [exAccScene]) 0 290 280 250 10 _ _ _ _ _ rfl rfl rfl
    (by norm_num) (by norm_num) (fun _ => ⟨rfl, by norm_num, by norm_num⟩)
    (fun l hl => ⟨88, (Option.some.inj hl).symm, by norm_num⟩) (by norm_num)
    (fun x hx => ⟨exAcc_x (by norm_num) (by norm_num) hx, exAcc_x (by norm_num) (by norm_num) hx⟩)
    rfl b1.1 b1.2 rfl b2.1 b2.2 rfl b3.1 b3.2 rfl rfl (by
      have s1 : exactSun 1e4 85 0 = 1e4 / Real.pi := by
        unfold exactSun
        rw [max_self, min_eq_left (by norm_num), zero_mul, Real.cos_zero, mul_one]
      have s2 : (2500 : ℝ) ≤ 1e4 / Real.pi := by
        rw [le_div_iff₀ Real.pi_pos]; have := Real.pi_le_four; norm_num; linarith
      have s3 : exactCorr exAccScene.useCo2 280 250 ≤ 1 := by
        rw [show exAccScene.useCo2 = true from rfl]; unfold exactCorr; norm_num
      have s4 := mul_le_mul_of_nonneg_left s3 (le_trans (by norm_num) b2.1)
      rw [s1]
      have := b2.2
      norm_num at s2 s4 this ⊢
      linarith)
  refine ⟨s', s'', ε, by rw [h1], ?_⟩
  rw [h2]
  simp [exAccScene, eε]

end Verif.Props
