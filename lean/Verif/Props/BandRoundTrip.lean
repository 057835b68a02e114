import Mathlib.Analysis.Convex.SpecificFunctions.Basic
import Verif.Props.WaveSpaces
/-
Property C186: from temperature to band radiance and back.
-/
namespace Verif.Props
open XF Model PyNum Lemmas Spec

theorem exp_stretch {m x : ℝ} (hm : 1 ≤ m) (hx : 0 ≤ x) : m * (Real.exp x - 1) ≤ Real.exp (m * x) - 1 := by
  have h0 : 0 ≤ Real.exp x - 1 := by linarith [Real.add_one_le_exp x]
  have := one_add_mul_self_le_rpow_one_add (s := Real.exp x - 1) (by linarith) hm
  rw [show 1 + (Real.exp x - 1) = Real.exp x by ring, ← Real.exp_mul, mul_comm x m] at this
  linarith

/-- Planck's law at one wavelength, seen from a nearby one -/
theorem planck_nearby {l x s t : ℝ} (hl : 0 < l) (hx : 0 < x) (ht : 0 < t) (h1 : x ≤ s * l) (h2 : l ≤ s * x) :
    planckWavelength l (t / s ^ 4) ≤ planckWavelength x t ∧ planckWavelength x t ≤ planckWavelength l (s ^ 4 * t) := by
  have hs : 0 < s := by
    by_contra h
    have := mul_nonpos_of_nonpos_of_nonneg (not_lt.1 h) hl.le
    linarith
  have hs1 : 1 ≤ s := by
    by_contra h
    have := mul_lt_mul_of_pos_right (not_le.1 h) hl
    have := mul_lt_mul_of_pos_right (not_le.1 h) hx
    linarith
  obtain ⟨a, ha⟩ : ∃ a, a = l / x := ⟨_, rfl⟩
  have ha0 : 0 < a := by rw [ha]; positivity
  have has : a ≤ s := by rw [ha, div_le_iff₀ hx]; exact h2
  have hsa : 1 / a ≤ s := by rw [ha, one_div_div, div_le_iff₀ hl]; exact h1
  have hxa : x = l / a := by rw [ha]; field_simp
  obtain ⟨u, hu⟩ : ∃ u, u = Spec.h * Spec.c / (l * Spec.k * t) := ⟨_, rfl⟩
  have hu0 : 0 < u := by rw [hu]; exact planckWl_arg_pos hl ht
  have hk := k_pos
  have hC : 0 < 2 * Spec.h * Spec.c ^ 2 / l ^ 5 := div_pos c2R_pos (pow_pos hl 5)
  have e1 : planckWavelength x t = 2 * Spec.h * Spec.c ^ 2 / l ^ 5 * (a ^ 5 / (Real.exp (u * a) - 1)) := by
    unfold planckWavelength
    have : Spec.h * Spec.c / (x * Spec.k * t) = u * a := by rw [hxa, hu]; field_simp
    rw [this, hxa]
    have := exp_sub_one_pos (show 0 < u * a by positivity)
    field_simp
  have e2 : planckWavelength l (s ^ 4 * t) = 2 * Spec.h * Spec.c ^ 2 / l ^ 5 * (1 / (Real.exp (u / s ^ 4) - 1)) := by
    unfold planckWavelength
    have : Spec.h * Spec.c / (l * Spec.k * (s ^ 4 * t)) = u / s ^ 4 := by rw [hu]; field_simp
    rw [this]; ring
  have e3 : planckWavelength l (t / s ^ 4) = 2 * Spec.h * Spec.c ^ 2 / l ^ 5 * (1 / (Real.exp (u * s ^ 4) - 1)) := by
    unfold planckWavelength
    have : Spec.h * Spec.c / (l * Spec.k * (t / s ^ 4)) = u * s ^ 4 := by rw [hu]; field_simp
    rw [this]; ring
  have pa := exp_sub_one_pos (show 0 < u * a by positivity)
  have ps := exp_sub_one_pos (show 0 < u / s ^ 4 by positivity)
  have pS := exp_sub_one_pos (show 0 < u * s ^ 4 by positivity)
  rw [e1, e2, e3]
  constructor
  · refine mul_le_mul_of_nonneg_left ?_ hC.le
    rw [div_le_div_iff₀ pS pa, one_mul]
    rcases le_total 1 a with h | h
    · have hle : u * a ≤ u * s ^ 4 := mul_le_mul_of_nonneg_left (has.trans (le_self_pow₀ hs1 (by norm_num))) hu0.le
      have h5 : 1 ≤ a ^ 5 := one_le_pow₀ h
      have := Real.exp_le_exp.2 hle
      nlinarith
    · have hm : 1 ≤ 1 / a ^ 5 := by rw [le_div_iff₀ (by positivity), one_mul]; exact pow_le_one₀ ha0.le h
      have hst := exp_stretch hm (show 0 ≤ u * a by positivity)
      have e : 1 / a ^ 5 * (u * a) = u * (1 / a) ^ 4 := by field_simp
      rw [e] at hst
      have hle : u * (1 / a) ^ 4 ≤ u * s ^ 4 := mul_le_mul_of_nonneg_left (pow_le_pow_left₀ (by positivity) hsa 4) hu0.le
      have := Real.exp_le_exp.2 hle
      have h3 : 1 / a ^ 5 * (Real.exp (u * a) - 1) ≤ Real.exp (u * s ^ 4) - 1 := by linarith
      rw [one_div_mul_eq_div, div_le_iff₀ (by positivity)] at h3
      linarith
  · refine mul_le_mul_of_nonneg_left ?_ hC.le
    rw [div_le_div_iff₀ pa ps, one_mul]
    rcases le_total 1 a with h | h
    · have hst := exp_stretch (one_le_pow₀ h : 1 ≤ a ^ 5) (show 0 ≤ u / a ^ 4 by positivity)
      have e : a ^ 5 * (u / a ^ 4) = u * a := by field_simp
      rw [e] at hst
      have hle : u / s ^ 4 ≤ u / a ^ 4 := div_le_div_of_nonneg_left hu0.le (by positivity) (pow_le_pow_left₀ ha0.le has 4)
      have := Real.exp_le_exp.2 hle
      have h5 : 0 < a ^ 5 := by positivity
      nlinarith
    · have hle : u / s ^ 4 ≤ u * a := by
        rw [div_le_iff₀ (by positivity)]
        have : 1 ≤ a * s := by rw [div_le_iff₀ ha0] at hsa; linarith
        have h4 : s ≤ s ^ 4 := le_self_pow₀ hs1 (by norm_num)
        have : 1 ≤ a * s ^ 4 := this.trans (mul_le_mul_of_nonneg_left h4 ha0.le)
        nlinarith
      have := Real.exp_le_exp.2 hle
      have h5 : a ^ 5 ≤ 1 := pow_le_one₀ ha0.le h
      nlinarith

/-- C186: the brightness temperatures of the radiances `tb2radiance` returns are the temperatures given,
up to the fourth power of the ratio of the last to the first wavelength of the band. -/
theorem C186_there_and_back (c : RadTb XF) (w r : List ℝ) (hc : Loaded c w r) (hb : GoodBand w r) (hws : c.wavespace = "wavelength")
    (order : List ℕ) (B : BandRsr XF) (det : DetRsr XF) (cw : ℝ)
    (hB : converterLookup c.wavespace c.rsrInstrument c.rsr c.bandname = .ok B)
    (hd : Dict.getItem B c.detector = .ok det) (hcw : Dict.getItem det "central_wavelength" = .ok (.num (fin cw)))
    (a b : ℝ) (ha : w.head? = some a) (hbl : w.getLast? = some b) (hin : a ≤ cw * 1e-6 ∧ cw * 1e-6 ≤ b)
    (nc : Int) (ts : List ℝ) (hts : ts ≠ []) (ht : ∀ t ∈ ts, 1e-6 < t) :
    ∃ out ls ts', c.tb2radiance nc (finL ts) = .ok out ∧ out.radiance = .arr (finL ls) ∧
      c.radiance2tb order (.nd (finL ls)) = .ok (.nd (finL ts')) ∧
      List.Forall₂ (WithinFactor ((b / a) ^ 4)) ts' ts := by
  have ha0 : 0 < a := hb.pos a (List.mem_of_mem_head? ha)
  have hl : 0 < cw * 1e-6 := ha0.trans_le hin.1
  have hbw : ∀ t ∈ ts, ∀ x ∈ w, planckWavelength (cw * 1e-6) (t / (b / a) ^ 4) ≤ bandPlanck c.wavespace x t ∧
      bandPlanck c.wavespace x t ≤ planckWavelength (cw * 1e-6) ((b / a) ^ 4 * t) := by
    intro t htm x hx
    obtain ⟨x1, x2⟩ := increasing_ends hb.inc a b ha hbl x hx
    have hx0 := hb.pos x hx
    rw [hws]
    refine planck_nearby hl hx0 (lt_trans (by norm_num) (ht t htm)) ?_ ?_
    · calc x ≤ b := x2
        _ = b / a * a := by field_simp
        _ ≤ b / a * (cw * 1e-6) := mul_le_mul_of_nonneg_left hin.1 (div_nonneg ((ha0.le.trans hin.1).trans hin.2) ha0.le)
    · calc cw * 1e-6 ≤ b := hin.2
        _ = b / a * a := by field_simp
        _ ≤ b / a * x := mul_le_mul_of_nonneg_left x1 (div_nonneg ((ha0.le.trans hin.1).trans hin.2) ha0.le)
  have hq : 0 < (b / a) ^ 4 := by
    have : 0 < b := hl.trans_le hin.2
    positivity
  have key : ∀ t ∈ ts, planckWavelength (cw * 1e-6) (t / (b / a) ^ 4) ≤ bandInt c.wavespace w r t / trap w r ∧
      bandInt c.wavespace w r t / trap w r ≤ planckWavelength (cw * 1e-6) ((b / a) ^ 4 * t) := by
    intro t htm
    obtain ⟨k1, k2⟩ := bandInt_bounds c.wavespace hb hc.len t _ _ (hbw t htm)
    exact ⟨by rw [le_div_iff₀ hb.integral]; exact k1, by rw [div_le_iff₀ hb.integral]; exact k2⟩
  have hLpos : ∀ t ∈ ts, 0 < bandInt c.wavespace w r t / trap w r := fun t htm =>
    (planckWl_pos hl (div_pos (lt_trans (by norm_num) (ht t htm)) hq)).trans_le (key t htm).1
  refine ⟨_, ts.map fun t => bandInt c.wavespace w r t / trap w r,
    ts.map fun t => brightnessTemperature (cw * 1e-6) (bandInt c.wavespace w r t / trap w r),
    tb2radiance_direct hc (goodBand_ne hb) hb.pos hb.integral.ne' nc ts hts ht true, rfl, ?_, ?_⟩
  · have hg : getNum det "central_wavelength" = .ok (fin cw) := by simp [getNum, hcw, bind, Except.bind]; rfl
    simp only [RadTb.radiance2tb, hB, hd, hg, bind, Except.bind, ofSci_eq, fin_mul]
    show Except.ok (Val.nd ((finL _).map (rad2tempPoint (fin (cw * 1e-6))))) = _
    congr 2
    simp only [finL, List.map_map]
    apply List.map_congr_left
    intro t htm
    exact rad2temp_fin hl (hLpos t htm)
  · rw [List.forall₂_map_left_iff, List.forall₂_same]
    intro t htm
    have ht0 : 0 < t := lt_trans (by norm_num) (ht t htm)
    have hT := bt_pos hl (hLpos t htm)
    have hP := planck_bt_wl hl (hLpos t htm)
    obtain ⟨k1, k2⟩ := key t htm
    obtain ⟨T, hTe⟩ : ∃ T, T = brightnessTemperature (cw * 1e-6) (bandInt c.wavespace w r t / trap w r) := ⟨_, rfl⟩
    rw [← hTe] at hT hP ⊢
    rw [← hP] at k1 k2
    constructor
    · by_contra h
      exact absurd k1 (not_le.2 (planckWl_lt hl hT (not_le.1 h)))
    · by_contra h
      exact absurd k2 (not_le.2 (planckWl_lt hl (mul_pos hq ht0) (not_le.1 h)))

/-- a converter whose central wavelength is stored -/
noncomputable def exRound : RadTb XF :=
  { exConv with rsr := [("ch4", [("det-1", [("central_wavelength", .num (fin 11))])])] }

example : ∃ out ls ts', exRound.tb2radiance 0 (finL [220, 300]) = .ok out ∧ out.radiance = .arr (finL ls) ∧
    exRound.radiance2tb [] (.nd (finL ls)) = .ok (.nd (finL ts')) ∧
    List.Forall₂ (WithinFactor ((12e-6 / 10e-6 : ℝ) ^ 4)) ts' [220, 300] :=
  C186_there_and_back exRound [10e-6, 11e-6, 12e-6] [0, 1, 0] ⟨rfl, rfl, rfl, rfl⟩ exBand_good rfl [] _ _ 11
    rfl rfl rfl (10e-6) (12e-6) rfl rfl (by norm_num) 0 [220, 300] (by simp) (by
      intro t h
      simp at h
      rcases h with rfl | rfl <;> norm_num)

theorem hasCentral_same {f : H5File XF} {b d : String} {x x' : XF} (h : HasCentral f b d x) (h' : HasCentral f b d x') :
    x = x' := by
  have := ((bandCentral_spec f b d).1 x).2 h
  rw [((bandCentral_spec f b d).1 x').2 h'] at this
  cases this
  rfl

/-- C186 for a converter made by names, when the central wavelength that the file stores lies inside the
band. -/
theorem C186_from_file (env : Env) (h5open : Content → Option (H5File XF)) (platform instrument q : String)
    (w : World) (r : Reader XF) (hr : Eff.result (readerNew env h5open (some platform) (some instrument) none) w = .ok r)
    (f : H5File XF) (hf : ReaderFile env h5open platform instrument w f) (l : List String) (hl : ListsBands f l)
    (hq : bandNamed instrument q ∈ l) (n : Nat) (hn : DetectorCount f (bandNamed instrument q) n) (i : Nat) (hi : i < n)
    (lam resp : List ℝ) (hc : FileCurve f (bandNamed instrument q) (detName i) lam resp)
    (cw : ℝ) (hcw : HasCentral f (bandNamed instrument q) (detName i) (fin cw))
    (a b : ℝ) (ha : lam.head? = some a) (hb : lam.getLast? = some b) (hin : a ≤ cw * 1e-6 ∧ cw * 1e-6 ≤ b)
    (res : XF) (hres : res ≠ fin 0) :
    ∃ c, Eff.result (converterNew env h5open platform instrument (.name q) (detName i) "wavelength" res) w = .ok c ∧
      ∀ (order : List ℕ) (nc : Int) (ts : List ℝ), ts ≠ [] → (∀ t ∈ ts, 1e-6 < t) →
        ∃ out ls ts', c.tb2radiance nc (finL ts) = .ok out ∧ out.radiance = .arr (finL ls) ∧
          c.radiance2tb order (.nd (finL ls)) = .ok (.nd (finL ts')) ∧
          List.Forall₂ (WithinFactor ((b / a) ^ 4)) ts' ts := by
  obtain ⟨c, g1, g2, g3, g4, g5, g6, g7⟩ := converter_loaded env h5open platform instrument q w r hr f hf l hl hq n hn i hi
    lam resp hc res "wavelength" (.inl rfl) hres
  obtain ⟨-, -, -, -, -, hB⟩ := reader_detector env h5open platform instrument w r hr f hf l hl
  obtain ⟨B, hB, m, hm, -, hall⟩ := hB _ hq
  have : n = m := (detectorNames_spec f _).2.2 n m hn hm
  subst this
  obtain ⟨r', w', cw', -, -, a3, e⟩ := hall i hi
  rw [hasCentral_same a3 hcw] at e
  refine ⟨c, g1, fun order nc ts hts ht => ?_⟩
  refine C186_there_and_back c lam resp g3 g4.good g2 order B
    [("response", .arr r'), ("wavelength", .arr w'), ("central_wavelength", .num (fin cw))] cw ?_ ?_ rfl a b ha hb hin nc ts hts ht
  · rw [g2, g6, g5 rfl]
    unfold converterLookup rsrDictGetItem
    dsimp only
    rw [if_neg (by decide), hB]
  · rw [g7]
    unfold Dict.getItem
    rw [e]

example : ∃ c, Eff.result (converterNew exampleEnv (openOnly "H".toList exFile) "FY-3A" "virr" (.name "M5") "det-2" "wavelength" 0.1)
      (worldWith ("/rsr", "rsr_virr_FY-3A.h5") "H".toList) = .ok c ∧
      ∃ out ls ts', c.tb2radiance 1 (finL [2000]) = .ok out ∧ out.radiance = .arr (finL ls) ∧
        c.radiance2tb [] (.nd (finL ls)) = .ok (.nd (finL ts')) ∧
        List.Forall₂ (WithinFactor ((700e-9 / 600e-9 : ℝ) ^ 4)) ts' [2000] := by
  obtain ⟨⟨r, hr⟩, hf⟩ := reader_there exampleEnv (openOnly "H".toList exFile) "FY-3A" "virr" "virr" (by decide +kernel)
    (worldWith ("/rsr", "rsr_virr_FY-3A.h5") "H".toList)
    (.inl ⟨"v1.6.1".toList, by rfl, [], [], [], rfl, by simp, by simp, Or.inl rfl⟩) "H".toList exFile _ (by rfl) (by rfl) exFile_loads
  obtain ⟨c, h1, h2⟩ := C186_from_file _ _ _ _ "M5" _ r hr exFile hf ["M5"] exFile_lists (by decide) 2 exFile_count 1
    (by decide) _ _ exFile_curve2 0.65 (((bandCentral_spec exFile "M5" "det-2").1 _).1 rfl) 600e-9 700e-9 rfl rfl
    (by norm_num) 0.1 tenth_nonzero
  exact ⟨c, h1, h2 [] 1 [2000] (by simp) (by simp; norm_num)⟩

end Verif.Props
