import Verif.Spec.Units
import Verif.Props.RadTb
import Verif.Props.Converters
/-
Property C180: the unit given with a radiance.
-/
namespace Verif.Props
open XF Model PyNum Lemmas Spec

theorem unit_trap_scale (s : ℝ) : ∀ w y : List ℝ, trap (w.map fun x => x * s) y = s * trap w y
  | [], y => by simp [trap]
  | [_], y => by simp [trap]
  | _ :: _ :: _, [] => by simp [trap]
  | _ :: _ :: _, [_] => by simp [trap]
  | x₀ :: x₁ :: xs, y₀ :: y₁ :: ys => by
    have := unit_trap_scale s (x₁ :: xs) (y₁ :: ys)
    simp only [List.map_cons] at this ⊢
    simp only [trap]
    rw [this]; ring

theorem trap_factor (a : ℝ) : ∀ w y : List ℝ, trap w (y.map fun x => a * x) = a * trap w y
  | [], y => by simp [trap]
  | [_], y => by simp [trap]
  | _ :: _ :: _, [] => by simp [trap]
  | _ :: _ :: _, [_] => by simp [trap]
  | x₀ :: x₁ :: xs, y₀ :: y₁ :: ys => by
    have := trap_factor a (x₁ :: xs) (y₁ :: ys)
    simp only [List.map_cons] at this ⊢
    simp only [trap]
    rw [this]; ring

/-- how Planck's law scales with the unit of length -/
theorem planckG_scale (pw : Bool) {s h c k x T : ℝ} (hs : 0 < s) (hx : x ≠ 0) (hk : k ≠ 0) :
    planckG pw (h * s ^ 2) (c * s) (k * s ^ 2) (if pw then x / s else x * s) T =
      (if pw then s else s⁻¹) * planckG pw h c k x T := by
  have s0 := hs.ne'
  unfold planckG
  cases pw
  · simp only [Bool.false_eq_true, if_false]
    have e : h * s ^ 2 * (c * s) / (x * s * (k * s ^ 2) * T) = h * c / (x * k * T) := by
      by_cases hT : T = 0
      · subst hT; simp
      · field_simp
    rw [e]
    field_simp
  · simp only [if_true]
    have e : h * s ^ 2 * (c * s) * (x / s) / (k * s ^ 2 * T) = h * c * x / (k * T) := by
      by_cases hT : T = 0
      · subst hT; simp
      · field_simp
    rw [e]
    field_simp

/-- how a band's radiance scales with the unit of length -/
theorem bandRescaled_eq (pw av : Bool) {s h c k : ℝ} (hs : 0 < s) (hk : k ≠ 0) (w r : List ℝ) (hw : ∀ x ∈ w, x ≠ 0) (T : ℝ) :
    bandRescaled pw av s h c k w r T =
      s ^ (if av then (if pw then (1 : ℤ) else -1) else 0) * bandG pw av h c k w r T := by
  have s0 := hs.ne'
  have e0 : (w.map fun x => if pw then x / s else x * s) = w.map fun x => x * (if pw then s⁻¹ else s) := by
    cases pw <;> simp [div_eq_mul_inv]
  have e1 : List.zipWith (fun x y => y * planckG pw (h * s ^ 2) (c * s) (k * s ^ 2) x T)
      (w.map fun x => if pw then x / s else x * s) r =
      (List.zipWith (fun x y => y * planckG pw h c k x T) w r).map fun v => (if pw then s else s⁻¹) * v := by
    rw [List.zipWith_map_left, List.map_zipWith]
    clear e0
    induction w generalizing r with
    | nil => simp
    | cons a w ih =>
      cases r with
      | nil => simp
      | cons b r =>
        simp only [List.zipWith_cons_cons]
        rw [planckG_scale pw hs (hw a (by simp)) hk, ih r (fun x hx => hw x (by simp [hx]))]
        congr 1
        ring
  unfold bandRescaled bandG
  dsimp only
  rw [e1, trap_factor, e0, unit_trap_scale, unit_trap_scale]
  cases pw <;> cases av <;> simp [s0] <;> field_simp

theorem zipWith_zip_map (f : ℝ → ℝ) : ∀ w r : List ℝ, w.length = r.length →
    trap ((w.zip r).map Prod.fst) ((w.zip r).map fun p => p.2 * f p.1) = trap w (List.zipWith (fun x y => y * f x) w r) := by
  intro w r h
  rw [List.map_fst_zip (by omega)]
  congr 1
  simp [List.zip, List.map_zipWith]

theorem bandInt_bandG (ws : String) (w r : List ℝ) (h : w.length = r.length) (norm : Bool) (t : ℝ) :
    (if norm then bandInt ws w r t / trap w r else bandInt ws w r t) =
      bandG (decide (ws = "wavenumber")) norm Spec.h Spec.c Spec.k w r t := by
  have e : bandInt ws w r t = trap w (List.zipWith (fun x y => y * planckG (decide (ws = "wavenumber")) Spec.h Spec.c Spec.k x t) w r) := by
    unfold bandInt
    rw [zipWith_zip_map (fun x => bandPlanck ws x t) w r h]
    congr 2
    funext x y
    unfold bandPlanck planckG planckWavenumber planckWavelength
    by_cases hw : ws = "wavenumber" <;> simp [hw, WAVE_NUMBER]
  rw [e]
  rfl

theorem unit_power (ws : String) (norm : Bool) :
    lengthPower (radianceUnit ws norm) =
      some (if norm then (if decide (ws = "wavenumber") then (1 : ℤ) else -1) else 0) := by
  unfold radianceUnit
  rw [show WAVE_NUMBER = "wavenumber" from rfl]
  by_cases hw : ws = "wavenumber"
  · simp only [hw, if_true, decide_true]
    cases norm
    · decide +kernel
    · decide +kernel
  · simp only [hw, if_false, decide_false]
    cases norm
    · decide +kernel
    · decide +kernel

/-- C180: the radiances `tb2radiance` computes directly are in the unit it returns with them: they are
Planck's law in SI units (scale 1), and the power of length in the unit is the one with which the
radiance of the band changes when another unit of length is chosen. -/
theorem C180_unit (c : RadTb XF) (w r : List ℝ) (hc : Loaded c w r) (hb : GoodBand w r) (nc : Int) (ts : List ℝ)
    (hts : ts ≠ []) (ht : ∀ t ∈ ts, 1e-6 < t) (norm : Bool) :
    ∃ (res : RadResult XF) (d : ℤ), c.tb2radiance nc (finL ts) none norm = .ok res ∧
      res.radiance = .arr (ts.map fun t =>
        fin (bandG (decide (c.wavespace = "wavenumber")) norm Spec.h Spec.c Spec.k w r t)) ∧
      res.scale = fin 1 ∧ lengthPower res.unit = some d ∧
      ∀ s > 0, ∀ t ∈ ts, bandRescaled (decide (c.wavespace = "wavenumber")) norm s Spec.h Spec.c Spec.k w r t =
        s ^ d * bandG (decide (c.wavespace = "wavenumber")) norm Spec.h Spec.c Spec.k w r t := by
  have hw : w ≠ [] := by rintro rfl; have := hb.integral; simp [trap] at this
  refine ⟨_, _, tb2radiance_direct hc hw hb.pos hb.integral.ne' nc ts hts ht norm, ?_, ?_, unit_power _ _, ?_⟩
  · simp only [finL, List.map_map, Function.comp_def]
    congr 2
    funext t
    rw [bandInt_bandG _ _ _ hc.len]
  · norm_num
  · intro s hs t _
    exact bandRescaled_eq _ _ hs k_pos.ne' w r (fun x hx => (hb.pos x hx).ne') t

example : ∃ res : RadResult XF, exConv.tb2radiance 0 (finL [280]) none true = .ok res ∧ lengthPower res.unit = some (-1) := by
  obtain ⟨res, d, h1, _, _, h4, h5⟩ := C180_unit exConv _ _ exConv_loaded exBand_good 0 [280] (by simp) (by norm_num) true
  exact ⟨_, tb2radiance_direct exConv_loaded (by simp) exBand_good.pos exBand_good.integral.ne' 0 [280] (by simp) (by norm_num) true,
    by decide +kernel⟩

/-- C180: through a look-up table made by the converter, every radiance is one computed directly with the
`normalized` argument the table was made with, but the unit is the one of the `normalized` argument of
the call: it is right exactly when the two agree. -/
theorem C180_table {α : Type} [PyNum α] (c : RadTb α) (nc : Int) (made asked : Bool) (lut : Lut α) (h : c.makeTb2radLut nc made = .ok lut)
    (tb : List α) (res : RadResult α) (hr : c.tb2radiance nc tb (some lut) asked = .ok res) :
    ∃ direct : RadResult α, c.tb2radiance nc lut.tb none made = .ok direct ∧ direct.radiance = .arr lut.radiance ∧
      (∀ x, res.radiance = .pyFloat x → x ∈ lut.radiance) ∧ (∀ xs, res.radiance = .arr xs → ∀ x ∈ xs, x ∈ lut.radiance) ∧
      res.scale = direct.scale ∧ (res.unit = direct.unit ↔ asked = made) := by
  have hu : radianceUnit c.wavespace asked = radianceUnit c.wavespace made ↔ asked = made := by
    refine ⟨fun e => ?_, fun e => by rw [e]⟩
    have := congrArg lengthPower e
    rw [unit_power, unit_power] at this
    cases asked <;> cases made <;> first | rfl | (exfalso; revert this; by_cases hw : c.wavespace = "wavenumber" <;> simp [hw])
  unfold RadTb.makeTb2radLut at h
  cases ha : (NP.arange TB_MIN TB_MAX c.tb_resolution : Py (List α)) with
  | error e => rw [ha] at h; cases h
  | ok tbs =>
  rw [ha] at h
  simp only [bind, Except.bind] at h
  cases hd : c.tb2radiance nc tbs none made with
  | error e => rw [hd] at h; cases h
  | ok direct =>
  rw [hd] at h
  have hdir : ∃ xs, direct.radiance = .arr xs ∧ direct.unit = radianceUnit c.wavespace made ∧ direct.scale = 1.0 := by
    unfold RadTb.tb2radiance at hd
    simp only [bind, Except.bind, pure, Except.pure] at hd
    split at hd
    · cases hd
    · split at hd
      · cases hd
      · split at hd
        · cases hd
        · cases hd; exact ⟨_, rfl, rfl, rfl⟩
  obtain ⟨xs, hx, hu1, hs1⟩ := hdir
  simp only [hx, pure, Except.pure] at h
  cases h
  unfold RadTb.tb2radiance at hr
  simp only [bind, Except.bind, pure, Except.pure] at hr
  cases hl : lutRadiance nc c.tb_scale ⟨tbs, xs⟩ tb with
  | error e => rw [hl] at hr; cases hr
  | ok rad =>
  rw [hl] at hr
  cases hr
  have key : ∃ ys : List α, (∀ y ∈ ys, y ∈ xs) ∧ rad = (match ys with | [x] => .pyFloat x | xs => .arr xs) := by
    unfold lutRadiance at hl
    simp only [bind, Except.bind, pure, Except.pure] at hl
    split at hl
    · cases hl
    · split at hl
      · cases hl
      · split at hl
        · cases hl
        · split at hl
          · cases hl
          · rename_i ys hm
            refine ⟨ys, ?_, ?_⟩
            · intro y hy
              obtain ⟨i, _, hi⟩ := mapM_ok_mem _ _ _ hm y hy
              unfold NP.pyIndex at hi
              generalize (if i < 0 then i + (xs.length : ℤ) else i) = j at hi
              dsimp only at hi
              split at hi
              · cases hi
              · split at hi
                · rename_i v hv
                  cases hi
                  exact List.mem_of_getElem? hv
                · cases hi
            · revert hl
              match ys with
              | [] => intro hl; cases hl; rfl
              | [x] => intro hl; cases hl; rfl
              | x :: y :: zs => intro hl; cases hl; rfl
  obtain ⟨ys, hy1, hy2⟩ := key
  refine ⟨direct, hd, hx, ?_, ?_, hs1.symm, by rw [hu1]; exact hu⟩
  · intro x e
    dsimp only at e
    rw [hy2] at e
    match ys, e with
    | [y], e => cases e; exact hy1 _ (by simp)
    | [], e => cases e
    | _ :: _ :: _, e => cases e
  · intro zs e
    dsimp only at e
    rw [hy2] at e
    match ys, e with
    | [y], e => cases e
    | [], e => cases e; simp
    | a :: b :: l, e => cases e; exact hy1

/-- the `normalized` argument of a call with a table changes the unit only -/
theorem table_flag {α : Type} [PyNum α] (c : RadTb α) (nc : Int) (tb : List α) (lut : Lut α) (a b : Bool) (res : RadResult α)
    (h : c.tb2radiance nc tb (some lut) a = .ok res) :
    c.tb2radiance nc tb (some lut) b = .ok { res with unit := radianceUnit c.wavespace b } := by
  unfold RadTb.tb2radiance at h ⊢
  simp only [bind, Except.bind, pure, Except.pure] at h ⊢
  cases hl : lutRadiance nc c.tb_scale lut tb with
  | error e => rw [hl] at h; cases h
  | ok rad => rw [hl] at h; cases h; rfl

example : ∃ lut res, exConv.makeTb2radLut 0 false = .ok lut ∧ exConv.tb2radiance 0 [fin 280] (some lut) true = .ok res ∧
    res.unit = "W/m^2 sr^-1 m^-1" ∧ ∃ direct, exConv.tb2radiance 0 lut.tb none false = .ok direct ∧
      direct.radiance = .arr lut.radiance ∧ direct.unit ≠ res.unit := by
  obtain ⟨R, lut, E, h1, h2, h3, _⟩ := C13_lut_within_one_step exConv _ _ exConv_loaded exBand_good 0 false rfl rfl
  obtain ⟨⟨res, g1, _⟩, _⟩ := h3 280 (by norm_num) (by norm_num)
  have g2 := table_flag exConv 0 _ lut false true res g1
  obtain ⟨direct, k1, k2, _, _, _, k3⟩ := C180_table exConv 0 false true lut h2 _ _ g2
  refine ⟨lut, _, h2, g2, (by show radianceUnit WAVE_LENGTH true = _; decide +kernel), direct, k1, k2, fun e => ?_⟩
  exact absurd (k3.1 e.symm) (by decide)

/-- C180: a SEVIRI converter takes radiances in the unit it returns, W/m^2 sr^-1 (m^-1)^-1.  A radiance
given in mW/m^2 sr^-1 (cm^-1)^-1, the unit `radiance2tb` documents, is 1e5 times the number and gives
a higher temperature. -/
theorem C180_seviri_documented (c : SeviriConv) (tb₀ : List XF) (res₀ : RadResult XF)
    (h : c.tb2radiance tb₀ = .ok res₀) (t : ℝ) (ht : 0 < t) :
    ∃ (L T : ℝ) (res : RadResult XF), c.tb2radiance [fin t] = .ok res ∧ res.radiance = .arr [fin L] ∧
      res.unit = "W/m^2 sr^-1 (m^-1)^-1" ∧ res.scale = fin 1 ∧
      c.radiance2tb [fin L] = .ok [fin t] ∧ c.radiance2tb [fin (L * 1000 * 100)] = .ok [fin T] ∧ t < T := by
  obtain ⟨vc, A, B, hv, hA, hB, h1, h2, h3⟩ := C16_seviri_round_trip c tb₀ res₀ h
  obtain ⟨e1, L0, e2⟩ := h1 t ht
  obtain ⟨T, g1, g2, g3, _⟩ := h2 (seviriRadiance vc A B t * 1000 * 100) (by positivity)
  refine ⟨_, T, _, e1, rfl, rfl, rfl, e2, g1, ?_⟩
  have et := (seviri_inverse₁ (B := B) hv hA (show 0 < A * t + B by positivity)).2
  rw [g2]
  conv_lhs => rw [← et]
  obtain ⟨L, hL⟩ : ∃ L, L = seviriRadiance vc A B t := ⟨_, rfl⟩
  rw [← hL] at L0 ⊢
  have hx : 0 < Spec.h * Spec.c / Spec.k * vc := mul_pos (div_pos (mul_pos h_pos c_pos) k_pos) hv
  have hc : 0 < 2 * Spec.h * Spec.c ^ 2 * vc ^ 3 := mul_pos c2R_pos (pow_pos hv 3)
  unfold seviriTemperature
  refine div_lt_div_of_pos_right (sub_lt_sub_right ?_ B) hA
  have q : 0 < 2 * Spec.h * Spec.c ^ 2 * vc ^ 3 / (L * 1000 * 100) := by positivity
  refine div_lt_div_of_pos_left hx (Real.log_pos (by linarith)) (Real.log_lt_log (by linarith) ?_)
  have := div_lt_div_of_pos_left hc L0 (show L < L * 1000 * 100 by linarith)
  linarith

example : ∃ L T : ℝ, (SeviriConv.mk "Meteosat-9" "IR10.8").radiance2tb [fin L] = .ok [fin 280] ∧
    (SeviriConv.mk "Meteosat-9" "IR10.8").radiance2tb [fin (L * 1000 * 100)] = .ok [fin T] ∧ 280 < T := by
  obtain ⟨res, h, _⟩ := (C16_published_coefficients "IR10.8" "Meteosat-9" 931.700 0.9983 0.640
    (by simp [seviriCoefficients])).1 280 (by norm_num)
  obtain ⟨L, T, _, _, _, _, _, h5, h6, h7⟩ := C180_seviri_documented _ _ _ h 280 (by norm_num)
  exact ⟨L, T, h5, h6, h7⟩

end Verif.Props
