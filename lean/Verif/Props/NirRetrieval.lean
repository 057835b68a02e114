import Verif.Lemmas.Nir
import Verif.Props.RadTb
/-
Properties C70-C77, C81, C97: reflectance and emissive part of the 3.x micron band.
-/
namespace Verif.Props
open XF Model PyNum Lemmas Spec

section
variable {α : Type} [PyNum α]

/-- The arguments of a retrieval: pixels, shape of the arrays, kinds of the arrays, whether the
CO2 band is given, and the `lut` keyword (`none`: not given). -/
structure Scene (α : Type := XF) where
  shape : List Nat
  pixels : List (Pixel α)
  kz : ArrKind
  kn : ArrKind
  kt : ArrKind
  kc : ArrKind
  useCo2 : Bool
  lut : Option (Option (Lut α))

/-- `reflectance_from_tbs(sun_zenith, tb_near_ir, tb_thermal, ...)` on a scene -/
def reflectance (nc : Int) (sc : Scene α) : PySt (Nir α) (NirOut α) :=
  Nir.reflectanceFromTbs nc (.array sc.kz ⟨sc.shape, sc.pixels.map Pixel.zenith⟩)
    (.array sc.kn ⟨sc.shape, sc.pixels.map Pixel.nir⟩) (.array sc.kt ⟨sc.shape, sc.pixels.map Pixel.therm⟩)
    (if sc.useCo2 then some (.array sc.kc ⟨sc.shape, sc.pixels.map Pixel.co2⟩) else none) sc.lut

/-- An object and a scene for which every step is defined: spectral responses loaded, at least
one pixel, the object converts temperatures with `R`; without a table the arrays are
one-dimensional (see C97). -/
structure NirUsable (s : Nir α) (nc : Int) (sc : Scene α) (R : α → α) : Prop where
  rsr : s.conv.rsr ≠ []
  pixels : sc.pixels ≠ []
  shape : sc.shape ≠ []
  converts : Converts s.conv nc (sc.lut.getD s.lut) R
  flat : (sc.lut.getD s.lut).isSome ∨ sc.shape = [sc.pixels.length]

theorem reflectance_run_full (s : Nir α) (nc : Int) (sc : Scene α) (R : α → α) (h : NirUsable s nc sc R) :
    ∃ out, reflectance nc sc s = (.ok out, afterRetrieval s R sc.useCo2 sc.shape sc.pixels) ∧
      out.values = ⟨sc.shape, sc.pixels.map (pxValue s.conv.rsr_integral s.solar_flux s.sunz_threshold
        s.masking_limit R sc.useCo2)⟩ ∧
      out.isLazy = ((sc.kn == .dask || sc.kt == .dask) && !(sc.kn == .masked || sc.kt == .masked)) ∧
      out.mask = if (sc.kn == .masked || sc.kt == .masked) then some (out.values.data.map fun x => !isFinite x) else none := by
  have hr : s.conv.rsr.isEmpty = false := by
    have := h.rsr
    cases hh : s.conv.rsr <;> simp_all
  have h1 := retrieve_px s nc (sc.lut.getD s.lut) R h.converts sc.useCo2 sc.shape h.shape sc.pixels h.pixels h.flat
  unfold reflectance Nir.reflectanceFromTbs
  rw [st_bind_ok (st_get s)]
  simp only [hr, Bool.false_eq_true, if_false, NirIn.asArray, ne_eq, not_true_eq_false]
  have h2 : (Option.map NirIn.asArray (if sc.useCo2 = true then
      some (NirIn.array sc.kc ⟨sc.shape, sc.pixels.map Pixel.co2⟩) else none)) =
      (if sc.useCo2 = true then some ⟨sc.shape, sc.pixels.map Pixel.co2⟩ else none) := by
    cases sc.useCo2 <;> rfl
  rw [h2, st_bind_ok h1]
  refine ⟨_, rfl, rfl, ?_, ?_⟩ <;> cases sc.kn <;> cases sc.kt <;> rfl

theorem reflectance_run (s : Nir α) (nc : Int) (sc : Scene α) (R : α → α) (h : NirUsable s nc sc R) :
    ∃ out, reflectance nc sc s = (.ok out, afterRetrieval s R sc.useCo2 sc.shape sc.pixels) ∧
      out.values = ⟨sc.shape, sc.pixels.map (pxValue s.conv.rsr_integral s.solar_flux s.sunz_threshold
        s.masking_limit R sc.useCo2)⟩ := by
  obtain ⟨out, h1, h2, _⟩ := reflectance_run_full s nc sc R h
  exact ⟨out, h1, h2⟩

end

/-! ### C70 -/

/-- C70: the call succeeds, the result has the shape of the arguments, and every pixel that is
not NaN solves the radiance balance: the observed band radiance is the reflectance times the
sunlight plus (1 - reflectance) times the thermal band radiance, corrected for CO2 if that band is
given. -/
theorem C70_radiance_balance (s : Nir XF) (nc : Int) (sc : Scene) (R : XF → XF) (h : NirUsable s nc sc R)
    (I flux thr : ℝ) (hI : s.conv.rsr_integral = fin I) (hflux : s.solar_flux = fin flux)
    (hthr : s.sunz_threshold = fin thr) :
    ∃ (out : NirOut XF) (s' : Nir XF) (r : Pixel → XF), reflectance nc sc s = (.ok out, s') ∧
      out.values = ⟨sc.shape, sc.pixels.map r⟩ ∧
      ∀ p ∈ sc.pixels, ∀ ρ z ln lt t u : ℝ, r p = fin ρ → p.zenith = fin z → R p.nir = fin ln → R p.therm = fin lt →
        (sc.useCo2 = true → p.therm = fin t ∧ p.co2 = fin u ∧ t ≠ 0) →
        ln * I = ρ * sunlight flux thr z +
          (1 - ρ) * (lt * I * if sc.useCo2 then co2Factor t u else 1) := by
  obtain ⟨out, h1, h2⟩ := reflectance_run s nc sc R h
  refine ⟨out, _, _, h1, h2, ?_⟩
  intro p _ ρ z ln lt t u hr hz hn ht hc
  rw [hI, hflux, hthr, pxValue_fin I flux thr z ln lt t u _ R sc.useCo2 p hz hn ht hc] at hr
  split at hr
  · simp at hr
  · rename_i hcond
    push Not at hcond
    have hd : 0 < sunlight flux thr z - lt * I * factor sc.useCo2 t u := lt_of_lt_of_le (by norm_num) hcond.1
    injection hr with hr
    have : ρ * (sunlight flux thr z - lt * I * factor sc.useCo2 t u) = ln * I - lt * I * factor sc.useCo2 t u := by
      rw [← hr]; exact div_mul_cancel₀ _ hd.ne'
    show ln * I = ρ * sunlight flux thr z + (1 - ρ) * (lt * I * factor sc.useCo2 t u)
    linarith

/-! ### C71 -/

/-- C71: a pixel is NaN if the sun is outside `[0, limit]`, the 3.x temperature is NaN, or the
sunlight exceeds the thermal radiance by less than 0.005. -/
theorem C71_masked (s : Nir XF) (nc : Int) (sc : Scene) (R : XF → XF) (h : NirUsable s nc sc R)
    (I flux thr : ℝ) (hI : s.conv.rsr_integral = fin I) (hflux : s.solar_flux = fin flux)
    (hthr : s.sunz_threshold = fin thr) :
    ∃ (out : NirOut XF) (s' : Nir XF) (r : Pixel → XF), reflectance nc sc s = (.ok out, s') ∧
      out.values = ⟨sc.shape, sc.pixels.map r⟩ ∧
      ∀ p ∈ sc.pixels,
        (p.nir = XF.nan → r p = XF.nan) ∧
        (∀ z lim : ℝ, p.zenith = fin z → s.masking_limit = some (fin lim) → (z < 0 ∨ lim < z) → r p = XF.nan) ∧
        (∀ z ln lt t u : ℝ, p.zenith = fin z → R p.nir = fin ln → R p.therm = fin lt →
          (sc.useCo2 = true → p.therm = fin t ∧ p.co2 = fin u ∧ t ≠ 0) →
          sunlight flux thr z - lt * I * (if sc.useCo2 then co2Factor t u else 1) < 0.005 → r p = XF.nan) := by
  obtain ⟨out, h1, h2⟩ := reflectance_run s nc sc R h
  refine ⟨out, _, _, h1, h2, ?_⟩
  intro p _
  refine ⟨?_, ?_, ?_⟩
  · intro hn
    unfold pxValue
    rw [if_pos (by simp [hn])]; rfl
  · intro z lim hz hl hout
    unfold pxValue
    have : pxZenith s.masking_limit p = true := by
      rw [hl, pxZenith, hz]
      norm_num
      exact hout
    rw [if_pos (by simp [this])]; rfl
  · intro z ln lt t u hz hn ht hc hd
    change sunlight flux thr z - lt * I * factor sc.useCo2 t u < 0.005 at hd
    rw [hI, hflux, hthr, pxValue_fin I flux thr z ln lt t u _ R sc.useCo2 p hz hn ht hc, if_pos (Or.inl hd)]

/-- C71: and only then: with finite data, the sun inside the limit (if one is set) and at least
0.005 more sunlight than thermal radiance, the reflectance is a finite number. -/
theorem C71_not_masked (s : Nir XF) (nc : Int) (sc : Scene) (R : XF → XF) (h : NirUsable s nc sc R)
    (I flux thr : ℝ) (hI : s.conv.rsr_integral = fin I) (hflux : s.solar_flux = fin flux)
    (hthr : s.sunz_threshold = fin thr) :
    ∃ (out : NirOut XF) (s' : Nir XF) (r : Pixel → XF), reflectance nc sc s = (.ok out, s') ∧
      out.values = ⟨sc.shape, sc.pixels.map r⟩ ∧
      ∀ p ∈ sc.pixels, ∀ z ln lt t u : ℝ, p.zenith = fin z → isNaN p.nir = false → R p.nir = fin ln →
        R p.therm = fin lt →
        (sc.useCo2 = true → p.therm = fin t ∧ p.co2 = fin u ∧ t ≠ 0) →
        (s.masking_limit = none ∨ ∃ lim : ℝ, s.masking_limit = some (fin lim) ∧ 0 ≤ z ∧ z ≤ lim) →
        0.005 ≤ sunlight flux thr z - lt * I * (if sc.useCo2 then co2Factor t u else 1) →
        ∃ ρ : ℝ, r p = fin ρ := by
  obtain ⟨out, h1, h2⟩ := reflectance_run s nc sc R h
  refine ⟨out, _, _, h1, h2, ?_⟩
  intro p _ z ln lt t u hz hnan hn ht hc hl hd
  have hzen : pxZenith s.masking_limit p = false := by
    rcases hl with hl | ⟨lim, hl, h0, hle⟩
    · rw [hl]; rfl
    · rw [hl, pxZenith, hz]
      norm_num
      exact ⟨h0, hle⟩
  rw [hI, hflux, hthr, pxValue_fin I flux thr z ln lt t u _ R sc.useCo2 p hz hn ht hc]
  rw [if_neg (by
    push Not
    refine ⟨hd, ?_, ?_⟩
    · simp [hzen]
    · simp [hnan])]
  exact ⟨_, rfl⟩

/-! ### C72 -/

/-- C72: an unmasked reflectance lies in `[0, 1]` exactly when the observed radiance lies between
the thermal radiance and the sunlight. -/
theorem C72_unit_interval (s : Nir XF) (nc : Int) (sc : Scene) (R : XF → XF) (h : NirUsable s nc sc R)
    (I flux thr : ℝ) (hI : s.conv.rsr_integral = fin I) (hflux : s.solar_flux = fin flux)
    (hthr : s.sunz_threshold = fin thr) :
    ∃ (out : NirOut XF) (s' : Nir XF) (r : Pixel → XF), reflectance nc sc s = (.ok out, s') ∧
      out.values = ⟨sc.shape, sc.pixels.map r⟩ ∧
      ∀ p ∈ sc.pixels, ∀ ρ z ln lt t u : ℝ, r p = fin ρ → p.zenith = fin z → R p.nir = fin ln → R p.therm = fin lt →
        (sc.useCo2 = true → p.therm = fin t ∧ p.co2 = fin u ∧ t ≠ 0) →
        ((0 ≤ ρ ↔ lt * I * (if sc.useCo2 then co2Factor t u else 1) ≤ ln * I) ∧
         (ρ ≤ 1 ↔ ln * I ≤ sunlight flux thr z)) := by
  obtain ⟨out, h1, h2⟩ := reflectance_run s nc sc R h
  refine ⟨out, _, _, h1, h2, ?_⟩
  intro p _ ρ z ln lt t u hr hz hn ht hc
  rw [hI, hflux, hthr, pxValue_fin I flux thr z ln lt t u _ R sc.useCo2 p hz hn ht hc] at hr
  split at hr
  · simp at hr
  · rename_i hcond
    push Not at hcond
    have hd : 0 < sunlight flux thr z - lt * I * factor sc.useCo2 t u := lt_of_lt_of_le (by norm_num) hcond.1
    injection hr with hr
    show (0 ≤ ρ ↔ lt * I * factor sc.useCo2 t u ≤ ln * I) ∧ _
    rw [← hr]
    constructor
    · rw [le_div_iff₀ hd]; constructor <;> intro hh <;> linarith
    · rw [div_le_one hd]; constructor <;> intro hh <;> linarith

/-- C72: the reflectance increases with the 3.x temperature: of two unmasked pixels that differ
only in a higher temperature, without a table, the warmer one has the larger reflectance. -/
theorem C72_increasing (s : Nir XF) (nc : Int) (sc : Scene) (w resp : List ℝ) (hc : Loaded s.conv w resp)
    (hb : GoodBand w resp) (h : NirUsable s nc sc (directFn s.conv)) (flux thr : ℝ) (hflux : s.solar_flux = fin flux)
    (hthr : s.sunz_threshold = fin thr) :
    ∃ (out : NirOut XF) (s' : Nir XF) (r : Pixel → XF), reflectance nc sc s = (.ok out, s') ∧
      out.values = ⟨sc.shape, sc.pixels.map r⟩ ∧
      ∀ p ∈ sc.pixels, ∀ q ∈ sc.pixels, ∀ z t u a b ρ σ : ℝ, p.zenith = fin z → q.zenith = fin z →
        p.therm = fin t → q.therm = fin t → p.co2 = fin u → q.co2 = fin u → 1e-6 < t →
        p.nir = fin a → q.nir = fin b → 1e-6 < a → a < b → r p = fin ρ → r q = fin σ → ρ < σ := by
  obtain ⟨out, h1, h2⟩ := reflectance_run s nc sc _ h
  refine ⟨out, _, _, h1, h2, ?_⟩
  intro p _ q _ z t u a b ρ σ hz hz' ht ht' hu hu' ht0 hp hq ha hab hr hr'
  have hI := hc.integral
  have hA := hb.integral
  have t0 : t ≠ 0 := by intro h0; rw [h0] at ht0; norm_num at ht0
  have hlt := directFn_fin hc hb ht0
  have hla := directFn_fin hc hb ha
  have hlb := directFn_fin hc hb (ha.trans hab)
  rw [hI, hflux, hthr, pxValue_fin (trap w resp) flux thr z _ _ t u _ _ sc.useCo2 p hz (by rw [hp]; exact hla)
    (by rw [ht]; exact hlt) (fun _ => ⟨ht, hu, t0⟩)] at hr
  rw [hI, hflux, hthr, pxValue_fin (trap w resp) flux thr z _ _ t u _ _ sc.useCo2 q hz' (by rw [hq]; exact hlb)
    (by rw [ht']; exact hlt) (fun _ => ⟨ht', hu', t0⟩)] at hr'
  split at hr
  · simp at hr
  · rename_i hcond
    push Not at hcond
    have hd := lt_of_lt_of_le (by norm_num : (0:ℝ) < 0.005) hcond.1
    rw [if_neg (by
      have h3 : pxZenith s.masking_limit q = pxZenith s.masking_limit p := by
        unfold pxZenith; rw [hz, hz']
      rw [h3, hq]
      rw [hp] at hcond
      push Not; exact hcond)] at hr'
    injection hr with hr
    injection hr' with hr'
    rw [← hr, ← hr', div_lt_div_iff_of_pos_right hd]
    have hbi := bandInt_lt s.conv.wavespace hb hc.len (lt_trans (by norm_num) ha) hab
    have : bandInt s.conv.wavespace w resp a / trap w resp * trap w resp <
        bandInt s.conv.wavespace w resp b / trap w resp * trap w resp := by
      rw [div_mul_cancel₀ _ hA.ne', div_mul_cancel₀ _ hA.ne']; exact hbi
    linarith

/-! ### A concrete object -/

/-- a calculator for a three-sample band with response integral 1e-6 and a two-entry table -/
noncomputable def exNir : Nir XF :=
  { conv := { exConv with rsr := [("ch4", [("det-1", [("central_wavelength", .num (fin 3.7))])])] }
    bandname := "ch4", bandwavelength := fin 3.7, lutfile := "/tmp/x.npz"
    lut := some ⟨[fin 150, fin 150.1], [fin 1e5, fin 2e5]⟩
    masking_limit := some (fin 85), solar_flux := fin Real.pi, sunz_threshold := fin 85
    e3x := none, r3x := none, rad3x := none, rad3x_t11 := none, rad3x_correction := Arr.scalar 1.0
    solar_radiance := none }

theorem truncR_int (n : ℤ) (hn : 0 ≤ n) : truncR (n : ℝ) = n := by
  unfold truncR
  rw [if_pos (by exact_mod_cast hn), Int.floor_intCast]

theorem exScale : exNir.conv.tb_scale = fin 10 := by
  show (1.0 : XF) / fin 0.1 = _
  rw [ofSci_eq, fin_div _ (by norm_num)]; norm_num

theorem exGoodLut : GoodLut exNir.conv.tb_scale ⟨[fin 150, fin 150.1], [fin 1e5, fin 2e5]⟩ 1500 := by
  refine ⟨by simp, ⟨fin 150, [fin 150.1], rfl, ?_⟩, by norm_num, by norm_num⟩
  rw [exScale, fin_mul, trunc_fin, show (150 : ℝ) * 10 = ((1500 : ℤ) : ℝ) by norm_num, truncR_int _ (by norm_num)]

/-- the conversion of the example -/
noncomputable abbrev exR (nc : Int) : XF → XF := lutFn nc exNir.conv.tb_scale 1500 [fin 1e5, fin 2e5]

theorem exR_cold (nc : Int) : exR nc (fin 100) = fin 1e5 := by
  unfold exR lutFn
  rw [exScale, fin_mul, NP.castInt16, trunc_fin, show (100 : ℝ) * 10 = ((1000 : ℤ) : ℝ) by norm_num,
    truncR_int _ (by norm_num)]
  rfl
theorem exR_hot (nc : Int) : exR nc (fin 400) = fin 2e5 := by
  unfold exR lutFn
  rw [exScale, fin_mul, NP.castInt16, trunc_fin, show (400 : ℝ) * 10 = ((4000 : ℤ) : ℝ) by norm_num,
    truncR_int _ (by norm_num)]
  rfl

/-- one day pixel -/
noncomputable def exPixel : Pixel := ⟨fin 0, fin 400, fin 100, fin 100⟩
/-- a 2x1 image: a day pixel and one with a missing 3.x temperature -/
noncomputable def exScene : Scene :=
  ⟨[2, 1], [exPixel, { exPixel with nir := XF.nan }], .numpy, .masked, .dask, .numpy, false, none⟩

theorem exNirUsable (nc : Int) : NirUsable exNir nc exScene (exR nc) :=
  ⟨by simp [exNir], by simp [exScene], by simp [exScene], converts_lut exNir.conv nc _ 1500 exGoodLut, Or.inl rfl⟩

theorem exIntegral : exNir.conv.rsr_integral = fin 1e-6 := by
  show fin (trap [10e-6, 11e-6, 12e-6] [0, 1, 0]) = _
  congr 1
  simp [trap]; norm_num

theorem exSunlight : sunlight Real.pi 85 0 = 1 := by
  unfold sunlight
  norm_num

/-- the day pixel has a reflectance between 0 and 1 -/
example (nc : Int) : ∃ (out : NirOut XF) (s' : Nir XF) (r : Pixel → XF), reflectance nc exScene exNir = (.ok out, s') ∧
    out.values = ⟨[2, 1], [r exPixel, r { exPixel with nir := XF.nan }]⟩ ∧
    ∀ ρ : ℝ, r exPixel = fin ρ → 0 ≤ ρ ∧ ρ ≤ 1 := by
  obtain ⟨out, s', r, h1, h2, h3⟩ := C72_unit_interval exNir nc exScene _ (exNirUsable nc) 1e-6 Real.pi 85 exIntegral rfl rfl
  refine ⟨out, s', r, h1, h2, fun ρ hρ => ?_⟩
  obtain ⟨h4, h5⟩ := h3 exPixel (by simp [exScene]) ρ 0 2e5 1e5 100 100 hρ rfl (exR_hot nc) (exR_cold nc)
    (by simp [exScene])
  refine ⟨h4.2 ?_, h5.2 ?_⟩
  · simp [exScene]; norm_num
  · rw [exSunlight]; norm_num

/-- the example of C70, C71: the day pixel has reflectance 1/9, the other one is NaN -/
example (nc : Int) : ∃ (out : NirOut XF) (s' : Nir XF), reflectance nc exScene exNir = (.ok out, s') ∧
    out.values = ⟨[2, 1], [fin (1 / 9), XF.nan]⟩ := by
  obtain ⟨out, s', r, h1, h2, h3⟩ := C70_radiance_balance exNir nc exScene _ (exNirUsable nc) 1e-6 Real.pi 85
    exIntegral rfl rfl
  obtain ⟨out2, s2, r2, g1, g2, g3⟩ := C71_masked exNir nc exScene _ (exNirUsable nc) 1e-6 Real.pi 85
    exIntegral rfl rfl
  obtain ⟨out3, s3, r3, k1, k2, k3⟩ := C71_not_masked exNir nc exScene _ (exNirUsable nc) 1e-6 Real.pi 85
    exIntegral rfl rfl
  rw [h1] at g1 k1
  cases g1; cases k1
  have e2 := g2.symm.trans h2
  have e3 := k2.symm.trans h2
  simp only [exScene, List.map_cons, List.map_nil, Arr.mk.injEq, List.cons.injEq] at e2 e3
  obtain ⟨ρ, hρ⟩ := k3 exPixel (by simp [exScene]) 0 2e5 1e5 100 100 rfl rfl (exR_hot nc) (exR_cold nc)
    (by intro h; simp [exScene] at h) (Or.inr ⟨85, rfl, by norm_num, by norm_num⟩)
    (by rw [exSunlight]; simp [exScene]; norm_num)
  have hb := h3 exPixel (by simp [exScene]) ρ 0 2e5 1e5 100 100 (by rw [← e3.2.1, hρ]) rfl (exR_hot nc) (exR_cold nc)
    (by intro h; simp [exScene] at h)
  rw [exSunlight] at hb
  simp [exScene] at hb
  refine ⟨out, s', h1, ?_⟩
  rw [h2]
  have hr : r exPixel = fin (1 / 9) := by
    rw [← e3.2.1, hρ]; congr 1; linarith
  have hn : r { exPixel with nir := XF.nan } = XF.nan := by
    rw [← e2.2.2.1]; exact (g3 _ (by simp [exScene])).1 rfl
  simp [exScene, hr, hn]

/-! ### C73 -/

/-- C73 fails with a table: whatever value NaN is cast to, a missing thermal temperature is looked
up as some table entry, and a sunlit pixel gets a finite reflectance. -/
theorem C73_missing_thermal_hidden (s : Nir XF) (nc : Int) (sc : Scene) (lut : Lut XF) (start : Int)
    (hlut : sc.lut.getD s.lut = some lut) (hgood : GoodLut s.conv.tb_scale lut start)
    (hrsr : s.conv.rsr ≠ []) (hpx : sc.pixels ≠ []) (hsh : sc.shape ≠ []) (hco2 : sc.useCo2 = false)
    (I flux thr m : ℝ) (hI : s.conv.rsr_integral = fin I) (hflux : s.solar_flux = fin flux)
    (hthr : s.sunz_threshold = fin thr)
    (hfin : ∀ x ∈ lut.radiance, ∃ v : ℝ, x = fin v ∧ v * I ≤ m) :
    ∃ (out : NirOut XF) (s' : Nir XF) (r : Pixel → XF), reflectance nc sc s = (.ok out, s') ∧
      out.values = ⟨sc.shape, sc.pixels.map r⟩ ∧
      ∀ p ∈ sc.pixels, ∀ z : ℝ, p.therm = XF.nan → p.zenith = fin z → isNaN p.nir = false →
        (s.masking_limit = none ∨ ∃ lim : ℝ, s.masking_limit = some (fin lim) ∧ 0 ≤ z ∧ z ≤ lim) →
        m + 0.005 ≤ sunlight flux thr z → ∃ ρ : ℝ, r p = fin ρ := by
  have hu : NirUsable s nc sc (lutFn nc s.conv.tb_scale start lut.radiance) :=
    ⟨hrsr, hpx, hsh, by rw [hlut]; exact converts_lut s.conv nc lut start hgood, Or.inl (by rw [hlut]; rfl)⟩
  obtain ⟨out, s', r, h1, h2, h3⟩ := C71_not_masked s nc sc _ hu I flux thr hI hflux hthr
  refine ⟨out, s', r, h1, h2, ?_⟩
  intro p hp z ht hz hn hl hs
  obtain ⟨a, ha, _⟩ := hfin _ (lutFn_mem nc s.conv.tb_scale start lut.radiance hgood.rad p.nir)
  obtain ⟨b, hb, hbm⟩ := hfin _ (lutFn_mem nc s.conv.tb_scale start lut.radiance hgood.rad p.therm)
  exact h3 p hp z a b 0 0 hz hn ha hb (by rw [hco2]; simp) hl (by rw [hco2]; simp; norm_num at hs ⊢; linarith)

example (nc : Int) : ∃ (out : NirOut XF) (s' : Nir XF) (ρ : ℝ),
    reflectance nc ⟨[1], [⟨fin 0, fin 400, XF.nan, fin 0⟩], .numpy, .numpy, .numpy, .numpy, false, none⟩ exNir =
      (.ok out, s') ∧ out.values = ⟨[1], [fin ρ]⟩ := by
  obtain ⟨out, s', r, h1, h2, h3⟩ := C73_missing_thermal_hidden exNir nc
    ⟨[1], [⟨fin 0, fin 400, XF.nan, fin 0⟩], .numpy, .numpy, .numpy, .numpy, false, none⟩
    ⟨[fin 150, fin 150.1], [fin 1e5, fin 2e5]⟩ 1500 rfl exGoodLut (by simp [exNir]) (by simp) (by simp) rfl
    1e-6 Real.pi 85 0.2 exIntegral rfl rfl (by
      intro x hx
      simp at hx
      rcases hx with rfl | rfl
      · exact ⟨_, rfl, by norm_num⟩
      · exact ⟨_, rfl, by norm_num⟩)
  obtain ⟨ρ, hρ⟩ := h3 _ (List.mem_singleton.2 rfl) 0 rfl rfl rfl (Or.inr ⟨85, rfl, by norm_num, by norm_num⟩)
    (by rw [exSunlight]; norm_num)
  exact ⟨out, s', ρ, h1, by rw [h2]; simp [hρ]⟩

/-- C73: without a table, or with the CO2 band, a missing thermal temperature gives a missing
reflectance.  Missing: the conversion by table without the CO2 band, where this is false. -/
theorem C73_missing_thermal_partial (s : Nir XF) (nc : Int) (sc : Scene) (R : XF → XF) (h : NirUsable s nc sc R)
    (hmode : sc.useCo2 = true ∨ ∃ w resp : List ℝ, Loaded s.conv w resp ∧ GoodBand w resp ∧ R = directFn s.conv) :
    ∃ (out : NirOut XF) (s' : Nir XF) (r : Pixel → XF), reflectance nc sc s = (.ok out, s') ∧
      out.values = ⟨sc.shape, sc.pixels.map r⟩ ∧ ∀ p ∈ sc.pixels, p.therm = XF.nan → r p = XF.nan := by
  obtain ⟨out, h1, h2⟩ := reflectance_run s nc sc R h
  refine ⟨out, _, _, h1, h2, ?_⟩
  intro p _ hp
  have ht : pxTherm s.conv.rsr_integral R sc.useCo2 p = XF.nan := by
    unfold pxTherm
    rcases hmode with hm | ⟨w, resp, hc, hb, rfl⟩
    · have : pxCorr sc.useCo2 p = XF.nan := by
        rw [hm]
        unfold pxCorr
        rw [if_pos rfl, hp, nan_sub]
        have h4 : ∀ n, powNat (XF.nan : XF) (n + 1) = XF.nan := fun n => mul_nan _
        rw [h4]; exact div_nan _
      rw [this, mul_nan]
    · rw [hp, directFn_nan hc hb, nan_mul, nan_mul]
  unfold pxValue
  split
  · rfl
  · rw [ht, sub_nan, nan_div]

example : ∃ (out : NirOut XF) (s' : Nir XF),
    reflectance 0 ⟨[1], [⟨fin 0, fin 400, XF.nan, fin 250⟩], .numpy, .numpy, .numpy, .numpy, true, none⟩ exNir =
      (.ok out, s') ∧ out.values = ⟨[1], [XF.nan]⟩ := by
  obtain ⟨out, s', r, h1, h2, h3⟩ := C73_missing_thermal_partial exNir 0
    ⟨[1], [⟨fin 0, fin 400, XF.nan, fin 250⟩], .numpy, .numpy, .numpy, .numpy, true, none⟩ (exR 0)
    ⟨by simp [exNir], by simp, by simp, converts_lut exNir.conv 0 _ 1500 exGoodLut, Or.inl rfl⟩ (Or.inl rfl)
  exact ⟨out, s', h1, by rw [h2]; simp [h3 _ (List.mem_singleton.2 rfl) rfl]⟩

/-! ### C74 -/

section history
variable {α : Type} [PyNum α]

/-- A call on a calculator. -/
inductive NirCall (α : Type) where
  | reflectance (sun_zenith tb_near_ir tb_thermal : NirIn α) (tb_ir_co2 : Option (NirIn α))
      (lut : Option (Option (Lut α)))
  | correction (bt11 bt13 : Arr α) (method : String)
  | emissive (tb : Bool)

/-- the state of the object after a call (whether or not it raised) -/
def NirCall.run (nc : Int) (s : Nir α) : NirCall α → Nir α
  | .reflectance z n t c l => (Nir.reflectanceFromTbs nc z n t c l s).2
  | .correction a b m => (Nir.deriveRad39Corr a b m s).2
  | .emissive tb => (Nir.emissivePart3x tb s).2

theorem reflectance_settings (nc : Int) (z n t : NirIn α) (c : Option (NirIn α)) (l : Option (Option (Lut α)))
    (s s' : Nir α) (h : SameSettings s s') :
    (Nir.reflectanceFromTbs nc z n t c l s').1 = (Nir.reflectanceFromTbs nc z n t c l s).1 ∧
    SameSettings s (Nir.reflectanceFromTbs nc z n t c l s).2 := by
  unfold Nir.reflectanceFromTbs
  rw [st_bind_ok (st_get s), st_bind_ok (st_get s'), h.conv, h.lut]
  split
  · exact ⟨rfl, SameSettings.refl s⟩
  split
  · exact ⟨rfl, SameSettings.refl s⟩
  · obtain ⟨h1, h2⟩ := retrieve_run s nc (l.getD s.lut) z.asArray n.asArray t.asArray (c.map NirIn.asArray)
    obtain ⟨h3, h4⟩ := retrieve_run s' nc (l.getD s.lut) z.asArray n.asArray t.asArray (c.map NirIn.asArray)
    rw [retrieved_same h, ← h1] at h3
    rcases e1 : Nir.retrieve nc (l.getD s.lut) z.asArray n.asArray t.asArray (c.map NirIn.asArray) s with ⟨r, u⟩
    rcases e2 : Nir.retrieve nc (l.getD s.lut) z.asArray n.asArray t.asArray (c.map NirIn.asArray) s' with ⟨r', u'⟩
    rw [e1, e2] at h3
    rw [e1] at h2
    simp only at h3 h2
    subst h3
    cases r' with
    | error e => rw [st_bind_error e1, st_bind_error e2]; exact ⟨rfl, h2⟩
    | ok v => rw [st_bind_ok e1, st_bind_ok e2]; exact ⟨rfl, h2⟩

theorem emissive_settings (tb : Bool) (s : Nir α) : SameSettings s (Nir.emissivePart3x tb s).2 := by
  have key : ∀ (m : PySt (Nir α) Unit) (f : Unit → PySt (Nir α) (Option (Arr α))) (u : Nir α),
      SameSettings u (m u).2 → (∀ v, SameSettings v (f () v).2) → SameSettings u ((m >>= f) u).2 := by
    intro m f u h1 h2
    rcases e : m u with ⟨r, v⟩
    rw [e] at h1
    cases r with
    | error x => rw [st_bind_error e]; exact h1
    | ok a => rw [st_bind_ok e]; exact h1.trans (h2 v)
  unfold Nir.emissivePart3x
  rw [st_bind_ok (st_get s)]
  apply key
  · cases s.rad3x_t11 with
    | none => exact SameSettings.refl s
    | some t11 =>
    cases s.r3x with
    | none => exact SameSettings.refl s
    | some r =>
    cases s.rad3x with
    | none => exact SameSettings.refl s
    | some rad =>
      show SameSettings s (Nir.setEmissive t11 r rad s).2
      unfold Nir.setEmissive
      cases h1 : t11.bcast (· * ·) (r.map (1 - ·)) with
      | error e => exact SameSettings.refl s
      | ok e =>
        show SameSettings s (PySt.bind _ _ _).2
        rw [show ∀ (f : Arr α → PySt (Nir α) Unit), PySt.bind (PySt.lift (.ok e)) f s = f e s from fun _ => rfl]
        rw [st_bind_ok (st_modify _ s)]
        cases h2 : (e.map fun v => (isNaN v, v)).bcast (fun p x => if p.1 then x else p.2) rad with
        | error e => exact ⟨rfl, rfl, rfl, rfl, rfl, rfl⟩
        | ok v => exact ⟨rfl, rfl, rfl, rfl, rfl, rfl⟩
  · intro v
    rw [st_bind_ok (st_get v)]
    have nochange : ∀ {β γ : Type} (p : Py β) (f : β → PySt (Nir α) γ) , (∀ b, (f b v).2 = v) →
        ((PySt.lift p >>= f) v).2 = v := by
      intro β γ p f hf
      cases p with
      | error e => rfl
      | ok b => exact hf b
    have : ∀ x : Nir α, x = v → SameSettings v x := fun x hx => hx ▸ SameSettings.refl v
    apply this
    split
    · cases v.e3x with
      | some e =>
        apply nochange
        intro b
        cases b <;> rfl
      | none =>
        apply nochange; intro b
        apply nochange; intro d
        apply nochange; intro _
        rfl
    · rfl

/-- C74: the result of a retrieval, or the exception it raises, does not depend on the calls made
before on the same object: retrievals with other data, tables or the CO2 band, corrections,
emissive parts, whether or not they raised. -/
theorem C74_history_independent (nc : Int) (s : Nir α) (calls : List (NirCall α)) (z n t : NirIn α)
    (c : Option (NirIn α)) (l : Option (Option (Lut α))) :
    (Nir.reflectanceFromTbs nc z n t c l (calls.foldl (NirCall.run nc) s)).1 =
      (Nir.reflectanceFromTbs nc z n t c l s).1 := by
  have h : ∀ (calls : List (NirCall α)) (u : Nir α), SameSettings u (calls.foldl (NirCall.run nc) u) := by
    intro calls
    induction calls with
    | nil => exact SameSettings.refl
    | cons x xs ih =>
      intro u
      refine SameSettings.trans ?_ (ih _)
      cases x with
      | reflectance z n t c l => exact (reflectance_settings nc z n t c l u u (SameSettings.refl u)).2
      | correction a b m => exact derive_run a b m u
      | emissive tb => exact emissive_settings tb u
  exact (reflectance_settings nc z n t c l s _ (h calls s)).1

end history

/-- a CO2-corrected retrieval, then one without: as if the first had not happened -/
example (nc : Int) : (reflectance nc exScene (NirCall.run nc exNir
      (.reflectance (.scalar (fin 0)) (.scalar (fin 300)) (.scalar (fin 290)) (some (.scalar (fin 250))) none))).1 =
    (reflectance nc exScene exNir).1 :=
  C74_history_independent nc exNir [.reflectance (.scalar (fin 0)) (.scalar (fin 300)) (.scalar (fin 290))
    (some (.scalar (fin 250))) none] _ _ _ _ _

/-! ### C75 -/

/-- C75: the correction is the fourth power of `(3*bt11 + bt13) / (4*bt11)`, for all non-zero
`bt11`; other methods raise AttributeError and change nothing. -/
theorem C75_correction (s : Nir XF) (sh : List Nat) (ts : List (ℝ × ℝ)) (hne : ∀ p ∈ ts, p.1 ≠ 0) :
    (∃ s', Nir.deriveRad39Corr ⟨sh, ts.map fun p => fin p.1⟩ ⟨sh, ts.map fun p => fin p.2⟩ "rosenfeld" s = (.ok (), s') ∧
      s'.rad3x_correction = ⟨sh, ts.map fun p => fin (co2Factor p.1 p.2)⟩) ∧
    ∀ m, m ≠ "rosenfeld" → Nir.deriveRad39Corr ⟨sh, ts.map fun p => fin p.1⟩ ⟨sh, ts.map fun p => fin p.2⟩ m s =
      (.error .attributeError, s) := by
  constructor
  · have h := rad39Corr_px sh (ts.map fun p => (⟨fin 0, fin 0, fin p.1, fin p.2⟩ : Pixel))
    simp only [List.map_map, Function.comp_def] at h
    have h2 : (ts.map fun p => pxCorr true ⟨fin 0, fin 0, fin p.1, fin p.2⟩) =
        ts.map fun p => fin (co2Factor p.1 p.2) := by
      apply List.map_congr_left
      intro p hp
      rw [pxCorr_fin true _ p.1 p.2 (fun _ => ⟨rfl, rfl, hne p hp⟩)]
      rfl
    rw [h2] at h
    unfold Nir.deriveRad39Corr
    rw [if_neg (by simp), st_bind_ok (st_lift_ok h s)]
    exact ⟨_, rfl, rfl⟩
  · intro m hm
    unfold Nir.deriveRad39Corr
    rw [if_pos hm]
    rfl

example : ∃ s', Nir.deriveRad39Corr ⟨[2], [fin 280, fin 200]⟩ ⟨[2], [fin 250, fin 210]⟩ "rosenfeld" exNir = (.ok (), s') ∧
    s'.rad3x_correction = ⟨[2], [fin (co2Factor 280 250), fin (co2Factor 200 210)]⟩ :=
  (C75_correction exNir [2] [(280, 250), (200, 210)] (by simp)).1

/-- C75: the factor is 1 exactly for equal positive temperatures, lies in (0, 1) when the CO2
band is colder, and grows with the temperature of the CO2 band. -/
theorem C75_factor (t u v : ℝ) (ht : 0 < t) (hu : 0 < u) (hv : 0 < v) :
    (co2Factor t u = 1 ↔ u = t) ∧ (u < t → 0 < co2Factor t u ∧ co2Factor t u < 1) ∧
      (u < v → co2Factor t u < co2Factor t v) := by
  have hp : 0 < (3 * t + u) / (4 * t) := by positivity
  refine ⟨?_, ?_, ?_⟩
  · constructor
    · intro h
      unfold co2Factor at h
      have := (pow_eq_one_iff_of_nonneg hp.le (by norm_num : 4 ≠ 0)).1 h
      rw [div_eq_one_iff_eq (by positivity)] at this
      linarith
    · rintro rfl
      unfold co2Factor
      rw [show (3 * u + u) / (4 * u) = 1 by field_simp; ring]
      norm_num
  · intro h
    constructor
    · unfold co2Factor; positivity
    · unfold co2Factor
      exact pow_lt_one₀ hp.le (by rw [div_lt_one (by positivity)]; linarith) (by norm_num)
  · intro h
    unfold co2Factor
    apply pow_lt_pow_left₀ _ hp.le (by norm_num)
    rw [div_lt_div_iff_of_pos_right (by positivity)]
    linarith

example : co2Factor 280 250 < 1 := ((C75_factor 280 250 250 (by norm_num) (by norm_num) (by norm_num)).2.1 (by norm_num)).2

/-! ### C76 -/

/-- the emissive part of a pixel as computed -/
def pxEmissive {α : Type} [PyNum α] (s : Nir α) (R : α → α) (useCo2 : Bool) (p : Pixel α) : α :=
  if isNaN (R p.therm * (1 - pxValue s.conv.rsr_integral s.solar_flux s.sunz_threshold s.masking_limit R useCo2 p))
  then R p.nir
  else R p.therm * (1 - pxValue s.conv.rsr_integral s.solar_flux s.sunz_threshold s.masking_limit R useCo2 p)

theorem setEmissive_run {α : Type} [PyNum α] (s : Nir α) (R : α → α) (useCo2 : Bool) (sh : List Nat) (px : List (Pixel α)) :
    Nir.setEmissive ⟨sh, px.map fun p => R p.therm⟩
      ⟨sh, px.map (pxValue s.conv.rsr_integral s.solar_flux s.sunz_threshold s.masking_limit R useCo2)⟩
      ⟨sh, px.map fun p => R p.nir⟩ (afterRetrieval s R useCo2 sh px) =
      (.ok (), { afterRetrieval s R useCo2 sh px with e3x := some ⟨sh, px.map (pxEmissive s R useCo2)⟩ }) := by
  unfold Nir.setEmissive
  rw [map_px, bcast_px]
  rw [st_bind_ok (st_lift_ok rfl _), st_bind_ok (st_modify _ _), map_px, bcast_px,
    st_bind_ok (st_lift_ok rfl _)]
  rfl

/-- what `emissive_part_3x` computes -/
theorem emissive_run {α : Type} [PyNum α] (s : Nir α) (R : α → α) (useCo2 : Bool) (sh : List Nat) (px : List (Pixel α)) :
    ∃ s', Nir.emissivePart3x false (afterRetrieval s R useCo2 sh px) =
      (.ok (some ⟨sh, px.map (pxEmissive s R useCo2)⟩), s') := by
  unfold Nir.emissivePart3x
  rw [st_bind_ok (st_get _), st_bind_ok (a := ()) (by exact setEmissive_run s R useCo2 sh px), st_bind_ok (st_get _)]
  exact ⟨_, rfl⟩

/-- what `emissive_part_3x` computes as temperatures -/
theorem emissive_tb_run {α : Type} [PyNum α] (s : Nir α) (R : α → α) (useCo2 : Bool) (sh : List Nat) (px : List (Pixel α)) (ys : List α)
    (h : s.conv.radiance2tb [] (.nd (px.map (pxEmissive s R useCo2))) = .ok (.nd ys)) :
    ∃ s', Nir.emissivePart3x true (afterRetrieval s R useCo2 sh px) = (.ok (some ⟨sh, ys⟩), s') := by
  unfold Nir.emissivePart3x
  rw [st_bind_ok (st_get _), st_bind_ok (a := ()) (by exact setEmissive_run s R useCo2 sh px), st_bind_ok (st_get _)]
  rw [if_pos rfl]
  dsimp only
  rw [st_bind_ok (a := .nd ys) (by exact st_lift_ok h _)]
  exact ⟨_, rfl⟩

/-- C76: after a retrieval, the emissive part (as a radiance) of a pixel is the thermal radiance
times one minus the reflectance where there is a reflectance, the observed radiance where there is
none (NaN), and without the CO2 band reflected sunlight and emissive part add up to the observed
band radiance. -/
theorem C76_emissive (s : Nir XF) (nc : Int) (sc : Scene) (R : XF → XF) (h : NirUsable s nc sc R)
    (I flux thr : ℝ) (hI : s.conv.rsr_integral = fin I) (hflux : s.solar_flux = fin flux)
    (hthr : s.sunz_threshold = fin thr) :
    ∃ (out : NirOut XF) (s' s'' : Nir XF) (r e : Pixel → XF), reflectance nc sc s = (.ok out, s') ∧
      out.values = ⟨sc.shape, sc.pixels.map r⟩ ∧
      Nir.emissivePart3x false s' = (.ok (some ⟨sc.shape, sc.pixels.map e⟩), s'') ∧
      ∀ p ∈ sc.pixels,
        (r p = XF.nan → e p = R p.nir) ∧
        (∀ ρ lt : ℝ, r p = fin ρ → R p.therm = fin lt → e p = fin (lt * (1 - ρ))) ∧
        (∀ z ln lt ρ ε : ℝ, sc.useCo2 = false → p.zenith = fin z → R p.nir = fin ln → R p.therm = fin lt →
          r p = fin ρ → e p = fin ε → ρ * sunlight flux thr z + ε * I = ln * I) := by
  obtain ⟨out, h1, h2⟩ := reflectance_run s nc sc R h
  obtain ⟨s'', h3⟩ := emissive_run s R sc.useCo2 sc.shape sc.pixels
  obtain ⟨out', s1, r', g1, g2, g3⟩ := C70_radiance_balance s nc sc R h I flux thr hI hflux hthr
  rw [h1] at g1
  cases g1
  have hr : ∀ p ∈ sc.pixels, r' p = pxValue s.conv.rsr_integral s.solar_flux s.sunz_threshold s.masking_limit R sc.useCo2 p := by
    have := g2.symm.trans h2
    simp only [Arr.mk.injEq, true_and] at this
    exact fun p hp => (List.map_inj_left.1 this) p hp
  have hsecond : ∀ p, ∀ ρ lt : ℝ, pxValue s.conv.rsr_integral s.solar_flux s.sunz_threshold s.masking_limit R sc.useCo2 p = fin ρ →
      R p.therm = fin lt → (R p.therm * (1 - pxValue s.conv.rsr_integral s.solar_flux s.sunz_threshold s.masking_limit R
        sc.useCo2 p)) = fin (lt * (1 - ρ)) := by
    intro p ρ lt hρ hlt
    rw [hρ, hlt]; simp
  refine ⟨out, _, s'', _, _, h1, h2, h3, ?_⟩
  intro p hp
  refine ⟨?_, ?_, ?_⟩
  · intro hn
    unfold pxEmissive
    rw [if_pos]
    rw [hn, sub_nan, mul_nan]; rfl
  · intro ρ lt hρ hlt
    unfold pxEmissive
    rw [hsecond p ρ lt hρ hlt]; rfl
  · intro z ln lt ρ ε hco hz hn hlt hρ hε
    unfold pxEmissive at hε
    rw [hsecond p ρ lt hρ hlt] at hε
    have hε' : lt * (1 - ρ) = ε := by
      have : (fin (lt * (1 - ρ)) : XF) = fin ε := hε
      injection this
    have := g3 p hp ρ z ln lt 0 0 (by rw [hr p hp]; exact hρ) hz hn hlt (by rw [hco]; simp)
    rw [hco] at this
    simp at this
    rw [this, ← hε']
    ring

example (nc : Int) : ∃ (s' s'' : Nir XF) (out : NirOut XF), reflectance nc exScene exNir = (.ok out, s') ∧
    ∃ x, Nir.emissivePart3x false s' = (.ok (some ⟨[2, 1], [x, exR nc XF.nan]⟩), s'') := by
  obtain ⟨out, s', s'', r, e, h1, h2, h3, h4⟩ := C76_emissive exNir nc exScene _ (exNirUsable nc) 1e-6 Real.pi 85
    exIntegral rfl rfl
  obtain ⟨out2, s2, r2, g1, g2, g3⟩ := C71_masked exNir nc exScene _ (exNirUsable nc) 1e-6 Real.pi 85
    exIntegral rfl rfl
  rw [h1] at g1
  cases g1
  refine ⟨s', s'', out, h1, e exPixel, ?_⟩
  rw [h3]
  have e2 := g2.symm.trans h2
  simp only [exScene, List.map_cons, List.map_nil, Arr.mk.injEq, List.cons.injEq] at e2
  have := (h4 { exPixel with nir := XF.nan } (by simp [exScene])).1
    (by rw [← e2.2.2.1]; exact (g3 _ (by simp [exScene])).1 rfl)
  simp [exScene, this]

/-- C76: with `tb=True` the emissive part is returned as brightness temperatures: the one
temperature at which a black body at the band's central wavelength has that radiance. -/
theorem C76_emissive_temperature (s : Nir XF) (nc : Int) (sc : Scene) (R : XF → XF) (h : NirUsable s nc sc R)
    (b : BandRsr XF) (det : DetRsr XF) (cw : ℝ)
    (hb : converterLookup s.conv.wavespace s.conv.rsrInstrument s.conv.rsr s.conv.bandname = .ok b)
    (hd : Dict.getItem b s.conv.detector = .ok det)
    (hcw : Dict.getItem det "central_wavelength" = .ok (.num (fin cw))) (hpos : 0 < cw) :
    ∃ (out : NirOut XF) (s' s1 s2 : Nir XF) (e T : Pixel → XF), reflectance nc sc s = (.ok out, s') ∧
      Nir.emissivePart3x false s' = (.ok (some ⟨sc.shape, sc.pixels.map e⟩), s1) ∧
      Nir.emissivePart3x true s' = (.ok (some ⟨sc.shape, sc.pixels.map T⟩), s2) ∧
      ∀ p ∈ sc.pixels, ∀ ε : ℝ, e p = fin ε → 0 < ε →
        ∃ t : ℝ, T p = fin t ∧ 0 < t ∧ planckWavelength (cw * 1e-6) t = ε := by
  have hl : 0 < cw * 1e-6 := mul_pos hpos (by norm_num)
  obtain ⟨out, h1, h2⟩ := reflectance_run s nc sc R h
  obtain ⟨s1, h3⟩ := emissive_run s R sc.useCo2 sc.shape sc.pixels
  have hg : getNum det "central_wavelength" = .ok (fin cw) := by simp [getNum, hcw, bind, Except.bind]; rfl
  obtain ⟨s2, h4⟩ := emissive_tb_run s R sc.useCo2 sc.shape sc.pixels
    (sc.pixels.map fun p => rad2tempPoint (fin (cw * 1e-6)) (pxEmissive s R sc.useCo2 p)) (by
      simp only [RadTb.radiance2tb, hb, hd, hg, bind, Except.bind, ofSci_eq, fin_mul]
      show Except.ok (Val.nd (List.map _ _)) = _
      simp)
  refine ⟨out, _, s1, s2, _, _, h1, h3, h4, ?_⟩
  intro p _ ε he hε
  refine ⟨brightnessTemperature (cw * 1e-6) ε, ?_, bt_pos hl hε, planck_bt_wl hl hε⟩
  rw [he, rad2temp_fin hl hε]

example (nc : Int) : ∃ (out : NirOut XF) (s' s2 : Nir XF) (T : Pixel → XF), reflectance nc exScene exNir = (.ok out, s') ∧
      Nir.emissivePart3x true s' = (.ok (some ⟨[2, 1], exScene.pixels.map T⟩), s2) := by
  obtain ⟨out, s', s1, s2, e, T, h1, _, h3, _⟩ := C76_emissive_temperature exNir nc exScene _ (exNirUsable nc)
    [("det-1", [("central_wavelength", .num (fin 3.7))])] [("central_wavelength", .num (fin 3.7))] 3.7 rfl rfl rfl (by norm_num)
  exact ⟨out, s', s2, T, h1, h3⟩

/-! ### C77 -/

/-- C77 fails: on an object without a retrieval, the emissive part as temperature raises
AttributeError (KeyError if the band has no central wavelength). -/
theorem C77_temperature_raises {α : Type} [PyNum α] (s : Nir α) (hr : s.r3x = none) (he : s.e3x = none) :
    (∃ e, Nir.emissivePart3x true s = (.error e, s)) ∧
    ∀ (b : BandRsr α) (det : DetRsr α) (cw : α),
      converterLookup s.conv.wavespace s.conv.rsrInstrument s.conv.rsr s.conv.bandname = .ok b →
      Dict.getItem b s.conv.detector = .ok det → getNum det "central_wavelength" = .ok cw →
      Nir.emissivePart3x true s = (.error .attributeError, s) := by
  have h0 : ∀ tb, Nir.emissivePart3x tb s = (if tb then do
      let b ← PySt.lift (converterLookup s.conv.wavespace s.conv.rsrInstrument s.conv.rsr s.conv.bandname)
      let det ← PySt.lift (Dict.getItem b s.conv.detector)
      let _ ← PySt.lift (getNum det "central_wavelength")
      PySt.raise .attributeError
    else pure none : PySt (Nir α) (Option (Arr α))) s := by
    intro tb
    unfold Nir.emissivePart3x
    rw [st_bind_ok (st_get s), hr]
    rw [st_bind_ok (a := ()) (s' := s) (by cases s.rad3x_t11 <;> rfl), st_bind_ok (st_get s), he]
  rw [h0 true, if_pos rfl]
  constructor
  · cases converterLookup s.conv.wavespace s.conv.rsrInstrument s.conv.rsr s.conv.bandname with
    | error e => exact ⟨e, rfl⟩
    | ok b =>
      rw [st_bind_ok (st_lift_ok rfl s)]
      cases Dict.getItem b s.conv.detector with
      | error e => exact ⟨e, rfl⟩
      | ok det =>
        rw [st_bind_ok (st_lift_ok rfl s)]
        cases getNum det "central_wavelength" with
        | error e => exact ⟨e, rfl⟩
        | ok cw => exact ⟨_, rfl⟩
  · intro b det cw h1 h2 h3
    rw [st_bind_ok (st_lift_ok h1 s), st_bind_ok (st_lift_ok h2 s), st_bind_ok (st_lift_ok h3 s)]
    rfl

example : Nir.emissivePart3x true exNir = (.error .attributeError, exNir) :=
  (C77_temperature_raises exNir rfl rfl).2 [("det-1", [("central_wavelength", .num (fin 3.7))])]
    [("central_wavelength", .num (fin 3.7))] (fin 3.7) rfl rfl rfl

/-- C77: as a radiance it does not raise; it is None and the object is unchanged.  Missing: the
default `tb=True`, where the call raises. -/
theorem C77_radiance_partial {α : Type} [PyNum α] (s : Nir α) (hr : s.r3x = none) (he : s.e3x = none) :
    Nir.emissivePart3x false s = (.ok none, s) := by
  unfold Nir.emissivePart3x
  rw [st_bind_ok (st_get s), hr]
  rw [st_bind_ok (a := ()) (s' := s) (by cases s.rad3x_t11 <;> rfl), st_bind_ok (st_get s), he]
  rfl

example : Nir.emissivePart3x false exNir = (.ok none, exNir) := C77_radiance_partial exNir rfl rfl

/-! ### C81 -/

/-- C81: temperature arrays of different shapes raise ValueError and leave the object as it was. -/
theorem C81_shape_mismatch {α : Type} [PyNum α] (nc : Int) (s : Nir α) (z : NirIn α) (kn kt : ArrKind) (n t : Arr α)
    (c : Option (NirIn α)) (l : Option (Option (Lut α))) (hrsr : s.conv.rsr ≠ []) (h : t.shape ≠ n.shape) :
    Nir.reflectanceFromTbs nc z (.array kn n) (.array kt t) c l s = (.error .valueError, s) := by
  have hr : s.conv.rsr.isEmpty = false := by
    cases hh : s.conv.rsr <;> simp_all
  unfold Nir.reflectanceFromTbs
  rw [st_bind_ok (st_get s)]
  simp only [hr, Bool.false_eq_true, if_false, NirIn.asArray, ne_eq, h, not_false_eq_true, if_true]
  rfl

/-- C81: a scalar is the same as a one-element array. -/
theorem C81_scalars {α : Type} [PyNum α] (nc : Int) (s : Nir α) (z n t : α) (c : Option α) (l : Option (Option (Lut α))) :
    Nir.reflectanceFromTbs nc (.scalar z) (.scalar n) (.scalar t) (c.map .scalar) l s =
    Nir.reflectanceFromTbs nc (.array .numpy ⟨[1], [z]⟩) (.array .numpy ⟨[1], [n]⟩) (.array .numpy ⟨[1], [t]⟩)
      (c.map fun x => .array .numpy ⟨[1], [x]⟩) l s := by
  cases c <;> rfl

example : Nir.reflectanceFromTbs 0 (.scalar (fin 0)) (.array .numpy ⟨[2], [fin 300, fin 290]⟩)
    (.array .numpy ⟨[1, 2], [fin 280, fin 270]⟩) none none exNir = (.error .valueError, exNir) :=
  C81_shape_mismatch 0 exNir _ _ _ _ _ _ _ (by simp [exNir]) (by simp)

example : (Nir.reflectanceFromTbs 0 (.scalar (fin 0)) (.scalar (fin 400)) (.scalar (fin 100)) none none exNir).1 =
    (Nir.reflectanceFromTbs 0 (.array .numpy ⟨[1], [fin 0]⟩) (.array .numpy ⟨[1], [fin 400]⟩)
      (.array .numpy ⟨[1], [fin 100]⟩) none none exNir).1 :=
  congrArg Prod.fst (C81_scalars 0 exNir (fin 0) (fin 400) (fin 100) none none)

/-! ### C97 -/

theorem bcast_same {A B C : Type} (f : A → B → C) (sh : List Nat) (xs : List A) (ys : List B) :
    Arr.bcast f ⟨sh, xs⟩ ⟨sh, ys⟩ = .ok ⟨sh, List.zipWith f xs ys⟩ := if_pos rfl

theorem bcast_column {A B C : Type} (f : A → B → C) (a b : A) (c d : B) :
    Arr.bcast f ⟨[2, 1], [a, b]⟩ ⟨[2], [c, d]⟩ = .ok ⟨[2, 2], [f a c, f a d, f b c, f b d]⟩ := rfl

theorem bcast_row_square {A B C : Type} (f : A → B → C) (a b : A) (c d e g : B) :
    Arr.bcast f ⟨[2], [a, b]⟩ ⟨[2, 2], [c, d, e, g]⟩ = .ok ⟨[2, 2], [f a c, f b d, f a e, f b g]⟩ := rfl

theorem bcastOut_square {A B : Type} (f : A → B → B) (a b : A) (c d e g : B) :
    Arr.bcastOut f ⟨[2, 1], [a, b]⟩ ⟨[2, 2], [c, d, e, g]⟩ = .ok ⟨[2, 2], [f a c, f a d, f b e, f b g]⟩ := rfl

/-- C97 fails without a table: an image with at least two rows and two columns raises
ValueError, whatever the data. -/
theorem C97_images_without_table_fail (nc : Int) (s : Nir XF) (R : XF → XF) (hrsr : s.conv.rsr ≠ [])
    (hR : Converts s.conv nc none R) (rows cols : Nat) (h1 : 2 ≤ rows) (h2 : 2 ≤ cols) (px : List Pixel)
    (hlen : px.length = rows * cols) (kz kn kt kc : ArrKind) (useCo2 : Bool) :
    (reflectance nc ⟨[rows, cols], px, kz, kn, kt, kc, useCo2, some none⟩ s).1 = .error .valueError := by
  have hr : s.conv.rsr.isEmpty = false := by
    cases hh : s.conv.rsr <;> simp_all
  have hpx : px ≠ [] := by
    rintro rfl
    simp at hlen
    rcases hlen with h | h <;> omega
  have hn : cols ≠ rows * cols := by
    have : 2 * cols ≤ rows * cols := Nat.mul_le_mul_right _ h1
    omega
  have hn1 : rows * cols ≠ 1 := by
    have : 2 * cols ≤ rows * cols := Nat.mul_le_mul_right _ h1
    omega
  have hconv : ∀ g : Pixel → XF, tb2radianceArr s.conv nc ⟨[rows, cols], px.map g⟩ none =
      .ok ⟨[px.length], px.map fun p => R (g p)⟩ := by
    intro g
    have := tb2radianceArr_px hR [px.length] px hpx g (Or.inr rfl)
    unfold tb2radianceArr at this ⊢
    exact this
  have hbad : ∀ {A B C : Type} (f : A → B → C) (xs : List A) (ys : List B),
      Arr.bcast f ⟨[rows, cols], xs⟩ ⟨[px.length], ys⟩ = .error .valueError := by
    intro A B C f xs ys
    unfold Arr.bcast
    rw [if_neg (by simp)]
    simp [Arr.bshape, hlen, hn, hn1, show cols ≠ 1 by omega]
  have hbad' : ∀ {A B C : Type} (f : A → B → C) (xs : List A) (ys : List B),
      Arr.bcast f ⟨[px.length], xs⟩ ⟨[rows, cols], ys⟩ = .error .valueError := by
    intro A B C f xs ys
    unfold Arr.bcast
    rw [if_neg (by simp)]
    simp [Arr.bshape, hlen, hn, Ne.symm hn, hn1, show cols ≠ 1 by omega]
  have hret : retrieved s nc none ⟨[rows, cols], px.map Pixel.zenith⟩ ⟨[rows, cols], px.map Pixel.nir⟩
      ⟨[rows, cols], px.map Pixel.therm⟩ (if useCo2 then some ⟨[rows, cols], px.map Pixel.co2⟩ else none) =
      .error .valueError := by
    unfold retrieved
    rw [hconv, hconv]
    simp only [bind, Except.bind]
    cases useCo2 with
    | true =>
      simp only [if_true, corrOf, rad39Corr_px]
      unfold r3xOf
      simp only [Arr.map, hbad', bind, Except.bind]
    | false =>
      simp only [Bool.false_eq_true, if_false, corrOf]
      unfold r3xOf
      simp only [Arr.map, bind, Except.bind]
      rw [bcast_scalar_right _ _ _ _ (by simp)]
      dsimp only
      rw [bcast_same]
      dsimp only
      rw [hbad]
  unfold reflectance Nir.reflectanceFromTbs
  rw [st_bind_ok (st_get s)]
  simp only [hr, Bool.false_eq_true, if_false, NirIn.asArray, ne_eq, not_true_eq_false]
  have h2 : (Option.map NirIn.asArray (if useCo2 = true then
      some (NirIn.array kc ⟨[rows, cols], px.map Pixel.co2⟩) else none)) =
      (if useCo2 = true then some ⟨[rows, cols], px.map Pixel.co2⟩ else none) := by
    cases useCo2 <;> rfl
  rw [h2]
  have h3 := (retrieve_run s nc none ⟨[rows, cols], px.map Pixel.zenith⟩ ⟨[rows, cols], px.map Pixel.nir⟩
    ⟨[rows, cols], px.map Pixel.therm⟩ (if useCo2 then some ⟨[rows, cols], px.map Pixel.co2⟩ else none)).1
  rw [hret] at h3
  rcases e : Nir.retrieve nc none ⟨[rows, cols], px.map Pixel.zenith⟩ ⟨[rows, cols], px.map Pixel.nir⟩
    ⟨[rows, cols], px.map Pixel.therm⟩ (if useCo2 then some ⟨[rows, cols], px.map Pixel.co2⟩ else none) s with ⟨r, u⟩
  rw [e] at h3
  simp only at h3
  subst h3
  show ((Nir.retrieve nc none _ _ _ _ >>= _) s).1 = _
  rw [st_bind_error e]

theorem exConverts : Converts exNir.conv 0 none (directFn exNir.conv) :=
  converts_direct _ (by simp [exNir, exConv]) (by simp [exNir, exConv]) 0

/-- two pixels with different 3.7 micron temperatures, without a table -/
example : ∃ (out : NirOut XF) (s' : Nir XF) (r : Pixel → XF),
    reflectance 0 ⟨[2], [exPixel, ⟨fin 0, fin 410, fin 100, fin 100⟩], .numpy, .numpy, .numpy, .numpy, false, some none⟩ exNir =
      (.ok out, s') ∧ ∀ ρ σ, r exPixel = fin ρ → r ⟨fin 0, fin 410, fin 100, fin 100⟩ = fin σ → ρ < σ := by
  obtain ⟨out, s', r, h1, -, h2⟩ := C72_increasing exNir 0
    ⟨[2], [exPixel, ⟨fin 0, fin 410, fin 100, fin 100⟩], .numpy, .numpy, .numpy, .numpy, false, some none⟩
    [10e-6, 11e-6, 12e-6] [0, 1, 0] ⟨rfl, rfl, rfl, rfl⟩ exBand_good
    ⟨by simp [exNir], by simp, by simp, exConverts, .inr rfl⟩ _ _ rfl rfl
  exact ⟨out, s', r, h1, fun ρ σ hρ hσ => h2 exPixel (by simp) ⟨fin 0, fin 410, fin 100, fin 100⟩ (by simp) 0 100 100 400 410 ρ σ
    rfl rfl rfl rfl rfl rfl (by norm_num) rfl rfl (by norm_num) (by norm_num) hρ hσ⟩

example : (reflectance 0 ⟨[2, 2], [exPixel, exPixel, exPixel, exPixel], .numpy, .numpy, .numpy, .numpy, false, some none⟩
    exNir).1 = .error .valueError :=
  C97_images_without_table_fail 0 exNir _ (by simp [exNir]) exConverts 2 2 le_rfl le_rfl _ rfl _ _ _ _ _

/-- C97 fails without a table: a column of two pixels gives a 2x2 array, whatever the data. -/
theorem C97_columns_without_table_wrong (nc : Int) (s : Nir XF) (R : XF → XF) (hrsr : s.conv.rsr ≠ [])
    (hR : Converts s.conv nc none R) (p q : Pixel) (kz kn kt kc : ArrKind) :
    ∃ out s', reflectance nc ⟨[2, 1], [p, q], kz, kn, kt, kc, false, some none⟩ s = (.ok out, s') ∧
      out.values.shape = [2, 2] ∧ out.values.data.length = 4 := by
  have hr : s.conv.rsr.isEmpty = false := by
    cases hh : s.conv.rsr <;> simp_all
  have hconv : ∀ g : Pixel → XF, tb2radianceArr s.conv nc ⟨[2, 1], [p, q].map g⟩ none =
      .ok ⟨[2], [R (g p), R (g q)]⟩ := by
    intro g
    have := tb2radianceArr_px hR [2] [p, q] (by simp) g (Or.inr rfl)
    unfold tb2radianceArr at this ⊢
    exact this
  have hret : ∃ ys, ys.length = 4 ∧ retrieved s nc none ⟨[2, 1], [p, q].map Pixel.zenith⟩ ⟨[2, 1], [p, q].map Pixel.nir⟩
      ⟨[2, 1], [p, q].map Pixel.therm⟩ none = .ok ⟨[2, 2], ys⟩ := by
    unfold retrieved
    rw [hconv, hconv]
    simp only [bind, Except.bind, corrOf, Arr.map, List.map]
    generalize solarRadiancePoint s.solar_flux s.sunz_threshold p.zenith = c
    generalize solarRadiancePoint s.solar_flux s.sunz_threshold q.zenith = d
    unfold r3xOf
    simp only [Arr.map, List.map]
    rw [bcast_scalar_right _ _ _ _ (by simp)]
    simp only [bind, Except.bind, List.map, bcast_same, List.zipWith, bcast_column, bcast_row_square, Arr.map]
    cases hl : s.masking_limit with
    | none =>
      simp only [zenithMask, bcastOut_square, Arr.whereScalar, bcast_same]
      exact ⟨_, rfl, rfl⟩
    | some m =>
      simp only [zenithMask, Arr.map, List.map, bcastOut_square, Arr.whereScalar, bcast_same]
      exact ⟨_, rfl, rfl⟩
  obtain ⟨ys, hy, hret⟩ := hret
  have h3 := (retrieve_run s nc none ⟨[2, 1], [p, q].map Pixel.zenith⟩ ⟨[2, 1], [p, q].map Pixel.nir⟩
    ⟨[2, 1], [p, q].map Pixel.therm⟩ none).1
  rw [hret] at h3
  rcases e : Nir.retrieve nc none ⟨[2, 1], [p, q].map Pixel.zenith⟩ ⟨[2, 1], [p, q].map Pixel.nir⟩
    ⟨[2, 1], [p, q].map Pixel.therm⟩ none s with ⟨r, u⟩
  rw [e] at h3
  simp only at h3
  subst h3
  unfold reflectance Nir.reflectanceFromTbs
  rw [st_bind_ok (st_get s)]
  simp only [hr, Bool.false_eq_true, if_false, NirIn.asArray, ne_eq, not_true_eq_false]
  rw [st_bind_ok (by exact e)]
  exact ⟨_, u, rfl, rfl, hy⟩

example : ∃ out s', reflectance 0 ⟨[2, 1], [exPixel, exPixel], .numpy, .numpy, .numpy, .numpy, false, some none⟩ exNir =
    (.ok out, s') ∧ out.values.shape = [2, 2] ∧ out.values.data.length = 4 :=
  C97_columns_without_table_wrong 0 exNir _ (by simp [exNir]) exConverts _ _ _ _ _ _

/-- C97: with a table, and for one-dimensional arrays, the reflectances have the shape of the
temperatures, one per pixel; the container is lazy exactly if one of the temperature arrays is and
none is masked; if one is masked the result is too, exactly at the values that are not finite.  Missing: images without a table, where this is false. -/
theorem C97_shape_partial (s : Nir XF) (nc : Int) (sc : Scene) (R : XF → XF) (h : NirUsable s nc sc R) :
    ∃ (out : NirOut XF) (s' : Nir XF), reflectance nc sc s = (.ok out, s') ∧ out.values.shape = sc.shape ∧
      out.values.data.length = sc.pixels.length ∧
      (out.isLazy = true ↔ (sc.kn = .dask ∨ sc.kt = .dask) ∧ sc.kn ≠ .masked ∧ sc.kt ≠ .masked) ∧
      (out.mask.isSome = true ↔ sc.kn = .masked ∨ sc.kt = .masked) ∧
      ∀ m, out.mask = some m → m = out.values.data.map fun x => !isFinite x := by
  obtain ⟨out, h1, h2, h3, h4⟩ := reflectance_run_full s nc sc R h
  refine ⟨out, _, h1, by rw [h2], by rw [h2]; simp, ?_, ?_, ?_⟩
  · rw [h3]
    simp [not_or]
  · rw [h4]
    split <;> simp_all
  · intro m hm
    rw [h4] at hm
    split at hm <;> simp_all

example (nc : Int) : ∃ (out : NirOut XF) (s' : Nir XF), reflectance nc exScene exNir = (.ok out, s') ∧
    out.values.shape = [2, 1] ∧ out.values.data.length = 2 ∧ out.mask.isSome = true := by
  obtain ⟨out, s', h1, h2, h3, -, h4, -⟩ := C97_shape_partial exNir nc exScene _ (exNirUsable nc)
  exact ⟨out, s', h1, h2, h3, h4.2 (Or.inl rfl)⟩

end Verif.Props
