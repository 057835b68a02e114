import Verif.Model.Integers
import Verif.Props.NirRetrieval
import Verif.Props.Blackbody
/-
Properties C172-C175: arrays of integers.
-/
namespace Verif.Props
open XF Model PyNum Lemmas Spec

/-! ### Conversions to integers -/

theorem truncR_intCast (i : ℤ) : truncR (i : ℝ) = i := by
  unfold truncR
  split
  · exact Int.floor_intCast i
  · exact Int.ceil_intCast i

theorem truncR_small {x : ℝ} (h : |x| < 1) : truncR x = 0 := by
  obtain ⟨h1, h2⟩ := abs_lt.1 h
  unfold truncR
  split
  · rename_i h0; exact Int.floor_eq_zero_iff.2 ⟨h0, h2⟩
  · rename_i h0; exact Int.ceil_eq_zero_iff.2 ⟨h1, (not_le.1 h0).le⟩

/-- the numbers that an integer array can hold -/
def Whole (x : XF) : Prop := ∃ i : ℤ, x = fin (i : ℝ) ∧ -2 ^ 63 ≤ i ∧ i < 2 ^ 63

theorem asType_whole (n : Int) (d : Dtype) {x : XF} (h : Whole x) : asType n d x = x := by
  obtain ⟨i, rfl, h1⟩ := h
  cases d with
  | float64 => rfl
  | int64 => simp only [asType, trunc_fin, truncR_intCast]; rw [if_pos h1]; rfl

theorem typeCall_whole (d : Dtype) {x : XF} (h : Whole x) : typeCall d x = .ok x := by
  obtain ⟨i, rfl, h1⟩ := h
  cases d with
  | float64 => rfl
  | int64 => simp only [typeCall, trunc_fin, truncR_intCast]; rw [if_pos h1]; rfl

theorem asType_float {α : Type} [PyNum α] (n : Int) : asType (α := α) n .float64 = id := rfl

theorem castLut_float {α : Type} [PyNum α] (n : Int) (l : Lut α) : castLut n .float64 l = l := by
  simp [castLut, asType_float]

theorem arr_map_id {A : Type} (a : Arr A) : Arr.map id a = a := by simp [Arr.map]

/-! ### C172 -/

/-- C172 (by wavenumber): integer radiances have the brightness temperatures of the equal floating point numbers. -/
theorem C172_integer_radiances_partial (w : ℝ) (hw : 0 < w) (rs : List Int) (hr : ∀ r ∈ rs, 0 < r) :
    wnRad2tempInts (fin w) rs = rs.map fun r : Int => fin (Spec.brightnessTemperatureWn w (r : ℝ)) := by
  unfold wnRad2tempInts
  refine List.map_congr_left fun r h => ?_
  have : (0 : ℝ) < r := by exact_mod_cast hr r h
  rw [ofInt_eq, wnRad2temp_fin hw this]

/-- C172 fails by wavelength: every integer radiance, at every wavelength below one metre, has the temperature NaN. -/
theorem C172_integer_radiances_nan (w : ℝ) (hw : |w| < 1) (rs : List Int) :
    rad2tempInts (fin w) rs = .ok (rs.map fun _ => XF.nan) := by
  unfold rad2tempInts
  rw [trunc_fin, truncR_small hw]
  simp only []
  rw [if_neg (by norm_num)]
  congr 1
  refine List.map_congr_left fun r _ => ?_
  have : wrap64 (r * wrap64 (0 ^ 5)) = 0 := by
    have : wrap64 (0 ^ 5) = 0 := by decide
    rw [this, mul_zero]; decide
  rw [this, PC2_eq, PC1_eq, ofInt_eq, Int.cast_zero, fin_div', if_pos rfl,
    show signInf c2R = XF.pinf by simp [signInf, c2R_pos]]
  show fin c1R / (fin 0 * XF.pinf) = _
  rw [show (fin 0 * XF.pinf : XF) = XF.nan from by show signInf 0 = _; simp [signInf]]
  rfl

/-- the example: at 11 micrometres, radiances 9 and 10 million per metre; the same radiances as floating point
numbers have positive temperatures -/
example : rad2tempInts (fin 11e-6) [9000000, 10000000] = .ok [XF.nan, XF.nan] ∧
    ∃ t u : ℝ, 0 < t ∧ t < u ∧ blackbodyRad2temp (fin 11e-6) [fin 9000000, fin 10000000] = [fin t, fin u] := by
  refine ⟨C172_integer_radiances_nan _ (by rw [abs_of_pos] <;> norm_num) _, ?_⟩
  obtain ⟨⟨t, u, h1, h2, h3⟩, _⟩ := C03_rad2temp_positive_and_increasing 11e-6 9000000 10000000 (by norm_num)
    (by norm_num) (by norm_num)
  exact ⟨t, u, h2, h3, h1⟩

example : wnRad2tempInts (fin 90000) [1, 2] =
    [fin (Spec.brightnessTemperatureWn 90000 ((1 : Int) : ℝ)), fin (Spec.brightnessTemperatureWn 90000 ((2 : Int) : ℝ))] :=
  C172_integer_radiances_partial 90000 (by norm_num) [1, 2] (by decide)

/-! ### C173 -/

/-- with floating point arrays the typed retrieval is the retrieval -/
theorem reflectanceTyped_float {α : Type} [PyNum α] (s : Nir α) (nc n : Int) (lut : Option (Lut α)) (z nir t : Arr α)
    (co2 : Option (Arr α)) :
    reflectanceTyped s nc n .float64 .float64 lut z nir t co2 = (Nir.retrieve nc lut z nir t co2 s).1 := by
  rw [(retrieve_run s nc lut z nir t co2).1]
  have e : lut.map (castLut n .float64) = lut := by cases lut <;> simp [castLut_float]
  have e2 : rad3xCorrection (α := α) = corrOf := by funext a b; cases b <;> rfl
  unfold reflectanceTyped retrieved
  simp only [e, e2, asType_float, arr_map_id, typeCall]
  rfl

/-- C173 (whole numbers): if the table, the sunlight, the integral of the spectral response and the correction are
whole numbers, integer temperatures have the reflectances of floating point ones. -/
theorem C173_integer_temperatures_partial (s : Nir XF) (nc n : Int) (dn dt : Dtype) (lut : Option (Lut XF))
    (z nir t : Arr XF) (co2 : Option (Arr XF))
    (hlut : ∀ l ∈ lut, ∀ x ∈ l.radiance, Whole x)
    (hsun : ∀ x ∈ z.data, Whole (solarRadiancePoint s.solar_flux s.sunz_threshold x))
    (hint : Whole s.conv.rsr_integral)
    (hcorr : ∀ c ∈ co2, ∀ a, rad39Corr t c = .ok a → ∀ x ∈ a.data, Whole x) :
    reflectanceTyped s nc n dn dt lut z nir t co2 = (Nir.retrieve nc lut z nir t co2 s).1 := by
  rw [(retrieve_run s nc lut z nir t co2).1]
  have e : ∀ d, lut.map (castLut n d) = lut := by
    intro d
    cases lut with
    | none => rfl
    | some l =>
      have : l.radiance.map (asType n d) = l.radiance :=
        (List.map_congr_left fun x hx => asType_whole n d (hlut l rfl x hx)).trans (List.map_id _)
      simp [castLut, this]
  have e3 : ∀ d, (z.map (solarRadiancePoint s.solar_flux s.sunz_threshold)).map (asType n d) =
      z.map (solarRadiancePoint s.solar_flux s.sunz_threshold) := by
    intro d
    simp only [Arr.map, List.map_map]
    congr 1
    exact List.map_congr_left fun x hx => asType_whole n d (hsun x hx)
  have e2 : rad3xCorrection (α := XF) = corrOf := by funext a b; cases b <;> rfl
  have e4 : ∀ a d, corrOf t co2 = .ok a → a.map (asType n d) = a := by
    intro a d h
    have : ∀ x ∈ a.data, Whole x := by
      cases co2 with
      | none =>
        cases h
        intro x hx
        rw [Arr.scalar, List.mem_singleton] at hx
        exact ⟨1, by rw [hx]; norm_num, by norm_num, by norm_num⟩
      | some c => exact hcorr c rfl a h
    simp only [Arr.map]
    have h2 : a.data.map (asType n d) = a.data :=
      (List.map_congr_left fun x hx => asType_whole n d (this x hx)).trans (List.map_id _)
    rw [h2]
  unfold reflectanceTyped retrieved
  simp only [e, e2, e3, typeCall_whole dt hint]
  cases h1 : tb2radianceArr s.conv nc t lut with
  | error _ => rfl
  | ok a1 =>
    cases h2 : tb2radianceArr s.conv nc nir lut with
    | error _ => rfl
    | ok a2 =>
      cases h3 : corrOf t co2 with
      | error _ => rfl
      | ok a3 => simp only [bind, Except.bind, e4 a3 dn h3]

/-- the example: a response in wavenumbers with the integral 2000 per metre, a table in whole numbers, full sunlight -/
example (nc n : Int) (dn dt : Dtype) :
    reflectanceTyped { exNir with conv := { exNir.conv with rsr_integral := fin 2000 } } nc n dn dt
        (some ⟨[fin 150, fin 150.1], [fin 3, fin 4]⟩) ⟨[1], [fin 0]⟩ ⟨[1], [fin 400]⟩ ⟨[1], [fin 100]⟩ none =
      (Nir.retrieve nc (some ⟨[fin 150, fin 150.1], [fin 3, fin 4]⟩) ⟨[1], [fin 0]⟩ ⟨[1], [fin 400]⟩ ⟨[1], [fin 100]⟩ none
        { exNir with conv := { exNir.conv with rsr_integral := fin 2000 } }).1 := by
  refine C173_integer_temperatures_partial _ nc n dn dt _ _ _ _ _ ?_ ?_ ⟨2000, by norm_num, by norm_num, by norm_num⟩ ?_
  · intro l hl x hx
    cases hl
    simp at hx
    rcases hx with rfl | rfl
    · exact ⟨3, by norm_num, by norm_num, by norm_num⟩
    · exact ⟨4, by norm_num, by norm_num, by norm_num⟩
  · intro x hx
    rw [List.mem_singleton.1 hx]
    refine ⟨1, ?_, by norm_num, by norm_num⟩
    show solarRadiancePoint (fin Real.pi) (fin 85) (fin 0) = _
    rw [solarRadiancePoint_fin]
    unfold sunlight
    norm_num
  · intro c hc; cases hc

/-- `_calculate_r3x` on arrays of the same shape whose integral is zero -/
theorem r3xOf_zero (lim : Option XF) (sh : List Nat) (hsh : sh ≠ []) (px : List (Pixel XF))
    (T N C S : Pixel XF → XF) (corr : Arr XF) (hT : ∀ p ∈ px, ∃ x, T p = fin x) (hN : ∀ p ∈ px, ∃ x, N p = fin x)
    (hc : (corr = ⟨sh, px.map C⟩ ∧ ∀ p ∈ px, ∃ x, C p = fin x) ∨ ∃ c : ℝ, corr = Arr.scalar (fin c)) :
    r3xOf (fin 0) lim ⟨sh, px.map T⟩ ⟨sh, px.map N⟩ corr
      ⟨sh, px.map S⟩ ⟨sh, px.map Pixel.zenith⟩ ⟨sh, px.map Pixel.nir⟩ = .ok ⟨sh, px.map fun p =>
        if lt (S p - fin 0) NIR_EPSILON || pxZenith lim p || isNaN p.nir then XF.nan else fin 0 / (S p - fin 0)⟩ := by
  unfold r3xOf
  have z : ∀ F : Pixel XF → XF, (∀ p ∈ px, ∃ x, F p = fin x) → px.map (fun p => F p * fin 0) = px.map fun _ => fin 0 := by
    intro F hF
    refine List.map_congr_left fun p hp => ?_
    obtain ⟨x, hx⟩ := hF p hp
    rw [hx, fin_mul, mul_zero]
  simp only [map_px]
  rw [z T hT, z N hN]
  have h1 : Arr.bcast (· * ·) ⟨sh, px.map fun _ => fin 0⟩ corr = .ok ⟨sh, px.map fun _ => fin 0⟩ := by
    rcases hc with ⟨rfl, hC⟩ | ⟨c, rfl⟩
    · rw [bcast_px]
      congr 2
      refine List.map_congr_left fun p hp => ?_
      obtain ⟨x, hx⟩ := hC p hp
      rw [hx, fin_mul, zero_mul]
    · rw [bcast_scalar_right _ _ _ _ hsh]; simp [Function.comp_def]
  simp only [h1, bind, Except.bind, bcast_px, map_px, fin_sub, sub_zero]
  have h2 : zenithMask lim ⟨sh, px.map Pixel.zenith⟩ ⟨sh, px.map fun p => lt (S p - fin 0) NIR_EPSILON⟩ =
      .ok ⟨sh, px.map fun p => pxZenith lim p || lt (S p - fin 0) NIR_EPSILON⟩ := by
    cases lim with
    | none => simp [zenithMask, pxZenith]
    | some l =>
      unfold zenithMask
      simp only [map_px, bcastOut_px]
      rfl
  rw [h2]
  simp only [bcastOut_px, Arr.whereScalar, bcast_px, nan_eq]
  congr 2
  apply List.map_congr_left
  intro p _
  simp only [Bool.or_comm (pxZenith lim p)]

theorem asType_fin (n : Int) (d : Dtype) (x : ℝ) : ∃ y : ℝ, asType n d (fin x) = fin y := by
  cases d with
  | float64 => exact ⟨x, rfl⟩
  | int64 =>
    simp only [asType, trunc_fin]
    split
    · exact ⟨_, rfl⟩
    · exact ⟨_, rfl⟩

theorem asType_ge_one (n : Int) (d : Dtype) {x : ℝ} (h : 1 ≤ x) (h2 : x < 2 ^ 63) :
    ∃ y : ℝ, asType n d (fin x) = fin y ∧ 1 ≤ y := by
  cases d with
  | float64 => exact ⟨x, rfl, h⟩
  | int64 =>
    have e : truncR x = ⌊x⌋ := by unfold truncR; rw [if_pos (by linarith)]
    have a : (1 : ℤ) ≤ ⌊x⌋ := Int.le_floor.2 (by simpa using h)
    have b : ⌊x⌋ < 2 ^ 63 := Int.floor_lt.2 (by push_cast; norm_num at h2 ⊢; exact h2)
    simp only [asType, trunc_fin, e]
    rw [if_pos ⟨by linarith, b⟩]
    exact ⟨_, rfl, by exact_mod_cast a⟩

/-- C173 fails: with integer thermal temperatures and a response whose integral is below one (every band given by
wavelengths), every reflectance is NaN or zero; zero, and not NaN, wherever the sunlight is at least 1 and the
pixel is neither outside of the limits nor missing. -/
theorem C173_integer_temperatures_zero (s : Nir XF) (nc n : Int) (dn : Dtype) (lut : Option (Lut XF)) (useCo2 : Bool)
    (sh : List Nat) (hsh : sh ≠ []) (px : List (Pixel XF)) (hpx : px ≠ []) (hs : lut.isSome ∨ sh = [px.length])
    (Rt Rn : XF → XF) (ht : Converts s.conv nc (lut.map (castLut n .int64)) Rt)
    (hn : Converts s.conv nc (lut.map (castLut n dn)) Rn)
    (hft : ∀ p ∈ px, ∃ x, Rt p.therm = fin x) (hfn : ∀ p ∈ px, ∃ x, Rn p.nir = fin x)
    (hco2 : useCo2 = true → ∀ p ∈ px, ∃ t u : ℝ, p.therm = fin t ∧ p.co2 = fin u ∧ t ≠ 0)
    (I flux thr : ℝ) (hI : s.conv.rsr_integral = fin I) (hI1 : |I| < 1) (hflux : s.solar_flux = fin flux)
    (hthr : s.sunz_threshold = fin thr) (hz : ∀ p ∈ px, ∃ z, p.zenith = fin z) :
    ∃ v : Pixel XF → XF, reflectanceTyped s nc n dn .int64 lut ⟨sh, px.map Pixel.zenith⟩ ⟨sh, px.map Pixel.nir⟩
        ⟨sh, px.map Pixel.therm⟩ (if useCo2 then some ⟨sh, px.map Pixel.co2⟩ else none) = .ok ⟨sh, px.map v⟩ ∧
      ∀ p ∈ px, (v p = XF.nan ∨ v p = fin 0) ∧
        (∀ z lim : ℝ, p.zenith = fin z → s.masking_limit = some (fin lim) → 0 ≤ z → z ≤ lim → p.nir ≠ XF.nan →
          1 ≤ sunlight flux thr z → sunlight flux thr z < 2 ^ 63 → v p = fin 0) := by
  have h1 := tb2radianceArr_px ht sh px hpx Pixel.therm (by simpa using hs)
  have h2 := tb2radianceArr_px hn sh px hpx Pixel.nir (by simpa using hs)
  have h3 : rad3xCorrection ⟨sh, px.map Pixel.therm⟩ (if useCo2 then some ⟨sh, px.map Pixel.co2⟩ else none) =
      .ok (if useCo2 then ⟨sh, px.map (pxCorr true)⟩ else Arr.scalar 1.0) := by
    cases useCo2 with
    | false => rfl
    | true => exact rad39Corr_px sh px
  have h4 : typeCall .int64 s.conv.rsr_integral = .ok (fin 0) := by
    rw [hI]
    simp only [typeCall, trunc_fin, truncR_small hI1]
    rw [if_pos (by norm_num)]
    simp
  have hsun : ∀ p ∈ px, ∃ y, asType n dn (solarRadiancePoint s.solar_flux s.sunz_threshold p.zenith) = fin y := by
    intro p hp
    obtain ⟨z, hz⟩ := hz p hp
    rw [hflux, hthr, hz, solarRadiancePoint_fin]
    exact asType_fin n dn _
  refine ⟨fun p => if lt (asType n dn (solarRadiancePoint s.solar_flux s.sunz_threshold p.zenith) - fin 0) NIR_EPSILON ||
      pxZenith s.masking_limit p || isNaN p.nir then XF.nan else
      fin 0 / (asType n dn (solarRadiancePoint s.solar_flux s.sunz_threshold p.zenith) - fin 0), ?_, ?_⟩
  · unfold reflectanceTyped
    rw [h1, h2, h3, h4]
    simp only [bind, Except.bind, map_px]
    refine r3xOf_zero s.masking_limit sh hsh px _ _ (fun p => asType n dn (pxCorr true p)) _ _ hft hfn ?_
    cases useCo2 with
    | false =>
      right
      obtain ⟨y, hy⟩ := asType_fin n dn 1.0
      refine ⟨y, ?_⟩
      simp only [Bool.false_eq_true, if_false, Arr.map, Arr.scalar, List.map_cons, List.map_nil, ofSci_eq, hy]
    | true =>
      left
      refine ⟨by simp only [if_true, map_px], ?_⟩
      intro p hp
      obtain ⟨t, u, g1, g2, g3⟩ := hco2 rfl p hp
      rw [pxCorr_fin true p t u fun _ => ⟨g1, g2, g3⟩]
      exact asType_fin n dn _
  · intro p hp
    dsimp only
    obtain ⟨y, hy⟩ := hsun p hp
    rw [hy, fin_sub, sub_zero]
    refine ⟨?_, ?_⟩
    · split
      · exact Or.inl rfl
      · rename_i h
        right
        have : ¬ y < 0.005 := by
          intro hh
          apply h
          have : lt (fin y) (NIR_EPSILON : XF) = true := by
            simp only [NIR_EPSILON, ofSci_eq, lt_fin, decide_eq_true_eq]; exact hh
          simp [this]
        have hy0 : y ≠ 0 := by rintro rfl; norm_num at this
        rw [fin_div _ hy0, zero_div]
    · intro z lim gz gl g0 g1 gn gs gm
      have : 1 ≤ y := by
        rw [hflux, hthr, gz, solarRadiancePoint_fin] at hy
        obtain ⟨y', e, e'⟩ := asType_ge_one n dn gs gm
        rw [hy] at e
        injection e with e
        rw [e]; exact e'
      rw [if_neg, fin_div _ (by linarith), zero_div]
      unfold pxZenith
      rw [gl, gz]
      have hnn : isNaN p.nir = false := by
        cases h : p.nir <;> simp_all
      simp only [NIR_EPSILON, ofSci_eq, lt_fin, gt_fin, hnn, Bool.or_false, Bool.or_eq_true, decide_eq_true_eq]
      push Not
      norm_num
      refine ⟨by linarith, g0, g1⟩

/-- the table of the example in whole numbers is the table -/
theorem exCast (n : Int) (d : Dtype) : castLut n d ⟨[fin 150, fin 150.1], [fin 1e5, fin 2e5]⟩ =
    ⟨[fin 150, fin 150.1], [fin 1e5, fin 2e5]⟩ := by
  have a : asType n d (fin 1e5) = fin 1e5 :=
    asType_whole n d ⟨100000, by norm_num, by norm_num, by norm_num⟩
  have b : asType n d (fin 2e5) = fin 2e5 :=
    asType_whole n d ⟨200000, by norm_num, by norm_num, by norm_num⟩
  simp only [castLut, List.map_cons, List.map_nil, a, b]

/-- the example: the day pixel of `exScene`, with reflectance 1/9 as computed from floating point temperatures, has
the reflectance 0 when the same temperatures are integers -/
example (nc n : Int) (d : Dtype) : reflectanceTyped exNir nc n d .int64 exNir.lut ⟨[1], [fin 0]⟩ ⟨[1], [fin 400]⟩
      ⟨[1], [fin 100]⟩ none = .ok ⟨[1], [fin 0]⟩ ∧
    reflectanceTyped exNir nc n .float64 .float64 exNir.lut ⟨[1], [fin 0]⟩ ⟨[1], [fin 400]⟩
      ⟨[1], [fin 100]⟩ none = .ok ⟨[1], [fin (1 / 9)]⟩ := by
  constructor
  · obtain ⟨v, h1, h2⟩ := C173_integer_temperatures_zero exNir nc n d exNir.lut false [1] (by simp) [exPixel] (by simp)
      (Or.inl rfl) (exR nc) (exR nc)
      (by show Converts _ _ (some (castLut n .int64 ⟨[fin 150, fin 150.1], [fin 1e5, fin 2e5]⟩)) _
          rw [exCast]; exact (exNirUsable nc).converts)
      (by show Converts _ _ (some (castLut n d ⟨[fin 150, fin 150.1], [fin 1e5, fin 2e5]⟩)) _
          rw [exCast]; exact (exNirUsable nc).converts)
      (by intro p hp; rw [List.mem_singleton.1 hp]; exact ⟨_, exR_cold nc⟩)
      (by intro p hp; rw [List.mem_singleton.1 hp]; exact ⟨_, exR_hot nc⟩)
      (by simp) 1e-6 Real.pi 85 exIntegral (by rw [abs_of_pos] <;> norm_num) rfl rfl
      (by intro p hp; rw [List.mem_singleton.1 hp]; exact ⟨_, rfl⟩)
    have h3 := (h2 exPixel (by simp)).2 0 85 rfl rfl le_rfl (by norm_num) (by simp [exPixel]) (by rw [exSunlight])
      (by rw [exSunlight]; norm_num)
    simp only [List.map_cons, List.map_nil, h3] at h1
    exact h1
  · rw [reflectanceTyped_float]
    have h := retrieve_px exNir nc exNir.lut (exR nc) (exNirUsable nc).converts false [1] (by simp) [exPixel] (by simp)
      (Or.inl rfl)
    have h2 : pxValue exNir.conv.rsr_integral exNir.solar_flux exNir.sunz_threshold exNir.masking_limit (exR nc) false
        exPixel = fin (1 / 9) := by
      rw [exIntegral]
      show pxValue (fin 1e-6) (fin Real.pi) (fin 85) _ _ _ _ = _
      rw [pxValue_fin 1e-6 Real.pi 85 0 2e5 1e5 100 100 _ _ _ _ rfl (exR_hot nc) (exR_cold nc) (by simp), exSunlight]
      rw [if_neg]
      · simp [factor]; norm_num
      · simp [factor, pxZenith, exPixel, exNir]; norm_num
    have h3 := congrArg Prod.fst h
    simp only [List.map_cons, List.map_nil] at h3
    erw [h2] at h3
    exact h3

/-! ### C174 -/

theorem asType_floor (n : Int) {x : ℝ} (h0 : 0 ≤ x) (h : x < 2 ^ 63) : asType n .int64 (fin x) = fin (⌊x⌋ : ℝ) := by
  have e : truncR x = ⌊x⌋ := by unfold truncR; rw [if_pos h0]
  have a : (0 : ℤ) ≤ ⌊x⌋ := Int.floor_nonneg.2 h0
  have b : ⌊x⌋ < 2 ^ 63 := Int.floor_lt.2 (by push_cast; norm_num at h ⊢; exact h)
  simp only [asType, trunc_fin, e]
  rw [if_pos ⟨by linarith, b⟩]
  rfl

/-- looking up in a table whose radiances are changed by `f` -/
theorem lutFn_map (nc : Int) (scale : XF) (start : Int) (rad : List XF) (h : rad ≠ []) (f : XF → XF) (t : XF) :
    lutFn nc scale start (rad.map f) t = f (lutFn nc scale start rad t) := by
  unfold lutFn
  obtain ⟨h1, _⟩ := pyIndex_clip rad h (NP.wrap16 (NP.castInt16 nc (t * scale) - start))
  rw [List.length_map, List.getElem?_map, List.getElem?_eq_getElem h1]
  rfl

/-- C174: band radiances looked up for integer temperatures are those of the table rounded down to whole numbers;
within one unit, and all zero if the table is below one. -/
theorem C174_integer_lookup (c : RadTb XF) (nc n : Int) (tb rad : List ℝ) (start : Int)
    (hg : GoodLut c.tb_scale ⟨finL tb, finL rad⟩ start) (hr : ∀ x ∈ rad, 0 ≤ x ∧ x < 2 ^ 63)
    (ts : List XF) (hts : ts ≠ []) :
    ∃ (resF resI : RadResult XF) (v : XF → ℝ),
      tb2radianceTyped c nc n .float64 ts (some ⟨finL tb, finL rad⟩) = .ok resF ∧
      tb2radianceTyped c nc n .int64 ts (some ⟨finL tb, finL rad⟩) = .ok resI ∧
      resF.radiance.elems = ts.map (fun t => fin (v t)) ∧ (∀ t, v t ∈ rad) ∧
      resI.radiance.elems = ts.map (fun t => fin (⌊v t⌋ : ℝ)) ∧
      (∀ t, (⌊v t⌋ : ℝ) ≤ v t ∧ v t < ⌊v t⌋ + 1) ∧
      ((∀ x ∈ rad, x < 1) → resI.radiance.elems = ts.map fun _ => fin 0) := by
  have hm : ∀ t, ∃ x ∈ rad, lutFn nc c.tb_scale start (finL rad) t = fin x := by
    intro t
    obtain ⟨x, hx, he⟩ := List.mem_map.1 (lutFn_mem nc c.tb_scale start (finL rad) hg.rad t)
    exact ⟨x, hx, he.symm⟩
  choose v hv hve using hm
  obtain ⟨resF, f1, f2⟩ := converts_lut c nc ⟨finL tb, finL rad⟩ start hg ts hts
  have hg2 : GoodLut c.tb_scale (castLut n .int64 ⟨finL tb, finL rad⟩) start :=
    ⟨by simpa [castLut] using hg.rad, hg.first, hg.lo, hg.hi⟩
  obtain ⟨resI, i1, i2⟩ := converts_lut c nc _ start hg2 ts hts
  have hi : resI.radiance.elems = ts.map (fun t => fin (⌊v t⌋ : ℝ)) := by
    rw [i2]
    refine List.map_congr_left fun t _ => ?_
    show lutFn nc c.tb_scale start ((finL rad).map (asType n .int64)) t = _
    rw [lutFn_map _ _ _ _ hg.rad, hve, asType_floor n (hr _ (hv t)).1 (hr _ (hv t)).2]
  refine ⟨resF, resI, v, ?_, i1, ?_, hv, hi, ?_, ?_⟩
  · show c.tb2radiance nc ts (some (castLut n .float64 _)) = _
    rw [castLut_float]; exact f1
  · rw [f2]
    exact List.map_congr_left fun t _ => hve t
  · exact fun t => ⟨Int.floor_le _, Int.lt_floor_add_one _⟩
  · intro h1
    rw [hi]
    refine List.map_congr_left fun t _ => ?_
    rw [Int.floor_eq_zero_iff.2 ⟨(hr _ (hv t)).1, h1 _ (hv t)⟩, Int.cast_zero]

/-- the example: a table by wavenumber, whose radiances are small; every radiance is zero -/
example (nc n : Int) : ∃ resI : RadResult XF,
    tb2radianceTyped exNir.conv nc n .int64 [fin 150, fin 151] (some ⟨finL [150, 150.1], finL [3e-5, 4e-5]⟩) = .ok resI ∧
    resI.radiance.elems = [fin 0, fin 0] := by
  obtain ⟨_, resI, _, _, h, _, _, _, _, h2⟩ := C174_integer_lookup exNir.conv nc n [150, 150.1] [3e-5, 4e-5] 1500
    ⟨by simp, ⟨fin 150, [fin 150.1], rfl, (by
        rw [exScale, fin_mul, trunc_fin, show (150 : ℝ) * 10 = ((1500 : ℤ) : ℝ) by norm_num, truncR_intCast])⟩,
      by norm_num, by norm_num⟩
    (by intro x hx; simp at hx; rcases hx with rfl | rfl <;> norm_num) [fin 150, fin 151] (by simp)
  exact ⟨resI, h, h2 (by intro x hx; simp at hx; rcases hx with rfl | rfl <;> norm_num)⟩

/-! ### C175 -/

theorem wrap64_id {i : Int} (h1 : 0 ≤ i) (h2 : i < 2 ^ 63) : wrap64 i = i := by
  unfold wrap64; omega

theorem wrap64_lt (i : Int) : wrap64 i < 2 ^ 63 := by
  unfold wrap64; omega

/-- one entry of the array -/
theorem wnInts_entries (ks : List Int) (ts : List XF) (hk : ks ≠ []) (ht : ts ≠ []) :
    blackbodyWnInts ks ts = .ok (ts.map fun t => ks.map fun k =>
      PLANCK_C2 * ofInt (wrap64 (k ^ 3)) / (PyNum.exp (PLANCK_C1 * ofInt k * planckArg2 t) - 1)) := by
  have e1 : ks.isEmpty = false := by cases ks <;> simp_all
  have e2 : ts.isEmpty = false := by cases ts <;> simp_all
  simp only [blackbodyWnInts, e1, e2, Bool.or_self, Bool.false_eq_true, if_false, List.map_map]
  congr 1
  apply List.map_congr_left
  intro t _
  simp only [Function.comp, List.zipWith_map_left, List.zipWith_map_right, List.zipWith_self]

theorem wnInts_entry (k : Int) (hk : 0 < k) (t : ℝ) (ht : 1e-6 < t) :
    (PLANCK_C2 * ofInt (wrap64 (k ^ 3)) / (PyNum.exp (PLANCK_C1 * ofInt k * planckArg2 (fin t)) - 1) : XF) =
      fin (Spec.planckWavenumber (k : ℝ) t) ↔ k < 2 ^ 21 := by
  have ht' : 1e-6 < |t| := by rw [abs_of_pos]; exact ht; linarith [show (0 : ℝ) < 1e-6 by norm_num]
  have h0 : 0 < t := by linarith [show (0 : ℝ) < 1e-6 by norm_num]
  have hkr : (0 : ℝ) < k := by exact_mod_cast hk
  have hx : 0 < c1R * k * (1 / t) := mul_pos (mul_pos c1R_pos hkr) (by positivity)
  have he := exp_sub_one_pos hx
  have spec := entry_wn hkr ht'
  simp only [planckEntry, Bool.false_eq_true, if_false, PC1_eq, PC2_eq, powNat_fin, arg2_fin ht',
    fin_mul, exp_fin, ofNat_one, fin_sub, ofInt_eq] at spec ⊢
  rw [fin_div _ he.ne'] at spec ⊢
  rw [← spec, fin_inj, div_left_inj' he.ne', mul_right_inj' c2R_pos.ne']
  have hc : ((k : ℝ) ^ 3) = ((k ^ 3 : ℤ) : ℝ) := by push_cast; rfl
  rw [hc, Int.cast_inj]
  constructor
  · intro h
    by_contra hge
    have h1 : (2 ^ 21 : ℤ) ^ 3 ≤ k ^ 3 := pow_le_pow_left₀ (by norm_num) (not_lt.1 hge) 3
    have h2 := wrap64_lt (k ^ 3)
    rw [h] at h2
    norm_num at h1 h2
    linarith
  · intro h
    have h1 : k ^ 3 < (2 ^ 21 : ℤ) ^ 3 := pow_lt_pow_left₀ h hk.le (by norm_num)
    exact wrap64_id (by positivity) (by norm_num at h1 ⊢; exact h1)

/-- C175: radiances at integer wavenumbers are Planck's law exactly if these are below 2^21 per metre. -/
theorem C175_integer_wavenumbers (ks : List Int) (ts : List ℝ) (hk : ∀ k ∈ ks, 0 < k) (ht : ∀ t ∈ ts, 1e-6 < t)
    (hne : ks ≠ []) (hte : ts ≠ []) :
    blackbodyWnInts ks (finL ts) =
      .ok (ts.map fun t => ks.map fun k : Int => fin (Spec.planckWavenumber (k : ℝ) t)) ↔ ∀ k ∈ ks, k < 2 ^ 21 := by
  rw [wnInts_entries ks (finL ts) hne (by simpa [finL] using hte), Except.ok.injEq, finL, List.map_map]
  constructor
  · intro h k hkm
    obtain ⟨t, tl, rfl⟩ := List.exists_cons_of_ne_nil hte
    have h1 := List.map_inj_left.1 h t (by simp)
    exact (wnInts_entry k (hk k hkm) t (ht t (by simp))).1 (List.map_inj_left.1 h1 k hkm)
  · intro h
    exact List.map_congr_left fun t htm => List.map_congr_left fun k hkm =>
      (wnInts_entry k (hk k hkm) t (ht t htm)).2 (h k hkm)

/-- the example: 11 micrometres is an integer wavenumber below the bound, 0.4 micrometres one above -/
example : blackbodyWnInts [90909] [fin 300] = .ok [[fin (Spec.planckWavenumber ((90909 : Int) : ℝ) 300)]] ∧
    blackbodyWnInts [2500000] [fin 6000] ≠ .ok [[fin (Spec.planckWavenumber ((2500000 : Int) : ℝ) 6000)]] := by
  constructor
  · exact (C175_integer_wavenumbers [90909] [300] (by decide) (by norm_num) (by simp) (by simp)).2 (by decide)
  · intro h
    have := (C175_integer_wavenumbers [2500000] [6000] (by decide) (by norm_num) (by simp) (by simp)).1 h
    simp at this

end Verif.Props
