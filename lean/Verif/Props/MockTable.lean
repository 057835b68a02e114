import Verif.Props.Chunks
import Verif.Lemmas.Solar
/-
Property C142: the table of the mocked Rayleigh files.
-/
namespace Verif.Props
open XF Model PyNum Lemmas Spec

theorem linspace_axis (A : Axis) : NP.linspace (fin A.lo) (fin A.hi) A.n = finL A.list := by
  obtain ⟨n, hn⟩ : ∃ n, A.n = n + 1 := ⟨A.n - 1, by have := A.nodes; omega⟩
  have h1 : 1 ≤ n := by have := A.nodes; omega
  rw [hn, linspace_fin _ _ _ h1]
  unfold Axis.list steps
  rw [hn]
  congr 1
  apply List.map_congr_left
  intro i _
  unfold Axis.pt
  rw [hn]
  push_cast
  ring

/-- the axes of the mocked table: sun zenith secants, azimuth differences, satellite zenith secants -/
noncomputable def mockSun : Axis := ⟨1, 24.75, 96, by norm_num, by norm_num⟩
noncomputable def mockAzi : Axis := ⟨0, 180, 19, by norm_num, by norm_num⟩
noncomputable def mockSat : Axis := ⟨1, 3, 9, by norm_num, by norm_num⟩
/-- its wavelengths -/
noncomputable def mockWvl : Axis := ⟨400, 800, 81, by norm_num, by norm_num⟩

theorem mock_regular : RegularLut defaultRayleighLut mockSun mockAzi mockSat where
  sun := by rw [← linspace_axis]; simp only [defaultRayleighLut, ofSci_eq, mockSun]; norm_num
  azi := by rw [← linspace_axis]; simp only [defaultRayleighLut, ofSci_eq, mockAzi]; norm_num
  sat := by rw [← linspace_axis]; simp only [defaultRayleighLut, ofSci_eq, mockSat]; norm_num
  sunRange := by simp only [mockSun]; norm_num
  satRange := by simp only [mockSat]; norm_num

theorem repeated {β : Type} (a b c : Nat) (x : β) :
    ((List.replicate a x).flatMap (List.replicate b)).flatMap (List.replicate c) = List.replicate (a * b * c) x := by
  have h : ∀ (a b : Nat), (List.replicate a x).flatMap (List.replicate b) = List.replicate (a * b) x := by
    intro a b
    induction a with
    | zero => simp
    | succ a ih => rw [List.replicate_succ, List.flatMap_cons, ih, List.replicate_append_replicate]; congr 1; ring
  rw [h, h]

/-- the mocked correction at wavelength number `i` -/
noncomputable def mockValue (i : Nat) : ℝ := 0.668 + i * ((0.115 - 0.668) / 80)

theorem mock_tables : (defaultRayleighLut (α := XF)).reflectance =
    ((List.range 81).map fun i => List.replicate (96 * 19 * 9) (mockValue i)).map finL := by
  have h : NP.linspace (0.668 : XF) 0.115 81 = finL (steps 0.668 ((0.115 - 0.668) / 80) 80) := by
    have := linspace_fin 0.668 0.115 80 (by norm_num)
    rw [ofSci_eq, ofSci_eq]
    norm_num at this ⊢
    exact this
  simp only [defaultRayleighLut]
  rw [h]
  unfold steps finL
  rw [List.map_map, List.map_map, List.map_map]
  apply List.map_congr_left
  intro i _
  simp only [Function.comp, repeated, List.map_replicate, mockValue]


theorem mock_wavelengths : (defaultRayleighLut (α := XF)).wavelengths = finL mockWvl.list := by
  rw [← linspace_axis]; simp only [defaultRayleighLut, ofNat_two, mockWvl]

theorem axis_increasing (A : Axis) : Increasing A.list := by
  unfold Increasing Axis.list
  rw [List.pairwise_map]
  refine List.pairwise_lt_range.imp ?_
  intro i j h
  have := Axis'.step_pos A
  have hij : (i : ℝ) < j := by exact_mod_cast h
  unfold Axis.pt
  nlinarith

/-- a cell of a table that is the same everywhere -/
theorem cell_replicate (v : ℝ) {n₁ n₂ n₃ i j k : Nat} (hi : i < n₁) (hj : j < n₂) (hk : k < n₃) :
    cell (List.replicate (n₁ * n₂ * n₃) v) n₂ n₃ i j k = v := by
  unfold cell
  have h1 : i * n₂ + j < n₁ * n₂ := by nlinarith
  have h2 : (i * n₂ + j) * n₃ + k < n₁ * n₂ * n₃ := by nlinarith
  rw [List.getD_eq_getElem?_getD, List.getElem?_replicate_of_lt h2]; rfl

/-- the correction, in percent, of the mocked table at a wavelength in nanometer: a straight line
from 66.8 at 400 nm to 11.5 at 800 nm -/
noncomputable def mockPercent (x : ℝ) : ℝ := 66.8 + (11.5 - 66.8) * ((x - 400) / (800 - 400))

theorem mock_table_at (x : ℝ) (h0 : 400 < x) (h1 : x < 800) :
    tableAt defaultRayleighLut (fin x) = .ok (finL (List.replicate (96 * 19 * 9) (mockPercent x / 100))) := by
  have hlen : mockWvl.list.length = 81 := Axis'.list_length _
  have hget : ∀ (i : Nat) (h : i < mockWvl.list.length), mockWvl.list[i] = 400 + i * 5 := by
    intro i h
    have := Axis'.list_get mockWvl (i := i) (by rw [hlen] at h; exact h)
    rw [List.getElem?_eq_getElem h, Option.some.injEq] at this
    rw [this]
    unfold Axis.pt mockWvl
    norm_num
  have hpos : 0 < mockWvl.list.length := by rw [hlen]; norm_num
  have hx0 : mockWvl.list[0] < x := by rw [hget]; simpa using h0
  have hx1 : x < mockWvl.list[mockWvl.list.length - 1] := by rw [hget, hlen]; norm_num; exact h1
  obtain ⟨k, hk, hk0, hk1⟩ := C61_has_neighbours mockWvl.list x hpos hx0 hx1
  obtain ⟨T, hT, hTl, hv, -⟩ := C61_linear_between_neighbours defaultRayleighLut mockWvl.list _ (96 * 19 * 9)
    mock_wavelengths (axis_increasing _) mock_tables (by rw [hlen, List.length_map, List.length_range]) (by
      intro t ht
      obtain ⟨i, _, rfl⟩ := List.mem_map.1 ht
      exact List.length_replicate) k hk x hk0 hk1 hx1
  suffices hE : T = List.replicate (96 * 19 * 9) (mockPercent x / 100) by rw [hT, hE]
  apply List.ext_getElem?
  intro c
  rcases Nat.lt_or_ge c (96 * 19 * 9) with h | h
  · obtain ⟨v, hv1, hv2, -⟩ := hv c (mockValue k) (mockValue (k + 1))
      (by rw [List.getElem_map, List.getElem_range, List.getElem?_replicate_of_lt h])
      (by rw [List.getElem_map, List.getElem_range, List.getElem?_replicate_of_lt h])
    rw [hv1, List.getElem?_replicate_of_lt h, hv2, hget, hget]
    unfold lerp mockValue mockPercent
    push_cast
    rw [Option.some.injEq]
    have : (400 + ((k : ℝ) + 1) * 5 - (400 + (k : ℝ) * 5)) = 5 := by ring
    rw [this]
    ring
  · rw [List.getElem?_eq_none (by rw [hTl]; exact h), List.getElem?_eq_none (by rw [List.length_replicate]; exact h)]

theorem mockPercent_range (x : ℝ) (h0 : 400 < x) (h1 : x < 800) : 11.5 < mockPercent x ∧ mockPercent x < 66.8 := by
  unfold mockPercent
  constructor <;> linarith

/-- C142: with the mocked table file the correction inside 400..800 nm depends on the wavelength
alone: a straight line from 66.8 to 11.5 percent, the same for all zenith angles (NaN and infinite
ones included) and all azimuth differences from 0 to 180 degrees; a red band fades it out. -/
theorem C142_wavelength_only (da : Bool) (env : Env) (h5open : Content → Option (H5File XF))
    (h5lut : Content → Option (LutFile XF)) (interp : Interp3 XF) (hi : IsMultilinear interp) (r : RayleighObj)
    (sun sat : List XF) (azi : List ℝ) (hl1 : sun.length = azi.length) (hl2 : azi.length = sat.length)
    (band : RayleighBand XF) (red : Option (List ℝ)) (hred : ∀ l, red = some l → l.length = azi.length)
    (w w' : World) (t : List World) (x : ℝ) (he : effectiveWavelength env h5open r band w = (.ok (fin x), w', t))
    (c : Content) (hf : w'.files r.reflectance_lut_filename = some c) (hl : h5lut c = some defaultRayleighLut)
    (hx0 : 400 < x) (hx1 : x < 800) (hazi : ∀ d ∈ azi, 0 ≤ d ∧ d ≤ 180) :
    getReflectance da env h5open h5lut interp r sun sat (finL azi) band (red.map finL) w =
      (.ok (match red with
        | none => azi.map fun _ => fin (mockPercent x)
        | some l => l.map fun a => fin (if a < 20 then mockPercent x
            else max ((100 - a) / 80 * mockPercent x) 0)), w', t) := by
  obtain ⟨res, hres, hrl, hpix⟩ := interp_pixels interp defaultRayleighLut mockSun mockAzi mockSat mock_regular sun sat
    (finL azi) (by simpa using hl1) (by simpa using hl2) (finL (List.replicate (96 * 19 * 9) (mockPercent x / 100)))
  have hval : res = azi.map fun _ => fin (mockPercent x) := by
    apply List.ext_getElem?
    intro p
    rcases Nat.lt_or_ge p azi.length with hp | hp
    · have hp1 : p < sun.length := by omega
      have hp2 : p < sat.length := by omega
      rw [hpix p sun[p] sat[p] (fin azi[p]) (List.getElem?_eq_getElem hp1) (List.getElem?_eq_getElem hp2)
        (by unfold finL; rw [List.getElem?_map, List.getElem?_eq_getElem hp]; rfl)]
      have hd := hazi _ (List.getElem_mem hp)
      obtain ⟨i, j, k, h1, h2, h3, v, hv, -, -, -, hb⟩ := C65_within_cell interp hi mockSun mockAzi mockSat
        (List.replicate (96 * 19 * 9) (mockPercent x / 100)) (by simp only [List.length_replicate]; rfl)
        mock_regular.sunRange mock_regular.satRange sun[p] sat[p] azi[p]
        (by simp only [mockAzi]; constructor <;> linarith [hd.1, hd.2])
      obtain ⟨b1, b2⟩ := hb (mockPercent x / 100) (mockPercent x / 100) (by
        intro i' j' k' hi' hj' hk'
        have := cell_replicate (mockPercent x / 100) (n₁ := mockSun.n) (n₂ := mockAzi.n) (n₃ := mockSat.n)
          (i := i + i') (j := j + j') (k := k + k') (by omega) (by omega) (by omega)
        have e : mockSun.n * mockAzi.n * mockSat.n = 96 * 19 * 9 := rfl
        rw [e] at this
        rw [this]; exact ⟨le_refl _, le_refl _⟩)
      rw [hv, List.getElem?_map, List.getElem?_eq_getElem hp]
      have : v = mockPercent x := by linarith
      rw [this]; rfl
    · rw [List.getElem?_eq_none (by omega), List.getElem?_eq_none (by simpa using hp)]
  have hu : uncorrected da h5lut interp r.reflectance_lut_filename (fin x) sun sat (finL azi) (red.map finL) w' =
      (.ok res, w', []) := by
    unfold uncorrected
    rw [adjusted_run hf hl, mock_table_at x hx0 hx1]
    simp only [openLut_run hf hl, hres]
  rw [getReflectance_run da env h5open h5lut interp r sun sat (finL azi) band _ w w' t (fin x) he _ hu, hval]
  obtain ⟨r0, r1⟩ := mockPercent_range x hx0 hx1
  have hclip : ∀ v : ℝ, PyNum.clip (fin v) 0 100 = fin (min (max v 0) 100) := by
    intro v; simp only [ofNat_zero, ofNat_two, clip_fin]
  congr 1
  cases red with
  | none =>
    show finish none _ = _
    unfold finish
    simp only [bind, Except.bind, pure, Except.pure, List.map_map, Except.ok.injEq]
    apply List.map_congr_left
    intro a _
    simp only [Function.comp, hclip, fin_inj]
    rw [max_eq_left (by linarith), min_eq_left (by linarith)]
  | some l =>
    have hll := hred l rfl
    show finish (some (finL l)) _ = _
    unfold finish
    simp only [bcast2_eq_len relaxCloudy (finL l) (azi.map fun _ => fin (mockPercent x)) (by simpa using hll), bind,
      Except.bind, pure, Except.pure, Except.ok.injEq]
    apply List.ext_getElem?
    intro p
    rcases Nat.lt_or_ge p azi.length with hp | hp
    · have hp' : p < l.length := by omega
      obtain ⟨q, h1, _, h2, h3, _⟩ := C63_fades_out (mockPercent x)
      have e : ((List.zipWith relaxCloudy (finL l) (azi.map fun _ => fin (mockPercent x))).map
          fun v => PyNum.clip v 0 100)[p]? = some (PyNum.clip (relaxCloudy (fin l[p]) (fin (mockPercent x))) 0 100) := by
        unfold finL
        simp [List.getElem?_zipWith, List.getElem?_replicate_of_lt hp, List.getElem?_eq_getElem hp']
      rw [e, List.getElem?_map, List.getElem?_eq_getElem hp', h1, hclip]
      simp only [Option.map_some, Option.some.injEq, fin_inj]
      split
      · rename_i h
        rw [h2 _ (by linarith), max_eq_left (by linarith), min_eq_left (by linarith)]
      · rename_i h
        push Not at h
        rw [h3 _ h, min_eq_left]
        refine max_le ?_ (by norm_num)
        have : (100 - l[p]) / 80 ≤ 1 := by linarith
        nlinarith
    · rw [List.getElem?_eq_none (by simp; omega), List.getElem?_eq_none (by simp; omega)]

/-- at 600 nm, with a cloudy and a clear pixel: 39.15 percent, halved under a red band of 60 -/
example (da : Bool) (env : Env) (h5open : Content → Option (H5File XF)) :
    getReflectance da env h5open (fun _ => some defaultRayleighLut) exInterp exRayleigh [XF.nan, fin 30]
      [fin 120, XF.ninf] (finL [30, 180]) (.wavelength (fin 0.6)) (some (finL [10, 60])) exLutWorld =
      (.ok [fin 39.15, fin 19.575], exLutWorld, []) := by
  have h := C142_wavelength_only da env h5open (fun _ => some defaultRayleighLut) exInterp exInterp_multilinear exRayleigh
    [XF.nan, fin 30] [fin 120, XF.ninf] [30, 180] rfl rfl (.wavelength (fin 0.6)) (some [10, 60])
    (by rintro l h; cases h; rfl) exLutWorld exLutWorld [] _ ((C69_nanometer env h5open exRayleigh).1 0.6 exLutWorld)
    ['x'] rfl rfl (by norm_num) (by norm_num) (by simp; norm_num)
  refine h.trans ?_
  unfold mockPercent
  norm_num

/-- C142: so the mocked correction strictly falls with the wavelength -/
theorem C142_falls (x y : ℝ) (h : x < y) : mockPercent y < mockPercent x := by
  unfold mockPercent
  linarith

example : mockPercent 700 < mockPercent 450 := C142_falls _ _ (by norm_num)

end Verif.Props
