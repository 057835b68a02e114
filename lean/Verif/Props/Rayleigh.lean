import Verif.Props.RayleighParts
/-
Properties C59 and C60: the Rayleigh correction as a whole.
-/
namespace Verif.Props
open XF Model PyNum Lemmas Spec

theorem eff_bind_result_ok {α β : Type} {m : Eff α} {f : α → Eff β} {w : World} {b : β}
    (h : ((m >>= f) w).1 = .ok b) : ∃ a, (m w).1 = .ok a ∧ (f a (m w).2.1).1 = .ok b := by
  rcases hm : m w with ⟨r, w', t⟩
  cases r with
  | error e => rw [eff_bind_error hm] at h; cases h
  | ok a => rw [eff_bind_ok hm] at h; exact ⟨a, rfl, h⟩

/-- a percentage or NaN -/
def Percentage (v : XF) : Prop := v = XF.nan ∨ ∃ x : ℝ, v = fin x ∧ 0 ≤ x ∧ x ≤ 100

theorem clip_percentage (v : XF) : Percentage (PyNum.clip v 0 100) ∧ (PyNum.clip v 0 100 = XF.nan ↔ v = XF.nan) := by
  cases v with
  | nan => exact ⟨Or.inl (by simp [PyNum.clip, PyNum.maximum, PyNum.minimum]), by simp [PyNum.clip, PyNum.maximum, PyNum.minimum]⟩
  | fin x =>
    rw [ofNat_zero, ofNat_two, clip_fin]
    refine ⟨Or.inr ⟨_, rfl, le_min (le_max_right _ _) (by norm_num), min_le_right _ _⟩, by simp⟩
  | pinf =>
    have : PyNum.clip XF.pinf 0 100 = fin 100 := by
      rw [ofNat_zero, ofNat_two]; rfl
    rw [this]; exact ⟨Or.inr ⟨_, rfl, by norm_num, le_refl _⟩, by simp⟩
  | ninf =>
    have : PyNum.clip XF.ninf 0 100 = fin 0 := by
      rw [ofNat_zero, ofNat_two]
      show PyNum.clip XF.ninf (fin 0) (fin 100) = _
      have h1 : PyNum.maximum XF.ninf (fin 0) = fin 0 := rfl
      rw [PyNum.clip, h1, minimum_fin]; norm_num
    rw [this]; exact ⟨Or.inr ⟨_, rfl, le_refl _, by norm_num⟩, by simp⟩

/-- C59: every element of the correction is a number from 0 to 100, or NaN, whatever the
tables, angles, band and red reflectances. -/
theorem C59_percentage (da : Bool) (env : Env) (h5open : Content → Option (H5File XF)) (h5lut : Content → Option (LutFile XF))
    (interp : Interp3 XF) (r : RayleighObj) (sun sat azi : List XF) (band : RayleighBand XF) (red : Option (List XF))
    (w : World) (out : List XF)
    (h : (getReflectance da env h5open h5lut interp r sun sat azi band red w).1 = .ok out) : ∀ v ∈ out, Percentage v := by
  obtain ⟨x, _, h⟩ := eff_bind_result_ok h
  obtain ⟨res, _, h⟩ := eff_bind_result_ok h
  have h' : finish red res = .ok out := h
  unfold finish at h'
  intro v hv
  cases red with
  | none =>
    simp only [bind, Except.bind, pure, Except.pure, Except.ok.injEq] at h'
    subst h'
    obtain ⟨u, _, rfl⟩ := List.mem_map.1 hv
    exact (clip_percentage u).1
  | some l =>
    simp only [bind, Except.bind] at h'
    cases hb : NP.bcast2 relaxCloudy l res with
    | error e => rw [hb] at h'; cases h'
    | ok res' =>
      rw [hb] at h'
      simp only [pure, Except.pure, Except.ok.injEq] at h'
      subst h'
      obtain ⟨u, _, rfl⟩ := List.mem_map.1 hv
      exact (clip_percentage u).1

theorem getReflectance_run (da : Bool) (env : Env) (h5open : Content → Option (H5File XF)) (h5lut : Content → Option (LutFile XF))
    (interp : Interp3 XF) (r : RayleighObj) (sun sat azi : List XF) (band : RayleighBand XF) (red : Option (List XF))
    (w w' : World) (t : List World) (x : XF) (he : effectiveWavelength env h5open r band w = (.ok x, w', t))
    (res : List XF) (hu : uncorrected da h5lut interp r.reflectance_lut_filename x sun sat azi red w' = (.ok res, w', [])) :
    getReflectance da env h5open h5lut interp r sun sat azi band red w = (finish red res, w', t) := by
  unfold getReflectance
  rw [eff_bind_ok he, eff_bind_ok hu]
  show (finish red res, w', t ++ ([] ++ [])) = _
  simp

theorem openLut_run {h5lut : Content → Option (LutFile XF)} {p : Path} {w : World} {c : Content} {lut : LutFile XF}
    (hf : w.files p = some c) (hl : h5lut c = some lut) : openLut h5lut p w = (.ok lut, w, []) := by
  unfold openLut
  rw [eff_bind_ok (show Eff.get w = (.ok w, w, []) from rfl)]
  simp only [hf, hl]
  rfl

theorem adjusted_run {h5lut : Content → Option (LutFile XF)} {p : Path} {w : World} {c : Content} {lut : LutFile XF}
    (hf : w.files p = some c) (hl : h5lut c = some lut) (x : XF) :
    adjustedTable h5lut p x w = (tableAt lut x, w, []) := by
  unfold adjustedTable
  rw [eff_bind_ok (openLut_run hf hl)]
  rfl

/-! ### C60 -/

/-- the table at a wavelength that is not strictly between two wavelengths of the table -/
theorem tableAt_outside (lut : LutFile XF) (x : XF) (g : List ℝ) (hg : lut.wavelengths = finL g)
    (hout : (∀ v ∈ g, PyNum.lt (fin v) x = false) ∨ (∀ v ∈ g, PyNum.lt x (fin v) = false)) :
    tableAt lut x = .error .valueError := by
  unfold tableAt
  rw [hg]
  cases g with
  | nil => rfl
  | cons a g =>
    obtain ⟨m1, m2⟩ := foldl_min_mem g a
    obtain ⟨M1, M2⟩ := foldl_max_mem g a
    rw [amin_eq m1 m2, amax_eq M1 M2]
    simp only [bind, Except.bind]
    rw [if_pos]
    rintro ⟨q1, q2⟩
    rcases hout with h | h
    · rw [h _ m1] at q1; cases q1
    · rw [h _ M1] at q2; cases q2

/-- C60: for a wavelength that is not strictly between two wavelengths of the table (also NaN
or infinite) the correction of numpy arrays without red band is zero everywhere, with one value per sun zenith
angle, if dask is not installed; with red band it is zero where the red band is a number, with or without dask.
Missing: without red band and with dask installed (`C60_attribute_error`). -/
theorem C60_zero_outside_partial (env : Env) (h5open : Content → Option (H5File XF)) (h5lut : Content → Option (LutFile XF))
    (interp : Interp3 XF) (r : RayleighObj) (sun sat azi : List XF) (band : RayleighBand XF)
    (w w' : World) (t : List World) (x : XF) (he : effectiveWavelength env h5open r band w = (.ok x, w', t))
    (c : Content) (lut : LutFile XF) (hf : w'.files r.reflectance_lut_filename = some c) (hl : h5lut c = some lut)
    (g : List ℝ) (hg : lut.wavelengths = finL g)
    (hout : (∀ v ∈ g, PyNum.lt (fin v) x = false) ∨ (∀ v ∈ g, PyNum.lt x (fin v) = false)) :
    getReflectance false env h5open h5lut interp r sun sat azi band none w = (.ok (sun.map fun _ => fin 0), w', t) ∧
    ∀ (da : Bool) (red : List XF), ∃ out, getReflectance da env h5open h5lut interp r sun sat azi band (some red) w = (.ok out, w', t) ∧
      out.length = red.length ∧
      ∀ (i : Nat) (v : XF), red[i]? = some v → (∀ y : ℝ, v = fin y → out[i]? = some (fin 0)) ∧
        (v = XF.nan → out[i]? = some XF.nan) := by
  have hu : ∀ (da : Bool) (red : Option (List XF)), (da && red.isNone) = false →
      uncorrected da h5lut interp r.reflectance_lut_filename x sun sat azi red w' =
        (.ok ((red.getD sun).map fun _ => (0 : XF)), w', []) := by
    intro da red hd
    unfold uncorrected
    rw [adjusted_run hf hl, tableAt_outside lut x g hg hout]
    simp only [hd]
    rfl
  have hz : PyNum.clip (0 : XF) 0 100 = fin 0 := by
    rw [ofNat_zero, ofNat_two, clip_fin]; norm_num
  constructor
  · rw [getReflectance_run false env h5open h5lut interp r sun sat azi band none w w' t x he _ (hu false none rfl)]
    have : finish none ((Option.getD none sun).map fun _ => (0 : XF)) = .ok (sun.map fun _ => fin 0) := by
      unfold finish
      simp only [bind, Except.bind, pure, Except.pure, Option.getD_none, List.map_map, Function.comp_def, hz]
    rw [this]
  · intro da red
    rw [getReflectance_run da env h5open h5lut interp r sun sat azi band (some red) w w' t x he _ (hu da (some red) (by simp))]
    have hfin : finish (some red) ((Option.getD (some red) sun).map fun _ => (0 : XF)) =
        .ok (red.map fun v => PyNum.clip (relaxCloudy v (0 : XF)) 0 100) := by
      unfold finish
      simp only [Option.getD_some]
      rw [bcast2_eq_len _ _ _ (by simp)]
      simp only [bind, Except.bind, pure, Except.pure, Except.ok.injEq]
      rw [List.zipWith_map_right, List.zipWith_self, List.map_map]
      rfl
    rw [hfin]
    refine ⟨_, rfl, by simp, ?_⟩
    intro i v hv
    constructor
    · rintro y rfl
      rw [List.getElem?_map, hv]
      obtain ⟨q, h1, _⟩ := C63_fades_out 0
      rw [Option.map_some, ofNat_zero]
      obtain ⟨q, h1, _, h2, h3, _⟩ := C63_fades_out 0
      rw [h1]
      have hq : q y = 0 := by
        rcases le_total y 20 with h | h
        · exact h2 y h
        · rw [h3 y h]; ring
      rw [hq, ← ofNat_zero, hz, ofNat_zero]
    · rintro rfl
      rw [List.getElem?_map, hv, Option.map_some, C63_nan]
      exact congrArg some ((clip_percentage XF.nan).2.2 rfl)

/-- C60, why it is partial: with dask installed, numpy arrays, no red band and such a wavelength, `get_reflectance`
always raises AttributeError (the zeros of numpy have no `compute`). -/
theorem C60_attribute_error (env : Env) (h5open : Content → Option (H5File XF)) (h5lut : Content → Option (LutFile XF))
    (interp : Interp3 XF) (r : RayleighObj) (sun sat azi : List XF) (band : RayleighBand XF)
    (w w' : World) (t : List World) (x : XF) (he : effectiveWavelength env h5open r band w = (.ok x, w', t))
    (c : Content) (lut : LutFile XF) (hf : w'.files r.reflectance_lut_filename = some c) (hl : h5lut c = some lut)
    (g : List ℝ) (hg : lut.wavelengths = finL g)
    (hout : (∀ v ∈ g, PyNum.lt (fin v) x = false) ∨ (∀ v ∈ g, PyNum.lt x (fin v) = false)) :
    getReflectance true env h5open h5lut interp r sun sat azi band none w = (.error .attributeError, w', t) := by
  have hu : uncorrected true h5lut interp r.reflectance_lut_filename x sun sat azi none w' =
      (.error .attributeError, w', []) := by
    unfold uncorrected
    rw [adjusted_run hf hl, tableAt_outside lut x g hg hout]
    rfl
  unfold getReflectance
  rw [eff_bind_ok he, eff_bind_error hu]
  simp

theorem eff_bind_congr {α β : Type} {m₁ m₂ : Eff α} {f : α → Eff β} {w : World} (h : m₁ w = m₂ w) :
    (m₁ >>= f) w = (m₂ >>= f) w := by
  show Eff.bind m₁ f w = Eff.bind m₂ f w
  unfold Eff.bind
  rw [h]

/-- C60: apart from that dask changes nothing: with dask installed the result for numpy arrays is the one without
dask, or AttributeError; with a red band it is the one without dask. -/
theorem C60_dask_installed {α : Type} [PyNum α] (env : Env) (h5open : Content → Option (H5File α)) (h5lut : Content → Option (LutFile α))
    (interp : Interp3 α) (r : RayleighObj) (sun sat azi : List α) (band : RayleighBand α) (red : Option (List α)) (w : World) :
    (getReflectance true env h5open h5lut interp r sun sat azi band red w =
        getReflectance false env h5open h5lut interp r sun sat azi band red w) ∨
      (red = none ∧ (getReflectance true env h5open h5lut interp r sun sat azi band red w).1 = .error .attributeError ∧
        (getReflectance true env h5open h5lut interp r sun sat azi band red w).2 =
          (getReflectance false env h5open h5lut interp r sun sat azi band red w).2) := by
  rcases he : effectiveWavelength env h5open r band w with ⟨x, w', t⟩
  unfold getReflectance
  cases x with
  | error e => left; rw [eff_bind_error he, eff_bind_error he]
  | ok x =>
    rw [eff_bind_ok he, eff_bind_ok he]
    cases red with
    | some red =>
      left
      have : uncorrected true h5lut interp r.reflectance_lut_filename x sun sat azi (some red) =
          uncorrected false h5lut interp r.reflectance_lut_filename x sun sat azi (some red) := by
        funext w
        unfold uncorrected
        simp only [Option.isNone_some, Bool.and_false]
      rw [this]
    | none =>
      rcases ha : adjustedTable h5lut r.reflectance_lut_filename x w' with ⟨o, w₂, t₂⟩
      by_cases hv : o = .error .valueError
      · subst hv
        right
        have h1 : uncorrected true h5lut interp r.reflectance_lut_filename x sun sat azi none w' =
            (.error .attributeError, w₂, t₂) := by
          unfold uncorrected; rw [ha]; rfl
        have h2 : uncorrected false h5lut interp r.reflectance_lut_filename x sun sat azi none w' =
            (.ok (sun.map fun _ => 0), w₂, t₂) := by
          unfold uncorrected; rw [ha]; rfl
        rw [eff_bind_error h1, eff_bind_ok h2]
        refine ⟨rfl, rfl, ?_⟩
        show (w₂, t ++ t₂) = (w₂, t ++ (t₂ ++ []))
        simp
      · left
        have : uncorrected true h5lut interp r.reflectance_lut_filename x sun sat azi none w' =
            uncorrected false h5lut interp r.reflectance_lut_filename x sun sat azi none w' := by
          unfold uncorrected
          rw [ha]
          cases o with
          | ok _ => rfl
          | error e => cases e <;> first | rfl | exact absurd rfl hv
        rw [eff_bind_congr this]

/-- C60: if the table file does not exist, FileNotFoundError. -/
theorem C60_missing_file (da : Bool) (env : Env) (h5open : Content → Option (H5File XF)) (h5lut : Content → Option (LutFile XF))
    (interp : Interp3 XF) (r : RayleighObj) (sun sat azi : List XF) (band : RayleighBand XF) (red : Option (List XF))
    (w w' : World) (t : List World) (x : XF) (he : effectiveWavelength env h5open r band w = (.ok x, w', t))
    (hf : w'.files r.reflectance_lut_filename = none) :
    getReflectance da env h5open h5lut interp r sun sat azi band red w = (.error .fileNotFound, w', t) := by
  have ho : openLut h5lut r.reflectance_lut_filename w' = (.error .fileNotFound, w', []) := by
    unfold openLut
    rw [eff_bind_ok (show Eff.get w' = (.ok w', w', []) from rfl)]
    simp only [hf]
    rfl
  have ha : adjustedTable h5lut r.reflectance_lut_filename x w' = (.error .fileNotFound, w', []) := by
    unfold adjustedTable
    exact eff_bind_error ho
  have hu : uncorrected da h5lut interp r.reflectance_lut_filename x sun sat azi red w' = (.error .fileNotFound, w', []) := by
    unfold uncorrected
    rw [ha]
  unfold getReflectance
  rw [eff_bind_ok he, eff_bind_error hu]
  simp

/-! ### C59, no NaN -/

/-- C59: with a regular finite table, a wavelength inside it, azimuth differences inside it and a
finite red band (if any) every element is a number from 0 to 100, whatever the zenith angles:
NaN and infinite ones included. -/
theorem C59_no_nan (da : Bool) (env : Env) (h5open : Content → Option (H5File XF)) (h5lut : Content → Option (LutFile XF))
    (interp : Interp3 XF) (hi : IsMultilinear interp) (r : RayleighObj) (sun sat : List XF) (azi : List ℝ)
    (hl1 : sun.length = azi.length) (hl2 : azi.length = sat.length) (band : RayleighBand XF) (red : Option (List ℝ))
    (hred : ∀ l, red = some l → l.length = sun.length)
    (w w' : World) (t : List World) (x : ℝ) (he : effectiveWavelength env h5open r band w = (.ok (fin x), w', t))
    (c : Content) (lut : LutFile XF) (hf : w'.files r.reflectance_lut_filename = some c) (hl : h5lut c = some lut)
    (A B C : Axis) (hreg : RegularLut lut A B C)
    (g : List ℝ) (tables : List (List ℝ)) (hg : lut.wavelengths = finL g) (hinc : Increasing g)
    (ht : lut.reflectance = tables.map finL) (hlen : tables.length = g.length)
    (hN : ∀ q ∈ tables, q.length = A.n * B.n * C.n) (hg0 : 0 < g.length) (hx0 : g[0] < x) (hx1 : x < g[g.length - 1])
    (hazi : ∀ d ∈ azi, B.lo ≤ 180 - d ∧ 180 - d ≤ B.hi) :
    ∃ out : List ℝ, getReflectance da env h5open h5lut interp r sun sat (finL azi) band (red.map finL) w =
        (.ok (finL out), w', t) ∧ out.length = sun.length ∧ ∀ v ∈ out, 0 ≤ v ∧ v ≤ 100 := by
  obtain ⟨k, hk, hk0, hk1⟩ := C61_has_neighbours g x hg0 hx0 hx1
  obtain ⟨T, hT, hTl, _⟩ := C61_linear_between_neighbours lut g tables _ hg hinc ht hlen hN k hk x hk0 hk1 hx1
  obtain ⟨res, hres, hrl, hpix⟩ := interp_pixels interp lut A B C hreg sun sat (finL azi) (by simpa using hl1)
    (by simpa using hl2) (finL T)
  -- all interpolated values are finite
  have hfinite : ∃ R : List ℝ, res = finL R := by
    have : ∀ (l : List XF), (∀ v ∈ l, ∃ y : ℝ, v = fin y) → ∃ R : List ℝ, l = finL R := by
      intro l
      induction l with
      | nil => intro _; exact ⟨[], rfl⟩
      | cons a l ih =>
        intro h
        obtain ⟨y, rfl⟩ := h a (by simp)
        obtain ⟨R, rfl⟩ := ih (fun v hv => h v (by simp [hv]))
        exact ⟨y :: R, rfl⟩
    apply this
    intro v hv
    obtain ⟨p, hp, rfl⟩ := List.getElem_of_mem hv
    have hp1 : p < sun.length := by omega
    have hp2 : p < sat.length := by omega
    have hp3 : p < azi.length := by omega
    have := hpix p sun[p] sat[p] (fin azi[p]) (List.getElem?_eq_getElem hp1) (List.getElem?_eq_getElem hp2)
      (by unfold finL; rw [List.getElem?_map, List.getElem?_eq_getElem hp3]; rfl)
    obtain ⟨_, _, _, _, _, _, y, hy, _⟩ := C65_within_cell interp hi A B C T hTl hreg.sunRange hreg.satRange
      sun[p] sat[p] azi[p] (hazi _ (List.getElem_mem _))
    rw [hy, List.getElem?_eq_getElem hp] at this
    exact ⟨y, Option.some.inj this⟩
  obtain ⟨R, rfl⟩ := hfinite
  have hu : uncorrected da h5lut interp r.reflectance_lut_filename (fin x) sun sat (finL azi) (red.map finL) w' =
      (.ok (finL R), w', []) := by
    unfold uncorrected
    rw [adjusted_run hf hl, hT]
    simp only [openLut_run hf hl, hres]
  rw [getReflectance_run da env h5open h5lut interp r sun sat (finL azi) band _ w w' t (fin x) he _ hu]
  have hclip : ∀ Q : List ℝ, (finL Q).map (fun v => PyNum.clip v 0 100) = finL (Q.map fun v => min (max v 0) 100) := by
    intro Q
    simp only [finL, List.map_map]
    apply List.map_congr_left
    intro v _
    simp only [Function.comp, ofNat_zero, ofNat_two, clip_fin]
  have hrange : ∀ (Q : List ℝ), ∀ v ∈ Q.map (fun v => min (max v (0:ℝ)) 100), 0 ≤ v ∧ v ≤ 100 := by
    intro Q v hv
    obtain ⟨u, _, rfl⟩ := List.mem_map.1 hv
    exact ⟨le_min (le_max_right _ _) (by norm_num), min_le_right _ _⟩
  have hRl : R.length = sun.length := by simpa using hrl
  cases red with
  | none =>
    refine ⟨R.map fun v => min (max v 0) 100, ?_, by simpa using hRl, hrange _⟩
    show (finish none (finL R), w', t) = _
    unfold finish
    simp only [bind, Except.bind, pure, Except.pure, hclip]
  | some l =>
    have hll := hred l rfl
    have hz : ∃ Q : List ℝ, NP.bcast2 relaxCloudy (finL l) (finL R) = .ok (finL Q) ∧ Q.length = sun.length := by
      rw [bcast2_eq_len _ _ _ (by simp; omega)]
      refine ⟨List.zipWith (fun a b => (1 - (max a 20 - 20) / 80) * b) l R, ?_, by simp; omega⟩
      rw [Except.ok.injEq]
      unfold finL
      rw [List.zipWith_map, List.map_zipWith]
      congr 1
      funext a b
      obtain ⟨q, h1, _, h2, h3, _⟩ := C63_fades_out b
      rw [h1, fin_inj]
      rcases le_total a 20 with h | h
      · rw [h2 a h, max_eq_right h]; ring
      · rw [h3 a h, max_eq_left h]; ring
    obtain ⟨Q, hQ, hQl⟩ := hz
    refine ⟨Q.map fun v => min (max v 0) 100, ?_, by simpa using hQl, hrange _⟩
    show (finish (some (finL l)) (finL R), w', t) = _
    unfold finish
    simp only [hQ, bind, Except.bind, pure, Except.pure, hclip]

/-! ### Examples -/

/-- a table file in place -/
def exLutWorld : World where
  files := fun p => if p = ("/ray/rural_aerosol", "rayleigh_lut_us-standard.h5") then some ['x'] else none
  dirs := fun _ => true
  requests := []

/-- an object using it -/
def exRayleigh : RayleighObj := ⟨"NOAA-20", "viirs", ("/ray/rural_aerosol", "rayleigh_lut_us-standard.h5")⟩

/-- h5py for the examples -/
noncomputable def exOpen : Content → Option (LutFile XF) := fun _ => some exLut

example (da : Bool) (env : Env) (h5open : Content → Option (H5File XF)) :
    ∃ out : List ℝ, getReflectance da env h5open exOpen exInterp exRayleigh [XF.nan, fin 30] [fin 120, XF.ninf]
        (finL [30, 90]) (.wavelength (fin 0.425)) ((some [10, 60] : Option (List ℝ)).map finL) exLutWorld =
        (.ok (finL out), exLutWorld, []) ∧ out.length = 2 ∧ ∀ v ∈ out, 0 ≤ v ∧ v ≤ 100 :=
  C59_no_nan da env h5open exOpen exInterp exInterp_multilinear exRayleigh [XF.nan, fin 30] [fin 120, XF.ninf] [30, 90]
    rfl rfl (.wavelength (fin 0.425)) (some [10, 60]) (by rintro l h; cases h; rfl) exLutWorld exLutWorld [] _
    ((C69_nanometer env h5open exRayleigh).1 0.425 exLutWorld) ['x'] exLut rfl rfl exSun exAzi exSat exLut_regular
    [400, 500, 600] [[0, 1, 2, 3, 4, 5, 6, 7], [8, 9, 10, 11, 12, 13, 14, 15], [1, 1, 1, 1, 1, 1, 1, 1]] rfl
    (by simp [Increasing]; norm_num) rfl rfl (by simp [exSun, exAzi, exSat]) (by simp) (by simp; norm_num)
    (by simp; norm_num) (by simp [exAzi]; norm_num)

theorem exLut_outside : ∀ v ∈ ([400, 500, 600] : List ℝ), PyNum.lt (fin v) (fin (0.4 * 1000)) = false := by
  intro v hv
  simp only [lt_fin, decide_eq_false_iff_not]
  simp at hv
  rcases hv with rfl | rfl | rfl <;> norm_num

/-- 400 nm, the first wavelength of the table: zeros without dask, ... -/
example (env : Env) (h5open : Content → Option (H5File XF)) :
    getReflectance false env h5open exOpen exInterp exRayleigh [fin 10, fin 20] [fin 0, fin 0]
      [fin 0, fin 0] (.wavelength (fin 0.4)) none exLutWorld = (.ok [fin 0, fin 0], exLutWorld, []) :=
  (C60_zero_outside_partial env h5open exOpen exInterp exRayleigh _ _ _ _ exLutWorld exLutWorld [] _
    ((C69_nanometer env h5open exRayleigh).1 0.4 exLutWorld) ['x'] exLut rfl rfl [400, 500, 600] rfl (Or.inl exLut_outside)).1

/-- ... an exception with dask, ... -/
example (env : Env) (h5open : Content → Option (H5File XF)) :
    getReflectance true env h5open exOpen exInterp exRayleigh [fin 10, fin 20] [fin 0, fin 0]
      [fin 0, fin 0] (.wavelength (fin 0.4)) none exLutWorld = (.error .attributeError, exLutWorld, []) :=
  C60_attribute_error env h5open exOpen exInterp exRayleigh _ _ _ _ exLutWorld exLutWorld [] _
    ((C69_nanometer env h5open exRayleigh).1 0.4 exLutWorld) ['x'] exLut rfl rfl [400, 500, 600] rfl (Or.inl exLut_outside)

/-- ... and zero with a red band -/
example (env : Env) (h5open : Content → Option (H5File XF)) :
    ∃ out, getReflectance true env h5open exOpen exInterp exRayleigh [fin 10, fin 20] [fin 0, fin 0]
      [fin 0, fin 0] (.wavelength (fin 0.4)) (some [fin 30, XF.nan]) exLutWorld = (.ok out, exLutWorld, []) ∧
      out[0]? = some (fin 0) ∧ out[1]? = some XF.nan := by
  obtain ⟨out, h1, -, h2⟩ := (C60_zero_outside_partial env h5open exOpen exInterp exRayleigh [fin 10, fin 20] [fin 0, fin 0]
    [fin 0, fin 0] (.wavelength (fin 0.4)) exLutWorld exLutWorld [] _ ((C69_nanometer env h5open exRayleigh).1 0.4 exLutWorld)
    ['x'] exLut rfl rfl [400, 500, 600] rfl (Or.inl exLut_outside)).2 true [fin 30, XF.nan]
  exact ⟨out, h1, (h2 0 _ rfl).1 30 rfl, (h2 1 _ rfl).2 rfl⟩

/-- C59 whatever the table file contains -/
example (da : Bool) (env : Env) (h5open : Content → Option (H5File XF)) (h5lut : Content → Option (LutFile XF)) (out : List XF)
    (h : (getReflectance da env h5open h5lut exInterp exRayleigh [fin 10] [fin 0] [fin 0] (.wavelength (fin 0.5)) none
      exLutWorld).1 = .ok out) : ∀ v ∈ out, Percentage v :=
  C59_percentage da env h5open h5lut exInterp exRayleigh _ _ _ _ _ _ _ h

/-- the table file is not there -/
example (da : Bool) (env : Env) (h5open : Content → Option (H5File XF)) :
    getReflectance da env h5open exOpen exInterp { exRayleigh with reflectance_lut_filename := ("/ray", "gone.h5") }
      [fin 10] [fin 0] [fin 0] (.wavelength (fin 0.5)) none exLutWorld = (.error .fileNotFound, exLutWorld, []) :=
  C60_missing_file da env h5open exOpen exInterp _ _ _ _ _ none exLutWorld exLutWorld [] _
    ((C69_nanometer env h5open _).1 0.5 exLutWorld) (by decide)

end Verif.Props
