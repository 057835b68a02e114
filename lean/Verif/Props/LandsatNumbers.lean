import Verif.Props.OliProgram
/-
C202: the numbers of the Landsat bands and the unit of the wavelengths of TIRS.
-/
namespace Verif.Props
open Model Spec Lemmas PyNum XF

/-- The numbers the Landsat bands of OLI have at the provider (USGS), with the sheet each band has in the workbook. -/
def providerSheets : List (String × String) :=
  [("B1", "CoastalAerosol"), ("B2", "Blue"), ("B3", "Green"), ("B4", "Red"), ("B5", "NIR"), ("B6", "SWIR1"), ("B7", "SWIR2"),
   ("B8", "Pan"), ("B9", "Cirrus")]

/-- What `OliRSR` makes of a band is the curve of this sheet of the OLI workbook. -/
def ReadsSheet (options : List (String × Conf)) (files : String → Option (String → Option (Frame XF))) (p dir : String)
    (book : String → String) (b sheet : String) : Prop :=
  ∀ samples, InWorkbook files (OsPath.join dir (book "oli")) sheet "Wavelength" "BA RSR [watts]" samples →
    ∃ s, OliRSR options files b p = .ok s ∧
      HasRawCurve s (finL ((aboveNoise samples).map fun q => q.1 / 1000)) (finL ((aboveNoise samples).map Prod.snd))

/-- C202, missing: the bands 6 to 9 and TIRS (see below).  The bands B1 to B5 are the bands with these numbers at the provider,
with wavelengths (in nanometre) converted to micron. -/
theorem C202_numbers_partial (options : List (String × Conf)) (files : String → Option (String → Option (Frame XF)))
    (p dir out : String) (book : String → String) (h : LandsatAt options p dir book out) (b sheet : String)
    (hb : (b, sheet) ∈ providerSheets) (h5 : b ∈ ["B1", "B2", "B3", "B4", "B5"]) : ReadsSheet options files p dir book b sheet := by
  intro samples hs
  have : (b, sheet) ∈ oliSheets := by
    have : ∀ q ∈ providerSheets, q.1 ∈ ["B1", "B2", "B3", "B4", "B5"] → q ∈ oliSheets := by decide +kernel
    exact this _ hb h5
  obtain ⟨s, h1, -, -, h2⟩ := C168_curve options files p dir out book h b "oli" sheet _ _ (.oli p b sheet this) samples hs
  exact ⟨s, h1, h2⟩

/-- C202 is false for the bands 6 to 9: B6 is made from the cirrus band (9 at the provider), B7 and B8 from the bands 6 and 7, and
B9 from the panchromatic band 8. -/
theorem C202_renumbered (options : List (String × Conf)) (files : String → Option (String → Option (Frame XF)))
    (p dir out : String) (book : String → String) (h : LandsatAt options p dir book out) :
    (∀ b other sheet, (b, other) ∈ [("B6", "B9"), ("B7", "B6"), ("B8", "B7"), ("B9", "B8")] → (other, sheet) ∈ providerSheets →
      ReadsSheet options files p dir book b sheet) := by
  intro b other sheet hb ho samples hs
  have : (b, sheet) ∈ oliSheets := by
    have : ∀ q ∈ [("B6", "B9"), ("B7", "B6"), ("B8", "B7"), ("B9", "B8")], ∀ r ∈ providerSheets, q.2 = r.1 → (q.1, r.2) ∈ oliSheets := by
      decide +kernel
    exact this _ hb _ ho rfl
  obtain ⟨s, h1, -, -, h2⟩ := C168_curve options files p dir out book h b "oli" sheet _ _ (.oli p b sheet this) samples hs
  exact ⟨s, h1, h2⟩

/-- C202 is false for TIRS if the column `wavelength [um]` holds what its heading says: a response between 9 and 14 micron gets
wavelengths below 0.014 micron. -/
theorem C202_tirs_unit (options : List (String × Conf)) (files : String → Option (String → Option (Frame XF)))
    (p dir out : String) (book : String → String) (h : LandsatAt options p dir book out) (b sheet column : String)
    (hb : (p, b, sheet, column) ∈ tirsSheets) (samples : List (ℝ × ℝ)) (hx : ∀ q ∈ samples, 9 ≤ q.1 ∧ q.1 ≤ 14)
    (hs : InWorkbook files (OsPath.join dir (book "tirs")) sheet "wavelength [um]" column samples) :
    ∃ s w r, OliRSR options files b p = .ok s ∧ HasRawCurve s (finL w) (finL r) ∧ 2 ≤ w.length ∧ ∀ x ∈ w, 0.009 ≤ x ∧ x ≤ 0.014 := by
  obtain ⟨s, h1, -, -, h2⟩ := C168_curve options files p dir out book h b "tirs" sheet _ _ (.tirs p b sheet column hb) samples hs
  obtain ⟨-, -, -, -, -, -, h3⟩ := hs
  refine ⟨s, _, _, h1, h2, by rwa [List.length_map], ?_⟩
  intro x hx'
  obtain ⟨q, hq, rfl⟩ := List.mem_map.1 hx'
  obtain ⟨g1, g2⟩ := hx q (List.mem_filter.1 hq).1
  constructor <;> norm_num <;> linarith

/-- workbooks where every sheet of OLI has its own responses: four sheets are shown -/
noncomputable def exSheets (_ : String) : Option (String → Option (Frame XF)) :=
  some fun sheet => if sheet = "Cirrus" then some [("Wavelength", finL [1370, 1380]), ("BA RSR [watts]", finL [0.5, 1])]
    else if sheet = "SWIR1" then some [("Wavelength", finL [1600, 1610]), ("BA RSR [watts]", finL [0.25, 1])]
    else if sheet = "Red" then some [("Wavelength", finL [650, 660]), ("BA RSR [watts]", finL [0.75, 1])]
    else if sheet = "TIRS BA RSR" then some [("wavelength [um]", finL [10, 11]), ("TIRS1 10.8um band average", finL [0.5, 1])] else none

example : ∃ s, OliRSR exLandsat exSheets "B4" "Landsat-8" = .ok s ∧ HasRawCurve s (finL [0.65, 0.66]) (finL [0.75, 1]) := by
  have h := C202_numbers_partial exLandsat exSheets "Landsat-8" _ _ _ (exLandsat_at _ (by simp)) "B4" "Red" (by decide) (by decide)
    [(650, 0.75), (660, 1)] ⟨_, _, rfl, rfl, rfl, rfl, by unfold aboveNoise; norm_num [List.filter_cons]⟩
  obtain ⟨s, h1, h2⟩ := h
  refine ⟨s, h1, ?_⟩
  unfold aboveNoise at h2
  norm_num [List.filter_cons] at h2 ⊢
  exact h2

example : ∃ s, OliRSR exLandsat exSheets "B6" "Landsat-8" = .ok s ∧ HasRawCurve s (finL [1.37, 1.38]) (finL [0.5, 1]) := by
  have h := C202_renumbered exLandsat exSheets "Landsat-8" _ _ _ (exLandsat_at _ (by simp)) "B6" "B9" "Cirrus" (by decide) (by decide)
    [(1370, 0.5), (1380, 1)] ⟨_, _, rfl, rfl, rfl, rfl, by unfold aboveNoise; norm_num [List.filter_cons]⟩
  obtain ⟨s, h1, h2⟩ := h
  refine ⟨s, h1, ?_⟩
  unfold aboveNoise at h2
  norm_num [List.filter_cons] at h2 ⊢
  exact h2

example : ∃ s w r, OliRSR exLandsat exSheets "B10" "Landsat-8" = .ok s ∧ HasRawCurve s (finL w) (finL r) ∧ 2 ≤ w.length ∧
    ∀ x ∈ w, 0.009 ≤ x ∧ x ≤ 0.014 :=
  C202_tirs_unit exLandsat exSheets "Landsat-8" _ _ _ (exLandsat_at _ (by simp)) "B10" "TIRS BA RSR" "TIRS1 10.8um band average"
    (by decide) [(10, 0.5), (11, 1)] (by simp; norm_num)
    ⟨_, _, rfl, rfl, rfl, rfl, by unfold aboveNoise; norm_num [List.filter_cons]⟩

end Verif.Props
