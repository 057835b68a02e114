import Verif.Model.OtherConvert
import Verif.Props.OriginalData
import Verif.Props.MoreConvert
import Verif.Props.SheetConvert
import Verif.Props.ConvertedName
/-
Properties C161 and C162: the converters for AGRI, GHI, SLSTR (text), MSI, EPIC, GOCI-2, FCI and
MERSI-1, from the configuration and the original files to the curve handed to the writer.
-/
namespace Verif.Props
open Model Spec Lemmas PyNum XF
variable {α : Type} [PyNum α]

/-- no curve was read -/
def NoRawCurve (s : RawSensor α) : Prop := ∀ w r, ¬ HasRawCurve s w r

theorem noData_none (inst out : String) : NoRawCurve (RawSensor.noData (α := α) inst out) := by
  rintro w r ⟨h, -⟩
  simp [RawSensor.noData, Dict.get?] at h

/-- a table of numbers -/
def finPairs (samples : List (ℝ × ℝ)) : List (XF × XF) := samples.map fun p => (fin p.1, fin p.2)

theorem finPairs_fst (samples : List (ℝ × ℝ)) : (finPairs samples).map Prod.fst = finL (samples.map Prod.fst) := by
  unfold finPairs finL; rw [List.map_map, List.map_map]; rfl

theorem finPairs_snd (samples : List (ℝ × ℝ)) : (finPairs samples).map Prod.snd = finL (samples.map Prod.snd) := by
  unfold finPairs finL; rw [List.map_map, List.map_map]; rfl

open Classical in
/-- responses given in percent (some above 1) as fractions -/
noncomputable def asFractions (samples : List (ℝ × ℝ)) : List (ℝ × ℝ) :=
  if ∃ p ∈ samples, 1 < p.2 then samples.map fun p => (p.1, p.2 / 100) else samples

/-- the samples with a response above a thousandth -/
noncomputable def above (samples : List (ℝ × ℝ)) : List (ℝ × ℝ) := samples.filter fun p => (0.001 : ℝ) < p.2

theorem gt_fin (x y : ℝ) : gt (fin x) (fin y) = decide (y < x) := lt_fin _ _

theorem milli : (0.001 : XF) = fin 0.001 := by rw [ofSci_eq]
theorem unitOne : (1.0 : XF) = fin 1 := by rw [ofSci_eq]; norm_num
theorem hundred : (100.0 : XF) = fin 100 := by rw [ofSci_eq]; norm_num

/-- the curve that the readers of AGRI and GHI take from a table -/
theorem agriLoad_fin (samples : List (ℝ × ℝ)) (hne : samples ≠ []) (nano : Bool) :
    agriLoad (finL (samples.map Prod.fst)) (finL (samples.map Prod.snd)) (if nano then 0.001 else 1.0) =
      .ok ⟨finL ((above (asFractions samples)).map fun p => if nano then p.1 / 1000 else p.1),
        finL ((above (asFractions samples)).map Prod.snd)⟩ := by
  obtain ⟨c, h1, h2, h3⟩ := C111_agri_samples (finL (samples.map Prod.fst)) (finL (samples.map Prod.snd))
    (if nano then 0.001 else 1.0) (by simp [finL]) (by simpa [finL] using hne)
  have hany : ((finL (samples.map Prod.snd)).any fun x => gt x 1) = decide (∃ p ∈ samples, 1 < p.2) := by
    rw [Bool.eq_iff_iff, List.any_eq_true, decide_eq_true_iff]
    constructor
    · rintro ⟨x, hx, hg⟩
      simp only [finL, List.mem_map] at hx
      obtain ⟨y, ⟨p, hp, rfl⟩, rfl⟩ := hx
      refine ⟨p, hp, ?_⟩
      rw [ofNat_one, gt_fin] at hg
      simpa using hg
    · rintro ⟨p, hp, hg⟩
      refine ⟨fin p.2, ?_, ?_⟩
      · simp only [finL, List.mem_map]
        exact ⟨p.2, ⟨p, hp, rfl⟩, rfl⟩
      · rw [ofNat_one, gt_fin]; simpa using hg
  have key : c.wavelength.zip c.response =
      (above (asFractions samples)).map fun p => (fin (if nano then p.1 / 1000 else p.1), fin p.2) := by
    rw [h3, hany]
    unfold above asFractions finL
    have hz : ((samples.map Prod.fst).map XF.fin).zip ((samples.map Prod.snd).map XF.fin) =
        samples.map fun p => (fin p.1, fin p.2) := by
      rw [List.map_map, List.map_map, List.zip_map']
      rfl
    have hs : ∀ x : ℝ, fin x * (if nano = true then (0.001 : XF) else 1.0) = fin (if nano then x / 1000 else x) := by
      intro x
      cases nano
      · simp only [Bool.false_eq_true, if_false, unitOne, fin_mul, mul_one]
      · simp only [if_true, milli, fin_mul]
        congr 1
        norm_num
        ring
    rw [hz, List.map_map]
    by_cases hp : ∃ p ∈ samples, 1 < p.2
    · rw [if_pos hp]
      simp only [hp, decide_true, if_true]
      rw [List.filter_map, List.filter_map, List.map_map]
      have hF : ∀ p : ℝ × ℝ, ((fun p : XF × XF => (p.1 * (if nano = true then (0.001 : XF) else 1.0), p.2 / 100.0)) ∘
          fun p : ℝ × ℝ => (fin p.1, fin p.2)) p = (fin (if nano then p.1 / 1000 else p.1), fin (p.2 / 100)) := by
        intro p
        simp only [Function.comp_apply, hs, hundred]
        rw [fin_div _ (by norm_num)]
      rw [funext hF]
      congr 1
    · rw [if_neg hp]
      simp only [hp, decide_false, Bool.false_eq_true, if_false]
      rw [List.filter_map]
      have hF : ∀ p : ℝ × ℝ, ((fun p : XF × XF => (p.1 * (if nano = true then (0.001 : XF) else 1.0), p.2)) ∘
          fun p : ℝ × ℝ => (fin p.1, fin p.2)) p = (fin (if nano then p.1 / 1000 else p.1), fin p.2) := by
        intro p
        simp only [Function.comp_apply, hs]
      rw [funext hF]
      congr 1
  have e1 : c.wavelength = _ := (List.map_fst_zip (l₁ := c.wavelength) (l₂ := c.response) (by omega)).symm
  have e2 : c.response = _ := (List.map_snd_zip (l₁ := c.wavelength) (l₂ := c.response) (by omega)).symm
  rw [key, List.map_map] at e1 e2
  rw [h1]
  congr 1
  cases c
  simp only at e1 e2
  rw [e1, e2]
  unfold finL
  simp only [List.map_map]
  rfl

/-! ### C161 -/

/-- the platforms of AGRI and GHI, their bands, and those given in nm instead of micron -/
def agriBands : List (String × List String × List String) :=
  [("FY-4A", chNames 14, chNames 3), ("FY-4B", chNames 15, chNames 6)]

theorem scaledLoad_run (table : Dict String (Dict String Bool)) (platform band : String) (d : Dict String Bool)
    (h1 : table.get? platform = some d) (nano : Bool) (h2 : d.get? band = some nano) (lines : List (List XF))
    (samples : List (ℝ × ℝ)) (ht : TableWith lines 1 0 1 (finPairs samples)) :
    scaledLoad table platform band lines =
      .ok ⟨finL ((above (asFractions samples)).map fun p => if nano then p.1 / 1000 else p.1),
        finL ((above (asFractions samples)).map Prod.snd)⟩ := by
  have hne : samples ≠ [] := by
    have := ht.1
    intro e
    rw [e] at this
    exact this rfl
  obtain ⟨t, e, e0, e1⟩ := genfromtxt_list lines ["wavelength", "response"] 1 0 1 _ (by decide) (by decide) ht
  unfold scaledLoad
  rw [getItem_ok_iff.2 h1]
  simp only [bind, Except.bind, h2, e, e0, e1]
  rw [finPairs_fst, finPairs_snd, agriLoad_fin samples hne nano]

/-- C161: for AGRI the samples of the band's table with a response above 0.001 are handed on, in order:
wavelengths in micron, also where the table has nm (ch1-ch3 of FY-4A, ch1-ch6 of FY-4B), responses as
fractions, also where the table has percent. -/
theorem C161_agri (options : List (String × Conf)) (files : String → Option (List (List XF))) (platform dir out : String)
    (bands nm : List String) (hp : (platform, bands, nm) ∈ agriBands) (file : String → String)
    (h : OriginalsAt options platform "agri" bands dir file out) (band : String) (hb : band ∈ bands) :
    (∀ lines samples, files (OsPath.join dir (file band)) = some lines → TableWith lines 1 0 1 (finPairs samples) →
      ∃ s, AgriRSR options files band platform = .ok s ∧ s.instrument = "agri" ∧ s.output_dir = out ∧
        HasRawCurve s (finL ((above (asFractions samples)).map fun p => if band ∈ nm then p.1 / 1000 else p.1))
          (finL ((above (asFractions samples)).map Prod.snd))) ∧
    (files (OsPath.join dir (file band)) = none →
      ∃ s, AgriRSR options files band platform = .ok s ∧ NoRawCurve s) := by
  have hT : ∀ p ∈ agriBands, (if p.1 = "FY-4A" then AGRI_BAND_NAMES.dropLast else AGRI_BAND_NAMES) = p.2.1 ∧
      instrumentAmong p.1 "agri" = "agri" ∧ ∀ b ∈ p.2.1, (AGRI_IN_NANOMETRES.get? p.1).bind (fun d => d.get? b) =
        some (decide (b ∈ p.2.2)) := by decide +kernel
  obtain ⟨t1, t2, t3⟩ := hT _ hp
  dsimp only at t1 t2 t3
  have t3 := t3 band hb
  have hrun : AgriRSR options files band platform =
      textClass options files bands (some "agri") .warn (scaledLoad AGRI_IN_NANOMETRES platform band) band platform := by
    unfold AgriRSR
    rw [t1, t2]
  rw [hrun, textClass_run _ _ _ _ _ _ _ _ _ _ _ h hb]
  constructor
  · intro lines samples hf ht
    rw [hf]
    cases hd : AGRI_IN_NANOMETRES.get? platform with
    | none => rw [hd] at t3; cases t3
    | some d =>
      rw [hd] at t3
      simp only [bind, Except.bind, scaledLoad_run _ _ _ d hd _ t3 lines samples ht, pure, Except.pure]
      refine ⟨_, rfl, rfl, rfl, ?_, rfl⟩
      simp only [decide_eq_true_eq]
      rfl
  · intro hf
    rw [hf]
    exact ⟨_, rfl, noData_none _ _⟩

/-- the configuration and files of the examples -/
noncomputable def exAgriFiles : String → Option (List (List XF)) := fun p =>
  if p = "/raw/ch2.txt" then some [[fin 0, fin 0], [fin 640, fin 0], [fin 650, fin 80], [fin 660, fin 100]] else none

example : ∃ s, AgriRSR (exOriginals "FY-4B" "agri" (chNames 15)) exAgriFiles "ch2" "FY-4B" = .ok s ∧
    HasRawCurve s (finL [0.65, 0.66]) (finL [0.8, 1]) := by
  obtain ⟨s, h1, -, -, h2⟩ := (C161_agri (exOriginals "FY-4B" "agri" (chNames 15)) exAgriFiles "FY-4B" "/raw" "/rsr"
    (chNames 15) (chNames 6) (by decide +kernel) (· ++ ".txt") (exOriginals_at _ _ 15 (by decide) (by decide +kernel))
    "ch2" (by decide +kernel)).1 _ [(640, 0), (650, 80), (660, 100)] (by unfold exAgriFiles; rw [if_pos (by decide +kernel)])
    ⟨by simp [finPairs], 2, by simp [finPairs]⟩
  refine ⟨s, h1, ?_⟩
  have e : above (asFractions [(640, 0), (650, 80), (660, 100)]) = [(650, 0.8), (660, 1)] := by
    unfold asFractions
    rw [if_pos ⟨(650, 80), by simp, by norm_num⟩]
    simp only [above, List.map_cons, List.map_nil, List.filter_cons, List.filter_nil]
    norm_num
  rw [e] at h2
  have hm : "ch2" ∈ chNames 6 := by decide +kernel
  simp only [List.map_cons, List.map_nil, hm, if_true] at h2
  norm_num at h2 ⊢
  exact h2

/-- a band that the instrument does not have is refused -/
theorem textClass_unknown {φ : Type} (options : List (String × Conf)) (files : String → Option φ) (bands : List String)
    (inst : String) (m : OnMissing) (load : φ → Py (RawCurve α)) (band platform dir out : String)
    (file : String → String) (h : OriginalsAt options platform inst bands dir file out) (hb : band ∉ bands) :
    textClass options files bands (some inst) m load band platform = .error .keyError := by
  obtain ⟨r', r'', h1, h2⟩ := C93_returns options
    ({ InstrumentRSR.new band platform (some bands) with instrument := some inst } : InstrumentRSR) inst dir rfl h.dir
    (fun b hb => ⟨_, h.files b hb⟩)
  have hk := (C93_band_files options _ r' r'' inst rfl h1 h2).2 band hb
  have hn : ∀ (l : List String) (d : Dict String (Option String)), band ∉ l → d.get? band = none →
      (l.foldl (fun d b => Dict.set d b none) d).get? band = none := by
    intro l
    induction l with
    | nil => intro d _ hd; exact hd
    | cons x l ih =>
      intro d hl hd
      rw [List.mem_cons, not_or] at hl
      rw [List.foldl_cons]
      exact ih _ hl.2 (by rw [get?_set_ne, hd]; exact hl.1)
  have hk : Dict.get? r''.filenames band = none := by
    rw [hk]
    exact hn bands [] hb rfl
  unfold textClass
  rw [h1]
  simp only [bind, Except.bind]
  rw [h2]
  simp only
  unfold Dict.getItem
  rw [hk]

/-- C161: a name that is no band of the instrument is refused: for AGRI also ch15 of FY-4A. -/
theorem C161_unknown_band (options : List (String × Conf)) (files : String → Option (List (List α))) (platform dir out : String)
    (file : String → String) (band : String) :
    (∀ bands nm, (platform, bands, nm) ∈ agriBands → OriginalsAt options platform "agri" bands dir file out → band ∉ bands →
      AgriRSR options files band platform = .error .keyError) ∧
    (OriginalsAt options "FY-4B" "ghi" (chNames 7) dir file out → band ∉ chNames 7 →
      GhiRSR options files band "FY-4B" = .error .keyError) ∧
    (OriginalsAt options platform "slstr" (chNames 9) dir file out → band ∉ chNames 9 →
      SlstrTxtRSR options files band platform = .error .keyError) := by
  refine ⟨?_, ?_, ?_⟩
  · intro bands nm hp h hb
    have hT : ∀ p ∈ agriBands, (if p.1 = "FY-4A" then AGRI_BAND_NAMES.dropLast else AGRI_BAND_NAMES) = p.2.1 ∧
        instrumentAmong p.1 "agri" = "agri" := by decide +kernel
    obtain ⟨t1, t2⟩ := hT _ hp
    dsimp only at t1 t2
    unfold AgriRSR
    rw [t1, t2]
    exact textClass_unknown _ _ _ _ _ _ _ _ _ _ _ h hb
  · intro h hb
    unfold GhiRSR
    rw [show instrumentAmong "FY-4B" "ghi" = "ghi" by decide +kernel]
    exact textClass_unknown _ _ _ _ _ _ _ _ _ _ _ h hb
  · intro h hb
    exact textClass_unknown _ _ _ _ _ _ _ _ _ _ _ h hb

example : AgriRSR (exOriginals "FY-4A" "agri" (chNames 14)) exAgriFiles "ch15" "FY-4A" = .error .keyError :=
  (C161_unknown_band _ _ _ _ _ _ _).1 (chNames 14) (chNames 3) (by decide +kernel)
    (exOriginals_at _ _ 14 (by decide) (by decide +kernel)) (by decide +kernel)

/-- C161: the same for GHI, where ch1-ch6 are given in nm. -/
theorem C161_ghi (options : List (String × Conf)) (files : String → Option (List (List XF))) (dir out : String)
    (file : String → String) (h : OriginalsAt options "FY-4B" "ghi" (chNames 7) dir file out) (band : String)
    (hb : band ∈ chNames 7) :
    (∀ lines samples, files (OsPath.join dir (file band)) = some lines → TableWith lines 1 0 1 (finPairs samples) →
      ∃ s, GhiRSR options files band "FY-4B" = .ok s ∧ s.instrument = "ghi" ∧ s.output_dir = out ∧
        HasRawCurve s (finL ((above (asFractions samples)).map fun p => if band ∈ chNames 6 then p.1 / 1000 else p.1))
          (finL ((above (asFractions samples)).map Prod.snd))) ∧
    (files (OsPath.join dir (file band)) = none →
      ∃ s, GhiRSR options files band "FY-4B" = .ok s ∧ NoRawCurve s) := by
  have hT : ∀ b ∈ chNames 7, (GHI_IN_NANOMETRES.get? "FY-4B").bind (fun d => d.get? b) = some (decide (b ∈ chNames 6)) := by
    decide +kernel
  have t3 := hT band hb
  have hrun : GhiRSR options files band "FY-4B" =
      textClass options files (chNames 7) (some "ghi") .warn (scaledLoad GHI_IN_NANOMETRES "FY-4B" band) band "FY-4B" := by
    unfold GhiRSR
    rw [show instrumentAmong "FY-4B" "ghi" = "ghi" by decide +kernel]
  rw [hrun, textClass_run _ _ _ _ _ _ _ _ _ _ _ h hb]
  constructor
  · intro lines samples hf ht
    rw [hf]
    cases hd : GHI_IN_NANOMETRES.get? "FY-4B" with
    | none => rw [hd] at t3; cases t3
    | some d =>
      rw [hd] at t3
      simp only [bind, Except.bind, scaledLoad_run _ _ _ d hd _ t3 lines samples ht, pure, Except.pure]
      refine ⟨_, rfl, rfl, rfl, ?_, rfl⟩
      simp only [decide_eq_true_eq]
      rfl
  · intro hf
    rw [hf]
    exact ⟨_, rfl, noData_none _ _⟩

example : ∃ s, GhiRSR (exOriginals "FY-4B" "ghi" (chNames 7)) (fun _ => some [[fin 0, fin 0], [fin 11, fin 0.5], [fin 12, fin 0]])
    "ch7" "FY-4B" = .ok s ∧ HasRawCurve s (finL [11]) (finL [0.5]) := by
  obtain ⟨s, h1, -, -, h2⟩ := (C161_ghi (exOriginals "FY-4B" "ghi" (chNames 7))
    (fun _ => some [[fin 0, fin 0], [fin 11, fin 0.5], [fin 12, fin 0]]) "/raw" "/rsr" (· ++ ".txt")
    (exOriginals_at _ _ 7 (by decide) (by decide +kernel)) "ch7" (by decide +kernel)).1 _ [(11, 0.5), (12, 0)] rfl
    ⟨by simp [finPairs], 2, by simp [finPairs]⟩
  refine ⟨s, h1, ?_⟩
  have e : above (asFractions [(11, 0.5), (12, 0)]) = [(11, 0.5)] := by
    unfold asFractions
    rw [if_neg (by simp; norm_num)]
    simp only [above, List.filter_cons, List.filter_nil]
    norm_num
  rw [e] at h2
  have hm : "ch7" ∉ chNames 6 := by decide +kernel
  simpa only [List.map_cons, List.map_nil, hm, if_false] using h2

/-- C161: for SLSTR (text tables with four lines of heading) the samples are handed on by wavelength in
micron instead of wavenumber in cm-1, in ascending order; without the file there is an IOError. -/
theorem C161_slstr_txt (options : List (String × Conf)) (files : String → Option (List (List XF))) (platform dir out : String)
    (file : String → String) (h : OriginalsAt options platform "slstr" (chNames 9) dir file out) (band : String)
    (hb : band ∈ chNames 9) :
    (∀ lines samples, files (OsPath.join dir (file band)) = some lines → TableWith lines 4 0 1 (finPairs samples) →
      (∀ p ∈ samples, 0 < p.1) → (samples.map Prod.fst).Pairwise (· < ·) →
      ∃ s ws, SlstrTxtRSR options files band platform = .ok s ∧ s.instrument = "slstr" ∧ s.output_dir = out ∧
        HasRawCurve s (finL ws) (finL (samples.map Prod.snd).reverse) ∧ ws.Pairwise (· < ·) ∧
        ws.zip (samples.map Prod.snd).reverse = (samples.map fun p => (10000 / p.1, p.2)).reverse) ∧
    (files (OsPath.join dir (file band)) = none → SlstrTxtRSR options files band platform = .error .ioError) := by
  unfold SlstrTxtRSR
  rw [textClass_run _ _ _ _ _ _ _ _ _ _ _ h hb]
  constructor
  · intro lines samples hf ht hpos hinc
    rw [hf]
    obtain ⟨t, e, e0, e1⟩ := genfromtxt_array _ _ _ _ _ ht
    obtain ⟨ws, -, g2, g3, g4⟩ := C110_wavenumber_tables (samples.map Prod.fst) (samples.map Prod.snd) (by simp)
      (by
        intro n hn
        obtain ⟨p, hp, rfl⟩ := List.mem_map.1 hn
        exact hpos p hp) hinc
    simp only [bind, Except.bind, slstrTxtLoad, e, e0, e1, finPairs_fst, finPairs_snd, g2, pure, Except.pure]
    refine ⟨_, ws, rfl, rfl, rfl, ⟨rfl, rfl⟩, g3, ?_⟩
    rw [g4, List.zip_map', List.map_map]
    rfl
  · intro hf
    rw [hf]

example : ∃ s ws, SlstrTxtRSR (exOriginals "Sentinel-3A" "slstr" (chNames 9))
    (fun _ => some [[], [], [], [], [fin 1000, fin 0.5], [fin 2000, fin 1]]) "ch7" "Sentinel-3A" = .ok s ∧
    HasRawCurve s (finL ws) (finL [1, 0.5]) ∧ ws.zip ([1, 0.5] : List ℝ) = [(10000 / 2000, 1), (10000 / 1000, 0.5)] := by
  obtain ⟨s, ws, h1, -, -, h2, -, h3⟩ := (C161_slstr_txt (exOriginals "Sentinel-3A" "slstr" (chNames 9))
    (fun _ => some [[], [], [], [], [fin 1000, fin 0.5], [fin 2000, fin 1]]) "Sentinel-3A" "/raw" "/rsr" (· ++ ".txt")
    (exOriginals_at _ _ 9 (by decide) (by decide +kernel)) "ch7" (by decide +kernel)).1 _ [(1000, 0.5), (2000, 1)] rfl
    ⟨by simp [finPairs], 2, by simp [finPairs]⟩ (by simp) (by simp; norm_num)
  exact ⟨s, ws, h1, h2, h3⟩

theorem oneFile_run {φ : Type} (options : List (String × Conf)) (files : String → Option φ) (inst : String) (m : OnMissing)
    (load : φ → Py (RawCurve α)) (band platform path out : String) (h : OriginalAt options platform inst path out) :
    oneFileClass options files inst m load band platform =
      match files path with
      | some c => (do return RawSensor.ofCurve inst out (← load c))
      | none => match m with
        | .warn => .ok (RawSensor.noData inst out)
        | .raise => .error .ioError := by
  obtain ⟨⟨d, h1, h2⟩, h3⟩ := h
  unfold oneFileClass InstrumentRSR.getOptionsFrom
  rw [(sectionOf_ok rfl).2 h1]
  simp only [bind, Except.bind]
  rw [getItem_ok_iff.2 h2, h3]
  rfl

/-- In the table a column with this heading follows a column of wavelengths. -/
def ColumnsOf (df : Frame α) (heading : String) (wvl srf : List α) : Prop :=
  ∃ before name after, df = before ++ (name, wvl) :: (heading, srf) :: after ∧ heading ∉ before.map Prod.fst ∧ name ≠ heading

omit [PyNum α] in
theorem columnsOf_run (df : Frame α) (heading : String) (wvl srf : List α) (h : ColumnsOf df heading wvl srf) :
    ∃ pos, df.getLoc heading = .ok pos ∧ df.iloc ((pos : Int) - 1) = .ok wvl ∧ df.iloc pos = .ok srf := by
  obtain ⟨before, name, after, rfl, h1, h2⟩ := h
  have hloc : List.findIdx? (fun c : String × List α => c.1 == heading) (before ++ (name, wvl) :: (heading, srf) :: after) =
      some (before.length + 1) := by
    rw [List.findIdx?_append, List.findIdx?_eq_none_iff.2]
    · simp [List.findIdx?_cons, h2]
      omega
    · intro c hc
      simp only [beq_eq_false_iff_ne, ne_eq]
      exact fun e => h1 (List.mem_map.2 ⟨c, hc, e⟩)
  refine ⟨before.length + 1, ?_, ?_, ?_⟩
  · unfold Frame.getLoc
    rw [hloc]
  · unfold Frame.iloc
    rw [show (((before.length + 1 : Nat) : Int) - 1) = ((before.length : Nat) : Int) by omega, pyIndex_nat]
    simp
  · unfold Frame.iloc
    rw [pyIndex_nat]
    simp

/-- the bands of EPIC and the wavelengths (nm) in the headings of their columns -/
def epicHeadings : List (String × String) :=
  [("B317", "317.5"), ("B325", "325"), ("B340", "340"), ("B388", "388"), ("B443", "443"), ("B551", "551"), ("B680", "680"),
   ("B688", "687.75"), ("B764", "764"), ("B780", "779.5")]

/-- the central wavelengths (nm) of the bands of GOCI-2, in order -/
def goci2Wavelengths : List Nat := [380, 412, 443, 490, 510, 555, 620, 660, 680, 709, 745, 865]

/-- C161: for EPIC the curve is that of the column headed `T(<wavelength>) %` and the column before it,
without its first row and without the rows that are empty in both; wavelengths in micron, responses
relative to the largest.  Without the file the object has no curve; other names are refused. -/
theorem C161_epic (options : List (String × Conf)) (files : String → Option (Frame XF)) (platform path out : String)
    (h : OriginalAt options platform "epic" path out) (band : String) :
    (∀ df heading x y (rows : List (Option (ℝ × ℝ))) (M : ℝ), files path = some df → (band, heading) ∈ epicHeadings →
      ColumnsOf df ("T(" ++ heading ++ ") %") (x :: rows.map fun o => cell (o.map Prod.fst))
        (y :: rows.map fun o => cell (o.map Prod.snd)) →
      (∃ p ∈ rows.filterMap id, p.2 = M) → (∀ p ∈ rows.filterMap id, p.2 ≤ M) → 0 < M →
      ∃ s, EpicRSR options files band platform = .ok s ∧ s.instrument = "epic" ∧ s.output_dir = out ∧
        HasRawCurve s (finL ((rows.filterMap id).map fun p => p.1 / 1000)) (finL ((rows.filterMap id).map fun p => p.2 / M))) ∧
    (files path = none → ∃ s, EpicRSR options files band platform = .ok s ∧ NoRawCurve s) ∧
    (files path ≠ none → band ∉ epicHeadings.map Prod.fst → EpicRSR options files band platform = .error .keyError) := by
  unfold EpicRSR
  rw [oneFile_run _ _ _ _ _ _ _ _ _ h]
  refine ⟨?_, ?_, ?_⟩
  · intro df heading x y rows M hf hh hc hM hmax hpos
    have hT : ∀ p ∈ epicHeadings, EPIC_BAND_NAMES.get? p.1 = some ("T(" ++ p.2 ++ ") %") := by decide +kernel
    obtain ⟨pos, e1, e2, e3⟩ := columnsOf_run _ _ _ _ hc
    have e4 := (C134_rows_partial rows M hM hmax hpos).1
    rw [hf]
    simp only [bind, Except.bind, epicLoad, getItem_ok_iff.2 (hT _ hh), e1, e2, e3, C134_epic_first_row, e4, pure, Except.pure]
    exact ⟨_, rfl, rfl, rfl, rfl, rfl⟩
  · intro hf
    rw [hf]
    exact ⟨_, rfl, noData_none _ _⟩
  · intro hf hb
    cases hc : files path with
    | none => exact absurd hc hf
    | some df =>
      have : EPIC_BAND_NAMES.getItem band = .error .keyError := by
        rw [getItem_err_iff]
        refine ⟨rfl, get?_eq_none_iff.2 ?_⟩
        rw [show EPIC_BAND_NAMES.keys = epicHeadings.map Prod.fst by decide +kernel]
        exact hb
      simp only [bind, Except.bind, epicLoad, this]

/-- C161: for GOCI-2 the same with the columns headed `B<number> (<wavelength> nm)`, from the first row. -/
theorem C161_goci2 (options : List (String × Conf)) (files : String → Option (Frame XF)) (platform path out : String)
    (h : OriginalAt options platform "goci2" path out) :
    (∀ i nm df (rows : List (Option (ℝ × ℝ))) (M : ℝ), files path = some df → goci2Wavelengths[i]? = some nm →
      ColumnsOf df ("B" ++ toString (i + 1) ++ " (" ++ toString nm ++ " nm)") (rows.map fun o => cell (o.map Prod.fst))
        (rows.map fun o => cell (o.map Prod.snd)) →
      (∃ p ∈ rows.filterMap id, p.2 = M) → (∀ p ∈ rows.filterMap id, p.2 ≤ M) → 0 < M →
      ∃ s, Goci2RSR options files ("L" ++ toString nm) platform = .ok s ∧ s.instrument = "goci2" ∧ s.output_dir = out ∧
        HasRawCurve s (finL ((rows.filterMap id).map fun p => p.1 / 1000)) (finL ((rows.filterMap id).map fun p => p.2 / M))) ∧
    (∀ band, files path = none → ∃ s, Goci2RSR options files band platform = .ok s ∧ NoRawCurve s) ∧
    (∀ band, files path ≠ none → band ∉ goci2Wavelengths.map (fun nm => "L" ++ toString nm) →
      Goci2RSR options files band platform = .error .keyError) := by
  unfold Goci2RSR
  refine ⟨?_, ?_, ?_⟩
  · intro i nm df rows M hf hi hc hM hmax hpos
    have hT : ∀ p ∈ goci2Wavelengths.zipIdx,
        GOCI2_BAND_NAMES.get? ("L" ++ toString p.1) = some ("B" ++ toString (p.2 + 1) ++ " (" ++ toString p.1 ++ " nm)") := by
      decide +kernel
    have hT := hT (nm, i) (List.mk_mem_zipIdx_iff_getElem?.2 hi)
    obtain ⟨pos, e1, e2, e3⟩ := columnsOf_run _ _ _ _ hc
    have e4 := (C134_rows_partial rows M hM hmax hpos).1
    rw [oneFile_run _ _ _ _ _ _ _ _ _ h, hf]
    simp only [bind, Except.bind, goci2Load, getItem_ok_iff.2 hT, e1, e2, e3, e4, pure, Except.pure]
    exact ⟨_, rfl, rfl, rfl, rfl, rfl⟩
  · intro band hf
    rw [oneFile_run _ _ _ _ _ _ _ _ _ h, hf]
    exact ⟨_, rfl, noData_none _ _⟩
  · intro band hf hb
    rw [oneFile_run _ _ _ _ _ _ _ _ _ h]
    cases hc : files path with
    | none => exact absurd hc hf
    | some df =>
      have : GOCI2_BAND_NAMES.getItem band = .error .keyError := by
        rw [getItem_err_iff]
        refine ⟨rfl, get?_eq_none_iff.2 ?_⟩
        rw [show GOCI2_BAND_NAMES.keys = goci2Wavelengths.map (fun nm => "L" ++ toString nm) by decide +kernel]
        exact hb
      simp only [bind, Except.bind, goci2Load, this]

example : ∃ s, EpicRSR (exOriginal "DSCOVR-epic") (fun _ => some [("Wavelength", [XF.nan, fin 317, fin 318, XF.nan]),
      ("T(317.5) %", [XF.nan, fin 10, fin 40, XF.nan])]) "B317" "DSCOVR" = .ok s ∧
    HasRawCurve s (finL [317 / 1000, 318 / 1000]) (finL [10 / 40, 40 / 40]) := by
  obtain ⟨s, h1, -, -, h2⟩ := (C161_epic (exOriginal "DSCOVR-epic")
    (fun _ => some [("Wavelength", [XF.nan, fin 317, fin 318, XF.nan]), ("T(317.5) %", [XF.nan, fin 10, fin 40, XF.nan])])
    "DSCOVR" "/raw/file" "/rsr" (exOriginal_at "DSCOVR" "epic" (by decide)) "B317").1 _ "317.5" XF.nan XF.nan
    [some (317, 10), some (318, 40), none] 40 rfl (by decide) ⟨[], "Wavelength", [], rfl, by simp, by decide⟩
    ⟨(318, 40), by simp, rfl⟩ (by simp; try norm_num) (by norm_num)
  exact ⟨s, h1, h2⟩

example : ∃ s, Goci2RSR (exOriginal "GK-2B-goci2") (fun _ => some [("Wavelength", [fin 379, fin 380]),
      ("B1 (380 nm)", [fin 1, fin 2])]) "L380" "GK-2B" = .ok s ∧ HasRawCurve s (finL [379 / 1000, 380 / 1000]) (finL [1 / 2, 2 / 2]) := by
  obtain ⟨s, h1, -, -, h2⟩ := (C161_goci2 (exOriginal "GK-2B-goci2")
    (fun _ => some [("Wavelength", [fin 379, fin 380]), ("B1 (380 nm)", [fin 1, fin 2])])
    "GK-2B" "/raw/file" "/rsr" (exOriginal_at "GK-2B" "goci2" (by decide))).1 0 380 _
    [some (379, 1), some (380, 2)] 2 rfl rfl ⟨[], "Wavelength", [], rfl, by simp, by decide⟩
    ⟨(380, 2), by simp, rfl⟩ (by simp; try norm_num) (by norm_num)
  exact ⟨s, h1, h2⟩

/-- the bands of MSI -/
def msiBands : List String := ["B01", "B02", "B03", "B04", "B05", "B06", "B07", "B08", "B8A", "B09", "B10", "B11", "B12"]

/-- a band's name in the headings: without the zero after the B -/
def withoutZero (band : String) : String :=
  match band.toList with
  | 'B' :: '0' :: rest => String.ofList ('B' :: rest)
  | _ => band

open Classical in
/-- C161: for MSI on Sentinel-2A, B, C the curve is that of the column `S2<letter>_SR_AV_<band>` of the
platform's own sheet: the samples no more than 2 nm outside the range with a response above 0.00001,
wavelengths in micron.  Without the file there is an IOError; other platforms, and columns that are not
there (also for names that are no bands), are a KeyError. -/
theorem C161_msi (options : List (String × Conf)) (files : String → Option (String → Option (Frame XF)))
    (letter : String) (hl : letter ∈ ["A", "B", "C"]) (path out : String)
    (h : OriginalAt options ("Sentinel-2" ++ letter) "msi" path out) (band : String) :
    (∀ sheets df (samples : List (ℝ × ℝ)), files path = some sheets → sheets ("Spectral Responses (S2" ++ letter ++ ")") = some df →
      band ∈ msiBands → Dict.get? df "SR_WL" = some (finL (samples.map Prod.fst)) →
      Dict.get? df ("S2" ++ letter ++ "_SR_AV_" ++ withoutZero band) = some (finL (samples.map Prod.snd)) →
      ∃ s, MsiRSR options files band ("Sentinel-2" ++ letter) = .ok s ∧ s.instrument = "msi" ∧ s.output_dir = out ∧
        HasRawCurve s (finL ((samples.filter fun p => NearActive samples p.1).map fun p => p.1 / 1000))
          (finL ((samples.filter fun p => NearActive samples p.1).map Prod.snd))) ∧
    (files path = none → MsiRSR options files band ("Sentinel-2" ++ letter) = .error .ioError) ∧
    (∀ sheets df, files path = some sheets → sheets ("Spectral Responses (S2" ++ letter ++ ")") = some df →
      band ∈ msiBands → Dict.get? df ("S2" ++ letter ++ "_SR_AV_" ++ withoutZero band) = none →
      MsiRSR options files band ("Sentinel-2" ++ letter) = .error .keyError) := by
  have hS : ∀ l ∈ ["A", "B", "C"], MSI_PLATFORM_SHORT_NAME.get? ("Sentinel-2" ++ l) = some ("S2" ++ l) ∧
      MSI_SHEET_HEADERS.get? ("S2" ++ l) = some ("Spectral Responses (S2" ++ l ++ ")") := by decide +kernel
  have hB : ∀ b ∈ msiBands, MSI_BAND_NAMES.get? b = some (withoutZero b) := by decide +kernel
  obtain ⟨h1, h2⟩ := hS letter hl
  unfold MsiRSR
  rw [getItem_ok_iff.2 h1]
  simp only [bind, Except.bind]
  rw [oneFile_run _ _ _ _ _ _ _ _ _ h]
  refine ⟨?_, ?_, ?_⟩
  · intro sheets df samples hf hs hb hw hr
    rw [hf]
    simp only [bind, Except.bind, msiLoad, getItem_ok_iff.2 h2, hs, getItem_ok_iff.2 hw, hB band hb, Option.getD_some,
      getItem_ok_iff.2 hr, pure, Except.pure, C135_msi_samples]
    exact ⟨_, rfl, rfl, rfl, rfl, rfl⟩
  · intro hf
    rw [hf]
  · intro sheets df hf hs hb hr
    rw [hf]
    simp only [bind, Except.bind, msiLoad, getItem_ok_iff.2 h2, hs, hB band hb, Option.getD_some]
    have hr' : Dict.getItem df ("S2" ++ letter ++ "_SR_AV_" ++ withoutZero band) = .error .keyError :=
      getItem_err_iff.2 ⟨rfl, hr⟩
    cases hw : Dict.getItem df "SR_WL" with
    | error e =>
      rw [getItem_err_iff.1 hw |>.1]
    | ok w => simp only [hr']

/-- C161: MSI on any other platform is a KeyError. -/
theorem C161_msi_platform (options : List (String × Conf)) (files : String → Option (String → Option (Frame α)))
    (band platform : String) (h : platform ∉ ["A", "B", "C"].map ("Sentinel-2" ++ ·)) :
    MsiRSR options files band platform = .error .keyError := by
  have : MSI_PLATFORM_SHORT_NAME.getItem platform = .error .keyError := by
    rw [getItem_err_iff]
    refine ⟨rfl, get?_eq_none_iff.2 ?_⟩
    rw [show MSI_PLATFORM_SHORT_NAME.keys = ["A", "B", "C"].map ("Sentinel-2" ++ ·) by decide +kernel]
    exact h
  unfold MsiRSR
  rw [this]
  rfl

example : ∃ s, MsiRSR (exOriginal "Sentinel-2B-msi") (fun _ => some fun n => if n = "Spectral Responses (S2B)" then
      some [("SR_WL", finL [440, 443]), ("S2B_SR_AV_B1", finL [0.5, 1])] else none) "B01" "Sentinel-2B" = .ok s ∧
    s.output_dir = "/rsr" := by
  obtain ⟨s, h1, -, h2, -⟩ := (C161_msi (exOriginal "Sentinel-2B-msi") (fun _ => some fun n => if n = "Spectral Responses (S2B)" then
      some [("SR_WL", finL [440, 443]), ("S2B_SR_AV_B1", finL [0.5, 1])] else none) "B" (by simp) "/raw/file" "/rsr"
    (exOriginal_at "Sentinel-2B" "msi" (by decide)) "B01").1 _ _ [(440, 0.5), (443, 1)] rfl (if_pos (by decide)) (by decide) rfl
    (by rw [show "S2" ++ "B" ++ "_SR_AV_" ++ withoutZero "B01" = "S2B_SR_AV_B1" by decide +kernel]; rfl)
  exact ⟨s, h1, h2⟩

/-- C161: for FCI the curve is that of the last channel with the band's name in the configured file,
wavelengths in micron instead of m; a missing file is a FileNotFoundError, a missing channel leaves the
object without curve, and a section without a file name is a TypeError. -/
theorem C161_fci (options : List (String × Conf)) (files : String → Option (List (String × RawCurve XF)))
    (platform path out : String) (h : OriginalAt options platform "fci" path out) (band : String) :
    (∀ name, InSection options platform "fci" "filename" (.leaf (.str name)) →
      (∀ before w r after, files (OsPath.join path name) = some (before ++ (band, ⟨finL w, r⟩) :: after) →
        band ∉ after.map Prod.fst → ∃ s, FciRSR options files band platform = .ok s ∧ s.instrument = "fci" ∧
          s.output_dir = out ∧ HasRawCurve s (finL (w.map (· * 1000000))) r) ∧
      (files (OsPath.join path name) = none → FciRSR options files band platform = .error .fileNotFound) ∧
      (∀ channels, files (OsPath.join path name) = some channels → band ∉ channels.map Prod.fst →
        ∃ s, FciRSR options files band platform = .ok s ∧ NoRawCurve s)) ∧
    ((∀ v, ¬ InSection options platform "fci" "filename" v) → FciRSR options files band platform = .error .typeError) := by
  obtain ⟨⟨d, h1, h2⟩, h3⟩ := h
  have hrun : ∀ o, Dict.get? d "filename" = o →
      ∃ r, ({ InstrumentRSR.new band platform with instrument := some "fci" } : InstrumentRSR).getOptionsFrom options = .ok r ∧
        r.output_dir = some (.leaf (.str out)) ∧ r.path = some path ∧ r.filename = o := by
    intro o ho
    unfold InstrumentRSR.getOptionsFrom
    rw [(sectionOf_ok rfl).2 h1]
    simp only [bind, Except.bind]
    rw [getItem_ok_iff.2 h2, h3]
    exact ⟨_, rfl, rfl, rfl, ho⟩
  constructor
  · rintro name ⟨d', g1, g2⟩
    have : d' = d := by
      rw [h1] at g1
      cases g1
      rfl
    subst this
    obtain ⟨r, r1, r2, r3, r4⟩ := hrun _ g2
    unfold FciRSR
    rw [r1]
    simp only [bind, Except.bind, r2, r3, r4]
    refine ⟨?_, ?_, ?_⟩
    · intro before w r after hf hb
      rw [hf]
      simp only [(C139_fci _ band 1000000.0).2 before _ after rfl hb]
      refine ⟨_, rfl, rfl, rfl, ?_, rfl⟩
      have : (finL w).map (· * (1000000.0 : XF)) = finL (w.map (· * 1000000)) := by
        unfold finL
        rw [List.map_map, List.map_map]
        apply List.map_congr_left
        intro x _
        simp only [Function.comp_apply, ofSci_eq, fin_mul]
        norm_num
      rw [← this]
      rfl
    · intro hf
      rw [hf]
    · intro channels hf hb
      rw [hf]
      simp only [(C139_fci channels band 1000000.0).1 hb]
      exact ⟨_, rfl, noData_none _ _⟩
  · intro hno
    have hn : Dict.get? d "filename" = none := by
      cases hd : Dict.get? d "filename" with
      | none => rfl
      | some v => exact absurd ⟨d, h1, hd⟩ (hno v)
    obtain ⟨r, r1, r2, r3, r4⟩ := hrun _ hn
    unfold FciRSR
    rw [r1]
    simp only [bind, Except.bind, r2, r3, r4]

example : ∃ s, FciRSR [("rsr_dir", .leaf (.str "/rsr")), ("MTG-I1-fci", .map [("path", .leaf (.str "/raw")),
      ("filename", .leaf (.str "fci.nc"))])] (fun p => if p = "/raw/fci.nc" then
        some [("vis_04", ⟨finL [4e-7], finL [1]⟩), ("vis_05", ⟨finL [5e-7], finL [1]⟩)] else none) "vis_04" "MTG-I1" = .ok s ∧
    HasRawCurve s (finL [4e-7 * 1000000]) (finL [1]) := by
  obtain ⟨s, h1, -, -, h2⟩ := ((C161_fci [("rsr_dir", .leaf (.str "/rsr")), ("MTG-I1-fci", .map [("path", .leaf (.str "/raw")),
      ("filename", .leaf (.str "fci.nc"))])] (fun p => if p = "/raw/fci.nc" then
        some [("vis_04", ⟨finL [4e-7], finL [1]⟩), ("vis_05", ⟨finL [5e-7], finL [1]⟩)] else none) "MTG-I1" "/raw" "/rsr"
      ⟨⟨_, rfl, rfl⟩, rfl⟩ "vis_04").1 "fci.nc" ⟨_, rfl, rfl⟩).1 [] [4e-7] (finL [1]) [("vis_05", ⟨finL [5e-7], finL [1]⟩)]
    (if_pos (by decide +kernel)) (by decide +kernel)
  exact ⟨s, h1, h2⟩

/-- C161: converted as a whole, AGRI of FY-4B gives a file that the reader for FY-4B and `agri` finds; it
holds the fifteen bands with the responses of the samples above 0.001. -/
theorem C161_agri_found (env : Env) (h5open : Content → Option (H5File XF)) (f32 : XF → XF) (scale : XF)
    (options : List (String × Conf)) (files : String → Option (List (List XF))) (dir : String) (file : String → String)
    (h : OriginalsAt options "FY-4B" "agri" (chNames 15) dir file env.cfg.rsr_dir) (samples : String → List (ℝ × ℝ))
    (hf : ∀ b ∈ chNames 15, ∃ lines, files (OsPath.join dir (file b)) = some lines ∧
      TableWith lines 1 0 1 (finPairs (samples b))) :
    ∃ path f, convert2hdf5 f32 (AgriRSR options files) "FY-4B" (chNames 15) scale none = .ok (path, f) ∧
      ∀ w content, RsrCurrent env w ∨ env.cfg.download_from_internet = false →
        w.files path = some content → h5open content = some f →
        ∃ r, Eff.result (readerNew env h5open (some "FY-4B") (some "agri") none) w = .ok r ∧ r.filename = path ∧
          r.rsr.keys = chNames 15 ∧ ∀ b ∈ chNames 15, ∃ B det, r.rsr.get? b = some B ∧ B.get? "det-1" = some det ∧
            det.get? "response" = some (.arr ((finL ((above (asFractions (samples b))).map Prod.snd)).map f32)) := by
  have hrun : ∀ b ∈ chNames 15, ∃ s, AgriRSR options files b "FY-4B" = .ok s ∧ s.instrument = "agri" ∧
      s.output_dir = env.cfg.rsr_dir ∧
      HasRawCurve s (finL ((above (asFractions (samples b))).map fun p => if b ∈ chNames 6 then p.1 / 1000 else p.1))
        (finL ((above (asFractions (samples b))).map Prod.snd)) := by
    intro b hb
    obtain ⟨lines, h1, h2⟩ := hf b hb
    exact (C161_agri options files "FY-4B" dir _ (chNames 15) (chNames 6) (by decide +kernel) file h b hb).1 lines _ h1 h2
  classical
  let S : String → RawSensor XF := fun b => if hb : b ∈ chNames 15 then (hrun b hb).choose else RawSensor.noData "" ""
  have hS : ∀ b ∈ chNames 15, AgriRSR options files b "FY-4B" = .ok (S b) ∧ (S b).instrument = "agri" ∧
      (S b).output_dir = env.cfg.rsr_dir ∧
      HasRawCurve (S b) (finL ((above (asFractions (samples b))).map fun p => if b ∈ chNames 6 then p.1 / 1000 else p.1))
        (finL ((above (asFractions (samples b))).map Prod.snd)) := by
    intro b hb
    have := (hrun b hb).choose_spec
    simp only [S, dif_pos hb]
    exact this
  refine C143_found_partial env h5open f32 (AgriRSR options files) "FY-4B" "agri" (chNames 15) scale (by decide +kernel)
    (by decide +kernel) S (fun b hb => (hS b hb).1) _ _
    (fun b hb => ⟨(hS b hb).2.2.2.1, (hS b hb).2.2.2.2, by simp [finL]⟩) ?_ ?_ (Or.inl (by decide +kernel))
  · intro b hb s hs
    rw [(hS b hb).1] at hs
    cases hs
    exact ⟨(hS b hb).2.1, (hS b hb).2.2.1⟩
  · unfold IsCanonical withoutSlashes
    decide +kernel

/-! ### C162 -/

/-- the samples of a table (nm) that belong to a band of MERSI-1: a response above a thousandth and, for
the bands 1-3, a wavelength below 800 nm -/
noncomputable def mersi1Samples (band : String) (samples : List (ℝ × ℝ)) : List (ℝ × ℝ) :=
  (above samples).filter fun p => band ∉ ["ch1", "ch2", "ch3"] ∨ p.1 < 800

theorem cutBelow_fin (samples : List (ℝ × ℝ)) :
    cutBelow (0.001 : XF) ⟨(finL (samples.map Prod.fst)).map (· * 0.001), finL (samples.map Prod.snd)⟩ =
      ⟨finL ((above samples).map fun p => p.1 / 1000), finL ((above samples).map Prod.snd)⟩ := by
  unfold cutBelow
  dsimp only
  have hm : (finL (samples.map Prod.snd)).map (fun r => gt r (0.001 : XF)) = samples.map fun p => decide ((0.001 : ℝ) < p.2) := by
    unfold finL
    rw [List.map_map, List.map_map]
    apply List.map_congr_left
    intro p _
    simp only [Function.comp_apply, milli, gt_fin]
  have hw : (finL (samples.map Prod.fst)).map (· * (0.001 : XF)) = samples.map fun p => fin (p.1 / 1000) := by
    unfold finL
    rw [List.map_map, List.map_map]
    apply List.map_congr_left
    intro p _
    simp only [Function.comp_apply, milli, fin_mul]
    congr 1
    norm_num
    ring
  have hr : finL (samples.map Prod.snd) = samples.map fun p => fin p.2 := by
    unfold finL
    rw [List.map_map]
    rfl
  rw [hm, hw, hr, select_filter samples (fun p => decide ((0.001 : ℝ) < p.2)) (fun p => fin (p.1 / 1000)),
    select_filter samples (fun p => decide ((0.001 : ℝ) < p.2)) (fun p => fin p.2)]
  unfold above finL
  rw [List.map_map, List.map_map]
  rfl

/-- what the reader of MERSI-1 hands on for FY-3A and FY-3C: all samples above a thousandth -/
theorem mersi1_run (options : List (String × Conf)) (files : String → Option (List (List XF))) (platform dir out : String)
    (hp : platform ∈ ["FY-3A", "FY-3C"]) (file : String → String)
    (h : OriginalsAt options platform "mersi-1" (chNames 20) dir file out) (band : String) (hb : band ∈ chNames 20)
    (lines : List (List XF)) (samples : List (ℝ × ℝ)) (hf : files (OsPath.join dir (file band)) = some lines)
    (ht : TableWith lines 0 0 1 (finPairs samples)) :
    ∃ s, Mersi1RSR options files band platform = .ok s ∧ s.instrument = "mersi-1" ∧ s.output_dir = out ∧
      HasRawCurve s (finL ((above samples).map fun p => p.1 / 1000)) (finL ((above samples).map Prod.snd)) := by
  have hT : ∀ p ∈ ["FY-3A", "FY-3C"], mersi1Names p = chNames 20 ∧ instrumentAmong p "mersi-1" = "mersi-1" ∧ p ≠ "FY-3B" := by
    decide +kernel
  obtain ⟨t1, t2, t3⟩ := hT _ hp
  have hB : ∀ b ∈ chNames 20, b ∉ ["1", "2", "3"] := by decide +kernel
  obtain ⟨t, e, e0, e1⟩ := genfromtxt_array _ _ _ _ _ ht
  unfold Mersi1RSR
  rw [t1, t2, textClass_run _ _ _ _ _ _ _ _ _ _ _ h hb, hf]
  simp only [bind, Except.bind, mersi1Load, e, e0, e1, if_pos t3, finPairs_fst, finPairs_snd, cutBelow_fin,
    if_neg (hB band hb), pure, Except.pure]
  exact ⟨_, rfl, rfl, rfl, rfl, rfl⟩

/-- C162, the part that holds: for MERSI-1 on FY-3A and FY-3C exactly the samples of the band are handed
on, in order and in micron, for the bands from ch4 on, and for tables of ch1-ch3 that have no response
above a thousandth from 800 nm on.  What is missing: other tables of ch1-ch3, and FY-3B (see C112). -/
theorem C162_samples_partial (options : List (String × Conf)) (files : String → Option (List (List XF)))
    (platform dir out : String) (hp : platform ∈ ["FY-3A", "FY-3C"]) (file : String → String)
    (h : OriginalsAt options platform "mersi-1" (chNames 20) dir file out) (band : String) (hb : band ∈ chNames 20)
    (lines : List (List XF)) (samples : List (ℝ × ℝ)) (hf : files (OsPath.join dir (file band)) = some lines)
    (ht : TableWith lines 0 0 1 (finPairs samples))
    (hfar : band ∈ ["ch1", "ch2", "ch3"] → ∀ p ∈ samples, 800 ≤ p.1 → p.2 ≤ 0.001) :
    ∃ s, Mersi1RSR options files band platform = .ok s ∧ s.instrument = "mersi-1" ∧ s.output_dir = out ∧
      HasRawCurve s (finL ((mersi1Samples band samples).map fun p => p.1 / 1000))
        (finL ((mersi1Samples band samples).map Prod.snd)) := by
  have e : mersi1Samples band samples = above samples := by
    unfold mersi1Samples
    rw [List.filter_eq_self]
    intro p hp
    unfold above at hp
    rw [List.mem_filter, decide_eq_true_iff] at hp
    rw [decide_eq_true_iff]
    by_cases hm : band ∈ ["ch1", "ch2", "ch3"]
    · right
      by_contra hn
      have := hfar hm p hp.1 (not_lt.1 hn)
      linarith [hp.2]
    · exact Or.inl hm
  rw [e]
  exact mersi1_run options files platform dir out hp file h band hb lines samples hf ht

/-- C162 is false: for ch1-ch3 samples from 800 nm on are always handed on too, whatever the table. -/
theorem C162_far_samples_kept (options : List (String × Conf)) (files : String → Option (List (List XF)))
    (platform dir out : String) (hp : platform ∈ ["FY-3A", "FY-3C"]) (file : String → String)
    (h : OriginalsAt options platform "mersi-1" (chNames 20) dir file out) (band : String) (hb : band ∈ ["ch1", "ch2", "ch3"])
    (lines : List (List XF)) (samples : List (ℝ × ℝ)) (hf : files (OsPath.join dir (file band)) = some lines)
    (ht : TableWith lines 0 0 1 (finPairs samples)) (p : ℝ × ℝ) (hm : p ∈ samples) (hfar : 800 ≤ p.1) (hr : 0.001 < p.2) :
    ∃ s w r, Mersi1RSR options files band platform = .ok s ∧ HasRawCurve s (finL w) (finL r) ∧
      (p.1 / 1000, p.2) ∈ w.zip r ∧ p ∉ mersi1Samples band samples := by
  have hB : ∀ b ∈ ["ch1", "ch2", "ch3"], b ∈ chNames 20 := by decide +kernel
  obtain ⟨s, h1, -, -, h2⟩ := mersi1_run options files platform dir out hp file h band (hB _ hb) lines samples hf ht
  refine ⟨s, _, _, h1, h2, ?_, ?_⟩
  · rw [List.zip_map', List.mem_map]
    refine ⟨p, ?_, rfl⟩
    unfold above
    rw [List.mem_filter, decide_eq_true_iff]
    exact ⟨hm, hr⟩
  · unfold mersi1Samples
    rw [List.mem_filter, decide_eq_true_iff]
    rintro ⟨-, hn | hn⟩
    · exact hn hb
    · exact absurd hn (not_lt.2 hfar)

/-- a table of ch1 with a response at 900 nm -/
example : ∃ s w r, Mersi1RSR (exOriginals "FY-3A" "mersi-1" (chNames 20))
      (fun _ => some [[fin 470, fin 1], [fin 900, fin 0.01]]) "ch1" "FY-3A" = .ok s ∧
    HasRawCurve s (finL w) (finL r) ∧ ((900 : ℝ) / 1000, (0.01 : ℝ)) ∈ w.zip r := by
  obtain ⟨s, w, r, h1, h2, h3, -⟩ := C162_far_samples_kept (exOriginals "FY-3A" "mersi-1" (chNames 20))
    (fun _ => some [[fin 470, fin 1], [fin 900, fin 0.01]]) "FY-3A" "/raw" "/rsr" (by simp) (· ++ ".txt")
    (exOriginals_at _ _ 20 (by decide) (by decide +kernel)) "ch1" (by simp) _ [(470, 1), (900, 0.01)] rfl
    ⟨by simp [finPairs], 2, by simp [finPairs]⟩ (900, 0.01) (by simp) (by norm_num) (by norm_num)
  exact ⟨s, w, r, h1, h2, h3⟩

example : ∃ s, Mersi1RSR (exOriginals "FY-3C" "mersi-1" (chNames 20))
      (fun _ => some [[fin 865, fin 1], [fin 900, fin 0]]) "ch4" "FY-3C" = .ok s ∧ s.output_dir = "/rsr" := by
  obtain ⟨s, h1, -, h2, -⟩ := C162_samples_partial (exOriginals "FY-3C" "mersi-1" (chNames 20))
    (fun _ => some [[fin 865, fin 1], [fin 900, fin 0]]) "FY-3C" "/raw" "/rsr" (by simp) (· ++ ".txt")
    (exOriginals_at _ _ 20 (by decide) (by decide +kernel)) "ch4" (by decide +kernel) _ [(865, 1), (900, 0)] rfl
    ⟨by simp [finPairs], 2, by simp [finPairs]⟩ (by simp)
  exact ⟨s, h1, h2⟩

end Verif.Props
