import Verif.Model.SheetConvert
import Verif.Lemmas.Convert
import Verif.Props.TextConvert
import Verif.Props.ViirsConvert
/-
C150: MSU-GS/A, OLCI and SLSTR originals.  C151: AATSR originals.  C152: AHI originals.
-/
namespace Verif.Props
open Model Spec Lemmas PyNum XF
variable {α : Type} [PyNum α]

/-- The configuration names the file of the original data of an instrument and the directory for
response files. -/
structure OriginalAt (options : List (String × Conf)) (platform instrument path out : String) : Prop where
  path : InSection options platform instrument "path" (.leaf (.str path))
  out : Dict.get? options "rsr_dir" = some (.leaf (.str out))

theorem sectionPath_at {options : List (String × Conf)} {platform instrument path out key : String}
    (h : OriginalAt options platform instrument path out) (hk : key = platform ++ "-" ++ instrument) :
    sectionPath options key = .ok (path, out) := by
  obtain ⟨⟨d, h1, h2⟩, h3⟩ := h
  unfold sectionPath
  rw [hk, getItem_ok_iff.2 h1]
  simp only [bind, Except.bind]
  rw [h2, h3]
  rfl

/-- a configuration with one original file -/
def exOriginal (key : String) : List (String × Conf) :=
  [("rsr_dir", .leaf (.str "/rsr")), (key, .map [("path", .leaf (.str "/raw/file"))])]

theorem exOriginal_at (platform instrument : String) (h : platform ++ "-" ++ instrument ≠ "rsr_dir") :
    OriginalAt (exOriginal (platform ++ "-" ++ instrument)) platform instrument "/raw/file" "/rsr" := by
  refine ⟨⟨[("path", .leaf (.str "/raw/file"))], ?_, rfl⟩, rfl⟩
  simp [exOriginal, Dict.get?, Ne.symm h]

/-! ### C150 -/

/-- C150: for SLSTR the wavelengths and responses are those of the file of the band; without that
file there is an IOError. -/
theorem C150_slstr (options : List (String × Conf)) (files : String → Option (Dict String (List XF)))
    (band platform dir out : String) (file : String → String)
    (h : OriginalsAt options platform "slstr" (chNames 9) dir file out) (hb : band ∈ chNames 9) :
    (∀ ncf w r, files (OsPath.join dir (file band)) = some ncf → ncf.get? "wavelength" = some (finL w) →
      ncf.get? "response" = some r →
      ∃ s, SlstrRSR options files band platform = .ok s ∧ s.instrument = "slstr" ∧ s.output_dir = out ∧
        HasRawCurve s (finL w) r) ∧
    (files (OsPath.join dir (file band)) = none → SlstrRSR options files band platform = .error .ioError) := by
  constructor
  · intro ncf w r hf hw hr
    unfold SlstrRSR
    rw [textClass_run _ _ _ _ _ _ _ _ _ _ _ h hb, hf]
    simp only [slstrLoad, getItem_ok_iff.2 hw, getItem_ok_iff.2 hr, bind, Except.bind, pure, Except.pure]
    refine ⟨_, rfl, rfl, rfl, ?_⟩
    have : (finL w).map (· * (1.0 : XF)) = finL w := by
      simp only [finL, List.map_map]
      refine List.map_congr_left fun x _ => ?_
      simp only [Function.comp_apply, ofSci_eq, fin_mul]
      norm_num
    simp only [HasRawCurve, RawSensor.ofCurve, this]
    exact ⟨rfl, rfl⟩
  · intro hf
    unfold SlstrRSR
    rw [textClass_run _ _ _ _ _ _ _ _ _ _ _ h hb, hf]

example : ∃ s, SlstrRSR (exOriginals "Sentinel-3B" "slstr" (chNames 9))
      (fun _ => some [("wavelength", finL [0.55, 0.56]), ("response", finL [0.5, 1])]) "ch1" "Sentinel-3B" = .ok s ∧
    HasRawCurve s (finL [0.55, 0.56]) (finL [0.5, 1]) := by
  obtain ⟨s, h, -, -, hc⟩ := (C150_slstr (exOriginals "Sentinel-3B" "slstr" (chNames 9))
    (fun _ => some [("wavelength", finL [0.55, 0.56]), ("response", finL [0.5, 1])]) "ch1" "Sentinel-3B"
    "/raw" "/rsr" (· ++ ".txt") (exOriginals_at _ _ 9 (by decide) (by decide +kernel)) (by decide +kernel)).1
    _ _ _ rfl rfl rfl
  exact ⟨s, h, hc⟩

/-- the bands of OLCI in the order of the rows of the file -/
def olciBands : List String :=
  ["Oa01", "Oa02", "Oa03", "Oa04", "Oa05", "Oa06", "Oa07", "Oa08", "Oa09", "Oa10", "Oa11", "Oa12", "Oa13", "Oa14",
   "Oa15", "Oa16", "Oa17", "Oa18", "Oa19", "Oa20", "Oa21"]

theorem olci_names : OLCI_BAND_NAMES = olciBands := by decide +kernel

theorem olci_idx (i : Nat) (band : String) (h : olciBands[i]? = some band) :
    band ∈ OLCI_BAND_NAMES ∧ OLCI_BAND_NAMES.idxOf band = i := by
  rw [olci_names]
  obtain ⟨hi, rfl⟩ := List.getElem?_eq_some_iff.1 h
  exact ⟨List.getElem_mem _, (show olciBands.Nodup by decide +kernel).idxOf_getElem i hi⟩

theorem olciOptions (options : List (String × Conf)) (band platform path out : String)
    (h : OriginalAt options platform "olci" path out) :
    ∃ r, ({ InstrumentRSR.new band platform with instrument := some "olci" } : InstrumentRSR).getOptionsFrom options = .ok r ∧
      r.output_dir = some (.leaf (.str out)) ∧ r.path = some path := by
  obtain ⟨⟨d, h1, h2⟩, h3⟩ := h
  unfold InstrumentRSR.getOptionsFrom
  rw [(sectionOf_ok rfl).2 h1]
  simp only [bind, Except.bind]
  rw [getItem_ok_iff.2 h2, h3]
  exact ⟨_, rfl, rfl, rfl⟩

/-- C150: for the i-th band of OLCI the wavelengths are those of the i-th row, in micron instead of
nm, with the responses of the i-th row; without the file there is an IOError, and for a name that is
no band a ValueError. -/
theorem C150_olci (options : List (String × Conf)) (files : String → Option (NetCdf2 XF)) (band platform path out : String)
    (h : OriginalAt options platform "olci" path out) :
    (∀ (ncf : NetCdf2 XF) (W R : List (List XF)) (i : Nat) (w : List ℝ) (r : List XF), files path = some ncf → ncf.get? "mean_spectral_response_function_wavelength" = some W →
      ncf.get? "mean_spectral_response_function" = some R → olciBands[i]? = some band → W[i]? = some (finL w) →
      R[i]? = some r →
      ∃ s, OlciRSR options files band platform = .ok s ∧ s.instrument = "olci" ∧ s.output_dir = out ∧
        HasRawCurve s (finL (w.map (· / 1000))) r) ∧
    (files path = none → OlciRSR options files band platform = .error .ioError) ∧
    (files path ≠ none → band ∉ olciBands → OlciRSR options files band platform = .error .valueError) := by
  obtain ⟨o, h1, h2, h3⟩ := olciOptions options band platform path out h
  refine ⟨?_, ?_, ?_⟩
  · intro ncf W R i w r hf hW hR hi hw hr
    obtain ⟨hm, hx⟩ := olci_idx i band hi
    unfold OlciRSR
    rw [h1]
    simp only [bind, Except.bind, h2, h3, Option.bind_some, hf]
    unfold olciLoad ncRow
    simp only [if_pos hm, hx, bind, Except.bind, pure, Except.pure, getItem_ok_iff.2 hW, getItem_ok_iff.2 hR, hw, hr]
    refine ⟨_, rfl, rfl, rfl, ?_⟩
    have : (finL w).map (· * (0.001 : XF)) = finL (w.map (· / 1000)) := by
      simp only [finL, ofSci_eq, List.map_map]
      refine List.map_congr_left fun x _ => ?_
      simp only [Function.comp_apply, fin_mul]
      norm_num
      ring
    simp only [HasRawCurve, RawSensor.ofCurve, this]
    exact ⟨rfl, rfl⟩
  · intro hf
    unfold OlciRSR
    rw [h1]
    simp only [bind, Except.bind, h2, h3, Option.bind_some, hf]
  · intro hf hb
    unfold OlciRSR
    rw [h1]
    cases hn : files path with
    | none => exact absurd hn hf
    | some ncf =>
      simp only [bind, Except.bind, h2, h3, Option.bind_some, hn]
      unfold olciLoad
      rw [olci_names, if_neg hb]
      rfl

example : ∃ s, OlciRSR (exOriginal "Sentinel-3A-olci")
      (fun _ => some [("mean_spectral_response_function_wavelength", [finL [390, 400], finL [410, 420]]),
        ("mean_spectral_response_function", [finL [0, 1], finL [1, 0.5]])]) "Oa02" "Sentinel-3A" = .ok s ∧
    HasRawCurve s (finL [410 / 1000, 420 / 1000]) (finL [1, 0.5]) := by
  obtain ⟨s, h, -, -, hc⟩ := (C150_olci (exOriginal "Sentinel-3A-olci")
    (fun _ => some [("mean_spectral_response_function_wavelength", [finL [390, 400], finL [410, 420]]),
        ("mean_spectral_response_function", [finL [0, 1], finL [1, 0.5]])]) "Oa02" "Sentinel-3A" "/raw/file" "/rsr"
    (exOriginal_at "Sentinel-3A" "olci" (by decide))).1 _ _ _ 1 _ _ rfl rfl rfl rfl rfl rfl
  exact ⟨s, h, hc⟩

/-- where the workbook has a band of MSU-GS/A: the kind of sheet and the column -/
def msugsaPlace : List (String × String × Nat) :=
  [("ch1", "vis", 1), ("ch2", "vis", 2), ("ch3", "vis", 3), ("ch4", "IR", 1), ("ch5", "IR", 2), ("ch6", "IR", 3),
   ("ch7", "IR", 4), ("ch8", "IR", 5), ("ch9", "IR", 6), ("ch10", "IR", 7)]

/-- A sheet with three rows of text above rows that have these samples in the first column and the
column `j`. -/
def SheetWith (rows : List (List α)) (j : Nat) (samples : List (α × α)) : Prop :=
  ∃ head data, rows = head ++ data ∧ head.length = 3 ∧
    List.Forall₂ (fun (r : List α) (p : α × α) => r[0]? = some p.1 ∧ r[j]? = some p.2) data samples

omit [PyNum α] in
theorem column_of {data : List (List α)} {samples : List (α × α)} (j k : Nat)
    (h : List.Forall₂ (fun (r : List α) (p : α × α) => r[k]? = some p.1 ∧ r[j]? = some p.2) data samples) :
    data.filterMap (fun r => r[k]?) = samples.map Prod.fst ∧ data.filterMap (fun r => r[j]?) = samples.map Prod.snd := by
  induction h with
  | nil => exact ⟨rfl, rfl⟩
  | cons h _ ih => simp [List.filterMap_cons, h.1, h.2, ih.1, ih.2]

theorem msugsaDetector_run (wb : String → Option (List (List α))) (band kind : String) (j n : Nat)
    (hb : (band, kind, j) ∈ msugsaPlace) (rows : List (List α)) (samples : List (α × α))
    (hs : wb ("MSU-" ++ toString n ++ " " ++ kind) = some rows) (hr : SheetWith rows j samples) :
    msugsaDetector wb band n = .ok ("det-" ++ toString n,
      [("wavelength", .arr (samples.map Prod.fst)), ("response", .arr (samples.map Prod.snd))]) := by
  obtain ⟨head, data, rfl, hh, hd⟩ := hr
  obtain ⟨c1, c2⟩ := column_of j 0 hd
  have key : ∃ names, msugsaSheet band n = .ok ("MSU-" ++ toString n ++ " " ++ kind, names) ∧
      names.idxOf "wvl" = 0 ∧ names.idxOf band = j := by
    simp only [msugsaPlace, List.mem_cons, Prod.mk.injEq, List.not_mem_nil, or_false] at hb
    have ha : ∀ s t : String, "MSU-" ++ toString n ++ " " ++ s = "MSU-" ++ toString n ++ (" " ++ s) := by
      intro s t; rw [String.append_assoc]
    rcases hb with ⟨rfl, rfl, rfl⟩ | ⟨rfl, rfl, rfl⟩ | ⟨rfl, rfl, rfl⟩ | ⟨rfl, rfl, rfl⟩ | ⟨rfl, rfl, rfl⟩ |
      ⟨rfl, rfl, rfl⟩ | ⟨rfl, rfl, rfl⟩ | ⟨rfl, rfl, rfl⟩ | ⟨rfl, rfl, rfl⟩ | ⟨rfl, rfl, rfl⟩ <;>
    · rw [ha _ ""]
      refine ⟨_, rfl, by decide +kernel, by decide +kernel⟩
  obtain ⟨names, k1, k2, k3⟩ := key
  unfold msugsaDetector
  rw [k1]
  simp only [bind, Except.bind, hs, excelColumn, k2, k3, pure, Except.pure]
  rw [List.drop_append_of_le_length (by omega), List.drop_of_length_le (by omega), List.nil_append, c1, c2]

/-- C150: for a band of MSU-GS/A the two instruments of the satellite become the detectors det-1 and
det-2, each with every sample of its sheet, in order, unchanged. -/
theorem C150_msugsa (options : List (String × Conf)) (files : String → Option (String → Option (List (List α))))
    (band kind platform path out : String) (j : Nat) (h : OriginalAt options platform "msu-gsa" path out)
    (hb : (band, kind, j) ∈ msugsaPlace) (wb : String → Option (List (List α))) (hf : files path = some wb)
    (rows1 rows2 : List (List α)) (samples1 samples2 : List (α × α))
    (h1 : wb ("MSU-1 " ++ kind) = some rows1) (h2 : wb ("MSU-2 " ++ kind) = some rows2)
    (hr1 : SheetWith rows1 j samples1) (hr2 : SheetWith rows2 j samples2) :
    ∃ s, MsugsaRSR options files band platform = .ok s ∧ s.instrument = "msu-gsa" ∧ s.output_dir = out ∧
      s.dets.keys = ["det-1", "det-2"] ∧
      ∀ n samples, (n, samples) ∈ [("det-1", samples1), ("det-2", samples2)] → ∃ D, s.dets.get? n = some D ∧
        D.get? "wavelength" = some (.arr (samples.map Prod.fst)) ∧ D.get? "response" = some (.arr (samples.map Prod.snd)) := by
  have e1 := msugsaDetector_run wb band kind j 1 hb rows1 samples1 h1 hr1
  have e2 := msugsaDetector_run wb band kind j 2 hb rows2 samples2 h2 hr2
  unfold MsugsaRSR
  rw [sectionPath_at h (by rw [String.append_assoc]; rfl)]
  simp only [bind, Except.bind, hf, e1, e2, pure, Except.pure]
  refine ⟨_, rfl, rfl, rfl, by rfl, ?_⟩
  intro n samples hn
  simp only [List.mem_cons, Prod.mk.injEq, List.not_mem_nil, or_false] at hn
  rcases hn with ⟨rfl, rfl⟩ | ⟨rfl, rfl⟩
  · exact ⟨_, by rfl, by rfl, by rfl⟩
  · exact ⟨_, by rfl, by rfl, by rfl⟩

/-- C150: any other name is a KeyError. -/
theorem C150_msugsa_other (options : List (String × Conf)) (files : String → Option (String → Option (List (List α))))
    (band platform path out : String) (h : OriginalAt options platform "msu-gsa" path out)
    (hb : ∀ p ∈ msugsaPlace, p.1 ≠ band) : MsugsaRSR options files band platform = .error .keyError := by
  have e : ∀ n, msugsaSheet band n = .error .keyError := by
    intro n
    simp only [msugsaPlace, List.forall_mem_cons, List.not_mem_nil] at hb
    obtain ⟨a1, a2, a3, a4, a5, a6, a7, a8, a9, a10, -⟩ := hb
    unfold msugsaSheet
    rw [if_neg (by simp [Ne.symm a1, Ne.symm a2, Ne.symm a3]),
      if_neg (by simp [Ne.symm a4, Ne.symm a5, Ne.symm a6, Ne.symm a7, Ne.symm a8, Ne.symm a9, Ne.symm a10])]
  unfold MsugsaRSR
  rw [sectionPath_at h (by rw [String.append_assoc]; rfl)]
  simp only [bind, Except.bind]
  cases files path with
  | none => simp only [e]
  | some wb => simp only [msugsaDetector, e, bind, Except.bind]

/-- one infrared sample in each of the two sheets -/
example : ∃ s, MsugsaRSR (exOriginal "Arctica-M-N1-msu-gsa") (fun _ => some fun n =>
      if n = "MSU-1 IR" then some [[], [], [], finL [3.5, 0.5, 0.25]] else some [[], [], [], finL [3.6, 0.75, 1]])
      "ch5" "Arctica-M-N1" = .ok s ∧ s.dets.keys = ["det-1", "det-2"] := by
  obtain ⟨s, h, -, -, hc, -⟩ := C150_msugsa (exOriginal "Arctica-M-N1-msu-gsa") (fun _ => some fun n =>
      if n = "MSU-1 IR" then some [[], [], [], finL [3.5, 0.5, 0.25]] else some [[], [], [], finL [3.6, 0.75, 1]])
    "ch5" "IR" "Arctica-M-N1" "/raw/file" "/rsr" 2 (exOriginal_at "Arctica-M-N1" "msu-gsa" (by decide))
    (by simp [msugsaPlace]) _ rfl _ _ [(fin 3.5, fin 0.25)] [(fin 3.6, fin 1)] (by rfl) (by rfl)
    ⟨[[], [], []], [_], rfl, rfl, .cons ⟨rfl, rfl⟩ .nil⟩ ⟨[[], [], []], [_], rfl, rfl, .cons ⟨rfl, rfl⟩ .nil⟩
  exact ⟨s, h, hc⟩

/-! ### C151 -/

/-- A cell with two words: the wavelength and the response of a sample. -/
def CellWith (P : Parsers α) (cell : String) (p : α × α) : Prop :=
  ∃ a b : String, WordsOf cell.toList [a.toList, b.toList] ∧ P.float a = .ok p.1 ∧ P.float b = .ok p.2

/-- A workbook with one sheet for the band: three cells of text and then a cell for every sample. -/
def WorkbookWith (P : Parsers α) (sheets : List TextSheet) (band : String) (samples : List (α × α)) : Prop :=
  ∃ before s after head cells, sheets = before ++ s :: after ∧ Str.strip s.name = "aatsr_" ++ band ∧
    (∀ t ∈ after, Str.strip t.name ≠ "aatsr_" ++ band) ∧
    (∀ t ∈ before, Str.strip t.name ≠ "aatsr_" ++ band) ∧
    s.cells = head ++ cells ∧ head.length = 3 ∧ List.Forall₂ (CellWith P) cells samples

omit [PyNum α] in
theorem forall₂_take {β γ : Type} {R : β → γ → Prop} {l : List β} {m : List γ} (h : List.Forall₂ R l m) (n : Nat) :
    List.Forall₂ R (l.take n) (m.take n) := by
  induction h generalizing n with
  | nil => simp
  | cons h _ ih =>
    cases n with
    | zero => simp
    | succ n => exact .cons h (ih n)

theorem cells_data (P : Parsers α) (f32 : α → α) (cells : List String) (samples : List (α × α))
    (h : List.Forall₂ (CellWith P) cells samples) :
    (∀ w ∈ cells.map Str.words, w.length = 2) ∧
    ((cells.map Str.words).mapM fun ws => ws.mapM fun w => do return f32 (← P.float w) : Py (List (List α))) =
      .ok (samples.map fun p => [f32 p.1, f32 p.2]) := by
  induction h with
  | nil => exact ⟨by simp, rfl⟩
  | @cons c p _ _ h _ ih =>
    obtain ⟨a, b, hw, ha, hb⟩ := h
    rw [← words_two] at hw
    constructor
    · simp only [List.map_cons, List.forall_mem_cons, hw]
      exact ⟨rfl, ih.1⟩
    · have h1 : ([a, b].mapM fun w => do return f32 (← P.float w) : Py (List α)) = .ok [f32 p.1, f32 p.2] := by
        rw [List.mapM_cons, List.mapM_cons, List.mapM_nil, ha, hb]; rfl
      rw [List.map_cons, List.mapM_cons, hw, h1, ih.2]
      rfl

theorem aatsrSheet_run (P : Parsers α) (f32 : α → α) (s : TextSheet) (head cells : List String) (samples : List (α × α))
    (hc : s.cells = head ++ cells) (hh : head.length = 3) (h : List.Forall₂ (CellWith P) cells samples) (hne : samples ≠ []) :
    aatsrSheet P f32 s = .ok ⟨(samples.take 255).map fun p => f32 p.1, (samples.take 255).map fun p => f32 p.2⟩ := by
  have hrows : (s.cells.take 258).drop 3 = cells.take 255 := by
    rw [hc, List.take_append, hh, List.drop_append, List.length_take, hh]
    simp [List.take_of_length_le, hh, List.drop_of_length_le]
  obtain ⟨d1, d2⟩ := cells_data P f32 _ _ (forall₂_take h 255)
  unfold aatsrSheet
  rw [hrows]
  cases hr : (cells.take 255).map Str.words with
  | nil =>
    exfalso
    have := h.length_eq
    cases cells with
    | nil => cases samples with
      | nil => exact hne rfl
      | cons _ _ => simp at this
    | cons _ _ => simp at hr
  | cons r rs =>
    rw [hr] at d1 d2
    have hr2 : r.length = 2 := d1 r (List.mem_cons_self ..)
    have hall : (r :: rs).all (fun w => w.length == r.length) = true := by
      rw [List.all_eq_true]
      intro w hw
      rw [hr2, d1 w hw]; rfl
    simp only [hall, Bool.not_true, Bool.false_eq_true, if_false]
    rw [d2]
    show (if r.length < 2 then _ else _) = _
    rw [if_neg (by omega)]
    have e : ∀ l : List (α × α), (l.map fun p => [f32 p.1, f32 p.2]).filterMap (fun d => d[0]?) = l.map (fun p => f32 p.1) ∧
        (l.map fun p => [f32 p.1, f32 p.2]).filterMap (fun d => d[1]?) = l.map (fun p => f32 p.2) := by
      intro l
      induction l with
      | nil => exact ⟨rfl, rfl⟩
      | cons p l ih => simp [ih.1, ih.2]
    rw [(e _).1, (e _).2]
    rfl

theorem aatsrLoad_skip (P : Parsers α) (f32 : α → α) (sheets : List TextSheet) (band : String)
    (h : ∀ t ∈ sheets, Str.strip t.name ≠ "aatsr_" ++ band) (r : Option (RawCurve α)) :
    sheets.foldlM (fun rsr s => if Str.strip s.name = "aatsr_" ++ band then
      (do return some (← aatsrSheet P f32 s) : Py (Option (RawCurve α))) else pure rsr) r = .ok r := by
  induction sheets with
  | nil => rfl
  | cons s l ih =>
    rw [List.foldlM_cons, if_neg (h s (List.mem_cons_self ..))]
    exact ih fun t ht => h t (List.mem_cons_of_mem _ ht)

/-- C151, the part that holds: for a band of AATSR the first 255 samples of its sheet are given, in
order, as 32-bit numbers. -/
theorem C151_samples_partial (P : Parsers α) (f32 : α → α) (options : List (String × Conf))
    (files : String → Option (List TextSheet)) (band platform path out : String)
    (h : OriginalAt options platform "aatsr" path out) (sheets : List TextSheet) (hf : files path = some sheets)
    (samples : List (α × α)) (hw : WorkbookWith P sheets band samples) (hne : samples ≠ []) :
    ∃ s, AatsrRSR P f32 options files band platform = .ok s ∧ s.instrument = "aatsr" ∧ s.output_dir = out ∧
      HasRawCurve s ((samples.take 255).map fun p => f32 p.1) ((samples.take 255).map fun p => f32 p.2) := by
  obtain ⟨before, s, after, head, cells, rfl, hn, hafter, hbefore, hcells, hh, hd⟩ := hw
  have hl : aatsrLoad P f32 (before ++ s :: after) band =
      .ok (some ⟨(samples.take 255).map fun p => f32 p.1, (samples.take 255).map fun p => f32 p.2⟩) := by
    unfold aatsrLoad
    rw [List.foldlM_append, aatsrLoad_skip P f32 before band hbefore]
    simp only [bind, Except.bind]
    rw [List.foldlM_cons, if_pos hn, aatsrSheet_run P f32 s head cells samples hcells hh hd hne]
    exact aatsrLoad_skip P f32 after band hafter _
  unfold AatsrRSR
  rw [sectionPath_at h (by rw [String.append_assoc]; rfl)]
  simp only [bind, Except.bind, hf, hl, pure, Except.pure]
  exact ⟨_, rfl, rfl, rfl, rfl, rfl⟩

/-- C151 is false: of a sheet with more than 255 samples the others are dropped without a word. -/
theorem C151_rest_dropped (P : Parsers α) (f32 : α → α) (options : List (String × Conf))
    (files : String → Option (List TextSheet)) (band platform path out : String)
    (h : OriginalAt options platform "aatsr" path out) (sheets : List TextSheet) (hf : files path = some sheets)
    (samples : List (α × α)) (hw : WorkbookWith P sheets band samples) (hmany : 255 < samples.length) :
    ∃ s w r, AatsrRSR P f32 options files band platform = .ok s ∧ HasRawCurve s w r ∧
      w.length = 255 ∧ r.length = 255 := by
  obtain ⟨s, h1, -, -, h2⟩ := C151_samples_partial P f32 options files band platform path out h sheets hf samples hw
    (by rintro rfl; simp at hmany)
  exact ⟨s, _, _, h1, h2, by simp; omega, by simp; omega⟩

/-- numbers written as 0 or 1 -/
def exZeroOne : Parsers XF where
  int _ := .error .valueError
  float s := if s = "0" then .ok (fin 0) else if s = "1" then .ok (fin 1) else .error .valueError

/-- a workbook with n samples for the band at 12 micron -/
def exAatsrBook (n : Nat) : List TextSheet :=
  [⟨"Title", []⟩, ⟨"aatsr_ir12", ["a", "b", "c"] ++ List.replicate n "1 0"⟩]

theorem exAatsrBook_with (n : Nat) : WorkbookWith exZeroOne (exAatsrBook n) "ir12" (List.replicate n (fin 1, fin 0)) := by
  refine ⟨[⟨"Title", []⟩], ⟨"aatsr_ir12", ["a", "b", "c"] ++ List.replicate n "1 0"⟩, [], ["a", "b", "c"],
    List.replicate n "1 0", rfl, (by decide +kernel : Str.strip "aatsr_ir12" = _), by simp, ?_, rfl, rfl, ?_⟩
  · intro t ht
    rw [List.mem_singleton.1 ht]
    decide +kernel
  · induction n with
    | zero => simp
    | succ n ih =>
      rw [List.replicate_succ, List.replicate_succ]
      exact .cons ⟨"1", "0", (words_two _ _ _).1 (by decide +kernel), by simp [exZeroOne], by simp [exZeroOne]⟩ ih

example : ∃ s w r, AatsrRSR exZeroOne id (exOriginal "Envisat-aatsr") (fun _ => some (exAatsrBook 300)) "ir12" "Envisat" = .ok s ∧
    HasRawCurve s w r ∧ w.length = 255 ∧ r.length = 255 :=
  C151_rest_dropped _ _ _ _ _ _ "/raw/file" "/rsr" (exOriginal_at "Envisat" "aatsr" (by decide)) _ rfl _
    (exAatsrBook_with 300) (by rw [List.length_replicate]; omega)

example : ∃ s, AatsrRSR exZeroOne id (exOriginal "Envisat-aatsr") (fun _ => some (exAatsrBook 2)) "ir12" "Envisat" = .ok s ∧
    HasRawCurve s (finL [1, 1]) (finL [0, 0]) := by
  obtain ⟨s, h, -, -, hc⟩ := C151_samples_partial exZeroOne id _ (fun _ => some (exAatsrBook 2)) "ir12" "Envisat" "/raw/file"
    "/rsr" (exOriginal_at "Envisat" "aatsr" (by decide)) _ rfl _ (exAatsrBook_with 2) (by simp)
  exact ⟨s, h, hc⟩

/-- When every band gives an object and that of some band has no data, the conversion fails and
leaves a file that does not load. -/
theorem noData_loses (f32 : α → α) (ClassIn : String → String → Py (RawSensor α)) (inst platform out : String)
    (names : List String) (scale : α) (fs : H5Files α) (hnd : names.Nodup)
    (hok : ∀ b ∈ names, ∃ s, ClassIn b platform = .ok s ∧ s.instrument = inst ∧ s.output_dir = out)
    (band : String) (hb : band ∈ names) (hbad : ClassIn band platform = .ok (RawSensor.noData inst out)) :
    ∃ e fs' f, convertSteps f32 ClassIn platform names scale none fs = (.error e, fs') ∧
      fs' (out, "rsr_" ++ withoutSlashes inst ++ "_" ++ platform ++ ".h5") = some f ∧ ∀ info, loadRsrInfo f ≠ .ok info := by
  cases hm : convert2hdf5 f32 ClassIn platform names scale none with
  | ok pf =>
    exfalso
    unfold convert2hdf5 at hm
    cases hi : (names.mapM fun b => ClassIn b platform) with
    | error e => rw [hi] at hm; cases hm
    | ok l =>
      rw [hi] at hm
      obtain ⟨c, hc, hmem⟩ := mapM_zip_mem _ _ _ hi band hb
      cases l with
      | nil => cases hm
      | cons first rest =>
        simp only [bind, Except.bind] at hm
        cases hw : writeChannels f32 scale none (names.zip (first :: rest)) [] with
        | error e => rw [hw] at hm; cases hm
        | ok bands =>
          obtain ⟨w, r, hcv⟩ := writeChannels_all f32 scale _ _ _ hw _ hmem
          rw [hbad] at hc
          cases hc
          simp [HasRawCurve, RawSensor.noData, Dict.get?] at hcv
  | error e =>
    have h1 := (C131_same_result f32 ClassIn platform names scale none fs).2 e hm
    rcases hc : convertSteps f32 ClassIn platform names scale none fs with ⟨res, fs'⟩
    rw [hc] at h1
    cases h1
    obtain ⟨p, f, hp, hpf, hl⟩ := C132_old_file_lost f32 _ platform names scale none hnd
      (List.ne_nil_of_mem hb) (fun b hb => (hok b hb).imp fun s hs => hs.1) fs fs' e hc
    refine ⟨e, fs', f, rfl, ?_, hl⟩
    obtain ⟨b, rest, s, hn, hs, rfl⟩ := hp
    obtain ⟨s', hs1, hs2, hs3⟩ := hok b (by rw [hn]; exact List.mem_cons_self ..)
    rw [hs] at hs1
    cases hs1
    rw [hs2, hs3] at hpf
    exact hpf

/-- C151: a workbook without a sheet for some band of AATSR makes the conversion fail, and what was
in the response file is lost. -/
theorem C151_missing_sheet_loses (P : Parsers α) (f32 : α → α) (options : List (String × Conf))
    (files : String → Option (List TextSheet)) (platform path out : String)
    (h : OriginalAt options platform "aatsr" path out) (sheets : List TextSheet) (hf : files path = some sheets)
    (names : List String) (scale : α) (fs : H5Files α) (hnd : names.Nodup) (band : String) (hb : band ∈ names)
    (hmiss : ∀ t ∈ sheets, Str.strip t.name ≠ "aatsr_" ++ band)
    (hrest : ∀ b ∈ names, (∀ t ∈ sheets, Str.strip t.name ≠ "aatsr_" ++ b) ∨
      ∃ samples, samples ≠ [] ∧ WorkbookWith P sheets b samples) :
    ∃ e fs' f, convertSteps f32 (AatsrRSR P f32 options files) platform names scale none fs = (.error e, fs') ∧
      fs' (out, "rsr_aatsr_" ++ platform ++ ".h5") = some f ∧ ∀ info, loadRsrInfo f ≠ .ok info := by
  have hno : ∀ b, (∀ t ∈ sheets, Str.strip t.name ≠ "aatsr_" ++ b) →
      AatsrRSR P f32 options files b platform = .ok (RawSensor.noData "aatsr" out) := by
    intro b hb
    unfold AatsrRSR
    rw [sectionPath_at h (by rw [String.append_assoc]; rfl)]
    simp only [bind, Except.bind, hf]
    unfold aatsrLoad
    rw [aatsrLoad_skip P f32 sheets b hb]
    rfl
  have := noData_loses f32 (AatsrRSR P f32 options files) "aatsr" platform out names scale fs hnd (by
    intro b hb
    rcases hrest b hb with hm | ⟨samples, hs, hw⟩
    · exact ⟨_, hno b hm, rfl, rfl⟩
    · obtain ⟨s, h1, h2, h3, -⟩ := C151_samples_partial P f32 options files b platform path out h sheets hf samples hw hs
      exact ⟨s, h1, h2, h3⟩) band hb (hno band hmiss)
  simpa [withoutSlashes] using this

example (fs : H5Files XF) : ∃ e fs' f,
    convertSteps id (AatsrRSR exZeroOne id (exOriginal "Envisat-aatsr") fun _ => some (exAatsrBook 2)) "Envisat"
      ["ir12", "ir11"] (fin 1000) none fs = (.error e, fs') ∧
    fs' ("/rsr", "rsr_aatsr_Envisat.h5") = some f ∧ ∀ info, loadRsrInfo f ≠ .ok info := by
  have hm : ∀ t ∈ exAatsrBook 2, Str.strip t.name ≠ "aatsr_" ++ "ir11" := by
    intro t ht
    simp only [exAatsrBook, List.mem_cons, List.not_mem_nil, or_false] at ht
    rcases ht with rfl | rfl <;> decide +kernel
  exact C151_missing_sheet_loses exZeroOne id _ _ "Envisat" "/raw/file" "/rsr" (exOriginal_at "Envisat" "aatsr" (by decide))
    _ rfl _ _ fs (by decide +kernel) "ir11" (by simp) hm (by
      intro b hb
      simp only [List.mem_cons, List.not_mem_nil, or_false] at hb
      rcases hb with rfl | rfl
      · exact .inr ⟨_, by simp, exAatsrBook_with 2⟩
      · exact .inl hm)

/-! ### C152 -/

/-- the name of the sheet of an AHI band -/
def ahiSheetOf : List (String × String) :=
  [("Band 1", "ch1"), ("Band 2", "ch2"), ("Band 3", "ch3"), ("Band 4", "ch4"), ("Band 5", "ch5"), ("Band 6", "ch6"),
   ("Band 7", "ch7"), ("Band 8", "ch8"), ("Band 9", "ch9"), ("Band 10", "ch10"), ("Band 11", "ch11"), ("Band 12", "ch12"),
   ("Band 13", "ch13"), ("Band 14", "ch14"), ("Band 15", "ch15"), ("Band 16", "ch16")]

theorem ahi_names : AHI_BAND_NAMES = ahiSheetOf := by decide +kernel

/-- what a sheet is read as: nothing for the title, otherwise its name without blanks is looked up -/
def AhiKey (s : Sheet α) (key : String) : Prop :=
  s.name ≠ "Title" ∧
    ((Str.strip s.name, key) ∈ ahiSheetOf ∨ (key = Str.strip s.name ∧ ∀ p ∈ ahiSheetOf, p.1 ≠ Str.strip s.name))

omit [PyNum α] in
theorem ahi_lookup (s : Sheet α) (key : String) (h : AhiKey s key) :
    (AHI_BAND_NAMES.get? (Str.strip s.name)).getD (Str.strip s.name) = key := by
  rw [ahi_names]
  rcases h.2 with h | ⟨rfl, h'⟩
  · rw [get?_of_mem (show (Dict.keys ahiSheetOf).Nodup by decide +kernel) h]; rfl
  · rw [get?_eq_none_iff.2 (by
      intro hk
      obtain ⟨p, hp, he⟩ := List.mem_map.1 hk
      exact h' p hp he)]
    rfl

theorem ahi_last (after : List (Sheet α)) (key : String) (hafter : ∀ t ∈ after, ¬ AhiKey t key) :
    ∀ rsr : Dict String (RawCurve α), (after.foldl ahiSheet rsr).get? key = rsr.get? key := by
  induction after with
  | nil => intro _; rfl
  | cons t l ih =>
    intro rsr
    rw [List.foldl_cons, ih (fun t ht => hafter t (List.mem_cons_of_mem _ ht))]
    unfold ahiSheet
    split
    · rfl
    · rename_i hT
      refine get?_set_ne _ _ fun he => hafter t (List.mem_cons_self ..) ⟨hT, ?_⟩
      rw [ahi_names] at he
      cases hg : Dict.get? ahiSheetOf (Str.strip t.name) with
      | some v =>
        rw [hg] at he
        exact .inl (by rw [he]; exact get?_eq_some_mem hg)
      | none =>
        rw [hg] at he
        refine .inr ⟨he, fun p hp hn => ?_⟩
        exact get?_eq_none_iff.1 hg (List.mem_map.2 ⟨p, hp, hn⟩)

/-- C152, the part that holds: the reader of AHI originals has for every band the samples of the last
sheet of that band: rows 6 to 5453 of its first and third column. -/
theorem C152_read_partial (options : List (String × Conf)) (files : String → Option (List (Sheet α)))
    (platform path out : String) (h : OriginalAt options platform "ahi" path out) (before after : List (Sheet α))
    (s : Sheet α) (hf : files path = some (before ++ s :: after)) (key : String) (hk : AhiKey s key)
    (hlast : ∀ t ∈ after, ¬ AhiKey t key) (head tail samples : List (α × α)) (hh : head.length = 5)
    (hs : samples.length = 5448 ∨ (samples.length < 5448 ∧ tail = []))
    (h0 : s.col 0 = (head ++ samples ++ tail).map Prod.fst) (h2 : s.col 2 = (head ++ samples ++ tail).map Prod.snd) :
    ∃ r, AhiRSR options files platform = .ok r ∧ r.output_dir = out ∧
      r.rsr.get? key = some ⟨samples.map Prod.fst, samples.map Prod.snd⟩ := by
  have hv : ∀ f : α × α → α, (((head ++ samples ++ tail).map f).take 5453).drop 5 = samples.map f := by
    intro f
    rw [← List.map_take, ← List.map_drop]
    congr 1
    rcases hs with hs | ⟨hs, rfl⟩
    · rw [List.take_append_of_le_length (by simp [hh, hs]), List.take_of_length_le (by simp [hh, hs]),
        List.drop_append_of_le_length (by omega), List.drop_of_length_le (by omega), List.nil_append]
    · rw [List.append_nil, List.take_of_length_le (by simp [hh]; omega),
        List.drop_append_of_le_length (by omega), List.drop_of_length_le (by omega), List.nil_append]
  unfold AhiRSR
  rw [sectionPath_at h (by rw [String.append_assoc]; rfl)]
  simp only [bind, Except.bind, hf, pure, Except.pure]
  refine ⟨_, rfl, rfl, ?_⟩
  simp only [ahiLoad, List.foldl_append, List.foldl_cons]
  rw [ahi_last after key hlast]
  generalize before.foldl ahiSheet [] = d
  unfold ahiSheet
  rw [if_neg hk.1, ahi_lookup s key hk, get?_set_self]
  simp only [Sheet.colValues, h0, h2, hv]

/-- C152 is false: the conversion of AHI originals never succeeds.  When the originals can be read it
raises TypeError and replaces the response file by one that does not load. -/
theorem C152_never_converts (options : List (String × Conf)) (files : String → Option (List (Sheet α)))
    (platform path out : String) (h : OriginalAt options platform "ahi" path out) (fs : H5Files α) :
    (∀ sheets, files path = some sheets → ∃ f, ahiConvert options files platform fs =
        (.error .typeError, fs.put (out, "rsr_ahi_" ++ platform ++ ".h5") f) ∧ ∀ info, loadRsrInfo f ≠ .ok info) ∧
    (files path = none → ahiConvert options files platform fs = (.error .attributeError, fs)) := by
  constructor
  · intro sheets hf
    have e : AhiRSR options files platform = .ok ⟨out, ahiLoad sheets⟩ := by
      unfold AhiRSR
      rw [sectionPath_at h (by rw [String.append_assoc]; rfl)]
      simp only [bind, Except.bind, hf, pure, Except.pure]
    refine ⟨⟨ahiAttrs platform, []⟩, ?_, ?_⟩
    · unfold ahiConvert
      rw [st_bind_ok (st_lift_ok e _)]
      rfl
    · intro info hl
      have := (load_inv _ _ hl).1
      simp [ahiAttrs, Dict.getItem, Dict.get?, bind, Except.bind] at this
  · intro hf
    have e : AhiRSR options files platform = .error .attributeError := by
      unfold AhiRSR
      rw [sectionPath_at h (by rw [String.append_assoc]; rfl)]
      simp only [bind, Except.bind, hf]
    unfold ahiConvert
    exact st_bind_error (st_lift_error e fs)

/-- a workbook with a title and two samples for the first band -/
noncomputable def exAhi : List (Sheet XF) :=
  [⟨"Title", fun _ => []⟩, ⟨" Band 1", fun c => finL (if c = 0 then [0, 0, 0, 0, 0, 0.46, 0.47] else [0, 0, 0, 0, 0, 1, 0.5])⟩]

example : ∃ r, AhiRSR (exOriginal "Himawari-8-ahi") (fun _ => some exAhi) "Himawari-8" = .ok r ∧
    r.rsr.get? "ch1" = some ⟨finL [0.46, 0.47], finL [1, 0.5]⟩ := by
  obtain ⟨r, h1, -, h2⟩ := C152_read_partial (exOriginal "Himawari-8-ahi") (fun _ => some exAhi) "Himawari-8" "/raw/file" "/rsr"
    (exOriginal_at "Himawari-8" "ahi" (by decide)) [⟨"Title", fun _ => []⟩] [] _ rfl "ch1"
    ⟨by simp, .inl (by rw [show Str.strip " Band 1" = "Band 1" by decide +kernel]; simp [ahiSheetOf])⟩ (by simp)
    (List.replicate 5 (fin 0, fin 0)) [] [(fin 0.46, fin 1), (fin 0.47, fin 0.5)] (by simp) (.inr ⟨by simp, rfl⟩) (by rfl) (by rfl)
  exact ⟨r, h1, h2⟩

example (fs : H5Files XF) : ∃ f, ahiConvert (exOriginal "Himawari-8-ahi") (fun _ => some exAhi) "Himawari-8" fs =
      (.error .typeError, fs.put ("/rsr", "rsr_ahi_Himawari-8.h5") f) ∧ ∀ info, loadRsrInfo f ≠ .ok info :=
  (C152_never_converts _ _ "Himawari-8" "/raw/file" "/rsr" (exOriginal_at "Himawari-8" "ahi" (by decide)) fs).1 _ rfl

end Verif.Props
