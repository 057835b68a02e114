import Verif.Model.TextConvert
import Verif.Props.Config
import Verif.Props.WriterSteps
/-
C144: converters that read one text table per band.  C145: original files that are missing.
-/
namespace Verif.Props
open XF Model PyNum Lemmas Spec
variable {α : Type} [PyNum α]

/-- The configuration has a section for the platform and instrument with the directory of the
original data and a file for every band, and the directory for response files. -/
structure OriginalsAt (options : List (String × Conf)) (platform instrument : String) (bands : List String)
    (dir : String) (file : String → String) (out : String) : Prop where
  dir : InSection options platform instrument "path" (.leaf (.str dir))
  files : ∀ b ∈ bands, InSection options platform instrument b (.leaf (.str (file b)))
  out : Dict.get? options "rsr_dir" = some (.leaf (.str out))

/-- After `skip` header lines come these samples, wavelengths in column `i`, responses in column `j`
of a table with equally long rows. -/
def TableWith (lines : List (List α)) (skip i j : Nat) (samples : List (α × α)) : Prop :=
  samples ≠ [] ∧ ∃ n, List.Forall₂ (fun row p => row.length = n ∧ row[i]? = some p.1 ∧ row[j]? = some p.2)
    (lines.drop skip) samples

/-- The object has this curve for the writer. -/
def HasRawCurve (s : RawSensor α) (w r : List α) : Prop :=
  s.own.get? "wavelength" = some (.arr w) ∧ s.own.get? "response" = some (.arr r)

omit [PyNum α] in
theorem inSection_inj {options : List (String × Conf)} {p i k : String} {v v' : Conf}
    (h : InSection options p i k v) (h' : InSection options p i k v') : v = v' := by
  obtain ⟨d, hd, hv⟩ := h
  obtain ⟨d', hd', hv'⟩ := h'
  rw [hd] at hd'
  cases hd'
  rw [hv] at hv'
  cases hv'
  rfl

/-- what construction gives for a configured band -/
theorem textClass_run {φ : Type} (options : List (String × Conf)) (files : String → Option φ) (bands : List String)
    (inst : String) (m : OnMissing) (load : φ → Py (RawCurve α)) (band platform dir out : String)
    (file : String → String) (h : OriginalsAt options platform inst bands dir file out) (hb : band ∈ bands) :
    textClass options files bands (some inst) m load band platform =
      match files (OsPath.join dir (file band)) with
      | some lines => (do return RawSensor.ofCurve inst out (← load lines))
      | none => match m with
        | .warn => .ok (RawSensor.noData inst out)
        | .raise => .error .ioError := by
  obtain ⟨r', r'', h1, h2⟩ := C93_returns options
    ({ InstrumentRSR.new band platform (some bands) with instrument := some inst } : InstrumentRSR) inst dir rfl h.dir
    (fun b hb => ⟨_, h.files b hb⟩)
  obtain ⟨o1, ⟨p, o2, o2'⟩, _, _, _, o3, _, _⟩ := C93_options options _ r' inst rfl h1
  obtain ⟨p', f', e1, e2, e3⟩ := (C93_band_files options _ r' r'' inst rfl h1 h2).1 band hb
  have hk : r''.instrument = r'.instrument ∧ r''.output_dir = r'.output_dir := by
    unfold InstrumentRSR.getBandfilenames at h2
    cases hm : (r'.bandnames.mapM fun b => do return (b, ← r'.bandFilename b) : Py (List (String × String))) with
    | error e => rw [hm] at h2; simp [bind, Except.bind] at h2
    | ok fs =>
      rw [hm] at h2
      simp only [bind, Except.bind, pure, Except.pure, Except.ok.injEq] at h2
      subst h2
      exact ⟨rfl, rfl⟩
  have ed : p' = dir := by
    have := inSection_inj e1 h.dir
    simpa using this
  have ef : f' = file band := by
    have := inSection_inj e2 (h.files band hb)
    simpa using this
  subst ed ef
  unfold textClass
  rw [h1]
  simp only [bind, Except.bind]
  rw [h2]
  simp only
  unfold Dict.getItem
  rw [e3]
  simp only [hk.1, hk.2, o3, o1 _ h.out, Option.bind_some]
  rfl

omit [PyNum α] in
theorem columnsOf_get (rows : List (List α)) (samples : List (α × α)) (n i j : Nat) (hne : samples ≠ [])
    (h : List.Forall₂ (fun row (p : α × α) => row.length = n ∧ row[i]? = some p.1 ∧ row[j]? = some p.2) rows samples) :
    ∃ cols, columnsOf rows = .ok cols ∧ cols[i]? = some (samples.map Prod.fst) ∧ cols[j]? = some (samples.map Prod.snd) ∧
      cols.length = n ∧ i < n ∧ j < n := by
  have hcol : ∀ (rows : List (List α)) (samples : List (α × α)),
      List.Forall₂ (fun row (p : α × α) => row.length = n ∧ row[i]? = some p.1 ∧ row[j]? = some p.2) rows samples →
      (rows.filterMap fun s => s[i]?) = samples.map Prod.fst ∧ (rows.filterMap fun s => s[j]?) = samples.map Prod.snd := by
    intro rows samples h
    induction h with
    | nil => exact ⟨rfl, rfl⟩
    | cons hp _ ih =>
      rw [List.filterMap_cons, List.filterMap_cons, hp.2.1, hp.2.2, ih.1, ih.2]
      exact ⟨rfl, rfl⟩
  have hc := hcol rows samples h
  have hall : ∀ s ∈ rows, s.length = n := by
    clear hcol hc hne
    induction h with
    | nil => simp
    | cons hp _ ih =>
      intro s hs
      rcases List.mem_cons.1 hs with rfl | hs
      · exact hp.1
      · exact ih s hs
  cases h with
  | nil => exact absurd rfl hne
  | @cons row p rows' samples' hp hrest =>
    have hi : i < n := by
      have := hp.2.1
      rw [← hp.1]
      exact (List.getElem?_eq_some_iff.1 this).1
    have hj : j < n := by
      have := hp.2.2
      rw [← hp.1]
      exact (List.getElem?_eq_some_iff.1 this).1
    refine ⟨(List.range n).map fun k => (row :: rows').filterMap fun s => s[k]?, ?_, ?_, ?_, ?_, hi, hj⟩
    · unfold columnsOf
      dsimp only
      rw [if_pos, hp.1]
      rw [List.all_eq_true]
      intro s hs
      rw [hall s hs, hp.1]
      simp
    · rw [List.getElem?_map, List.getElem?_range hi]
      simp only [Option.map_some]
      rw [hc.1]
    · rw [List.getElem?_map, List.getElem?_range hj]
      simp only [Option.map_some]
      rw [hc.2]
    · simp

omit [PyNum α] in
theorem genfromtxt_array (lines : List (List α)) (skip i j : Nat) (samples : List (α × α))
    (h : TableWith lines skip i j samples) :
    ∃ t, genfromtxt none skip lines = .ok t ∧ t.col i = .ok (samples.map Prod.fst) ∧ t.col j = .ok (samples.map Prod.snd) := by
  obtain ⟨hne, n, h⟩ := h
  obtain ⟨cols, e, ei, ej, -⟩ := columnsOf_get _ _ n i j hne h
  refine ⟨.array cols, ?_, ?_, ?_⟩
  · unfold genfromtxt
    rw [e]
    rfl
  · unfold GenTable.col
    rw [ei]
  · unfold GenTable.col
    rw [ej]

omit [PyNum α] in
theorem genfromtxt_list (lines : List (List α)) (names : List String) (skip i j : Nat) (samples : List (α × α))
    (hi : i < names.length) (hj : j < names.length) (h : TableWith lines skip i j samples) :
    ∃ t, genfromtxt (some names) skip lines = .ok (.list t) ∧ GenTable.col (.list t) i = .ok (samples.map Prod.fst) ∧
      GenTable.col (.list t) j = .ok (samples.map Prod.snd) := by
  obtain ⟨hne, n, h⟩ := h
  obtain ⟨cols, e, ei, ej, -⟩ := columnsOf_get _ _ n i j hne h
  refine ⟨cols.take names.length, ?_, ?_, ?_⟩
  · unfold genfromtxt
    rw [e]
    rfl
  · unfold GenTable.col
    rw [List.getElem?_take_of_lt hi, ei]
  · unfold GenTable.col
    rw [List.getElem?_take_of_lt hj, ej]

/-- a configuration for the examples: the file of every band is `<band>.txt` in `/raw` -/
def exOriginals (platform instrument : String) (bands : List String) : List (String × Conf) :=
  [("rsr_dir", .leaf (.str "/rsr")),
   (platform ++ "-" ++ instrument, .map (("path", .leaf (.str "/raw")) :: bands.map fun b => (b, .leaf (.str (b ++ ".txt")))))]

theorem exOriginals_at (platform instrument : String) (n : Nat) (hs : platform ++ "-" ++ instrument ≠ "rsr_dir")
    (hn : "path" ∉ chNames n) :
    OriginalsAt (exOriginals platform instrument (chNames n)) platform instrument (chNames n) "/raw" (· ++ ".txt") "/rsr" := by
  have hsec : Dict.get? (exOriginals platform instrument (chNames n)) (platform ++ "-" ++ instrument) =
      some (.map (("path", .leaf (.str "/raw")) :: (chNames n).map fun b => (b, .leaf (.str (b ++ ".txt"))))) := by
    unfold exOriginals Dict.get?
    rw [if_neg (Ne.symm hs)]
    simp [Dict.get?]
  refine ⟨⟨_, hsec, rfl⟩, fun b hb => ⟨_, hsec, ?_⟩, rfl⟩
  have hp : b ≠ "path" := fun h => hn (h ▸ hb)
  unfold Dict.get?
  rw [if_neg (Ne.symm hp)]
  generalize chNames n = l at hb
  induction l with
  | nil => simp at hb
  | cons x l ih =>
    by_cases hx : x = b
    · subst hx; simp [Dict.get?]
    · rw [List.map_cons, Dict.get?, if_neg hx]
      exact ih (by simpa [Ne.symm hx] using hb)

/-- the files of the examples: one of MERSI-3 -/
noncomputable def exMersi3Files : String → Option (List (List XF)) := fun p =>
  if p = "/raw/ch1.txt" then some [[fin 470, fin 0], [fin 471, fin 1], [fin 472, fin 0]] else none

/-! ### C144 -/

/-- C144, the part that holds: the converters for ABI, MERSI-3 and MERSI-RM give every sample of the
table, in order; wavelengths are those of the first column in micron, responses those of the third
(ABI) or second column. -/
theorem C144_samples_partial (options : List (String × Conf)) (files : String → Option (List (List α)))
    (band platform dir out : String) (file : String → String) (lines : List (List α)) (samples : List (α × α))
    (hf : files (OsPath.join dir (file band)) = some lines) :
    (OriginalsAt options platform "abi" (chNames 16) dir file out → band ∈ chNames 16 → TableWith lines 2 0 2 samples →
      ∃ s, AbiRSR options files band platform = .ok s ∧ s.instrument = "abi" ∧ s.output_dir = out ∧
        HasRawCurve s (samples.map fun p => p.1 * 1.0) (samples.map Prod.snd)) ∧
    (OriginalsAt options platform "mersi3" (chNames 25) dir file out → band ∈ chNames 25 → TableWith lines 0 0 1 samples →
      ∃ s, Mersi3RSR options files band platform = .ok s ∧ s.instrument = "mersi3" ∧ s.output_dir = out ∧
        HasRawCurve s (samples.map fun p => p.1 * 0.001) (samples.map Prod.snd)) ∧
    (platform = "FY-3G" → OriginalsAt options platform "mersi-rm" (chNames 8) dir file out → band ∈ chNames 8 →
      TableWith lines 1 0 1 samples →
      ∃ s, MersiRMRSR options files band platform = .ok s ∧ s.instrument = "mersi-rm" ∧ s.output_dir = out ∧
        HasRawCurve s (samples.map fun p => p.1 * 0.001) (samples.map Prod.snd)) := by
  refine ⟨fun h hb ht => ?_, fun h hb ht => ?_, fun hp h hb ht => ?_⟩
  · obtain ⟨t, e, e0, e1⟩ := genfromtxt_array _ _ _ _ _ ht
    unfold AbiRSR
    rw [textClass_run _ _ _ _ _ _ _ _ _ _ _ h hb, hf]
    simp only [abiLoad, e, e0, e1, bind, Except.bind, pure, Except.pure]
    exact ⟨_, rfl, rfl, rfl, by simp [HasRawCurve, RawSensor.ofCurve, Dict.get?, List.map_map, Function.comp_def]⟩
  · obtain ⟨t, e, e0, e1⟩ := genfromtxt_array _ _ _ _ _ ht
    unfold Mersi3RSR
    rw [textClass_run _ _ _ _ _ _ _ _ _ _ _ h hb, hf]
    simp only [mersi3Load, e, e0, e1, bind, Except.bind, pure, Except.pure]
    exact ⟨_, rfl, rfl, rfl, by simp [HasRawCurve, RawSensor.ofCurve, Dict.get?, List.map_map, Function.comp_def]⟩
  · obtain ⟨t, e, e0, e1⟩ := genfromtxt_list _ ["wavelength", "response"] _ _ _ _ (by simp) (by simp) ht
    subst hp
    unfold MersiRMRSR
    rw [show instrumentOr "FY-3G" "mersi-rm" = some "mersi-rm" by decide +kernel,
      textClass_run _ _ _ _ _ _ _ _ _ _ _ h hb, hf]
    simp only [mersirmLoad, e, e0, e1, bind, Except.bind, pure, Except.pure]
    exact ⟨_, rfl, rfl, rfl, by simp [HasRawCurve, RawSensor.ofCurve, Dict.get?, List.map_map, Function.comp_def]⟩

/-- a table of three samples for MERSI-3 -/
example : ∃ s, Mersi3RSR (exOriginals "FY-3F" "mersi3" (chNames 25)) exMersi3Files "ch1" "FY-3F" = .ok s ∧
    HasRawCurve s [fin 470 * 0.001, fin 471 * 0.001, fin 472 * 0.001] [fin 0, fin 1, fin 0] := by
  obtain ⟨s, h, -, -, hc⟩ := (C144_samples_partial (exOriginals "FY-3F" "mersi3" (chNames 25)) exMersi3Files "ch1" "FY-3F"
    "/raw" "/rsr" (· ++ ".txt") [[fin 470, fin 0], [fin 471, fin 1], [fin 472, fin 0]]
    [(fin 470, fin 0), (fin 471, fin 1), (fin 472, fin 0)] (by rfl)).2.1
    (exOriginals_at _ _ 25 (by decide) (by decide +kernel)) (by decide +kernel) ⟨by simp, 2, by simp⟩
  exact ⟨s, h, hc⟩

/-- a table of two samples for ABI, with responses in the third column -/
example : ∃ s, AbiRSR (exOriginals "GOES-16" "abi" (chNames 16))
      (fun _ => some [[], [], [fin 8, fin 5, fin 0], [fin 9, fin 6, fin 1]]) "ch7" "GOES-16" = .ok s ∧
    HasRawCurve s [fin 8 * 1.0, fin 9 * 1.0] [fin 0, fin 1] := by
  obtain ⟨s, h, -, -, hc⟩ := (C144_samples_partial (exOriginals "GOES-16" "abi" (chNames 16))
    (fun _ => some [[], [], [fin 8, fin 5, fin 0], [fin 9, fin 6, fin 1]]) "ch7" "GOES-16"
    "/raw" "/rsr" (· ++ ".txt") _ [(fin 8, fin 0), (fin 9, fin 1)] (by rfl)).1
    (exOriginals_at _ _ 16 (by decide) (by decide +kernel)) (by decide +kernel) ⟨by simp, 3, by simp⟩
  exact ⟨s, h, hc⟩

/-- C144, the part that holds: the converter for MSU-GS gives every sample of the table of
wavenumbers, in reversed order. -/
theorem C144_msugs_partial (options : List (String × Conf)) (files : String → Option (List (List α)))
    (band platform dir out : String) (file : String → String) (lines : List (List α)) (samples : List (α × α))
    (hf : files (OsPath.join dir (file band)) = some lines)
    (h : OriginalsAt options platform "msu-gs" (chNames 10) dir file out) (hb : band ∈ chNames 10)
    (ht : TableWith lines 4 0 1 samples) :
    ∃ s, MsugsRSR options files band platform = .ok s ∧ s.instrument = "msu-gs" ∧ s.output_dir = out ∧
      HasRawCurve s (samples.reverse.map fun p => 1.0 / p.1 * 10000.0) (samples.reverse.map Prod.snd) := by
  obtain ⟨t, e, e0, e1⟩ := genfromtxt_list _ ["wavenumber", "response"] _ _ _ _ (by simp) (by simp) ht
  unfold MsugsRSR
  rw [textClass_run _ _ _ _ _ _ _ _ _ _ _ h hb, hf]
  simp only [msugsLoad, e, e0, e1, bind, Except.bind, pure, Except.pure]
  refine ⟨_, rfl, rfl, rfl, ?_⟩
  simp [HasRawCurve, RawSensor.ofCurve, fromWavenumbers, Dict.get?, ← List.map_reverse, List.map_map, Function.comp_def]

/-- two wavenumbers after four header lines for MSU-GS -/
example : ∃ s, MsugsRSR (exOriginals "Electro-L-N2" "msu-gs" (chNames 10))
      (fun _ => some [[], [], [], [], [fin 2000, fin 0], [fin 2500, fin 1]]) "ch4" "Electro-L-N2" = .ok s ∧
    HasRawCurve s [1.0 / fin 2500 * 10000.0, 1.0 / fin 2000 * 10000.0] [fin 1, fin 0] := by
  obtain ⟨s, h, -, -, hc⟩ := C144_msugs_partial (exOriginals "Electro-L-N2" "msu-gs" (chNames 10))
    (fun _ => some [[], [], [], [], [fin 2000, fin 0], [fin 2500, fin 1]]) "ch4" "Electro-L-N2"
    "/raw" "/rsr" (· ++ ".txt") _ [(fin 2000, fin 0), (fin 2500, fin 1)] (by rfl)
    (exOriginals_at _ _ 10 (by decide) (by decide +kernel)) (by decide +kernel) ⟨by simp, 2, by simp⟩
  exact ⟨s, h, hc⟩

/-- a reading that never gives a curve: ValueError from uneven rows, TypeError otherwise -/
def NeverLoads (load : List (List α) → Py (RawCurve α)) : Prop :=
  ∀ lines, load lines = .error .valueError ∨ load lines = .error .typeError

omit [PyNum α] in
theorem genfromtxt_names (names : List String) (skip : Nat) (lines : List (List α)) :
    genfromtxt (some names) skip lines = .error .valueError ∨ ∃ c, genfromtxt (some names) skip lines = .ok (.list c) := by
  unfold genfromtxt
  cases h : columnsOf (lines.drop skip) with
  | ok c => exact .inr ⟨_, rfl⟩
  | error e =>
    left
    unfold columnsOf at h
    split at h
    · cases h
    · split at h
      · cases h
      · cases h; rfl

theorem mersi2_never (s : α) : NeverLoads fun ls => mersi2Load ls s := by
  intro lines
  dsimp only
  unfold mersi2Load
  rcases genfromtxt_names ["wavelength", "response"] 0 lines with h | ⟨c, h⟩
  · rw [h]; exact .inl rfl
  · rw [h]; exact .inr rfl

theorem avhrr_never (s : α) : NeverLoads fun ls => avhrrLoad ls s := by
  intro lines
  dsimp only
  unfold avhrrLoad
  rcases genfromtxt_names ["wavelength", "response"] 1 lines with h | ⟨c, h⟩
  · rw [h]; exact .inl rfl
  · rw [h]; exact .inr rfl

theorem cocts_never (b : String) (s : α) : NeverLoads fun ls => coctsLoad b ls s := by
  intro lines
  dsimp only
  unfold coctsLoad
  rcases genfromtxt_names ["wavelength", "ch1", "ch2", "ch3", "ch4", "ch5", "ch6", "ch7", "ch8"] 0 lines with h | ⟨c, h⟩
  · rw [h]; exact .inl rfl
  · rw [h]; exact .inr rfl

theorem ami_never (s : α) : NeverLoads fun ls => amiLoad ls s := by
  intro lines
  dsimp only
  unfold amiLoad
  rcases genfromtxt_names ["wavenumber", "response"] 4 lines with h | ⟨c, h⟩
  · rw [h]; exact .inl rfl
  · rw [h]; exact .inr rfl

/-- whatever a converter with such a reading constructs has no data -/
theorem textClass_never (options : List (String × Conf)) (files : String → Option (List (List α))) (bands : List String)
    (inst : Option String) (m : OnMissing) (load : List (List α) → Py (RawCurve α)) (hl : NeverLoads load)
    (band platform : String) (s : RawSensor α)
    (h : textClass options files bands inst m load band platform = .ok s) (w r : List α) : ¬ HasRawCurve s w r := by
  have hno : ∀ i o, ¬ HasRawCurve (RawSensor.noData i o : RawSensor α) w r := by
    rintro i o ⟨h, -⟩
    simp [RawSensor.noData, Dict.get?] at h
  unfold textClass at h
  simp only [bind, Except.bind, pure, Except.pure] at h
  split at h
  · cases h
  · split at h
    · cases h
    · split at h
      · cases h
      · split at h
        · split at h
          · split at h
            · cases h
            · rename_i lines _ _ c hc
              rcases hl lines with h' | h' <;> rw [h'] at hc <;> cases hc
          · split at h
            · cases h
              exact hno _ _
            · cases h
        · cases h

/-- C144 is false for the converters for MERSI-2, AVHRR, COCTS and AMI: for every configuration,
files, band and platform, nothing constructed has any data; a table with equally long rows that
exists is a TypeError. -/
theorem C144_fails (options : List (String × Conf)) (files : String → Option (List (List α))) (band platform : String)
    (s : RawSensor α) (hs : Mersi2RSR options files band platform = .ok s ∨ AvhrrRSR options files band platform = .ok s ∨
      CoctsRSR options files band platform = .ok s ∨ AmiRSR options files band platform = .ok s) (w r : List α) :
    ¬ HasRawCurve s w r := by
  rcases hs with h | h | h | h
  · exact textClass_never _ _ _ _ _ _ (mersi2_never _) _ _ _ h w r
  · unfold AvhrrRSR at h
    cases hi : INSTRUMENTS.getItem platform with
    | error e => rw [hi] at h; cases h
    | ok i =>
      rw [hi] at h
      cases i with
      | many l => cases h
      | one inst =>
        simp only [bind, Except.bind] at h
        cases hn : AVHRR_BAND_NAMES.getItem inst with
        | error e => rw [hn] at h; cases h
        | ok names =>
          rw [hn] at h
          refine textClass_never _ _ _ _ _ _ ?_ _ _ _ h w r
          intro lines
          dsimp only
          split
          · exact avhrr_never _ lines
          · exact avhrr_never _ lines
  · exact textClass_never _ _ _ _ _ _ (cocts_never _ _) _ _ _ h w r
  · exact textClass_never _ _ _ _ _ _ (ami_never _) _ _ _ h w r

/-- C144 is false for the VIRR converter: no object is ever constructed (TypeError for the platforms
of the converter, because they carry a list of instruments; KeyError for others). -/
theorem C144_virr_never (options : List (String × Conf)) (files : String → Option (List (List α))) (band platform : String) :
    ((platform = "FY-3B" ∨ platform = "FY-3C") → VirrRSR options files band platform = .error .typeError) ∧
    ((platform ≠ "FY-3B" ∧ platform ≠ "FY-3C") → VirrRSR options files band platform = .error .keyError) := by
  constructor
  · rintro (rfl | rfl)
    · rfl
    · rfl
  · rintro ⟨h1, h2⟩
    unfold VirrRSR
    rw [show VIRR_BAND_NAMES.getItem platform = .error .keyError by
      simp [VIRR_BAND_NAMES, Dict.getItem, Dict.get?, h1.symm, h2.symm]]
    rfl

/-- C144, exactly how reading a table ends for AMI: a configured band whose file has equally long
rows is a TypeError. -/
theorem C144_ami_type_error (options : List (String × Conf)) (files : String → Option (List (List α)))
    (band platform dir out : String) (file : String → String) (lines : List (List α)) (samples : List (α × α))
    (hf : files (OsPath.join dir (file band)) = some lines)
    (h : OriginalsAt options platform "ami" (chNames 16) dir file out) (hb : band ∈ chNames 16)
    (ht : TableWith lines 4 0 1 samples) : AmiRSR options files band platform = .error .typeError := by
  obtain ⟨t, e, -⟩ := genfromtxt_list _ ["wavenumber", "response"] _ _ _ _ (by simp) (by simp) ht
  unfold AmiRSR
  rw [textClass_run _ _ _ _ _ _ _ _ _ _ _ h hb, hf]
  simp only [amiLoad, e, bind, Except.bind]
  rfl

/-- a perfectly good table for AMI -/
example : AmiRSR (exOriginals "GEO-KOMPSAT-2A" "ami" (chNames 16))
    (fun _ => some [[], [], [], [], [fin 2000, fin 0], [fin 2500, fin 1]]) "ch7" "GEO-KOMPSAT-2A" = .error .typeError :=
  C144_ami_type_error _ _ _ _ "/raw" "/rsr" (· ++ ".txt") _ [(fin 2000, fin 0), (fin 2500, fin 1)] (by rfl)
    (exOriginals_at _ _ 16 (by decide) (by decide +kernel)) (by decide +kernel) ⟨by simp, 2, by simp⟩

/-! ### C145 -/

/-- C145, the part that holds: when the file of some band of ABI is missing, the conversion raises
IOError at the latest and no response file is touched. -/
theorem C145_abi_keeps_partial (f32 : α → α) (options : List (String × Conf)) (files : String → Option (List (List α)))
    (platform dir out : String) (file : String → String) (names : List String) (scale : α) (fs : H5Files α)
    (h : OriginalsAt options platform "abi" (chNames 16) dir file out) (band : String) (hb : band ∈ names)
    (hb' : band ∈ chNames 16) (hf : files (OsPath.join dir (file band)) = none) :
    ∃ e, convertSteps f32 (AbiRSR options files) platform names scale none fs = (.error e, fs) := by
  have he : AbiRSR options files band platform = .error .ioError := by
    unfold AbiRSR
    rw [textClass_run _ _ _ _ _ _ _ _ _ _ _ h hb', hf]
  have h2 := (C132_kept_partial f32 (AbiRSR options files) platform names scale none fs).1 ⟨band, hb, _, he⟩
  rcases hc : convertSteps f32 (AbiRSR options files) platform names scale none fs with ⟨res, fs'⟩
  rw [hc] at h2
  have h2 : fs' = fs := h2
  subst h2
  cases res with
  | error e => exact ⟨e, rfl⟩
  | ok u =>
    exfalso
    cases hm : convert2hdf5 f32 (AbiRSR options files) platform names scale none with
    | error e =>
      have := (C131_same_result f32 (AbiRSR options files) platform names scale none fs').2 e hm
      rw [hc] at this
      cases this
    | ok pf =>
      unfold convert2hdf5 at hm
      cases hi : (names.mapM fun b => AbiRSR options files b platform) with
      | error e => rw [hi] at hm; cases hm
      | ok l =>
        obtain ⟨x, hx⟩ := mapM_ok_all _ _ _ hi band hb
        rw [he] at hx
        cases hx

/-- no original file at all for ABI -/
example (fs : H5Files XF) : ∃ e, convertSteps id (AbiRSR (exOriginals "GOES-16" "abi" (chNames 16)) fun _ => none) "GOES-16"
    (chNames 16) (fin 1000) none fs = (.error e, fs) :=
  C145_abi_keeps_partial id _ _ "GOES-16" "/raw" "/rsr" (· ++ ".txt") _ _ _
    (exOriginals_at _ _ 16 (by decide) (by decide +kernel)) "ch3" (by decide +kernel) (by decide +kernel) rfl

/-- the writer needs data for every band -/
theorem writeChannels_all (f32 : α → α) (scale : α) (L : List (String × RawSensor α)) :
    ∀ groups r, writeChannels f32 scale none L groups = .ok r → ∀ p ∈ L, ∃ w r, HasRawCurve p.2 w r := by
  induction L with
  | nil => simp
  | cons p L ih =>
    intro groups r h q hq
    unfold writeChannels at h
    split at h
    · cases h
    · cases hg : writeBandGroup f32 p.2 scale none with
      | error e => rw [hg] at h; cases h
      | ok g =>
        rw [hg] at h
        rcases List.mem_cons.1 hq with rfl | hq
        · have hg : writeSingle f32 q.2 scale = .ok g := hg
          unfold writeSingle getArr Dict.getItem at hg
          simp only [bind, Except.bind, pure, Except.pure] at hg
          cases h1 : q.2.own.get? "wavelength" with
          | none => rw [h1] at hg; cases hg
          | some v =>
            rw [h1] at hg
            cases v with
            | arr w =>
              simp only at hg
              cases hn : withoutNaN w w with
              | error e => rw [hn] at hg; cases hg
              | ok w' =>
                rw [hn] at hg
                simp only at hg
                cases h2 : q.2.own.get? "response" with
                | none => rw [h2] at hg; cases hg
                | some v =>
                  rw [h2] at hg
                  cases v with
                  | arr r => exact ⟨w, r, h1, h2⟩
                  | num x => cases hg
                  | dict d => cases hg
            | num x => cases hg
            | dict d => cases hg
        · exact ih _ r h q hq

omit [PyNum α] in
theorem mapM_zip_mem {β γ : Type} (g : β → Py γ) (l : List β) (r : List γ) (h : l.mapM g = .ok r) (b : β) (hb : b ∈ l) :
    ∃ c, g b = .ok c ∧ (b, c) ∈ l.zip r := by
  induction l generalizing r with
  | nil => cases hb
  | cons a l ih =>
    rw [List.mapM_cons] at h
    cases ha : g a with
    | error e => rw [ha] at h; cases h
    | ok c =>
      cases hl : l.mapM g with
      | error e => rw [ha, hl] at h; cases h
      | ok r' =>
        rw [ha, hl] at h
        cases h
        rcases List.mem_cons.1 hb with rfl | hb
        · exact ⟨c, ha, by simp⟩
        · obtain ⟨c', h1, h2⟩ := ih r' hl hb
          exact ⟨c', h1, by simp [h2]⟩

/-- a converter that only warns, with a missing file for some band and readable files otherwise -/
theorem textClass_loses (f32 : α → α) (options : List (String × Conf)) (files : String → Option (List (List α)))
    (bands : List String) (inst : String) (load : String → List (List α) → Py (RawCurve α))
    (platform dir out : String) (file : String → String) (names : List String) (scale : α) (fs : H5Files α)
    (h : OriginalsAt options platform inst bands dir file out) (hnd : names.Nodup)
    (hsub : ∀ b ∈ names, b ∈ bands) (band : String) (hb : band ∈ names)
    (hmiss : files (OsPath.join dir (file band)) = none)
    (hrest : ∀ b ∈ names, ∀ lines, files (OsPath.join dir (file b)) = some lines → ∃ c, load b lines = .ok c) :
    ∃ e fs' f, convertSteps f32 (fun b p => textClass options files bands (some inst) .warn (load b) b p) platform names
        scale none fs = (.error e, fs') ∧
      fs' (out, "rsr_" ++ withoutSlashes inst ++ "_" ++ platform ++ ".h5") = some f ∧ ∀ info, loadRsrInfo f ≠ .ok info := by
  have hok : ∀ b ∈ names, ∃ s, textClass options files bands (some inst) .warn (load b) b platform = .ok s ∧
      s.instrument = inst ∧ s.output_dir = out := by
    intro b hbn
    rw [textClass_run _ _ _ _ _ _ _ _ _ _ _ h (hsub b hbn)]
    cases hfb : files (OsPath.join dir (file b)) with
    | none => exact ⟨_, rfl, rfl, rfl⟩
    | some lines =>
      obtain ⟨c, hc⟩ := hrest b hbn lines hfb
      simp only [hc, bind, Except.bind, pure, Except.pure]
      exact ⟨_, rfl, rfl, rfl⟩
  have hbad : textClass options files bands (some inst) .warn (load band) band platform = .ok (RawSensor.noData inst out) := by
    rw [textClass_run _ _ _ _ _ _ _ _ _ _ _ h (hsub band hb), hmiss]
  cases hm : convert2hdf5 f32 (fun b p => textClass options files bands (some inst) .warn (load b) b p) platform names
      scale none with
  | ok pf =>
    exfalso
    unfold convert2hdf5 at hm
    cases hi : (names.mapM fun b => textClass options files bands (some inst) .warn (load b) b platform) with
    | error e => rw [hi] at hm; cases hm
    | ok l =>
      rw [hi] at hm
      obtain ⟨c, hc, hmem⟩ := mapM_zip_mem _ _ _ hi band hb
      cases l with
      | nil => cases hm
      | cons first rest =>
        simp only [bind, Except.bind] at hm
        cases hw : writeChannels f32 scale none (names.zip (first :: rest)) [] with
        | error e => rw [hw] at hm; cases hm
        | ok bands =>
          obtain ⟨w, r, hcv⟩ := writeChannels_all f32 scale _ _ _ hw _ hmem
          rw [hbad] at hc
          cases hc
          simp [HasRawCurve, RawSensor.noData, Dict.get?] at hcv
  | error e =>
    have h1 := (C131_same_result f32 (fun b p => textClass options files bands (some inst) .warn (load b) b p) platform
      names scale none fs).2 e hm
    rcases hc : convertSteps f32 (fun b p => textClass options files bands (some inst) .warn (load b) b p) platform names
      scale none fs with ⟨res, fs'⟩
    rw [hc] at h1
    cases h1
    obtain ⟨p, f, hp, hpf, hl⟩ := C132_old_file_lost f32 _ platform names scale none hnd
      (List.ne_nil_of_mem hb) (fun b hb => (hok b hb).imp fun s hs => hs.1) fs fs' e hc
    refine ⟨e, fs', f, rfl, ?_, hl⟩
    obtain ⟨b, rest, s, hn, hs, rfl⟩ := hp
    obtain ⟨s', hs1, hs2, hs3⟩ := hok b (by rw [hn]; exact List.mem_cons_self ..)
    dsimp only at hs
    rw [hs] at hs1
    cases hs1
    rw [hs2, hs3] at hpf
    exact hpf

theorem mersi3Load_ok (lines : List (List α)) (samples : List (α × α)) (ht : TableWith lines 0 0 1 samples) :
    ∃ c, mersi3Load lines = .ok c := by
  obtain ⟨t, e, e0, e1⟩ := genfromtxt_array _ _ _ _ _ ht
  exact ⟨_, by simp only [mersi3Load, e, e0, e1, bind, Except.bind, pure, Except.pure]; rfl⟩

theorem mersirmLoad_ok (lines : List (List α)) (samples : List (α × α)) (ht : TableWith lines 1 0 1 samples) :
    ∃ c, mersirmLoad lines = .ok c := by
  obtain ⟨t, e, e0, e1⟩ := genfromtxt_list _ ["wavelength", "response"] _ _ _ _ (by simp) (by simp) ht
  exact ⟨_, by simp only [mersirmLoad, e, e0, e1, bind, Except.bind, pure, Except.pure]; rfl⟩

/-- C145 is false for the converters that only warn: when the file of some band of MERSI-3 (or
MERSI-RM) is missing and the files of the others can be read, the conversion fails, and the response
file that was there before is replaced by one that does not load. -/
theorem C145_warning_loses (f32 : α → α) (options : List (String × Conf)) (files : String → Option (List (List α)))
    (dir out : String) (file : String → String) (names : List String) (scale : α) (fs : H5Files α)
    (hnd : names.Nodup) (band : String) (hb : band ∈ names) (hmiss : files (OsPath.join dir (file band)) = none) :
    (OriginalsAt options "FY-3F" "mersi3" (chNames 25) dir file out → (∀ b ∈ names, b ∈ chNames 25) →
      (∀ b ∈ names, ∀ lines, files (OsPath.join dir (file b)) = some lines → ∃ samples, TableWith lines 0 0 1 samples) →
      ∃ e fs' f, convertSteps f32 (Mersi3RSR options files) "FY-3F" names scale none fs = (.error e, fs') ∧
        fs' (out, "rsr_mersi3_FY-3F.h5") = some f ∧ ∀ info, loadRsrInfo f ≠ .ok info) ∧
    (OriginalsAt options "FY-3G" "mersi-rm" (chNames 8) dir file out → (∀ b ∈ names, b ∈ chNames 8) →
      (∀ b ∈ names, ∀ lines, files (OsPath.join dir (file b)) = some lines → ∃ samples, TableWith lines 1 0 1 samples) →
      ∃ e fs' f, convertSteps f32 (MersiRMRSR options files) "FY-3G" names scale none fs = (.error e, fs') ∧
        fs' (out, "rsr_mersi-rm_FY-3G.h5") = some f ∧ ∀ info, loadRsrInfo f ≠ .ok info) := by
  constructor
  · intro h hsub hrest
    exact textClass_loses f32 options files (chNames 25) "mersi3" (fun _ ls => mersi3Load ls) "FY-3F" dir out file names
      scale fs h hnd hsub band hb hmiss
      (fun b hb lines hl => (hrest b hb lines hl).elim fun samples ht => mersi3Load_ok lines samples ht)
  · intro h hsub hrest
    obtain ⟨e, fs', f, h1, h2⟩ := textClass_loses f32 options files (chNames 8) "mersi-rm" (fun _ ls => mersirmLoad ls) "FY-3G" dir
      out file names scale fs h hnd hsub band hb hmiss
      (fun b hb lines hl => (hrest b hb lines hl).elim fun samples ht => mersirmLoad_ok lines samples ht)
    refine ⟨e, fs', f, ?_, h2⟩
    rw [← h1]
    unfold convertSteps
    rfl

/-- MERSI-3 with the file of the first band only -/
example (fs : H5Files XF) : ∃ e fs' f, convertSteps id (Mersi3RSR (exOriginals "FY-3F" "mersi3" (chNames 25)) exMersi3Files) "FY-3F"
      (chNames 25) (fin 1000) none fs = (.error e, fs') ∧
    fs' ("/rsr", "rsr_mersi3_FY-3F.h5") = some f ∧ ∀ info, loadRsrInfo f ≠ .ok info := by
  refine (C145_warning_loses id (exOriginals "FY-3F" "mersi3" (chNames 25)) exMersi3Files "/raw" "/rsr" (· ++ ".txt") (chNames 25)
    (fin 1000) fs (by decide +kernel) "ch2" (by decide +kernel) (by
      unfold exMersi3Files
      exact if_neg (by decide +kernel))).1
    (exOriginals_at _ _ 25 (by decide) (by decide +kernel)) (fun _ h => h) ?_
  intro b _ lines hl
  unfold exMersi3Files at hl
  split at hl
  · cases hl
    exact ⟨[(fin 470, fin 0), (fin 471, fin 1), (fin 472, fin 0)], by simp, 2, by simp⟩
  · cases hl

/-- C145 fails the same way for AMI when none of the files is there. -/
theorem C145_none_there_loses (f32 : α → α) (options : List (String × Conf)) (files : String → Option (List (List α)))
    (dir out : String) (file : String → String) (names : List String) (scale : α) (fs : H5Files α)
    (hnd : names.Nodup) (hne : names ≠ []) (hmiss : ∀ b ∈ names, files (OsPath.join dir (file b)) = none)
    (h : OriginalsAt options "GEO-KOMPSAT-2A" "ami" (chNames 16) dir file out) (hsub : ∀ b ∈ names, b ∈ chNames 16) :
    ∃ e fs' f, convertSteps f32 (AmiRSR options files) "GEO-KOMPSAT-2A" names scale none fs = (.error e, fs') ∧
      fs' (out, "rsr_ami_GEO-KOMPSAT-2A.h5") = some f ∧ ∀ info, loadRsrInfo f ≠ .ok info := by
  obtain ⟨b, hb⟩ := List.exists_mem_of_ne_nil _ hne
  exact textClass_loses f32 options files (chNames 16) "ami" (fun _ ls => amiLoad ls) "GEO-KOMPSAT-2A" dir out file names
    scale fs h hnd hsub b hb (hmiss b hb) (fun b hb lines hl => by rw [hmiss b hb] at hl; cases hl)

example (fs : H5Files XF) : ∃ e fs' f,
    convertSteps id (AmiRSR (exOriginals "GEO-KOMPSAT-2A" "ami" (chNames 16)) fun _ => none) "GEO-KOMPSAT-2A"
      (chNames 16) (fin 1000) none fs = (.error e, fs') ∧
    fs' ("/rsr", "rsr_ami_GEO-KOMPSAT-2A.h5") = some f ∧ ∀ info, loadRsrInfo f ≠ .ok info :=
  C145_none_there_loses id _ _ "/raw" "/rsr" (· ++ ".txt") _ _ fs (by decide +kernel) (by decide +kernel) (fun _ _ => rfl)
    (exOriginals_at _ _ 16 (by decide) (by decide +kernel)) (fun _ h => h)

end Verif.Props
