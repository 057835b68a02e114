import Verif.Props.Writer
import Verif.Props.Curves
import Verif.Lemmas.Convert
import Verif.Lemmas.ReaderOps
import Verif.Lemmas.LoadSpec
/-
Properties C104-C106: reading original MODIS responses and converting them.
-/
namespace Verif.Props
open Model Spec Lemmas PyNum XF
variable {α : Type} [PyNum α]

/-! ### C104 -/

/-- C104: whatever the numbers and the order of the lines, a file of comments and samples is read
as the data of the detectors it mentions and no others, each with exactly its own samples in the
order of the file, without those marked as missing, wavelengths times the given scale. -/
theorem C104_modis_samples (P : Parsers α) (lines : List String) (rs : List (ModisRecord α)) (h : Records P lines rs)
    (scale : α) :
    ∃ out, readModisResponse P lines scale = .ok out ∧ out.keys.Nodup ∧
      (∀ n, (∃ s ∈ rs, s.det = n) → out.get? ("det-" ++ toString n) = some
        ⟨(samplesOf rs n).map (fun s => s.wvl * scale), (samplesOf rs n).map ModisRecord.resp⟩) ∧
      ∀ k ∈ out.keys, ∃ s ∈ rs, k = "det-" ++ toString s.det := by
  refine ⟨(rs.foldl (addRecord scale) []).mapVals dropNodata, ?_, ?_, ?_, ?_⟩
  · unfold readModisResponse
    rw [modisLines_run P scale lines rs h []]
    rfl
  · rw [keys_mapVals]
    have : ∀ d : Dict String (RawCurve α), d.WF → (rs.foldl (addRecord scale) d).WF := by
      clear h
      induction rs with
      | nil => intro d hd; exact hd
      | cons s rs ih => intro d hd; exact ih _ (set_wf _ _ _ hd)
    exact this [] (by simp [Dict.WF])
  · rintro n ⟨s, hs, hn⟩
    show _ = some _
    have e : "det-" ++ toString n = detKey n := rfl
    rw [e, get?_mapVals, collect_get, if_pos (List.any_eq_true.2 ⟨s, hs, by simpa using hn⟩)]
    simp only [Dict.get?, Option.getD_none, List.nil_append, Option.map_some, Option.some.injEq]
    unfold dropNodata samplesOf
    simp only [List.map_map]
    rw [select_filter _ _ _]
    have h2 := select_filter (rs.filter fun s => s.det == n) ((fun r => !PyNum.eq r (-(99.0 : α))) ∘ ModisRecord.resp)
      ModisRecord.resp
    rw [h2, List.filter_filter]
    simp only [Function.comp_def, Bool.and_comm]
  · intro k hk
    rw [keys_mapVals] at hk
    rcases collect_keys scale rs [] k hk with h | ⟨s, hs, rfl⟩
    · simp [Dict.keys] at h
    · exact ⟨s, hs, rfl⟩

/-- C104: any other file is rejected with a ValueError (number parsers raise nothing else). -/
theorem C104_modis_malformed (P : Parsers α) (hP : (∀ s e, P.int s = .error e → e = .valueError) ∧
    (∀ s e, P.float s = .error e → e = .valueError)) (lines : List String) (h : ¬ ∃ rs, Records P lines rs) (scale : α) :
    readModisResponse P lines scale = .error .valueError := by
  rcases modisLines_cases P hP scale lines with h' | ⟨_, h'⟩
  · exact absurd h' h
  · unfold readModisResponse
    rw [h' []]
    rfl

/-- parsers knowing a few numbers -/
noncomputable def exParsers : Parsers XF where
  int := fun s => if s = "1" then .ok 1 else if s = "2" then .ok 2 else .error .valueError
  float := fun s => if s = "620" then .ok (fin 620) else if s = "0.5" then .ok (fin (1/2)) else
    if s = "-99" then .ok (fin (-99)) else .error .valueError

theorem exParsers_valueError : (∀ s e, exParsers.int s = .error e → e = .valueError) ∧
    (∀ s e, exParsers.float s = .error e → e = .valueError) := by
  constructor
  · intro s e h
    unfold exParsers at h
    dsimp only at h
    split at h
    · cases h
    · split at h
      · cases h
      · cases h; rfl
  · intro s e h
    unfold exParsers at h
    dsimp only at h
    split at h
    · cases h
    · split at h
      · cases h
      · split at h
        · cases h
        · cases h; rfl

/-- lines of a file with two detectors -/
def exModisLines : List String := ["# MODIS", "1 2 620 0.5", "1 1 620 0.5", " 1\t2  620 -99\n"]

theorem exModis_records : Records exParsers exModisLines
    [⟨2, fin 620, fin (1/2)⟩, ⟨1, fin 620, fin (1/2)⟩, ⟨2, fin 620, fin (-99)⟩] := by
  refine .comment (by unfold IsComment; decide) (.sample ⟨by unfold IsComment; decide, ['1'], ['2'], ['6', '2', '0'], ['0', '.', '5'],
    (wordsL_iff _ _).1 (by decide +kernel), ?_, ?_, ?_⟩ (.sample ⟨by unfold IsComment; decide, ['1'], ['1'], ['6', '2', '0'], ['0', '.', '5'],
    (wordsL_iff _ _).1 (by decide +kernel), ?_, ?_, ?_⟩ (.sample ⟨by unfold IsComment; decide, ['1'], ['2'], ['6', '2', '0'], ['-', '9', '9'],
    (wordsL_iff _ _).1 (by decide +kernel), ?_, ?_, ?_⟩ .nil)))
  all_goals
    unfold exParsers
    simp only [show String.ofList ['2'] = "2" from rfl, show String.ofList ['1'] = "1" from rfl,
      show String.ofList ['6', '2', '0'] = "620" from rfl, show String.ofList ['0', '.', '5'] = "0.5" from rfl,
      show String.ofList ['-', '9', '9'] = "-99" from rfl]
    rfl

example : ∃ out, readModisResponse exParsers exModisLines 0.001 = .ok out ∧
    out.get? "det-2" = some ⟨[fin 620 * 0.001], [fin (1/2)]⟩ := by
  obtain ⟨out, h1, _, h2, _⟩ := C104_modis_samples exParsers exModisLines _ exModis_records 0.001
  refine ⟨out, h1, ?_⟩
  have := h2 2 ⟨_, List.mem_cons_self, rfl⟩
  rw [show ("det-2" : String) = "det-" ++ toString (2 : Int) by decide, this]
  have e1 : PyNum.eq (fin (1/2)) (-(99.0 : XF)) = false := by
    rw [ofSci_eq, fin_neg]; simp only [eq_fin, decide_eq_false_iff_not]; norm_num
  have e2 : PyNum.eq (fin (-99)) (-(99.0 : XF)) = true := by
    rw [ofSci_eq, fin_neg]; simp only [eq_fin, decide_eq_true_eq]; norm_num
  have e : samplesOf [⟨2, fin 620, fin (1/2)⟩, ⟨1, fin 620, fin (1/2)⟩, ⟨2, fin 620, fin (-99)⟩] 2 =
      [⟨2, fin 620, fin (1/2)⟩] := by
    unfold samplesOf
    rw [List.filter_cons_of_pos (by dsimp only; rw [e1]; rfl), List.filter_cons_of_neg (by simp),
      List.filter_cons_of_neg (by dsimp only; rw [e2]; simp)]
    rfl
  rw [e]
  rfl

example : readModisResponse exParsers ["# MODIS", "1 2 620"] (1.0 : XF) = .error .valueError := by
  refine C104_modis_malformed exParsers exParsers_valueError _ ?_ _
  rintro ⟨rs, h⟩
  cases h with
  | sample hl _ => exact hl.1 (by unfold IsComment; decide)
  | comment _ h =>
    cases h with
    | comment hl _ => exact absurd hl (by unfold IsComment; decide)
    | sample hl _ =>
      obtain ⟨_, a, b, c, d, hw, _⟩ := hl
      have := (wordsL_iff _ _).2 hw
      rw [show Str.wordsL "1 2 620".toList = [['1'], ['2'], ['6', '2', '0']] by decide +kernel] at this
      cases this

/-! ### C105 -/

theorem sortDetectors_eq (argsort : List α → List Nat) (rsr : Dict String (RawCurve α)) :
    sortDetectors argsort rsr = rsr.mapM fun p => do
      return (p.1, ← (do let q ← sortData argsort p.2.wavelength p.2.response; return (⟨q.1, q.2⟩ : RawCurve α))) := by
  unfold sortDetectors
  refine congrArg (fun f => List.mapM f rsr) ?_
  funext p
  cases sortData argsort p.2.wavelength p.2.response with
  | error e => rfl
  | ok q => rfl

/-- The options name a directory of original data and (perhaps) one for the output. -/
def ModisOptions (options : List (String × Conf)) (platform path out : String) : Prop :=
  (∃ d, Dict.get? options (platform ++ "-modis") = some (.map d) ∧ Dict.get? d "path" = some (.leaf (.str path))) ∧
  (Dict.get? options "rsr_dir" = some (.leaf (.str out)) ∨ (Dict.get? options "rsr_dir" = none ∧ out = "./"))

theorem sectionPath_run (options : List (String × Conf)) (platform path out : String)
    (h : ModisOptions options platform path out) : sectionPath options (platform ++ "-modis") = .ok (path, out) := by
  obtain ⟨⟨d, h1, h2⟩, h3⟩ := h
  unfold sectionPath
  rw [getItem_ok_iff.2 h1]
  simp only [bind, Except.bind]
  rw [h2]
  rcases h3 with h3 | ⟨h3, rfl⟩
  · rw [h3]; rfl
  · rw [h3]; rfl

/-- The curve of these samples: strictly increasing wavelengths, exactly those of the samples in
micron, each with a response that a sample gives for it. -/
def CurveOf (samples : List (ModisRecord XF)) (unit : XF) (c : RawCurve XF) : Prop :=
  c.wavelength.length = c.response.length ∧ c.wavelength.Pairwise (fun a b => PyNum.lt a b = true) ∧
  (∀ v, v ≠ XF.nan → (v ∈ c.wavelength ↔ ∃ s ∈ samples, v = s.wvl * unit)) ∧
  ∀ p ∈ c.wavelength.zip c.response, ∃ s ∈ samples, p = (s.wvl * unit, s.resp)

/-- C105: for every platform, every band 1 to 36 and whatever the file holds (in any order of
lines), provided every detector mentioned has a sample that is not missing: the band is read from
its own file, and every detector gets strictly increasing wavelengths in micron, exactly those of
its valid samples, each with a response that the file gives for it. -/
theorem C105_modis_band (P : Parsers XF) (argsort : List XF → List Nat) (ha : IsArgsort argsort)
    (options : List (String × Conf)) (files : String → Option (List String)) (platform path out : String)
    (ho : ModisOptions options platform path out) (i : Nat) (hi : i < 36) (lines : List String)
    (hf : files (OsPath.join path (modisFileOf platform (i + 1))) = some lines)
    (rs : List (ModisRecord XF)) (hr : Records P lines rs) (hv : ∀ s ∈ rs, samplesOf rs s.det ≠ []) :
    ∃ M, ModisRSR P argsort options files (toString (i + 1)) platform = .ok M ∧ M.output_dir = out ∧
      M.rsr.keys.Nodup ∧ (∀ k, k ∈ M.rsr.keys ↔ ∃ s ∈ rs, k = "det-" ++ toString s.det) ∧
      ∀ n, (∃ s ∈ rs, s.det = n) → ∃ c, M.rsr.get? ("det-" ++ toString n) = some c ∧
        CurveOf (samplesOf rs n) (modisUnit platform (i + 1)) c := by
  obtain ⟨raw, hraw, hnd, hget, hkeys⟩ := C104_modis_samples P lines rs hr (modisUnit platform (i + 1))
  have hval : ∀ n, (∃ s ∈ rs, s.det = n) → ∃ x' y',
      sortData argsort ((samplesOf rs n).map fun s => s.wvl * modisUnit platform (i + 1))
        ((samplesOf rs n).map ModisRecord.resp) = .ok (x', y') ∧ x'.length = y'.length ∧
      x'.Pairwise (fun a b => PyNum.lt a b = true) ∧
      (∀ v, v ≠ XF.nan → (v ∈ x' ↔ ∃ s ∈ samplesOf rs n, v = s.wvl * modisUnit platform (i + 1))) ∧
      ∀ p ∈ x'.zip y', ∃ s ∈ samplesOf rs n, p = (s.wvl * modisUnit platform (i + 1), s.resp) := by
    rintro n ⟨s, hs, rfl⟩
    obtain ⟨x', y', h1, h2, h3, h4, _, h6⟩ := C25_sort_data argsort ha
      ((samplesOf rs s.det).map fun s => s.wvl * modisUnit platform (i + 1)) ((samplesOf rs s.det).map ModisRecord.resp)
      (by simp) (by simpa using hv s hs)
    refine ⟨x', y', h1, h2, h3, ?_, ?_⟩
    · intro v hv
      rw [h4 v hv, List.mem_map]
      constructor
      · rintro ⟨a, b, c⟩; exact ⟨a, b, c.symm⟩
      · rintro ⟨a, b, c⟩; exact ⟨a, b, c.symm⟩
    · intro p hp
      have := h6 p hp
      rw [List.zip_map', List.mem_map] at this
      obtain ⟨a, b, c⟩ := this
      exact ⟨a, b, c.symm⟩
  have hkey : ∀ k, k ∈ raw.keys ↔ ∃ s ∈ rs, k = "det-" ++ toString s.det := by
    intro k
    refine ⟨hkeys k, ?_⟩
    rintro ⟨s, hs, rfl⟩
    by_contra hn
    rw [← get?_eq_none_iff, hget s.det ⟨s, hs, rfl⟩] at hn
    cases hn
  obtain ⟨srt, h1, h2, h3⟩ := mapMVals_ok
    (fun c : RawCurve XF => do let q ← sortData argsort c.wavelength c.response; return (⟨q.1, q.2⟩ : RawCurve XF)) raw (by
      refine mem_of_get hnd (fun c => ∃ u, (do let q ← sortData argsort c.wavelength c.response; return (⟨q.1, q.2⟩ : RawCurve XF)) = .ok u) ?_
      intro k c hk
      have hk' : k ∈ raw.keys := by
        by_contra hn
        rw [← get?_eq_none_iff, hk] at hn
        cases hn
      obtain ⟨s, hs, rfl⟩ := hkeys k hk'
      rw [hget s.det ⟨s, hs, rfl⟩] at hk
      cases hk
      obtain ⟨x', y', hx, _⟩ := hval s.det ⟨s, hs, rfl⟩
      exact ⟨⟨x', y'⟩, by simp only [hx, bind, Except.bind]; rfl⟩)
  refine ⟨⟨out, srt⟩, ?_, rfl, ?_, ?_, ?_⟩
  · unfold ModisRSR
    rw [sectionPath_run options platform path out ho]
    simp only [bind, Except.bind]
    rw [modisFilenames_get platform path i hi]
    simp only
    rw [hf]
    simp only
    unfold modisLoad
    rw [modisScale_eq platform i]
    simp only
    rw [hraw]
    simp only [bind, Except.bind, if_true]
    rw [sortDetectors_eq, h1]
    rfl
  · show srt.keys.Nodup
    rw [h2]; exact hnd
  · intro k
    show k ∈ srt.keys ↔ _
    rw [h2]; exact hkey k
  · intro n hn
    obtain ⟨x', y', hx, g1, g2, g3, g4⟩ := hval n hn
    obtain ⟨u, hu, hg⟩ := h3 _ _ (hget n hn)
    simp only [hx, bind, Except.bind] at hu
    cases hu
    exact ⟨_, hg, g1, g2, g3, g4⟩

/-! ### C106 -/

theorem modisDetector_run (f32 : α → α) (constant : Bool) (c : RawCurve α) (h : c.wavelength.length = c.response.length) :
    ∃ cw, WrittenCentral c.wavelength c.response cw ∧ modisDetector f32 constant c = .ok
      { attrs := [("central_wavelength", .num cw "")],
        datasets := (if constant then [] else [wavelengthSet f32 c.wavelength]) ++ [("response", stored f32 c.response [])] } := by
  obtain ⟨cw, hcw⟩ := centralWave_total ((knownSamples c.wavelength c.response).map Prod.fst)
    ((knownSamples c.wavelength c.response).map Prod.snd) (by simp)
  refine ⟨cw, hcw, ?_⟩
  unfold modisDetector
  rw [withoutNaN_wvl _ _ h, withoutNaN_resp _ _ h]
  simp only [bind, Except.bind]
  rw [hcw]; rfl

/-- What a band group holds for a detector with the data `c`. -/
def StoredDetector (f32 : α → α) (B : H5Band α) (k : String) (c : RawCurve α) : Prop :=
  ∃ D cw ws, B.dets.get? k = some D ∧ D.attrs.get? "central_wavelength" = some (.num cw "") ∧
    WrittenCentral c.wavelength c.response cw ∧ D.datasets.get? "response" = some (stored f32 c.response []) ∧
    (ws = c.wavelength ∨ CloseGrids ws c.wavelength) ∧
    (scaledData D.datasets = some (ws.map f32, .num 1e-6 "") ∨
      (scaledData D.datasets = none ∧ scaledData B.datasets = some (ws.map f32, .num 1e-6 "")))

theorem modisBand_run (f32 : α → α) (rsr : Dict String (RawCurve α)) (hne : rsr ≠ []) (hnd : rsr.keys.Nodup)
    (hl : ∀ k c, rsr.get? k = some c → c.wavelength.length = c.response.length) :
    ∃ B, modisBand f32 rsr = .ok B ∧ B.attrs.get? "number_of_detectors" = some (.int rsr.length) ∧
      ∀ k c, rsr.get? k = some c → StoredDetector f32 B k c := by
  cases hr : rsr with
  | nil => exact absurd hr hne
  | cons first others =>
    subst hr
    have hm := fun constant => mapMVals_ok (modisDetector f32 constant) (first :: others)
      (mem_of_get hnd (fun c => ∃ u, modisDetector f32 constant c = .ok u) (fun k c hk => by
        obtain ⟨cw, _, h⟩ := modisDetector_run f32 constant c (hl k c hk)
        exact ⟨_, h⟩))
    obtain ⟨dets, h1, h2, h3⟩ := hm (wvlIsConstant first.2.wavelength (others.map Prod.snd))
    refine ⟨⟨[("number_of_detectors", .int (first :: others).length)],
      if wvlIsConstant first.2.wavelength (others.map Prod.snd) then [wavelengthSet f32 first.2.wavelength] else [],
      dets⟩, ?_, rfl, ?_⟩
    · unfold modisBand
      simp only
      rw [h1]
      rfl
    · intro k c hk
      obtain ⟨D, hD, hget⟩ := h3 k c hk
      obtain ⟨cw, hcw, hrun⟩ := modisDetector_run f32 (wvlIsConstant first.2.wavelength (others.map Prod.snd)) c (hl k c hk)
      rw [hrun] at hD
      cases hD
      cases hcon : wvlIsConstant first.2.wavelength (others.map Prod.snd) with
      | true =>
        rw [hcon] at hget
        refine ⟨_, cw, first.2.wavelength, hget, rfl, hcw, rfl, ?_, Or.inr ⟨rfl, rfl⟩⟩
        have := get?_eq_some_mem hk
        rcases List.mem_cons.1 this with h | h
        · left; rw [← h]
        · right
          exact (wvlIsConstant_iff _ _).1 hcon c (List.mem_map.2 ⟨_, h, rfl⟩)
      | false =>
        rw [hcon] at hget
        exact ⟨_, cw, c.wavelength, hget, rfl, hcw, rfl, Or.inl rfl, Or.inl rfl⟩

/-- the wavelengths read back for stored ones: value (in 32 bit) times scale times 1e6 -/
def readBack (f32 : α → α) (ws : List α) : List α := (ws.map f32).map fun x => x * 1e-6 * 1e6

theorem modisConvert_run (P : Parsers α) (argsort : List α → List Nat) (f32 : α → α) (options : List (String × Conf))
    (files : String → Option (List String)) (platform : String) (M : Nat → DetectorsRSR α) (out : String)
    (hM : ∀ i < 36, ModisRSR P argsort options files (toString (i + 1)) platform = .ok (M i) ∧ (M i).output_dir = out)
    (B : Nat → H5Band α) (hB : ∀ i < 36, modisBand f32 (M i).rsr = .ok (B i)) :
    modisConvert P argsort f32 options files platform = .ok ((out, "rsr_modis_" ++ platform ++ ".h5"),
      { attrs := [("description", .text (.str "Relative Spectral Responses for MODIS")
                  "Relative Spectral Responses for MODIS"),
                ("platform_name", .text (.str platform) platform),
                ("band_names", .text (.array .object_ (MODIS_BAND_NAMES.map .str)) "")],
        bands := (List.range 36).map fun i => (toString (i + 1), B i) }) := by
  unfold modisConvert
  rw [show ("20" : String) = toString (19 + 1) from rfl, (hM 19 (by decide)).1]
  simp only [bind, Except.bind]
  have : MODIS_BAND_NAMES.mapM (fun chname => do
      let modis ← ModisRSR P argsort options files chname platform
      return (chname, ← modisBand f32 modis.rsr)) = .ok ((List.range 36).map fun i => (toString (i + 1), B i)) := by
    unfold MODIS_BAND_NAMES
    rw [List.mapM_map]
    refine mapM_ok _ (fun i => (toString (i + 1), B i)) _ ?_
    intro i hi
    have hi' : i < 36 := by simpa using hi
    simp only [Function.comp]
    rw [(hM i hi').1]
    simp only [bind, Except.bind]
    rw [hB i hi']
    rfl
  simp only [bind, Except.bind] at this
  rw [this, (hM 19 (by decide)).2]
  rfl

/-- The file of every band holds samples of the detectors 1 to `n` of that band (any number, in any
order), each with a sample that is not missing. -/
def ModisFiles (P : Parsers XF) (files : String → Option (List String)) (platform path : String) (n : Nat → Nat)
    (rs : Nat → List (ModisRecord XF)) : Prop :=
  ∀ i < 36, 0 < n i ∧ (∃ lines, files (OsPath.join path (modisFileOf platform (i + 1))) = some lines ∧
    Records P lines (rs i)) ∧ (∀ s ∈ rs i, 1 ≤ s.det ∧ s.det ≤ n i) ∧
    ∀ j < n i, samplesOf (rs i) (j + 1) ≠ []

theorem mem_samplesOf {rs : List (ModisRecord α)} {n : Int} (h : samplesOf rs n ≠ []) : ∃ s ∈ rs, s.det = n := by
  obtain ⟨s, hs⟩ := List.exists_mem_of_ne_nil _ h
  unfold samplesOf at hs
  rw [List.mem_filter] at hs
  refine ⟨s, hs.1, ?_⟩
  have := hs.2
  rw [Bool.and_eq_true] at this
  simpa using this.1

theorem modisNames_nodup : ((List.range 36).map fun i => toString (i + 1)).Nodup :=
  List.nodup_range.map (fun a b h => by have := toString_inj h; omega)

theorem textOf_map (l : List String) : List.Forall₂ TextOf (l.map PyVal.str) l := by
  induction l with
  | nil => exact .nil
  | cons a l ih => exact .cons (.str a) ih

/-- C106: whatever the samples and however many detectors a band has, converting the MODIS files of
a platform writes `rsr_modis_<platform>.h5` into the output directory, and reading that file back
gives every band and every detector its own curve: the responses (in 32 bit), the central
wavelength of the curve, and the wavelengths, which are its own or agree with them within the
tolerance of numpy (those of the first detector). -/
theorem C106_modis_roundtrip (P : Parsers XF) (argsort : List XF → List Nat) (ha : IsArgsort argsort) (f32 : XF → XF)
    (options : List (String × Conf)) (files : String → Option (List String)) (platform path out : String)
    (ho : ModisOptions options platform path out) (n : Nat → Nat) (rs : Nat → List (ModisRecord XF))
    (hf : ModisFiles P files platform path n rs) :
    ∃ file info, modisConvert P argsort f32 options files platform =
        .ok ((out, "rsr_modis_" ++ platform ++ ".h5"), file) ∧
      loadRsrInfo file = .ok info ∧ info.band_names = (List.range 36).map (fun i => toString (i + 1)) ∧
      info.rsr.keys = info.band_names ∧
      ∀ i < 36, ∃ B, info.rsr.get? (toString (i + 1)) = some B ∧ B.keys = (List.range (n i)).map detName ∧
        ∀ j < n i, ∃ c ws cw, CurveOf (samplesOf (rs i) (j + 1)) (modisUnit platform (i + 1)) c ∧
          (ws = c.wavelength ∨ CloseGrids ws c.wavelength) ∧ WrittenCentral c.wavelength c.response cw ∧
          B.get? (detName j) = some (detEntry (c.response.map f32) (readBack f32 ws) cw) := by
  have hM : ∀ i, ∃ M : DetectorsRSR XF, i < 36 →
      ModisRSR P argsort options files (toString (i + 1)) platform = .ok M ∧ M.output_dir = out ∧
      M.rsr.keys.Nodup ∧ (∀ k, k ∈ M.rsr.keys ↔ k ∈ (List.range (n i)).map detName) ∧
      ∀ j < n i, ∃ c, M.rsr.get? (detName j) = some c ∧ CurveOf (samplesOf (rs i) (j + 1)) (modisUnit platform (i + 1)) c := by
    intro i
    by_cases hi : i < 36
    · obtain ⟨_, ⟨lines, hl, hr⟩, hb, hs⟩ := hf i hi
      have hex : ∀ s ∈ rs i, ∃ j < n i, s.det = (j : Int) + 1 := by
        intro s hs
        obtain ⟨h1, h2⟩ := hb s hs
        exact ⟨(s.det - 1).toNat, by omega, by omega⟩
      obtain ⟨M, m1, m2, m3, m4, m5⟩ := C105_modis_band P argsort ha options files platform path out ho i hi lines hl
        (rs i) hr (fun s hm => by
          obtain ⟨j, hj, e⟩ := hex s hm
          rw [e]; exact hs j hj)
      refine ⟨M, fun _ => ⟨m1, m2, m3, ?_, ?_⟩⟩
      · intro k
        rw [m4 k, List.mem_map]
        constructor
        · rintro ⟨s, hm, rfl⟩
          obtain ⟨j, hj, e⟩ := hex s hm
          exact ⟨j, by simpa using hj, by rw [e]; rfl⟩
        · rintro ⟨j, hj, rfl⟩
          obtain ⟨s, hm, e⟩ := mem_samplesOf (hs j (by simpa using hj))
          exact ⟨s, hm, by rw [e]; rfl⟩
      · intro j hj
        obtain ⟨c, h1, h2⟩ := m5 (j + 1) (mem_samplesOf (hs j hj))
        exact ⟨c, h1, h2⟩
    · exact ⟨⟨"", []⟩, fun h => absurd h hi⟩
  choose M hM using hM
  have hlen : ∀ i < 36, (M i).rsr.length = n i := by
    intro i hi
    obtain ⟨_, _, h3, h4, _⟩ := hM i hi
    have hp : (M i).rsr.keys.Perm ((List.range (n i)).map detName) :=
      (List.perm_ext_iff_of_nodup h3 (names_nodup _)).2 h4
    have := hp.length_eq
    simpa [Dict.keys] using this
  have hB : ∀ i, ∃ B : H5Band XF, i < 36 → modisBand f32 (M i).rsr = .ok B ∧
      B.attrs.get? "number_of_detectors" = some (.int (n i)) ∧
      ∀ k c, (M i).rsr.get? k = some c → StoredDetector f32 B k c := by
    intro i
    by_cases hi : i < 36
    · obtain ⟨_, _, h3, h4, h5⟩ := hM i hi
      obtain ⟨B, b1, b2, b3⟩ := modisBand_run f32 (M i).rsr (by
          intro h
          have := hlen i hi
          rw [h] at this
          have hn := (hf i hi).1
          simp at this
          omega) h3 (by
          intro k c hk
          have hk' : k ∈ (M i).rsr.keys := by
            by_contra hn
            rw [← get?_eq_none_iff, hk] at hn
            cases hn
          obtain ⟨j, hj, rfl⟩ := List.mem_map.1 ((h4 k).1 hk')
          obtain ⟨c', hc', hcv⟩ := h5 j (by simpa using hj)
          rw [hk] at hc'
          cases hc'
          exact hcv.1)
      refine ⟨B, fun _ => ⟨b1, ?_, b3⟩⟩
      rw [b2, hlen i hi]
    · exact ⟨⟨[], [], []⟩, fun h => absurd h hi⟩
  choose B hB using hB
  have hrun := modisConvert_run P argsort f32 options files platform M out (fun i hi => ⟨(hM i hi).1, (hM i hi).2.1⟩) B
    (fun i hi => (hB i hi).1)
  have hbands : ∀ i < 36, Dict.get? ((List.range 36).map fun i => (toString (i + 1), B i)) (toString (i + 1)) = some (B i) := by
    intro i hi
    refine get?_of_mem ?_ (List.mem_map.2 ⟨i, by simpa using hi, rfl⟩)
    simp only [Dict.WF, List.map_map, Function.comp_def]
    exact modisNames_nodup
  have hnum : ∀ b, ∃ i, b ∈ (List.range 36).map (fun i => toString (i + 1)) → i < 36 ∧ b = toString (i + 1) := by
    intro b
    by_cases hb : b ∈ (List.range 36).map (fun i => toString (i + 1))
    · obtain ⟨i, hi, rfl⟩ := List.mem_map.1 hb
      exact ⟨i, fun _ => ⟨by simpa using hi, rfl⟩⟩
    · exact ⟨0, fun h => absurd h hb⟩
  choose num hnum using hnum
  have hnum' : ∀ i < 36, num (toString (i + 1)) = i := by
    intro i hi
    have := toString_inj (hnum (toString (i + 1)) (List.mem_map.2 ⟨i, by simpa using hi, rfl⟩)).2
    omega
  have hdata : ∀ i j, ∃ (c : RawCurve XF) (ws : List XF) (cw : XF), i < 36 → j < n i →
      CurveOf (samplesOf (rs i) (j + 1)) (modisUnit platform (i + 1)) c ∧
      (ws = c.wavelength ∨ CloseGrids ws c.wavelength) ∧ WrittenCentral c.wavelength c.response cw ∧
      ∃ D, (B i).dets.get? (detName j) = some D ∧ D.attrs.get? "central_wavelength" = some (.num cw "") ∧
        D.datasets.get? "response" = some (stored f32 c.response []) ∧
        (scaledData D.datasets = some (ws.map f32, .num 1e-6 "") ∨
          (scaledData D.datasets = none ∧ scaledData (B i).datasets = some (ws.map f32, .num 1e-6 ""))) := by
    intro i j
    by_cases hi : i < 36
    · by_cases hj : j < n i
      · obtain ⟨c, h1, h2⟩ := (hM i hi).2.2.2.2 j hj
        obtain ⟨D, cw, ws, g1, g2, g3, g4, g5, g6⟩ := (hB i hi).2.2 _ _ h1
        exact ⟨c, ws, cw, fun _ _ => ⟨h2, g5, g3, D, g1, g2, g4, g6⟩⟩
      · exact ⟨⟨[], []⟩, [], .nan, fun _ h => absurd h hj⟩
    · exact ⟨⟨[], []⟩, [], .nan, fun h => absurd h hi⟩
  choose C W Z hdata using hdata
  generalize hfile : (H5File.mk _ _ : H5File XF) = file at hrun
  have hget : ∀ i < 36, file.bands.get? (toString (i + 1)) = some (B i) := by
    intro i hi
    rw [← hfile]
    exact hbands i hi
  obtain ⟨info, g1, g2, _, g4, g5⟩ := load_of_items file ((List.range 36).map fun i => toString (i + 1)) modisNames_nodup
    ⟨.object_, MODIS_BAND_NAMES.map .str, "", by rw [← hfile]; rfl, textOf_map _⟩
    "Relative Spectral Responses for MODIS" _ (by rw [← hfile]; rfl) ⟨_, _, rfl, .str _⟩ platform platform
    (by rw [← hfile]; rfl) (by rw [← hfile]; rfl) (fun b => n (num b)) (fun b j => readBack f32 (W (num b) j))
    (fun b j => (C (num b) j).response.map f32) (fun b j => Z (num b) j) (by
      intro b hb
      obtain ⟨hi, e⟩ := hnum b hb
      have := hget _ hi
      rw [← e] at this
      exact Or.inl ⟨_, _, this, (hB _ hi).2.1, by simp⟩) (by
      intro b hb j hj
      obtain ⟨hi, e⟩ := hnum b hb
      have hgb := hget _ hi
      rw [← e] at hgb
      obtain ⟨_, _, _, D, d1, d2, d3, d4⟩ := hdata (num b) j hi hj
      refine ⟨⟨_, hgb, Or.inl ⟨D, d1, by dsimp only; rw [d3]; rfl⟩⟩, ⟨(W (num b) j).map f32, .num 1e-6 "", 1e-6, ⟨_, hgb, ?_⟩, Or.inr ⟨_, rfl⟩, rfl⟩,
        ⟨_, ⟨_, hgb, Or.inl ⟨D, d1, d2⟩⟩, Or.inr ⟨_, rfl⟩⟩⟩
      rcases d4 with d4 | ⟨d4, d5⟩
      · exact Or.inl ⟨D, d1, d4⟩
      · refine Or.inr ⟨?_, d5⟩
        intro D' hD'
        rw [d1] at hD'
        cases hD'
        exact d4)
  refine ⟨file, info, hrun, g1, g2, by rw [g4, g2], ?_⟩
  intro i hi
  obtain ⟨Bi, b1, b2, b3⟩ := g5 (toString (i + 1)) (List.mem_map.2 ⟨i, by simpa using hi, rfl⟩)
  rw [hnum' i hi] at b2 b3
  refine ⟨Bi, b1, b2, ?_⟩
  intro j hj
  obtain ⟨d1, d2, d3, _⟩ := hdata i j hi hj
  refine ⟨C i j, W i j, Z i j, d1, d2, d3, ?_⟩
  exact b3 j hj

/-- the samples of `exModisLines` -/
noncomputable def exModisRecords : List (ModisRecord XF) :=
  [⟨2, fin 620, fin (1/2)⟩, ⟨1, fin 620, fin (1/2)⟩, ⟨2, fin 620, fin (-99)⟩]

/-- options of an installation -/
def exModisOptions : List (String × Conf) :=
  [("rsr_dir", .leaf (.str "/out")), ("EOS-Terra-modis", .map [("path", .leaf (.str "/data"))])]

theorem exModis_options : ModisOptions exModisOptions "EOS-Terra" "/data" "/out" :=
  ⟨⟨_, rfl, rfl⟩, Or.inl rfl⟩

theorem exModis_samples (j : Nat) (hj : j < 2) :
    samplesOf exModisRecords ((j : Int) + 1) = [⟨(j : Int) + 1, fin 620, fin (1/2)⟩] := by
  have e1 : PyNum.eq (fin (1/2)) (-(99.0 : XF)) = false := by
    rw [ofSci_eq, fin_neg]; simp only [eq_fin, decide_eq_false_iff_not]; norm_num
  have e2 : PyNum.eq (fin (-99)) (-(99.0 : XF)) = true := by
    rw [ofSci_eq, fin_neg]; simp only [eq_fin, decide_eq_true_eq]; norm_num
  have : j = 0 ∨ j = 1 := by omega
  unfold samplesOf exModisRecords
  rcases this with rfl | rfl
  · rw [List.filter_cons_of_neg (by simp), List.filter_cons_of_pos (by dsimp only; rw [e1]; rfl),
      List.filter_cons_of_neg (by simp)]
    rfl
  · rw [List.filter_cons_of_pos (by dsimp only; rw [e1]; rfl), List.filter_cons_of_neg (by simp),
      List.filter_cons_of_neg (by dsimp only; rw [e2]; simp)]
    rfl

/-- the same file for every band -/
theorem exModis_files : ModisFiles exParsers (fun _ => some exModisLines) "EOS-Terra" "/data" (fun _ => 2)
    (fun _ => exModisRecords) := by
  intro i _
  refine ⟨Nat.two_pos, ⟨_, rfl, exModis_records⟩, ?_, ?_⟩
  · intro s hs
    fin_cases hs <;> simp
  · intro j hj
    rw [exModis_samples j hj]
    simp

example : ∃ argsort M, ModisRSR exParsers argsort exModisOptions (fun _ => some exModisLines) "20" "EOS-Terra" = .ok M ∧
    M.output_dir = "/out" ∧ ∃ c, M.rsr.get? "det-1" = some c ∧ c.wavelength = [fin 620 * 1.0] := by
  obtain ⟨argsort, ha⟩ := exists_argsort
  obtain ⟨M, h1, h2, _, _, h5⟩ := C105_modis_band exParsers argsort ha exModisOptions (fun _ => some exModisLines)
    "EOS-Terra" "/data" "/out" exModis_options 19 (by decide) _ rfl _ exModis_records (by
      intro s hs
      have := (exModis_files 19 (by decide)).2.2.2
      fin_cases hs
      · exact this 1 (by decide)
      · exact this 0 (by decide)
      · exact this 1 (by decide))
  obtain ⟨c, h6, h7⟩ := h5 1 ⟨⟨1, fin 620, fin (1/2)⟩, by simp, rfl⟩
  refine ⟨argsort, M, h1, h2, c, h6, ?_⟩
  have hs := exModis_samples 0 (by decide)
  unfold exModisRecords at hs
  rw [show ((0 : Nat) : Int) + 1 = 1 from rfl] at hs
  rw [hs] at h7
  obtain ⟨g1, g2, g3, g4⟩ := h7
  have hu : modisUnit "EOS-Terra" (19 + 1) = (1.0 : XF) := rfl
  rw [hu] at g3 g4
  have hv : fin 620 * (1.0 : XF) ≠ XF.nan := by rw [ofSci_eq, fin_mul]; simp
  have hmem := (g3 _ hv).2 ⟨_, List.mem_singleton_self _, rfl⟩
  have hall : ∀ v ∈ c.wavelength, v = fin 620 * (1.0 : XF) := by
    intro v hvm
    obtain ⟨k, hk, rfl⟩ := List.mem_iff_getElem.1 hvm
    obtain ⟨s, hs, he⟩ := g4 (c.wavelength[k], c.response[k]'(g1 ▸ hk)) (by
      rw [← List.getElem_zip (h := by simp only [List.length_zip]; omega)]
      exact List.getElem_mem _)
    rw [List.mem_singleton] at hs
    subst hs
    exact (Prod.mk.inj he).1
  cases hc : c.wavelength with
  | nil => rw [hc] at hmem; cases hmem
  | cons a l =>
    rw [hc] at hall g2
    cases l with
    | nil => rw [hall a (by simp)]
    | cons b l =>
      have hlt := (List.pairwise_cons.1 g2).1 b (by simp)
      rw [hall a (by simp), hall b (by simp), ofSci_eq, fin_mul] at hlt
      simp at hlt

example : ∃ argsort file info, modisConvert exParsers argsort id exModisOptions (fun _ => some exModisLines) "EOS-Terra" =
      .ok (("/out", "rsr_modis_EOS-Terra.h5"), file) ∧ loadRsrInfo file = .ok info ∧
    ∃ B, info.rsr.get? "36" = some B ∧ B.keys = ["det-1", "det-2"] := by
  obtain ⟨argsort, ha⟩ := exists_argsort
  obtain ⟨file, info, h1, h2, _, _, h5⟩ := C106_modis_roundtrip exParsers argsort ha id exModisOptions
    (fun _ => some exModisLines) "EOS-Terra" "/data" "/out" exModis_options _ _ exModis_files
  obtain ⟨B, h6, h7, _⟩ := h5 35 (by decide)
  exact ⟨argsort, file, info, h1, h2, B, h6, h7⟩

end Verif.Props
