import Verif.Lemmas.Reader
import Verif.Lemmas.Trap
/-
Properties C40-C42: reading a file of relative spectral responses.
-/
namespace Verif.Props
open Model Spec Lemmas PyNum XF
variable {α : Type} [PyNum α]

/-! ### C40 -/

theorem readBand_eq (f : H5File α) (band : String) :
    readBand f band = (do storeAll (readDetector f band) (← detectorNames f band) []) := rfl

theorem readResponses_eq (f : H5File α) (l : List String) : readResponses f l = storeAll (readBand f) l [] := rfl

theorem names_nodup (n : Nat) : ((List.range n).map detName).Nodup :=
  (List.nodup_range).map (fun _ _ h => detName_inj h)

/-- the data loaded for one band -/
def BandLoaded (f : H5File α) (band : String) (B : BandRsr α) : Prop :=
  ∃ n, DetectorCount f band n ∧ B.keys = (List.range n).map detName ∧
    ∀ i < n, ∃ r w c, HasResponse f band (detName i) r ∧ HasWavelength f band (detName i) w ∧
      HasCentral f band (detName i) c ∧
      B.get? (detName i) = some [("response", .arr r), ("wavelength", .arr w), ("central_wavelength", .num c)]

theorem readBand_ok (f : H5File α) (band : String) (B : BandRsr α) (h : readBand f band = .ok B) :
    BandLoaded f band B := by
  rw [readBand_eq] at h
  cases hd : detectorNames f band with
  | error e => rw [hd] at h; cases h
  | ok names =>
    rw [hd] at h
    obtain ⟨n, hn, rfl⟩ := ((detectorNames_spec f band).1 names).1 hd
    obtain ⟨h1, _, _, _, h5⟩ := storeAll_ok _ _ _ _ h
    refine ⟨n, hn, ?_, ?_⟩
    · rw [h5 (names_nodup n) (by simp [Dict.keys])]; rfl
    · intro i hi
      obtain ⟨v, hv, hg⟩ := h1 (detName i) (List.mem_map.2 ⟨i, by simpa using hi, rfl⟩)
      obtain ⟨r, w, c, a, b, c', rfl⟩ := (readDetector_iff _ _ _ _).1 hv
      exact ⟨r, w, c, a, b, c', hg⟩

theorem mapM_text_iff (es : List PyVal) (l : List String) :
    es.mapM convert2str = .ok l ↔ List.Forall₂ TextOf es l := by
  induction es generalizing l with
  | nil =>
    rw [List.mapM_nil]
    constructor
    · intro h; cases h; exact .nil
    · intro h; cases h; rfl
  | cons e es ih =>
    rw [List.mapM_cons]
    constructor
    · intro h
      cases he : convert2str e with
      | error x => rw [he] at h; cases h
      | ok s =>
        cases hes : es.mapM convert2str with
        | error x => rw [he, hes] at h; cases h
        | ok r =>
          rw [he, hes] at h
          cases h
          exact .cons ((C30_accepts_iff _ _).1 he) ((ih _).1 hes)
    · intro h
      cases h with
      | cons a b =>
        rw [(C30_accepts_iff _ _).2 a, (ih _).2 b]
        rfl

theorem listsBands_iter (f : H5File α) (l : List String) (h : ListsBands f l) :
    (do (← attrIter (← f.attrs.getItem "band_names")).mapM convert2str : Py (List String)) = .ok l := by
  obtain ⟨dt, es, sh, hg, hl⟩ := h
  rw [getItem_ok_iff.2 hg]
  exact (mapM_text_iff es l).2 hl

/-- what loading does, step by step -/
theorem load_eq (f : H5File α) : loadRsrInfo f = (do
    let band_names ← (do (← attrIter (← f.attrs.getItem "band_names")).mapM convert2str)
    let description ← attrStr (← f.attrs.getItem "description")
    let platform_name ← getPlatformName f
    let instrument ← getInstrument f platform_name
    let rsr ← readResponses f band_names
    return { platform_name, instrument, band_names, description, rsr }) := by
  unfold loadRsrInfo
  simp only [bind_assoc]

theorem load_inv (f : H5File α) (info : RsrInfo α) (h : loadRsrInfo f = .ok info) :
    (do (← attrIter (← f.attrs.getItem "band_names")).mapM convert2str) = Except.ok info.band_names ∧
    (do attrStr (← f.attrs.getItem "description")) = Except.ok info.description ∧
    getPlatformName f = .ok info.platform_name ∧ getInstrument f info.platform_name = .ok info.instrument ∧
    readResponses f info.band_names = .ok info.rsr := by
  rw [load_eq] at h
  generalize hn : (do (← attrIter (← f.attrs.getItem "band_names")).mapM convert2str : Py (List String)) = N at h ⊢
  cases N with
  | error e => cases h
  | ok names =>
    simp only [bind, Except.bind] at h ⊢
    cases hd : f.attrs.getItem "description" with
    | error e => rw [hd] at h; cases h
    | ok v =>
      rw [hd] at h
      simp only at h ⊢
      cases ha : attrStr v with
      | error e => rw [ha] at h; cases h
      | ok s =>
        rw [ha] at h
        simp only at h
        cases hp : getPlatformName f with
        | error e => rw [hp] at h; cases h
        | ok p =>
          rw [hp] at h
          simp only at h
          cases hi : getInstrument f p with
          | error e => rw [hi] at h; cases h
          | ok i =>
            rw [hi] at h
            simp only at h
            cases hr : readResponses f names with
            | error e => rw [hr] at h; cases h
            | ok r =>
              rw [hr] at h
              cases h
              exact ⟨rfl, rfl, rfl, hi, hr⟩

/-- C40: what is loaded has exactly the listed bands, each with its detectors det-1 to det-n,
each detector with its response, its wavelengths in micron and its central wavelength, taken
from the detector where stored there and from the band otherwise. -/
theorem C40_loaded_data (f : H5File α) (info : RsrInfo α) (h : loadRsrInfo f = .ok info) :
    info.rsr.WF ∧ (∀ b, b ∈ info.rsr.keys ↔ b ∈ info.band_names) ∧
    (info.band_names.Nodup → info.rsr.keys = info.band_names) ∧
    (∀ l, ListsBands f l → info.band_names = l) ∧
    (∃ v, f.attrs.get? "description" = some v ∧ AttrText v info.description) ∧
    ∀ b ∈ info.band_names, ∃ B, info.rsr.get? b = some B ∧ BandLoaded f b B := by
  obtain ⟨h1, h2, _, _, h5⟩ := load_inv f info h
  rw [readResponses_eq] at h5
  obtain ⟨a, _, b, c, d⟩ := storeAll_ok _ _ _ _ h5
  refine ⟨c (by simp [Dict.WF]), ?_, ?_, ?_, ?_, ?_⟩
  · intro k; rw [b k]; simp [Dict.keys]
  · intro hn; rw [d hn (by simp [Dict.keys])]; rfl
  · intro l hl
    rw [listsBands_iter f l hl] at h1
    cases h1; rfl
  · cases hd : f.attrs.getItem "description" with
    | error e => rw [hd] at h2; cases h2
    | ok v =>
      rw [hd] at h2
      exact ⟨v, getItem_ok_iff.1 hd, (attrStr_iff _ _).1 h2⟩
  · intro k hk
    obtain ⟨B, hB, hg⟩ := a k hk
    exact ⟨B, hg, readBand_ok f k B hB⟩

theorem platform_typed (f : H5File α) (ht : Typed f) : ∃ p, getPlatformName f = .ok p := by
  unfold getPlatformName
  cases h1 : f.attrs.get? "platform_name" with
  | some v =>
    obtain ⟨s, hs⟩ := ht.text "platform_name" (by simp) v h1
    rw [getItem_ok_iff.2 h1]
    simp only [bind, Except.bind, (attrStr_iff _ _).2 hs, orKeyError, pure, Except.pure]
    exact ⟨_, rfl⟩
  | none =>
    rw [getItem_err_iff.2 ⟨rfl, h1⟩]
    cases h2 : f.attrs.get? "platform" with
    | none =>
      rw [getItem_err_iff.2 ⟨rfl, h2⟩]
      exact ⟨none, rfl⟩
    | some v =>
      obtain ⟨s, hs⟩ := ht.text "platform" (by simp) v h2
      rw [getItem_ok_iff.2 h2]
      cases h3 : f.attrs.get? "sat_number" with
      | none =>
        rw [getItem_err_iff.2 ⟨rfl, h3⟩]
        simp only [bind, Except.bind, (attrStr_iff _ _).2 hs, orKeyError, pure, Except.pure]
        exact ⟨_, rfl⟩
      | some n =>
        rw [getItem_ok_iff.2 h3]
        simp only [bind, Except.bind, (attrStr_iff _ _).2 hs, orKeyError, pure, Except.pure]
        exact ⟨_, rfl⟩

theorem instrument_typed (f : H5File α) (ht : Typed f) (p : Option String) : ∃ i, getInstrument f p = .ok i := by
  unfold getInstrument
  cases h1 : f.attrs.get? "sensor" with
  | some v =>
    obtain ⟨s, hs⟩ := ht.text "sensor" (by simp) v h1
    rw [getItem_ok_iff.2 h1]
    simp only [bind, Except.bind, (attrStr_iff _ _).2 hs, orKeyError, pure, Except.pure]
    exact ⟨_, rfl⟩
  | none =>
    rw [getItem_err_iff.2 ⟨rfl, h1⟩]
    exact ⟨_, rfl⟩

open Classical in
/-- for a well-typed file, reading a detector fails only with KeyError, and exactly when an
item is missing -/
theorem readDetector_typed (f : H5File α) (ht : Typed f) (band det : String) :
    if (∃ r, HasResponse f band det r) ∧
      (∃ p, Item f band det (fun D => scaledData D.datasets) (fun B => scaledData B.datasets) p) ∧
      (∃ v, Item f band det (fun D => D.attrs.get? "central_wavelength") (fun B => B.attrs.get? "central_wavelength") v)
    then ∃ d, readDetector f band det = .ok d else readDetector f band det = .error .keyError := by
  have hw : ∀ p, Item f band det (fun D => scaledData D.datasets) (fun B => scaledData B.datasets) p →
      ∃ w, HasWavelength f band det w := by
    intro p hp
    obtain ⟨s, hs⟩ := ht.scales band det p hp
    exact ⟨_, p.1, p.2, s, hp, hs, rfl⟩
  have hc : ∀ v, Item f band det (fun D => D.attrs.get? "central_wavelength")
      (fun B => B.attrs.get? "central_wavelength") v → ∃ c, HasCentral f band det c := by
    intro v hv
    obtain ⟨x, hx⟩ := ht.centrals band det v hv
    exact ⟨x, v, hv, hx⟩
  split
  · rename_i h
    obtain ⟨⟨r, hr⟩, ⟨p, hp⟩, v, hv⟩ := h
    obtain ⟨w, hw⟩ := hw p hp
    obtain ⟨c, hc⟩ := hc v hv
    exact ⟨_, (readDetector_iff f band det _).2 ⟨r, w, c, hr, hw, hc, rfl⟩⟩
  · rename_i h
    unfold readDetector
    by_cases h1 : ∃ r, HasResponse f band det r
    · obtain ⟨r, hr⟩ := h1
      rw [((bandResponses_spec f band det).1 r).2 hr]
      by_cases h2 : ∃ p, Item f band det (fun D => scaledData D.datasets) (fun B => scaledData B.datasets) p
      · obtain ⟨p, hp⟩ := h2
        obtain ⟨w, hw⟩ := hw p hp
        rw [((bandWavelengths_spec f band det).1 w).2 hw]
        have h3 : ∀ v, ¬ Item f band det (fun D => D.attrs.get? "central_wavelength")
            (fun B => B.attrs.get? "central_wavelength") v := fun v hv => h ⟨⟨r, hr⟩, ⟨p, hp⟩, v, hv⟩
        rw [(bandCentral_spec f band det).2 h3]
        rfl
      · have h2' := not_exists.1 h2
        rw [(bandWavelengths_spec f band det).2 h2']
        rfl
    · rw [(bandResponses_spec f band det).2 (not_exists.1 h1)]
      rfl

/-- C40: a file whose stored items have the right types is read exactly when every required
item is there; otherwise reading raises KeyError. -/
theorem C40_complete_or_keyError (f : H5File α) (ht : Typed f) :
    (Complete f → ∃ info, loadRsrInfo f = .ok info) ∧
    (¬ Complete f → loadRsrInfo f = .error .keyError) := by
  have key : ∀ b, (∀ n, DetectorCount f b n → ∀ i < n,
      (∃ r, HasResponse f b (detName i) r) ∧
      (∃ p, Item f b (detName i) (fun D => scaledData D.datasets) (fun B => scaledData B.datasets) p) ∧
      (∃ v, Item f b (detName i) (fun D => D.attrs.get? "central_wavelength")
        (fun B => B.attrs.get? "central_wavelength") v)) → ∃ B, readBand f b = .ok B := by
    intro b hb
    obtain ⟨n, hn⟩ := (detectorNames_spec f b).2.1 (fun B v => ht.counts b B v)
    rw [readBand_eq, ((detectorNames_spec f b).1 _).2 ⟨n, hn, rfl⟩]
    refine storeAll_succeeds _ _ ?_ _
    intro k hk
    obtain ⟨i, hi, rfl⟩ := List.mem_map.1 hk
    have := readDetector_typed f ht b (detName i)
    rw [if_pos (hb n hn i (by simpa using hi))] at this
    exact this
  have key2 : ∀ b e, readBand f b = .error e → e = .keyError := by
    intro b e h
    obtain ⟨n, hn⟩ := (detectorNames_spec f b).2.1 (fun B v => ht.counts b B v)
    rw [readBand_eq, ((detectorNames_spec f b).1 _).2 ⟨n, hn, rfl⟩] at h
    have h' : storeAll (readDetector f b) ((List.range n).map detName) [] = .error e := h
    by_cases hex : ∃ k ∈ (List.range n).map detName, ∃ e', readDetector f b k = .error e'
    · rw [storeAll_fails _ .keyError _ ?_ hex] at h'
      · cases h'; rfl
      · intro k _ e' he'
        have := readDetector_typed f ht b k
        split at this
        · obtain ⟨d, hd⟩ := this; rw [hd] at he'; cases he'
        · rw [this] at he'; cases he'; rfl
    · exfalso
      obtain ⟨o, ho⟩ := storeAll_succeeds (readDetector f b) ((List.range n).map detName) (fun k hk => by
        cases hx : readDetector f b k with
        | ok v => exact ⟨v, rfl⟩
        | error e' => exact absurd ⟨k, hk, e', hx⟩ hex) []
      rw [ho] at h'; cases h'
  obtain ⟨p, hp⟩ := platform_typed f ht
  obtain ⟨i, hi⟩ := instrument_typed f ht p
  have run : ∀ l v s, ListsBands f l → f.attrs.get? "description" = some v → AttrText v s →
      loadRsrInfo f = (do
        let rsr ← storeAll (readBand f) l []
        return { platform_name := p, instrument := i, band_names := l, description := s, rsr := rsr }) := by
    intro l v s hl hv hs
    rw [load_eq, listsBands_iter f l hl, getItem_ok_iff.2 hv, hp]
    simp only [bind, Except.bind, (attrStr_iff _ _).2 hs, hi]
    rfl
  constructor
  · intro hc
    obtain ⟨v0, hv0⟩ := hc.names
    obtain ⟨l, hl⟩ := ht.names v0 hv0
    obtain ⟨v, hv⟩ := hc.description
    obtain ⟨s, hs⟩ := ht.text "description" (by simp) v hv
    rw [run l v s hl hv hs]
    obtain ⟨o, ho⟩ := storeAll_succeeds (readBand f) l (fun b hb => key b (hc.items l hl b hb)) []
    rw [ho]
    exact ⟨_, rfl⟩
  · intro hc
    cases h0 : f.attrs.get? "band_names" with
    | none =>
      rw [load_eq, getItem_err_iff.2 ⟨rfl, h0⟩]
      rfl
    | some v0 =>
      obtain ⟨l, hl⟩ := ht.names v0 h0
      cases h1 : f.attrs.get? "description" with
      | none =>
        rw [load_eq, listsBands_iter f l hl, getItem_err_iff.2 ⟨rfl, h1⟩]
        rfl
      | some v =>
        obtain ⟨s, hs⟩ := ht.text "description" (by simp) v h1
        rw [run l v s hl h1 hs]
        rw [storeAll_fails (readBand f) .keyError l (fun k _ e he => key2 k e he)]
        · rfl
        · by_contra hno
          apply hc
          refine ⟨⟨v0, h0⟩, ⟨v, h1⟩, ?_⟩
          intro l' hl' b hb n hn i hi
          have : l' = l := by
            have e1 := listsBands_iter f l hl
            rw [listsBands_iter f l' hl'] at e1
            cases e1; rfl
          subst this
          cases hB : readBand f b with
          | error e => exact absurd ⟨b, hb, e, hB⟩ hno
          | ok B =>
            obtain ⟨m, hm, _, hall⟩ := readBand_ok f b B hB
            have : n = m := (detectorNames_spec f b).2.2 n m hn hm
            subst this
            obtain ⟨r, w, c, a1, a2, a3, _⟩ := hall i hi
            obtain ⟨vals, sv, s', hi', _, _⟩ := a2
            obtain ⟨v', hv', _⟩ := a3
            exact ⟨⟨r, a1⟩, ⟨_, hi'⟩, ⟨_, hv'⟩⟩

/-- A file with one band with two detectors: the second has its own response, wavelengths (in
nanometre) and central wavelength are the band's. -/
noncomputable def exFile : H5File XF where
  attrs := [("band_names", .text (.array .object_ [.str "M5"]) "['M5']"), ("description", .text (.str "example") "example"),
    ("platform_name", .text (.str "FY-3A") "FY-3A")]
  bands := [("M5", {
    attrs := [("number_of_detectors", .int 2), ("central_wavelength", .num (XF.fin 0.65) "0.65")]
    datasets := [("response", ⟨finL [0, 1, 0], []⟩),
      ("wavelength", ⟨finL [600, 650, 700], [("scale", .num (XF.fin 1e-9) "1e-09")]⟩)]
    dets := [("det-2", { attrs := [], datasets := [("response", ⟨finL [0.5, 1, 0.5], []⟩)] })] })]

theorem exFile_loads : loadRsrInfo exFile = .ok {
    platform_name := some "FY-3A", instrument := .list ["virr", "mersi-1"], band_names := ["M5"],
    description := "example",
    rsr := [("M5", [
      ("det-1", [("response", .arr (finL [0, 1, 0])),
        ("wavelength", .arr ((finL [600, 650, 700]).map fun x => x * XF.fin 1e-9 * 1e6)),
        ("central_wavelength", .num (XF.fin 0.65))]),
      ("det-2", [("response", .arr (finL [0.5, 1, 0.5])),
        ("wavelength", .arr ((finL [600, 650, 700]).map fun x => x * XF.fin 1e-9 * 1e6)),
        ("central_wavelength", .num (XF.fin 0.65))])])] } := by
  rfl

example : ∃ B : BandRsr XF, BandLoaded exFile "M5" B ∧ B.keys = ["det-1", "det-2"] := by
  obtain ⟨B, hB, hl⟩ := (C40_loaded_data exFile _ exFile_loads).2.2.2.2.2 "M5" (by simp)
  refine ⟨B, hl, ?_⟩
  cases hB
  rfl

/-- the same file without any response for the first detector -/
noncomputable def exBroken : H5File XF := { exFile with
  bands := [("M5", {
    attrs := [("number_of_detectors", .int 2), ("central_wavelength", .num (XF.fin 0.65) "0.65")]
    datasets := [("wavelength", ⟨finL [600, 650, 700], [("scale", .num (XF.fin 1e-9) "1e-09")]⟩)]
    dets := [("det-2", { attrs := [], datasets := [("response", ⟨finL [0.5, 1, 0.5], []⟩)] })] })] }

example : loadRsrInfo exBroken = .error .keyError := rfl

/-- `exFile` stores data of the right types -/
theorem exFile_typed : Typed exFile := by
  refine ⟨?_, ?_, ?_, ?_, ?_⟩
  · intro v hv
    exact ⟨["M5"], _, _, _, rfl, .cons (.str _) .nil⟩
  · intro k hk v hv
    simp only [List.mem_cons, List.not_mem_nil, or_false] at hk
    rcases hk with rfl | rfl | rfl | rfl <;>
      simp [exFile, Dict.get?] at hv <;> subst hv <;> exact ⟨_, _, _, rfl, .str _⟩
  · intro b B v hB hv
    by_cases hb : "M5" = b
    · simp [exFile, Dict.get?, hb] at hB
      subst hB
      simp [Dict.get?] at hv
      exact ⟨_, hv.symm⟩
    · simp [exFile, Dict.get?, hb] at hB
  · rintro b d p ⟨B, hB, h⟩
    by_cases hb : "M5" = b
    · simp [exFile, Dict.get?, hb] at hB
      subst hB
      rcases h with ⟨D, hD, h⟩ | ⟨-, h⟩
      · by_cases hd : "det-2" = d
        · simp [Dict.get?, hd] at hD
          subst hD
          simp [scaledData, Dict.get?] at h
        · simp [Dict.get?, hd] at hD
      · simp [scaledData, Dict.get?] at h
        subst h
        exact ⟨_, .inr ⟨_, rfl⟩⟩
    · simp [exFile, Dict.get?, hb] at hB
  · rintro b d v ⟨B, hB, h⟩
    by_cases hb : "M5" = b
    · simp [exFile, Dict.get?, hb] at hB
      subst hB
      rcases h with ⟨D, hD, h⟩ | ⟨-, h⟩
      · by_cases hd : "det-2" = d
        · simp [Dict.get?, hd] at hD
          subst hD
          simp [Dict.get?] at h
        · simp [Dict.get?, hd] at hD
      · simp [Dict.get?] at h
        subst h
        exact ⟨_, .inr ⟨_, rfl⟩⟩
    · simp [exFile, Dict.get?, hb] at hB

example : Complete exFile ∧ ∃ info, loadRsrInfo exFile = .ok info := by
  have h : Complete exFile := by
    by_contra h
    have := (C40_complete_or_keyError exFile exFile_typed).2 h
    rw [exFile_loads] at this
    cases this
  exact ⟨h, (C40_complete_or_keyError exFile exFile_typed).1 h⟩

/-! ### C41 -/

theorem oscar_eq (s : String) : (OSCAR_PLATFORM_NAMES.get? s).getD s = oscarName s := by
  unfold oscarName OSCAR_PLATFORM_NAMES
  simp only [Dict.get?, eq_comm (b := s)]
  split_ifs <;> simp_all

/-- C41: the platform name is the platform_name attribute, else platform-satnumber, else None,
with old names translated; the instrument is the sensor attribute, else the one(s) configured
for that platform. -/
theorem C41_names_from_file (f : H5File α) (info : RsrInfo α) (h : loadRsrInfo f = .ok info) :
    PlatformIs f info.platform_name ∧
    InstrumentIs f (fun p => INSTRUMENTS.get? p) info.platform_name info.instrument := by
  obtain ⟨_, _, hp, hi, _⟩ := load_inv f info h
  generalize info.platform_name = p at *
  generalize info.instrument = i at *
  constructor
  · unfold getPlatformName at hp
    cases h1 : f.attrs.get? "platform_name" with
    | some v =>
      rw [getItem_ok_iff.2 h1] at hp
      cases hs : attrStr v with
      | error e =>
        simp only [bind, Except.bind, hs, orKeyError] at hp
        exfalso
        have hne : e ≠ .keyError := fun he => attrStr_not_key v (by rw [hs, he])
        cases e <;> simp_all
      | ok s =>
        simp only [bind, Except.bind, hs, orKeyError, pure, Except.pure, Except.ok.injEq] at hp
        rw [← hp, oscar_eq]
        exact .named v s h1 ((attrStr_iff _ _).1 hs)
    | none =>
      rw [getItem_err_iff.2 ⟨rfl, h1⟩] at hp
      cases h2 : f.attrs.get? "platform" with
      | none =>
        rw [getItem_err_iff.2 ⟨rfl, h2⟩] at hp
        cases hp
        exact .unknown h1 (Or.inl h2)
      | some v =>
        rw [getItem_ok_iff.2 h2] at hp
        cases hs : attrStr v with
        | error e =>
          simp only [bind, Except.bind, hs, orKeyError] at hp
          exfalso
          have hne : e ≠ .keyError := fun he => attrStr_not_key v (by rw [hs, he])
          cases e <;> simp_all
        | ok s =>
          cases h3 : f.attrs.get? "sat_number" with
          | none =>
            rw [getItem_err_iff.2 ⟨rfl, h3⟩] at hp
            simp only [bind, Except.bind, hs, orKeyError, pure, Except.pure, Except.ok.injEq] at hp
            rw [← hp]
            exact .unknown h1 (Or.inr h3)
          | some n =>
            rw [getItem_ok_iff.2 h3] at hp
            simp only [bind, Except.bind, hs, orKeyError, pure, Except.pure, Except.ok.injEq] at hp
            rw [← hp, oscar_eq]
            exact .numbered h1 v n s h2 ((attrStr_iff _ _).1 hs) h3
  · unfold getInstrument at hi
    cases h1 : f.attrs.get? "sensor" with
    | some v =>
      rw [getItem_ok_iff.2 h1] at hi
      cases hs : attrStr v with
      | error e =>
        exfalso
        simp only [bind, Except.bind, hs, orKeyError] at hi
        have hne : e ≠ .keyError := fun he => attrStr_not_key v (by rw [hs, he])
        cases e <;> simp_all
      | ok s =>
        simp only [bind, Except.bind, hs, orKeyError, pure, Except.pure, Except.ok.injEq] at hi
        rw [← hi]
        exact .sensor v s h1 ((attrStr_iff _ _).1 hs)
    | none =>
      rw [getItem_err_iff.2 ⟨rfl, h1⟩] at hi
      have hi' : instVal (p.bind INSTRUMENTS.get?) = i := by
        simpa [bind, Except.bind, orKeyError, pure, Except.pure] using hi
      cases p with
      | none => rw [← hi']; exact .unknown h1 (by simp)
      | some p =>
        simp only [Option.bind_some] at hi'
        cases hg : INSTRUMENTS.get? p with
        | none =>
          rw [hg] at hi'; rw [← hi']
          exact .unknown h1 (by rintro q hq; cases hq; exact hg)
        | some x =>
          rw [hg] at hi'
          cases x with
          | one n => rw [← hi']; exact .single h1 p n rfl hg
          | many l => rw [← hi']; exact .several h1 p l rfl hg

example : PlatformIs exFile (some "FY-3A") := (C41_names_from_file exFile _ exFile_loads).1

end Verif.Props
