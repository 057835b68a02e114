import Verif.Model.Scripts
import Verif.Props.LutDownload
import Verif.Props.LogOutput
import Verif.Props.BandLookup
import Verif.Props.Curves
import Mathlib.Data.String.Basic
/-
Properties C125-C129: the command line programs.
-/
namespace Verif.Props
open XF Model PyNum Lemmas Spec

/-! ### C125: download programs -/

theorem dryLuts_run (env : Env) (ts : List String) : ∀ w : World,
    ∃ r v tr, Eff.forEach (downloadLut env true) ts w = (r, v, tr) ∧
      (v.files = w.files ∧ v.requests = w.requests) ∧ ∀ x ∈ tr, x.files = w.files ∧ x.requests = w.requests := by
  induction ts with
  | nil => intro w; exact ⟨.ok (), w, [], rfl, ⟨rfl, rfl⟩, by simp⟩
  | cons t ts ih =>
    intro w
    have hone : (∃ e, downloadLut env true t w = (.error e, w, [])) ∨
        ∃ tr, downloadLut env true t w = (.ok (), configured env w, tr) ∧
          ∀ x ∈ tr, x.files = w.files ∧ x.requests = w.requests := by
      unfold downloadLut
      cases hu : HTTPS_RAYLEIGH_LUTS.getItem t with
      | error e =>
        left
        exact ⟨e, by rw [eff_bind_error (show Eff.lift (.error e : Py String) w = (.error e, w, []) from rfl)]⟩
      | ok url =>
        right
        rw [eff_bind_ok (show Eff.lift (.ok url : Py String) w = (.ok url, w, []) from rfl),
          eff_bind_ok (getConfig_run env w)]
        refine ⟨_, rfl, ?_⟩
        intro x hx
        simp [eff_pure] at hx
        rcases hx with rfl | rfl <;> exact ⟨rfl, rfl⟩
    rw [forEach_cons]
    rcases hone with ⟨e, he⟩ | ⟨tr, he, htr⟩
    · rw [eff_bind_error he]
      exact ⟨_, _, _, rfl, ⟨rfl, rfl⟩, by simp⟩
    · rw [eff_bind_ok he]
      obtain ⟨r, v, tr2, h1, h2, h3⟩ := ih (configured env w)
      rw [h1]
      refine ⟨_, _, _, rfl, h2, ?_⟩
      intro x hx
      rcases List.mem_append.1 hx with hx | hx
      · exact htr x hx
      · exact h3 x hx

/-- C125: with `--dry_run` both programs request nothing and write no file, at any point,
whatever the other options. -/
theorem C125_dry_run (env : Env) (destination : Option String) (types : Option (List String)) (w : World) :
    Quiet (downloadRsrScript env destination true) w ∧ Quiet (downloadLutsScript env types true) w := by
  have hrsr : ∀ dest, Quiet (checkAndDownloadRsr env dest true) w := by
    intro dest x hx
    obtain ⟨-, h2, h3⟩ := checkAndDownload_eq env dest true w
    rw [h2, h3] at hx
    have := (C45_dry_run env (configured env w) dest).2
    rcases hx with hx | hx
    · exact ⟨(this x (Or.inl hx)).2, (this x (Or.inl hx)).1⟩
    · rcases List.mem_cons.1 hx with rfl | hx
      · exact ⟨rfl, rfl⟩
      · rcases List.mem_cons.1 hx with rfl | hx
        · exact ⟨rfl, rfl⟩
        · exact ⟨(this x (Or.inr hx)).2, (this x (Or.inr hx)).1⟩
  constructor
  · unfold downloadRsrScript
    cases destination with
    | none => exact hrsr _
    | some d =>
      simp only
      split
      · exact hrsr _
      · exact hrsr _
  · unfold downloadLutsScript
    generalize (some (types.getD AEROSOL_TYPES)) = arg
    obtain ⟨tr, v, hn, hv, hx⟩ := needed_run env (requestedTypes arg) w
    by_cases hk : ∀ t ∈ requestedTypes arg, t ∈ AEROSOL_TYPES
    · rw [if_pos hk] at hn
      generalize ((requestedTypes arg).filter fun t => ! lutVersionUptodate env w t) = needed at hn
      by_cases hnil : needed = []
      · refine quiet_of_eq (r := .ok ()) (w' := v) (t := tr ++ []) ?_ hv (by simpa using hx)
        rw [checkAndDownloadLuts_eq, eff_bind_ok hn]
        simp only [hnil, if_true]
        rfl
      · obtain ⟨r, v', tr', h1, h2, h3⟩ := dryLuts_run env needed v
        refine quiet_of_eq (r := r) (w' := v') (t := tr ++ tr') ?_ ⟨h2.1.trans hv.1, h2.2.trans hv.2⟩ ?_
        · rw [checkAndDownloadLuts_eq, eff_bind_ok hn]
          simp only [hnil, if_false]
          rw [show downloadLuts env (some needed) true = Eff.forEach (downloadLut env true) needed from rfl, h1]
        · intro x hxm
          rcases List.mem_append.1 hxm with h | h
          · exact hx x h
          · exact ⟨(h3 x h).1.trans hv.1, (h3 x h).2.trans hv.2⟩
    · rw [if_neg hk] at hn
      refine quiet_of_eq (r := .error .attributeError) (w' := v) (t := tr) ?_ hv hx
      rw [checkAndDownloadLuts_eq, eff_bind_error hn]

/-- C125: without `--dry_run` and `--destination` (or with an empty one), a good server and
downloading allowed, the program leaves the response data current. -/
theorem C125_rsr_current (env : Env) (w : World) (chunks : List Content)
    (hu : Usable (env.server HTTP_PYSPECTRAL_RSR) chunks) (hg : GoodArchive env chunks.flatten)
    (hdl : env.cfg.download_from_internet = true) (destination : Option String)
    (hdest : destination = none ∨ destination = some "" ∨ destination = some env.cfg.rsr_dir) :
    (Eff.result (downloadRsrScript env destination false) w).isOk = true ∧
    RsrCurrent env (Eff.final (downloadRsrScript env destination false) w) := by
  have h0 := C46_first_call env w chunks hu hg hdl none (Or.inl rfl)
  unfold downloadRsrScript
  rcases hdest with rfl | rfl | rfl
  · exact h0
  · exact h0
  · simp only
    split
    · exact C46_first_call env w chunks hu hg hdl (some env.cfg.rsr_dir) (Or.inr rfl)
    · exact h0

example : (Eff.result (downloadRsrScript exampleEnv (some "") false) emptyWorld).isOk = true :=
  (C125_rsr_current exampleEnv emptyWorld _ exampleEnv_usable exampleEnv_good rfl (some "") (Or.inr (Or.inl rfl))).1

/-- C125: `--aerosol_types` absent, or given without any type, means every type: after a run
with a good server all tables are current. -/
theorem C125_all_types (env : Env) (w : World) (types : Option (List String))
    (ht : types = none ∨ types = some []) (hg : ∀ t ∈ AEROSOL_TYPES, GoodLut env t) :
    (Eff.result (downloadLutsScript env types false) w).isOk = true ∧
    ∀ t ∈ AEROSOL_TYPES, LutCurrent env (Eff.final (downloadLutsScript env types false) w) t := by
  have hreq : requestedTypes (some (types.getD AEROSOL_TYPES)) = AEROSOL_TYPES := by
    rcases ht with rfl | rfl <;> rfl
  obtain ⟨h1, h2, -⟩ := C67_second_call_quiet env (some (types.getD AEROSOL_TYPES)) w
    (by rw [hreq]; exact fun t h => h)
    (fun t h => hg t (by rw [← hreq]; exact List.mem_of_mem_filter h))
  rw [hreq] at h2
  exact ⟨h1, h2⟩

/-- C125: the programs are silent unless asked: without `--verbose` no record makes output
(unless somebody attached a printing handler to the logger itself); with it, in a process where
logging was not switched on before, every record from DEBUG on is printed once, others not. -/
theorem C125_verbosity (chain : String → List String) (s : LogState) (name : String) (level : Int) :
    ((∀ n, ∀ h ∈ s.named n, h.kind = .null) → outputs chain (scriptLogging false s) name level = []) ∧
    (Fresh s → (∀ n, ∀ h ∈ s.named n, h.kind ≠ .console) →
      consoleLines (outputs chain (scriptLogging true s) name level) = if 10 ≤ level then 1 else 0) := by
  constructor
  · intro hn
    have := C102_off_silences chain s [] [] hn (by simp) name level
    simpa [runLog, LogCall.run, scriptLogging] using this
  · intro hf hn
    have := C103_console_once_partial chain s hf hn [] [] (by simp) (by simp) 10 10 name level
    have e : runLog ([] ++ [.on 10] ++ [] ++ [.on 10]) s = scriptLogging true s := by
      show loggingOn 10 (loggingOn 10 s) = loggingOn 10 s
      unfold loggingOn
      cases h : s.isLoggingOn <;> simp [h, Function.comp_def]
    rwa [e] at this

example : consoleLines (outputs exampleChain (scriptLogging true {}) "a" 10) = 1 := by decide

/-! ### C126: find_wavelengths_for_satpy -/

/-- band `b` of the reader has a curve for detector `det`: wavelengths in order, responses -/
def HasBandCurve (r : Reader XF) (det b : String) (w ρ : List ℝ) : Prop :=
  ∃ band d, rsrDictGetItem r.instrument r.rsr b = .ok band ∧ band.get? det = some d ∧
    d.get? "wavelength" = some (.arr (finL w)) ∧ d.get? "response" = some (.arr (finL ρ)) ∧
    w.length = ρ.length ∧ Increasing w

/-- the bands the program is asked for -/
def askedBands (r : Reader XF) : Option String → List String
  | none => r.band_names
  | some "" => r.band_names
  | some b => [b]

/-- the numbers printed for a band: the ends are wavelengths of the curve, and enclose every
sample above the threshold -/
def GoodRange (t : ℝ) (w ρ : List ℝ) (l : List XF) : Prop :=
  ∃ lo hi c, l = [fin lo, c, fin hi] ∧ lo ∈ w ∧ hi ∈ w ∧ ∀ p ∈ w.zip ρ, t < p.2 → lo ≤ p.1 ∧ p.1 ≤ hi

theorem range_good (r : Reader XF) (det b : String) (w ρ : List ℝ) (t : ℝ) (h : HasBandCurve r det b w ρ)
    (hex : ∃ v ∈ ρ, t < v) :
    ∃ l, (do let bd ← rsrDictGetItem r.instrument r.rsr b
             let d ← bd.getItem det
             getWaveRange d (fin t)) = .ok l ∧ GoodRange t w ρ l := by
  obtain ⟨band, d, h1, h2, h3, h4, h5, h6⟩ := h
  rw [h1]
  simp only [bind, Except.bind, getItem_ok_iff.2 h2]
  have hne : getWaveRange d (fin t) ≠ .error .indexError := by
    intro he
    obtain ⟨v, hv, hv'⟩ := hex
    exact absurd ((C29_fails_iff d w ρ h5 h3 h4 t).1 he v hv) (by linarith)
  have key : ∀ res, getWaveRange d (fin t) = res → res ≠ .error .indexError →
      ∃ lo hi c, res = .ok [fin lo, c, fin hi] ∧ lo ∈ w ∧ hi ∈ w := by
    intro res hres hne
    unfold getWaveRange at hres
    simp only [getArr, Dict.getItem, h3, h4, bind, Except.bind, pure, Except.pure] at hres
    rw [getCentralWave_default h5] at hres
    simp only at hres
    cases e1 : (NP.whereIdx (fun x => PyNum.gt x (fin t)) (finL ρ)).head? with
    | none => simp only [e1] at hres; exact absurd hres.symm hne
    | some f =>
      cases e2 : (NP.whereIdx (fun x => PyNum.gt x (fin t)) (finL ρ)).getLast? with
      | none => simp only [e1, e2] at hres; exact absurd hres.symm hne
      | some g =>
        obtain ⟨⟨u, hu, -⟩, -⟩ := (whereIdx_head _ _ _).1 e1
        obtain ⟨⟨v, hv, -⟩, -⟩ := (whereIdx_last _ _ _).1 e2
        have hf : f < w.length := by
          have := (List.getElem?_eq_some_iff.1 hu).1
          simpa [finL, h5] using this
        have hg : g < w.length := by
          have := (List.getElem?_eq_some_iff.1 hv).1
          simpa [finL, h5] using this
        have ef : NP.getIdx (finL w) f = .ok (fin w[f]) := by
          simp [NP.getIdx, finL, hf]
        have eg : NP.getIdx (finL w) g = .ok (fin w[g]) := by
          simp [NP.getIdx, finL, hg]
        simp only [e1, e2, ef, eg] at hres
        exact ⟨w[f], w[g], _, hres.symm, List.getElem_mem _, List.getElem_mem _⟩
  obtain ⟨lo, hi, c, hok, hlo, hhi⟩ := key _ rfl hne
  obtain ⟨a, b', ha, hb, hin⟩ := C29_samples_inside d w ρ h5 h3 h4 h6 t _ _ _ hok
  refine ⟨_, hok, lo, hi, c, rfl, hlo, hhi, ?_⟩
  injection ha with ha; injection hb with hb
  rw [ha, hb]; exact hin

/-- C126: if every band asked for (all bands of the file without `--bandname`) has a sample
above the threshold, the program prints one range for each, in order: two wavelengths of the
curve enclosing all samples above the threshold. -/
theorem C126_all_ranges (r : Reader XF) (det : String) (t : ℝ) (bandname : Option String)
    (w ρ : String → List ℝ) (hc : ∀ b ∈ askedBands r bandname, HasBandCurve r det b (w b) (ρ b))
    (hex : ∀ b ∈ askedBands r bandname, ∃ v ∈ ρ b, t < v) :
    (findWavelengths (.ok r) bandname det (fin t)).2 = .ok () ∧
    List.Forall₂ (fun b p => p.1 = b ∧ GoodRange t (w b) (ρ b) p.2) (askedBands r bandname)
      (findWavelengths (.ok r) bandname det (fin t)).1 := by
  have e : findWavelengths (.ok r) bandname det (fin t) = printRanges r det (fin t) (askedBands r bandname) := by
    unfold findWavelengths
    cases bandname with
    | none => rfl
    | some b =>
      by_cases hb : b = ""
      · subst hb; rfl
      · simp only [ne_eq, hb, not_false_eq_true, if_true, askedBands]
  rw [e]
  generalize askedBands r bandname = bs at hc hex
  induction bs with
  | nil => exact ⟨rfl, .nil⟩
  | cons b bs ih =>
    obtain ⟨l, hl, hgood⟩ := range_good r det b (w b) (ρ b) t (hc b (by simp)) (hex b (by simp))
    obtain ⟨h1, h2⟩ := ih (fun b' hb' => hc b' (by simp [hb'])) (fun b' hb' => hex b' (by simp [hb']))
    unfold printRanges
    rw [hl]
    exact ⟨h1, .cons ⟨rfl, hgood⟩ h2⟩

/-- C126: at the first band without a sample above the threshold the program stops with an
IndexError, after printing exactly the bands before it. -/
theorem C126_stops (r : Reader XF) (det : String) (t : ℝ) (bandname : Option String)
    (pre post : List String) (b : String) (hb : askedBands r bandname = pre ++ b :: post)
    (w ρ : String → List ℝ) (hc : ∀ b' ∈ pre ++ [b], HasBandCurve r det b' (w b') (ρ b'))
    (hex : ∀ b' ∈ pre, ∃ v ∈ ρ b', t < v) (hno : ∀ v ∈ ρ b, v ≤ t) :
    (findWavelengths (.ok r) bandname det (fin t)).2 = .error .indexError ∧
    (findWavelengths (.ok r) bandname det (fin t)).1.map Prod.fst = pre := by
  have e : findWavelengths (.ok r) bandname det (fin t) = printRanges r det (fin t) (askedBands r bandname) := by
    unfold findWavelengths
    cases bandname with
    | none => rfl
    | some b =>
      by_cases hb : b = ""
      · subst hb; rfl
      · simp only [ne_eq, hb, not_false_eq_true, if_true, askedBands]
  rw [e, hb]
  clear e hb
  induction pre with
  | nil =>
    obtain ⟨band, d, h1, h2, h3, h4, h5, h6⟩ := hc b (by simp)
    have := (C29_fails_iff d (w b) (ρ b) h5 h3 h4 t).2 hno
    simp only [List.nil_append]
    unfold printRanges
    rw [h1]
    simp only [bind, Except.bind, getItem_ok_iff.2 h2, this]
    exact ⟨trivial, rfl⟩
  | cons a pre ih =>
    obtain ⟨l, hl, -⟩ := range_good r det a (w a) (ρ a) t (hc a (by simp)) (hex a (by simp))
    obtain ⟨h1, h2⟩ := ih (fun b' hb' => hc b' (by simp at hb' ⊢; exact Or.inr hb')) (fun b' hb' => hex b' (by simp [hb']))
    rw [List.cons_append]
    unfold printRanges
    rw [hl]
    refine ⟨h1, ?_⟩
    rw [List.map_cons, h2]

/-- a reader with two bands, the second weak everywhere -/
noncomputable def exScriptReader : Reader XF where
  filename := ("/rsr", "f.h5")
  platform_name := some "Suomi-NPP"
  instrument := .str "viirs"
  unit := "1e-6 m"
  si_scale := fin 1e-6
  wavespace := WAVE_LENGTH
  description := ""
  band_names := ["M1", "M2"]
  rsr := [("M1", [("det-1", [("wavelength", .arr (finL [0.4, 0.41])), ("response", .arr (finL [1, 0.5])),
            ("central_wavelength", .num (fin 0.405))])]),
          ("M2", [("det-1", [("wavelength", .arr (finL [0.44, 0.45])), ("response", .arr (finL [0.1, 0.1])),
            ("central_wavelength", .num (fin 0.445))])])]

theorem exScriptReader_M1 : HasBandCurve exScriptReader "det-1" "M1" [0.4, 0.41] [1, 0.5] :=
  ⟨_, _, by simp [exScriptReader, rsrDictGetItem, Dict.get?]; rfl, by simp [Dict.get?]; rfl,
    by simp [Dict.get?], by simp [Dict.get?], rfl, by simp [Increasing]; norm_num⟩

theorem exScriptReader_M2 : HasBandCurve exScriptReader "det-1" "M2" [0.44, 0.45] [0.1, 0.1] :=
  ⟨_, _, by simp [exScriptReader, rsrDictGetItem, Dict.get?]; rfl, by simp [Dict.get?]; rfl,
    by simp [Dict.get?], by simp [Dict.get?], rfl, by simp [Increasing]; norm_num⟩

/-- asked for the good band only, its range is printed; asked for all, the program stops after it -/
example : (findWavelengths (.ok exScriptReader) (some "M1") "det-1" (fin 0.15)).2 = .ok () ∧
    (findWavelengths (.ok exScriptReader) none "det-1" (fin 0.15)).1.map Prod.fst = ["M1"] := by
  constructor
  · refine (C126_all_ranges exScriptReader "det-1" 0.15 (some "M1") (fun _ => [0.4, 0.41]) (fun _ => [1, 0.5]) ?_ ?_).1
    · intro b hb
      simp [askedBands] at hb; subst hb
      exact exScriptReader_M1
    · intro b _; exact ⟨1, by simp, by norm_num⟩
  · refine (C126_stops exScriptReader "det-1" 0.15 none ["M1"] [] "M2" rfl
      (fun b => if b = "M1" then [0.4, 0.41] else [0.44, 0.45]) (fun b => if b = "M1" then [1, 0.5] else [0.1, 0.1]) ?_ ?_ ?_).2
    · intro b hb
      simp at hb
      rcases hb with rfl | rfl
      · exact exScriptReader_M1
      · exact exScriptReader_M2
    · intro b hb
      simp at hb; subst hb
      exact ⟨1, by simp, by norm_num⟩
    · intro v hv
      simp at hv; rw [hv]; norm_num

/-! ### C127: the composite plot draws every platform from its own data -/

/-- the curve drawn for its band from a reader's data: the alphabetically first detector, and
the samples whose response is not at most the minimum -/
def DrawnFrom (m : XF) (o : Reader XF) (c : Curve XF) : Prop :=
  c.platform = o.platform_name ∧ ∃ band det d w ρ, rsrDictGetItem o.instrument o.rsr c.band = .ok band ∧
    det ∈ band.keys ∧ (∀ k ∈ band.keys, ¬ k < det) ∧ band.get? det = some d ∧
    d.get? "wavelength" = some (.arr w) ∧ d.get? "response" = some (.arr ρ) ∧ w.length = ρ.length ∧
    c.points = (w.zip ρ).filter fun p => !(PyNum.le p.2 m)

theorem firstSorted_spec (ks : List String) (k : String) (h : firstSorted ks = .ok k) :
    k ∈ ks ∧ ∀ x ∈ ks, ¬ x < k := by
  cases ks with
  | nil => simp [firstSorted] at h
  | cons a ks =>
    simp only [firstSorted, Except.ok.injEq] at h
    have key : ∀ (ks : List String) (a : String),
        (ks.foldl (fun a b => if b < a then b else a) a = a ∨ ks.foldl (fun a b => if b < a then b else a) a ∈ ks) ∧
        ¬ a < ks.foldl (fun a b => if b < a then b else a) a ∧
        ∀ x ∈ ks, ¬ x < ks.foldl (fun a b => if b < a then b else a) a := by
      intro ks
      induction ks with
      | nil => intro a; exact ⟨Or.inl rfl, by simp, by simp⟩
      | cons b ks ih =>
        intro a
        obtain ⟨h1, h2, h3⟩ := ih (if b < a then b else a)
        simp only [List.foldl_cons]
        generalize ks.foldl (fun a b => if b < a then b else a) (if b < a then b else a) = z at h1 h2 h3
        by_cases hb : b < a
        · simp only [hb, if_true] at h1 h2 h3
          refine ⟨Or.inr ?_, ?_, ?_⟩
          · rcases h1 with rfl | h1 <;> simp [*]
          · intro ha; exact h2 (lt_trans hb ha)
          · intro x hx
            rcases List.mem_cons.1 hx with rfl | hx
            · exact h2
            · exact h3 x hx
        · simp only [hb, if_false] at h1 h2 h3
          refine ⟨?_, h2, ?_⟩
          · rcases h1 with rfl | h1 <;> simp [*]
          · intro x hx
            rcases List.mem_cons.1 hx with rfl | hx
            · intro hxz; exact h2 (lt_of_le_of_lt (not_lt.1 hb) hxz)
            · exact h3 x hx
    obtain ⟨h1, h2, h3⟩ := key ks a
    rw [h] at h1 h2 h3
    refine ⟨by rcases h1 with rfl | h1 <;> simp [*], ?_⟩
    intro x hx
    rcases List.mem_cons.1 hx with rfl | hx
    · exact h2
    · exact h3 x hx

theorem plotBand_curve (m : XF) (o : Reader XF) (b : String) (c : Curve XF) (h : plotBand m o b = .ok c) :
    DrawnFrom m o c ∧ c.band = b := by
  unfold plotBand at h
  cases h1 : rsrDictGetItem o.instrument o.rsr b with
  | error e => simp [h1, bind, Except.bind] at h
  | ok band =>
  cases h2 : firstSorted band.keys with
  | error e => simp [h1, h2, bind, Except.bind] at h
  | ok det =>
  cases h3 : band.get? det with
  | none => simp [h1, h2, h3, Dict.getItem, bind, Except.bind] at h
  | some d =>
  simp only [h1, h2, getItem_ok_iff.2 h3, bind, Except.bind] at h
  cases h4 : d.get? "response" with
  | none => simp [getArr, Dict.getItem, h4, bind, Except.bind] at h
  | some vr =>
  cases h5 : d.get? "wavelength" with
  | none => cases vr <;> simp [getArr, Dict.getItem, h4, h5, bind, Except.bind, pure, Except.pure] at h
  | some vw =>
  cases vr with
  | num x => simp [getArr, Dict.getItem, h4, bind, Except.bind] at h
  | dict x => simp [getArr, Dict.getItem, h4, bind, Except.bind] at h
  | arr ρ =>
  cases vw with
  | num x => simp [getArr, Dict.getItem, h4, h5, bind, Except.bind, pure, Except.pure] at h
  | dict x => simp [getArr, Dict.getItem, h4, h5, bind, Except.bind, pure, Except.pure] at h
  | arr w =>
  simp only [getArr, Dict.getItem, h4, h5, bind, Except.bind, pure, Except.pure, drawn] at h
  by_cases hl : w.length = ρ.length
  · simp only [hl, if_true, Except.ok.injEq] at h
    subst h
    obtain ⟨k1, k2⟩ := firstSorted_spec _ _ h2
    exact ⟨⟨rfl, band, det, d, w, ρ, h1, k1, k2, h3, h5, h4, hl, rfl⟩, rfl⟩
  · simp [hl] at h

theorem plotNew_curves (m : XF) (o : Reader XF) (ex : List String) (bs : List String) :
    ∀ prev cs prev', plotNew m o ex prev bs = .ok (cs, prev') →
      (∀ c ∈ cs, plotBand m o c.band = .ok c) ∧ prev' = prev ++ bs := by
  induction bs with
  | nil =>
    intro prev cs prev' h
    simp only [plotNew, Except.ok.injEq, Prod.mk.injEq] at h
    obtain ⟨rfl, rfl⟩ := h
    simp
  | cons b bs ih =>
    intro prev cs prev' h
    unfold plotNew at h
    split at h
    · cases h1 : plotBand m o b with
      | error e => rw [h1] at h; simp [bind, Except.bind] at h
      | ok c =>
        cases h2 : plotNew m o ex (prev ++ [b]) bs with
        | error e => simp [h1, h2, bind, Except.bind, pure, Except.pure] at h
        | ok q =>
          obtain ⟨more, pr⟩ := q
          simp only [h1, h2, bind, Except.bind, pure, Except.pure, Except.ok.injEq, Prod.mk.injEq] at h
          obtain ⟨rfl, rfl⟩ := h
          obtain ⟨i1, i2⟩ := ih _ _ _ h2
          refine ⟨?_, by rw [i2]; simp⟩
          intro x hx
          rcases List.mem_append.1 hx with hx | hx
          · simp at hx; subst hx
            rw [(plotBand_curve m o b x h1).2]; exact h1
          · exact i1 x hx
    · cases h2 : plotNew m o ex (prev ++ [b]) bs with
      | error e => simp [h2, bind, Except.bind, pure, Except.pure] at h
      | ok q =>
        obtain ⟨more, pr⟩ := q
        simp only [h2, bind, Except.bind, pure, Except.pure, Except.ok.injEq, Prod.mk.injEq, List.nil_append] at h
        obtain ⟨rfl, rfl⟩ := h
        obtain ⟨i1, i2⟩ := ih _ _ _ h2
        exact ⟨i1, by rw [i2]; simp⟩

theorem scan_curves (a : PlotArgs XF) (o : Reader XF) (fuel : Nat) : ∀ x prev cs,
    scanRange a o fuel x prev = some (.ok cs) → ∀ c ∈ cs, plotBand a.minimum_response o c.band = .ok c := by
  induction fuel with
  | zero => intro x prev cs h; simp [scanRange] at h
  | succ n ih =>
    intro x prev cs h
    unfold scanRange at h
    split at h
    · cases h1 : o.bandnameFromWavelength x a.wavel_res true with
      | error e => simp [h1] at h
      | ok bands =>
        cases h2 : plotNew a.minimum_response o a.excluded prev bands.toList with
        | error e => simp [h1, h2] at h
        | ok q =>
          obtain ⟨c1, pr⟩ := q
          simp only [h1, h2] at h
          cases h3 : scanRange a o n (x + a.wavel_res / 5.0) pr with
          | none => rw [h3] at h; simp at h
          | some r =>
            cases r with
            | error e => rw [h3] at h; simp at h
            | ok more =>
              simp only [h3, Option.some.injEq, Except.ok.injEq] at h
              subst h
              intro c hc
              rcases List.mem_append.1 hc with hc | hc
              · exact (plotNew_curves _ _ _ _ _ _ _ h2).1 c hc
              · exact ih _ _ _ h3 c hc
    · simp at h; subst h; simp

theorem mapM_curves (m : XF) (o : Reader XF) (bs : List String) : ∀ cs,
    bs.mapM (plotBand m o) = .ok cs → ∀ c ∈ cs, plotBand m o c.band = .ok c := by
  induction bs with
  | nil => intro cs h; simp [pure, Except.pure] at h; subst h; simp
  | cons b bs ih =>
    intro cs h
    rw [List.mapM_cons] at h
    cases h1 : plotBand m o b with
    | error e => simp [h1, bind, Except.bind] at h
    | ok c =>
      cases h2 : bs.mapM (plotBand m o) with
      | error e => simp [h1, h2, bind, Except.bind] at h
      | ok more =>
        simp only [h1, h2, bind, Except.bind, pure, Except.pure, Except.ok.injEq] at h
        subst h
        intro x hx
        rcases List.mem_cons.1 hx with rfl | hx
        · rw [(plotBand_curve m o b x h1).2]; exact h1
        · exact ih _ h2 x hx

theorem reader_curves (a : PlotArgs XF) (o : Reader XF) (fuel : Nat) (cs : List (Curve XF))
    (h : plotReader a o fuel = some (.ok cs)) : ∀ c ∈ cs, DrawnFrom a.minimum_response o c := by
  suffices hs : ∀ c ∈ cs, plotBand a.minimum_response o c.band = .ok c from
    fun c hc => (plotBand_curve _ _ _ _ (hs c hc)).1
  unfold plotReader at h
  simp only at h
  split at h
  · rename_i x _
    simp only [Option.some.injEq] at h
    cases h1 : o.bandnameFromWavelength x 0.25 true with
    | error e => rw [h1] at h; simp [bind, Except.bind] at h
    | ok bands =>
      rw [h1] at h
      simp only [bind, Except.bind] at h
      exact mapM_curves _ _ _ _ h
  · rename_i b _ _
    simp only [Option.some.injEq] at h
    cases h1 : plotBand a.minimum_response o b with
    | error e => simp [h1, bind, Except.bind] at h
    | ok c =>
      simp only [h1, bind, Except.bind, pure, Except.pure, Except.ok.injEq] at h
      subst h
      intro x hx
      simp at hx; subst hx
      rw [(plotBand_curve _ o b x h1).2]; exact h1
  · exact scan_curves _ _ _ _ _ _ h

/-- the instrument table says the platform carries the sensor, or does not know the platform -/
def Carries (platform sensor : String) : Prop :=
  INSTRUMENTS.get? platform = none ∨ INSTRUMENTS.get? platform = some (.one sensor) ∨
    ∃ l, INSTRUMENTS.get? platform = some (.many l) ∧ sensor ∈ l

theorem sensorOf_carries (p s : String) (h : Carries p s) : sensorOf p s = true := by
  unfold sensorOf
  rcases h with h | h | ⟨l, h, hl⟩
  · simp [h]
  · simp [h]
  · simp [h, hl]

/-- an attempt to open a reader that the program survives -/
def Unreadable (r : Py (Reader XF)) : Prop :=
  r = .error .ioError ∨ r = .error .fileNotFound ∨ r = .error .httpError

theorem findReader_spec (openReader : String → String → Py (Reader XF)) (p : String) (ss : List String) :
    ∀ rsr r, findReader openReader p rsr ss = .ok r →
      ((∀ s ∈ ss, sensorOf p s = false) ∧ r = rsr) ∨
      (∃ s ∈ ss, ∃ o, openReader p s = .ok o ∧ r = some (some o)) ∨
      (r = some none ∧ ∀ s ∈ ss, sensorOf p s = true → Unreadable (openReader p s)) := by
  induction ss with
  | nil => intro rsr r h; simp [findReader] at h; left; simp [h]
  | cons s ss ih =>
    intro rsr r h
    unfold findReader at h
    by_cases hs : sensorOf p s = true
    · simp only [hs, not_true_eq_false, if_false] at h
      cases ho : openReader p s with
      | ok o =>
        simp only [ho, Except.ok.injEq] at h
        exact Or.inr (Or.inl ⟨s, by simp, o, ho, h.symm⟩)
      | error e =>
        simp only [ho] at h
        cases he : isIOError e with
        | false => simp [he] at h
        | true =>
          simp only [he, if_true] at h
          have hu : Unreadable (openReader p s) := by
            rw [ho]; unfold Unreadable
            cases e <;> simp_all [isIOError]
          rcases ih _ _ h with ⟨h1, h2⟩ | ⟨s', hs', o, h1, h2⟩ | ⟨h1, h2⟩
          · right; right
            refine ⟨h2, fun s' hs' ht => ?_⟩
            rcases List.mem_cons.1 hs' with rfl | hs'
            · exact hu
            · rw [h1 s' hs'] at ht; simp at ht
          · exact Or.inr (Or.inl ⟨s', by simp [hs'], o, h1, h2⟩)
          · right; right
            refine ⟨h1, fun s' hs' ht => ?_⟩
            rcases List.mem_cons.1 hs' with rfl | hs'
            · exact hu
            · exact h2 s' hs' ht
    · simp only [hs, if_true] at h
      rcases ih _ _ (by simpa using h) with ⟨h1, h2⟩ | ⟨s', hs', o, h1, h2⟩ | ⟨h1, h2⟩
      · left
        refine ⟨fun s' hs' => ?_, h2⟩
        rcases List.mem_cons.1 hs' with rfl | hs'
        · simpa using hs
        · exact h1 s' hs'
      · exact Or.inr (Or.inl ⟨s', by simp [hs'], o, h1, h2⟩)
      · right; right
        refine ⟨h1, fun s' hs' ht => ?_⟩
        rcases List.mem_cons.1 hs' with rfl | hs'
        · exact absurd ht hs
        · exact h2 s' hs' ht

/-- what one platform contributes to a figure: the curves of a reader for that platform, or
nothing because no sensor it carries can be read -/
def Contribution (openReader : String → String → Py (Reader XF)) (a : PlotArgs XF) (fuel : Nat) (p : String)
    (cs : List (Curve XF)) : Prop :=
  (∃ s ∈ a.sensors, ∃ o, openReader p s = .ok o ∧ plotReader a o fuel = some (.ok cs)) ∨
  (cs = [] ∧ ∀ s ∈ a.sensors, Carries p s → Unreadable (openReader p s))

theorem plotPlatforms_spec (openReader : String → String → Py (Reader XF)) (a : PlotArgs XF) (fuel : Nat)
    (ps : List String) : (∀ p ∈ ps, ∃ s ∈ a.sensors, Carries p s) → ∀ rsr cs some?,
    plotPlatforms openReader a fuel rsr ps = some (.ok (cs, some?)) →
    ∃ chunks, List.Forall₂ (Contribution openReader a fuel) ps chunks ∧ cs = chunks.flatten ∧
      (some? = false → ∀ p ∈ ps, ∀ s ∈ a.sensors, Carries p s → Unreadable (openReader p s)) := by
  induction ps with
  | nil =>
    intro _ rsr cs sm h
    simp [plotPlatforms] at h
    exact ⟨[], .nil, by simp [← h.1], by simp⟩
  | cons p ps ih =>
    intro hc rsr cs sm h
    unfold plotPlatforms at h
    cases hf : findReader openReader p rsr a.sensors with
    | error e => simp [hf] at h
    | ok r =>
      rcases findReader_spec openReader p a.sensors rsr r hf with ⟨h1, -⟩ | ⟨s, hs, o, h1, h2⟩ | ⟨h1, h2⟩
      · obtain ⟨s, hs, hsc⟩ := hc p (by simp)
        have := h1 s hs
        rw [sensorOf_carries p s hsc] at this
        simp at this
      · subst h2
        simp only [hf] at h
        cases h3 : plotReader a o fuel with
        | none => simp [h3] at h
        | some q =>
          cases q with
          | error e => simp [h3] at h
          | ok c1 =>
            simp only [h3] at h
            cases h4 : plotPlatforms openReader a fuel (some (some o)) ps with
            | none => simp [h4] at h
            | some q =>
              cases q with
              | error e => simp [h4] at h
              | ok q =>
                obtain ⟨more, sm'⟩ := q
                simp only [h4, Option.some.injEq, Except.ok.injEq, Prod.mk.injEq] at h
                obtain ⟨rfl, rfl⟩ := h
                obtain ⟨ch, i1, i2, -⟩ := ih (fun p hp => hc p (by simp [hp])) _ _ _ h4
                exact ⟨c1 :: ch, .cons (Or.inl ⟨s, hs, o, h1, h3⟩) i1, by simp [i2], by simp⟩
      · subst h1
        simp only [hf] at h
        obtain ⟨ch, i1, i2, i3⟩ := ih (fun p hp => hc p (by simp [hp])) _ _ _ h
        have hun : ∀ s ∈ a.sensors, Carries p s → Unreadable (openReader p s) :=
          fun s hs hsc => h2 s hs (sensorOf_carries p s hsc)
        refine ⟨[] :: ch, .cons (Or.inr ⟨rfl, hun⟩) i1, by simp [i2], fun hsm p' hp' => ?_⟩
        rcases List.mem_cons.1 hp' with rfl | hp'
        · exact hun
        · exact i3 hsm p' hp'

/-- C127 is false: if none of the sensors belongs to a platform, the previous platform is drawn
again in its place.  Asked for VIIRS on Suomi-NPP and Meteosat-9, the program draws Suomi-NPP
twice, whatever the data. -/
theorem C127_previous_platform_again (openReader : String → String → Py (Reader XF)) (a : PlotArgs XF)
    (hp : a.platform_names = ["Suomi-NPP", "Meteosat-9"]) (hs : a.sensors = ["viirs"])
    (o : Reader XF) (ho : openReader "Suomi-NPP" "viirs" = .ok o) (fuel : Nat) (cs : List (Curve XF))
    (hcs : plotReader a o fuel = some (.ok cs)) :
    compositePlot openReader a fuel = some (.ok (.figure (cs ++ cs))) := by
  have e1 : sensorOf "Suomi-NPP" "viirs" = true := by decide +kernel
  have e2 : sensorOf "Meteosat-9" "viirs" = false := by decide +kernel
  unfold compositePlot
  simp [hp, hs, plotPlatforms, findReader, e1, e2, ho, hcs]

/-- C127 is false: with such a platform first, the program fails with a NameError. -/
theorem C127_name_error (openReader : String → String → Py (Reader XF)) (a : PlotArgs XF)
    (hp : a.platform_names = ["Meteosat-9", "Suomi-NPP"]) (hs : a.sensors = ["viirs"]) (fuel : Nat) :
    compositePlot openReader a fuel = some (.error .nameError) := by
  have e2 : sensorOf "Meteosat-9" "viirs" = false := by decide +kernel
  unfold compositePlot
  simp [hp, hs, plotPlatforms, findReader, e2]

/-- C127, part that holds: if every platform carries one of the sensors, a figure consists of
the curves of the platforms in order, each drawn from its own reader with that reader's
platform name (platforms without readable data are left out); without a figure none can be read.
Missing: platforms carrying none of the sensors (refuted above). -/
theorem C127_own_data_partial (openReader : String → String → Py (Reader XF)) (a : PlotArgs XF) (fuel : Nat)
    (hc : ∀ p ∈ a.platform_names, ∃ s ∈ a.sensors, Carries p s) (e : PlotEnd XF)
    (h : compositePlot openReader a fuel = some (.ok e)) :
    (e = .nothing ∧ ∀ p ∈ a.platform_names, ∀ s ∈ a.sensors, Carries p s → Unreadable (openReader p s)) ∨
    ∃ chunks, e = .figure chunks.flatten ∧
      List.Forall₂ (Contribution openReader a fuel) a.platform_names chunks ∧
      List.Forall₂ (fun p cs => ∀ c ∈ cs, ∃ s ∈ a.sensors, ∃ o, openReader p s = .ok o ∧
        DrawnFrom a.minimum_response o c) a.platform_names chunks := by
  unfold compositePlot at h
  cases h1 : plotPlatforms openReader a fuel none a.platform_names with
  | none => simp [h1] at h
  | some q =>
    cases q with
    | error e => simp [h1] at h
    | ok q =>
      obtain ⟨cs, sm⟩ := q
      obtain ⟨ch, i1, i2, i3⟩ := plotPlatforms_spec openReader a fuel _ hc _ _ _ h1
      cases sm with
      | false =>
        simp only [h1, Option.some.injEq, Except.ok.injEq] at h
        exact Or.inl ⟨h.symm, i3 rfl⟩
      | true =>
        simp only [h1, Option.some.injEq, Except.ok.injEq] at h
        refine Or.inr ⟨ch, by rw [← h, i2], i1, i1.imp ?_⟩
        intro p c hpc x hx
        rcases hpc with ⟨s, hs, o, h1, h2⟩ | ⟨rfl, -⟩
        · exact ⟨s, hs, o, h1, reader_curves a o fuel _ h2 x hx⟩
        · simp at hx

/-- what the examples ask for: one band on Suomi-NPP -/
noncomputable def exPlotArgs : PlotArgs XF where
  platform_names := ["Suomi-NPP"]
  sensors := ["avhrr-3", "viirs"]
  minimum_response := fin 0.6
  wavel_res := fin 0.005
  bandname := some "M1"
  wavelength := none
  range := (fin 0.4, fin 0.5)
  excluded := []

/-- the strong sample of the band is drawn, under its platform -/
example : compositePlot (fun _ _ => .ok exScriptReader) exPlotArgs 0 =
    some (.ok (.figure [⟨some "Suomi-NPP", "M1", [(fin 0.4, fin 1)]⟩])) := by
  have e1 : sensorOf "Suomi-NPP" "avhrr-3" = false := by decide +kernel
  have e2 : sensorOf "Suomi-NPP" "viirs" = true := by decide +kernel
  simp [compositePlot, exPlotArgs, plotPlatforms, findReader, e1, e2, plotReader, plotBand, exScriptReader,
    rsrDictGetItem, Dict.get?, Dict.keys, firstSorted, Dict.getItem, getArr, drawn, bind, Except.bind, pure,
    Except.pure, finL]
  norm_num

/-- a platform without the sensor: the previous platform twice, or NameError -/
example (cs : List (Curve XF)) (fuel : Nat)
    (hcs : plotReader { exPlotArgs with platform_names := ["Suomi-NPP", "Meteosat-9"], sensors := ["viirs"] } exScriptReader
      fuel = some (.ok cs)) :
    compositePlot (fun _ _ => .ok exScriptReader)
      { exPlotArgs with platform_names := ["Suomi-NPP", "Meteosat-9"], sensors := ["viirs"] } fuel =
      some (.ok (.figure (cs ++ cs))) ∧
    compositePlot (fun _ _ => .ok exScriptReader)
      { exPlotArgs with platform_names := ["Meteosat-9", "Suomi-NPP"], sensors := ["viirs"] } fuel = some (.error .nameError) :=
  ⟨C127_previous_platform_again _ _ rfl rfl exScriptReader rfl fuel cs hcs, C127_name_error _ _ rfl rfl fuel⟩

example : ∀ p ∈ exPlotArgs.platform_names, ∃ s ∈ exPlotArgs.sensors, Carries p s := by
  intro p hp
  simp [exPlotArgs] at hp; subst hp
  exact ⟨"viirs", by simp [exPlotArgs], Or.inr (Or.inl (by decide +kernel))⟩

/-! ### C128: the scan of a wavelength range -/

theorem bandsNear_congr (i : InstVal) (x eps : XF) (f g : String → Py (BandRsr XF)) (l : List String)
    (h : ∀ c ∈ l, f c = g c) : bandsNear i x eps f l = bandsNear i x eps g l := by
  induction l with
  | nil => rfl
  | cons c l ih =>
    unfold bandsNear
    rw [h c (by simp), ih (fun c' hc' => h c' (by simp [hc']))]

open Classical in
theorem reader_bands (o : Reader XF) (sensor : String) (hi : o.instrument = .str sensor) (cw : String → ℝ)
    (hcw : CentralOf o.rsr cw) (x res : ℝ) :
    ∃ bm, o.bandnameFromWavelength (fin x) (fin res) true = .ok bm ∧
      bm.toList = (o.rsr.keys.filter fun c => decide (|cw c - x| < min res 2)).map (stdName sensor) := by
  unfold Reader.bandnameFromWavelength
  rw [hi, bandsNear_congr _ _ _ _ (o.rsr.getItem ·) _ (by
    intro c hc
    obtain ⟨b, det, h1, -⟩ := hcw c hc
    simp [rsrDictGetItem, h1, Dict.getItem]), bandsNear_eq sensor x res o.rsr cw hcw o.rsr.keys (fun c hc => hc)]
  simp only [bind, Except.bind]
  generalize (o.rsr.keys.filter fun c => decide (|cw c - x| < min res 2)).map (stdName sensor) = l
  match l with
  | [] => exact ⟨_, rfl, rfl⟩
  | [b] => exact ⟨_, rfl, rfl⟩
  | a :: b :: l => exact ⟨_, rfl, rfl⟩

theorem plotNew_spec (m : XF) (o : Reader XF) (ex : List String) (bs : List String) :
    (∀ b ∈ bs, ∃ c, plotBand m o b = .ok c) → ∀ prev, ∃ cs, plotNew m o ex prev bs = .ok (cs, prev ++ bs) ∧
      (cs.map Curve.band).Nodup ∧ ∀ b, b ∈ cs.map Curve.band ↔ b ∈ bs ∧ b ∉ ex ∧ b ∉ prev := by
  induction bs with
  | nil => intro _ prev; exact ⟨[], by simp [plotNew], by simp, by simp⟩
  | cons b bs ih =>
    intro h prev
    obtain ⟨c, hc⟩ := h b (by simp)
    have hcb := (plotBand_curve m o b c hc).2
    obtain ⟨more, h1, h2, h3⟩ := ih (fun b' hb' => h b' (by simp [hb'])) (prev ++ [b])
    unfold plotNew
    by_cases hb : ¬ ex.contains b = true ∧ ¬ prev.contains b = true
    · rw [if_pos hb]
      simp only [hc, h1, bind, Except.bind, pure, Except.pure]
      simp only [List.contains_iff_mem, decide_eq_true_eq] at hb
      refine ⟨c :: more, by simp, ?_, ?_⟩
      · rw [List.map_cons, List.nodup_cons]
        refine ⟨?_, h2⟩
        rw [h3, hcb]
        simp
      · intro b'
        rw [List.map_cons, List.mem_cons, h3, hcb]
        simp only [List.mem_append, List.mem_cons, List.not_mem_nil, or_false, not_or]
        constructor
        · rintro (rfl | ⟨h, h', h'', -⟩)
          · exact ⟨Or.inl rfl, hb.1, hb.2⟩
          · exact ⟨Or.inr h, h', h''⟩
        · rintro ⟨h | h, h', h''⟩
          · exact Or.inl h
          · by_cases hbb : b' = b
            · exact Or.inl hbb
            · exact Or.inr ⟨h, h', h'', hbb⟩
    · rw [if_neg hb]
      simp only [h1, bind, Except.bind, pure, Except.pure]
      simp only [List.contains_iff_mem, decide_eq_true_eq, not_and_or, not_not] at hb
      refine ⟨more, by simp, h2, ?_⟩
      intro b'
      rw [h3]
      simp only [List.mem_append, List.mem_cons, List.not_mem_nil, or_false, not_or]
      constructor
      · rintro ⟨h, h', h'', -⟩
        exact ⟨Or.inr h, h', h''⟩
      · rintro ⟨h | h, h', h''⟩
        · subst h; rcases hb with hb | hb
          · exact absurd hb h'
          · exact absurd hb h''
        · refine ⟨h, h', h'', ?_⟩
          rintro rfl
          rcases hb with hb | hb
          · exact absurd hb h'
          · exact absurd hb h''

/-- the data the scan works on: central wavelengths, and bands that can be drawn under the name
by which they are found -/
structure Plottable (a : PlotArgs XF) (o : Reader XF) (sensor : String) (cw : String → ℝ) : Prop where
  inst : o.instrument = .str sensor
  central : CentralOf o.rsr cw
  draw : ∀ c ∈ o.rsr.keys, ∃ cv, plotBand a.minimum_response o (stdName sensor c) = .ok cv

theorem scan_spec (a : PlotArgs XF) (o : Reader XF) (sensor : String) (cw : String → ℝ)
    (hp : Plottable a o sensor cw) (hi res : ℝ) (hhi : a.range.2 = fin hi) (hres : a.wavel_res = fin res)
    (h0 : 0 < res) (n : Nat) : ∀ x prev fuel, hi - x ≤ n * (res / 5) → n < fuel →
    ∃ cs, scanRange a o fuel (fin x) prev = some (.ok cs) ∧ (cs.map Curve.band).Nodup ∧
      ∀ b, b ∈ cs.map Curve.band ↔ b ∉ a.excluded ∧ b ∉ prev ∧
        ∃ k : ℕ, x + k * (res / 5) < hi ∧ ∃ c ∈ o.rsr.keys, stdName sensor c = b ∧
          |cw c - (x + k * (res / 5))| < min res 2 := by
  classical
  have hstep : ∀ x : ℝ, (fin x : XF) + a.wavel_res / 5.0 = fin (x + res / 5) := by
    intro x
    rw [hres, show (5.0 : XF) = fin 5 by simp only [ofSci_eq]; norm_num, fin_div _ (by norm_num), fin_add]
  have hbig : ∀ x : ℝ, hi ≤ x → ∀ k : ℕ, ¬ x + k * (res / 5) < hi := by
    intro x hx k
    have : 0 ≤ (k : ℝ) * (res / 5) := by positivity
    linarith
  induction n with
  | zero =>
    intro x prev fuel hx hf
    obtain ⟨f, rfl⟩ : ∃ f, fuel = f + 1 := ⟨fuel - 1, by omega⟩
    have hx' : hi ≤ x := by simp at hx; linarith
    unfold scanRange
    rw [hhi, lt_fin, if_neg (by simp [hx'])]
    exact ⟨[], rfl, by simp, fun b => by simp [fun k => hbig x hx' k]⟩
  | succ n ih =>
    intro x prev fuel hx hf
    obtain ⟨f, rfl⟩ : ∃ f, fuel = f + 1 := ⟨fuel - 1, by omega⟩
    unfold scanRange
    rw [hhi, lt_fin]
    by_cases hlt : x < hi
    · rw [if_pos (by simpa using hlt)]
      obtain ⟨bm, hb1, hb2⟩ := reader_bands o sensor hp.inst cw hp.central x res
      rw [hres, hb1]
      simp only
      obtain ⟨c1, hc1, hc2, hc3⟩ := plotNew_spec a.minimum_response o a.excluded bm.toList (by
        rw [hb2]
        intro b hb
        obtain ⟨c, hc, rfl⟩ := List.mem_map.1 hb
        exact hp.draw c (List.mem_of_mem_filter hc)) prev
      rw [hc1]
      simp only
      rw [← hres, hstep]
      obtain ⟨cs, i1, i2, i3⟩ := ih (x + res / 5) (prev ++ bm.toList) f (by push_cast at hx; linarith) (by omega)
      rw [i1]
      refine ⟨c1 ++ cs, rfl, ?_, ?_⟩
      · rw [List.map_append, List.nodup_append]
        refine ⟨hc2, i2, ?_⟩
        rintro b hb b' hb' rfl
        rw [hc3] at hb
        rw [i3] at hb'
        exact hb'.2.1 (by simp [hb.1])
      · intro b
        rw [List.map_append, List.mem_append, hc3, i3, hb2]
        simp only [List.mem_append, List.mem_map, List.mem_filter, decide_eq_true_eq, not_or]
        constructor
        · rintro (⟨⟨c, ⟨hc, hc'⟩, rfl⟩, h', h''⟩ | ⟨h', ⟨h'', -⟩, k, hk, c, hc, hcb, hcd⟩)
          · exact ⟨h', h'', 0, by simpa using hlt, c, hc, rfl, by simpa using hc'⟩
          · refine ⟨h', h'', k + 1, by push_cast; linarith, c, hc, hcb, ?_⟩
            rw [show x + ((k + 1 : ℕ) : ℝ) * (res / 5) = x + res / 5 + k * (res / 5) by push_cast; ring]
            exact hcd
        · rintro ⟨h', h'', k, hk, c, hc, hcb, hcd⟩
          by_cases hnow : ∃ c, (c ∈ o.rsr.keys ∧ |cw c - x| < min res 2) ∧ stdName sensor c = b
          · exact Or.inl ⟨hnow, h', h''⟩
          · right
            refine ⟨h', ⟨h'', hnow⟩, ?_⟩
            cases k with
            | zero => exact absurd ⟨c, ⟨hc, by simpa using hcd⟩, hcb⟩ hnow
            | succ k =>
              have e : x + ((k + 1 : ℕ) : ℝ) * (res / 5) = x + res / 5 + k * (res / 5) := by push_cast; ring
              rw [e] at hk hcd
              exact ⟨k, hk, c, hc, hcb, hcd⟩
    · rw [if_neg (by simpa using hlt)]
      have hx' : hi ≤ x := not_lt.1 hlt
      refine ⟨[], rfl, by simp, fun b => ?_⟩
      constructor
      · intro h; simp at h
      · rintro ⟨-, -, k, hk, -⟩; exact absurd hk (hbig x hx' k)

/-- C128: with a positive resolution the scan of a wavelength range ends, draws no band twice
and no excluded one, only bands whose central wavelength is closer to the range than the
resolution, and (for resolutions up to 10 micron) every band with its central wavelength in the
range that is not excluded. -/
theorem C128_range_covered (a : PlotArgs XF) (o : Reader XF) (sensor : String) (cw : String → ℝ)
    (hp : Plottable a o sensor cw) (lo hi res : ℝ) (hr : a.range = (fin lo, fin hi)) (hres : a.wavel_res = fin res)
    (h0 : 0 < res) (hband : a.bandname = none) (hwvl : a.wavelength = none) :
    ∃ N cs, (∀ fuel ≥ N, plotReader a o fuel = some (.ok cs)) ∧ (cs.map Curve.band).Nodup ∧
      (∀ c ∈ cs, DrawnFrom a.minimum_response o c ∧ c.band ∉ a.excluded ∧
        ∃ ch ∈ o.rsr.keys, stdName sensor ch = c.band ∧ lo - res < cw ch ∧ cw ch < hi + res) ∧
      (res ≤ 10 → ∀ ch ∈ o.rsr.keys, lo ≤ cw ch → cw ch < hi → stdName sensor ch ∉ a.excluded →
        stdName sensor ch ∈ cs.map Curve.band) := by
  have hhi : a.range.2 = fin hi := by rw [hr]
  have hlo : a.range.1 = fin lo := by rw [hr]
  obtain ⟨n, hn⟩ := exists_nat_ge ((hi - lo) / (res / 5))
  have hn' : hi - lo ≤ n * (res / 5) := by
    rwa [div_le_iff₀ (by positivity)] at hn
  obtain ⟨cs, h1, h2, h3⟩ := scan_spec a o sensor cw hp hi res hhi hres h0 n lo [] (n + 1) hn' (by omega)
  have hall : ∀ fuel ≥ n + 1, plotReader a o fuel = some (.ok cs) := by
    intro fuel hf
    obtain ⟨cs', h1', h2', h3'⟩ := scan_spec a o sensor cw hp hi res hhi hres h0 n lo [] fuel hn' (by omega)
    have e : plotReader a o fuel = scanRange a o fuel a.range.1 [] := by
      unfold plotReader; simp [hband, hwvl]
    rw [e, hlo, h1']
    have hmono : ∀ f x prev r, scanRange a o f x prev = some r → scanRange a o (f + 1) x prev = some r := by
      intro f
      induction f with
      | zero => intro x prev r h; simp [scanRange] at h
      | succ f ih =>
        intro x prev r h
        unfold scanRange at h ⊢
        split at h
        · rename_i hlt
          rw [if_pos hlt]
          cases g1 : o.bandnameFromWavelength x a.wavel_res true with
          | error e => simp only [g1] at h ⊢; exact h
          | ok bands =>
            cases g2 : plotNew a.minimum_response o a.excluded prev bands.toList with
            | error e => simp only [g1, g2] at h ⊢; exact h
            | ok q =>
              obtain ⟨q1, q2⟩ := q
              simp only [g1, g2] at h ⊢
              cases g3 : scanRange a o f (x + a.wavel_res / 5.0) q2 with
              | none => rw [g3] at h; simp at h
              | some r' =>
                rw [g3] at h
                rw [ih _ _ _ g3]
                exact h
        · rename_i hlt
          rw [if_neg hlt]; exact h
    have hge : ∀ k, scanRange a o (n + 1 + k) (fin lo) [] = some (.ok cs) := by
      intro k
      induction k with
      | zero => exact h1
      | succ k ih => exact hmono _ _ _ _ ih
    have := hge (fuel - (n + 1))
    rw [show n + 1 + (fuel - (n + 1)) = fuel by omega, h1'] at this
    exact this
  refine ⟨n + 1, cs, hall, h2, ?_, ?_⟩
  · intro c hc
    obtain ⟨h', -, k, hk, ch, hch, hb, hd⟩ := (h3 c.band).1 (List.mem_map_of_mem hc)
    refine ⟨reader_curves a o _ cs (hall (n + 1) le_rfl) c hc, h', ch, hch, hb, ?_, ?_⟩
    · have := (abs_lt.1 (lt_of_lt_of_le hd (min_le_left _ _))).1
      have : 0 ≤ (k : ℝ) * (res / 5) := by positivity
      linarith
    · have := (abs_lt.1 (lt_of_lt_of_le hd (min_le_left _ _))).2
      linarith
  · intro hmax ch hch hlo' hhi' hex
    rw [h3]
    refine ⟨hex, by simp, ⌊(cw ch - lo) / (res / 5)⌋₊, ?_, ch, hch, rfl, ?_⟩
    · have := Nat.floor_le (show 0 ≤ (cw ch - lo) / (res / 5) from div_nonneg (by linarith) (by positivity))
      rw [le_div_iff₀ (by positivity)] at this
      linarith
    · have g1 := Nat.floor_le (show 0 ≤ (cw ch - lo) / (res / 5) from div_nonneg (by linarith) (by positivity))
      have g2 := Nat.lt_floor_add_one ((cw ch - lo) / (res / 5))
      rw [le_div_iff₀ (by positivity)] at g1
      rw [div_lt_iff₀ (by positivity)] at g2
      rw [abs_lt]
      have : res / 5 ≤ min res 2 := le_min (by linarith) (by linarith)
      constructor <;> nlinarith

/-- C128: with a resolution that is zero or negative the scan of a non-empty range never ends. -/
theorem C128_never_ends (a : PlotArgs XF) (o : Reader XF) (sensor : String) (cw : String → ℝ)
    (hp : Plottable a o sensor cw) (hi res : ℝ) (hhi : a.range.2 = fin hi) (hres : a.wavel_res = fin res)
    (h0 : res ≤ 0) (fuel : Nat) : ∀ (x : ℝ) (prev : List String), x < hi → scanRange a o fuel (fin x) prev = none := by
  classical
  induction fuel with
  | zero => intro x prev _; rfl
  | succ f ih =>
    intro x prev hx
    unfold scanRange
    rw [hhi, lt_fin, if_pos (by simpa using hx)]
    obtain ⟨bm, hb1, hb2⟩ := reader_bands o sensor hp.inst cw hp.central x res
    rw [hres, hb1]
    simp only
    obtain ⟨c1, hc1, -⟩ := plotNew_spec a.minimum_response o a.excluded bm.toList (by
      rw [hb2]
      intro b hb
      obtain ⟨c, hc, rfl⟩ := List.mem_map.1 hb
      exact hp.draw c (List.mem_of_mem_filter hc)) prev
    rw [hc1]
    simp only
    rw [show (5.0 : XF) = fin 5 by simp only [ofSci_eq]; norm_num, fin_div _ (by norm_num), fin_add,
      ih (x + res / 5) _ (by linarith)]

/-- the same program scanning 0.4-0.5 micron, without M1 -/
noncomputable def exScanArgs : PlotArgs XF := { exPlotArgs with bandname := none, excluded := ["M1"] }

theorem exScan_plottable : Plottable exScanArgs exScriptReader "viirs" (fun c => if c = "M1" then 0.405 else 0.445) where
  inst := rfl
  central := by
    intro ch hch
    simp only [exScriptReader, Dict.keys, List.map_cons, List.map_nil, List.mem_cons, List.not_mem_nil,
      or_false] at hch
    rcases hch with rfl | rfl
    · exact ⟨_, _, rfl, rfl, by simp [Dict.get?]⟩
    · exact ⟨_, _, rfl, rfl, by simp [Dict.get?]⟩
  draw := by
    intro ch hch
    simp only [exScriptReader, Dict.keys, List.map_cons, List.map_nil, List.mem_cons, List.not_mem_nil,
      or_false] at hch
    have e1 : stdName "viirs" "M1" = "M1" := by decide +kernel
    have e2 : stdName "viirs" "M2" = "M2" := by decide +kernel
    rcases hch with rfl | rfl
    · rw [e1]
      exact ⟨_, by simp [plotBand, exScriptReader, rsrDictGetItem, Dict.get?, Dict.keys, firstSorted, Dict.getItem,
        getArr, drawn, bind, Except.bind, pure, Except.pure, finL]; rfl⟩
    · rw [e2]
      exact ⟨_, by simp [plotBand, exScriptReader, rsrDictGetItem, Dict.get?, Dict.keys, firstSorted, Dict.getItem,
        getArr, drawn, bind, Except.bind, pure, Except.pure, finL]; rfl⟩

/-- a step of zero -/
theorem exScan_plottable0 : Plottable { exScanArgs with wavel_res := fin 0 } exScriptReader "viirs"
    (fun c => if c = "M1" then 0.405 else 0.445) :=
  ⟨exScan_plottable.1, exScan_plottable.2, exScan_plottable.3⟩

example (fuel : Nat) : scanRange { exScanArgs with wavel_res := fin 0 } exScriptReader fuel (fin 0.4) [] = none :=
  C128_never_ends _ _ "viirs" _ exScan_plottable0 0.5 0 rfl rfl le_rfl fuel 0.4 [] (by norm_num)

/-- M2 is drawn, M1 is not -/
example : ∃ N cs, (∀ fuel ≥ N, plotReader exScanArgs exScriptReader fuel = some (.ok cs)) ∧
    "M2" ∈ cs.map Curve.band ∧ "M1" ∉ cs.map Curve.band := by
  obtain ⟨N, cs, h1, -, h2, h3⟩ := C128_range_covered exScanArgs exScriptReader "viirs" _ exScan_plottable 0.4 0.5 0.005
    rfl rfl (by norm_num) rfl rfl
  have e2 : stdName "viirs" "M2" = "M2" := by decide +kernel
  refine ⟨N, cs, h1, ?_, ?_⟩
  · have := h3 (by norm_num) "M2" (by simp [exScriptReader, Dict.keys]) (by simp; norm_num) (by simp; norm_num)
      (by rw [e2]; simp [exScanArgs])
    rwa [e2] at this
  · intro h
    obtain ⟨c, hc, hb⟩ := List.mem_map.1 h
    have := (h2 c hc).2.1
    rw [hb] at this
    simp [exScanArgs] at this

/-! ### C129: plot_rsr -/

theorem mapM_forall₂ {β γ : Type} (f : β → Py γ) (l : List β) : ∀ r, l.mapM f = .ok r →
    List.Forall₂ (fun b c => f b = .ok c) l r := by
  induction l with
  | nil => intro r h; simp [pure, Except.pure] at h; subst h; exact .nil
  | cons b l ih =>
    intro r h
    rw [List.mapM_cons] at h
    cases h1 : f b with
    | error e => simp [h1, bind, Except.bind] at h
    | ok c =>
      cases h2 : l.mapM f with
      | error e => simp [h1, h2, bind, Except.bind] at h
      | ok more =>
        simp only [h1, h2, bind, Except.bind, pure, Except.pure, Except.ok.injEq] at h
        subst h
        exact .cons h1 (ih _ h2)

/-- C129: a figure of plot_rsr shows one band: the one named, or (without a name) the only band
closer than 0.1 micron to the wavelength; every detector gives one curve, in data order, with
exactly the samples whose response is not at most the minimum. -/
theorem C129_every_detector (o : Reader XF) (bandname : Option String) (x m : XF) (cs : List (Curve XF))
    (h : plotRsr (.ok o) bandname x m = .ok cs) :
    ∃ b band, rsrDictGetItem o.instrument o.rsr b = .ok band ∧
      (bandname = some b ∨ (bandname = none ∨ bandname = some "") ∧
        o.bandnameFromWavelength x = .ok (.one b)) ∧
      List.Forall₂ (fun det c => c.platform = o.platform_name ∧ c.band = b ∧
        ∃ d w ρ, band.get? det = some d ∧ d.get? "wavelength" = some (.arr w) ∧
          d.get? "response" = some (.arr ρ) ∧ w.length = ρ.length ∧
          c.points = (w.zip ρ).filter fun p => !(PyNum.le p.2 m)) band.keys cs := by
  have htail : ∀ b, (do
      let bd ← rsrDictGetItem o.instrument o.rsr b
      bd.keys.mapM fun det => do
        let d ← bd.getItem det
        let resp ← getArr d "response"
        let wvl ← getArr d "wavelength"
        let points ← drawn m wvl resp
        return (⟨o.platform_name, b, points⟩ : Curve XF)) = .ok cs →
      ∃ band, rsrDictGetItem o.instrument o.rsr b = .ok band ∧
        List.Forall₂ (fun det c => c.platform = o.platform_name ∧ c.band = b ∧
        ∃ d w ρ, band.get? det = some d ∧ d.get? "wavelength" = some (.arr w) ∧
          d.get? "response" = some (.arr ρ) ∧ w.length = ρ.length ∧
          c.points = (w.zip ρ).filter fun p => !(PyNum.le p.2 m)) band.keys cs := by
    intro b hb
    cases h1 : rsrDictGetItem o.instrument o.rsr b with
    | error e => simp [h1, bind, Except.bind] at hb
    | ok band =>
      rw [h1] at hb
      replace hb : (band.keys.mapM fun det => do
        let d ← band.getItem det
        let resp ← getArr d "response"
        let wvl ← getArr d "wavelength"
        let points ← drawn m wvl resp
        return (⟨o.platform_name, b, points⟩ : Curve XF)) = .ok cs := hb
      refine ⟨band, rfl, (mapM_forall₂ _ _ _ hb).imp ?_⟩
      intro det c hc
      cases h3 : band.get? det with
      | none => simp [h3, Dict.getItem, bind, Except.bind] at hc
      | some d =>
      simp only [getItem_ok_iff.2 h3, bind, Except.bind] at hc
      cases h4 : d.get? "response" with
      | none => simp [getArr, Dict.getItem, h4, bind, Except.bind] at hc
      | some vr =>
      cases h5 : d.get? "wavelength" with
      | none => cases vr <;> simp [getArr, Dict.getItem, h4, h5, bind, Except.bind, pure, Except.pure] at hc
      | some vw =>
      cases vr with
      | num x => simp [getArr, Dict.getItem, h4, bind, Except.bind] at hc
      | dict x => simp [getArr, Dict.getItem, h4, bind, Except.bind] at hc
      | arr ρ =>
      cases vw with
      | num x => simp [getArr, Dict.getItem, h4, h5, bind, Except.bind, pure, Except.pure] at hc
      | dict x => simp [getArr, Dict.getItem, h4, h5, bind, Except.bind, pure, Except.pure] at hc
      | arr w =>
      simp only [getArr, Dict.getItem, h4, h5, bind, Except.bind, pure, Except.pure, drawn] at hc
      by_cases hl : w.length = ρ.length
      · simp only [hl, if_true, Except.ok.injEq] at hc
        subst hc
        exact ⟨rfl, rfl, d, w, ρ, rfl, h5, h4, hl, rfl⟩
      · simp [hl] at hc
  have hb : ∃ b, (bandname = some b ∨ (bandname = none ∨ bandname = some "") ∧
        o.bandnameFromWavelength x = .ok (.one b)) ∧ (do
      let bd ← rsrDictGetItem o.instrument o.rsr b
      bd.keys.mapM fun det => do
        let d ← bd.getItem det
        let resp ← getArr d "response"
        let wvl ← getArr d "wavelength"
        let points ← drawn m wvl resp
        return (⟨o.platform_name, b, points⟩ : Curve XF)) = .ok cs := by
    unfold plotRsr at h
    have hnone : (bandname = none ∨ bandname = some "") → ∃ b, o.bandnameFromWavelength x = .ok (.one b) ∧ (do
        let bd ← rsrDictGetItem o.instrument o.rsr b
        bd.keys.mapM fun det => do
          let d ← bd.getItem det
          let resp ← getArr d "response"
          let wvl ← getArr d "wavelength"
          let points ← drawn m wvl resp
          return (⟨o.platform_name, b, points⟩ : Curve XF)) = .ok cs := by
      intro hn
      have e : bandname.bind (fun b => if b ≠ "" then some b else none) = none := by
        rcases hn with rfl | rfl <;> simp
      rw [e] at h
      simp only [bind, Except.bind] at h
      cases h1 : o.bandnameFromWavelength x with
      | error e => rw [h1] at h; simp at h
      | ok bm =>
        cases bm with
        | none => rw [h1] at h; simp at h
        | several l => rw [h1] at h; simp at h
        | one b =>
          rw [h1] at h
          exact ⟨b, rfl, h⟩
    cases hbn : bandname with
    | none =>
      obtain ⟨b, h1, h2⟩ := hnone (Or.inl hbn)
      exact ⟨b, Or.inr ⟨Or.inl rfl, h1⟩, h2⟩
    | some b =>
      by_cases hb : b = ""
      · subst hb
        obtain ⟨b, h1, h2⟩ := hnone (Or.inr hbn)
        exact ⟨b, Or.inr ⟨Or.inr rfl, h1⟩, h2⟩
      · rw [hbn] at h
        simp only [Option.bind_some, ne_eq, hb, not_false_eq_true, if_true] at h
        exact ⟨b, Or.inl rfl, h⟩
  obtain ⟨b, h1, h2⟩ := hb
  obtain ⟨band, h3, h4⟩ := htail b h2
  exact ⟨b, band, h3, h1, h4⟩

example : ∃ cs, plotRsr (.ok exScriptReader) (some "M1") XF.nan (fin 0.6) = .ok cs ∧ cs.length = 1 :=
  ⟨_, by simp [plotRsr, exScriptReader, rsrDictGetItem, Dict.get?, Dict.keys, Dict.getItem, getArr, drawn, bind,
    Except.bind, pure, Except.pure, finL]; rfl, rfl⟩

/-! ### C130: plot_some_band -/

theorem someBand_find (o : Reader XF) (sensor : String) (x : ℝ) (cw : String → ℝ) (hcw : CentralOf o.rsr cw) :
    ∃ l, bandsNear (.str sensor) (fin x) 0.1 (fun c => rsrDictGetItem o.instrument o.rsr c) o.rsr.keys = .ok l ∧
      ∀ n, n ∈ l ↔ ∃ c ∈ o.rsr.keys, |cw c - x| < 0.1 ∧ stdName sensor c = n := by
  classical
  refine ⟨(o.rsr.keys.filter fun c => decide (|cw c - x| < min (0.1 : ℝ) 2)).map (stdName sensor), ?_, ?_⟩
  · rw [bandsNear_congr _ _ _ _ (o.rsr.getItem ·) _ (by
      intro c hc
      obtain ⟨b, det, h1, -⟩ := hcw c hc
      simp [rsrDictGetItem, h1, Dict.getItem]),
      show (0.1 : XF) = fin 0.1 by simp only [ofSci_eq],
      bandsNear_eq sensor x 0.1 o.rsr cw hcw o.rsr.keys (fun c hc => hc)]
  · intro n
    rw [show min (0.1 : ℝ) 2 = 0.1 by norm_num]
    simp [and_assoc]

/-- C130 is false: plot_some_band never draws a curve. -/
theorem C130_no_curve (openReader : String → String → Py (Reader XF)) (x : XF) (ps : List (String × String))
    (cs : List (Curve XF)) (h : plotSomeBand openReader x ps = .ok cs) : cs = [] := by
  induction ps with
  | nil => simp [plotSomeBand] at h; exact h
  | cons p ps ih =>
    obtain ⟨pl, se⟩ := p
    unfold plotSomeBand at h
    cases h1 : openReader pl se with
    | error e => simp [h1, bind, Except.bind] at h
    | ok o =>
      simp only [h1, bind, Except.bind] at h
      split at h
      · simp at h
      · split at h
        · simp at h
        · split at h
          · exact ih h
          · split at h <;> simp at h
          · simp at h

/-- C130 is false: as soon as one of the listed sensors has a band at the wavelength, the program
fails (the keys of a dictionary cannot be indexed). -/
theorem C130_fails (openReader : String → String → Py (Reader XF)) (x : ℝ) (ps : List (String × String))
    (p : String × String) (hp : p ∈ ps) (o : Reader XF) (ho : openReader p.1 p.2 = .ok o) (cw : String → ℝ)
    (hcw : CentralOf o.rsr cw) (c : String) (hc : c ∈ o.rsr.keys) (hnear : |cw c - x| < 0.1) :
    ∃ e, plotSomeBand openReader (fin x) ps = .error e := by
  induction ps with
  | nil => simp at hp
  | cons q ps ih =>
    obtain ⟨pl, se⟩ := q
    unfold plotSomeBand
    cases h1 : openReader pl se with
    | error e => exact ⟨e, by simp [bind, Except.bind]⟩
    | ok o' =>
      simp only [bind, Except.bind]
      rcases List.mem_cons.1 hp with rfl | hp
      · rw [h1] at ho
        injection ho with ho
        subst ho
        obtain ⟨l, hl, hmem⟩ := someBand_find o' se x cw hcw
        rw [hl]
        have hne : l ≠ [] := by
          intro he
          have := (hmem _).2 ⟨c, hc, hnear, rfl⟩
          rw [he] at this; simp at this
        simp only
        match l, hne with
        | [b], _ =>
          simp only [bandMatchResult]
          cases rsrDictGetItem o'.instrument o'.rsr b with
          | error e => exact ⟨e, rfl⟩
          | ok v => exact ⟨_, rfl⟩
        | a :: b :: l, _ => exact ⟨_, rfl⟩
      · obtain ⟨e, he⟩ := ih hp
        rw [he]
        split
        · exact ⟨_, rfl⟩
        · split
          · exact ⟨_, rfl⟩
          · split
            · exact ⟨_, rfl⟩
            · split <;> exact ⟨_, rfl⟩
            · exact ⟨_, rfl⟩

/-- C130, part that holds: at a wavelength where no listed sensor has a band, the program ends
with an empty figure.  Missing: every other wavelength (refuted above). -/
theorem C130_empty_figure_partial (openReader : String → String → Py (Reader XF)) (x : ℝ)
    (ps : List (String × String))
    (h : ∀ p ∈ ps, ∃ o cw, openReader p.1 p.2 = .ok o ∧ CentralOf o.rsr cw ∧ ∀ c ∈ o.rsr.keys, 0.1 ≤ |cw c - x|) :
    plotSomeBand openReader (fin x) ps = .ok [] := by
  induction ps with
  | nil => rfl
  | cons p ps ih =>
    obtain ⟨pl, se⟩ := p
    obtain ⟨o, cw, ho, hcw, hfar⟩ := h (pl, se) (by simp)
    obtain ⟨l, hl, hmem⟩ := someBand_find o se x cw hcw
    have hnil : l = [] := by
      rw [List.eq_nil_iff_forall_not_mem]
      intro n hn
      obtain ⟨c, hc, hd, -⟩ := (hmem n).1 hn
      exact absurd hd (not_lt.2 (hfar c hc))
    subst hnil
    have ho' : openReader pl se = .ok o := ho
    unfold plotSomeBand
    simp only [ho', bind, Except.bind, hl, bandMatchResult]
    exact ih (fun p hp => h p (by simp [hp]))

/-- at 0.4 micron the program fails on the example data, at 2 micron it ends -/
example : (∃ e, plotSomeBand (fun _ _ => .ok exScriptReader) (fin 0.4) someBandPairs = .error e) ∧
    plotSomeBand (fun _ _ => .ok exScriptReader) (fin 2) someBandPairs = .ok [] := by
  constructor
  · exact C130_fails _ 0.4 someBandPairs ("Suomi-NPP", "viirs") (by decide) exScriptReader rfl _ exScan_plottable.central
      "M1" (by simp [exScriptReader, Dict.keys]) (by simp; norm_num [abs_lt])
  · refine C130_empty_figure_partial _ 2 _ (fun p _ => ⟨exScriptReader, _, rfl, exScan_plottable.central, ?_⟩)
    intro c _
    split <;> norm_num [le_abs]

end Verif.Props
