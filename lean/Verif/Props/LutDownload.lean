import Verif.Lemmas.LutDownload
import Verif.Lemmas.Dict
import Verif.Props.Download
/-
Properties C66-C68: the Rayleigh tables on disk, and switching downloads off.
-/
namespace Verif.Props
open Model Spec Lemmas

/-! ### Vocabulary -/

/-- Address of the tables of one aerosol type. -/
def lutUrl (t : String) : String :=
  "https://zenodo.org/record/1288441/files/pyspectral_atm_correction_luts_" ++
    (if t = "rayleigh_only" then "no_aerosol" else t) ++ ".tgz"

/-- Directory of the tables of one aerosol type. -/
def lutDir (env : Env) (t : String) : String := env.cfg.rayleigh_dir ++ "/" ++ t

/-- The tables of an aerosol type are current: its version file says so. -/
def LutCurrent (env : Env) (w : World) (t : String) : Prop :=
  ∃ f, (t, "v1.0.1", f) ∈ ATM_CORRECTION_LUT_VERSION ∧ FileSays w (lutDir env t, f) "v1.0.1"

theorem lutUptodate_iff (env : Env) (w : World) (t : String) :
    lutVersionUptodate env w t = true ↔ LutCurrent env w t := by
  have htab : ∀ e ∈ ATM_CORRECTION_LUT_VERSION,
      e.2.1 = "v1.0.1" ∧ ATM_CORRECTION_LUT_VERSION.get? e.1 = some e.2 := by decide +kernel
  unfold lutVersionUptodate LutCurrent
  constructor
  · intro h
    cases hg : ATM_CORRECTION_LUT_VERSION.get? t with
    | none => rw [hg] at h; simp at h
    | some vf =>
      obtain ⟨v, f⟩ := vf
      rw [hg] at h
      have hmem : (t, v, f) ∈ ATM_CORRECTION_LUT_VERSION := get?_eq_some_mem hg
      have hv : v = "v1.0.1" := (htab _ hmem).1
      subst hv
      refine ⟨f, hmem, ?_⟩
      rw [decide_eq_true_eq] at h
      exact (versionIn_iff w _ _ (by decide) (by decide) (by decide)).1 h
  · rintro ⟨f, hmem, hs⟩
    rw [(htab _ hmem).2]
    simp only [decide_eq_true_eq]
    exact (versionIn_iff w _ _ (by decide) (by decide) (by decide)).2 hs

theorem lutUrl_table : ∀ t ∈ AEROSOL_TYPES, HTTPS_RAYLEIGH_LUTS.getItem t = .ok (lutUrl t) := by
  decide +kernel

/-- every state of a run has the files and requests it started with -/
def Quiet {α : Type} (m : Eff α) (w : World) : Prop :=
  ∀ x, (x = Eff.final m w ∨ x ∈ Eff.crashStates m w) → x.files = w.files ∧ x.requests = w.requests

theorem quiet_of_eq {α : Type} {m : Eff α} {w w' : World} {r : Py α} {t : List World} (h : m w = (r, w', t))
    (h1 : w'.files = w.files ∧ w'.requests = w.requests)
    (h2 : ∀ x ∈ t, x.files = w.files ∧ x.requests = w.requests) : Quiet m w := by
  intro x hx
  unfold Eff.final Eff.crashStates at hx
  rw [h] at hx
  rcases hx with rfl | hx
  · exact h1
  · rcases List.mem_cons.1 hx with rfl | hx
    · exact ⟨rfl, rfl⟩
    · exact h2 x hx

/-! ### C66 -/

theorem rayleighConfig_run (env : Env) (t atm : String) (w : World) :
    ∃ tr, rayleighConfig env t atm w =
      (if ATMOSPHERES.contains atm = true ∧ t ∈ AEROSOL_TYPES then .ok (lutVersionUptodate env w t)
        else .error .attributeError,
       if ATMOSPHERES.contains atm = true ∧ t ∈ AEROSOL_TYPES then configured env (configured env w) else configured env w, tr) ∧
      ∀ x ∈ tr, x.files = w.files ∧ x.requests = w.requests := by
  unfold rayleighConfig
  rw [eff_bind_ok (getConfig_run env w)]
  by_cases h1 : ATMOSPHERES.contains atm = true
  · simp only [h1, not_true, if_false, true_and]
    by_cases h2 : t ∈ AEROSOL_TYPES
    · have h2' : AEROSOL_TYPES.contains t = true := by simpa using h2
      simp only [h2', h2, not_true, if_false, if_true]
      rw [eff_bind_ok (getConfig_run env _), eff_bind_ok (show Eff.get _ = (.ok _, _, []) from rfl)]
      refine ⟨_, rfl, ?_⟩
      intro x hx
      simp only [eff_pure, List.cons_append, List.nil_append, List.mem_cons, List.not_mem_nil, or_false] at hx
      rcases hx with rfl | rfl | rfl | rfl <;> exact ⟨rfl, rfl⟩
    · have h2' : AEROSOL_TYPES.contains t = false := by simpa using h2
      simp only [h2', h2, Bool.false_eq_true, not_false_eq_true, if_true, if_false]
      refine ⟨_, rfl, ?_⟩
      intro x hx
      simp only [Eff.raise, List.cons_append, List.nil_append, List.mem_cons, List.not_mem_nil, or_false] at hx
      rcases hx with rfl | rfl <;> exact ⟨rfl, rfl⟩
  · have h1' : ATMOSPHERES.contains atm = false := by simpa using h1
    simp only [h1', Bool.false_eq_true, not_false_eq_true, if_true, false_and, if_false]
    refine ⟨_, rfl, ?_⟩
    intro x hx
    simp only [Eff.raise, List.cons_append, List.nil_append, List.mem_cons, List.not_mem_nil, or_false] at hx
    rcases hx with rfl | rfl <;> exact ⟨rfl, rfl⟩

/-- C66: an atmosphere or aerosol type that is not published raises AttributeError, whatever
the platform and sensor; nothing is requested and no file is touched. -/
theorem C66_unsupported_rejected (env : Env) (platform sensor atm t : String) (w : World)
    (h : ¬ (atm ∈ ATMOSPHERES.map Prod.fst ∧ t ∈ AEROSOL_TYPES)) :
    Eff.result (rayleighNew env platform sensor atm t) w = .error .attributeError ∧
    Quiet (rayleighNew env platform sensor atm t) w := by
  have hc : ATMOSPHERES.contains atm = true ↔ atm ∈ ATMOSPHERES.map Prod.fst := by
    have := get?_eq_none_iff (d := ATMOSPHERES) (k := atm)
    unfold Dict.contains
    cases hg : ATMOSPHERES.get? atm with
    | none =>
      simp only [Option.isSome_none, Bool.false_eq_true, false_iff]
      exact this.1 hg
    | some n =>
      simp only [Option.isSome_some, true_iff]
      exact List.mem_map_of_mem (get?_eq_some_mem hg)
  have h : ¬ (ATMOSPHERES.contains atm = true ∧ t ∈ AEROSOL_TYPES) := by rw [hc]; exact h
  obtain ⟨tr, htr, hx⟩ := rayleighConfig_run env t atm w
  rw [if_neg h, if_neg h] at htr
  have e : rayleighNew env platform sensor atm t w = (.error .attributeError, configured env w, tr) := by
    unfold rayleighNew
    rw [eff_bind_error htr]
  refine ⟨?_, quiet_of_eq e ⟨rfl, rfl⟩ hx⟩
  unfold Eff.result
  rw [e]

example : ¬ ("mars" ∈ ATMOSPHERES.map Prod.fst ∧ "rural_aerosol" ∈ AEROSOL_TYPES) := by decide
example : ¬ ("tropical" ∈ ATMOSPHERES.map Prod.fst ∧ "dust" ∈ AEROSOL_TYPES) := by decide

/-- how construction proceeds for published types and a usable sensor name -/
theorem rayleighNew_run (env : Env) (platform sensor atm t : String) (w : World)
    (ha : ATMOSPHERES.contains atm = true) (ht : t ∈ AEROSOL_TYPES) (s : String)
    (hs : normalizeSensor platform sensor = .ok s) :
    ∃ (v : World) (tr : List World), v.files = w.files ∧ v.requests = w.requests ∧
      (∀ x ∈ tr, x.files = w.files ∧ x.requests = w.requests) ∧
      rayleighNew env platform sensor atm t w =
        (if lutVersionUptodate env w t = false ∧ env.cfg.download_from_internet = true then
          match downloadLut env false t v with
          | (.ok _, v', tr') => (.ok ⟨platform, s, (rayleighLutDir env t, "rayleigh_lut_" ++ Str.replaceChar ' ' '_' atm ++ ".h5")⟩, v', tr ++ tr')
          | (.error e, v', tr') => (.error e, v', tr ++ tr')
        else (.ok ⟨platform, s, (rayleighLutDir env t, "rayleigh_lut_" ++ Str.replaceChar ' ' '_' atm ++ ".h5")⟩, v, tr)) := by
  obtain ⟨tr, htr, hx⟩ := rayleighConfig_run env t atm w
  rw [if_pos ⟨ha, ht⟩, if_pos ⟨ha, ht⟩] at htr
  refine ⟨configured env (configured env (configured env w)),
    tr ++ [withDir env.cfg.rsr_dir (configured env (configured env w)), configured env (configured env (configured env w))],
    rfl, rfl, ?_, ?_⟩
  · intro x hxm
    simp only [List.mem_append, List.mem_cons, List.not_mem_nil, or_false] at hxm
    rcases hxm with h | rfl | rfl
    · exact hx x h
    · exact ⟨rfl, rfl⟩
    · exact ⟨rfl, rfl⟩
  · unfold rayleighNew
    rw [eff_bind_ok htr, hs, eff_bind_ok (eff_lift_value s _), eff_bind_ok (getConfig_run env _)]
    by_cases hd : lutVersionUptodate env w t = false ∧ env.cfg.download_from_internet = true
    · simp only [hd.1, hd.2, Bool.false_eq_true, not_false_eq_true, and_self, if_true]
      have hfe : downloadLuts env (some [t]) = (downloadLut env false t >>= fun _ => pure ()) := rfl
      rw [hfe]
      rcases hdl : downloadLut env false t (configured env (configured env (configured env w))) with ⟨r, v', tr'⟩
      cases r with
      | error e =>
        rw [eff_bind_error (eff_bind_error hdl)]
        simp
      | ok u =>
        rw [eff_bind_ok (show (downloadLut env false t >>= fun _ => pure ()) _ = (.ok (), v', tr') from by
          rw [eff_bind_ok hdl]; simp [eff_pure])]
        simp [eff_pure]
    · rw [if_neg hd, if_neg (by simpa using hd)]
      simp [eff_pure]

/-- C66: for published types, if construction returns at all, the table file is
`<rayleigh_dir>/<aerosol>/rayleigh_lut_<atmosphere with _ for blanks>.h5` and the platform name
is kept; the defaults are us-standard and marine_clean_aerosol. -/
theorem C66_table_file (env : Env) (platform sensor atm t : String) (w : World) (o : RayleighObj)
    (h : Eff.result (rayleighNew env platform sensor atm t) w = .ok o) :
    o.reflectance_lut_filename = (lutDir env t,
      "rayleigh_lut_" ++ String.ofList (atm.toList.map fun c => if c = ' ' then '_' else c) ++ ".h5") ∧
    o.platform_name = platform ∧
    rayleighNew env platform sensor = rayleighNew env platform sensor "us-standard" "marine_clean_aerosol" := by
  refine ⟨?_, ?_, rfl⟩ <;>
  · by_cases hok : ATMOSPHERES.contains atm = true ∧ t ∈ AEROSOL_TYPES
    · cases hs : normalizeSensor platform sensor with
      | error e =>
        exfalso
        obtain ⟨tr, htr, -⟩ := rayleighConfig_run env t atm w
        rw [if_pos hok, if_pos hok] at htr
        have e' : rayleighNew env platform sensor atm t w = (.error e, configured env (configured env w), tr ++ []) := by
          unfold rayleighNew
          rw [eff_bind_ok htr, hs, eff_bind_error (show Eff.lift (.error e : Py String) _ = (.error e, _, []) from rfl)]
        unfold Eff.result at h
        rw [e'] at h
        simp at h
      | ok s =>
        obtain ⟨v, tr, -, -, -, hrun⟩ := rayleighNew_run env platform sensor atm t w hok.1 hok.2 s hs
        unfold Eff.result at h
        rw [hrun] at h
        split at h
        · rcases hdl : downloadLut env false t v with ⟨r, v', tr'⟩
          rw [hdl] at h
          cases r with
          | error e => simp at h
          | ok u =>
            simp only [Except.ok.injEq] at h
            subst h; rfl
        · simp only [Except.ok.injEq] at h
          subst h; rfl
    · exfalso
      obtain ⟨tr, htr, -⟩ := rayleighConfig_run env t atm w
      rw [if_neg hok, if_neg hok] at htr
      unfold Eff.result rayleighNew at h
      rw [eff_bind_error htr] at h
      simp at h

/-! ### C67 -/

theorem needed_run (env : Env) (ts : List String) : ∀ w : World,
    ∃ tr v, neededTypes env ts w =
      (if ∀ t ∈ ts, t ∈ AEROSOL_TYPES then .ok (ts.filter fun t => ! lutVersionUptodate env w t)
        else .error .attributeError, v, tr) ∧ (v.files = w.files ∧ v.requests = w.requests) ∧
      ∀ x ∈ tr, x.files = w.files ∧ x.requests = w.requests := by
  induction ts with
  | nil => intro w; exact ⟨[], w, rfl, ⟨rfl, rfl⟩, by simp⟩
  | cons t ts ih =>
    intro w
    obtain ⟨tr1, h1, hx1⟩ := rayleighConfig_run env t "us-standard" w
    have hA : ATMOSPHERES.contains "us-standard" = true := by decide
    unfold neededTypes
    by_cases ht : t ∈ AEROSOL_TYPES
    · rw [if_pos ⟨hA, ht⟩, if_pos ⟨hA, ht⟩] at h1
      rw [eff_bind_ok h1]
      obtain ⟨tr2, v, h2, hv, hx2⟩ := ih (configured env (configured env w))
      have hcond : (∀ t' ∈ t :: ts, t' ∈ AEROSOL_TYPES) ↔ ∀ t' ∈ ts, t' ∈ AEROSOL_TYPES := by
        simp [ht]
      simp only [hcond]
      by_cases hts : ∀ t' ∈ ts, t' ∈ AEROSOL_TYPES
      · rw [if_pos hts] at h2
        rw [eff_bind_ok h2, if_pos hts]
        refine ⟨tr1 ++ (tr2 ++ []), v, ?_, hv, ?_⟩
        · rw [List.filter_cons]
          cases lutVersionUptodate env w t <;> rfl
        · intro x hx
          simp only [List.append_nil, List.mem_append] at hx
          rcases hx with h | h
          · exact hx1 x h
          · exact hx2 x h
      · rw [if_neg hts] at h2
        rw [eff_bind_error h2, if_neg hts]
        refine ⟨tr1 ++ tr2, v, rfl, hv, ?_⟩
        intro x hx
        simp only [List.mem_append] at hx
        rcases hx with h | h
        · exact hx1 x h
        · exact hx2 x h
    · rw [if_neg (by simp [ht]), if_neg (by simp [ht])] at h1
      rw [eff_bind_error h1, if_neg (by intro h; exact ht (h t (by simp)))]
      exact ⟨tr1, configured env w, rfl, ⟨rfl, rfl⟩, hx1⟩

/-- the types meant by an argument of check_and_download -/
def requestedTypes : Option (List String) → List String
  | none => AEROSOL_TYPES
  | some [] => AEROSOL_TYPES
  | some l => l

theorem checkAndDownloadLuts_eq (env : Env) (dry : Bool) (arg : Option (List String)) (w : World) :
    checkAndDownloadLuts env dry arg w = (neededTypes env (requestedTypes arg) >>= fun needed =>
      if needed = [] then pure () else downloadLuts env (some needed) dry) w := by
  cases arg with
  | none => rfl
  | some l => cases l <;> rfl

/-- C67: if any requested type is unknown, AttributeError is raised before anything is
requested or written. -/
theorem C67_validates_first (env : Env) (dry : Bool) (arg : Option (List String)) (w : World)
    (h : ∃ t ∈ requestedTypes arg, t ∉ AEROSOL_TYPES) :
    Eff.result (checkAndDownloadLuts env dry arg) w = .error .attributeError ∧
    Quiet (checkAndDownloadLuts env dry arg) w := by
  obtain ⟨tr, v, hn, hv, hx⟩ := needed_run env (requestedTypes arg) w
  rw [if_neg (by push Not; exact h)] at hn
  have e : checkAndDownloadLuts env dry arg w = (.error .attributeError, v, tr) := by
    rw [checkAndDownloadLuts_eq, eff_bind_error hn]
  refine ⟨?_, quiet_of_eq e hv hx⟩
  unfold Eff.result; rw [e]

example : ∃ t ∈ requestedTypes (some ["rural_aerosol", "dust"]), t ∉ AEROSOL_TYPES := by decide

/-- downloading a list of types in order -/
theorem downloads_frame (env : Env) (ts : List String) (hts : ∀ t ∈ ts, t ∈ AEROSOL_TYPES) : ∀ w x : World,
    (x = (Eff.forEach (downloadLut env false) ts w).2.1 ∨ x ∈ (Eff.forEach (downloadLut env false) ts w).2.2) →
    (∃ k ≤ ts.length, x.requests = w.requests ++ (ts.take k).map lutUrl) ∧
    (∀ p, (∀ t ∈ ts, p.1 ≠ lutDir env t) → x.files p = w.files p) := by
  induction ts with
  | nil =>
    intro w x hx
    have : x = w := by
      rcases hx with h | h
      · exact h
      · exact absurd h (by simp [Eff.forEach, Eff.pure])
    subst this
    exact ⟨⟨0, by simp⟩, fun p _ => rfl⟩
  | cons t ts ih =>
    intro w x hx
    rw [forEach_cons] at hx
    have hone : ∀ y, (y = (downloadLut env false t w).2.1 ∨ y ∈ (downloadLut env false t w).2.2) →
        (y.requests = w.requests ∨ y.requests = w.requests ++ [lutUrl t]) ∧
        (∀ p, p.1 ≠ lutDir env t → y.files p = w.files p) := by
      intro y hy
      rw [downloadLut_eq env t (lutUrl t) (lutUrl_table t (hts t (by simp))) w] at hy
      simp only [List.mem_cons] at hy
      have hfr : (y = (downloadTarballAndExtract env (lutUrl t) (rayleighLutDir env t, LUT_TARBALL) (rayleighLutDir env t)
          (withDir (rayleighLutDir env t) (configured env w))).2.1 ∨
          y ∈ (downloadTarballAndExtract env (lutUrl t) (rayleighLutDir env t, LUT_TARBALL) (rayleighLutDir env t)
          (withDir (rayleighLutDir env t) (configured env w))).2.2) → _ := fun h =>
        download_frame env (lutUrl t) LUT_TARBALL (rayleighLutDir env t) _ y h
      rcases hy with hy | rfl | rfl | rfl | hy
      · exact ⟨Or.inr (hfr (Or.inl hy)).1, (hfr (Or.inl hy)).2.1⟩
      · exact ⟨Or.inl rfl, fun p _ => rfl⟩
      · exact ⟨Or.inl rfl, fun p _ => rfl⟩
      · exact ⟨Or.inl rfl, fun p _ => rfl⟩
      · exact ⟨Or.inr (hfr (Or.inr hy)).1, (hfr (Or.inr hy)).2.1⟩
    have hfinal : (downloadLut env false t w).2.1.requests = w.requests ++ [lutUrl t] := by
      rw [downloadLut_eq env t (lutUrl t) (lutUrl_table t (hts t (by simp))) w]
      exact (download_frame env (lutUrl t) LUT_TARBALL (rayleighLutDir env t) _ _ (Or.inl rfl)).1
    have hlift : ∀ y, (y = (downloadLut env false t w).2.1 ∨ y ∈ (downloadLut env false t w).2.2) →
        (∃ k ≤ (t :: ts).length, y.requests = w.requests ++ ((t :: ts).take k).map lutUrl) ∧
        (∀ p, (∀ t' ∈ t :: ts, p.1 ≠ lutDir env t') → y.files p = w.files p) := by
      intro y hy
      obtain ⟨h1, h2⟩ := hone y hy
      refine ⟨?_, fun p hp => h2 p (hp t (by simp))⟩
      rcases h1 with h1 | h1
      · exact ⟨0, by simp, by simp [h1]⟩
      · exact ⟨1, by simp, by simp [h1]⟩
    rcases hm : downloadLut env false t w with ⟨r, w', tr⟩
    rw [hm] at hlift hone hfinal
    cases r with
    | error e =>
      rw [eff_bind_error hm] at hx
      exact hlift x hx
    | ok u =>
      rw [eff_bind_ok hm] at hx
      simp only [List.mem_append] at hx
      have hrest : (x = (Eff.forEach (downloadLut env false) ts w').2.1 ∨
          x ∈ (Eff.forEach (downloadLut env false) ts w').2.2) →
          (∃ k ≤ (t :: ts).length, x.requests = w.requests ++ ((t :: ts).take k).map lutUrl) ∧
          (∀ p, (∀ t' ∈ t :: ts, p.1 ≠ lutDir env t') → x.files p = w.files p) := by
        intro h
        obtain ⟨⟨k, hk, h1⟩, h2⟩ := ih (fun t' ht' => hts t' (by simp [ht'])) w' x h
        refine ⟨⟨k + 1, by simpa using hk, ?_⟩, fun p hp => ?_⟩
        · rw [h1, hfinal]; simp
        · rw [h2 p (fun t' ht' => hp t' (by simp [ht'])), (hone w' (Or.inl rfl)).2 p (hp t (by simp))]
      rcases hx with h | h | h
      · exact hrest (Or.inl h)
      · exact hlift x (Or.inr h)
      · exact hrest (Or.inr h)

/-- if all downloads of a list return, all were requested -/
theorem downloads_all (env : Env) (ts : List String) (hts : ∀ t ∈ ts, t ∈ AEROSOL_TYPES) : ∀ w : World,
    (Eff.forEach (downloadLut env false) ts w).1.isOk = true →
    (Eff.forEach (downloadLut env false) ts w).2.1.requests = w.requests ++ ts.map lutUrl := by
  induction ts with
  | nil => intro w _; simp [Eff.forEach, Eff.pure]
  | cons t ts ih =>
    intro w h
    have hfinal : (downloadLut env false t w).2.1.requests = w.requests ++ [lutUrl t] := by
      rw [downloadLut_eq env t (lutUrl t) (lutUrl_table t (hts t (by simp))) w]
      exact (download_frame env (lutUrl t) LUT_TARBALL (rayleighLutDir env t) _ _ (Or.inl rfl)).1
    rw [forEach_cons] at *
    rcases hm : downloadLut env false t w with ⟨r, w', tr⟩
    rw [hm] at hfinal
    cases r with
    | error e => rw [eff_bind_error hm] at h; simp [Py.isOk] at h
    | ok u =>
      rw [eff_bind_ok hm] at *
      have := ih (fun t' ht' => hts t' (by simp [ht'])) w' h
      simp only at this hfinal ⊢
      rw [this, hfinal]; simp

open Classical in
/-- the requested types whose tables are not current -/
noncomputable def outdated (env : Env) (w : World) (arg : Option (List String)) : List String :=
  (requestedTypes arg).filter fun t => decide (¬ LutCurrent env w t)

theorem outdated_eq (env : Env) (w : World) (arg : Option (List String)) :
    (requestedTypes arg).filter (fun t => ! lutVersionUptodate env w t) = outdated env w arg := by
  unfold outdated
  apply List.filter_congr
  intro t _
  have := lutUptodate_iff env w t
  cases h : lutVersionUptodate env w t with
  | true => simp [this.1 h]
  | false =>
    have : ¬ LutCurrent env w t := fun hc => by rw [this.2 hc] at h; simp at h
    simp [this]

/-- C67: for known types, the requests ever made are, in order, an initial part of the
addresses of exactly the outdated requested types, and all of them if the call returns; only
files in the directories of those types change. -/
theorem C67_downloads_outdated (env : Env) (arg : Option (List String)) (w : World)
    (h : ∀ t ∈ requestedTypes arg, t ∈ AEROSOL_TYPES) :
    (∀ x, (x = Eff.final (checkAndDownloadLuts env false arg) w ∨
        x ∈ Eff.crashStates (checkAndDownloadLuts env false arg) w) →
      (∃ k, x.requests = w.requests ++ ((outdated env w arg).take k).map lutUrl) ∧
      (∀ p, (∀ t ∈ outdated env w arg, p.1 ≠ lutDir env t) → x.files p = w.files p)) ∧
    ((Eff.result (checkAndDownloadLuts env false arg) w).isOk = true →
      (Eff.final (checkAndDownloadLuts env false arg) w).requests =
        w.requests ++ (outdated env w arg).map lutUrl) := by
  obtain ⟨tr, v, hn, hv, hx⟩ := needed_run env (requestedTypes arg) w
  rw [if_pos h, outdated_eq] at hn
  have hsub : ∀ t ∈ outdated env w arg, t ∈ AEROSOL_TYPES := fun t ht => h t (List.mem_of_mem_filter ht)
  unfold Eff.final Eff.crashStates Eff.result
  rw [checkAndDownloadLuts_eq, eff_bind_ok hn]
  by_cases hnil : outdated env w arg = []
  · simp only [hnil, if_true]
    refine ⟨?_, fun _ => by simp [eff_pure, hv.2]⟩
    intro x hxm
    simp only [eff_pure, List.append_nil, List.mem_cons] at hxm
    rcases hxm with rfl | rfl | hxm
    · exact ⟨⟨0, by simp [hv.2]⟩, fun p _ => by rw [hv.1]⟩
    · exact ⟨⟨0, by simp⟩, fun p _ => rfl⟩
    · exact ⟨⟨0, by simp [(hx x hxm).2]⟩, fun p _ => by rw [(hx x hxm).1]⟩
  · simp only [hnil, if_false]
    have hdl : downloadLuts env (some (outdated env w arg)) false = Eff.forEach (downloadLut env false) (outdated env w arg) := rfl
    rw [hdl]
    refine ⟨?_, fun hok => ?_⟩
    · intro x hxm
      have hfr := downloads_frame env (outdated env w arg) hsub v x
      have hgo : (x = (Eff.forEach (downloadLut env false) (outdated env w arg) v).2.1 ∨
          x ∈ (Eff.forEach (downloadLut env false) (outdated env w arg) v).2.2) → _ := hfr
      simp only [List.mem_cons, List.mem_append] at hxm
      have key : (x = (Eff.forEach (downloadLut env false) (outdated env w arg) v).2.1 ∨
          x ∈ (Eff.forEach (downloadLut env false) (outdated env w arg) v).2.2) →
          (∃ k, x.requests = w.requests ++ ((outdated env w arg).take k).map lutUrl) ∧
          (∀ p, (∀ t ∈ outdated env w arg, p.1 ≠ lutDir env t) → x.files p = w.files p) := by
        intro hh
        obtain ⟨⟨k, -, h1⟩, h2⟩ := hfr hh
        exact ⟨⟨k, by rw [h1, hv.2]⟩, fun p hp => by rw [h2 p hp, hv.1]⟩
      rcases hxm with hh | rfl | hh | hh
      · exact key (Or.inl hh)
      · exact ⟨⟨0, by simp⟩, fun p _ => rfl⟩
      · exact ⟨⟨0, by simp [(hx x hh).2]⟩, fun p _ => by rw [(hx x hh).1]⟩
      · exact key (Or.inr hh)
    · rw [downloads_all env _ hsub v hok, hv.2]

/-- C67: the addresses and directories of different types are different. -/
theorem C67_own_place (env : Env) (a b : String) (ha : a ∈ AEROSOL_TYPES) (hb : b ∈ AEROSOL_TYPES) (h : a ≠ b) :
    lutUrl a ≠ lutUrl b ∧ lutDir env a ≠ lutDir env b := by
  constructor
  · have : ∀ a ∈ AEROSOL_TYPES, ∀ b ∈ AEROSOL_TYPES, a ≠ b → lutUrl a ≠ lutUrl b := by decide +kernel
    exact this a ha b hb h
  · intro he; exact h (rayleighLutDir_inj env he)

/-- The server delivers, for an aerosol type, a complete archive whose last version file is
current. -/
def GoodLut (env : Env) (t : String) : Prop :=
  ∃ chunks, Usable (env.server (lutUrl t)) chunks ∧
    ∃ f pre c post, (t, "v1.0.1", f) ∈ ATM_CORRECTION_LUT_VERSION ∧
      env.untar chunks.flatten = (pre ++ (f, c) :: post, true) ∧ (∀ m ∈ post, m.1 ≠ f) ∧
      FirstLineIs c "v1.0.1".toList

theorem downloadLut_good (env : Env) (t : String) (ht : t ∈ AEROSOL_TYPES) (hg : GoodLut env t) (w : World) :
    (downloadLut env false t w).1 = .ok () ∧ LutCurrent env (downloadLut env false t w).2.1 t := by
  obtain ⟨chunks, ⟨st, hs, hst⟩, f, pre, c, post, hf, hun, hpost, hfl⟩ := hg
  rw [downloadLut_eq env t (lutUrl t) (lutUrl_table t ht) w]
  obtain ⟨tr, htr, -⟩ := download_run env (lutUrl t) LUT_TARBALL (rayleighLutDir env t)
    (withDir (rayleighLutDir env t) (configured env w)) st chunks hs hst (by simp [withDir])
  rw [htr]
  have hok : (env.untar chunks.flatten).2 = true := by rw [hun]
  simp only [hok, if_true]
  refine ⟨trivial, f, hf, c, ?_, hfl⟩
  have hft : f ≠ LUT_TARBALL := by
    have : ∀ e ∈ ATM_CORRECTION_LUT_VERSION, e.2.2 ≠ LUT_TARBALL := by decide +kernel
    exact this _ hf
  show (World.setFile _ _ _).files (rayleighLutDir env t, f) = _
  rw [setFile_files, if_neg (fun he => hft (Prod.mk.inj he).2), hun]
  exact extracted_last _ _ _ _ _ hpost _

theorem lutCurrent_congr (env : Env) (w v : World) (t : String)
    (h : ∀ n, v.files (lutDir env t, n) = w.files (lutDir env t, n)) :
    LutCurrent env w t → LutCurrent env v t := by
  rintro ⟨f, hf, c, hc, hl⟩
  exact ⟨f, hf, c, by rw [h, hc], hl⟩

theorem downloads_good (env : Env) (ts : List String) (hts : ∀ t ∈ ts, t ∈ AEROSOL_TYPES ∧ GoodLut env t) : ∀ w : World,
    (Eff.forEach (downloadLut env false) ts w).1 = .ok () ∧
    (∀ t, t ∈ ts ∨ LutCurrent env w t → LutCurrent env (Eff.forEach (downloadLut env false) ts w).2.1 t) := by
  induction ts with
  | nil => intro w; exact ⟨rfl, fun t ht => ht.resolve_left (by simp)⟩
  | cons t ts ih =>
    intro w
    obtain ⟨h1, h2⟩ := downloadLut_good env t (hts t (by simp)).1 (hts t (by simp)).2 w
    rcases hm : downloadLut env false t w with ⟨r, w', tr⟩
    rw [hm] at h1 h2
    simp only at h1 h2
    subst h1
    obtain ⟨h3, h4⟩ := ih (fun t' ht' => hts t' (by simp [ht'])) w'
    rw [forEach_cons, eff_bind_ok hm]
    refine ⟨h3, fun t' ht' => ?_⟩
    apply h4
    by_cases he : t' = t
    · subst he; exact Or.inr h2
    · rcases ht' with h | h
      · exact Or.inl ((List.mem_cons.1 h).resolve_left he)
      · right
        refine lutCurrent_congr env w w' t' (fun n => ?_) h
        have hfin : w' = (downloadLut env false t w).2.1 := by rw [hm]
        rw [hfin, downloadLut_eq env t (lutUrl t) (lutUrl_table t (hts t (by simp)).1) w]
        rw [(download_frame env (lutUrl t) LUT_TARBALL (rayleighLutDir env t) _ _ (Or.inl rfl)).2.1]
        · rfl
        · intro heq; exact he (rayleighLutDir_inj env heq)

/-- C67: if the server delivers good archives, the call succeeds, all requested types are
current afterwards, and any further call for the same types requests nothing and changes no
file, whatever the server then does. -/
theorem C67_second_call_quiet (env : Env) (arg : Option (List String)) (w : World)
    (h : ∀ t ∈ requestedTypes arg, t ∈ AEROSOL_TYPES) (hg : ∀ t ∈ outdated env w arg, GoodLut env t) :
    (Eff.result (checkAndDownloadLuts env false arg) w).isOk = true ∧
    (∀ t ∈ requestedTypes arg, LutCurrent env (Eff.final (checkAndDownloadLuts env false arg) w) t) ∧
    (∀ (s : String → Answer) (d dry : Bool),
      Quiet (checkAndDownloadLuts (otherEnv env s d) dry arg) (Eff.final (checkAndDownloadLuts env false arg) w)) := by
  have hcur : (Eff.result (checkAndDownloadLuts env false arg) w).isOk = true ∧
      ∀ t ∈ requestedTypes arg, LutCurrent env (Eff.final (checkAndDownloadLuts env false arg) w) t := by
    obtain ⟨tr, v, hn, hv, hx⟩ := needed_run env (requestedTypes arg) w
    rw [if_pos h, outdated_eq] at hn
    have hsub : ∀ t ∈ outdated env w arg, t ∈ AEROSOL_TYPES ∧ GoodLut env t :=
      fun t ht => ⟨h t (List.mem_of_mem_filter ht), hg t ht⟩
    have hcv : ∀ t, LutCurrent env w t → LutCurrent env v t := fun t =>
      lutCurrent_congr env w v t (fun n => by rw [hv.1])
    have hmem : ∀ t ∈ requestedTypes arg, t ∈ outdated env w arg ∨ LutCurrent env v t := by
      intro t ht
      by_cases hc : LutCurrent env w t
      · exact Or.inr (hcv t hc)
      · left; unfold outdated; rw [List.mem_filter]; exact ⟨ht, by simpa using hc⟩
    unfold Eff.final Eff.result
    rw [checkAndDownloadLuts_eq, eff_bind_ok hn]
    by_cases hnil : outdated env w arg = []
    · simp only [hnil, if_true]
      refine ⟨rfl, fun t ht => ?_⟩
      rcases hmem t ht with h' | h'
      · rw [hnil] at h'; simp at h'
      · exact h'
    · simp only [hnil, if_false]
      have hdl : downloadLuts env (some (outdated env w arg)) false = Eff.forEach (downloadLut env false) (outdated env w arg) := rfl
      rw [hdl]
      obtain ⟨h3, h4⟩ := downloads_good env (outdated env w arg) hsub v
      rw [h3]
      exact ⟨rfl, fun t ht => h4 t (hmem t ht)⟩
  refine ⟨hcur.1, hcur.2, fun s d dry => ?_⟩
  generalize Eff.final (checkAndDownloadLuts env false arg) w = v at hcur
  obtain ⟨tr, v', hn, hv, hx⟩ := needed_run (otherEnv env s d) (requestedTypes arg) v
  have hnone : (requestedTypes arg).filter (fun t => ! lutVersionUptodate (otherEnv env s d) v t) = [] := by
    rw [List.filter_eq_nil_iff]
    intro t ht
    have : lutVersionUptodate (otherEnv env s d) v t = true :=
      (lutUptodate_iff (otherEnv env s d) v t).2 (hcur.2 t ht)
    simp [this]
  rw [if_pos h, hnone] at hn
  have e : checkAndDownloadLuts (otherEnv env s d) dry arg v = (.ok (), v', tr ++ []) := by
    rw [checkAndDownloadLuts_eq, eff_bind_ok hn]; rfl
  exact quiet_of_eq e hv (by simpa using hx)

/-- an example server for the tables -/
def exampleLutEnv : Env where
  cfg := { rsr_dir := "/rsr", rayleigh_dir := "/ray", download_from_internet := true }
  server := fun _ => .answered 200 true ["TAR".toList]
  untar := fun _ => ([("PYSPECTRAL_ATM_CORR_LUT_RA", "v1.0.1".toList), ("PYSPECTRAL_ATM_CORR_LUT_RO", "v1.0.1".toList)], true)

example : GoodLut exampleLutEnv "rural_aerosol" :=
  ⟨["TAR".toList], ⟨200, rfl, by decide⟩, "PYSPECTRAL_ATM_CORR_LUT_RA", [], "v1.0.1".toList,
    [("PYSPECTRAL_ATM_CORR_LUT_RO", "v1.0.1".toList)], by decide +kernel, rfl, by simp,
    [], [], [], rfl, by simp, by simp, Or.inl rfl⟩

theorem emptyWorld_lut (env : Env) (t : String) : ¬ LutCurrent env emptyWorld t := by
  rintro ⟨f, _, c, h, _⟩; simp [emptyWorld] at h

example : outdated exampleLutEnv emptyWorld (some ["rural_aerosol", "rayleigh_only"]) =
    ["rural_aerosol", "rayleigh_only"] := by
  simp [outdated, requestedTypes, emptyWorld_lut]

theorem exGoodLuts : ∀ t ∈ outdated exampleLutEnv emptyWorld (some ["rural_aerosol", "rayleigh_only"]),
    GoodLut exampleLutEnv t := by
  intro t ht
  have : t = "rural_aerosol" ∨ t = "rayleigh_only" := by
    simpa [outdated, requestedTypes, emptyWorld_lut] using ht
  rcases this with rfl | rfl
  · exact ⟨["TAR".toList], ⟨200, rfl, by decide⟩, "PYSPECTRAL_ATM_CORR_LUT_RA", [], "v1.0.1".toList,
      [("PYSPECTRAL_ATM_CORR_LUT_RO", "v1.0.1".toList)], by decide +kernel, rfl, by simp,
      [], [], [], rfl, by simp, by simp, Or.inl rfl⟩
  · exact ⟨["TAR".toList], ⟨200, rfl, by decide⟩, "PYSPECTRAL_ATM_CORR_LUT_RO",
      [("PYSPECTRAL_ATM_CORR_LUT_RA", "v1.0.1".toList)], "v1.0.1".toList, [], by decide +kernel, rfl, by simp,
      [], [], [], rfl, by simp, by simp, Or.inl rfl⟩

/-- two tables are downloaded, and nothing the second time -/
example : (Eff.final (checkAndDownloadLuts exampleLutEnv false (some ["rural_aerosol", "rayleigh_only"])) emptyWorld).requests =
      [lutUrl "rural_aerosol", lutUrl "rayleigh_only"] ∧
    Quiet (checkAndDownloadLuts (otherEnv exampleLutEnv exampleLutEnv.server true) false
        (some ["rural_aerosol", "rayleigh_only"]))
      (Eff.final (checkAndDownloadLuts exampleLutEnv false (some ["rural_aerosol", "rayleigh_only"])) emptyWorld) := by
  have hr : ∀ t ∈ requestedTypes (some ["rural_aerosol", "rayleigh_only"]), t ∈ AEROSOL_TYPES := by decide
  obtain ⟨h1, -, h2⟩ := C67_second_call_quiet exampleLutEnv _ emptyWorld hr exGoodLuts
  refine ⟨?_, h2 _ true false⟩
  rw [(C67_downloads_outdated exampleLutEnv _ emptyWorld hr).2 h1, show emptyWorld.requests = [] from rfl]
  simp [outdated, requestedTypes, emptyWorld_lut]

example : lutUrl "rural_aerosol" ≠ lutUrl "rayleigh_only" ∧
    lutDir exampleLutEnv "rural_aerosol" ≠ lutDir exampleLutEnv "rayleigh_only" :=
  C67_own_place exampleLutEnv _ _ (by decide) (by decide) (by decide)

/-! ### C68 -/

/-- C68 is false: `rayleigh.check_and_download` never looks at the option.  For every
configuration with downloads switched off and every outdated known type a request is made. -/
theorem C68_check_and_download_ignores_option (env : Env) (t : String) (ht : t ∈ AEROSOL_TYPES) (w : World)
    (_hoff : env.cfg.download_from_internet = false) (hout : ¬ LutCurrent env w t) (hg : GoodLut env t) :
    (Eff.final (checkAndDownloadLuts env false (some [t])) w).requests = w.requests ++ [lutUrl t] := by
  have hr : ∀ t' ∈ requestedTypes (some [t]), t' ∈ AEROSOL_TYPES := by simpa [requestedTypes] using ht
  have ho : outdated env w (some [t]) = [t] := by simp [outdated, requestedTypes, hout]
  have hok := (C67_second_call_quiet env (some [t]) w hr (by rw [ho]; simpa using hg)).1
  rw [(C67_downloads_outdated env (some [t]) w hr).2 hok, ho]
  rfl

example : ∃ (env : Env) (t : String) (w : World), t ∈ AEROSOL_TYPES ∧ env.cfg.download_from_internet = false ∧
    ¬ LutCurrent env w t ∧ GoodLut env t :=
  ⟨otherEnv exampleLutEnv exampleLutEnv.server false, "rural_aerosol", emptyWorld, by decide, rfl, emptyWorld_lut _ _,
    ["TAR".toList], ⟨200, rfl, by decide⟩, "PYSPECTRAL_ATM_CORR_LUT_RA", [], "v1.0.1".toList,
    [("PYSPECTRAL_ATM_CORR_LUT_RO", "v1.0.1".toList)], by decide +kernel, rfl, by simp,
    [], [], [], rfl, by simp, by simp, Or.inl rfl⟩

/-- C68, part that holds: with downloads switched off, constructing a Rayleigh object, the RSR
update and the RSR check request nothing and change no file, at any point.  Missing:
`rayleigh.check_and_download`, for which it is false. -/
theorem C68_switched_off_partial (env : Env) (hoff : env.cfg.download_from_internet = false) (w : World) :
    (∀ platform sensor atm t, Quiet (rayleighNew env platform sensor atm t) w) ∧
    (∀ dest dry, Quiet (downloadRsrUpdates env dest dry) w) ∧
    (∀ dest dry, Quiet (checkAndDownloadRsr env dest dry) w) := by
  have hupd : ∀ (v : World) dest dry, downloadRsrUpdates env dest dry v = (.ok false, v, []) ∨
      downloadRsrUpdates env dest dry v = (.ok true, v, []) := by
    intro v dest dry
    by_cases hc : RsrCurrent env v
    · exact Or.inl (updates_current env v hc dest dry)
    · right
      unfold downloadRsrUpdates
      rw [eff_bind_ok (show Eff.get v = (.ok v, v, []) from rfl)]
      simp only [rsrUptodate_false env v hc, hoff, Bool.false_eq_true, if_false, not_false_eq_true, if_true]
      rfl
  refine ⟨?_, ?_, ?_⟩
  · intro platform sensor atm t
    by_cases hok : ATMOSPHERES.contains atm = true ∧ t ∈ AEROSOL_TYPES
    · cases hs : normalizeSensor platform sensor with
      | error e =>
        obtain ⟨tr, htr, hx⟩ := rayleighConfig_run env t atm w
        rw [if_pos hok, if_pos hok] at htr
        have e' : rayleighNew env platform sensor atm t w = (.error e, configured env (configured env w), tr ++ []) := by
          unfold rayleighNew
          rw [eff_bind_ok htr, hs, eff_bind_error (show Eff.lift (.error e : Py String) _ = (.error e, _, []) from rfl)]
        exact quiet_of_eq e' ⟨rfl, rfl⟩ (by simpa using hx)
      | ok s =>
        obtain ⟨v, tr, h1, h2, hx, hrun⟩ := rayleighNew_run env platform sensor atm t w hok.1 hok.2 s hs
        rw [if_neg (by simp [hoff])] at hrun
        exact quiet_of_eq hrun ⟨h1, h2⟩ hx
    · obtain ⟨tr, htr, hx⟩ := rayleighConfig_run env t atm w
      rw [if_neg hok, if_neg hok] at htr
      have e : rayleighNew env platform sensor atm t w = (.error .attributeError, configured env w, tr) := by
        unfold rayleighNew
        rw [eff_bind_error htr]
      exact quiet_of_eq e ⟨rfl, rfl⟩ hx
  · intro dest dry
    rcases hupd w dest dry with h | h
    · exact quiet_of_eq h ⟨rfl, rfl⟩ (by simp)
    · exact quiet_of_eq h ⟨rfl, rfl⟩ (by simp)
  · intro dest dry x hx
    obtain ⟨-, h2, h3⟩ := checkAndDownload_eq env dest dry w
    rw [h2, h3] at hx
    unfold Eff.final Eff.crashStates at hx
    rcases hupd (configured env w) dest dry with h | h <;> rw [h] at hx <;>
    · simp only [List.mem_cons, List.not_mem_nil, or_false] at hx
      rcases hx with rfl | rfl | rfl | rfl <;> exact ⟨rfl, rfl⟩

example : Quiet (rayleighNew (otherEnv exampleLutEnv exampleLutEnv.server false) "Suomi-NPP" "viirs" "us-standard" "rural_aerosol")
    emptyWorld :=
  (C68_switched_off_partial (otherEnv exampleLutEnv exampleLutEnv.server false) rfl emptyWorld).1 _ _ _ _

end Verif.Props
