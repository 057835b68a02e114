import Verif.Lemmas.Download
import Verif.Lemmas.Wavenumber
import Verif.Model.Nir
/-
Lemmas about the construction of Calculator objects.
-/
namespace Verif.Lemmas
open Model PyNum
variable {α : Type} [PyNum α]

theorem eff_lift_ok {β : Type} {p : Py β} {a : β} (h : p = .ok a) (w : World) : Eff.lift p w = (.ok a, w, []) := by
  rw [h]; rfl

theorem eff_lift_error {β : Type} {p : Py β} {e : PyErr} (h : p = .error e) (w : World) :
    (Eff.lift p : Eff β) w = (.error e, w, []) := by
  rw [h]; rfl

theorem eff_get (w : World) : Eff.get w = (.ok w, w, []) := rfl

/-- the arguments of a construction, with the spectral responses read for them -/
structure NirArgs (α : Type) where
  sensor : Py (Sensor α)
  platform_name : String
  instrument : String
  band : BandArg α
  detector : String
  wavespace : String
  solar_flux : Option α
  sunz_threshold : α
  masking_limit : Option α

/-- `Calculator(platform_name, instrument, band, ...)` -/
def NirArgs.make (ne : NirEnv α) (k : NirArgs α) : Eff (Nir α) :=
  Nir.new ne k.sensor k.platform_name k.instrument k.band k.detector k.wavespace k.solar_flux k.sunz_threshold
    k.masking_limit

/-- the converter made first (the base class constructor) -/
def NirArgs.conv (k : NirArgs α) : Py (RadTb α) :=
  RadTb.new k.sensor k.platform_name k.instrument k.band k.detector k.wavespace

/-- the part before any file is touched -/
def NirArgs.pre (ne : NirEnv α) (k : NirArgs α) : Py (RadTb α × (String × α) × α) := do
  let c ← k.conv
  let nw ← nirBand c k.band
  let flux ← nirFlux ne c nw.1 k.solar_flux
  return (c, nw, flux)

/-- the file name chosen in a world -/
def nirPath (ne : NirEnv α) (w : World) (p i b : String) : String :=
  (lutfileFromConfig ne w (ne.tb2rad_dir.getD ne.tempdir) p i b).getD
    (OsPath.join (ne.tb2rad_dir.getD ne.tempdir) (autoLutname p i b ++ ".npz"))

/-- the finished object -/
def NirArgs.object (k : NirArgs α) (c : RadTb α) (nw : String × α) (flux : α) (f : String) (l : Lut α) : Nir α :=
  { conv := { c with bandname := some nw.1 }, bandname := nw.1, bandwavelength := nw.2, lutfile := f, lut := some l
    masking_limit := k.masking_limit, solar_flux := flux, sunz_threshold := k.sunz_threshold
    e3x := none, r3x := none, rad3x := none
    rad3x_t11 := none, rad3x_correction := Arr.scalar 1.0, solar_radiance := none }

theorem withDir_comm (d e : String) (w : World) : withDir d (withDir e w) = withDir e (withDir d w) := by
  refine World.ext' rfl ?_ rfl
  funext x
  simp only [withDir]
  split <;> split <;> rfl

theorem withDir_twice (d : String) (w : World) : withDir d (withDir d w) = withDir d w :=
  withDir_self (by simp [withDir])

theorem configured_withDir (env : Env) (w : World) : configured env (withDir env.cfg.rsr_dir w) = configured env w := by
  unfold configured
  rw [withDir_twice]

theorem configured_twice (env : Env) (w : World) : configured env (configured env w) = configured env w := by
  unfold configured
  rw [withDir_comm env.cfg.rsr_dir, withDir_twice, withDir_twice]

theorem configured_setFile (env : Env) (w : World) (p : Path) (c : Option Content) :
    configured env (w.setFile p c) = (configured env w).setFile p c := rfl

theorem configured_dirs (env : Env) (w : World) (d : String) (h : w.dirs d = true) :
    (configured env w).dirs d = true := by
  simp only [configured, withDir, h]
  split
  · rfl
  · split <;> rfl

theorem setLutfile_run (ne : NirEnv α) (p i b : String) (w : World) :
    ∃ t, setLutfile ne p i b w = (.ok (nirPath ne (configured ne.env w) p i b), configured ne.env w, t) ∧
      ∀ x ∈ t, x.files = w.files ∧ configured ne.env x = configured ne.env w := by
  refine ⟨[withDir ne.env.cfg.rsr_dir w, configured ne.env w], ?_, ?_⟩
  · unfold setLutfile
    rw [eff_bind_ok (getConfig_run _ w)]
    rw [eff_bind_ok (eff_get _)]
    unfold nirPath
    generalize lutfileFromConfig ne (configured ne.env w) (ne.tb2rad_dir.getD ne.tempdir) p i b = o
    cases o <;> simp [eff_pure]
  · intro x hx
    simp only [List.mem_cons, List.not_mem_nil, or_false] at hx
    rcases hx with rfl | rfl
    · exact ⟨rfl, configured_withDir _ _⟩
    · exact ⟨rfl, configured_twice _ _⟩

theorem make_pre_error (ne : NirEnv α) (k : NirArgs α) (e : PyErr) (h : k.pre ne = .error e) (w : World) :
    k.make ne w = (.error e, w, []) := by
  unfold NirArgs.pre NirArgs.conv at h
  unfold NirArgs.make Nir.new
  cases h1 : RadTb.new k.sensor k.platform_name k.instrument k.band k.detector k.wavespace with
  | error e' =>
    rw [h1] at h
    cases h
    rw [eff_bind_error (eff_lift_error rfl w)]
  | ok c =>
    rw [h1] at h
    rw [eff_bind_ok (eff_lift_ok rfl w)]
    simp only [bind, Except.bind] at h
    cases h2 : nirBand c k.band with
    | error e' =>
      rw [h2] at h
      cases h
      rw [eff_bind_error (eff_lift_error rfl w)]
      rfl
    | ok nw =>
      rw [h2] at h
      rw [eff_bind_ok (eff_lift_ok rfl w)]
      dsimp only at h
      cases h4 : nirFlux ne c nw.1 k.solar_flux with
      | ok f => rw [h4] at h; cases h
      | error e' =>
        rw [h4] at h
        cases h
        rw [eff_bind_error (eff_lift_error rfl w)]
        rfl

theorem make_pre_ok (ne : NirEnv α) (k : NirArgs α) (c : RadTb α) (nw : String × α) (flux : α)
    (h : k.pre ne = .ok (c, nw, flux)) (w : World) :
    ∃ t, (∀ x ∈ t, x.files = w.files ∧ configured ne.env x = configured ne.env w) ∧
    k.make ne w = (((setLut ne c (nirPath ne (configured ne.env w) k.platform_name k.instrument nw.1)
        (configured ne.env w)).1.map fun l => k.object c nw flux
          (nirPath ne (configured ne.env w) k.platform_name k.instrument nw.1) l),
      (setLut ne c (nirPath ne (configured ne.env w) k.platform_name k.instrument nw.1) (configured ne.env w)).2.1,
      t ++ (setLut ne c (nirPath ne (configured ne.env w) k.platform_name k.instrument nw.1) (configured ne.env w)).2.2)
      := by
  unfold NirArgs.pre NirArgs.conv at h
  unfold NirArgs.make Nir.new
  cases h1 : RadTb.new k.sensor k.platform_name k.instrument k.band k.detector k.wavespace with
  | error e' => rw [h1] at h; cases h
  | ok c' =>
    rw [h1] at h
    simp only [bind, Except.bind] at h
    cases h2 : nirBand c' k.band with
    | error e' => rw [h2] at h; cases h
    | ok nw' =>
      rw [h2] at h
      dsimp only at h
      cases h3 : nirFlux ne c' nw'.1 k.solar_flux with
      | error e' => rw [h3] at h; cases h
      | ok f =>
      rw [h3] at h
      cases h
      obtain ⟨t, ht, hx⟩ := setLutfile_run ne k.platform_name k.instrument nw.1 w
      refine ⟨t, hx, ?_⟩
      rw [eff_bind_ok (eff_lift_ok rfl w), eff_bind_ok (eff_lift_ok h2 w), eff_bind_ok (eff_lift_ok h3 w),
        eff_bind_ok ht]
      rcases e : setLut ne c (nirPath ne (configured ne.env w) k.platform_name k.instrument nw.1)
        (configured ne.env w) with ⟨r, w', t'⟩
      cases r with
      | error e' => rw [eff_bind_error e]; rfl
      | ok l => rw [eff_bind_ok e]; simp [Except.map, NirArgs.object, eff_pure]

/-! ### The table -/

theorem setLut_there (ne : NirEnv α) (c : RadTb α) (f : String) (w : World) (content : Content)
    (h : w.files (OsPath.file f) = some content) : setLut ne c f w = (ne.npzDecode content, w, []) := by
  unfold setLut
  rw [eff_bind_ok (eff_get w)]
  have : OsPath.pathExists w f = true := by simp [OsPath.pathExists, h]
  simp only [this, if_true]
  unfold readTb2radLut
  rw [eff_bind_ok (eff_get w), h]
  rfl

theorem setLut_dir (ne : NirEnv α) (c : RadTb α) (f : String) (w : World)
    (h : w.files (OsPath.file f) = none) (hd : w.dirs f = true) : setLut ne c f w = (.error .fileNotFound, w, []) := by
  unfold setLut
  rw [eff_bind_ok (eff_get w)]
  have : OsPath.pathExists w f = true := by simp [OsPath.pathExists, hd]
  simp only [this, if_true]
  unfold readTb2radLut
  rw [eff_bind_ok (eff_get w), h]
  rfl

theorem setLut_no_table (ne : NirEnv α) (c : RadTb α) (f : String) (w : World) (e : PyErr)
    (h : w.files (OsPath.file f) = none) (hd : w.dirs f = false) (ho : c.makeTb2radLut ne.nanCast = .error e) :
    setLut ne c f w = (.error e, w, []) := by
  unfold setLut
  rw [eff_bind_ok (eff_get w)]
  have : OsPath.pathExists w f = false := by simp [OsPath.pathExists, h, hd]
  simp only [this, Bool.false_eq_true, if_false]
  rw [eff_bind_error (show makeTb2radLutFile ne c f w = (.error e, w, []) from ?_)]
  · rfl
  · unfold makeTb2radLutFile
    rw [eff_bind_error (eff_lift_error ho w)]

theorem setLut_no_directory (ne : NirEnv α) (c : RadTb α) (f : String) (w : World) (l : Lut α)
    (h : w.files (OsPath.file f) = none) (hd : w.dirs f = false) (ho : c.makeTb2radLut ne.nanCast = .ok l)
    (hdir : w.dirs (OsPath.file (savezPath f)).1 = false) :
    setLut ne c f w = (.error .fileNotFound, w, []) := by
  unfold setLut
  rw [eff_bind_ok (eff_get w)]
  have : OsPath.pathExists w f = false := by simp [OsPath.pathExists, h, hd]
  simp only [this, Bool.false_eq_true, if_false]
  rw [eff_bind_error (show makeTb2radLutFile ne c f w = (.error .fileNotFound, w, []) from ?_)]
  · rfl
  · unfold makeTb2radLutFile
    rw [eff_bind_ok (eff_lift_ok ho w), eff_bind_error (openWrite_missing hdir)]
    rfl

/-- appending passes through exactly the prefixes -/
theorem append_prefixes (p : Path) (data : Content) : ∀ (w : World) (c : Content), w.files p = some c →
    ∃ t, FileOp.append p data w = (.ok (), w.setFile p (some (c ++ data)), t) ∧
      ∀ x ∈ t, ∃ a b, data = a ++ b ∧ x = w.setFile p (some (c ++ a)) := by
  induction data with
  | nil =>
    intro w c h
    refine ⟨[], ?_, by simp⟩
    rw [List.append_nil, setFile_self w p _ h]
    rfl
  | cons d ds ih =>
    intro w c h
    have e1 : FileOp.appendByte p d w =
        (.ok (), w.setFile p (some (c ++ [d])), [w.setFile p (some (c ++ [d]))]) := by
      show (Except.ok (), w.setFile p (some ((w.files p).getD [] ++ [d])),
        [w.setFile p (some ((w.files p).getD [] ++ [d]))]) = _
      rw [h]; rfl
    obtain ⟨t, ht, hx⟩ := ih (w.setFile p (some (c ++ [d]))) (c ++ [d]) (by simp [setFile_files])
    refine ⟨w.setFile p (some (c ++ [d])) :: t, ?_, ?_⟩
    · unfold FileOp.append at *
      rw [forEach_cons, eff_bind_ok e1, ht, setFile_setFile]
      simp
    · intro x hxm
      rcases List.mem_cons.1 hxm with rfl | hxm
      · exact ⟨[d], ds, rfl, rfl⟩
      · obtain ⟨a, b, hab, rfl⟩ := hx x hxm
        exact ⟨d :: a, b, by rw [hab]; rfl, by rw [setFile_setFile]; simp⟩

theorem setLut_new (ne : NirEnv α) (c : RadTb α) (f : String) (w : World) (l : Lut α)
    (h : w.files (OsPath.file f) = none) (hd : w.dirs f = false) (ho : c.makeTb2radLut ne.nanCast = .ok l)
    (hnpz : savezPath f = f) (hdir : w.dirs (OsPath.file f).1 = true) :
    ∃ t, setLut ne c f w = (ne.npzDecode (ne.npzEncode l),
        w.setFile (OsPath.file f) (some (ne.npzEncode l)), w.setFile (OsPath.file f) (some []) :: t) ∧
      ∀ x ∈ t, ∃ a b, ne.npzEncode l = a ++ b ∧ x = w.setFile (OsPath.file f) (some a) := by
  obtain ⟨t, ht, hx⟩ := append_prefixes (OsPath.file f) (ne.npzEncode l) (w.setFile (OsPath.file f) (some [])) []
    (by simp [setFile_files])
  rw [List.nil_append, setFile_setFile] at ht
  refine ⟨t, ?_, ?_⟩
  · unfold setLut
    rw [eff_bind_ok (eff_get w)]
    have : OsPath.pathExists w f = false := by simp [OsPath.pathExists, h, hd]
    simp only [this, Bool.false_eq_true, if_false]
    have hm : makeTb2radLutFile ne c f w = (.ok (), w.setFile (OsPath.file f) (some (ne.npzEncode l)),
        w.setFile (OsPath.file f) (some []) :: t) := by
      unfold makeTb2radLutFile
      rw [eff_bind_ok (eff_lift_ok ho w), hnpz]
      rw [eff_bind_ok (openWrite_ok hdir), ht]
      simp
    rw [eff_bind_ok hm]
    unfold readTb2radLut
    rw [eff_bind_ok (eff_get _)]
    simp [setFile_files, Eff.lift]
  · intro x hxm
    obtain ⟨a, b, hab, rfl⟩ := hx x hxm
    exact ⟨a, b, hab, by rw [setFile_setFile]; rfl⟩

/-- every run of `_set_lut`: the file it looks at is the only one changed, and only from absent to
the own table -/
theorem setLut_cases (ne : NirEnv α) (c : RadTb α) (f : String) (w : World) (hnpz : savezPath f = f) :
    (∃ content, w.files (OsPath.file f) = some content ∧ setLut ne c f w = (ne.npzDecode content, w, [])) ∨
    (w.files (OsPath.file f) = none ∧ ∃ e, setLut ne c f w = (.error e, w, [])) ∨
    (w.files (OsPath.file f) = none ∧ w.dirs f = false ∧ w.dirs (OsPath.file f).1 = true ∧
      ∃ l t, c.makeTb2radLut ne.nanCast = .ok l ∧
      setLut ne c f w = (ne.npzDecode (ne.npzEncode l),
        w.setFile (OsPath.file f) (some (ne.npzEncode l)), w.setFile (OsPath.file f) (some []) :: t) ∧
      ∀ x ∈ t, ∃ a b, ne.npzEncode l = a ++ b ∧ x = w.setFile (OsPath.file f) (some a)) := by
  cases h : w.files (OsPath.file f) with
  | some content => exact Or.inl ⟨content, rfl, setLut_there ne c f w content h⟩
  | none =>
    right
    cases hd : w.dirs f with
    | true => exact Or.inl ⟨rfl, _, setLut_dir ne c f w h hd⟩
    | false =>
      cases ho : c.makeTb2radLut ne.nanCast with
      | error e => exact Or.inl ⟨rfl, e, setLut_no_table ne c f w e h hd ho⟩
      | ok l =>
        cases hdir : w.dirs (OsPath.file f).1 with
        | false => exact Or.inl ⟨rfl, _, setLut_no_directory ne c f w l h hd ho (by rw [hnpz]; exact hdir)⟩
        | true =>
          obtain ⟨t, h1, h2⟩ := setLut_new ne c f w l h hd ho hnpz hdir
          exact Or.inr ⟨rfl, rfl, rfl, l, t, rfl, h1, h2⟩

theorem endsWith_append (a b : String) : Str.endsWith (a ++ b) b = true := by
  unfold Str.endsWith
  rw [List.isSuffixOf_iff_suffix, String.toList_append]
  exact List.suffix_append _ _

theorem endsWith_join (a b e : String) (h : Str.endsWith b e = true) : Str.endsWith (OsPath.join a b) e = true := by
  unfold Str.endsWith at *
  rw [List.isSuffixOf_iff_suffix] at *
  unfold OsPath.join
  split_ifs
  · exact h
  · rw [String.toList_append]; exact h.trans (List.suffix_append _ _)
  · rw [String.toList_append]; exact h.trans (List.suffix_append _ _)

theorem endsWith_basename (f : String) (h : Str.endsWith f ".npz" = true) :
    Str.endsWith (OsPath.basename f) ".npz" = true := by
  unfold Str.endsWith at *
  rw [List.isSuffixOf_iff_suffix] at *
  obtain ⟨pre, hp⟩ := h
  unfold OsPath.basename OsPath.tailL
  have h0 : ".npz".toList = ['.', 'n', 'p', 'z'] := by decide
  rw [h0] at hp ⊢
  rw [String.toList_ofList, ← hp, List.reverse_append]
  have h1 : ['.', 'n', 'p', 'z'].reverse = ['z', 'p', 'n', '.'] := by decide
  rw [h1]
  have h2 : List.takeWhile (fun x => decide (x ≠ '/')) (['z', 'p', 'n', '.'] ++ pre.reverse) =
      ['z', 'p', 'n', '.'] ++ List.takeWhile (fun x => decide (x ≠ '/')) pre.reverse := by
    simp [List.takeWhile]
  rw [h2, List.reverse_append, ← h1, List.reverse_reverse]
  exact List.suffix_append _ _

/-- a chosen file name ends in .npz, unless the empty string is configured -/
theorem nirPath_npz (ne : NirEnv α) (w : World) (p i b : String) (h : nirPath ne w p i b ≠ "") :
    Str.endsWith (nirPath ne w p i b) ".npz" = true := by
  have hauto : Str.endsWith (OsPath.join (ne.tb2rad_dir.getD ne.tempdir) (autoLutname p i b ++ ".npz")) ".npz" = true :=
    endsWith_join _ _ _ (endsWith_append _ _)
  unfold nirPath at *
  generalize OsPath.join (ne.tb2rad_dir.getD ne.tempdir) (autoLutname p i b ++ ".npz") = auto at *
  unfold lutfileFromConfig at *
  generalize ne.sections.get? (p ++ "-" ++ i) = sec at *
  cases sec with
  | none => exact hauto
  | some opt =>
    dsimp only at h ⊢
    generalize lutfileFromOption b opt = lf at h ⊢
    cases lf with
    | none => exact hauto
    | some f =>
      have h1 : Str.endsWith (if Str.endsWith f ".npz" then f else f ++ ".npz") ".npz" = true := by
        split
        · assumption
        · exact endsWith_append _ _
      split
      · exact hauto
      · rename_i he
        cases he
        exact absurd rfl h
      · rename_i f' _ he
        cases he
        clear h
        generalize (if Str.endsWith f ".npz" = true then f else f ++ ".npz") = g at h1 ⊢
        have h2 := endsWith_join (ne.tb2rad_dir.getD ne.tempdir) _ _ (endsWith_basename _ h1)
        cases OsPath.pathExists w (OsPath.dirname g)
        · exact h2
        · exact h1

theorem savezPath_nirPath (ne : NirEnv α) (w : World) (p i b : String) (h : nirPath ne w p i b ≠ "") :
    savezPath (nirPath ne w p i b) = nirPath ne w p i b := by
  unfold savezPath
  rw [if_pos (nirPath_npz ne w p i b h)]

/-! ### The converter made first -/

/-- the second half of the constructor -/
def radTbRest (inst : InstVal) (platform_name instrument : String) (band : BandArg α) (detector wavespace : String)
    (tb_resolution : α) (rsr : Rsr α) (unit : String) (si_scale : α) : Py (RadTb α) := do
  let bandname ← converterBandname instrument rsr band
  let b ← converterLookup wavespace inst rsr bandname
  let det ← Dict.getItem b detector
  let waves ← getArr det wavespace
  let wave := waves.map (· * si_scale)
  let response ← getArr det "response"
  let integral ← NP.trapezoid response wave
  return {
    platform_name, instrument, bandname, detector, wavespace, tb_resolution
    tb_scale := 1.0 / tb_resolution
    wave_unit := unit, wave_si_scale := si_scale
    rsr, rsrInstrument := inst, wave, response
    rsr_integral := integral }

theorem radTbRest_inv {inst : InstVal} {p i d ws : String} {band : BandArg α} {res sc : α} {rsr : Rsr α}
    {unit : String} {c : RadTb α} (h : radTbRest inst p i band d ws res rsr unit sc = .ok c) :
    ∃ name, c.bandname = some name ∧ c.instrument = i ∧ c.wavespace = ws ∧ (c.detector = d ∧ c.tb_resolution = res ∧ c.tb_scale = 1.0 / res) ∧ c.rsr = rsr ∧
      c.rsrInstrument = inst ∧ converterBandname i rsr band = .ok (some name) := by
  unfold radTbRest at h
  simp only [bind, Except.bind] at h
  cases hb : converterBandname i rsr band with
  | error e => rw [hb] at h; cases h
  | ok bn =>
    rw [hb] at h
    dsimp only at h
    cases bn with
    | none => cases h
    | some name =>
      cases hl : converterLookup ws inst rsr (some name) with
      | error e => rw [hl] at h; cases h
      | ok b =>
        rw [hl] at h
        dsimp only at h
        cases hd : Dict.getItem b d with
        | error e => rw [hd] at h; cases h
        | ok det =>
          rw [hd] at h
          dsimp only at h
          cases hw : getArr det ws with
          | error e => rw [hw] at h; cases h
          | ok w =>
            rw [hw] at h
            dsimp only at h
            cases hr : getArr det "response" with
            | error e => rw [hr] at h; cases h
            | ok r =>
              rw [hr] at h
              dsimp only at h
              cases ht : NP.trapezoid r (w.map (· * sc)) with
              | error e => rw [ht] at h; cases h
              | ok I =>
                rw [ht] at h
                cases h
                exact ⟨name, rfl, rfl, rfl, ⟨rfl, rfl, rfl⟩, rfl, rfl, rfl⟩

theorem radTbNew_inv {sensor : Py (Sensor α)} {p i d ws : String} {band : BandArg α} {res : α} {c : RadTb α}
    (h : RadTb.new sensor p i band d ws res = .ok c) :
    ∃ name, c.bandname = some name ∧ c.instrument = i ∧ c.wavespace = ws ∧ (c.detector = d ∧ c.tb_resolution = res ∧ c.tb_scale = 1.0 / res) ∧
      converterBandname i c.rsr band = .ok (some name) ∧
      ∃ s, sensor = .ok s ∧ (ws ≠ WAVE_NUMBER → c.rsr = s.rsr ∧ c.rsrInstrument = s.instrument) ∧
        (ws = WAVE_NUMBER → ∃ info, convert2wavenumber s.rsr = .ok (c.rsr, info)) := by
  unfold RadTb.new at h
  by_cases h0 : ws ≠ WAVE_LENGTH ∧ ws ≠ WAVE_NUMBER
  · rw [if_pos h0] at h; cases h
  · rw [if_neg h0] at h
    split at h
    · cases h
    cases sensor with
    | error e => cases h
    | ok s =>
      by_cases hws : ws = WAVE_NUMBER
      · cases hc : convert2wavenumber s.rsr with
        | error e => simp only [hws, if_true, hc, bind, Except.bind] at h; cases h
        | ok v =>
          obtain ⟨r, info⟩ := v
          have h2 : radTbRest s.instrument p i band d ws res r info.unit info.si_scale = .ok c := by
            simp only [hws, if_true, hc, bind, Except.bind] at h
            rw [hws]
            exact h
          obtain ⟨name, g1, g2, g3, g4, g5, g6, g7⟩ := radTbRest_inv h2
          exact ⟨name, g1, g2, g3, g4, by rw [g5]; exact g7, s, rfl, fun hn => absurd hws hn,
            fun _ => ⟨info, by rw [g5]; exact hc⟩⟩
      · have h2 : radTbRest s.instrument p i band d ws res s.rsr s.unit s.si_scale = .ok c := by
          simp only [hws, if_false, bind, Except.bind] at h
          exact h
        obtain ⟨name, g1, g2, g3, g4, g5, g6, g7⟩ := radTbRest_inv h2
        exact ⟨name, g1, g2, g3, g4, by rw [g5]; exact g7, s, rfl, fun _ => ⟨g5, g6⟩, fun hn => absurd hn hws⟩

/-- the wavelength the constructor looks at: the number given, or the central wavelength of the
first detector of the band named -/
def BandWavelength (k : NirArgs α) (c : RadTb α) (x : α) : Prop :=
  match k.band with
  | .number y => y = x
  | .name _ => ∃ b det, converterLookup c.wavespace c.rsrInstrument c.rsr c.bandname = .ok b ∧
      Dict.getItem b "det-1" = .ok det ∧ det.get? "central_wavelength" = some (.num x)
  | .other => False

theorem nirBand_eq {k : NirArgs α} {c : RadTb α} (h : k.conv = .ok c) {x : α} (hx : BandWavelength k c x) :
    ∃ name, c.bandname = some name ∧
      nirBand c k.band = if gt x 3.95 || lt x 3.5 then .error .notImplemented else .ok (name, x) := by
  obtain ⟨name, h1, h2, h3, _, h4, _⟩ := radTbNew_inv h
  refine ⟨name, h1, ?_⟩
  unfold nirBand
  rw [h2, h4]
  simp only [bind, Except.bind, notNone]
  unfold BandWavelength at hx
  cases hb : k.band with
  | number y =>
    rw [hb] at hx
    subst hx
    rfl
  | name s =>
    rw [hb] at hx
    obtain ⟨b, det, g1, g2, g3⟩ := hx
    rw [h1] at g1
    rw [g1]
    dsimp only
    rw [g2]
    have g4 : getNum det "central_wavelength" = .ok x := by
      simp only [getNum, Dict.getItem, g3, bind, Except.bind]
      rfl
    dsimp only
    rw [g4]
    rfl
  | other => rw [hb] at hx; exact hx.elim

end Verif.Lemmas
