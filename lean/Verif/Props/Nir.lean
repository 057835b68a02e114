import Verif.Lemmas.NirNew
import Verif.Props.Converters
import Verif.Props.RadTb
/-
Properties C78-C80, C95, C96: construction of Calculator objects and the cached Tb/radiance
tables.
-/
namespace Verif.Props
open XF Model PyNum Lemmas Spec

/-! ### An example -/

/-- a sensor with one band at 3.7 micron, seen by a working and a dead detector -/
noncomputable def exNirSensor : Sensor XF :=
  { rsr := [("ch20", [("det-1", [("wavelength", .arr [fin 3.6, fin 3.7, fin 3.8]),
        ("response", .arr [fin 0, fin 1, fin 0]), ("central_wavelength", .num (fin 3.7))]),
      ("det-2", [("wavelength", .arr [fin 3.6, fin 3.7, fin 3.8]),
        ("response", .arr [fin 0, fin 0, fin 0]), ("central_wavelength", .num (fin 3.7))])])]
    instrument := .str "xyz", unit := "1e-6 m", si_scale := fin 1e-6 }

noncomputable def exNirArgs (x : ℝ) (detector wavespace : String) : NirArgs XF :=
  { sensor := .ok { exNirSensor with rsr := [("ch20", [("det-1", [("wavelength", .arr [fin 3.6, fin 3.7, fin 3.8]),
        ("response", .arr [fin 0, fin 1, fin 0]), ("central_wavelength", .num (fin x))]),
      ("det-2", [("wavelength", .arr [fin 3.6, fin 3.7, fin 3.8]),
        ("response", .arr [fin 0, fin 0, fin 0]), ("central_wavelength", .num (fin x))])])] }
    platform_name := "P", instrument := "xyz", band := .name "ch20", detector, wavespace
    solar_flux := some (fin 2), sunz_threshold := fin 85, masking_limit := some (fin 85) }

theorem exNirConv (x : ℝ) : ∃ c, (exNirArgs x "det-1" "wavelength").conv = .ok c ∧ c.bandname = some "ch20" ∧
    c.wave = finL [3.6 * 1e-6, 3.7 * 1e-6, 3.8 * 1e-6] ∧ c.response = finL [0, 1, 0] ∧
    c.tb_resolution = 0.1 ∧ c.tb_scale = 1.0 / 0.1 ∧ c.wavespace = "wavelength" ∧
    .ok c.rsr_integral = NP.trapezoid (finL [0, 1, 0]) (finL [3.6 * 1e-6, 3.7 * 1e-6, 3.8 * 1e-6]) := by
  unfold NirArgs.conv RadTb.new
  rw [if_neg (by simp [exNirArgs, WAVE_LENGTH]), if_neg (nonzero_resolution tenth_nonzero)]
  exact ⟨_, rfl, rfl, rfl, rfl, rfl, rfl, rfl, rfl⟩

theorem exNirWavelength (x : ℝ) (c : RadTb XF) (h : (exNirArgs x "det-1" "wavelength").conv = .ok c) :
    BandWavelength (exNirArgs x "det-1" "wavelength") c (fin x) := by
  unfold NirArgs.conv RadTb.new at h
  rw [if_neg (by simp [exNirArgs, WAVE_LENGTH]), if_neg (nonzero_resolution tenth_nonzero)] at h
  cases h
  exact ⟨_, _, rfl, rfl, rfl⟩

noncomputable def exNirEnv (enc : Lut XF → Content) (dec : Content → Py (Lut XF)) : NirEnv XF :=
  { env := { cfg := ⟨"/data", "/ray", true⟩, server := fun _ => .raises .ioError, untar := fun _ => ([], false) }
    tb2rad_dir := some "/lut", tempdir := "/tmp", sections := [], solarFile := .ok ([], [])
    spline := fun _ _ => .error .valueError
    npzEncode := enc, npzDecode := dec, nanCast := 0 }

/-! ### C78 -/

/-- C78: outside 3.5-3.95 micron the constructor raises NotImplementedError; nothing has been
written or read. -/
theorem C78_not_supported (ne : NirEnv XF) (k : NirArgs XF) (c : RadTb XF) (hc : k.conv = .ok c) (x : ℝ)
    (hx : BandWavelength k c (fin x)) (h : x < 3.5 ∨ 3.95 < x) (w : World) :
    k.make ne w = (.error .notImplemented, w, []) := by
  apply make_pre_error
  obtain ⟨name, _, h1⟩ := nirBand_eq hc hx
  unfold NirArgs.pre
  rw [hc]
  simp only [bind, Except.bind, h1]
  rw [if_pos]
  rcases h with h | h
  · simp [h]
  · simp [h]

/-- C78: from 3.5 to 3.95 micron, both included, the constructor succeeds if the solar flux is
given and the table is in the cache; the object has the wavelength, flux and table. -/
theorem C78_supported (ne : NirEnv XF) (k : NirArgs XF) (c : RadTb XF) (hc : k.conv = .ok c) (x : ℝ) (f : XF)
    (hx : BandWavelength k c (fin x)) (h1 : 3.5 ≤ x) (h2 : x ≤ 3.95) (hf : k.solar_flux = some f) (w : World)
    (content : Content) (l : Lut XF)
    (hfile : ∀ name, c.bandname = some name → w.files (OsPath.file
      (nirPath ne (configured ne.env w) k.platform_name k.instrument name)) = some content)
    (hl : ne.npzDecode content = .ok l) :
    ∃ (s : Nir XF) (w' : World) (t : List World), k.make ne w = (.ok s, w', t) ∧ s.bandwavelength = fin x ∧
      some s.bandname = c.bandname ∧
      s.solar_flux = f ∧ s.lut = some l ∧ s.masking_limit = k.masking_limit ∧ s.sunz_threshold = k.sunz_threshold ∧
      w'.files = w.files := by
  obtain ⟨name, hn, h3⟩ := nirBand_eq hc hx
  have hp : k.pre ne = .ok (c, (name, fin x), f) := by
    unfold NirArgs.pre
    rw [hc]
    simp only [bind, Except.bind, h3]
    rw [if_neg]
    · simp only [hf, nirFlux]; rfl
    · simp [h1, h2]
  obtain ⟨t, _, h4⟩ := make_pre_ok ne k c _ f hp w
  rw [setLut_there ne c _ _ content (by rw [configured_files]; exact hfile name hn), hl] at h4
  exact ⟨_, _, _, h4, rfl, hn.symm, rfl, rfl, rfl, rfl, rfl⟩

example (w : World) : ∃ ne : NirEnv XF, (exNirArgs 3.951 "det-1" "wavelength").make ne w = (.error .notImplemented, w, []) := by
  obtain ⟨c, hc, _⟩ := exNirConv 3.951
  exact ⟨exNirEnv (fun _ => []) (fun _ => .error .ioError),
    C78_not_supported _ _ c hc 3.951 (exNirWavelength _ c hc) (Or.inr (by norm_num)) w⟩

/-- the file of the example -/
theorem exNirPath (enc : Lut XF → Content) (dec : Content → Py (Lut XF)) (w : World) :
    nirPath (exNirEnv enc dec) w "P" "xyz" "ch20" = "/lut/tb2rad_lut_p_xyz_ch20.npz" := by
  unfold nirPath lutfileFromConfig
  simp only [exNirEnv, Dict.get?, Option.getD_none, Option.getD_some]
  decide

theorem exNirFile : OsPath.file "/lut/tb2rad_lut_p_xyz_ch20.npz" = ("/lut", "tb2rad_lut_p_xyz_ch20.npz") := by decide

example : ∃ (ne : NirEnv XF) (w : World) (s : Nir XF) (w' : World) (t : List World),
    (exNirArgs 3.95 "det-1" "wavelength").make ne w = (.ok s, w', t) ∧ s.solar_flux = fin 2 := by
  obtain ⟨c, hc, hn, _⟩ := exNirConv 3.95
  obtain ⟨s, w', t, h1, _, _, h2, _⟩ := C78_supported (exNirEnv (fun _ => []) (fun _ => .ok ⟨[fin 150], [fin 1]⟩))
    (exNirArgs 3.95 "det-1" "wavelength") c hc 3.95 (fin 2) (exNirWavelength _ c hc) (by norm_num) le_rfl rfl
    ⟨fun _ => some [], fun _ => true, []⟩ [] ⟨[fin 150], [fin 1]⟩ (fun _ _ => rfl) rfl
  exact ⟨_, _, s, w', t, h1, h2⟩

/-! ### C79 -/

/-- The file name configured for a platform, instrument and band: the same for all bands, or by
the first entry for the band's name as such or in lower case. -/
inductive ConfiguredLut (ne : NirEnv XF) (platform instrument band : String) : String → Prop
  | all (s : String) : ne.sections.get? (platform ++ "-" ++ instrument) = some (.file s) →
      ConfiguredLut ne platform instrument band s
  | perBand (d pre post : Dict String (Option String)) (key s : String) :
      ne.sections.get? (platform ++ "-" ++ instrument) = some (.perBand d) → d = pre ++ (key, some s) :: post →
      (key = band ∨ key = Str.lower band) → (∀ e ∈ pre, e.1 ≠ band ∧ e.1 ≠ Str.lower band) →
      ConfiguredLut ne platform instrument band s

theorem lutfileFromDict_first (band key s : String) (post : Dict String (Option String)) :
    ∀ pre : Dict String (Option String), (key = band ∨ key = Str.lower band) →
    (∀ e ∈ pre, e.1 ≠ band ∧ e.1 ≠ Str.lower band) → lutfileFromDict band (pre ++ (key, some s) :: post) = some s
  | [], h, _ => by
    rw [List.nil_append, lutfileFromDict, if_pos h]
  | e :: pre, h, hp => by
    have h1 := hp e (List.mem_cons_self ..)
    rw [List.cons_append, lutfileFromDict, if_neg (by tauto)]
    exact lutfileFromDict_first band key s post pre h fun e' he => hp e' (List.mem_cons_of_mem _ he)

theorem lutfileFromDict_none (band : String) : ∀ d : Dict String (Option String),
    (∀ e ∈ d, e.1 ≠ band ∧ e.1 ≠ Str.lower band) → lutfileFromDict band d = none
  | [], _ => rfl
  | e :: d, h => by
    have h1 := h e (List.mem_cons_self ..)
    rw [lutfileFromDict, if_neg (by tauto)]
    exact lutfileFromDict_none band d fun e' he => h e' (List.mem_cons_of_mem _ he)

theorem configuredLut_option (ne : NirEnv XF) (p i b s : String) (h : ConfiguredLut ne p i b s) :
    ∃ opt, ne.sections.get? (p ++ "-" ++ i) = some opt ∧ lutfileFromOption b opt = some s := by
  cases h with
  | all _ h => exact ⟨_, h, rfl⟩
  | perBand d pre post key _ h hd hk hp =>
    subst hd
    exact ⟨_, h, lutfileFromDict_first b key s post pre hk hp⟩

/-- everything a successful construction tells -/
theorem make_inv (ne : NirEnv XF) (k : NirArgs XF) (w w' : World) (t : List World) (s : Nir XF)
    (h : k.make ne w = (.ok s, w', t)) :
    ∃ c nw flux l, k.pre ne = .ok (c, nw, flux) ∧ s = k.object c nw flux s.lutfile l ∧
      s.lutfile = nirPath ne (configured ne.env w) k.platform_name k.instrument nw.1 ∧
      (setLut ne c s.lutfile (configured ne.env w)).1 = .ok l ∧
      (setLut ne c s.lutfile (configured ne.env w)).2.1 = w' := by
  cases hp : k.pre ne with
  | error e => rw [make_pre_error ne k e hp w] at h; cases h
  | ok q =>
    obtain ⟨c, nw, flux⟩ := q
    obtain ⟨t', _, h1⟩ := make_pre_ok ne k c nw flux hp w
    rw [h] at h1
    have e1 := congrArg Prod.fst h1
    have e2 := congrArg (fun q => q.2.1) h1
    simp only at e1 e2
    cases hs : (setLut ne c (nirPath ne (configured ne.env w) k.platform_name k.instrument nw.1)
        (configured ne.env w)).1 with
    | error e => rw [hs] at e1; cases e1
    | ok l =>
      rw [hs] at e1
      cases e1
      exact ⟨c, nw, flux, l, rfl, rfl, rfl, hs, e2.symm⟩

/-- C79: the file of the table.  Without a configured name it is
`tb2rad_lut_<platform>_<instrument>_<band>.npz` in lower case in the table directory (the
configured one or the temporary directory).  A configured name gets the extension .npz if it has
not got it, and is used as it is if its directory exists, else moved to the table directory.
(An empty string as configured name is not covered.) -/
theorem C79_table_file (ne : NirEnv XF) (k : NirArgs XF) (w w' : World) (t : List World) (s : Nir XF)
    (h : k.make ne w = (.ok s, w', t)) :
    let dir := ne.tb2rad_dir.getD ne.tempdir
    (((ne.sections.get? (k.platform_name ++ "-" ++ k.instrument) = none ∨
        ne.sections.get? (k.platform_name ++ "-" ++ k.instrument) = some .empty ∨
        ∃ d, ne.sections.get? (k.platform_name ++ "-" ++ k.instrument) = some (.perBand d) ∧
          ∀ e ∈ d, e.1 ≠ s.bandname ∧ e.1 ≠ Str.lower s.bandname) →
      s.lutfile = OsPath.join dir ("tb2rad_lut_" ++ Str.lower k.platform_name ++ "_" ++ Str.lower k.instrument ++ "_" ++
        Str.lower s.bandname ++ ".npz")) ∧
    ∀ f, ConfiguredLut ne k.platform_name k.instrument s.bandname f → f ≠ "" →
      ∀ g, g = (if Str.endsWith f ".npz" then f else f ++ ".npz") →
        (OsPath.pathExists (configured ne.env w) (OsPath.dirname g) = true → s.lutfile = g) ∧
        (OsPath.pathExists (configured ne.env w) (OsPath.dirname g) = false →
          s.lutfile = OsPath.join dir (OsPath.basename g))) := by
  obtain ⟨c, nw, flux, l, _, h2, h3, _⟩ := make_inv ne k w w' t s h
  have hb : s.bandname = nw.1 := by rw [h2]; rfl
  rw [hb]
  dsimp only
  constructor
  · intro hn
    rw [h3]
    unfold nirPath
    have : lutfileFromConfig ne (configured ne.env w) (ne.tb2rad_dir.getD ne.tempdir) k.platform_name k.instrument nw.1 =
        none := by
      unfold lutfileFromConfig
      rcases hn with hn | hn | ⟨d, hn, hd⟩
      · rw [hn]
      · rw [hn]; rfl
      · rw [hn]
        dsimp only
        rw [show lutfileFromOption nw.1 (.perBand d) = none from lutfileFromDict_none _ d hd]
    rw [this]
    simp only [Option.getD_none, autoLutname]
  · intro f hf hne g hg
    obtain ⟨opt, ho1, ho2⟩ := configuredLut_option ne _ _ _ f hf
    have : lutfileFromConfig ne (configured ne.env w) (ne.tb2rad_dir.getD ne.tempdir) k.platform_name k.instrument nw.1 =
        if OsPath.pathExists (configured ne.env w) (OsPath.dirname g) then some g
        else some (OsPath.join (ne.tb2rad_dir.getD ne.tempdir) (OsPath.basename g)) := by
      unfold lutfileFromConfig
      rw [ho1]
      dsimp only
      rw [ho2]
      split
      · rename_i he; cases he
      · rename_i he; cases he; exact absurd rfl hne
      · rename_i he; cases he; rw [hg]
    rw [h3]
    unfold nirPath
    rw [this]
    constructor
    · intro hp; rw [if_pos hp]; rfl
    · intro hp; rw [if_neg (by rw [hp]; simp)]; rfl

/-! ### C80 -/

/-- C80 fails: two objects with the same table file have the same table, whatever their
detectors, spectral responses and wave spaces: the second one reads what the first one wrote. -/
theorem C80_second_gets_table_of_first (ne : NirEnv XF) (k₁ k₂ : NirArgs XF) (w w₁ w₂ : World) (t₁ t₂ : List World)
    (s₁ s₂ : Nir XF) (h₁ : k₁.make ne w = (.ok s₁, w₁, t₁)) (h₂ : k₂.make ne w₁ = (.ok s₂, w₂, t₂))
    (hf : s₂.lutfile = s₁.lutfile) (hne : s₁.lutfile ≠ "") : s₂.lut = s₁.lut := by
  obtain ⟨c₁, nw₁, f₁, l₁, _, a2, a3, a4, a5⟩ := make_inv ne k₁ w w₁ t₁ s₁ h₁
  obtain ⟨c₂, nw₂, f₂, l₂, _, b2, b3, b4, b5⟩ := make_inv ne k₂ w₁ w₂ t₂ s₂ h₂
  have hz : savezPath s₁.lutfile = s₁.lutfile := by
    rw [a3] at hne ⊢
    exact savezPath_nirPath ne _ _ _ _ hne
  have key : ∃ content, w₁.files (OsPath.file s₁.lutfile) = some content ∧ ne.npzDecode content = .ok l₁ := by
    rcases setLut_cases ne c₁ s₁.lutfile (configured ne.env w) hz with
      ⟨content, g1, g2⟩ | ⟨_, e, g2⟩ | ⟨_, _, _, l, t, _, g2, _⟩
    · rw [g2] at a4 a5
      simp only at a4 a5
      exact ⟨content, by rw [← a5]; exact g1, a4⟩
    · rw [g2] at a4; cases a4
    · rw [g2] at a4 a5
      simp only at a4 a5
      exact ⟨_, by rw [← a5]; simp [setFile_files], a4⟩
  obtain ⟨content, g1, g2⟩ := key
  rw [hf, setLut_there ne c₂ _ _ content (by rw [configured_files]; exact g1)] at b4
  rw [g2] at b4
  cases b4
  rw [a2, b2]
  rfl

/-- the table of the object's own detector, responses and wave space -/
noncomputable def ownTable (ne : NirEnv XF) (k : NirArgs XF) : Py (Lut XF) := do
  let c ← k.conv
  c.makeTb2radLut ne.nanCast

/-- constructions one after the other, going on after failures -/
noncomputable def makeAll (ne : NirEnv XF) : List (NirArgs XF) → World → List (Py (Nir XF)) × World
  | [], w => ([], w)
  | k :: ks, w => ((k.make ne w).1 :: (makeAll ne ks (k.make ne w).2.1).1, (makeAll ne ks (k.make ne w).2.1).2)

theorem pre_conv {ne : NirEnv XF} {k : NirArgs XF} {c : RadTb XF} {nw : String × XF} {f : XF}
    (h : k.pre ne = .ok (c, nw, f)) : k.conv = .ok c := by
  unfold NirArgs.pre at h
  cases hc : k.conv with
  | error e => rw [hc] at h; cases h
  | ok c' =>
    rw [hc] at h
    simp only [bind, Except.bind] at h
    cases h2 : nirBand c' k.band with
    | error e => rw [h2] at h; cases h
    | ok nw' =>
      rw [h2] at h
      dsimp only at h
      cases h3 : nirFlux ne c' nw'.1 k.solar_flux with
      | error e => rw [h3] at h; cases h
      | ok f => rw [h3] at h; cases h; rfl

/-- one construction under the conditions of C80 -/
theorem make_own (ne : NirEnv XF) (K : List (NirArgs XF)) (P : NirArgs XF → String) (D : String → Prop)
    (hP : ∀ k ∈ K, ∀ c nw f, k.pre ne = .ok (c, nw, f) → ∀ w : World, (∀ d, D d → w.dirs d = true) →
      nirPath ne w k.platform_name k.instrument nw.1 = P k)
    (hne : ∀ k ∈ K, P k ≠ "")
    (hshare : ∀ k ∈ K, ∀ k' ∈ K, OsPath.file (P k) = OsPath.file (P k') → ownTable ne k = ownTable ne k')
    (hround : ∀ k ∈ K, ∀ l, ownTable ne k = .ok l → ne.npzDecode (ne.npzEncode l) = .ok l)
    (w : World) (hD : ∀ d, D d → w.dirs d = true)
    (hw : ∀ k ∈ K, ∀ content, w.files (OsPath.file (P k)) = some content →
      ∃ l, ownTable ne k = .ok l ∧ ne.npzDecode content = .ok l)
    (k : NirArgs XF) (hk : k ∈ K) :
    (∀ s, (k.make ne w).1 = .ok s → ∃ l, ownTable ne k = .ok l ∧ s.lut = some l) ∧
    (∀ d, D d → (k.make ne w).2.1.dirs d = true) ∧
    ∀ k' ∈ K, ∀ content, (k.make ne w).2.1.files (OsPath.file (P k')) = some content →
      ∃ l, ownTable ne k' = .ok l ∧ ne.npzDecode content = .ok l := by
  cases hp : k.pre ne with
  | error e =>
    rw [make_pre_error ne k e hp w]
    exact ⟨fun s hs => (by cases hs), hD, hw⟩
  | ok q =>
    obtain ⟨c, nw, flux⟩ := q
    obtain ⟨t, _, h1⟩ := make_pre_ok ne k c nw flux hp w
    have hD' : ∀ d, D d → (configured ne.env w).dirs d = true := fun d hd => configured_dirs _ _ _ (hD d hd)
    have hpath := hP k hk c nw flux hp _ hD'
    have hz : savezPath (P k) = P k := by
      have := savezPath_nirPath ne (configured ne.env w) k.platform_name k.instrument nw.1 (by rw [hpath]; exact hne k hk)
      rwa [hpath] at this
    have hown : ownTable ne k = c.makeTb2radLut ne.nanCast := by
      unfold ownTable
      rw [pre_conv hp]
      rfl
    rw [hpath] at h1
    rw [h1]
    rcases setLut_cases ne c (P k) (configured ne.env w) hz with
      ⟨content, g1, g2⟩ | ⟨_, e, g2⟩ | ⟨_, _, _, l, t', g0, g2, _⟩
    · rw [g2]
      rw [configured_files] at g1
      obtain ⟨l, hl1, hl2⟩ := hw k hk content g1
      refine ⟨?_, hD', ?_⟩
      · intro s hs
        rw [hl2] at hs
        cases hs
        exact ⟨l, hl1, rfl⟩
      · intro k' hk' content' hc'
        exact hw k' hk' content' hc'
    · rw [g2]
      exact ⟨fun s hs => (by cases hs), hD', fun k' hk' content' hc' => hw k' hk' content' hc'⟩
    · rw [g2]
      have hr := hround k hk l (hown.trans g0)
      refine ⟨?_, hD', ?_⟩
      · intro s hs
        rw [hr] at hs
        cases hs
        exact ⟨l, hown.trans g0, rfl⟩
      · intro k' hk' content' hc'
        simp only [setFile_files] at hc'
        split at hc'
        · rename_i he
          cases hc'
          exact ⟨l, (hshare k' hk' k hk he).trans (hown.trans g0), hr⟩
        · exact hw k' hk' content' hc'

/-- C80: in every history of constructions, starting with no table files, every object gets the
table of its own data, if objects sharing a file have the same own table, tables are read back as
written, and the choice of file does not depend on what is constructed (`P`: it is fixed as long as
the directories `D` exist).  Missing: objects sharing a file with different data, where this is
false. -/
theorem C80_own_table_partial (ne : NirEnv XF) (K : List (NirArgs XF)) (P : NirArgs XF → String) (D : String → Prop)
    (hP : ∀ k ∈ K, ∀ c nw f, k.pre ne = .ok (c, nw, f) → ∀ w : World, (∀ d, D d → w.dirs d = true) →
      nirPath ne w k.platform_name k.instrument nw.1 = P k)
    (hne : ∀ k ∈ K, P k ≠ "")
    (hshare : ∀ k ∈ K, ∀ k' ∈ K, OsPath.file (P k) = OsPath.file (P k') → ownTable ne k = ownTable ne k')
    (hround : ∀ k ∈ K, ∀ l, ownTable ne k = .ok l → ne.npzDecode (ne.npzEncode l) = .ok l)
    (w : World) (hD : ∀ d, D d → w.dirs d = true) (hw : ∀ k ∈ K, w.files (OsPath.file (P k)) = none)
    (calls : List (NirArgs XF)) (hcalls : ∀ k ∈ calls, k ∈ K) :
    List.Forall₂ (fun k r => ∀ s, r = .ok s → ∃ l, ownTable ne k = .ok l ∧ s.lut = some l) calls
      (makeAll ne calls w).1 := by
  have hw' : ∀ k ∈ K, ∀ content, w.files (OsPath.file (P k)) = some content →
      ∃ l, ownTable ne k = .ok l ∧ ne.npzDecode content = .ok l := by
    intro k hk content hc
    rw [hw k hk] at hc
    cases hc
  clear hw
  induction calls generalizing w with
  | nil => exact .nil
  | cons k ks ih =>
    obtain ⟨h1, h2, h3⟩ := make_own ne K P D hP hne hshare hround w hD hw' k (hcalls k (List.mem_cons_self ..))
    exact .cons h1 (ih _ h2 (fun k' hk' => hcalls k' (List.mem_cons_of_mem _ hk')) h3)

/-! ### C95 -/

/-- in wavenumber space no detector has a central wavelength -/
theorem converted_no_central (rsr : Rsr XF) (hwf : rsr.WF)
    (hb : ∀ b ∈ rsr, b.2.WF ∧ ∀ d ∈ b.2, d.2.get? "wavenumber" = none) (r : Rsr XF) (info : WaveInfo XF)
    (hc : convert2wavenumber rsr = .ok (r, info)) :
    ∀ ch b, r.get? ch = some b → ∀ det, b.get? "det-1" = some det → det.get? "central_wavelength" = none := by
  rw [convert2wavenumber_eq _ hwf] at hc
  generalize hM : (List.mapM (m := Except PyErr) _ rsr : Py (List (String × BandRsr XF))) = M at hc
  cases M with
  | error e => cases hc
  | ok r' =>
    cases hc
    obtain ⟨_, hf⟩ := mapM_pair_spec band2wavenumber rsr r hM
    intro ch b hch det hdet
    cases hs : Dict.get? rsr ch with
    | none => rw [(forall₂_get? hf ch).2 hs] at hch; cases hch
    | some b0 =>
      obtain ⟨y, hy, hy'⟩ := (forall₂_get? hf ch).1 b0 hs
      rw [hch] at hy'; cases hy'
      have hb0 := hb _ (get?_eq_some_mem hs)
      rw [band2wavenumber_eq _ hb0.1] at hy
      obtain ⟨_, hf'⟩ := mapM_pair_spec convertDetector b0 b hy
      cases hs' : Dict.get? b0 "det-1" with
      | none => rw [(forall₂_get? hf' "det-1").2 hs'] at hdet; cases hdet
      | some d0 =>
        obtain ⟨z, hz, hz'⟩ := (forall₂_get? hf' "det-1").1 d0 hs'
        rw [hdet] at hz'; cases hz'
        exact convertDetector_drops d0 det (hb0.2 _ (get?_eq_some_mem hs')) hz _ (by decide) (by decide)

/-- C95 fails: in wavenumber space the constructor fails for every sensor (given in wavelength
space), band and detector, before anything is written. -/
theorem C95_wavenumber_never_works (ne : NirEnv XF) (k : NirArgs XF) (s : Sensor XF) (hs : k.sensor = .ok s)
    (hwf : s.rsr.WF) (hb : ∀ b ∈ s.rsr, b.2.WF ∧ ∀ d ∈ b.2, d.2.get? "wavenumber" = none)
    (hk : k.wavespace = "wavenumber") (w : World) : ∃ e, k.make ne w = (.error e, w, []) := by
  suffices h : ∃ e, k.pre ne = .error e by
    obtain ⟨e, he⟩ := h
    exact ⟨e, make_pre_error ne k e he w⟩
  unfold NirArgs.pre
  cases hc : k.conv with
  | error e => exact ⟨e, rfl⟩
  | ok c =>
    simp only [bind, Except.bind]
    suffices h : ∃ e, nirBand c k.band = .error e by
      obtain ⟨e, he⟩ := h
      exact ⟨e, by rw [he]⟩
    obtain ⟨name, h1, h2, h3, _, h4, s', hs', _, h6⟩ := radTbNew_inv hc
    rw [hs] at hs'
    cases hs'
    obtain ⟨info, h7⟩ := h6 (by rw [hk]; decide)
    have key := converted_no_central s.rsr hwf hb c.rsr info h7
    cases hband : k.band with
    | other => rw [hband] at h4; cases h4
    | number x =>
      obtain ⟨e, he⟩ := C19_numeric_band_never_works_in_wavenumber s hwf hb k.platform_name k.instrument k.detector x 0.1
      unfold NirArgs.conv at hc
      rw [hs, hband, hk] at hc
      rw [he] at hc
      cases hc
    | name q =>
      unfold nirBand
      rw [hband] at h4
      rw [h2, h4]
      simp only [bind, Except.bind, notNone, h3, hk]
      rw [show converterLookup "wavenumber" c.rsrInstrument c.rsr (some name) = c.rsr.getItem name from by
        unfold converterLookup; exact if_pos (by decide)]
      cases hl : c.rsr.getItem name with
      | error e => exact ⟨e, rfl⟩
      | ok b =>
        dsimp only
        cases hd : Dict.getItem b "det-1" with
        | error e => exact ⟨e, rfl⟩
        | ok det =>
          have hn := key name b (getItem_ok_iff.1 hl) det (getItem_ok_iff.1 hd)
          refine ⟨.keyError, ?_⟩
          have : getNum det "central_wavelength" = .error .keyError := by
            simp only [getNum, Dict.getItem, hn, bind, Except.bind]
          dsimp only
          rw [this]

/-- C95: in wavelength space the constructor works for every band with positive waves and a
positive integral in the allowed range, starting with no table, if the directory for the table
exists; the object has the table of its own data.  Missing: wavenumber space, where it never works. -/
theorem C95_wavelength_partial (ne : NirEnv XF) (k : NirArgs XF) (c : RadTb XF) (nw : String × XF) (flux : XF)
    (hp : k.pre ne = .ok (c, nw, flux)) (wv r : List ℝ) (hc : Loaded c wv r) (hb : GoodBand wv r) (w : World)
    (f : String) (hf : nirPath ne (configured ne.env w) k.platform_name k.instrument nw.1 = f) (hne : f ≠ "")
    (hnew : w.files (OsPath.file f) = none) (hnd : (configured ne.env w).dirs f = false)
    (hdir : w.dirs (OsPath.dirname f) = true)
    (hround : ∀ l, c.makeTb2radLut ne.nanCast = .ok l → ne.npzDecode (ne.npzEncode l) = .ok l) :
    ∃ (s : Nir XF) (w' : World) (t : List World) (l : Lut XF), k.make ne w = (.ok s, w', t) ∧
      c.makeTb2radLut ne.nanCast = .ok l ∧ s.lut = some l ∧ s.lutfile = f ∧
      w'.files (OsPath.file f) = some (ne.npzEncode l) := by
  have hres : c.tb_resolution = fin 0.1 ∧ c.tb_scale = 1.0 / fin 0.1 := by
    obtain ⟨_, _, _, _, h, _⟩ := radTbNew_inv (pre_conv hp)
    exact ⟨h.2.1, h.2.2⟩
  obtain ⟨_, l, _, _, hl, _⟩ := C13_lut_within_one_step c wv r hc hb ne.nanCast true hres.1 hres.2
  obtain ⟨t, _, h1⟩ := make_pre_ok ne k c nw flux hp w
  rw [hf] at h1
  have hz : savezPath f = f := by
    rw [← hf] at hne ⊢
    exact savezPath_nirPath ne _ _ _ _ hne
  obtain ⟨t', h2, _⟩ := setLut_new ne c f (configured ne.env w) l hnew hnd hl hz (configured_dirs _ _ _ hdir)
  rw [h2, hround l hl] at h1
  exact ⟨_, _, _, l, h1, hl, rfl, rfl, by simp [setFile_files]⟩

/-! ### C96 -/

/-- C96 fails: interrupted right after opening the table file, the construction leaves an empty
file, and if the reader rejects empty files (as `np.load` does) all later constructions using this
file fail. -/
theorem C96_interrupted_write_breaks_cache (ne : NirEnv XF) (k : NirArgs XF) (c : RadTb XF) (nw : String × XF)
    (flux : XF) (hp : k.pre ne = .ok (c, nw, flux)) (w : World) (l : Lut XF) (e : PyErr)
    (hl : c.makeTb2radLut ne.nanCast = .ok l) (he : ne.npzDecode [] = .error e)
    (f : String) (hf : nirPath ne (configured ne.env w) k.platform_name k.instrument nw.1 = f) (hne : f ≠ "")
    (hnew : w.files (OsPath.file f) = none) (hnd : (configured ne.env w).dirs f = false)
    (hdir : w.dirs (OsPath.dirname f) = true) :
    ∃ w' ∈ (k.make ne).crashStates w, ∀ calls : List (NirArgs XF),
      (∀ k' ∈ calls, ∀ c' nw' flux', k'.pre ne = .ok (c', nw', flux') →
        ∀ v, nirPath ne v k'.platform_name k'.instrument nw'.1 = f) →
      ∀ res ∈ (makeAll ne calls w').1, ∃ e', res = .error e' := by
  obtain ⟨t, _, h1⟩ := make_pre_ok ne k c nw flux hp w
  rw [hf] at h1
  have hz : savezPath f = f := by
    rw [← hf] at hne ⊢
    exact savezPath_nirPath ne _ _ _ _ hne
  obtain ⟨t', h2, _⟩ := setLut_new ne c f (configured ne.env w) l hnew hnd hl hz (configured_dirs _ _ _ hdir)
  rw [h2] at h1
  refine ⟨(configured ne.env w).setFile (OsPath.file f) (some []), ?_, ?_⟩
  · unfold Eff.crashStates
    rw [h1]
    simp
  · intro calls hcalls
    have hv : ((configured ne.env w).setFile (OsPath.file f) (some [])).files (OsPath.file f) = some [] := by
      simp [setFile_files]
    revert hv
    generalize (configured ne.env w).setFile (OsPath.file f) (some []) = v
    intro hv
    induction calls generalizing v with
    | nil => intro res hres; cases hres
    | cons k' ks ih =>
      have hstep : (∃ e', (k'.make ne v).1 = .error e') ∧ (k'.make ne v).2.1.files (OsPath.file f) = some [] := by
        cases hp' : k'.pre ne with
        | error e' => rw [make_pre_error ne k' e' hp' v]; exact ⟨⟨e', rfl⟩, hv⟩
        | ok q =>
          obtain ⟨c', nw', flux'⟩ := q
          obtain ⟨t'', _, h3⟩ := make_pre_ok ne k' c' nw' flux' hp' v
          rw [hcalls k' (List.mem_cons_self ..) c' nw' flux' hp'] at h3
          rw [setLut_there ne c' f (configured ne.env v) [] (by rw [configured_files]; exact hv), he] at h3
          rw [h3]
          exact ⟨⟨e, rfl⟩, hv⟩
      intro res hres
      rcases List.mem_cons.1 hres with rfl | hres
      · exact hstep.1
      · exact ih (fun k'' hk'' => hcalls k'' (List.mem_cons_of_mem _ hk'')) _ hstep.2 res hres

/-- C96: an interruption leaves the other files alone, and of the table file nothing, or a part
of the table from its beginning; if it is nothing or the whole table, constructing again works and
gives the own table.  Missing: the other parts, where it fails. -/
theorem C96_interrupted_partial (ne : NirEnv XF) (k : NirArgs XF) (c : RadTb XF) (nw : String × XF)
    (flux : XF) (hp : k.pre ne = .ok (c, nw, flux)) (w : World) (l : Lut XF)
    (hl : c.makeTb2radLut ne.nanCast = .ok l) (hround : ne.npzDecode (ne.npzEncode l) = .ok l)
    (f : String) (hf : nirPath ne (configured ne.env w) k.platform_name k.instrument nw.1 = f) (hne : f ≠ "")
    (hsame : ∀ content, nirPath ne ((configured ne.env w).setFile (OsPath.file f) (some content)) k.platform_name
      k.instrument nw.1 = f)
    (hnew : w.files (OsPath.file f) = none) (hnd : (configured ne.env w).dirs f = false)
    (hdir : w.dirs (OsPath.dirname f) = true) :
    ∀ x ∈ (k.make ne).crashStates w,
      (∀ p, p ≠ OsPath.file f → x.files p = w.files p) ∧
      (x.files (OsPath.file f) = none ∨ ∃ a b, ne.npzEncode l = a ++ b ∧ x.files (OsPath.file f) = some a) ∧
      (x.files (OsPath.file f) = none ∨ x.files (OsPath.file f) = some (ne.npzEncode l) →
        ∃ s, (k.make ne x).1 = .ok s ∧ s.lut = some l) := by
  obtain ⟨t, ht, h1⟩ := make_pre_ok ne k c nw flux hp w
  rw [hf] at h1
  have hz : savezPath f = f := by
    rw [← hf] at hne ⊢
    exact savezPath_nirPath ne _ _ _ _ hne
  obtain ⟨t', h2, h2'⟩ := setLut_new ne c f (configured ne.env w) l hnew hnd hl hz (configured_dirs _ _ _ hdir)
  rw [h2] at h1
  -- a state with the files as at the beginning
  have early : ∀ x : World, x.files = w.files → configured ne.env x = configured ne.env w →
      ∃ s, (k.make ne x).1 = .ok s ∧ s.lut = some l := by
    intro x hx hcx
    obtain ⟨t2, _, h3⟩ := make_pre_ok ne k c nw flux hp x
    rw [hcx, hf, h2, hround] at h3
    rw [h3]
    exact ⟨_, rfl, rfl⟩
  -- a state with a part of the table
  have late : ∀ x : World, ∀ a b, ne.npzEncode l = a ++ b →
      x = (configured ne.env w).setFile (OsPath.file f) (some a) →
      (∀ p, p ≠ OsPath.file f → x.files p = w.files p) ∧
      (x.files (OsPath.file f) = none ∨ ∃ a b, ne.npzEncode l = a ++ b ∧ x.files (OsPath.file f) = some a) ∧
      (x.files (OsPath.file f) = none ∨ x.files (OsPath.file f) = some (ne.npzEncode l) →
        ∃ s, (k.make ne x).1 = .ok s ∧ s.lut = some l) := by
    intro x a b hab hx
    have hxf : x.files (OsPath.file f) = some a := by rw [hx]; simp [setFile_files]
    refine ⟨?_, Or.inr ⟨a, b, hab, hxf⟩, ?_⟩
    · intro p hpn
      rw [hx, setFile_files, if_neg hpn, configured_files]
    · intro hor
      rw [hxf] at hor
      rcases hor with hor | hor
      · cases hor
      · obtain ⟨t2, _, h3⟩ := make_pre_ok ne k c nw flux hp x
        have hcx : configured ne.env x = x := by
          rw [hx, configured_setFile, configured_twice]
        have hpx : nirPath ne x k.platform_name k.instrument nw.1 = f := by rw [hx]; exact hsame a
        rw [hcx, hpx, setLut_there ne c f x a hxf, Option.some.inj hor, hround] at h3
        rw [h3]
        exact ⟨_, rfl, rfl⟩
  intro x hx
  unfold Eff.crashStates at hx
  rw [h1] at hx
  simp only [List.mem_cons, List.mem_append] at hx
  rcases hx with rfl | hx | rfl | hx
  · exact ⟨fun _ _ => rfl, Or.inl hnew, fun _ => early x rfl rfl⟩
  · obtain ⟨g1, g2⟩ := ht x hx
    exact ⟨fun p _ => by rw [g1], Or.inl (by rw [g1]; exact hnew), fun _ => early x g1 g2⟩
  · exact late _ [] (ne.npzEncode l) rfl rfl
  · obtain ⟨a, b, hab, hx⟩ := h2' x hx
    exact late x a b hab hx

/-! ### The example cache -/

theorem exNirLoaded (x : ℝ) (c : RadTb XF) (h : (exNirArgs x "det-1" "wavelength").conv = .ok c) :
    Loaded c [3.6 * 1e-6, 3.7 * 1e-6, 3.8 * 1e-6] [0, 1, 0] := by
  obtain ⟨c', h0, _, h1, h2, _, _, _, h3⟩ := exNirConv x
  rw [h] at h0
  cases h0
  refine ⟨h1, h2, rfl, ?_⟩
  rw [trapezoid_fin _ _ (by simp)] at h3
  exact Except.ok.inj h3

theorem exNirGood : GoodBand [3.6 * 1e-6, 3.7 * 1e-6, 3.8 * 1e-6] [0, 1, 0] := by
  refine ⟨by norm_num [Increasing], by norm_num, by norm_num, ?_⟩
  simp [trap]; norm_num

theorem exNirPre (enc : Lut XF → Content) (dec : Content → Py (Lut XF)) (d : String) (c : RadTb XF)
    (h : (exNirArgs 3.7 d "wavelength").conv = .ok c)
    (hw : BandWavelength (exNirArgs 3.7 d "wavelength") c (fin 3.7)) (hn : c.bandname = some "ch20") :
    (exNirArgs 3.7 d "wavelength").pre (exNirEnv enc dec) = .ok (c, ("ch20", fin 3.7), fin 2) := by
  obtain ⟨name, h1, h2⟩ := nirBand_eq h hw
  rw [hn] at h1
  cases h1
  unfold NirArgs.pre
  rw [h]
  simp only [bind, Except.bind, h2]
  rw [if_neg]
  · rfl
  · norm_num

/-- the world of the example: the table directory, no files -/
def exNirWorld : World := ⟨fun _ => none, fun d => d = "/lut", []⟩

theorem exNirDirs (enc : Lut XF → Content) (dec : Content → Py (Lut XF)) :
    (configured (exNirEnv enc dec).env exNirWorld).dirs "/lut/tb2rad_lut_p_xyz_ch20.npz" = false ∧
    (configured (exNirEnv enc dec).env exNirWorld).dirs "/lut" = true := by
  simp [configured, withDir, exNirEnv, exNirWorld]

theorem exNirNew (enc : Lut XF → Content) (dec : Content → Py (Lut XF)) (d : String) (c : RadTb XF)
    (h : (exNirArgs 3.7 d "wavelength").conv = .ok c)
    (hw : BandWavelength (exNirArgs 3.7 d "wavelength") c (fin 3.7)) (hn : c.bandname = some "ch20") (l : Lut XF)
    (hl : c.makeTb2radLut 0 = .ok l) (hround : dec (enc l) = .ok l) :
    ∃ s w' t, (exNirArgs 3.7 d "wavelength").make (exNirEnv enc dec) exNirWorld =
      (.ok s, w', t) ∧ s.lut = some l ∧ s.lutfile = "/lut/tb2rad_lut_p_xyz_ch20.npz" ∧
      w'.files (OsPath.file "/lut/tb2rad_lut_p_xyz_ch20.npz") = some (enc l) := by
  obtain ⟨t, _, h1⟩ := make_pre_ok (exNirEnv enc dec) _ c _ _ (exNirPre _ _ d c h hw hn) exNirWorld
  rw [show (exNirArgs 3.7 d "wavelength").platform_name = "P" from rfl,
    show (exNirArgs 3.7 d "wavelength").instrument = "xyz" from rfl, exNirPath] at h1
  obtain ⟨t', h2, _⟩ := setLut_new (exNirEnv enc dec) c "/lut/tb2rad_lut_p_xyz_ch20.npz"
    (configured (exNirEnv enc dec).env exNirWorld) l rfl (exNirDirs enc dec).1 hl
    (by decide) (by rw [exNirFile]; exact (exNirDirs enc dec).2)
  rw [h2, show (exNirEnv enc dec).npzDecode ((exNirEnv enc dec).npzEncode l) = .ok l from hround] at h1
  refine ⟨_, _, _, h1, rfl, rfl, ?_⟩
  simp [setFile_files, exNirEnv]

/-- C79: an object whose table lands at the default place -/
example : ∃ (ne : NirEnv XF) (s : Nir XF) (w' : World) (t : List World),
    (exNirArgs 3.7 "det-1" "wavelength").make ne exNirWorld = (.ok s, w', t) ∧
    ne.sections.get? "P-xyz" = none ∧ s.lutfile = "/lut/tb2rad_lut_p_xyz_ch20.npz" := by
  obtain ⟨c, hc, hn, _, _, hr1, hr2, _⟩ := exNirConv 3.7
  obtain ⟨R, l, _, hR, hl, hE, _⟩ := C13_lut_within_one_step c _ _ (exNirLoaded _ c hc) exNirGood 0 true hr1 hr2
  obtain ⟨s, w', t, h1, _, h2, _⟩ := exNirNew (fun _ => ['x']) (fun _ => .ok l) "det-1" c hc (exNirWavelength _ c hc) hn l hl rfl
  exact ⟨_, s, w', t, h1, rfl, h2⟩

/-- the table of a loaded band: a non-empty list of finite values, each divided by the response integral -/
theorem exTable (c : RadTb XF) (r : List ℝ) (hc : Loaded c [3.6 * 1e-6, 3.7 * 1e-6, 3.8 * 1e-6] r)
    (hres : c.tb_resolution = 0.1) :
    ∃ l xs, c.makeTb2radLut 0 = .ok l ∧ xs ≠ [] ∧ l.radiance = (finL xs).map (· / c.rsr_integral) := by
  obtain ⟨N, hN⟩ : ∃ N : ℕ, N = 2100 := ⟨_, rfl⟩
  have ha := arange_default N hN
  generalize hg : ((List.range N).map fun (i : ℕ) => 150 + (i : ℝ) * 0.1) = grid at ha
  have hgne : grid ≠ [] := by rw [← hg, hN]; simp
  have hgpos : ∀ t ∈ grid, 1e-6 < t := by
    rw [← hg]
    intro t ht
    obtain ⟨i, _, rfl⟩ := List.mem_map.1 ht
    have : (0 : ℝ) ≤ i := Nat.cast_nonneg i
    norm_num
    linarith
  have h1 := tb2radiance_direct' hc (by simp) (by norm_num) 0 grid hgne hgpos false (by simp)
  obtain ⟨res, h2, h3⟩ := tb2radiance_norm c 0 (finL grid) _ _ h1 rfl
  generalize hxs : (grid.map fun t => if false = true then _ else _) = xs at h3
  refine ⟨⟨finL grid, (finL xs).map (· / c.rsr_integral)⟩, xs, ?_, ?_, rfl⟩
  · unfold RadTb.makeTb2radLut
    rw [hres, show (0.1 : XF) = fin 0.1 from rfl, ha]
    simp only [bind, Except.bind]
    rw [h2]
    dsimp only
    rw [h3]
    rfl
  · exact fun h => hgne (List.map_eq_nil_iff.1 (hxs.trans h))

theorem exDeadLoaded (c : RadTb XF) (h : (exNirArgs 3.7 "det-2" "wavelength").conv = .ok c) :
    Loaded c [3.6 * 1e-6, 3.7 * 1e-6, 3.8 * 1e-6] [0, 0, 0] ∧ c.tb_resolution = 0.1 := by
  have : ∃ c', (exNirArgs 3.7 "det-2" "wavelength").conv = .ok c' ∧
      c'.wave = finL [3.6 * 1e-6, 3.7 * 1e-6, 3.8 * 1e-6] ∧ c'.response = finL [0, 0, 0] ∧ c'.tb_resolution = 0.1 ∧
      .ok c'.rsr_integral = NP.trapezoid (finL [0, 0, 0]) (finL [3.6 * 1e-6, 3.7 * 1e-6, 3.8 * 1e-6]) := by
    unfold NirArgs.conv RadTb.new
    rw [if_neg (by decide), if_neg (nonzero_resolution tenth_nonzero)]
    exact ⟨_, rfl, rfl, rfl, rfl, rfl⟩
  obtain ⟨c', h0, h1, h2, h4, h3⟩ := this
  rw [h] at h0
  cases h0
  rw [trapezoid_fin _ _ (by simp)] at h3
  exact ⟨⟨h1, h2, rfl, Except.ok.inj h3⟩, h4⟩

open Classical in
/-- C80 fails, concretely: two objects that differ in the detector only; tables are read back as
written; the second object has the first detector's table, not its own. -/
theorem C80_fails : ∃ (ne : NirEnv XF) (w : World) (l₁ l₂ : Lut XF) (s₁ s₂ : Nir XF) (w₁ w₂ : World) (t₁ t₂ : List World),
    ownTable ne (exNirArgs 3.7 "det-1" "wavelength") = .ok l₁ ∧
    ownTable ne (exNirArgs 3.7 "det-2" "wavelength") = .ok l₂ ∧ l₁ ≠ l₂ ∧
    ne.npzDecode (ne.npzEncode l₁) = .ok l₁ ∧ ne.npzDecode (ne.npzEncode l₂) = .ok l₂ ∧
    (exNirArgs 3.7 "det-1" "wavelength").make ne w = (.ok s₁, w₁, t₁) ∧
    (exNirArgs 3.7 "det-2" "wavelength").make ne w₁ = (.ok s₂, w₂, t₂) ∧ s₂.lut = some l₁ := by
  obtain ⟨c₁, hc₁, hn₁, _, _, hr1, hr2, _⟩ := exNirConv 3.7
  have hc₂ : ∃ c₂, (exNirArgs 3.7 "det-2" "wavelength").conv = .ok c₂ ∧ c₂.bandname = some "ch20" ∧
      BandWavelength (exNirArgs 3.7 "det-2" "wavelength") c₂ (fin 3.7) := by
    unfold NirArgs.conv RadTb.new
    rw [if_neg (by decide), if_neg (nonzero_resolution tenth_nonzero)]
    exact ⟨_, rfl, rfl, _, _, rfl, rfl, rfl⟩
  obtain ⟨c₂, hc₂, hn₂, hw₂⟩ := hc₂
  have hL₁ := exNirLoaded _ c₁ hc₁
  obtain ⟨hL₂, hres₂⟩ := exDeadLoaded c₂ hc₂
  obtain ⟨l₁, x₁, hl₁, hx₁, e₁⟩ := exTable c₁ _ hL₁ hr1
  obtain ⟨l₂, x₂, hl₂, hx₂, e₂⟩ := exTable c₂ _ hL₂ hres₂
  have hdiff : l₁ ≠ l₂ := by
    intro he
    rw [← he, e₁, hL₁.integral, hL₂.integral] at e₂
    cases x₁ with
    | nil => exact hx₁ rfl
    | cons a x₁ =>
      cases x₂ with
      | nil => cases e₂
      | cons b x₂ =>
        have h0 : (fin a / fin (trap [3.6 * 1e-6, 3.7 * 1e-6, 3.8 * 1e-6] [0, 1, 0]) : XF) =
            fin b / fin (trap [3.6 * 1e-6, 3.7 * 1e-6, 3.8 * 1e-6] [0, 0, 0]) := (List.cons.inj e₂).1
        rw [fin_div _ exNirGood.integral.ne',
          show trap [3.6 * 1e-6, 3.7 * 1e-6, 3.8 * 1e-6] [0, 0, 0] = (0 : ℝ) by simp [trap], fin_div', if_pos rfl] at h0
        unfold signInf at h0
        split at h0
        · cases h0
        · split at h0 <;> cases h0
  set enc : Lut XF → Content := fun l => if l = l₁ then ['1'] else ['2'] with henc
  set dec : Content → Py (Lut XF) := fun c => if c = ['1'] then .ok l₁ else .ok l₂ with hdec
  have r1 : dec (enc l₁) = .ok l₁ := by simp [henc, hdec]
  have r2 : dec (enc l₂) = .ok l₂ := by simp [henc, hdec, Ne.symm hdiff]
  obtain ⟨s₁, w₁, t₁, m1, m2, m3, m4⟩ := exNirNew enc dec "det-1" c₁ hc₁ (exNirWavelength _ c₁ hc₁) hn₁ l₁ hl₁ r1
  obtain ⟨t, _, h1⟩ := make_pre_ok (exNirEnv enc dec) _ c₂ _ _ (exNirPre enc dec "det-2" c₂ hc₂ hw₂ hn₂) w₁
  rw [show (exNirArgs 3.7 "det-2" "wavelength").platform_name = "P" from rfl,
    show (exNirArgs 3.7 "det-2" "wavelength").instrument = "xyz" from rfl, exNirPath] at h1
  rw [setLut_there _ c₂ _ _ (enc l₁) (by rw [configured_files]; exact m4),
    show (exNirEnv enc dec).npzDecode (enc l₁) = .ok l₁ from r1] at h1
  exact ⟨exNirEnv enc dec, exNirWorld, l₁, l₂, s₁, _, w₁, _, t₁, _, by unfold ownTable; rw [hc₁]; exact hl₁,
    by unfold ownTable; rw [hc₂]; exact hl₂, hdiff, r1, r2, m1, h1, rfl⟩

/-- the history theorem of C80 applies: the same object made twice -/
example (c : RadTb XF) (hc : (exNirArgs 3.7 "det-1" "wavelength").conv = .ok c) (l : Lut XF)
    (hl : c.makeTb2radLut 0 = .ok l) :
    List.Forall₂ (fun k r => ∀ s, r = .ok s → ∃ l, ownTable (exNirEnv (fun _ => ['x']) (fun _ => .ok l)) k = .ok l ∧ s.lut = some l)
      [exNirArgs 3.7 "det-1" "wavelength", exNirArgs 3.7 "det-1" "wavelength"]
      (makeAll (exNirEnv (fun _ => ['x']) (fun _ => .ok l))
        [exNirArgs 3.7 "det-1" "wavelength", exNirArgs 3.7 "det-1" "wavelength"] exNirWorld).1 := by
  have hown : ownTable (exNirEnv (fun _ => ['x']) (fun _ => .ok l)) (exNirArgs 3.7 "det-1" "wavelength") = .ok l := by
    unfold ownTable; rw [hc]; exact hl
  refine C80_own_table_partial _ [exNirArgs 3.7 "det-1" "wavelength"] (fun _ => "/lut/tb2rad_lut_p_xyz_ch20.npz")
    (fun d => d = "/lut") ?_ ?_ ?_ ?_ exNirWorld ?_ ?_ _ ?_
  · intro k hk c' nw f hp w _
    rw [List.mem_singleton] at hk
    subst hk
    have := exNirPre (fun _ => ['x']) (fun _ => .ok l) "det-1" c hc (exNirWavelength _ c hc) (by
      obtain ⟨c', h0, h1, _⟩ := exNirConv 3.7
      rw [hc] at h0; cases h0; exact h1)
    rw [this] at hp
    cases hp
    exact exNirPath _ _ w
  · intro k _ h; exact absurd h (by decide)
  · intro k hk k' hk' _
    rw [List.mem_singleton] at hk hk'
    rw [hk, hk']
  · intro k hk l' hl'
    rw [List.mem_singleton] at hk
    rw [hk, hown] at hl'
    cases hl'; rfl
  · intro d hd; simp [exNirWorld, hd]
  · intro k _; rfl
  · intro k hk; simpa using hk

/-- C95, C96: the object in wavelength space, starting with an empty cache; none in wavenumber space -/
example : ∃ (ne : NirEnv XF) (s : Nir XF) (w' : World) (t : List World) (e : PyErr),
    (exNirArgs 3.7 "det-1" "wavelength").make ne exNirWorld = (.ok s, w', t) ∧
    (exNirArgs 3.7 "det-1" "wavenumber").make ne exNirWorld = (.error e, exNirWorld, []) := by
  obtain ⟨c, hc, hn, _, _, hr1, hr2, _⟩ := exNirConv 3.7
  obtain ⟨R, l, _, hR, hl, hE, _⟩ := C13_lut_within_one_step c _ _ (exNirLoaded _ c hc) exNirGood 0 true hr1 hr2
  obtain ⟨s, w', t, _, h1, _⟩ := C95_wavelength_partial (exNirEnv (fun _ => ['x']) (fun _ => .ok l)) _ c _ _
    (exNirPre _ _ "det-1" c hc (exNirWavelength _ c hc) hn) _ _ (exNirLoaded _ c hc) exNirGood exNirWorld _
    (exNirPath _ _ _) (by decide) rfl (exNirDirs _ _).1 (by decide) (by
      intro l' hl'
      rw [show (exNirEnv (fun _ => ['x']) (fun _ => .ok l)).nanCast = 0 from rfl, hl] at hl'
      cases hl'; rfl)
  obtain ⟨e, h2⟩ := C95_wavenumber_never_works (exNirEnv (fun _ => ['x']) (fun _ => .ok l))
    (exNirArgs 3.7 "det-1" "wavenumber") _ rfl (by simp [Dict.WF]) (by
      intro b hb
      simp only [List.mem_singleton] at hb
      subst hb
      refine ⟨by simp [Dict.WF], ?_⟩
      intro d hd
      simp only [List.mem_cons, List.not_mem_nil, or_false] at hd
      rcases hd with rfl | rfl <;> simp [Dict.get?]) rfl exNirWorld
  exact ⟨_, s, w', t, e, h1, h2⟩

example (c : RadTb XF) (hc : (exNirArgs 3.7 "det-1" "wavelength").conv = .ok c) (hn : c.bandname = some "ch20")
    (l : Lut XF) (hl : c.makeTb2radLut 0 = .ok l) :
    ∃ w' ∈ ((exNirArgs 3.7 "det-1" "wavelength").make
      (exNirEnv (fun _ => ['x']) (fun x => if x = [] then .error .ioError else .ok l))).crashStates exNirWorld,
      ∀ res ∈ (makeAll (exNirEnv (fun _ => ['x']) (fun x => if x = [] then .error .ioError else .ok l))
        [exNirArgs 3.7 "det-1" "wavelength", exNirArgs 3.7 "det-1" "wavelength"] w').1, ∃ e', res = .error e' := by
  obtain ⟨w', h1, h2⟩ := C96_interrupted_write_breaks_cache
    (exNirEnv (fun _ => ['x']) (fun x => if x = [] then .error .ioError else .ok l)) _ c _ _
    (exNirPre _ _ "det-1" c hc (exNirWavelength _ c hc) hn) exNirWorld l .ioError hl rfl _
    (exNirPath _ _ _) (by decide) rfl (exNirDirs _ _).1 (by decide)
  refine ⟨w', h1, h2 _ ?_⟩
  intro k hk c' nw' f' hp v
  have hk' : k = exNirArgs 3.7 "det-1" "wavelength" := by simpa using hk
  subst hk'
  rw [exNirPre _ _ "det-1" c hc (exNirWavelength _ c hc) hn] at hp
  cases hp
  exact exNirPath _ _ v

example (c : RadTb XF) (hc : (exNirArgs 3.7 "det-1" "wavelength").conv = .ok c) (hn : c.bandname = some "ch20")
    (l : Lut XF) (hl : c.makeTb2radLut 0 = .ok l) :
    ∃ s, ((exNirArgs 3.7 "det-1" "wavelength").make
      (exNirEnv (fun _ => ['x']) (fun x => if x = [] then .error .ioError else .ok l)) exNirWorld).1 = .ok s ∧
      s.lut = some l :=
  (C96_interrupted_partial
    (exNirEnv (fun _ => ['x']) (fun x => if x = [] then .error .ioError else .ok l)) _ c _ _
    (exNirPre _ _ "det-1" c hc (exNirWavelength _ c hc) hn) exNirWorld l hl rfl _
    (exNirPath _ _ _) (by decide) (fun _ => exNirPath _ _ _) rfl (exNirDirs _ _).1 (by decide) exNirWorld
    (List.mem_cons_self ..)).2.2 (Or.inl rfl)

end Verif.Props
