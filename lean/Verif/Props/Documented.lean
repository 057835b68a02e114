import Verif.Spec.Documented
import Verif.Props.EndToEnd
/-
C192: the documented response files.
-/
namespace Verif.Props
open Model PyNum Lemmas Spec
variable {α : Type} [PyNum α]

/-- the row whose file name is wrong -/
def wrongRow : String × String × String := ("FY-3D", "mersi-2", "rsr_mersi-2_FY-3D.h5")

theorem documented_names : ∀ row ∈ documentedFiles, row ≠ wrongRow →
    ∃ c, checkAndAdjustInstrumentName row.1 row.2.1 = .ok c ∧ "rsr_" ++ c ++ "_" ++ row.1 ++ ".h5" = row.2.2 := by
  have h : ∀ row ∈ documentedFiles, row = wrongRow ∨
      (checkAndAdjustInstrumentName row.1 row.2.1).toOption.map (fun c => "rsr_" ++ c ++ "_" ++ row.1 ++ ".h5") = some row.2.2 := by
    decide +kernel
  intro row hr hne
  rcases h row hr with e | e
  · exact absurd e hne
  · cases hc : checkAndAdjustInstrumentName row.1 row.2.1 with
    | error x => rw [hc] at e; cases e
    | ok c =>
      rw [hc] at e
      exact ⟨c, rfl, Option.some.inj e⟩

/-- C192: for every documented platform and sensor, a reader reads the documented file, whatever the state of the file system,
and without that file there is no reader (FileNotFoundError); except for FY-3D. -/
theorem C192_documented_file_partial (env : Env) (h5open : Content → Option (H5File α)) (platform sensor file : String)
    (hrow : (platform, sensor, file) ∈ documentedFiles) (hne : (platform, sensor, file) ≠ wrongRow) (w : World) :
    (∀ r, Eff.result (readerNew env h5open (some platform) (some sensor) none) w = .ok r →
      r.filename = (env.cfg.rsr_dir, file) ∧
      ∃ content f info, (Eff.final (readerNew env h5open (some platform) (some sensor) none) w).files (env.cfg.rsr_dir, file) =
          some content ∧ h5open content = some f ∧ loadRsrInfo f = .ok info ∧ r.rsr = info.rsr ∧ r.band_names = info.band_names) ∧
    (RsrCurrent env w ∨ env.cfg.download_from_internet = false → w.files (env.cfg.rsr_dir, file) = none →
      Eff.result (readerNew env h5open (some platform) (some sensor) none) w = .error .fileNotFound) := by
  obtain ⟨c, hc, hfile⟩ := documented_names _ hrow hne
  dsimp only at hc hfile
  constructor
  · intro r hr
    obtain ⟨c', h1, -, -, -, h2, -, -, content, f, info, h3, h4, h5, h6, h7, -⟩ := C38_by_names env h5open platform sensor w r hr
    rw [hc] at h1
    cases h1
    rw [hfile] at h2
    rw [h2] at h3
    exact ⟨h2, content, f, info, h3, h4, h5, h6, h7⟩
  · intro hq hw
    obtain ⟨b, hb⟩ := quiet_updates_off env (configured env w) hq
    obtain ⟨t', ht', -⟩ := reader_by_name env h5open platform sensor c hc w _ b _ hb
    unfold Eff.result
    rw [ht', hfile]
    unfold fileData
    rw [show (configured env w).files _ = none from hw]
    rfl

/-- C192 fails for FY-3D: if the documented file is there, but not rsr_mersi2_FY-3D.h5, no reader can be made. -/
theorem C192_fy3d_not_found (env : Env) (h5open : Content → Option (H5File α)) (w : World)
    (hq : RsrCurrent env w ∨ env.cfg.download_from_internet = false) (content : Content)
    (_hdoc : w.files (env.cfg.rsr_dir, "rsr_mersi-2_FY-3D.h5") = some content)
    (hw : w.files (env.cfg.rsr_dir, "rsr_mersi2_FY-3D.h5") = none) :
    ("FY-3D", "mersi-2", "rsr_mersi-2_FY-3D.h5") ∈ documentedFiles ∧
    Eff.result (readerNew env h5open (some "FY-3D") (some "mersi-2") none) w = .error .fileNotFound := by
  refine ⟨by decide +kernel, ?_⟩
  obtain ⟨b, hb⟩ := quiet_updates_off env (configured env w) hq
  obtain ⟨t', ht', -⟩ := reader_by_name env h5open "FY-3D" "mersi-2" "mersi2" (by decide +kernel) w _ b _ hb
  unfold Eff.result
  rw [ht']
  unfold fileData
  rw [show "rsr_" ++ "mersi2" ++ "_" ++ "FY-3D" ++ ".h5" = "rsr_mersi2_FY-3D.h5" by decide +kernel]
  rw [show (configured env w).files _ = none from hw]
  rfl

example : Eff.result (readerNew exampleEnv (openOnly "H".toList exFile) (some "Landsat-9") (some "tirs-2") none)
    (worldWith ("/rsr", "rsr_oli_tirs_Landsat-9.h5") "H".toList) ≠ .error .fileNotFound ∧
    Eff.result (readerNew exampleEnv (openOnly "H".toList exFile) (some "Landsat-9") (some "tirs-2") none)
      (worldWith ("/rsr", "rsr_tirs-2_Landsat-9.h5") "H".toList) = .error .fileNotFound ∧
    Eff.result (readerNew exampleEnv (openOnly "H".toList exFile) (some "FY-3D") (some "mersi-2") none)
      (worldWith ("/rsr", "rsr_mersi-2_FY-3D.h5") "H".toList) = .error .fileNotFound := by
  refine ⟨?_, ?_, ?_⟩
  · obtain ⟨⟨r, hr⟩, -⟩ := reader_there exampleEnv (openOnly "H".toList exFile) "Landsat-9" "tirs-2" "oli_tirs" (by decide +kernel)
      (worldWith ("/rsr", "rsr_oli_tirs_Landsat-9.h5") "H".toList)
      (.inl ⟨"v1.6.1".toList, by rfl, [], [], [], rfl, by simp, by simp, Or.inl rfl⟩) "H".toList exFile _ (by rfl) (by rfl) exFile_loads
    rw [hr]
    simp
  · exact (C192_documented_file_partial exampleEnv (openOnly "H".toList exFile) "Landsat-9" "tirs-2" "rsr_oli_tirs_Landsat-9.h5"
      (by decide +kernel) (by decide +kernel) _).2 (.inl ⟨"v1.6.1".toList, by rfl, [], [], [], rfl, by simp, by simp, Or.inl rfl⟩) (by rfl)
  · exact (C192_fy3d_not_found _ _ _ (.inl ⟨"v1.6.1".toList, by rfl, [], [], [], rfl, by simp, by simp, Or.inl rfl⟩) "H".toList (by rfl)
      (by rfl)).2

end Verif.Props
