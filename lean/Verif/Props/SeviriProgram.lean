import Verif.Props.SeviriData
import Verif.Props.ModisProgram
import Verif.Model.SeviriProgram
/-
Property C208: the SEVIRI converter with the files it leaves behind.
-/
namespace Verif.Props
open XF Model PyNum Lemmas Spec
variable {α : Type} [PyNum α]

omit [PyNum α] in
theorem change_set (at_ : Attrs α) (groups : Dict String (H5Band α)) (b : String) (B : H5Band α) (g : H5Band α → H5Band α) :
    changeBand b g ⟨at_, groups.set b B⟩ = ((.ok () : Py Unit), (⟨at_, groups.set b (g B)⟩ : H5File α)) := by
  show ((.ok () : Py Unit), H5File.onBand _ _ _) = _
  unfold H5File.onBand
  simp only [get?_set_self, Option.getD_some, set_set]

theorem create_new (at_ : Attrs α) (groups : Dict String (H5Band α)) (b : String) (hb : groups.get? b = none) :
    createBand b ⟨at_, groups⟩ = ((.ok () : Py Unit), (⟨at_, groups.set b H5Band.empty⟩ : H5File α)) := by
  rw [createBand_run]
  simp [Dict.contains, hb]

/-- a group without responses -/
def NoResponse (B : H5Band α) : Prop := B.attrs.get? "number_of_detectors" = none ∧ B.dets = [] ∧ B.datasets.get? "response" = none

/-- a listed band is missing or has no responses -/
def BandUnusable (f : H5File α) (b : String) : Prop := ∀ B, f.bands.get? b = some B → NoResponse B

theorem not_loaded_unusable (f : H5File α) (names : List String) (hl : ListsBands f names) (b : String) (hb : b ∈ names)
    (hB : BandUnusable f b) (info : RsrInfo α) : loadRsrInfo f ≠ .ok info := by
  intro h
  obtain ⟨_, _, _, h4, _, h6⟩ := C40_loaded_data f info h
  obtain ⟨R, _, n, hc, _, hd⟩ := h6 b (by rw [h4 names hl]; exact hb)
  have hn : n = 1 := by
    rcases hc with ⟨B', m, hB', hm, rfl⟩ | ⟨_, rfl⟩
    · rw [(hB B' hB').1] at hm; cases hm
    · rfl
  obtain ⟨r, w, c, ⟨B', hB', hr⟩, _⟩ := hd 0 (by omega)
  obtain ⟨-, n1, n2⟩ := hB B' hB'
  rcases hr with ⟨D, hD, _⟩ | ⟨_, hr⟩
  · rw [n1] at hD; cases hD
  · simp [n2] at hr

/-- one channel, when it can be written and when it cannot -/
theorem seviriBandSteps_run (f32 : α → α) (seviri : Seviri α) (m : Dict String (Dict String (SatResp α)))
    (hm : seviri.central_wavelength = some m) (sat key : String) (c : SeviriChan α) (hc : seviri.rsr.get? key = some c)
    (at_ : Attrs α) (groups : Dict String (H5Band α)) (hb : groups.get? key = none) :
    (∀ B, seviriBand f32 m sat key c = .ok B →
      seviriBandSteps f32 seviri sat key ⟨at_, groups⟩ = (.ok (), ⟨at_, groups.set key B⟩)) ∧
    (∀ e, seviriBand f32 m sat key c = .error e → ∃ B,
      seviriBandSteps f32 seviri sat key ⟨at_, groups⟩ = (.error e, ⟨at_, groups.set key B⟩) ∧ NoResponse B) := by
  have fail : ∀ {e1 : PyErr} {B : H5Band α} {r : Py Unit × H5File α}, seviriBand f32 m sat key c = .error e1 →
      r = (.error e1, ⟨at_, groups.set key B⟩) → NoResponse B →
      (∀ B, seviriBand f32 m sat key c = .ok B → r = (.ok (), ⟨at_, groups.set key B⟩)) ∧
      (∀ e, seviriBand f32 m sat key c = .error e → ∃ B, r = (.error e, ⟨at_, groups.set key B⟩) ∧ NoResponse B) := by
    intro e1 B r h1 h2 h3
    refine ⟨fun B h => (by rw [h1] at h; cases h), fun e h => ?_⟩
    rw [h1] at h
    cases h
    exact ⟨B, h2, h3⟩
  unfold seviriBandSteps
  rw [st_bind_ok (create_new at_ groups key hb), hm]
  simp only
  cases h1 : m.getItem key with
  | error e1 =>
    exact fail (by unfold seviriBand; rw [h1]; rfl) (st_bind_error (st_lift_error rfl _)) ⟨rfl, rfl, rfl⟩
  | ok d1 =>
    rw [st_bind_ok (st_lift_ok rfl _)]
    cases h2 : d1.getItem sat with
    | error e1 =>
      exact fail (by unfold seviriBand; rw [h1]; simp only [bind, Except.bind]; rw [h2]) (st_bind_error (st_lift_error rfl _)) ⟨rfl, rfl, rfl⟩
    | ok d2 =>
      rw [st_bind_ok (st_lift_ok rfl _)]
      cases h3 : d2.central with
      | error e1 =>
        exact fail (by unfold seviriBand; rw [h1]; simp only [bind, Except.bind]; rw [h2]; simp only; rw [h3])
          (st_bind_error (st_lift_error rfl _)) ⟨rfl, rfl, rfl⟩
      | ok cw =>
        rw [st_bind_ok (st_lift_ok rfl _), st_bind_ok (change_set at_ groups key _ _),
          st_bind_ok (st_lift_ok (getItem_ok_iff.2 hc) _), st_bind_ok (change_set at_ groups key _ _)]
        cases h4 : c.sats.getItem sat with
        | error e1 =>
          exact fail (by unfold seviriBand; rw [h1]; simp only [bind, Except.bind]; rw [h2]; simp only; rw [h3]; simp only; rw [h4])
            (st_bind_error (st_lift_error rfl _)) ⟨rfl, rfl, rfl⟩
        | ok d4 =>
          rw [st_bind_ok (st_lift_ok rfl _)]
          cases h5 : d4.responses with
          | error e1 =>
            exact fail (by unfold seviriBand; rw [h1]; simp only [bind, Except.bind]; rw [h2]; simp only; rw [h3]; simp only; rw [h4]; simp only; rw [h5])
              (st_bind_error (st_lift_error rfl _)) ⟨rfl, rfl, rfl⟩
          | ok arr =>
            have e : seviriBand f32 m sat key c = .ok (⟨[("central_wavelength", .num cw "")],
                [wavelengthSet f32 c.wave, ("response", stored f32 arr [])], []⟩ : H5Band α) := by
              unfold seviriBand
              rw [h1]; simp only [bind, Except.bind]; rw [h2]; simp only; rw [h3]; simp only; rw [h4]; simp only; rw [h5]; rfl
            rw [e, st_bind_ok (st_lift_ok rfl _)]
            refine ⟨fun B h => ?_, fun e h => by cases h⟩
            cases h
            exact change_set at_ groups key _ _

theorem seviriBand_only (f32 : α → α) (seviri : Seviri α) (sat key : String) : OnlyBand (seviriBandSteps f32 seviri sat key) key := by
  unfold seviriBandSteps
  refine .bind (.create _) fun _ => ?_
  split
  · exact fun _ => ⟨rfl, fun _ _ => rfl⟩
  · exact .bind (.lift _ _) fun _ => .bind (.lift _ _) fun _ => .bind (.lift _ _) fun _ => .bind (.change _ _) fun _ =>
      .bind (.lift _ _) fun _ => .bind (.change _ _) fun _ => .bind (.lift _ _) fun _ => .bind (.lift _ _) fun _ => .change _ _

omit [PyNum α] in
/-- a loop over bands one of which cannot be written -/
theorem loop_unusable (step : String → PySt (H5File α) Unit) (honly : ∀ b, OnlyBand (step b) b) (band : String)
    (hstep : ∀ f, f.bands.get? band = none → (∃ e, (step band f).1 = .error e) ∧ BandUnusable (step band f).2 band) (L : List String) :
    ∀ f : H5File α, f.bands.get? band = none →
    ((PySt.forEach step L f).2.attrs = f.attrs ∧ BandUnusable (PySt.forEach step L f).2 band) ∧
    (band ∈ L → ∃ e', (PySt.forEach step L f).1 = .error e') := by
  induction L with
  | nil => intro f hf; exact ⟨⟨rfl, fun B h => by rw [show f.bands.get? band = some B from h] at hf; cases hf⟩, by simp⟩
  | cons b L ih =>
    intro f hf
    rw [st_forEach_cons]
    obtain ⟨h1, h2⟩ := honly b f
    by_cases hb : b = band
    · subst hb
      obtain ⟨⟨e, g1⟩, g2⟩ := hstep f hf
      have : step b f = (.error e, (step b f).2) := Prod.ext g1 rfl
      rw [st_bind_error this]
      exact ⟨⟨h1, g2⟩, fun _ => ⟨e, rfl⟩⟩
    · have h2 := h2 band (fun h => hb h.symm)
      cases hr : step b f with
      | mk r f' =>
        rw [hr] at h1 h2
        cases r with
        | error e' =>
          rw [st_bind_error hr]
          exact ⟨⟨h1, fun B h => by rw [show f'.bands.get? band = some B from h, hf] at h2; cases h2⟩, fun _ => ⟨e', rfl⟩⟩
        | ok _ =>
          rw [st_bind_ok hr]
          obtain ⟨⟨i1, i2⟩, i3⟩ := ih f' (h2.trans hf)
          refine ⟨⟨i1.trans h1, i2⟩, fun hm => i3 ?_⟩
          rcases List.mem_cons.1 hm with h | h
          · exact absurd h.symm hb
          · exact h

omit [PyNum α] in
theorem seviriAttrs_lists (seviri : Seviri α) (f : H5File α) (platform : String) (h : f.attrs = seviriAttrs seviri platform) :
    ListsBands f seviri.rsr.keys :=
  ⟨.object_, seviri.rsr.keys.map .str, "", by rw [h]; rfl, textOf_map _⟩

/-- the steps and the finished file -/
theorem seviriFile_same (f32 : α → α) (seviri : Seviri α) (hwf : seviri.rsr.WF) (m : Dict String (Dict String (SatResp α)))
    (hm : seviri.central_wavelength = some m) (platform : String) (p : Path) (f : H5File α)
    (h : generateSeviriFile f32 seviri platform = .ok (p, f)) (fs : H5Files α) :
    seviriFileSteps f32 seviri platform fs = (.ok (), fs.put p f) := by
  unfold generateSeviriFile at h
  rw [hm] at h
  simp only [bind, Except.bind, pure, Except.pure] at h
  split at h
  · cases h
  rename_i bands hbands
  obtain ⟨rfl, rfl⟩ := Prod.mk.inj (Except.ok.inj h)
  have hone : ∀ b ∈ seviri.rsr.keys, ∃ c B, seviri.rsr.get? b = some c ∧ seviriBand f32 m platform b c = .ok B := by
    intro b hb
    obtain ⟨⟨k, c⟩, hp, rfl⟩ := List.mem_map.1 hb
    obtain ⟨y, hy⟩ := mapM_each _ _ _ hbands _ hp
    cases hB : seviriBand f32 m platform k c with
    | error e => simp only [hB] at hy; cases hy
    | ok B => exact ⟨c, B, get?_of_mem hwf hp, hB⟩
  have : Nonempty (H5Band α) := ⟨H5Band.empty⟩
  have hB : ∀ b, ∃ B, b ∈ seviri.rsr.keys → ∃ c, seviri.rsr.get? b = some c ∧ seviriBand f32 m platform b c = .ok B := by
    intro b
    by_cases hb : b ∈ seviri.rsr.keys
    · obtain ⟨c, B, h1, h2⟩ := hone b hb
      exact ⟨B, fun _ => ⟨c, h1, h2⟩⟩
    · exact ⟨H5Band.empty, fun h => absurd h hb⟩
  choose B hB using hB
  have hloop := bands_run (seviriBandSteps f32 seviri platform) B (seviriAttrs seviri platform) seviri.rsr.keys []
    (fun b hb groups hg => by
      obtain ⟨c, h1, h2⟩ := hB b hb
      rw [(seviriBandSteps_run f32 seviri m hm platform b c h1 _ groups (get?_eq_none_iff.2 hg)).1 _ h2, set_new _ hg])
    hwf (by intro b _; simp [Dict.keys])
  have hmap := mapM_ok (fun p : String × SeviriChan α => (do return (p.1, ← seviriBand f32 m platform p.1 p.2) : Py (String × H5Band α)))
    (fun p => (p.1, B p.1)) seviri.rsr (by
      intro p hp
      obtain ⟨c, h1, h2⟩ := hB p.1 (List.mem_map_of_mem hp)
      rw [get?_of_mem hwf (show (p.1, p.2) ∈ seviri.rsr from hp)] at h1
      cases h1
      simp only [h2]
      rfl)
  obtain rfl : seviri.rsr.map (fun p => (p.1, B p.1)) = bands := Except.ok.inj (hmap.symm.trans hbands)
  unfold seviriFileSteps
  simp only [hloop]
  rw [List.nil_append, show seviri.rsr.keys.map (fun b => (b, B b)) = seviri.rsr.map (fun p => (p.1, B p.1)) from List.map_map ..]
  rfl

/-! ### C208 -/

/-- the satellites of the program -/
def seviriSatellites : List String := ["Meteosat-8", "Meteosat-9", "Meteosat-10", "Meteosat-11"]

/-- what C109 says about a file for the satellite of column `k` -/
def SeviriInfo (f32 : α → α) (sheets : List (Sheet α)) (k : Nat) (file : H5File α) : Prop :=
  ∃ info, loadRsrInfo file = .ok info ∧ info.rsr.keys = info.band_names ∧
    (∀ b, b ∈ info.band_names ↔ ∃ s ∈ sheets, IsChannel s ∧ b = Str.strip s.name) ∧
    ∀ s ∈ sheets, IsChannel s → ∃ v B, seviriCentralWave (irCells s 0) (irCells s k) = .ok v ∧
      info.rsr.get? (Str.strip s.name) = some B ∧ B.keys = ["det-1"] ∧
      B.get? "det-1" = some (detEntry ((irCells s k).map f32)
        (((irCells s 0).map f32).map fun x => x * 1e-6 * 1e6) v)

/-- C208, the part that holds: from a workbook with infrared channels only the program leaves a file for each of the four
satellites, from which readers get the responses of that satellite.  What is missing: the visible channels. -/
theorem C208_infrared_partial (f32 : α → α) (sheets : List (Sheet α)) (out : String) (hr : Rectangular sheets)
    (hd : DistinctNames sheets) (hs : ∀ s ∈ sheets, IsChannel s → IsInfrared s) (fs : H5Files α) :
    ∃ fs', seviriProgram f32 sheets out fs = (.ok (), fs') ∧
      (∀ p ∈ seviriSatellites, ∃ k file, irColumn p = some k ∧ fs' (out, "rsr_seviri_" ++ p ++ ".h5") = some file ∧
        SeviriInfo f32 sheets k file) ∧
      ∀ q, (∀ p ∈ seviriSatellites, q ≠ (out, "rsr_seviri_" ++ p ++ ".h5")) → fs' q = fs q := by
  obtain ⟨⟨m, e1, -⟩, _⟩ := seviri_new sheets out hr
  obtain ⟨hwf, -, -⟩ := seviriLoad_mem sheets
  have one : ∀ p ∈ seviriSatellites, ∃ k f, irColumn p = some k ∧ (∀ fs, seviriFileSteps f32
      ⟨out, seviriLoad sheets, "wavelength", "micrometer", some m, none⟩ p fs = (.ok (), fs.put (out, "rsr_seviri_" ++ p ++ ".h5") f)) ∧
      SeviriInfo f32 sheets k f := by
    intro p hp
    obtain ⟨k, hk⟩ : ∃ k, irColumn p = some k := by
      have : ∀ p ∈ seviriSatellites, (irColumn p).isSome := by decide
      exact Option.isSome_iff_exists.1 (this p hp)
    obtain ⟨L, f, info, h1, h2, h3⟩ := C109_infrared_partial f32 sheets out hr hd p k hk hs
    rw [e1] at h1
    cases h1
    exact ⟨k, f, hk, seviriFile_same f32 _ hwf m rfl p _ f h2, info, h3⟩
  obtain ⟨k1, f1, a1, b1, c1⟩ := one "Meteosat-8" (by decide)
  obtain ⟨k2, f2, a2, b2, c2⟩ := one "Meteosat-9" (by decide)
  obtain ⟨k3, f3, a3, b3, c3⟩ := one "Meteosat-10" (by decide)
  obtain ⟨k4, f4, a4, b4, c4⟩ := one "Meteosat-11" (by decide)
  refine ⟨(((fs.put (out, "rsr_seviri_Meteosat-8.h5") f1).put (out, "rsr_seviri_Meteosat-9.h5") f2).put
    (out, "rsr_seviri_Meteosat-10.h5") f3).put (out, "rsr_seviri_Meteosat-11.h5") f4, ?_, ?_, ?_⟩
  · unfold seviriProgram
    rw [st_bind_ok (st_lift_ok e1 _), st_forEach_cons, st_bind_ok (b1 _), st_forEach_cons, st_bind_ok (b2 _), st_forEach_cons,
      st_bind_ok (b3 _), st_forEach_cons, st_bind_ok (b4 _)]
    rfl
  · simp only [seviriSatellites, List.mem_cons, List.not_mem_nil, or_false]
    rintro p (rfl | rfl | rfl | rfl)
    · exact ⟨k1, f1, a1, by simp [H5Files.put], c1⟩
    · exact ⟨k2, f2, a2, by simp [H5Files.put], c2⟩
    · exact ⟨k3, f3, a3, by simp [H5Files.put], c3⟩
    · exact ⟨k4, f4, a4, by simp [H5Files.put], c4⟩
  · intro q hq
    simp only [H5Files.put]
    rw [if_neg (show q ≠ (out, "rsr_seviri_Meteosat-11.h5") from hq "Meteosat-11" (by decide)),
      if_neg (show q ≠ (out, "rsr_seviri_Meteosat-10.h5") from hq "Meteosat-10" (by decide)),
      if_neg (show q ≠ (out, "rsr_seviri_Meteosat-9.h5") from hq "Meteosat-9" (by decide)),
      if_neg (show q ≠ (out, "rsr_seviri_Meteosat-8.h5") from hq "Meteosat-8" (by decide))]

/-- C208 is false of the code: whatever the workbook, if it has a sheet of a channel that is not an infrared one (as the published
one has), the program fails at the first satellite; the response file of Meteosat-8 that was there before is lost and the new one
cannot be read; nothing is done for the others. -/
theorem C208_visible_destroys (f32 : α → α) (sheets : List (Sheet α)) (out : String) (hr : Rectangular sheets)
    (hs : ∃ s ∈ sheets, IsChannel s ∧ ¬ IsInfrared s) (fs : H5Files α) :
    ∃ e file, seviriProgram f32 sheets out fs = (.error e, fs.put (out, "rsr_seviri_Meteosat-8.h5") file) ∧
      ∀ info, loadRsrInfo file ≠ .ok info := by
  obtain ⟨⟨m, e1, hm⟩, _⟩ := seviri_new sheets out hr
  obtain ⟨hwf, hmem, hkeys⟩ := seviriLoad_mem sheets
  obtain ⟨s, hs, hc, hi⟩ := hs
  have hk' := hkeys s hs hc
  obtain ⟨k, hk⟩ : ∃ k, irColumn "Meteosat-8" = some k := Option.isSome_iff_exists.1 (by decide)
  have hband : ∃ c, (seviriLoad sheets).get? (Str.strip s.name) = some c ∧
      seviriBand f32 m "Meteosat-8" (Str.strip s.name) c = .error .indexError := by
    cases hg : (seviriLoad sheets).get? (Str.strip s.name) with
    | none => rw [get?_eq_none_iff] at hg; exact absurd hk' hg
    | some c =>
      obtain ⟨s', _, _, e⟩ := hmem _ (get?_eq_some_mem hg)
      have hname := (Prod.mk.inj e).1
      have hval := (Prod.mk.inj e).2
      have hi' : ¬ IsInfrared s' := by
        intro h
        apply hi
        unfold IsInfrared at h ⊢
        rw [hname]
        exact h
      refine ⟨c, rfl, ?_⟩
      rw [hname, hval] at hg ⊢
      exact seviriBand_other f32 sheets hr m hm "Meteosat-8" k hk s' hi' hg
  obtain ⟨c, hg, hb⟩ := hband
  obtain ⟨⟨i1, i2⟩, i3⟩ := loop_unusable (seviriBandSteps f32 ⟨out, seviriLoad sheets, "wavelength", "micrometer", some m, none⟩ "Meteosat-8")
    (fun b => seviriBand_only f32 _ _ b) (Str.strip s.name) (by
      rintro ⟨at_, groups⟩ hf
      obtain ⟨B, g1, g2⟩ := (seviriBandSteps_run f32 ⟨out, seviriLoad sheets, "wavelength", "micrometer", some m, none⟩ m rfl
        "Meteosat-8" (Str.strip s.name) c hg at_ groups hf).2 _ hb
      rw [g1]
      refine ⟨⟨_, rfl⟩, fun B' h => ?_⟩
      simp only [get?_set_self] at h
      cases h
      exact g2) (seviriLoad sheets).keys
    ⟨seviriAttrs ⟨out, seviriLoad sheets, "wavelength", "micrometer", some m, none⟩ "Meteosat-8", []⟩ rfl
  obtain ⟨e, i3⟩ := i3 hk'
  refine ⟨e, _, ?_, not_loaded_unusable _ _ (seviriAttrs_lists _ _ "Meteosat-8" i1) (Str.strip s.name) hk' i2⟩
  unfold seviriProgram
  rw [st_bind_ok (st_lift_ok e1 _), st_forEach_cons]
  refine st_bind_error ?_
  unfold seviriFileSteps
  simp only [i3]
  rfl

/-- C208: the reader for SEVIRI on a satellite looks for the file the program makes. -/
theorem C208_found (env : Env) (h5open : Content → Option (H5File α)) (platform : String) (hp : platform ∈ seviriSatellites)
    (w : World) (r : Reader α) (hr : Eff.result (readerNew env h5open (some platform) (some "seviri") none) w = .ok r) :
    r.filename = (env.cfg.rsr_dir, "rsr_seviri_" ++ platform ++ ".h5") := by
  obtain ⟨c, h3, -, -, -, h4, -⟩ := C38_by_names env h5open _ _ w r hr
  have : ∀ p ∈ seviriSatellites, checkAndAdjustInstrumentName p "seviri" = .ok "seviri" := by decide +kernel
  rw [this _ hp] at h3
  cases h3
  exact h4

example (fs : H5Files XF) : ∃ fs' file, seviriProgram id exWorkbook "/out" fs = (.ok (), fs') ∧
    fs' ("/out", "rsr_seviri_Meteosat-10.h5") = some file ∧ SeviriInfo id exWorkbook 5 file := by
  obtain ⟨fs', h1, h2, -⟩ := C208_infrared_partial id exWorkbook "/out" exWorkbook_rect (by
    intro s hs t ht hcs hct _
    simp only [exWorkbook, List.mem_cons, List.not_mem_nil, or_false] at hs ht
    rcases hs with rfl | rfl
    · exact absurd rfl hcs.1
    · rcases ht with rfl | rfl
      · exact absurd rfl hct.1
      · rfl) (by
    intro s hs hc
    simp only [exWorkbook, List.mem_cons, List.not_mem_nil, or_false] at hs
    rcases hs with rfl | rfl
    · exact absurd rfl hc.1
    · exact exIrSheet_ir) fs
  obtain ⟨k, f, e, h3, h4⟩ := h2 "Meteosat-10" (by decide)
  cases e
  exact ⟨fs', f, h1, h3, h4⟩

example (fs : H5Files XF) : ∃ e file, seviriProgram id ([exIrSheet, ⟨"VIS0.6", fun _ => []⟩] : List (Sheet XF)) "/out" fs =
      (.error e, fs.put ("/out", "rsr_seviri_Meteosat-8.h5") file) ∧ ∀ info, loadRsrInfo file ≠ .ok info := by
  refine C208_visible_destroys id _ "/out" ?_ ⟨⟨"VIS0.6", fun _ => []⟩, by simp, ?_, ?_⟩ fs
  · intro s hs c
    simp only [List.mem_cons, List.not_mem_nil, or_false] at hs
    rcases hs with rfl | rfl
    · exact exWorkbook_rect exIrSheet (by simp [exWorkbook]) c
    · rfl
  · constructor <;> decide
  · rintro ⟨rest, h⟩
    rw [show (Str.strip "VIS0.6").toList = ['V', 'I', 'S', '0', '.', '6'] by decide +kernel] at h
    cases h

end Verif.Props
