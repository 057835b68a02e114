import Verif.Props.Programs
import Verif.Props.ConvertedName
/-
Property C201: the files the conversion programs write, and the readers that look for them.
-/
namespace Verif.Props
open XF Model PyNum Lemmas Spec
variable {α : Type} [PyNum α]

/-- what the conversion programs are said to make, program by program: platform, instrument, file and number of bands -/
def programFiles : List (List (String × String × String × Nat)) :=
  [[("Envisat", "aatsr", "rsr_aatsr_Envisat.h5", 7)],
   [("GOES-16", "abi", "rsr_abi_GOES-16.h5", 16), ("GOES-17", "abi", "rsr_abi_GOES-17.h5", 16),
    ("GOES-18", "abi", "rsr_abi_GOES-18.h5", 16), ("GOES-19", "abi", "rsr_abi_GOES-19.h5", 16)],
   [("FY-4B", "agri", "rsr_agri_FY-4B.h5", 15)],
   [("GEO-KOMPSAT-2A", "ami", "rsr_ami_GEO-KOMPSAT-2A.h5", 16)],
   [("Metop-C", "avhrr/3", "rsr_avhrr3_Metop-C.h5", 6)],
   [("HY-1C", "cocts", "rsr_cocts_HY-1C.h5", 8)],
   [("DSCOVR", "epic", "rsr_epic_DSCOVR.h5", 10)],
   [("Meteosat-12", "fci", "rsr_fci_Meteosat-12.h5", 16), ("MTG-I1", "fci", "rsr_fci_MTG-I1.h5", 16)],
   [("FY-4B", "ghi", "rsr_ghi_FY-4B.h5", 7)],
   [("GK-2B", "goci2", "rsr_goci2_GK-2B.h5", 12)],
   [("FY-3A", "mersi-1", "rsr_mersi-1_FY-3A.h5", 20), ("FY-3B", "mersi-1", "rsr_mersi-1_FY-3B.h5", 19),
    ("FY-3C", "mersi-1", "rsr_mersi-1_FY-3C.h5", 20)],
   [("FY-3D", "mersi-2", "rsr_mersi-2_FY-3D.h5", 25)],
   [("FY-3F", "mersi3", "rsr_mersi3_FY-3F.h5", 25)],
   [("FY-3G", "mersi-rm", "rsr_mersi-rm_FY-3G.h5", 8)],
   [("Sentinel-2A", "msi", "rsr_msi_Sentinel-2A.h5", 13), ("Sentinel-2B", "msi", "rsr_msi_Sentinel-2B.h5", 13),
    ("Sentinel-2C", "msi", "rsr_msi_Sentinel-2C.h5", 13)],
   [("Electro-L-N2", "msu-gs", "rsr_msu-gs_Electro-L-N2.h5", 10)],
   [("Arctica-M-N1", "msu-gsa", "rsr_msu-gsa_Arctica-M-N1.h5", 10)],
   [("Sentinel-3B", "olci", "rsr_olci_Sentinel-3B.h5", 21)],
   [("Landsat-8", "oli_tirs", "rsr_oli_tirs_Landsat-8.h5", 11), ("Landsat-9", "oli_tirs", "rsr_oli_tirs_Landsat-9.h5", 11)],
   [("Sentinel-3B", "slstr", "rsr_slstr_Sentinel-3B.h5", 9)],
   [("Sentinel-3A", "slstr", "rsr_slstr_Sentinel-3A.h5", 9), ("Sentinel-3B", "slstr", "rsr_slstr_Sentinel-3B.h5", 9),
    ("Sentinel-3C", "slstr", "rsr_slstr_Sentinel-3C.h5", 9), ("Sentinel-3D", "slstr", "rsr_slstr_Sentinel-3D.h5", 9)]]

/-- objects of a class are for one instrument and write into the configured directory -/
def MakesFor (C : String → String → Py (RawSensor α)) (platform inst dir : String) : Prop :=
  ∀ b s, C b platform = .ok s → s.instrument = inst ∧ s.output_dir = dir

theorem getOptionsFrom_keeps {options : List (String × Conf)} {dir : String}
    (hd : Dict.get? options "rsr_dir" = some (.leaf (.str dir))) {r r' : InstrumentRSR} (h : r.getOptionsFrom options = .ok r') :
    r'.instrument = r.instrument ∧ r'.output_dir = some (.leaf (.str dir)) := by
  unfold InstrumentRSR.getOptionsFrom at h
  rw [hd] at h
  simp only [bind, Except.bind, pure, Except.pure, Option.getD_some] at h
  split at h
  · cases h
  split at h
  · cases h
  split at h
  · cases h
    exact ⟨rfl, rfl⟩
  · cases h

theorem getBandfilenames_keeps {r r' : InstrumentRSR} (h : r.getBandfilenames = .ok r') :
    r'.instrument = r.instrument ∧ r'.output_dir = r.output_dir := by
  unfold InstrumentRSR.getBandfilenames at h
  simp only [bind, Except.bind, pure, Except.pure] at h
  split at h
  · cases h
  cases h
  exact ⟨rfl, rfl⟩

theorem textClass_for {φ : Type} {options : List (String × Conf)} {dir : String}
    (hd : Dict.get? options "rsr_dir" = some (.leaf (.str dir))) (files : String → Option φ) (bands : List String) (inst : String)
    (m : OnMissing) (load : φ → Py (RawCurve α)) (b p : String) (s : RawSensor α)
    (h : textClass options files bands (some inst) m load b p = .ok s) : s.instrument = inst ∧ s.output_dir = dir := by
  unfold textClass at h
  simp only [bind, Except.bind, pure, Except.pure] at h
  split at h
  · cases h
  rename_i r1 h1
  split at h
  · cases h
  rename_i r2 h2
  split at h
  · cases h
  obtain ⟨a1, a2⟩ := getOptionsFrom_keeps hd h1
  obtain ⟨b1, b2⟩ := getBandfilenames_keeps h2
  rw [b1, a1, b2, a2] at h
  simp only at h
  split at h
  · split at h
    · cases h
    · cases h; exact ⟨rfl, rfl⟩
  · split at h
    · cases h; exact ⟨rfl, rfl⟩
    · cases h

theorem oneFileClass_for {φ : Type} {options : List (String × Conf)} {dir : String}
    (hd : Dict.get? options "rsr_dir" = some (.leaf (.str dir))) (files : String → Option φ) (inst : String)
    (m : OnMissing) (load : φ → Py (RawCurve α)) (b p : String) (s : RawSensor α)
    (h : oneFileClass options files inst m load b p = .ok s) : s.instrument = inst ∧ s.output_dir = dir := by
  unfold oneFileClass at h
  simp only [bind, Except.bind, pure, Except.pure] at h
  split at h
  · cases h
  rename_i r1 h1
  obtain ⟨a1, a2⟩ := getOptionsFrom_keeps hd h1
  rw [a2] at h
  simp only at h
  split at h
  · split at h
    · cases h
    · cases h; exact ⟨rfl, rfl⟩
  · split at h
    · cases h; exact ⟨rfl, rfl⟩
    · cases h

/-- a call of a program is the one a row of the table speaks of -/
structure JobIs (dir : String) (j : ConvJob α) (row : String × String × String × Nat) : Prop where
  platform : j.platform = row.1
  bands : j.names.Nodup ∧ j.names.length = row.2.2.2
  objects : ∀ b s, j.ClassIn b j.platform = .ok s → s.instrument = row.2.1 ∧ s.output_dir = dir
  file : ∀ q, TargetIs j.ClassIn j.platform j.names q → q = (dir, row.2.2.1)

omit [PyNum α] in
theorem job_is {dir : String} {j : ConvJob α} {row : String × String × String × Nat} (h1 : j.platform = row.1)
    (h2 : j.names.Nodup ∧ j.names.length = row.2.2.2) (h3 : MakesFor j.ClassIn row.1 row.2.1 dir)
    (h4 : "rsr_" ++ withoutSlashes row.2.1 ++ "_" ++ row.1 ++ ".h5" = row.2.2.1) : JobIs dir j row := by
  refine ⟨h1, h2, by rw [h1]; exact h3, ?_⟩
  rintro q ⟨b, rest, s, -, hs, rfl⟩
  rw [h1] at hs ⊢
  obtain ⟨e1, e2⟩ := h3 b s hs
  rw [e1, e2, h4]

omit [PyNum α] in
theorem jobsFor_are {dir inst : String} {C : String → String → Py (RawSensor α)} {names : List String} {ds : Option (List String)}
    {platforms : List String} {rows : List (String × String × String × Nat)} (hp : platforms = rows.map Prod.fst)
    (h : names.Nodup ∧ ∀ row ∈ rows, row.2.1 = inst ∧ names.length = row.2.2.2 ∧
      "rsr_" ++ withoutSlashes row.2.1 ++ "_" ++ row.1 ++ ".h5" = row.2.2.1)
    (hm : ∀ p ∈ platforms, MakesFor C p inst dir) : List.Forall₂ (JobIs dir) (jobsFor C platforms names ds) rows := by
  subst hp
  obtain ⟨h0, h⟩ := h
  induction rows with
  | nil => exact .nil
  | cons row rows ih =>
    obtain ⟨h1, h2, h3⟩ := h row (by simp)
    refine .cons (job_is rfl ⟨h0, h2⟩ ?_ h3) (ih (fun p hp => hm p (List.mem_cons_of_mem _ hp)) fun r hr => h r (List.mem_cons_of_mem _ hr))
    rw [h1]
    exact hm _ (by simp)

/-- C201: all conversion programs but the one for VIRR (which writes nothing, C167), call by call: the platform, the instrument
and the number of different bands are those of the table, and so is the file a call writes, in the configured directory. -/
theorem C201_files (o : Originals α) (f32 : α → α) (dir : String)
    (hd : Dict.get? o.options "rsr_dir" = some (.leaf (.str dir))) :
    List.Forall₂ (List.Forall₂ (JobIs dir)) (convertPrograms o f32).dropLast programFiles := by
  have sec : ∀ {key path out : String}, sectionPath o.options key = .ok (path, out) → out = dir := by
    intro key path out h
    unfold sectionPath at h
    rw [hd] at h
    simp only [bind, Except.bind, pure, Except.pure, Option.getD_some] at h
    split at h
    · cases h
    split at h
    · cases h
    split at h
    · rename_i e
      cases h
      cases e
      rfl
    · cases h
  refine .cons (jobsFor_are (inst := "aatsr") rfl (by decide +kernel) ?_) <|
    .cons (jobsFor_are (inst := "abi") rfl (by decide +kernel) fun _ _ _ _ => textClass_for hd _ _ _ _ _ _ _ _) <|
    .cons (jobsFor_are (inst := "agri") rfl (by decide +kernel) ?_) <|
    .cons (jobsFor_are (inst := "ami") rfl (by decide +kernel) fun _ _ _ _ => textClass_for hd _ _ _ _ _ _ _ _) <|
    .cons (jobsFor_are (inst := "avhrr/3") rfl (by decide +kernel) ?_) <|
    .cons (jobsFor_are (inst := "cocts") rfl (by decide +kernel) ?_) <|
    .cons (jobsFor_are (inst := "epic") rfl (by decide +kernel) fun _ _ _ _ => oneFileClass_for hd _ _ _ _ _ _ _) <|
    .cons (jobsFor_are (inst := "fci") rfl (by decide +kernel) ?_) <|
    .cons (jobsFor_are (inst := "ghi") rfl (by decide +kernel) ?_) <|
    .cons (jobsFor_are (inst := "goci2") rfl (by decide +kernel) fun _ _ _ _ => oneFileClass_for hd _ _ _ _ _ _ _) <|
    .cons ?_ <|
    .cons (jobsFor_are (inst := "mersi-2") rfl (by decide +kernel) ?_) <|
    .cons (jobsFor_are (inst := "mersi3") rfl (by decide +kernel) fun _ _ _ _ => textClass_for hd _ _ _ _ _ _ _ _) <|
    .cons (jobsFor_are (inst := "mersi-rm") rfl (by decide +kernel) ?_) <|
    .cons (jobsFor_are (inst := "msi") rfl (by decide +kernel) ?_) <|
    .cons (jobsFor_are (inst := "msu-gs") rfl (by decide +kernel) fun _ _ _ _ => textClass_for hd _ _ _ _ _ _ _ _) <|
    .cons (jobsFor_are (inst := "msu-gsa") rfl (by decide +kernel) ?_) <|
    .cons (jobsFor_are (inst := "olci") rfl (by decide +kernel) ?_) <|
    .cons (jobsFor_are (inst := "oli_tirs") rfl (by decide +kernel) ?_) <|
    .cons (jobsFor_are (inst := "slstr") rfl (by decide +kernel) fun _ _ _ _ => textClass_for hd _ _ _ _ _ _ _ _) <|
    .cons (jobsFor_are (inst := "slstr") rfl (by decide +kernel) fun _ _ _ _ => textClass_for hd _ _ _ _ _ _ _ _) .nil
  · intro p _ b s h
    unfold AatsrRSR at h
    simp only [bind, Except.bind, pure, Except.pure] at h
    split at h
    · cases h
    rename_i v hv
    split at h
    · cases h
    split at h
    · cases h
    split at h <;> cases h <;> exact ⟨rfl, sec hv⟩
  · intro p hp b s h
    obtain rfl : p = "FY-4B" := by simpa using hp
    exact textClass_for hd _ _ _ _ _ _ _ _ h
  · intro p hp b s h
    obtain rfl : p = "Metop-C" := by simpa using hp
    unfold AvhrrRSR at h
    rw [show INSTRUMENTS.getItem "Metop-C" = .ok (.one "avhrr/3") by rfl] at h
    simp only [bind, Except.bind] at h
    rw [show AVHRR_BAND_NAMES.getItem "avhrr/3" = .ok ["ch1", "ch2", "ch3a", "ch3b", "ch4", "ch5"] by rfl] at h
    exact textClass_for hd _ _ _ _ _ _ _ _ h
  · intro p hp b s h
    obtain rfl : p = "HY-1C" := by simpa using hp
    exact textClass_for hd _ _ _ _ _ _ _ _ h
  · intro p _ b s h
    unfold FciRSR at h
    simp only [bind, Except.bind, pure, Except.pure] at h
    split at h
    · cases h
    rename_i r hr
    rw [(getOptionsFrom_keeps hd hr).2] at h
    split at h
    · rename_i e _ _
      cases e
      split at h
      · cases h
      split at h <;> cases h <;> exact ⟨rfl, rfl⟩
    · cases h
  · intro p hp b s h
    obtain rfl : p = "FY-4B" := by simpa using hp
    exact textClass_for hd _ _ _ _ _ _ _ _ h
  · have M : ∀ p, p = "FY-3A" ∨ p = "FY-3B" ∨ p = "FY-3C" → MakesFor (Mersi1RSR o.options o.text) p "mersi-1" dir := by
      rintro p (rfl | rfl | rfl) b s h <;> exact textClass_for hd _ _ _ _ _ _ _ _ h
    exact .cons (job_is rfl (show (mersi1Names "FY-3A").Nodup ∧ (mersi1Names "FY-3A").length = 20 by decide +kernel) (M _ (by simp)) (by decide +kernel)) <|
      .cons (job_is rfl (show (mersi1Names "FY-3B").Nodup ∧ (mersi1Names "FY-3B").length = 19 by decide +kernel) (M _ (by simp)) (by decide +kernel)) <|
      .cons (job_is rfl (show (mersi1Names "FY-3C").Nodup ∧ (mersi1Names "FY-3C").length = 20 by decide +kernel) (M _ (by simp)) (by decide +kernel)) .nil
  · intro p hp b s h
    obtain rfl : p = "FY-3D" := by simpa using hp
    exact textClass_for hd _ _ _ _ _ _ _ _ h
  · intro p hp b s h
    obtain rfl : p = "FY-3G" := by simpa using hp
    exact textClass_for hd _ _ _ _ _ _ _ _ h
  · intro p _ b s h
    unfold MsiRSR at h
    simp only [bind, Except.bind] at h
    split at h
    · cases h
    exact oneFileClass_for hd _ _ _ _ _ _ _ h
  · intro p _ b s h
    unfold MsugsaRSR at h
    simp only [bind, Except.bind, pure, Except.pure] at h
    split at h
    · cases h
    rename_i v hv
    split at h
    · cases h
    split at h
    · cases h
    cases h
    exact ⟨rfl, sec hv⟩
  · intro p _ b s h
    unfold OlciRSR at h
    simp only [bind, Except.bind, pure, Except.pure] at h
    split at h
    · cases h
    rename_i r hr
    rw [(getOptionsFrom_keeps hd hr).2] at h
    split at h
    · rename_i e _
      cases e
      split at h
      · cases h
      · cases h; exact ⟨rfl, rfl⟩
    · cases h
    · cases h
  · intro p _ b s h
    unfold OliRSR at h
    simp only [bind, Except.bind, pure, Except.pure] at h
    split at h
    · cases h
    rename_i r hr
    split at h
    · cases h
    split at h
    · cases h
    split at h
    · cases h
    rw [(getOptionsFrom_keeps hd hr).2] at h
    split at h
    · rename_i e _ _
      cases e
      split at h
      · cases h
      split at h
      · cases h
      · cases h; exact ⟨rfl, rfl⟩
    · cases h

/-- C201: the reader for the platform and the instrument of a converted file looks for exactly this file, unless the name of the
instrument has a dash (missing from the claim: the files for MERSI-1, MERSI-2, MERSI-RM, MSU-GS and MSU-GS/A). -/
theorem C201_found_partial (env : Env) (h5open : Content → Option (H5File α)) (rows : List (String × String × String × Nat))
    (hrows : rows ∈ programFiles) (row : String × String × String × Nat) (hrow : row ∈ rows) (hdash : '-' ∉ row.2.1.toList)
    (w : World) (r : Reader α) (hr : Eff.result (readerNew env h5open (some row.1) (some row.2.1) none) w = .ok r) :
    r.filename = (env.cfg.rsr_dir, row.2.2.1) := by
  have key : ∀ rows ∈ programFiles, ∀ row ∈ rows, '-' ∉ row.2.1.toList →
      ∃ c, checkAndAdjustInstrumentName row.1 row.2.1 = .ok c ∧ "rsr_" ++ c ++ "_" ++ row.1 ++ ".h5" = row.2.2.1 := by
    have : ∀ rows ∈ programFiles, ∀ row ∈ rows, '-' ∉ row.2.1.toList →
        (checkAndAdjustInstrumentName row.1 row.2.1).map (fun c => "rsr_" ++ c ++ "_" ++ row.1 ++ ".h5") = .ok row.2.2.1 := by
      decide +kernel
    intro rows h1 row h2 h3
    have := this rows h1 row h2 h3
    cases hc : checkAndAdjustInstrumentName row.1 row.2.1 with
    | error e => rw [hc] at this; cases this
    | ok c => rw [hc] at this; exact ⟨c, rfl, Except.ok.inj this⟩
  obtain ⟨c, h1, h2⟩ := key rows hrows row hrow hdash
  obtain ⟨c', h3, -, -, -, h4, -⟩ := C38_by_names env h5open row.1 row.2.1 w r hr
  rw [h1] at h3
  cases h3
  rw [h4, h2]

/-- C201 is false for instruments with a dash: no reader for the platform, whatever instrument it is asked for, looks for the file. -/
theorem C201_not_found (env : Env) (h5open : Content → Option (H5File α)) (rows : List (String × String × String × Nat))
    (hrows : rows ∈ programFiles) (row : String × String × String × Nat) (hrow : row ∈ rows) (hdash : '-' ∈ row.2.1.toList)
    (arg : String) (w : World) (r : Reader α) (hr : Eff.result (readerNew env h5open (some row.1) (some arg) none) w = .ok r) :
    r.filename ≠ (env.cfg.rsr_dir, row.2.2.1) := by
  have key : ∀ rows ∈ programFiles, ∀ row ∈ rows, "rsr_" ++ row.2.1 ++ "_" ++ row.1 ++ ".h5" = row.2.2.1 ∨ '-' ∉ row.2.1.toList := by
    decide +kernel
  obtain ⟨c, -, hcan, -, -, h4, -⟩ := C38_by_names env h5open row.1 arg w r hr
  intro e
  rw [h4] at e
  rcases key rows hrows row hrow with h | h
  · rw [← h] at e
    have := rsrName_inj (Prod.mk.inj e).2
    rw [this] at hcan
    exact (hcan '-' hdash).2.1 rfl
  · exact h hdash

/-- the file for MERSI-2 on FY-3D -/
example (env : Env) (h5open : Content → Option (H5File α)) (arg : String) (w : World) (r : Reader α)
    (hr : Eff.result (readerNew env h5open (some "FY-3D") (some arg) none) w = .ok r) :
    r.filename ≠ (env.cfg.rsr_dir, "rsr_mersi-2_FY-3D.h5") :=
  C201_not_found env h5open [("FY-3D", "mersi-2", "rsr_mersi-2_FY-3D.h5", 25)] (by decide +kernel)
    ("FY-3D", "mersi-2", "rsr_mersi-2_FY-3D.h5", 25) (by decide +kernel) (by decide +kernel) arg w r hr

/-- the file for AVHRR/3 on Metop-C -/
example (env : Env) (h5open : Content → Option (H5File α)) (w : World) (r : Reader α)
    (hr : Eff.result (readerNew env h5open (some "Metop-C") (some "avhrr/3") none) w = .ok r) :
    r.filename = (env.cfg.rsr_dir, "rsr_avhrr3_Metop-C.h5") :=
  C201_found_partial env h5open [("Metop-C", "avhrr/3", "rsr_avhrr3_Metop-C.h5", 6)] (by decide +kernel)
    ("Metop-C", "avhrr/3", "rsr_avhrr3_Metop-C.h5", 6) (by decide +kernel) (by decide +kernel) w r hr

end Verif.Props
