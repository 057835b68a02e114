import Verif.Props.ProgramFiles
import Verif.Props.SheetConvert
/-
Property C205: the conversion programs leave each other's files alone.
-/
namespace Verif.Props
open XF Model PyNum Lemmas Spec
variable {α : Type} [PyNum α]

/-- whatever becomes of the conversions, a file none of them is for is as before -/
theorem runJobs_keeps (f32 : α → α) (q : Path) (js : List (ConvJob α))
    (h : ∀ j ∈ js, ¬ TargetIs j.ClassIn j.platform j.names q) (fs : H5Files α) : (runJobs f32 js fs).2 q = fs q := by
  induction js generalizing fs with
  | nil => rfl
  | cons j js ih =>
    have hk : (j.run f32 fs).2 q = fs q :=
      (C132_kept_partial f32 j.ClassIn j.platform j.names 1e-6 j.detectors fs).2 q (h j (by simp))
    rw [runJobs_cons]
    rcases hj : j.run f32 fs with ⟨_ | u, fs1⟩
    · rw [hj] at hk; exact hk
    · rw [hj] at hk
      exact (ih (fun k hk => h k (by simp [hk])) fs1).trans hk

/-- one run of a conversion program: the configuration and the original data of the day, and which program -/
abbrev ProgramRun (α : Type) := Originals α × Nat

/-- the files after one run, whether it succeeds or not -/
def afterRun (f32 : α → α) (r : ProgramRun α) (fs : H5Files α) : H5Files α :=
  match (convertPrograms r.1 f32)[r.2]? with
  | some js => (runJobs f32 js fs).2
  | none => fs

/-- the files a program is said to make -/
def filesOf (n : Nat) : List String := ((programFiles[n]?).getD []).map fun row => row.2.2.1

theorem afterRun_keeps (f32 : α → α) (r : ProgramRun α) (dir : String)
    (hd : Dict.get? r.1.options "rsr_dir" = some (.leaf (.str dir))) (q : Path)
    (hq : ∀ name ∈ filesOf r.2, q ≠ (dir, name)) (fs : H5Files α) : afterRun f32 r fs q = fs q := by
  obtain ⟨o, n⟩ := r
  unfold afterRun
  rcases hjs : (convertPrograms o f32)[n]? with _ | js
  · rfl
  · simp only
    by_cases hn : n = 21
    · subst hn
      obtain rfl : virrProgram o = js := Option.some.inj hjs
      rw [C167_virr_never o f32 fs]
    · have hlen : (convertPrograms o f32).length = 22 := rfl
      have hn1 : n < 22 := by
        obtain ⟨h, -⟩ := List.getElem?_eq_some_iff.1 hjs
        rwa [hlen] at h
      have hn2 : n < 21 := by omega
      have F := C201_files o f32 dir hd
      have h1 : n < (convertPrograms o f32).dropLast.length := by rw [List.length_dropLast, hlen]; exact hn2
      have h2 : n < programFiles.length := by rw [show programFiles.length = 21 from rfl]; exact hn2
      have hrow := F.get h1 h2
      have hj : (convertPrograms o f32).dropLast.get ⟨n, h1⟩ = js := by
        rw [List.get_eq_getElem, List.getElem_dropLast]
        obtain ⟨h, e⟩ := List.getElem?_eq_some_iff.1 hjs
        exact e
      rw [hj] at hrow
      apply runJobs_keeps
      intro j hjm hT
      obtain ⟨row, hrm, hJ⟩ : ∃ row ∈ programFiles.get ⟨n, h2⟩, JobIs dir j row := by
        clear hj hjs
        generalize programFiles.get ⟨n, h2⟩ = rows at hrow
        induction hrow with
        | nil => simp at hjm
        | cons hx _ ih =>
          rcases List.mem_cons.1 hjm with rfl | hjm
          · exact ⟨_, by simp, hx⟩
          · obtain ⟨row, a, b⟩ := ih hjm
            exact ⟨row, by simp [a], b⟩
      refine hq row.2.2.1 ?_ (hJ.file q hT)
      unfold filesOf
      rw [List.getElem?_eq_getElem h2]
      exact List.mem_map_of_mem hrm

/-- the two programs for SLSTR -/
def slstrPrograms : List Nat := [19, 20]

theorem files_apart (m : Nat) (hm : m < 21) (n : Nat) (hn : n < 22) (hmn : m ≠ n) (a : String) (ha : a ∈ filesOf m)
    (h : a = "rsr_slstr_Sentinel-3B.h5" → n ∉ slstrPrograms) : a ∉ filesOf n := by
  have key : ∀ m ∈ List.range 21, ∀ n ∈ List.range 22, m = n ∨ ∀ a ∈ filesOf m,
      (a = "rsr_slstr_Sentinel-3B.h5" ∧ n ∈ slstrPrograms) ∨ a ∉ filesOf n := by
    decide +kernel
  rcases key m (List.mem_range.2 hm) n (List.mem_range.2 hn) with e | e
  · exact absurd e hmn
  · rcases e a ha with ⟨e1, e2⟩ | e
    · exact absurd e2 (h e1)
    · exact e

/-- C205: a file made by one program is, after any number of later runs of other programs in any order, with whatever
configuration and original data, successful or not, exactly as it was made (missing from the claim: the file for SLSTR on Sentinel-3B, which two
programs make). -/
theorem C205_apart_partial (f32 : α → α) (m : Nat) (hm : m < 21) (a : String) (ha : a ∈ filesOf m) (dir : String)
    (later : List (ProgramRun α))
    (hdir : ∀ r ∈ later, ∃ d, Dict.get? r.1.options "rsr_dir" = some (.leaf (.str d)))
    (hother : ∀ r ∈ later, r.2 < 22 ∧ m ≠ r.2 ∧ (a = "rsr_slstr_Sentinel-3B.h5" → r.2 ∉ slstrPrograms)) (fs : H5Files α) :
    (later.foldl (fun fs r => afterRun f32 r fs) fs) (dir, a) = fs (dir, a) := by
  induction later generalizing fs with
  | nil => rfl
  | cons r later ih =>
    rw [List.foldl_cons, ih (fun r hr => hdir r (by simp [hr])) (fun r hr => hother r (by simp [hr]))]
    obtain ⟨d, hd⟩ := hdir r (by simp)
    obtain ⟨h1, h2, h3⟩ := hother r (by simp)
    refine afterRun_keeps f32 r d hd _ (fun name hn e => ?_) fs
    exact files_apart m hm r.2 h1 h2 a ha h3 ((Prod.mk.inj e).2 ▸ hn)

/-- C205: after any such history the other programs' files are the only ones that can have changed at all. -/
theorem C205_only_own (f32 : α → α) (runs : List (ProgramRun α)) (dir : String)
    (hdir : ∀ r ∈ runs, Dict.get? r.1.options "rsr_dir" = some (.leaf (.str dir))) (q : Path)
    (hq : ∀ r ∈ runs, ∀ name ∈ filesOf r.2, q ≠ (dir, name)) (fs : H5Files α) :
    (runs.foldl (fun fs r => afterRun f32 r fs) fs) q = fs q := by
  induction runs generalizing fs with
  | nil => rfl
  | cons r runs ih =>
    rw [List.foldl_cons, ih (fun r hr => hdir r (by simp [hr])) (fun r hr => hq r (by simp [hr]))]
    exact afterRun_keeps f32 r dir (hdir r (by simp)) q (hq r (by simp)) fs

/-- C205 is false of the programs for SLSTR: what the one for text tables has made for Sentinel-3B (or anything else of that
name) is gone once the one for netCDF files has run. -/
theorem C205_slstr_overwrites (f32 : α → α) (o : Originals α) (dir : String)
    (hd : Dict.get? o.options "rsr_dir" = some (.leaf (.str dir))) (p : Path) (f : H5File α)
    (hc : convert2hdf5 f32 (SlstrRSR o.options o.ncf) "Sentinel-3B" (chNames 9) 1e-6 none = .ok (p, f)) :
    p = (dir, "rsr_slstr_Sentinel-3B.h5") ∧ "rsr_slstr_Sentinel-3B.h5" ∈ filesOf 20 ∧
      ∀ fs, afterRun f32 (o, 19) fs p = some f := by
  have hT := fun fs => (C131_same_result f32 (SlstrRSR o.options o.ncf) "Sentinel-3B" (chNames 9) 1e-6 none fs).1 p f hc
  have F := C201_files o f32 dir hd
  refine ⟨?_, by decide +kernel, fun fs => ?_⟩
  · obtain ⟨b, rest, s, -, hs, rfl⟩ := (hT fun _ => none).2
    obtain ⟨e1, e2⟩ := textClass_for hd _ _ _ _ _ _ _ _ hs
    rw [e1, e2]
    exact congrArg (Prod.mk dir) (by decide +kernel)
  · have e : (convertPrograms o f32)[19]? = some [⟨SlstrRSR o.options o.ncf, "Sentinel-3B", chNames 9, none⟩] := rfl
    unfold afterRun
    simp only [e]
    rw [runJobs_cons, show (⟨SlstrRSR o.options o.ncf, "Sentinel-3B", chNames 9, none⟩ : ConvJob α).run f32 fs = (.ok (), fs.put p f) from (hT fs).1]
    show (fs.put p f) p = some f
    simp [H5Files.put]

/-- a configuration for SLSTR on Sentinel-3B and two original files -/
noncomputable def exSlstr : Originals XF :=
  ⟨exOriginals "Sentinel-3B" "slstr" (chNames 9), fun _ => none, fun _ => none, fun _ => none, fun _ => none,
    fun _ => some [("wavelength", finL [0.55, 0.56]), ("response", finL [0.5, 1])], fun _ => none, fun _ => none, fun _ => none,
    ⟨fun _ => .error .valueError, fun _ => .error .valueError⟩⟩

/-- the file for ABI on GOES-17 after runs of the programs for SLSTR, AATSR and SLSTR -/
example (fs : H5Files XF) : ([(exSlstr, 19), (exSlstr, 0), (exSlstr, 19)].foldl (fun fs r => afterRun id r fs) fs) ("/rsr", "rsr_abi_GOES-17.h5") =
    fs ("/rsr", "rsr_abi_GOES-17.h5") :=
  C205_apart_partial id 1 (by decide) _ (by decide +kernel) "/rsr" _ (by simp only [List.mem_cons, List.not_mem_nil, or_false]; rintro r (rfl | rfl | rfl) <;> exact ⟨"/rsr", rfl⟩)
    (by simp only [List.mem_cons, List.not_mem_nil, or_false]; rintro r (rfl | rfl | rfl) <;> decide) fs

/-- the file for SLSTR on Sentinel-3B after a run of the program for netCDF files -/
example : ∃ f, ∀ fs, afterRun id (exSlstr, 19) fs ("/rsr", "rsr_slstr_Sentinel-3B.h5") = some f := by
  have hs : ∀ b ∈ chNames 9, ∃ s, SlstrRSR exSlstr.options exSlstr.ncf b "Sentinel-3B" = .ok s ∧
      HasRawCurve s (finL [0.55, 0.56]) (finL [0.5, 1]) := by
    intro b hb
    obtain ⟨s, h, -, -, hc⟩ := (C150_slstr exSlstr.options exSlstr.ncf b "Sentinel-3B"
      "/raw" "/rsr" (· ++ ".txt") (exOriginals_at _ _ 9 (by decide) (by decide +kernel)) hb).1 _ _ _ rfl rfl rfl
    exact ⟨s, h, hc⟩
  haveI : Nonempty (RawSensor XF) := ⟨⟨"", "", [], []⟩⟩
  choose! s hs1 hs2 using hs
  obtain ⟨p, f, -, h1, -⟩ := C50_wavelengths_are_responses id (SlstrRSR exSlstr.options exSlstr.ncf) "Sentinel-3B" (chNames 9) 1e-6
    (by decide +kernel) (by decide +kernel) s hs1 (fun _ => finL [0.55, 0.56]) (fun _ => finL [0.5, 1])
    (fun b hb => ⟨(hs2 b hb).1, (hs2 b hb).2, rfl⟩)
  obtain ⟨rfl, -, h2⟩ := C205_slstr_overwrites id exSlstr "/rsr" rfl p f h1
  exact ⟨f, h2⟩

end Verif.Props
