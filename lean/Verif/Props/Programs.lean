import Verif.Props.TextConvert
import Verif.Model.Programs
/-
Property C167: programs that convert the responses of several platforms.
-/
namespace Verif.Props
open Model Spec Lemmas PyNum
variable {α : Type} [PyNum α]

/-- The platforms of a program are different and have no underscore in their names. -/
def PlatformsApart (js : List (ConvJob α)) : Prop :=
  (js.map ConvJob.platform).Nodup ∧ ∀ j ∈ js, '_' ∉ j.platform.toList

theorem after_last {c : Char} : ∀ {a b p q : List Char}, c ∉ p → c ∉ q → a ++ c :: p = b ++ c :: q → p = q := by
  intro a b p q hp hq h
  rcases List.append_eq_append_iff.1 h with ⟨t, h1, h2⟩ | ⟨t, h1, h2⟩
  · cases t with
    | nil => simpa using h2
    | cons x t =>
      injection h2 with h3 h4
      exact absurd (by rw [h4]; simp) hp
  · cases t with
    | nil => simpa using h2.symm
    | cons x t =>
      injection h2 with h3 h4
      exact absurd (by rw [h4]; simp) hq

theorem target_platform {C C' : String → String → Py (RawSensor α)} {p p' : String} {ns ns' : List String} {q : Path}
    (h : TargetIs C p ns q) (h' : TargetIs C' p' ns' q) (hp : '_' ∉ p.toList) (hp' : '_' ∉ p'.toList) : p = p' := by
  obtain ⟨b, rest, s, _, _, e⟩ := h
  obtain ⟨b', rest', s', _, _, e'⟩ := h'
  rw [e] at e'
  have h1 := congrArg String.toList (Prod.mk.inj e').2
  simp only [String.toList_append] at h1
  have h2 := List.append_cancel_right h1
  have h3 : ("_" : String).toList = ['_'] := rfl
  rw [h3] at h2
  have h4 := after_last (a := "rsr_".toList ++ (withoutSlashes s.instrument).toList)
    (b := "rsr_".toList ++ (withoutSlashes s'.instrument).toList) (p := p.toList) (q := p'.toList) hp hp' (by simpa using h2)
  exact String.toList_injective h4

theorem runJobs_cons (f32 : α → α) (j : ConvJob α) (js : List (ConvJob α)) (fs : H5Files α) :
    runJobs f32 (j :: js) fs = match j.run f32 fs with
      | (.ok _, fs') => runJobs f32 js fs'
      | (.error e, fs') => (.error e, fs') := by
  show (j.run f32 >>= fun _ => runJobs f32 js) fs = _
  cases h : j.run f32 fs with
  | mk a b =>
    cases a with
    | ok u => rw [st_bind_ok h]
    | error e => rw [st_bind_error h]

/-- what is left after calls that succeed -/
theorem jobs_ok (f32 : α → α) : ∀ (js : List (ConvJob α)), PlatformsApart js →
    (∀ j ∈ js, ∃ p f, convert2hdf5 f32 j.ClassIn j.platform j.names 1e-6 j.detectors = .ok (p, f)) → ∀ fs : H5Files α,
    ∃ fs', runJobs f32 js fs = (.ok (), fs') ∧
      (∀ j ∈ js, ∃ p f, convert2hdf5 f32 j.ClassIn j.platform j.names 1e-6 j.detectors = .ok (p, f) ∧ fs' p = some f) ∧
      ∀ q, (∀ j ∈ js, ¬ TargetIs j.ClassIn j.platform j.names q) → fs' q = fs q := by
  intro js
  induction js with
  | nil => intro _ _ fs; exact ⟨fs, rfl, by simp, fun _ _ => rfl⟩
  | cons j js ih =>
    intro hA hok fs
    obtain ⟨p, f, hpf⟩ := hok j (by simp)
    obtain ⟨h1, hT⟩ := (C131_same_result f32 j.ClassIn j.platform j.names 1e-6 j.detectors fs).1 p f hpf
    obtain ⟨fs', g1, g2, g3⟩ := ih ⟨(List.nodup_cons.1 hA.1).2, fun k hk => hA.2 k (by simp [hk])⟩
      (fun k hk => hok k (by simp [hk])) (fs.put p f)
    refine ⟨fs', ?_, ?_, ?_⟩
    · rw [runJobs_cons, show j.run f32 fs = (.ok (), fs.put p f) from h1]
      exact g1
    · intro k hk
      rcases List.mem_cons.1 hk with rfl | hk
      · refine ⟨p, f, hpf, ?_⟩
        rw [g3 p]
        · simp [H5Files.put]
        · intro l hl hTl
          have := target_platform hT hTl (hA.2 k (by simp)) (hA.2 l (by simp [hl]))
          exact (List.nodup_cons.1 hA.1).1 (by rw [this]; exact List.mem_map_of_mem hl)
      · exact g2 k hk
    · intro q hq
      rw [g3 q (fun k hk => hq k (by simp [hk]))]
      have : q ≠ p := by rintro rfl; exact hq j (by simp) hT
      simp [H5Files.put, this]

/-- C167: when every conversion can be done, the program succeeds, every platform's file is at the
end exactly the one its own conversion gives (no conversion touches the file of another platform),
and all other files are as before. -/
theorem C167_all_written (f32 : α → α) (js : List (ConvJob α)) (hA : PlatformsApart js)
    (hok : ∀ j ∈ js, ∃ p f, convert2hdf5 f32 j.ClassIn j.platform j.names 1e-6 j.detectors = .ok (p, f)) (fs : H5Files α) :
    ∃ fs', runJobs f32 js fs = (.ok (), fs') ∧
      (∀ j ∈ js, ∃ p f, convert2hdf5 f32 j.ClassIn j.platform j.names 1e-6 j.detectors = .ok (p, f) ∧ fs' p = some f) ∧
      ∀ q, (∀ j ∈ js, ¬ TargetIs j.ClassIn j.platform j.names q) → fs' q = fs q :=
  jobs_ok f32 js hA hok fs

theorem jobs_append (f32 : α → α) (j : ConvJob α) (post : List (ConvJob α)) : ∀ (pre : List (ConvJob α)) (fs fs1 : H5Files α),
    runJobs f32 pre fs = (.ok (), fs1) → runJobs f32 (pre ++ j :: post) fs = runJobs f32 (j :: post) fs1 := by
  intro pre
  induction pre with
  | nil => intro fs fs1 h; cases h; rfl
  | cons k pre ih =>
    intro fs fs1 h
    rw [List.cons_append, runJobs_cons]
    rw [runJobs_cons] at h
    cases hk : k.run f32 fs with
    | mk a b =>
      cases a with
      | ok u => rw [hk] at h; exact ih b fs1 h
      | error e => rw [hk] at h; cases h

/-- C167: when a conversion fails, the program ends with its exception; the files of the platforms
before it are complete, and the files of the platforms after it, and all others except that of the
failed conversion, are as they were. -/
theorem C167_stops_at_failure (f32 : α → α) (pre post : List (ConvJob α)) (j : ConvJob α) (hA : PlatformsApart (pre ++ j :: post))
    (hok : ∀ k ∈ pre, ∃ p f, convert2hdf5 f32 k.ClassIn k.platform k.names 1e-6 k.detectors = .ok (p, f)) (e : PyErr)
    (he : convert2hdf5 f32 j.ClassIn j.platform j.names 1e-6 j.detectors = .error e) (fs : H5Files α) :
    ∃ fs', runJobs f32 (pre ++ j :: post) fs = (.error e, fs') ∧
      (∀ k ∈ pre, ∃ p f, convert2hdf5 f32 k.ClassIn k.platform k.names 1e-6 k.detectors = .ok (p, f) ∧ fs' p = some f) ∧
      (∀ k ∈ post, ∀ q, TargetIs k.ClassIn k.platform k.names q → fs' q = fs q) ∧
      ∀ q, (∀ k ∈ pre ++ [j], ¬ TargetIs k.ClassIn k.platform k.names q) → fs' q = fs q := by
  have hnd := hA.1
  rw [List.map_append, List.nodup_append] at hnd
  obtain ⟨n1, n2, n3⟩ := hnd
  obtain ⟨fs1, g1, g2, g3⟩ := jobs_ok f32 pre ⟨n1, fun k hk => hA.2 k (by simp [hk])⟩ hok fs
  have hj := (C131_same_result f32 j.ClassIn j.platform j.names 1e-6 j.detectors fs1).2 e he
  have hkeep := (C132_kept_partial f32 j.ClassIn j.platform j.names 1e-6 j.detectors fs1).2
  have hrun : runJobs f32 (pre ++ j :: post) fs = (.error e, (j.run f32 fs1).2) := by
    rw [jobs_append f32 j post pre fs fs1 g1, runJobs_cons]
    have : j.run f32 fs1 = (.error e, (j.run f32 fs1).2) := Prod.ext hj rfl
    rw [this]
  have last : ∀ q, (∀ k ∈ pre ++ [j], ¬ TargetIs k.ClassIn k.platform k.names q) → (j.run f32 fs1).2 q = fs q := by
    intro q hq
    rw [show (j.run f32 fs1).2 q = fs1 q from hkeep q (hq j (by simp))]
    exact g3 q (fun k hk => hq k (by simp [hk]))
  refine ⟨_, hrun, ?_, ?_, last⟩
  · intro k hk
    obtain ⟨p, f, h1, h2⟩ := g2 k hk
    refine ⟨p, f, h1, ?_⟩
    rw [show (j.run f32 fs1).2 p = fs1 p from hkeep p ?_]
    · exact h2
    · intro hT
      have hTk := ((C131_same_result f32 k.ClassIn k.platform k.names 1e-6 k.detectors fs).1 p f h1).2
      have := target_platform hTk hT (hA.2 k (by simp [hk])) (hA.2 j (by simp))
      exact n3 _ (List.mem_map_of_mem hk) _ (by simp) this
  · intro k hk q hT
    apply last q
    intro l hl hTl
    have hlk := target_platform hTl hT (hA.2 l (by simp only [List.mem_append, List.mem_singleton] at hl; rcases hl with h | h <;> simp [h]))
      (hA.2 k (by simp [hk]))
    rcases List.mem_append.1 hl with hl | hl
    · exact n3 _ (List.mem_map_of_mem hl) _ (by simp only [List.map_cons, List.mem_cons]; exact Or.inr (List.mem_map_of_mem hk)) hlk
    · simp only [List.mem_singleton] at hl
      subst hl
      rw [List.map_cons, List.nodup_cons] at n2
      exact n2.1 (by rw [hlk]; exact List.mem_map_of_mem hk)

/-- C167: all the programs are of this kind. -/
theorem C167_programs (o : Originals α) (f32 : α → α) : ∀ js ∈ convertPrograms o f32, PlatformsApart js := by
  have key : (convertPrograms o f32).map (fun js => js.map ConvJob.platform) =
      [["Envisat"], ["GOES-16", "GOES-17", "GOES-18", "GOES-19"], ["FY-4B"], ["GEO-KOMPSAT-2A"], ["Metop-C"], ["HY-1C"],
       ["DSCOVR"], ["Meteosat-12", "MTG-I1"], ["FY-4B"], ["GK-2B"], ["FY-3A", "FY-3B", "FY-3C"], ["FY-3D"], ["FY-3F"], ["FY-3G"],
       ["Sentinel-2A", "Sentinel-2B", "Sentinel-2C"], ["Electro-L-N2"], ["Arctica-M-N1"], ["Sentinel-3B"], ["Landsat-8", "Landsat-9"], ["Sentinel-3B"],
       ["Sentinel-3A", "Sentinel-3B", "Sentinel-3C", "Sentinel-3D"], ["FY-3B", "FY-3C"]] := rfl
  have all : ∀ l ∈ ([["Envisat"], ["GOES-16", "GOES-17", "GOES-18", "GOES-19"], ["FY-4B"], ["GEO-KOMPSAT-2A"], ["Metop-C"], ["HY-1C"],
       ["DSCOVR"], ["Meteosat-12", "MTG-I1"], ["FY-4B"], ["GK-2B"], ["FY-3A", "FY-3B", "FY-3C"], ["FY-3D"], ["FY-3F"], ["FY-3G"],
       ["Sentinel-2A", "Sentinel-2B", "Sentinel-2C"], ["Electro-L-N2"], ["Arctica-M-N1"], ["Sentinel-3B"], ["Landsat-8", "Landsat-9"], ["Sentinel-3B"],
       ["Sentinel-3A", "Sentinel-3B", "Sentinel-3C", "Sentinel-3D"], ["FY-3B", "FY-3C"]] : List (List String)),
      l.Nodup ∧ ∀ p ∈ l, '_' ∉ p.toList := by decide +kernel
  intro js hjs
  obtain ⟨h1, h2⟩ := all _ (key ▸ List.mem_map_of_mem (f := fun js : List (ConvJob α) => js.map ConvJob.platform) hjs)
  exact ⟨h1, fun j hj => h2 _ (List.mem_map_of_mem hj)⟩

/-- two platforms -/
noncomputable def exJobs : List (ConvJob XF) := jobsFor exClass ["Metop-A", "Metop-C"] ["ch1", "ch2"]

theorem exJobs_apart : PlatformsApart exJobs := ⟨by decide +kernel, by
  have : ∀ p ∈ (["Metop-A", "Metop-C"] : List String), '_' ∉ p.toList := by decide +kernel
  intro j hj
  exact this _ (List.mem_map_of_mem (f := ConvJob.platform) hj)⟩

theorem exJobs_ok : ∀ j ∈ exJobs, ∃ p f, convert2hdf5 id j.ClassIn j.platform j.names 1e-6 j.detectors = .ok (p, f) := by
  intro j hj
  obtain ⟨x, _, rfl⟩ := List.mem_map.1 hj
  obtain ⟨p, f, info, h, _⟩ := C50_wavelengths_are_responses (α := XF) id exClass x ["ch1", "ch2"] 1e-6
    (by simp) (by simp) (fun _ => exRawSensor)
    (fun _ _ => rfl) (fun _ => finL [0.5, 0.6]) (fun _ => finL [1, 0.25]) (fun _ _ => ⟨rfl, rfl, rfl⟩)
  exact ⟨p, f, h⟩

example (fs : H5Files XF) : ∃ fs', runJobs id exJobs fs = (.ok (), fs') := by
  obtain ⟨fs', h, _⟩ := C167_all_written id exJobs exJobs_apart exJobs_ok fs
  exact ⟨fs', h⟩

example (fs : H5Files XF) : ∃ fs', runJobs id (exJobs ++ [⟨exUneven, "Metop-B", ["ch1", "ch2"], none⟩]) fs = (.error .indexError, fs') := by
  obtain ⟨fs', h, _⟩ := C167_stops_at_failure id exJobs [] ⟨exUneven, "Metop-B", ["ch1", "ch2"], none⟩
    ⟨by decide +kernel, by
      have : ∀ p ∈ (["Metop-A", "Metop-C", "Metop-B"] : List String), '_' ∉ p.toList := by decide +kernel
      intro j hj
      exact this _ (List.mem_map_of_mem (f := ConvJob.platform) hj)⟩
    exJobs_ok .indexError exUneven_error fs
  exact ⟨fs', h⟩

/-- C167: the program for VIRR never converts anything: it ends with TypeError at its first platform,
whatever the configuration and the files, and every file is as before. -/
theorem C167_virr_never (o : Originals α) (f32 : α → α) (fs : H5Files α) :
    runJobs f32 (virrProgram o) fs = (.error .typeError, fs) := by
  have h : virrProgram o = [⟨VirrRSR o.options o.text, "FY-3B", chNames 10, none⟩,
      ⟨VirrRSR o.options o.text, "FY-3C", ["ch1", "ch2", "ch6", "ch7", "ch8", "ch9", "ch10"], none⟩] := rfl
  have h1 : ∀ b, VirrRSR o.options o.text b "FY-3B" = .error .typeError := fun b =>
    (C144_virr_never o.options o.text b "FY-3B").1 (Or.inl rfl)
  have h2 : (convertSteps f32 (VirrRSR o.options o.text) "FY-3B" (chNames 10) 1e-6 none fs) = (.error .typeError, fs) := by
    have hm : ((chNames 10).mapM fun b => VirrRSR o.options o.text b "FY-3B") = .error .typeError := by
      simp only [h1]
      rfl
    unfold convertSteps
    rw [hm]
    rfl
  have h3 : (⟨VirrRSR o.options o.text, "FY-3B", chNames 10, none⟩ : ConvJob α).run f32 fs = (.error .typeError, fs) := h2
  rw [h, runJobs_cons, h3]

/-- C167: with the original tables of all GOES satellites in place, the program for ABI leaves four
response files, named after the satellites, that can be loaded and have the sixteen bands with the
responses of that satellite's own tables. -/
theorem C167_abi (o : Originals α) (f32 : α → α) (dir : String → String) (file : String → String → String) (out : String)
    (h : ∀ p ∈ ["GOES-16", "GOES-17", "GOES-18", "GOES-19"], OriginalsAt o.options p "abi" (chNames 16) (dir p) (file p) out)
    (S : String → String → List (α × α))
    (ht : ∀ p ∈ ["GOES-16", "GOES-17", "GOES-18", "GOES-19"], ∀ b ∈ chNames 16,
      ∃ lines, o.text (OsPath.join (dir p) (file p b)) = some lines ∧ TableWith lines 2 0 2 (S p b)) (fs : H5Files α) :
    ∃ fs', runJobs f32 (abiProgram o) fs = (.ok (), fs') ∧ ∀ p ∈ ["GOES-16", "GOES-17", "GOES-18", "GOES-19"],
      ∃ f info, fs' (out, "rsr_abi_" ++ p ++ ".h5") = some f ∧ loadRsrInfo f = .ok info ∧ info.rsr.keys = chNames 16 ∧
        ∀ b ∈ chNames 16, ∃ B, info.rsr.get? b = some [("det-1", B)] ∧
          B.get? "response" = some (.arr ((S p b).map fun x => f32 x.2)) := by
  have key : ∀ p ∈ ["GOES-16", "GOES-17", "GOES-18", "GOES-19"], ∃ f info,
      convert2hdf5 f32 (AbiRSR o.options o.text) p (chNames 16) 1e-6 none = .ok ((out, "rsr_abi_" ++ p ++ ".h5"), f) ∧
      loadRsrInfo f = .ok info ∧ info.rsr.keys = chNames 16 ∧ ∀ b ∈ chNames 16, ∃ B, info.rsr.get? b = some [("det-1", B)] ∧
          B.get? "response" = some (.arr ((S p b).map fun x => f32 x.2)) := by
    intro p hp
    have hs : ∀ b ∈ chNames 16, ∃ s, AbiRSR o.options o.text b p = .ok s ∧ s.instrument = "abi" ∧ s.output_dir = out ∧
        HasRawCurve s ((S p b).map fun q => q.1 * 1.0) ((S p b).map Prod.snd) := by
      intro b hb
      obtain ⟨lines, h1, h2⟩ := ht p hp b hb
      exact (C144_samples_partial o.options o.text b p (dir p) out (file p) lines (S p b) h1).1 (h p hp) hb h2
    haveI : Nonempty (RawSensor α) := ⟨⟨"", "", [], []⟩⟩
    choose! s hs1 hs2 hs3 hs4 using hs
    obtain ⟨path, f, info, h1, h2, h3, h4, h5⟩ := C50_wavelengths_are_responses f32 (AbiRSR o.options o.text) p (chNames 16) 1e-6
      (by decide +kernel) (by decide +kernel) s hs1 (fun b => (S p b).map fun q => q.1 * 1.0) (fun b => (S p b).map Prod.snd)
      (fun b hb => ⟨(hs4 b hb).1, (hs4 b hb).2, by simp⟩)
    obtain ⟨_, b, rest, s', hn, hs', e⟩ := (C131_same_result f32 (AbiRSR o.options o.text) p (chNames 16) 1e-6 none fs).1 path f h1
    have hb : b ∈ chNames 16 := by rw [hn]; simp
    rw [hs1 b hb] at hs'
    cases hs'
    rw [hs2 b hb, hs3 b hb] at e
    refine ⟨f, info, ?_, h2, h4, fun b hb => ?_⟩
    · rw [h1, e]
      have : withoutSlashes "abi" = "abi" := by decide +kernel
      rw [this]
      rfl
    · obtain ⟨c, _, hc⟩ := h5 b hb
      exact ⟨_, hc, by simp [Dict.get?, Function.comp_def]⟩
  have hjob : ∀ j ∈ abiProgram o, ∃ p ∈ ["GOES-16", "GOES-17", "GOES-18", "GOES-19"],
      j = ⟨AbiRSR o.options o.text, p, chNames 16, none⟩ := by
    intro j hj
    obtain ⟨p, hp, rfl⟩ := List.mem_map.1 hj
    exact ⟨p, hp, rfl⟩
  obtain ⟨fs', g1, g2, _⟩ := C167_all_written f32 (abiProgram o) (C167_programs o f32 _ (by simp [convertPrograms])) (by
    intro j hj
    obtain ⟨p, hp, rfl⟩ := hjob j hj
    obtain ⟨f, _, hf, _⟩ := key p hp
    exact ⟨_, f, hf⟩) fs
  refine ⟨fs', g1, fun p hp => ?_⟩
  obtain ⟨f, info, k1, k2, k3, k4⟩ := key p hp
  obtain ⟨q, f', e1, e2⟩ := g2 ⟨AbiRSR o.options o.text, p, chNames 16, none⟩ (List.mem_map.2 ⟨p, hp, rfl⟩)
  have e1 : convert2hdf5 f32 (AbiRSR o.options o.text) p (chNames 16) 1e-6 none = .ok (q, f') := e1
  rw [k1] at e1
  cases e1
  exact ⟨f, info, e2, k2, k3, k4⟩

/-- a configuration with the original data of the four satellites -/
def exGoes : List (String × Conf) :=
  ("rsr_dir", .leaf (.str "/rsr")) :: ["GOES-16", "GOES-17", "GOES-18", "GOES-19"].map fun p =>
    (p ++ "-abi", .map (("path", .leaf (.str ("/raw/" ++ p))) :: (chNames 16).map fun b => (b, .leaf (.str (b ++ ".txt")))))

theorem exGoes_at : ∀ p ∈ ["GOES-16", "GOES-17", "GOES-18", "GOES-19"],
    OriginalsAt exGoes p "abi" (chNames 16) ("/raw/" ++ p) (· ++ ".txt") "/rsr" := by
  intro p hp
  have hsec : Dict.get? exGoes (p ++ "-" ++ "abi") =
      some (.map (("path", .leaf (.str ("/raw/" ++ p))) :: (chNames 16).map fun b => (b, .leaf (.str (b ++ ".txt"))))) := by
    simp only [List.mem_cons, List.not_mem_nil, or_false] at hp
    rcases hp with rfl | rfl | rfl | rfl <;> rfl
  refine ⟨⟨_, hsec, rfl⟩, fun b hb => ⟨_, hsec, ?_⟩, rfl⟩
  have hp : b ≠ "path" := fun h => absurd (h ▸ hb) (by decide +kernel)
  unfold Dict.get?
  rw [if_neg (Ne.symm hp)]
  generalize chNames 16 = l at hb
  induction l with
  | nil => simp at hb
  | cons x l ih =>
    rw [List.map_cons]
    unfold Dict.get?
    by_cases hx : x = b
    · rw [if_pos hx, hx]
    · rw [if_neg hx]
      exact ih ((List.mem_cons.1 hb).resolve_left (Ne.symm hx))

example (fs : H5Files XF) : ∃ fs' f info,
    runJobs id (abiProgram ⟨exGoes, fun _ => some [[], [], [.fin 8, .fin 5, .fin 0], [.fin 9, .fin 6, .fin 1]], fun _ => none,
      fun _ => none, fun _ => none, fun _ => none, fun _ => none, fun _ => none, fun _ => none, ⟨fun _ => .error .valueError, fun _ => .error .valueError⟩⟩) fs =
      (.ok (), fs') ∧ fs' ("/rsr", "rsr_abi_GOES-18.h5") = some f ∧ loadRsrInfo f = .ok info := by
  obtain ⟨fs', h1, h2⟩ := C167_abi ⟨exGoes, fun _ => some [[], [], [.fin 8, .fin 5, .fin 0], [.fin 9, .fin 6, .fin 1]], fun _ => none,
      fun _ => none, fun _ => none, fun _ => none, fun _ => none, fun _ => none, fun _ => none, ⟨fun _ => .error .valueError, fun _ => .error .valueError⟩⟩
    id ("/raw/" ++ ·) (fun _ b => b ++ ".txt") "/rsr" exGoes_at (fun _ _ => [(.fin 8, .fin 0), (.fin 9, .fin 1)])
    (fun p _ b _ => ⟨_, rfl, by simp, 3, by simp⟩) fs
  obtain ⟨f, info, h3, h4, _⟩ := h2 "GOES-18" (by simp)
  exact ⟨fs', f, info, h1, h3, h4⟩

end Verif.Props
