import Verif.Props.TestData
import Verif.Props.Download
/-
Exactly when the partial properties C48 and C92 hold.
-/
namespace Verif.Props
open Verif Verif.Model Verif.Spec Verif.Lemmas PyNum
variable {α : Type} [PyNum α]

/-! ### C92 -/

/-- the names read off a file name with at least three pieces -/
theorem fakeNames_pieces (name x y : String) (rest : List String)
    (h : Str.split '_' (stem name) = "rsr" :: x :: y :: rest) : fakeNames name = .ok (shownInstrument x, y) := by
  unfold fakeNames
  rw [h]
  have i1 : NP.pyIndex ("rsr" :: x :: y :: rest) 1 = .ok x := by
    simp [NP.pyIndex]
  have i2 : NP.pyIndex ("rsr" :: x :: y :: rest) 2 = .ok y := by
    simp [NP.pyIndex]
  simp only [i1, i2, bind, Except.bind, pure, Except.pure]
  unfold shownInstrument lastChar
  by_cases h : Str.startsWith x "avhrr" = true
  · cases hl : x.toList.getLast? with
    | none =>
      rw [List.getLast?_eq_none_iff] at hl
      unfold Str.startsWith at h
      rw [hl] at h
      exact absurd h (by decide)
    | some z => simp [h, Functor.map, Except.map]
  · cases hl : x.toList.getLast? <;> simp [h]

/-- the pieces of the file name of a reader -/
theorem split_file (p c : String) : Str.split '_' (stem (getRsrFilename p c)) =
    "rsr" :: (Str.splitL '_' (c.toList ++ '_' :: p.toList)).map String.ofList := by
  have h1 : stem (getRsrFilename p c) = "rsr_" ++ c ++ "_" ++ p := by
    unfold getRsrFilename
    apply stem_h5
    intro h
    have := congrArg String.toList h
    simp at this
  rw [h1]
  unfold Str.split
  have : ("rsr_" ++ c ++ "_" ++ p).toList = ['r', 's', 'r'] ++ '_' :: (c.toList ++ '_' :: p.toList) := by
    simp [String.toList_append]
  rw [this, splitL_append _ _ _ (by decide)]
  simp

/-- the text up to the first underscore begins the pieces -/
theorem splitL_first (ys : List Char) : ∃ x rest, Str.splitL '_' ys = x :: rest ∧ '_' ∉ x ∧
    (ys = x ∨ ∃ r, ys = x ++ '_' :: r) := by
  by_cases h : '_' ∈ ys
  · obtain ⟨a, b, rfl, ha⟩ := List.eq_append_cons_of_mem h
    exact ⟨a, _, splitL_append _ _ _ ha, ha, Or.inr ⟨b, rfl⟩⟩
  · exact ⟨ys, [], splitL_plain _ _ h, h, Or.inl rfl⟩

/-- `n` is what stands between the first underscore of `c` and the next one, or its end -/
def SecondPiece (c n : String) : Prop :=
  ∃ a : List Char, '_' ∉ a ∧ '_' ∉ n.toList ∧
    (c.toList = a ++ '_' :: n.toList ∨ ∃ r, c.toList = a ++ '_' :: (n.toList ++ '_' :: r))

theorem secondPiece_unique {c n m : String} (h : SecondPiece c n) (h' : SecondPiece c m) : n = m := by
  obtain ⟨a, ha, hn, h⟩ := h
  obtain ⟨a', ha', hm, h'⟩ := h'
  have e : ∀ (a n : List Char), '_' ∉ a → '_' ∉ n → (c.toList = a ++ '_' :: n ∨
      ∃ r, c.toList = a ++ '_' :: (n ++ '_' :: r)) → (Str.splitL '_' c.toList)[1]? = some n := by
    intro a n ha hn h
    rcases h with h | ⟨r, h⟩
    · rw [h, splitL_append _ _ _ ha, splitL_plain _ _ hn]; rfl
    · rw [h, splitL_append _ _ _ ha, splitL_append _ _ _ hn]; rfl
  have h1 := (e _ _ ha hn h).symm.trans (e _ _ ha' hm h')
  exact String.toList_inj.1 (Option.some.inj h1)

/-- the platform name read off the file name of a reader: a piece of the instrument name if that has an underscore,
else the platform name up to its first underscore -/
theorem fakeNames_exact (p c : String) : ∃ i n, fakeNames (getRsrFilename p c) = .ok (i, n) ∧
    (('_' ∈ c.toList ∧ SecondPiece c n) ∨
     ('_' ∉ c.toList ∧ '_' ∉ n.toList ∧ (p = n ∨ ∃ r, p.toList = n.toList ++ '_' :: r))) := by
  by_cases hc : '_' ∈ c.toList
  · obtain ⟨a, b, hab, ha⟩ := List.eq_append_cons_of_mem hc
    obtain ⟨x, rest, hx, hxn, hxb⟩ := splitL_first b
    have : ∃ rest, Str.splitL '_' (c.toList ++ '_' :: p.toList) = a :: x :: rest := by
      rw [hab]
      rcases hxb with rfl | ⟨r, rfl⟩
      · rw [show (a ++ '_' :: b) ++ '_' :: p.toList = a ++ '_' :: (b ++ '_' :: p.toList) by simp,
          splitL_append _ _ _ ha, splitL_append _ _ _ hxn]
        exact ⟨_, rfl⟩
      · rw [show (a ++ '_' :: (x ++ '_' :: r)) ++ '_' :: p.toList = a ++ '_' :: (x ++ '_' :: (r ++ '_' :: p.toList)) by simp,
          splitL_append _ _ _ ha, splitL_append _ _ _ hxn]
        exact ⟨_, rfl⟩
    obtain ⟨rest', h'⟩ := this
    refine ⟨_, _, fakeNames_pieces _ (String.ofList a) (String.ofList x) (rest'.map String.ofList) ?_, Or.inl ⟨hc, a, ha, ?_, ?_⟩⟩
    · rw [split_file, h']; rfl
    · simpa using hxn
    · rw [String.toList_ofList, hab]
      rcases hxb with rfl | ⟨r, rfl⟩
      · exact Or.inl rfl
      · exact Or.inr ⟨r, rfl⟩
  · obtain ⟨x, rest, hx, hxn, hxb⟩ := splitL_first p.toList
    refine ⟨_, _, fakeNames_pieces _ c (String.ofList x) (rest.map String.ofList) ?_, Or.inr ⟨hc, ?_, ?_⟩⟩
    · rw [split_file, splitL_append _ _ _ hc, hx]
      simp
    · simpa using hxn
    · rcases hxb with h | ⟨r, h⟩
      · exact Or.inl (by rw [← h]; simp)
      · exact Or.inr ⟨r, by rw [h]; simp⟩

/-- C92: the fake data for the file of a reader always exist; they carry its platform name exactly when that has no
underscore and the instrument name has none either, or happens to contain the platform name as its second piece. -/
theorem C92_exactly (cw : Dict String α) (d p c : String) :
    ∃ info, fakeRsrInfo cw (d, getRsrFilename p c) = .ok info ∧
      (info.platform_name = some p ↔ '_' ∉ p.toList ∧ ('_' ∉ c.toList ∨ SecondPiece c p)) := by
  obtain ⟨i, n, hn, h⟩ := fakeNames_exact p c
  obtain ⟨info, h1, h2, -⟩ := fakeRsrInfo_run cw d _ _ _ hn
  refine ⟨info, h1, ?_⟩
  rw [h2, Option.some_inj]
  rcases h with ⟨hc, hs⟩ | ⟨hc, hnn, hp⟩
  · constructor
    · rintro rfl
      exact ⟨hs.choose_spec.2.1, Or.inr hs⟩
    · rintro ⟨-, h | h⟩
      · exact absurd hc h
      · exact secondPiece_unique hs h
  · constructor
    · rintro rfl
      exact ⟨hnn, Or.inl hc⟩
    · rintro ⟨hpn, -⟩
      rcases hp with rfl | ⟨r, hr⟩
      · rfl
      · rw [hr] at hpn
        simp at hpn

/-- Landsat: the second piece of the instrument name is another name than the platform's -/
example : ∀ cw : Dict String XF, ∃ info, fakeRsrInfo cw ("/d", getRsrFilename "Landsat-9" "oli_tirs") = .ok info ∧
    info.platform_name ≠ some "Landsat-9" := by
  intro cw
  obtain ⟨info, h, hi⟩ := C92_exactly cw "/d" "Landsat-9" "oli_tirs"
  refine ⟨info, h, fun e => ?_⟩
  rcases (hi.1 e).2 with h | h
  · exact h (by decide)
  · have : SecondPiece "oli_tirs" "tirs" := ⟨"oli".toList, by decide, by decide, Or.inl (by decide)⟩
    exact absurd (secondPiece_unique this h) (by decide)

/-! ### C48 -/

/-- C48: start from a directory without any of the archive's files.  If the archive has every name once, has a
current version file, and has no member named like the temporary file, then no point of interruption leaves a
directory that counts as current but lacks data, exactly when the version file is the last member. -/
theorem C48_exactly (env : Env) (w : World) (chunks : List Content)
    (hu : Usable (env.server HTTP_PYSPECTRAL_RSR) chunks) (pre post : List (String × Content)) (c : Content)
    (hm : (env.untar chunks.flatten).1 = pre ++ ("PYSPECTRAL_RSR_VERSION", c) :: post)
    (hc : FirstLineIs c "v1.6.1".toList)
    (hd : ((env.untar chunks.flatten).1.map Prod.fst).Nodup)
    (ht : ∀ m ∈ (env.untar chunks.flatten).1, m.1 ≠ "pyspectral_rsr_data.tgz")
    (hw : ∀ m ∈ (env.untar chunks.flatten).1, w.files (env.cfg.rsr_dir, m.1) = none) :
    (∀ x ∈ Eff.crashStates (downloadRsr env none false) w, RsrCurrent env x →
      InstalledExcept "PYSPECTRAL_RSR_VERSION" (env.untar chunks.flatten).1 env.cfg.rsr_dir x) ↔ post = [] := by
  have hnd : ∀ m ∈ pre ++ post, m.1 ≠ "PYSPECTRAL_RSR_VERSION" := by
    intro m hmm he
    rw [hm, List.map_append, List.map_cons] at hd
    have := (List.nodup_middle.1 hd)
    rw [List.nodup_cons] at this
    apply this.1
    rw [← List.map_append]
    exact List.mem_map.2 ⟨m, hmm, he⟩
  constructor
  · intro h
    by_contra hne
    obtain ⟨m, post', rfl⟩ := List.exists_cons_of_ne_nil hne
    have hv := downloadRsr_visits env w env.cfg.rsr_dir rfl chunks hu (pre ++ [("PYSPECTRAL_RSR_VERSION", c)])
      (m :: post') (by simp) (by rw [hm]; simp)
    have hcur := h _ hv ⟨c, extracted_last _ pre [] _ c (by simp) _, hc⟩
    have hmem : m ∈ (env.untar chunks.flatten).1 := by rw [hm]; simp
    rw [hm, List.map_append, List.map_cons, List.map_cons] at hd
    have hmfirst : ∀ m' ∈ pre ++ [("PYSPECTRAL_RSR_VERSION", c)], m'.1 ≠ m.1 := by
      intro m' hm' he
      have hd' : ((pre ++ [("PYSPECTRAL_RSR_VERSION", c)]).map Prod.fst ++ m.1 :: post'.map Prod.fst).Nodup := by
        simpa using hd
      have := (List.nodup_append.1 hd').2.2
      exact this _ (List.mem_map_of_mem hm') _ List.mem_cons_self he
    have hafter : ∀ m' ∈ post', m'.1 ≠ m.1 := by
      intro m' hm' he
      have := (List.nodup_append.1 hd).2.1
      have := (List.nodup_cons.1 (List.nodup_cons.1 this).2).1
      exact this (by rw [← he]; exact List.mem_map_of_mem hm')
    have := hcur (pre ++ [("PYSPECTRAL_RSR_VERSION", c)]) m.1 m.2 post' (by rw [hm]; simp) hafter
      (hnd m (by simp))
    rw [extracted_other _ _ _ (fun m' hm' e => hmfirst m' hm' (Prod.mk.inj e).2.symm), setFile_files,
      if_neg (show ¬ (env.cfg.rsr_dir, m.1) = (env.cfg.rsr_dir, RSR_TARBALL) from
        fun e => ht m hmem (Prod.mk.inj e).2)] at this
    have e : (requested HTTP_PYSPECTRAL_RSR (configured env w)).files (env.cfg.rsr_dir, m.1) =
      w.files (env.cfg.rsr_dir, m.1) := rfl
    rw [e, hw m hmem] at this
    simp at this
  · rintro rfl x hx hcur
    have hone : ∀ ch, Usable (env.server HTTP_PYSPECTRAL_RSR) ch → ch = chunks := by
      rintro ch ⟨st, h1, -⟩
      obtain ⟨st', h2, -⟩ := hu
      rw [h1] at h2
      exact (Answer.answered.inj h2).2.2
    have hnw : ¬ RsrCurrent env w := by
      rintro ⟨c', h1, -⟩
      rw [hw ("PYSPECTRAL_RSR_VERSION", c) (by rw [hm]; simp)] at h1
      simp at h1
    obtain ⟨ch, h1, h2⟩ := C48_never_looks_complete_partial env none w x (by
      intro ch hch
      rw [hone ch hch]
      refine ⟨?_, ht⟩
      intro pre' c' post' he
      rw [hm] at he
      by_contra hne
      have hdrop := congrArg List.dropLast he
      rw [List.dropLast_concat, List.dropLast_append_of_ne_nil (by simp), List.dropLast_cons_of_ne_nil hne] at hdrop
      exact hnd ("PYSPECTRAL_RSR_VERSION", c') (by rw [hdrop]; simp) rfl) hx hnw hcur
    rw [hone ch h1] at h2
    exact h2

/-- an archive with the version file first, on an empty directory: some interruption looks complete -/
example : ¬ ∀ x ∈ Eff.crashStates (downloadRsr versionFirstEnv none false) emptyWorld, RsrCurrent versionFirstEnv x →
      InstalledExcept "PYSPECTRAL_RSR_VERSION" (versionFirstEnv.untar (["TAR".toList] : List Content).flatten).1
        versionFirstEnv.cfg.rsr_dir x := by
  rw [C48_exactly versionFirstEnv emptyWorld ["TAR".toList] ⟨200, rfl, by decide⟩ [] [("a.h5", "A".toList)]
    "v1.6.1".toList rfl ⟨[], [], [], rfl, by simp, by simp, Or.inl rfl⟩ (by decide) (by decide) (fun _ _ => rfl)]
  simp

end Verif.Props
