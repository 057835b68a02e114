import Verif.Props.LutDownload
/-
C178: what a failing download of the Rayleigh tables leaves behind, and how it is resumed.
-/
namespace Verif.Props
open Model Spec Lemmas

/-- The server delivers no archive for an aerosol type: no connection, an error status, no usable header, or a
connection lost in the body. -/
def RefusedLut (env : Env) (t : String) : Prop := ∀ chunks, ¬ Usable (env.server (lutUrl t)) chunks

/-- downloading one type that the server refuses -/
theorem downloadLut_refused (env : Env) (t : String) (ht : t ∈ AEROSOL_TYPES) (hb : RefusedLut env t) (w : World) :
    (downloadLut env false t w).1.isOk = false ∧
    (downloadLut env false t w).2.1.requests = w.requests ++ [lutUrl t] ∧
    ∀ x, (x = (downloadLut env false t w).2.1 ∨ x ∈ (downloadLut env false t w).2.2) →
      ∀ p, p ≠ (lutDir env t, "pyspectral_rayleigh_correction_luts.tgz") → x.files p = w.files p := by
  rw [downloadLut_eq env t (lutUrl t) (lutUrl_table t ht) w]
  obtain ⟨e, w', tr, hr, hx⟩ := download_unusable env (lutUrl t) LUT_TARBALL (rayleighLutDir env t)
    (withDir (rayleighLutDir env t) (configured env w))
    (by rintro ⟨⟨st, chunks, h1, h2⟩, -⟩; exact hb chunks ⟨st, h1, h2⟩)
  rw [hr]
  have hreq : w'.requests = w.requests ++ [lutUrl t] := by
    rcases hx w' (Or.inl rfl) with h | ⟨c, h⟩ <;> (rw [h]; rfl)
  refine ⟨rfl, hreq, ?_⟩
  have key : ∀ x, x = w' ∨ x ∈ tr → ∀ p, p ≠ (lutDir env t, "pyspectral_rayleigh_correction_luts.tgz") →
      x.files p = w.files p := by
    intro x h p hp
    rcases hx x h with rfl | ⟨c, rfl⟩
    · rfl
    · rw [setFile_files, if_neg (fun he => hp (by rw [he]; rfl))]; rfl
  intro x h p hp
  simp only [List.mem_cons] at h
  rcases h with h | rfl | rfl | rfl | h
  · exact key x (Or.inl h) p hp
  · rfl
  · rfl
  · rfl
  · exact key x (Or.inr h) p hp

/-- only the type's own directory is touched by its download -/
theorem downloadLut_elsewhere (env : Env) (t : String) (ht : t ∈ AEROSOL_TYPES) (w x : World)
    (hx : x = (downloadLut env false t w).2.1 ∨ x ∈ (downloadLut env false t w).2.2) (p : Path)
    (hp : p.1 ≠ lutDir env t) : x.files p = w.files p := by
  rw [downloadLut_eq env t (lutUrl t) (lutUrl_table t ht) w] at hx
  simp only [List.mem_cons] at hx
  rcases hx with h | rfl | rfl | rfl | h
  · exact (download_frame env (lutUrl t) LUT_TARBALL (rayleighLutDir env t) _ x (Or.inl h)).2.1 p hp
  · rfl
  · rfl
  · rfl
  · exact (download_frame env (lutUrl t) LUT_TARBALL (rayleighLutDir env t) _ x (Or.inr h)).2.1 p hp

theorem downloadLut_requests (env : Env) (t : String) (ht : t ∈ AEROSOL_TYPES) (w : World) :
    (downloadLut env false t w).2.1.requests = w.requests ++ [lutUrl t] := by
  rw [downloadLut_eq env t (lutUrl t) (lutUrl_table t ht) w]
  exact (download_frame env (lutUrl t) LUT_TARBALL (rayleighLutDir env t) _ _ (Or.inl rfl)).1

/-- a list of downloads whose first refused type is `t` -/
theorem downloads_refused (env : Env) (t : String) (post : List String) (ht : t ∈ AEROSOL_TYPES)
    (hb : RefusedLut env t) : ∀ (pre : List String), (∀ s ∈ pre, s ∈ AEROSOL_TYPES ∧ GoodLut env s) → t ∉ pre → ∀ w : World,
    (Eff.forEach (downloadLut env false) (pre ++ t :: post) w).1.isOk = false ∧
    (Eff.forEach (downloadLut env false) (pre ++ t :: post) w).2.1.requests = w.requests ++ (pre ++ [t]).map lutUrl ∧
    (∀ s, s ∈ pre ∨ LutCurrent env w s → s ≠ t →
      LutCurrent env (Eff.forEach (downloadLut env false) (pre ++ t :: post) w).2.1 s) ∧
    ∀ x, (x = (Eff.forEach (downloadLut env false) (pre ++ t :: post) w).2.1 ∨
        x ∈ (Eff.forEach (downloadLut env false) (pre ++ t :: post) w).2.2) →
      ∀ p, (∀ s ∈ pre, p.1 ≠ lutDir env s) → p ≠ (lutDir env t, "pyspectral_rayleigh_correction_luts.tgz") →
        x.files p = w.files p := by
  intro pre
  induction pre with
  | nil =>
    intro _ _ w
    obtain ⟨h1, h2, h3⟩ := downloadLut_refused env t ht hb w
    rw [List.nil_append, forEach_cons]
    rcases hm : downloadLut env false t w with ⟨r, w', tr⟩
    rw [hm] at h1 h2 h3
    cases r with
    | ok u => simp [Py.isOk] at h1
    | error e =>
      rw [eff_bind_error hm]
      refine ⟨rfl, by simpa using h2, ?_, fun x hx p _ hp => h3 x hx p hp⟩
      intro s hs hst
      refine lutCurrent_congr env w w' s (fun n => ?_) (hs.resolve_left (by simp))
      exact h3 w' (Or.inl rfl) _ (fun he => hst (rayleighLutDir_inj env (Prod.mk.inj he).1))
  | cons a pre ih =>
    intro hpre hnd w
    obtain ⟨ha, hga⟩ := hpre a (by simp)
    obtain ⟨g1, g2⟩ := downloadLut_good env a ha hga w
    have hels := downloadLut_elsewhere env a ha w
    have hreq := downloadLut_requests env a ha w
    rcases hm : downloadLut env false a w with ⟨r, w', tr⟩
    rw [hm] at g1 g2 hels hreq
    simp only at g1 g2 hels hreq
    subst g1
    obtain ⟨i1, i2, i3, i4⟩ := ih (fun s hs => hpre s (by simp [hs])) (fun h => hnd (by simp [h])) w'
    rw [List.cons_append, forEach_cons, eff_bind_ok hm]
    refine ⟨i1, ?_, ?_, ?_⟩
    · simp only at i2 ⊢
      rw [i2, hreq]; simp
    · intro s hs hst
      refine i3 s ?_ hst
      by_cases hsa : s = a
      · subst hsa; exact Or.inr g2
      · rcases hs with h | h
        · exact Or.inl ((List.mem_cons.1 h).resolve_left hsa)
        · exact Or.inr (lutCurrent_congr env w w' s (fun n => hels w' (Or.inl rfl) _
            (fun he => hsa (rayleighLutDir_inj env he))) h)
    · intro x hx p hp hpt
      simp only [List.mem_append] at hx
      have hgo : (x = (Eff.forEach (downloadLut env false) (pre ++ t :: post) w').2.1 ∨
          x ∈ (Eff.forEach (downloadLut env false) (pre ++ t :: post) w').2.2) → x.files p = w.files p := fun h => by
        rw [i4 x h p (fun s hs => hp s (by simp [hs])) hpt, hels w' (Or.inl rfl) p (hp a (by simp))]
      rcases hx with h | h | h
      · exact hgo (Or.inl h)
      · exact hels x (Or.inr h) p (hp a (by simp))
      · exact hgo (Or.inr h)

/-- C178: let `t` be the first outdated type for which the server delivers no archive.  Then the call raises; exactly
the types before `t`, and `t`, have been requested; the types before `t` are current, and so are the requested types
that were; and at every point the only file outside the directories of the types before `t` that may have been
touched is the temporary archive of `t`. -/
theorem C178_failure_stops (env : Env) (arg : Option (List String)) (w : World)
    (h : ∀ t ∈ requestedTypes arg, t ∈ AEROSOL_TYPES) (pre post : List String) (t : String)
    (hs : outdated env w arg = pre ++ t :: post) (hg : ∀ s ∈ pre, GoodLut env s) (hnd : t ∉ pre) (hb : RefusedLut env t) :
    (Eff.result (checkAndDownloadLuts env false arg) w).isOk = false ∧
    (Eff.final (checkAndDownloadLuts env false arg) w).requests = w.requests ++ (pre ++ [t]).map lutUrl ∧
    (∀ s, s ∈ pre ∨ LutCurrent env w s → LutCurrent env (Eff.final (checkAndDownloadLuts env false arg) w) s) ∧
    ∀ x, (x = Eff.final (checkAndDownloadLuts env false arg) w ∨
        x ∈ Eff.crashStates (checkAndDownloadLuts env false arg) w) →
      ∀ p, (∀ s ∈ pre, p.1 ≠ lutDir env s) → p ≠ (lutDir env t, "pyspectral_rayleigh_correction_luts.tgz") →
        x.files p = w.files p := by
  obtain ⟨tr, v, hn, hv, hx⟩ := needed_run env (requestedTypes arg) w
  rw [if_pos h, outdated_eq] at hn
  have hmem : ∀ s ∈ pre ++ t :: post, s ∈ AEROSOL_TYPES := fun s hs' => h s (List.mem_of_mem_filter (hs ▸ hs'))
  have htn : ¬ LutCurrent env w t := by
    have : t ∈ outdated env w arg := by rw [hs]; simp
    have := (List.mem_filter.1 this).2
    simpa using this
  obtain ⟨h1, h2, h3, h4⟩ := downloads_refused env t post (hmem t (by simp)) hb pre
    (fun s hs' => ⟨hmem s (by simp [hs']), hg s hs'⟩) hnd v
  unfold Eff.final Eff.crashStates Eff.result
  rw [checkAndDownloadLuts_eq, eff_bind_ok hn]
  have hnil : outdated env w arg ≠ [] := by rw [hs]; simp
  simp only [hnil, if_false]
  have hdl : downloadLuts env (some (outdated env w arg)) false = Eff.forEach (downloadLut env false) (outdated env w arg) := rfl
  rw [hdl, hs]
  refine ⟨h1, by rw [h2, hv.2], ?_, ?_⟩
  · intro s hs'
    refine h3 s (hs'.imp_right (lutCurrent_congr env w v s (fun n => by rw [hv.1]))) ?_
    rintro rfl
    exact hs'.elim hnd htn
  · intro x hxm p hp hpt
    simp only [List.mem_cons, List.mem_append] at hxm
    rcases hxm with hh | rfl | hh | hh
    · rw [h4 x (Or.inl hh) p hp hpt, hv.1]
    · rfl
    · rw [(hx x hh).1]
    · rw [h4 x (Or.inr hh) p hp hpt, hv.1]

/-- C178: a later call, with a server that delivers what is still missing, succeeds and requests exactly the types
the failed call did not get. -/
theorem C178_resumed (env : Env) (arg : Option (List String)) (w : World)
    (h : ∀ t ∈ requestedTypes arg, t ∈ AEROSOL_TYPES) (pre post : List String) (t : String)
    (hs : outdated env w arg = pre ++ t :: post) (hg : ∀ s ∈ pre, GoodLut env s) (hb : RefusedLut env t)
    (hnd : (requestedTypes arg).Nodup) (server : String → Answer) (d : Bool)
    (hg' : ∀ s ∈ t :: post, GoodLut (otherEnv env server d) s) :
    ∀ w', w' = Eff.final (checkAndDownloadLuts env false arg) w →
    (Eff.result (checkAndDownloadLuts (otherEnv env server d) false arg) w').isOk = true ∧
    (Eff.final (checkAndDownloadLuts (otherEnv env server d) false arg) w').requests =
      w'.requests ++ (t :: post).map lutUrl ∧
    ∀ s ∈ requestedTypes arg, LutCurrent env (Eff.final (checkAndDownloadLuts (otherEnv env server d) false arg) w') s := by
  intro w' hw'
  have hnd' : (pre ++ t :: post).Nodup := by rw [← hs]; exact hnd.filter _
  have htp : t ∉ pre := fun hm => (List.nodup_append.1 hnd').2.2 t hm t (by simp) rfl
  obtain ⟨-, -, hcur, hfr⟩ := C178_failure_stops env arg w h pre post t hs hg htp hb
  rw [← hw'] at hcur hfr
  have hsame : ∀ s ∈ t :: post, ¬ LutCurrent env w' s := by
    intro s hsm hc
    have hso : s ∈ outdated env w arg := by rw [hs]; exact List.mem_append_right _ hsm
    have hn : ¬ LutCurrent env w s := by simpa using (List.mem_filter.1 hso).2
    have hsp : s ∉ pre := fun hm => (List.nodup_append.1 hnd').2.2 s hm s hsm rfl
    obtain ⟨f, hf, c, hc, hl⟩ := hc
    refine hn ⟨f, hf, c, ?_, hl⟩
    rw [← hc]
    refine (hfr w' (Or.inl rfl) (lutDir env s, f) (fun a ha he => hsp ((rayleighLutDir_inj env (a := s) he) ▸ ha)) (fun he => ?_)).symm
    have : ∀ e ∈ ATM_CORRECTION_LUT_VERSION, e.2.2 ≠ "pyspectral_rayleigh_correction_luts.tgz" := by decide +kernel
    exact this _ hf (Prod.mk.inj he).2
  have hout : outdated (otherEnv env server d) w' arg = t :: post := by
    have e1 : outdated (otherEnv env server d) w' arg = outdated env w' arg := rfl
    have e2 : outdated env w' arg = (outdated env w arg).filter (fun s => decide (s ∉ pre)) := by
      unfold outdated
      rw [List.filter_filter]
      apply List.filter_congr
      intro s hsr
      by_cases hc : LutCurrent env w s
      · simp [hc, hcur s (Or.inr hc)]
      · have hso : s ∈ pre ++ t :: post := by rw [← hs]; exact List.mem_filter.2 ⟨hsr, by simpa using hc⟩
        by_cases hp : s ∈ pre
        · simp [hc, hp, hcur s (Or.inl hp)]
        · simp [hc, hp, hsame s ((List.mem_append.1 hso).resolve_left hp)]
    rw [e1, e2, hs, List.filter_append, List.filter_eq_nil_iff.2 (by simp), List.nil_append, List.filter_eq_self]
    intro s hsm
    have : s ∉ pre := fun hm => (List.nodup_append.1 hnd').2.2 s hm s hsm rfl
    simpa using this
  obtain ⟨k1, k2, -⟩ := C67_second_call_quiet (otherEnv env server d) arg w' h (by rw [hout]; exact hg')
  refine ⟨k1, ?_, k2⟩
  rw [(C67_downloads_outdated (otherEnv env server d) arg w' h).2 k1, hout]

/-- the connection is lost while the second table arrives -/
def exampleLutLost : Env := { exampleLutEnv with
  server := fun u => if u = lutUrl "rural_aerosol" then .answered 200 true ["TAR".toList] else .broken ["T".toList] .ioError }

theorem exLutLost_good : GoodLut exampleLutLost "rural_aerosol" :=
  ⟨["TAR".toList], ⟨200, by simp [exampleLutLost], by decide⟩, "PYSPECTRAL_ATM_CORR_LUT_RA", [], "v1.0.1".toList,
    [("PYSPECTRAL_ATM_CORR_LUT_RO", "v1.0.1".toList)], by decide +kernel, rfl, by simp,
    [], [], [], rfl, by simp, by simp, Or.inl rfl⟩

theorem exLutLost_refused : RefusedLut exampleLutLost "rayleigh_only" := by
  rintro chunks ⟨st, h, -⟩
  have : lutUrl "rayleigh_only" ≠ lutUrl "rural_aerosol" := by decide
  simp [exampleLutLost, this] at h

theorem exLutLost_outdated : outdated exampleLutLost emptyWorld (some ["rural_aerosol", "rayleigh_only"]) =
    ["rural_aerosol"] ++ "rayleigh_only" :: [] := by
  simp [outdated, requestedTypes, emptyWorld_lut]

/-- the first table is there, the second call requests only the second -/
example : (Eff.final (checkAndDownloadLuts (otherEnv exampleLutLost exampleLutEnv.server true) false
      (some ["rural_aerosol", "rayleigh_only"]))
      (Eff.final (checkAndDownloadLuts exampleLutLost false (some ["rural_aerosol", "rayleigh_only"])) emptyWorld)).requests =
    [lutUrl "rural_aerosol", lutUrl "rayleigh_only", lutUrl "rayleigh_only"] := by
  have hr : ∀ t ∈ requestedTypes (some ["rural_aerosol", "rayleigh_only"]), t ∈ AEROSOL_TYPES := by decide
  have hp : ∀ s ∈ ["rural_aerosol"], GoodLut exampleLutLost s := by
    intro s hs; rw [List.mem_singleton.1 hs]; exact exLutLost_good
  have hgood : ∀ s ∈ "rayleigh_only" :: [], GoodLut (otherEnv exampleLutLost exampleLutEnv.server true) s := by
    intro s hs
    rw [List.mem_singleton.1 hs]
    exact exGoodLuts "rayleigh_only" (by simp [outdated, requestedTypes, emptyWorld_lut])
  obtain ⟨-, h1, -⟩ := C178_failure_stops exampleLutLost _ emptyWorld hr _ _ _ exLutLost_outdated hp (by decide)
    exLutLost_refused
  obtain ⟨-, h2, -⟩ := C178_resumed exampleLutLost _ emptyWorld hr _ _ _ exLutLost_outdated hp exLutLost_refused
    (by decide) exampleLutEnv.server true hgood _ rfl
  rw [h2, h1]
  rfl

end Verif.Props
