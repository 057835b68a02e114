import Verif.Lemmas.Download
import Verif.Lemmas.Versions
import Mathlib.Logic.Relation
/-
Properties C45-C49: downloading the spectral responses.
-/
namespace Verif.Props
open Model Spec Lemmas

/-- The RSR directory carries the version this library wants. -/
def RsrCurrent (env : Env) (w : World) : Prop :=
  FileSays w (env.cfg.rsr_dir, "PYSPECTRAL_RSR_VERSION") "v1.6.1"

theorem rsrUptodate_iff (env : Env) (w : World) : rsrDataVersionUptodate env w = true ↔ RsrCurrent env w := by
  unfold rsrDataVersionUptodate RsrCurrent
  rw [decide_eq_true_eq]
  exact versionIn_iff w _ _ (by decide) (by decide) (by decide)

theorem rsrUptodate_false (env : Env) (w : World) (h : ¬ RsrCurrent env w) : rsrDataVersionUptodate env w = false := by
  rw [← rsrUptodate_iff] at h; simpa using h

theorem updates_current (env : Env) (w : World) (h : RsrCurrent env w) (dest : Option String) (dry : Bool) :
    downloadRsrUpdates env dest dry w = (.ok false, w, []) := by
  unfold downloadRsrUpdates
  rw [eff_bind_ok (show Eff.get w = (.ok w, w, []) from rfl)]
  simp only [(rsrUptodate_iff env w).2 h, if_true]
  rfl

theorem updates_outdated (env : Env) (w : World) (h : ¬ RsrCurrent env w) (dest : Option String) (dry : Bool)
    (hd : env.cfg.download_from_internet = true) :
    downloadRsrUpdates env dest dry w = (downloadRsr env dest dry >>= fun _ => pure true) w := by
  unfold downloadRsrUpdates
  rw [eff_bind_ok (show Eff.get w = (.ok w, w, []) from rfl)]
  simp only [rsrUptodate_false env w h, hd, Bool.false_eq_true, if_false, not_true]
  rfl

theorem downloadRsr_dry (env : Env) (dest : Option String) (w : World) :
    downloadRsr env dest true w = (.ok (), configured env w, [withDir env.cfg.rsr_dir w, configured env w]) := by
  unfold downloadRsr
  rw [eff_bind_ok (getConfig_run env w)]
  rfl

theorem downloadRsr_wet (env : Env) (dest : Option String) (w : World) :
    downloadRsr env dest false w =
      ((downloadTarballAndExtract env HTTP_PYSPECTRAL_RSR (dest.getD env.cfg.rsr_dir, RSR_TARBALL)
          (dest.getD env.cfg.rsr_dir) (configured env w)).1,
       (downloadTarballAndExtract env HTTP_PYSPECTRAL_RSR (dest.getD env.cfg.rsr_dir, RSR_TARBALL)
          (dest.getD env.cfg.rsr_dir) (configured env w)).2.1,
       withDir env.cfg.rsr_dir w :: configured env w ::
       (downloadTarballAndExtract env HTTP_PYSPECTRAL_RSR (dest.getD env.cfg.rsr_dir, RSR_TARBALL)
          (dest.getD env.cfg.rsr_dir) (configured env w)).2.2) := by
  unfold downloadRsr
  rw [eff_bind_ok (getConfig_run env w)]
  rfl

/-- the server's answer is usable -/
def Usable (a : Answer) (chunks : List Content) : Prop :=
  ∃ st, a = .answered st true chunks ∧ ¬ (400 ≤ st ∧ st < 600)

/-- what `Usable` is for the lemmas -/
theorem not_usable {env : Env} {w : World} {D : String}
    (hg : ¬ ((∃ chunks, Usable (env.server HTTP_PYSPECTRAL_RSR) chunks) ∧ w.dirs D = true)) :
    ¬ ((∃ st chunks, env.server HTTP_PYSPECTRAL_RSR = .answered st true chunks ∧ ¬ (400 ≤ st ∧ st < 600)) ∧ w.dirs D = true) := by
  rintro ⟨⟨st, chunks, h⟩, hd⟩
  exact hg ⟨⟨chunks, st, h⟩, hd⟩

/-- requests made by the download, at every point -/
theorem downloadRsr_requests (env : Env) (dest : Option String) (w : World) :
    (Eff.final (downloadRsr env dest false) w).requests = w.requests ++ [HTTP_PYSPECTRAL_RSR] ∧
    ∀ x ∈ Eff.crashStates (downloadRsr env dest false) w,
      x.requests = w.requests ∨ x.requests = w.requests ++ [HTTP_PYSPECTRAL_RSR] := by
  set D := dest.getD env.cfg.rsr_dir with hD
  unfold Eff.final Eff.crashStates
  rw [downloadRsr_wet, ← hD]
  have key : (downloadTarballAndExtract env HTTP_PYSPECTRAL_RSR (D, RSR_TARBALL) D (configured env w)).2.1.requests
      = w.requests ++ [HTTP_PYSPECTRAL_RSR] ∧
    ∀ x ∈ (downloadTarballAndExtract env HTTP_PYSPECTRAL_RSR (D, RSR_TARBALL) D (configured env w)).2.2,
      x.requests = w.requests ++ [HTTP_PYSPECTRAL_RSR] := by
    by_cases hg : (∃ chunks, Usable (env.server HTTP_PYSPECTRAL_RSR) chunks) ∧ (configured env w).dirs D = true
    · obtain ⟨⟨chunks, st, hs, hst⟩, hd⟩ := hg
      obtain ⟨t, ht, hx⟩ := download_run env HTTP_PYSPECTRAL_RSR RSR_TARBALL D (configured env w) st chunks hs hst hd
      rw [ht]
      refine ⟨?_, ?_⟩
      · show (if _ then _ else _ : World).requests = _
        split <;> simp <;> rfl
      · intro x hxm
        rcases hx x hxm with rfl | ⟨c, rfl⟩ | ⟨pre, m, post, _, rfl | ⟨c', rfl⟩⟩ | ⟨_, rfl⟩ <;> simp [requested]
    · obtain ⟨e, w', t, ht, hx⟩ := download_unusable env HTTP_PYSPECTRAL_RSR RSR_TARBALL D (configured env w) (not_usable hg)
      rw [ht]
      have : ∀ x, x = w' ∨ x ∈ t → x.requests = w.requests ++ [HTTP_PYSPECTRAL_RSR] := by
        intro x h
        rcases hx x h with rfl | ⟨c, rfl⟩ <;> simp [requested]
      exact ⟨this _ (Or.inl rfl), fun x hxm => this x (Or.inr hxm)⟩
  refine ⟨key.1, ?_⟩
  intro x hx
  simp only [List.mem_cons] at hx
  rcases hx with rfl | rfl | rfl | hx
  · exact Or.inl rfl
  · exact Or.inl rfl
  · exact Or.inl rfl
  · exact Or.inr (key.2 x hx)

/-! ### C45 -/

/-- C45: if the first line of the version file is the current version, the update check
returns False and changes nothing, whatever its arguments. -/
theorem C45_current_does_nothing (env : Env) (w : World) (h : RsrCurrent env w) (dest : Option String)
    (dry : Bool) :
    Eff.result (downloadRsrUpdates env dest dry) w = .ok false ∧
    Eff.final (downloadRsrUpdates env dest dry) w = w ∧
    Eff.crashStates (downloadRsrUpdates env dest dry) w = [w] := by
  unfold Eff.result Eff.final Eff.crashStates
  rw [updates_current env w h]
  exact ⟨rfl, rfl, rfl⟩

/-- C45: out of date but downloading is switched off: returns True and changes nothing. -/
theorem C45_switched_off (env : Env) (w : World) (h : ¬ RsrCurrent env w)
    (hd : env.cfg.download_from_internet = false) (dest : Option String) (dry : Bool) :
    Eff.result (downloadRsrUpdates env dest dry) w = .ok true ∧
    Eff.final (downloadRsrUpdates env dest dry) w = w ∧
    Eff.crashStates (downloadRsrUpdates env dest dry) w = [w] := by
  have : downloadRsrUpdates env dest dry w = (.ok true, w, []) := by
    unfold downloadRsrUpdates
    rw [eff_bind_ok (show Eff.get w = (.ok w, w, []) from rfl)]
    simp only [rsrUptodate_false env w h, hd, Bool.false_eq_true, if_false, not_false_eq_true, if_true]
    rfl
  unfold Eff.result Eff.final Eff.crashStates
  rw [this]
  exact ⟨rfl, rfl, rfl⟩

/-- C45: with `dry_run` nothing is requested and no file is written, at any point; an outdated
directory is still reported. -/
theorem C45_dry_run (env : Env) (w : World) (dest : Option String) :
    (Eff.result (downloadRsrUpdates env dest true) w = .ok true ∨
      (RsrCurrent env w ∧ Eff.result (downloadRsrUpdates env dest true) w = .ok false)) ∧
    (∀ x, x = Eff.final (downloadRsrUpdates env dest true) w ∨
        x ∈ Eff.crashStates (downloadRsrUpdates env dest true) w →
      x.requests = w.requests ∧ x.files = w.files) := by
  by_cases h : RsrCurrent env w
  · obtain ⟨h1, h2, h3⟩ := C45_current_does_nothing env w h dest true
    refine ⟨Or.inr ⟨h, h1⟩, ?_⟩
    rw [h2, h3]
    intro x hx
    have : x = w := by simpa using hx
    subst this
    exact ⟨rfl, rfl⟩
  · cases hd : env.cfg.download_from_internet with
    | false =>
      obtain ⟨h1, h2, h3⟩ := C45_switched_off env w h hd dest true
      refine ⟨Or.inl h1, ?_⟩
      rw [h2, h3]
      intro x hx
      have : x = w := by simpa using hx
      subst this
      exact ⟨rfl, rfl⟩
    | true =>
      have e : downloadRsrUpdates env dest true w =
          (.ok true, configured env w, [withDir env.cfg.rsr_dir w, configured env w]) := by
        rw [updates_outdated env w h dest true hd, eff_bind_ok (downloadRsr_dry env dest w)]
        rfl
      unfold Eff.result Eff.final Eff.crashStates
      rw [e]
      refine ⟨Or.inl rfl, ?_⟩
      intro x hx
      simp only [List.mem_cons, List.not_mem_nil, or_false] at hx
      rcases hx with rfl | rfl | rfl | rfl <;> exact ⟨rfl, rfl⟩

/-- C45: out of date, downloading allowed, no dry run: exactly one request, for the RSR
archive, is made (even if the download then fails), and if the call returns it returns True. -/
theorem C45_one_request (env : Env) (w : World) (h : ¬ RsrCurrent env w)
    (hd : env.cfg.download_from_internet = true) (dest : Option String) :
    (Eff.final (downloadRsrUpdates env dest false) w).requests = w.requests ++ [HTTP_PYSPECTRAL_RSR] ∧
    (∀ b, Eff.result (downloadRsrUpdates env dest false) w = .ok b → b = true) ∧
    (∀ x ∈ Eff.crashStates (downloadRsrUpdates env dest false) w,
      x.requests = w.requests ∨ x.requests = w.requests ++ [HTTP_PYSPECTRAL_RSR]) := by
  have hr := downloadRsr_requests env dest w
  unfold Eff.final Eff.crashStates at hr
  unfold Eff.result Eff.final Eff.crashStates
  rw [updates_outdated env w h dest false hd]
  rcases hm : downloadRsr env dest false w with ⟨r, w', t⟩
  rw [hm] at hr
  cases r with
  | ok u =>
    rw [eff_bind_ok hm]
    refine ⟨hr.1, fun b hb => ?_, ?_⟩
    · have : (Except.ok true : Py Bool) = .ok b := hb
      simpa using this.symm
    · simpa [eff_pure] using hr.2
  | error e =>
    rw [eff_bind_error hm]
    exact ⟨hr.1, fun b hb => by simp at hb, hr.2⟩

/-- A small world for the examples: a server with an archive of two data files and the version. -/
def exampleEnv : Env where
  cfg := { rsr_dir := "/rsr", rayleigh_dir := "/ray", download_from_internet := true }
  server := fun _ => .answered 200 true ["TAR".toList]
  untar := fun _ => ([("a.h5", "A".toList), ("b.h5", "B".toList), ("PYSPECTRAL_RSR_VERSION", "v1.6.1\n".toList)], true)

/-- an empty file system -/
def emptyWorld : World := { files := fun _ => none, dirs := fun _ => false, requests := [] }

theorem emptyWorld_not_current : ¬ RsrCurrent exampleEnv emptyWorld := by
  rintro ⟨c, h, _⟩; simp [emptyWorld] at h

example : (Eff.final (downloadRsrUpdates exampleEnv none false) emptyWorld).requests = [HTTP_PYSPECTRAL_RSR] :=
  (C45_one_request _ _ emptyWorld_not_current rfl none).1

example : RsrCurrent exampleEnv
    (emptyWorld.setFile ("/rsr", "PYSPECTRAL_RSR_VERSION") (some " v1.6.1 \nfoo".toList)) :=
  ⟨_, rfl, [' '], [' '], "\nfoo".toList, rfl, by simp [InlineBlank, Str.isSpace], by simp [InlineBlank, Str.isSpace],
    Or.inr ⟨"foo".toList, Or.inl rfl⟩⟩

example : ¬ RsrCurrent exampleEnv
    (emptyWorld.setFile ("/rsr", "PYSPECTRAL_RSR_VERSION") (some "v1.6.0\n".toList)) := by
  rw [← rsrUptodate_iff]; decide

/-- a directory with the current version: nothing happens -/
example (dest : Option String) (dry : Bool) :
    Eff.result (downloadRsrUpdates exampleEnv dest dry)
      (emptyWorld.setFile ("/rsr", "PYSPECTRAL_RSR_VERSION") (some "v1.6.1".toList)) = .ok false :=
  (C45_current_does_nothing _ _ ⟨"v1.6.1".toList, rfl, [], [], [], rfl, by simp, by simp, Or.inl rfl⟩ dest dry).1

/-- downloading switched off -/
example : Eff.final (downloadRsrUpdates
      { exampleEnv with cfg := { exampleEnv.cfg with download_from_internet := false } } none false) emptyWorld = emptyWorld :=
  (C45_switched_off _ _ (by rintro ⟨c, h, _⟩; simp [emptyWorld] at h) rfl none false).2.1

/-! ### C46 -/

/-- The archive read from `body`: complete, its last version file is the wanted one, and it
has no member named like the temporary archive file. -/
def GoodArchive (env : Env) (body : Content) : Prop :=
  ∃ pre c post, env.untar body = (pre ++ ("PYSPECTRAL_RSR_VERSION", c) :: post, true) ∧
    (∀ m ∈ post, m.1 ≠ "PYSPECTRAL_RSR_VERSION") ∧ FirstLineIs c "v1.6.1".toList

theorem downloadRsr_success (env : Env) (dest : Option String) (w : World) (chunks : List Content)
    (hu : Usable (env.server HTTP_PYSPECTRAL_RSR) chunks) (hok : (env.untar chunks.flatten).2 = true)
    (hd : (configured env w).dirs (dest.getD env.cfg.rsr_dir) = true) :
    Eff.result (downloadRsr env dest false) w = .ok () ∧
    Eff.final (downloadRsr env dest false) w =
      (extracted (dest.getD env.cfg.rsr_dir) (env.untar chunks.flatten).1
        ((requested HTTP_PYSPECTRAL_RSR (configured env w)).setFile (dest.getD env.cfg.rsr_dir, RSR_TARBALL)
          (some chunks.flatten))).setFile (dest.getD env.cfg.rsr_dir, RSR_TARBALL) none := by
  obtain ⟨st, hs, hst⟩ := hu
  obtain ⟨t, ht, -⟩ := download_run env HTTP_PYSPECTRAL_RSR RSR_TARBALL _ (configured env w) st chunks hs hst hd
  unfold Eff.result Eff.final
  rw [downloadRsr_wet, ht, hok]
  exact ⟨rfl, rfl⟩

theorem checkAndDownload_eq (env : Env) (dest : Option String) (dry : Bool) (w : World) :
    (Eff.result (checkAndDownloadRsr env dest dry) w).isOk =
      (Eff.result (downloadRsrUpdates env dest dry) (configured env w)).isOk ∧
    Eff.final (checkAndDownloadRsr env dest dry) w = Eff.final (downloadRsrUpdates env dest dry) (configured env w) ∧
    (Eff.crashStates (checkAndDownloadRsr env dest dry) w) =
      w :: withDir env.cfg.rsr_dir w :: Eff.crashStates (downloadRsrUpdates env dest dry) (configured env w) := by
  unfold checkAndDownloadRsr Eff.result Eff.final Eff.crashStates
  rw [eff_bind_ok (getConfig_run env w)]
  rcases hm : downloadRsrUpdates env dest dry (configured env w) with ⟨r, w', t⟩
  cases r with
  | ok u => rw [eff_bind_ok hm]; simp [eff_pure, Py.isOk]
  | error e => rw [eff_bind_error hm]; simp [Py.isOk]

theorem current_configured (env : Env) (w : World) : RsrCurrent env (configured env w) ↔ RsrCurrent env w := Iff.rfl

/-- C46, first call: whatever the starting state, if the server delivers a good archive, the
check into the RSR directory succeeds and leaves the directory current. -/
theorem C46_first_call (env : Env) (w : World) (chunks : List Content)
    (hu : Usable (env.server HTTP_PYSPECTRAL_RSR) chunks) (hg : GoodArchive env chunks.flatten)
    (hdl : env.cfg.download_from_internet = true) (dest : Option String)
    (hdest : dest = none ∨ dest = some env.cfg.rsr_dir) :
    (Eff.result (checkAndDownloadRsr env dest false) w).isOk = true ∧
    RsrCurrent env (Eff.final (checkAndDownloadRsr env dest false) w) := by
  have hD : dest.getD env.cfg.rsr_dir = env.cfg.rsr_dir := by rcases hdest with rfl | rfl <;> rfl
  obtain ⟨h1, h2, -⟩ := checkAndDownload_eq env dest false w
  rw [h1, h2]
  by_cases hc : RsrCurrent env (configured env w)
  · obtain ⟨a, b, -⟩ := C45_current_does_nothing env _ hc dest false
    rw [a, b]
    exact ⟨rfl, hc⟩
  · obtain ⟨pre, c, post, hun, hpost, hfl⟩ := hg
    have hok : (env.untar chunks.flatten).2 = true := by rw [hun]
    obtain ⟨hr, hf⟩ := downloadRsr_success env dest (configured env w) chunks hu hok
      (by rw [hD]; exact configured_rsr_dir env _)
    rcases hm : downloadRsr env dest false (configured env w) with ⟨r, w', t⟩
    unfold Eff.result at hr
    unfold Eff.final at hf
    rw [hm] at hr hf
    have hr' : r = .ok () := hr
    subst hr'
    unfold Eff.result Eff.final
    rw [updates_outdated env _ hc dest false hdl, eff_bind_ok hm]
    refine ⟨rfl, c, ?_, hfl⟩
    have hf' : w' = _ := hf
    show w'.files _ = _
    rw [hf', hD, setFile_files, if_neg (by simp [RSR_TARBALL]), hun]
    exact extracted_last _ _ _ _ _ hpost _

/-- A later use of the library: any of the entry points, with any arguments, any state of the
network and any setting of the download option. -/
inductive RsrUse where
  | check (server : String → Answer) (download : Bool) (dest : Option String) (dry : Bool)
  | updates (server : String → Answer) (download : Bool) (dest : Option String) (dry : Bool)

/-- the same installation with another network and download option -/
def otherEnv (env : Env) (s : String → Answer) (d : Bool) : Env where
  cfg := { rsr_dir := env.cfg.rsr_dir, rayleigh_dir := env.cfg.rayleigh_dir, download_from_internet := d }
  server := s
  untar := env.untar

/-- run one use -/
def RsrUse.run (env : Env) (w : World) : RsrUse → World
  | .check s d dest dry => Eff.final (checkAndDownloadRsr (otherEnv env s d) dest dry) w
  | .updates s d dest dry => Eff.final (downloadRsrUpdates (otherEnv env s d) dest dry) w

/-- C46: once current, no use ever requests anything or changes a file. -/
theorem C46_no_more_requests (env : Env) (w : World) (hc : RsrCurrent env w) (uses : List RsrUse) :
    (uses.foldl (RsrUse.run env) w).requests = w.requests ∧
    (uses.foldl (RsrUse.run env) w).files = w.files := by
  induction uses generalizing w with
  | nil => exact ⟨rfl, rfl⟩
  | cons u us ih =>
    have step : (RsrUse.run env w u).requests = w.requests ∧ (RsrUse.run env w u).files = w.files := by
      cases u with
      | check s d dest dry =>
        show (Eff.final _ _).requests = _ ∧ (Eff.final _ _).files = _
        rw [(checkAndDownload_eq _ dest dry w).2.1,
          (C45_current_does_nothing (otherEnv env s d) (configured (otherEnv env s d) w) hc dest dry).2.1]
        exact ⟨rfl, rfl⟩
      | updates s d dest dry =>
        show (Eff.final _ _).requests = _ ∧ (Eff.final _ _).files = _
        rw [(C45_current_does_nothing (otherEnv env s d) w hc dest dry).2.1]
        exact ⟨rfl, rfl⟩
    have hc' : RsrCurrent env (RsrUse.run env w u) := by
      unfold RsrCurrent FileSays; rw [step.2]; exact hc
    obtain ⟨h1, h2⟩ := ih (RsrUse.run env w u) hc'
    exact ⟨h1.trans step.1, h2.trans step.2⟩

/-- C46: after a successful download into the RSR directory, any number of further uses makes
no request. -/
theorem C46_not_repeated (env : Env) (w : World) (chunks : List Content)
    (hu : Usable (env.server HTTP_PYSPECTRAL_RSR) chunks) (hg : GoodArchive env chunks.flatten)
    (hdl : env.cfg.download_from_internet = true) (uses : List RsrUse) :
    (uses.foldl (RsrUse.run env) (Eff.final (checkAndDownloadRsr env none false) w)).requests =
      (Eff.final (checkAndDownloadRsr env none false) w).requests :=
  (C46_no_more_requests env _ (C46_first_call env w chunks hu hg hdl none (Or.inl rfl)).2 uses).1

theorem exampleEnv_usable : Usable (exampleEnv.server HTTP_PYSPECTRAL_RSR) ["TAR".toList] := ⟨200, rfl, by decide⟩

theorem exampleEnv_good : GoodArchive exampleEnv (["TAR".toList] : List Content).flatten :=
  ⟨[("a.h5", "A".toList), ("b.h5", "B".toList)], "v1.6.1\n".toList, [], rfl, by simp,
    [], [], ['\n'], rfl, by simp, by simp, Or.inr ⟨[], Or.inl rfl⟩⟩

example : RsrCurrent exampleEnv (Eff.final (checkAndDownloadRsr exampleEnv none false) emptyWorld) :=
  (C46_first_call exampleEnv emptyWorld _ exampleEnv_usable exampleEnv_good rfl none (Or.inl rfl)).2

example : ([.updates exampleEnv.server true none false, .check (fun _ => .answered 404 true []) true none false,
      .updates exampleEnv.server false (some "/tmp") false].foldl (RsrUse.run exampleEnv)
      (Eff.final (checkAndDownloadRsr exampleEnv none false) emptyWorld)).requests =
    (Eff.final (checkAndDownloadRsr exampleEnv none false) emptyWorld).requests :=
  C46_not_repeated exampleEnv emptyWorld _ exampleEnv_usable exampleEnv_good rfl _

example : ([.updates exampleEnv.server true none false, .check exampleEnv.server true none true].foldl (RsrUse.run exampleEnv)
      (emptyWorld.setFile ("/rsr", "PYSPECTRAL_RSR_VERSION") (some "v1.6.1".toList))).requests = [] :=
  (C46_no_more_requests exampleEnv _ ⟨"v1.6.1".toList, rfl, [], [], [], rfl, by simp, by simp, Or.inl rfl⟩ _).1

/-! ### C47 -/

/-- C47 is false: with a destination directory other than the RSR directory the second call
downloads again, although the server delivered a good archive and nothing went wrong.  This
holds for every such directory and every good server. -/
theorem C47_other_directory_repeats (env : Env) (w : World) (d : String) (hd : d ≠ env.cfg.rsr_dir)
    (hc : ¬ RsrCurrent env w) (hdl : env.cfg.download_from_internet = true)
    (hexists : w.dirs d = true) (chunks : List Content)
    (hu : Usable (env.server HTTP_PYSPECTRAL_RSR) chunks) (hok : (env.untar chunks.flatten).2 = true) :
    (Eff.final (checkAndDownloadRsr env (some d) false)
      (Eff.final (checkAndDownloadRsr env (some d) false) w)).requests =
      w.requests ++ [HTTP_PYSPECTRAL_RSR, HTTP_PYSPECTRAL_RSR] := by
  have hstep : ∀ v : World, ¬ RsrCurrent env v →
      (Eff.final (checkAndDownloadRsr env (some d) false) v).requests = v.requests ++ [HTTP_PYSPECTRAL_RSR] := by
    intro v hv
    rw [(checkAndDownload_eq env (some d) false v).2.1]
    exact (C45_one_request env (configured env v) hv hdl (some d)).1
  rw [hstep, hstep w hc, List.append_assoc]
  · rfl
  · intro hcur
    apply hc
    obtain ⟨c, h1, h2⟩ := hcur
    refine ⟨c, ?_, h2⟩
    rw [← h1, (checkAndDownload_eq env (some d) false w).2.1]
    have hdir : (configured env (configured env w)).dirs d = true := by
      simp [configured, withDir, hexists]
    obtain ⟨hr, hf⟩ := downloadRsr_success env (some d) (configured env w) chunks hu hok hdir
    rcases hm : downloadRsr env (some d) false (configured env w) with ⟨r, w', t⟩
    unfold Eff.result at hr
    unfold Eff.final at hf
    rw [hm] at hr hf
    have hr' : r = .ok () := hr
    have hf' : w' = _ := hf
    subst hr'
    unfold Eff.final
    rw [updates_outdated env (configured env w) hc (some d) false hdl, eff_bind_ok hm]
    show _ = w'.files _
    rw [hf']
    have hne : ∀ n m : String, (env.cfg.rsr_dir, n) ≠ (d, m) := fun n m h => hd (Prod.mk.inj h).1.symm
    simp only [Option.getD_some]
    rw [setFile_files, if_neg (hne _ _), extracted_other _ _ _ (fun m _ => hne _ _), setFile_files, if_neg (hne _ _)]
    rfl

/-- the refutation is not vacuous -/
example : (Eff.final (checkAndDownloadRsr exampleEnv (some "/tmp") false)
      (Eff.final (checkAndDownloadRsr exampleEnv (some "/tmp") false)
        { emptyWorld with dirs := fun d => d = "/tmp" })).requests =
      [HTTP_PYSPECTRAL_RSR, HTTP_PYSPECTRAL_RSR] :=
  C47_other_directory_repeats exampleEnv _ "/tmp" (by decide) (by rintro ⟨c, h, _⟩; simp [emptyWorld] at h) rfl
    (by decide) _ exampleEnv_usable rfl

/-- C47, part that holds: with the RSR directory as destination (or none given) two calls
download at most once.  Missing: every other destination, where it is false. -/
theorem C47_once_partial (env : Env) (w : World) (chunks : List Content)
    (hu : Usable (env.server HTTP_PYSPECTRAL_RSR) chunks) (hg : GoodArchive env chunks.flatten)
    (hdl : env.cfg.download_from_internet = true) (d : Option String)
    (hd : d = none ∨ d = some env.cfg.rsr_dir) :
    (Eff.final (checkAndDownloadRsr env d false) (Eff.final (checkAndDownloadRsr env d false) w)).requests =
      (Eff.final (checkAndDownloadRsr env d false) w).requests := by
  have h := C46_no_more_requests env _ (C46_first_call env w chunks hu hg hdl d hd).2
    [.check env.server true d false]
  have he : otherEnv env env.server true = env := by rw [← hdl]; rfl
  simp only [List.foldl_cons, List.foldl_nil, RsrUse.run, he] at h
  exact h.1

example : (Eff.final (checkAndDownloadRsr exampleEnv none false)
    (Eff.final (checkAndDownloadRsr exampleEnv none false) emptyWorld)).requests =
    (Eff.final (checkAndDownloadRsr exampleEnv none false) emptyWorld).requests :=
  C47_once_partial exampleEnv emptyWorld _ exampleEnv_usable exampleEnv_good rfl none (Or.inl rfl)

/-! ### C48 -/

theorem downloadRsr_visits (env : Env) (w : World) (D : String) (hD : env.cfg.rsr_dir = D) (chunks : List Content)
    (hu : Usable (env.server HTTP_PYSPECTRAL_RSR) chunks) (pre post : List (String × Content)) (hpre : pre ≠ [])
    (hm : (env.untar chunks.flatten).1 = pre ++ post) :
    extracted D pre ((requested HTTP_PYSPECTRAL_RSR (configured env w)).setFile (D, RSR_TARBALL) (some chunks.flatten)) ∈
      Eff.crashStates (downloadRsr env none false) w := by
  subst hD
  obtain ⟨st, hs, hst⟩ := hu
  have h := download_visits env HTTP_PYSPECTRAL_RSR RSR_TARBALL env.cfg.rsr_dir (configured env w) st chunks hs hst
    (configured_rsr_dir env w) pre post hpre hm
  unfold Eff.crashStates
  rw [downloadRsr_wet]
  exact List.mem_cons_of_mem _ (List.mem_cons_of_mem _ (List.mem_cons_of_mem _ h))

/-- an archive with the version file first -/
def versionFirstEnv : Env := { exampleEnv with
  untar := fun _ => ([("PYSPECTRAL_RSR_VERSION", "v1.6.1".toList), ("a.h5", "A".toList)], true) }

/-- the state after its first member was extracted -/
def versionFirstCrash : World :=
  extracted "/rsr" [("PYSPECTRAL_RSR_VERSION", "v1.6.1".toList)]
    ((requested HTTP_PYSPECTRAL_RSR (configured versionFirstEnv emptyWorld)).setFile ("/rsr", RSR_TARBALL)
      (some (["TAR".toList] : List Content).flatten))

theorem versionFirstCrash_visited :
    versionFirstCrash ∈ Eff.crashStates (downloadRsr versionFirstEnv none false) emptyWorld := by
  exact downloadRsr_visits versionFirstEnv emptyWorld "/rsr" rfl ["TAR".toList] ⟨200, rfl, by decide⟩
    [("PYSPECTRAL_RSR_VERSION", "v1.6.1".toList)] [("a.h5", "A".toList)] (by simp) rfl

/-- C48 is false for archives whose version file is not the last member: there is a point of
interruption after which the directory counts as current although a data file is missing, and
no later check repairs it. -/
theorem C48_version_first_looks_complete : ∃ (env : Env) (w : World) (chunks : List Content),
    Usable (env.server HTTP_PYSPECTRAL_RSR) chunks ∧ GoodArchive env chunks.flatten ∧ ¬ RsrCurrent env w ∧
    ∃ x ∈ Eff.crashStates (downloadRsr env none false) w,
      RsrCurrent env x ∧ ¬ Installed (env.untar chunks.flatten).1 env.cfg.rsr_dir x ∧
      ∀ uses : List RsrUse, ¬ Installed (env.untar chunks.flatten).1 env.cfg.rsr_dir (uses.foldl (RsrUse.run env) x) := by
  have hnot : ∀ v : World, v.files ("/rsr", "a.h5") = none →
      ¬ Installed [("PYSPECTRAL_RSR_VERSION", "v1.6.1".toList), ("a.h5", "A".toList)] "/rsr" v := by
    intro v hv hi
    have := hi [("PYSPECTRAL_RSR_VERSION", "v1.6.1".toList)] "a.h5" "A".toList [] rfl (by simp)
    rw [hv] at this
    simp at this
  have hxc : RsrCurrent versionFirstEnv versionFirstCrash :=
    ⟨"v1.6.1".toList, rfl, [], [], [], rfl, by simp, by simp, Or.inl rfl⟩
  have hxf : versionFirstCrash.files ("/rsr", "a.h5") = none := by decide
  refine ⟨versionFirstEnv, emptyWorld, ["TAR".toList], ⟨200, rfl, by decide⟩,
    ⟨[], "v1.6.1".toList, [("a.h5", "A".toList)], rfl, by simp, [], [], [], rfl, by simp, by simp, Or.inl rfl⟩,
    by rintro ⟨c, h, _⟩; simp [emptyWorld] at h, versionFirstCrash, versionFirstCrash_visited, hxc, hnot _ hxf, ?_⟩
  intro uses
  apply hnot
  rw [(C46_no_more_requests versionFirstEnv versionFirstCrash hxc uses).2]
  exact hxf

/-- where the crash states of a download lie: nothing but the temporary file changed, or a
prefix of the members is in place plus part of the next one, or all members are in place -/
theorem downloadRsr_crash (env : Env) (dest : Option String) (w x : World)
    (hx : x ∈ Eff.crashStates (downloadRsr env dest false) w) :
    (configured env x).dirs = (configured env w).dirs ∧
    ((∀ p, p ≠ (dest.getD env.cfg.rsr_dir, RSR_TARBALL) → x.files p = w.files p) ∨
    ∃ chunks, Usable (env.server HTTP_PYSPECTRAL_RSR) chunks ∧
      ((∃ pre m post, (env.untar chunks.flatten).1 = pre ++ m :: post ∧
        ∀ p, p ≠ (dest.getD env.cfg.rsr_dir, RSR_TARBALL) → p ≠ (dest.getD env.cfg.rsr_dir, m.1) →
          x.files p = (extracted (dest.getD env.cfg.rsr_dir) pre w).files p) ∨
       (∀ p, p ≠ (dest.getD env.cfg.rsr_dir, RSR_TARBALL) →
          x.files p = (extracted (dest.getD env.cfg.rsr_dir) (env.untar chunks.flatten).1 w).files p))) := by
  set D := dest.getD env.cfg.rsr_dir with hD
  have hconf : (configured env (withDir env.cfg.rsr_dir w)).dirs = (configured env w).dirs := by
    funext d; simp only [configured, withDir]; split <;> simp_all
  have hconf2 : (configured env (configured env w)).dirs = (configured env w).dirs := by
    funext d; simp only [configured, withDir]; split <;> simp_all
  have hdirs : ∀ v : World, v.dirs = (configured env w).dirs → (configured env v).dirs = (configured env w).dirs := by
    intro v hv
    rw [← hconf2]
    funext d
    simp only [configured, withDir, hv]
  have hext : ∀ (pre : List (String × Content)) (c : Content) (p : Path), p ≠ (D, RSR_TARBALL) →
      (extracted D pre ((requested HTTP_PYSPECTRAL_RSR (configured env w)).setFile (D, RSR_TARBALL) (some c))).files p =
        (extracted D pre w).files p := by
    intro pre c p hp
    apply extracted_congr
    intro _
    rw [setFile_files, if_neg hp]
    rfl
  unfold Eff.crashStates at hx
  rw [downloadRsr_wet, ← hD] at hx
  simp only [List.mem_cons] at hx
  rcases hx with rfl | rfl | rfl | hx
  · exact ⟨rfl, Or.inl fun p _ => rfl⟩
  · exact ⟨hconf, Or.inl fun p _ => rfl⟩
  · exact ⟨hconf2, Or.inl fun p _ => rfl⟩
  · by_cases hg : (∃ chunks, Usable (env.server HTTP_PYSPECTRAL_RSR) chunks) ∧ (configured env w).dirs D = true
    · obtain ⟨⟨chunks, st, hs, hst⟩, hd⟩ := hg
      obtain ⟨t, ht, hxt⟩ := download_run env HTTP_PYSPECTRAL_RSR RSR_TARBALL D (configured env w) st chunks hs hst hd
      rw [ht] at hx
      rcases hxt x hx with rfl | ⟨c, rfl⟩ | ⟨pre, m, post, hms, hxx⟩ | ⟨_, rfl⟩
      · exact ⟨hdirs _ rfl, Or.inl fun p _ => rfl⟩
      · exact ⟨hdirs _ rfl, Or.inl fun p hp => by rw [setFile_files, if_neg hp]; rfl⟩
      · refine ⟨hdirs _ ?_, Or.inr ⟨chunks, ⟨st, hs, hst⟩, Or.inl ⟨pre, m, post, hms, ?_⟩⟩⟩
        · rcases hxx with rfl | ⟨c', rfl⟩
          · simp; rfl
          · simp; rfl
        · intro p hp hpm
          rcases hxx with rfl | ⟨c', rfl⟩
          · exact hext _ _ _ hp
          · rw [setFile_files, if_neg hpm]; exact hext _ _ _ hp
      · refine ⟨hdirs _ (by simp; rfl), Or.inr ⟨chunks, ⟨st, hs, hst⟩, Or.inr fun p hp => ?_⟩⟩
        rw [setFile_files, if_neg hp]; exact hext _ _ _ hp
    · obtain ⟨e, w', t, ht, hxt⟩ := download_unusable env HTTP_PYSPECTRAL_RSR RSR_TARBALL D (configured env w) (not_usable hg)
      rw [ht] at hx
      rcases hxt x (Or.inr hx) with rfl | ⟨c, rfl⟩
      · exact ⟨hdirs _ rfl, Or.inl fun p _ => rfl⟩
      · exact ⟨hdirs _ rfl, Or.inl fun p hp => by rw [setFile_files, if_neg hp]; rfl⟩

/-- C48, part that holds: if in the delivered archive no member comes after the version file
(and none is named like the temporary file), then at whatever point the download is
interrupted, a directory that then counts as current has every data file complete.  Missing:
archives with members after the version file, for which it is false. -/
theorem C48_never_looks_complete_partial (env : Env) (dest : Option String) (w x : World)
    (hlast : ∀ chunks, Usable (env.server HTTP_PYSPECTRAL_RSR) chunks →
      (∀ pre c post, (env.untar chunks.flatten).1 = pre ++ ("PYSPECTRAL_RSR_VERSION", c) :: post → post = []) ∧
      ∀ m ∈ (env.untar chunks.flatten).1, m.1 ≠ "pyspectral_rsr_data.tgz")
    (hx : x ∈ Eff.crashStates (downloadRsr env dest false) w)
    (hw : ¬ RsrCurrent env w) (hcur : RsrCurrent env x) :
    ∃ chunks, Usable (env.server HTTP_PYSPECTRAL_RSR) chunks ∧
      InstalledExcept "PYSPECTRAL_RSR_VERSION" (env.untar chunks.flatten).1 (dest.getD env.cfg.rsr_dir) x := by
  set D := dest.getD env.cfg.rsr_dir with hD
  have hver : ∀ d : String, (env.cfg.rsr_dir, "PYSPECTRAL_RSR_VERSION") ≠ (d, RSR_TARBALL) := by
    intro d h; exact absurd (Prod.mk.inj h).2 (by decide)
  have hchanged : x.files (env.cfg.rsr_dir, "PYSPECTRAL_RSR_VERSION") ≠
      w.files (env.cfg.rsr_dir, "PYSPECTRAL_RSR_VERSION") := by
    intro h
    apply hw
    unfold RsrCurrent FileSays at *
    rw [← h]; exact hcur
  rcases (downloadRsr_crash env dest w x hx).2 with h | ⟨chunks, hu, h | h⟩
  · exact absurd (h _ (hver _)) hchanged
  · obtain ⟨pre, m, post, hms, hp⟩ := h
    obtain ⟨hl, ht⟩ := hlast chunks hu
    have hprever : ∀ m' ∈ pre, m'.1 ≠ "PYSPECTRAL_RSR_VERSION" := by
      intro m' hm' he
      obtain ⟨a, b, rfl⟩ := List.append_of_mem hm'
      have := hl a m'.2 (b ++ m :: post) (by rw [hms, ← he]; simp)
      simp at this
    by_cases hm : D = env.cfg.rsr_dir ∧ m.1 = "PYSPECTRAL_RSR_VERSION"
    · refine ⟨chunks, hu, ?_⟩
      obtain rfl : post = [] := hl pre m.2 post (by rw [hms, ← hm.2])
      intro before name content after hsplit hafter hname
      have hmem : (name, content) ∈ (env.untar chunks.flatten).1 := by rw [hsplit]; simp
      have hnt : name ≠ "pyspectral_rsr_data.tgz" := ht _ hmem
      rw [hp (D, name) (fun e => hnt (Prod.mk.inj e).2) (fun e => hname ((Prod.mk.inj e).2.trans hm.2))]
      rw [hsplit] at hms
      -- drop the version file from the end
      rcases List.eq_nil_or_concat after with rfl | ⟨after', l, rfl⟩
      · have := List.append_inj' hms rfl
        have h2 := (List.cons.inj this.2).1
        exact absurd (by rw [← hm.2, ← h2]) hname
      · have hms' : (before ++ (name, content) :: after') ++ [l] = pre ++ [m] := by
          rw [← hms]; simp
        obtain ⟨rfl, -⟩ := List.append_inj' hms' rfl
        exact extracted_last _ _ _ _ _ (fun m' hm' => hafter m' (by simp [hm'])) _
    · exfalso
      apply hchanged
      rw [hp _ (hver _) (fun he => hm ⟨(Prod.mk.inj he).1.symm, (Prod.mk.inj he).2.symm⟩)]
      exact extracted_other _ _ _ (fun m' hm' he => hprever m' hm' (Prod.mk.inj he).2.symm) _
  · refine ⟨chunks, hu, ?_⟩
    obtain ⟨-, ht⟩ := hlast chunks hu
    intro before name content after hsplit hafter hname
    have hmem : (name, content) ∈ (env.untar chunks.flatten).1 := by rw [hsplit]; simp
    have hnt : name ≠ "pyspectral_rsr_data.tgz" := ht _ hmem
    rw [h (D, name) (fun e => hnt (Prod.mk.inj e).2), hsplit]
    exact extracted_last _ _ _ _ _ hafter _

/-- the hypotheses of the partial claim are met by the example archive, and a current crash
state exists -/
example : ∃ x ∈ Eff.crashStates (downloadRsr exampleEnv none false) emptyWorld, RsrCurrent exampleEnv x := by
  refine ⟨extracted "/rsr" [("a.h5", "A".toList), ("b.h5", "B".toList), ("PYSPECTRAL_RSR_VERSION", "v1.6.1\n".toList)]
    ((requested HTTP_PYSPECTRAL_RSR (configured exampleEnv emptyWorld)).setFile ("/rsr", RSR_TARBALL)
      (some (["TAR".toList] : List Content).flatten)), ?_, ?_⟩
  · exact downloadRsr_visits exampleEnv emptyWorld "/rsr" rfl ["TAR".toList] exampleEnv_usable
        [("a.h5", "A".toList), ("b.h5", "B".toList), ("PYSPECTRAL_RSR_VERSION", "v1.6.1\n".toList)] [] (by simp) rfl
  · exact ⟨"v1.6.1\n".toList, rfl, [], [], ['\n'], rfl, by simp, by simp, Or.inr ⟨[], Or.inl rfl⟩⟩

example : ∀ chunks, Usable (exampleEnv.server HTTP_PYSPECTRAL_RSR) chunks →
      (∀ pre c post, (exampleEnv.untar chunks.flatten).1 = pre ++ ("PYSPECTRAL_RSR_VERSION", c) :: post → post = []) ∧
      ∀ m ∈ (exampleEnv.untar chunks.flatten).1, m.1 ≠ "pyspectral_rsr_data.tgz" := by
  intro chunks _
  refine ⟨?_, by simp [exampleEnv]⟩
  intro pre c post h
  match pre, h with
  | [], h => simp [exampleEnv] at h
  | [_], h => simp [exampleEnv] at h
  | [_, _], h => simp [exampleEnv] at h; exact h.2.2.2
  | _ :: _ :: _ :: _, h => simp [exampleEnv] at h

/-- one interrupted attempt, then a complete one: same outcome and same files as without the
interruption -/
theorem rerun_step (env : Env) (dest : Option String) (w x : World)
    (hx : x ∈ Eff.crashStates (downloadRsr env dest false) w) :
    Eff.result (downloadRsr env dest false) x = Eff.result (downloadRsr env dest false) w ∧
    (Eff.final (downloadRsr env dest false) x).files = (Eff.final (downloadRsr env dest false) w).files := by
  obtain ⟨hdirs, hfiles⟩ := downloadRsr_crash env dest w x hx
  set D := dest.getD env.cfg.rsr_dir with hD
  by_cases hg : (∃ chunks, Usable (env.server HTTP_PYSPECTRAL_RSR) chunks) ∧ (configured env w).dirs D = true
  · obtain ⟨⟨chunks, st, hs, hst⟩, hd⟩ := hg
    obtain ⟨t, ht, -⟩ := download_run env HTTP_PYSPECTRAL_RSR RSR_TARBALL D (configured env w) st chunks hs hst hd
    obtain ⟨t', ht', -⟩ := download_run env HTTP_PYSPECTRAL_RSR RSR_TARBALL D (configured env x) st chunks hs hst
      (by rw [hdirs]; exact hd)
    have hout : ∀ p, p ≠ (D, RSR_TARBALL) → (∀ m ∈ (env.untar chunks.flatten).1, p ≠ (D, m.1)) →
        x.files p = w.files p := by
      intro p hp hpm
      rcases hfiles with h | ⟨chunks', ⟨st', hs', _⟩, h⟩
      · exact h p hp
      · have : chunks' = chunks := by
          rw [hs] at hs'; simp only [Answer.answered.injEq] at hs'; exact hs'.2.2.symm
        subst this
        rcases h with ⟨pre, m, post, hms, h⟩ | h
        · rw [h p hp (hpm m (by rw [hms]; simp))]
          exact extracted_other _ _ _ (fun m' hm' => hpm m' (by rw [hms]; simp [hm'])) _
        · rw [h p hp]
          exact extracted_other _ _ _ hpm _
    have hext : ∀ p, (extracted D (env.untar chunks.flatten).1
          ((requested HTTP_PYSPECTRAL_RSR (configured env x)).setFile (D, RSR_TARBALL) (some chunks.flatten))).files p =
        (extracted D (env.untar chunks.flatten).1
          ((requested HTTP_PYSPECTRAL_RSR (configured env w)).setFile (D, RSR_TARBALL) (some chunks.flatten))).files p := by
      intro p
      apply extracted_congr
      intro hpm
      rw [setFile_files, setFile_files]
      split
      · rfl
      · rename_i hp
        exact hout p hp hpm
    unfold Eff.result Eff.final
    rw [downloadRsr_wet, downloadRsr_wet, ← hD, ht, ht']
    refine ⟨rfl, ?_⟩
    funext p
    cases (env.untar chunks.flatten).2
    · exact hext p
    · show (if p = (D, RSR_TARBALL) then _ else _) = (if p = (D, RSR_TARBALL) then _ else _)
      rw [hext p]
  · by_cases hb : ∃ chunks e, env.server HTTP_PYSPECTRAL_RSR = .broken chunks e ∧ (configured env w).dirs D = true
    · obtain ⟨chunks, e, hs, hd⟩ := hb
      have hsame : ∀ p, p ≠ (D, RSR_TARBALL) → x.files p = w.files p := by
        rcases hfiles with h | ⟨chunks', ⟨st', hs', _⟩, _⟩
        · exact h
        · rw [hs] at hs'; cases hs'
      obtain ⟨t, ht, -⟩ := download_broken env HTTP_PYSPECTRAL_RSR RSR_TARBALL D (configured env w) chunks e hs hd
      obtain ⟨t', ht', -⟩ := download_broken env HTTP_PYSPECTRAL_RSR RSR_TARBALL D (configured env x) chunks e hs
        (by rw [hdirs]; exact hd)
      unfold Eff.result Eff.final
      rw [downloadRsr_wet, downloadRsr_wet, ← hD, ht, ht']
      refine ⟨rfl, ?_⟩
      funext p
      show ((requested HTTP_PYSPECTRAL_RSR (configured env x)).setFile (D, RSR_TARBALL) _).files p =
        ((requested HTTP_PYSPECTRAL_RSR (configured env w)).setFile (D, RSR_TARBALL) _).files p
      rw [setFile_files, setFile_files]
      split
      · rfl
      · rename_i hp
        exact hsame p hp
    have hf : ∀ v : World, (configured env v).dirs = (configured env w).dirs →
        (∃ e, env.server HTTP_PYSPECTRAL_RSR = .raises e) ∨
        (∃ st ok ch, env.server HTTP_PYSPECTRAL_RSR = .answered st ok ch ∧
          ((400 ≤ st ∧ st < 600) ∨ ok = false)) ∨ (configured env v).dirs D = false := by
      intro v hv
      cases hs : env.server HTTP_PYSPECTRAL_RSR with
      | raises e => exact Or.inl ⟨e, rfl⟩
      | broken ch e => right; right; rw [hv]; by_contra hne; exact hb ⟨ch, e, hs, by simpa using hne⟩
      | answered st ok ch =>
        by_cases h : 400 ≤ st ∧ st < 600
        · exact Or.inr (Or.inl ⟨st, ok, ch, rfl, Or.inl h⟩)
        · cases ok with
          | false => exact Or.inr (Or.inl ⟨st, false, ch, rfl, Or.inr rfl⟩)
          | true =>
            right; right
            rw [hv]
            by_contra hne
            exact hg ⟨⟨ch, st, hs, h⟩, by simpa using hne⟩
    have hsame : x.files = w.files := by
      obtain ⟨e, t, ht, hxt⟩ := download_fail env HTTP_PYSPECTRAL_RSR RSR_TARBALL D (configured env w) (hf w rfl)
      unfold Eff.crashStates at hx
      rw [downloadRsr_wet, ← hD, ht] at hx
      simp only [List.mem_cons] at hx
      rcases hx with rfl | rfl | rfl | hx
      · rfl
      · rfl
      · rfl
      · rw [hxt x hx]; rfl
    have hsame' : (configured env x).dirs = (configured env w).dirs := hdirs
    obtain ⟨e, t, ht, -⟩ := download_fail env HTTP_PYSPECTRAL_RSR RSR_TARBALL D (configured env w) (hf w rfl)
    obtain ⟨e', t', ht', -⟩ := download_fail env HTTP_PYSPECTRAL_RSR RSR_TARBALL D (configured env x) (hf x hdirs)
    have hee : e' = e := by
      have h1 := download_fail_error env HTTP_PYSPECTRAL_RSR RSR_TARBALL D (configured env w) (configured env x)
        (by rw [hdirs])
      rw [ht, ht'] at h1
      simpa using h1.symm
    unfold Eff.result Eff.final
    rw [downloadRsr_wet, downloadRsr_wet, ← hD, ht, ht', hee]
    exact ⟨rfl, hsame⟩

/-- C48: interrupt the download at any point, any number of times, and run it again: the
outcome and all files are those of an uninterrupted run.  (No assumption on the server or the
archive.) -/
theorem C48_rerun_after_interruptions (env : Env) (dest : Option String) (w x : World)
    (hx : Relation.ReflTransGen (fun a b => b ∈ Eff.crashStates (downloadRsr env dest false) a) w x) :
    Eff.result (downloadRsr env dest false) x = Eff.result (downloadRsr env dest false) w ∧
    (Eff.final (downloadRsr env dest false) x).files = (Eff.final (downloadRsr env dest false) w).files := by
  induction hx with
  | refl => exact ⟨rfl, rfl⟩
  | tail _ h ih =>
    obtain ⟨h1, h2⟩ := rerun_step env dest _ _ h
    exact ⟨h1.trans ih.1, h2.trans ih.2⟩

example : (Eff.final (downloadRsr versionFirstEnv none false) versionFirstCrash).files =
    (Eff.final (downloadRsr versionFirstEnv none false) emptyWorld).files :=
  (C48_rerun_after_interruptions _ _ _ _ (.single versionFirstCrash_visited)).2

/-! ### C49 -/

/-- C49: if there is no connection or the server answers with an error status, the download
raises and no file is created, changed or removed, at any point. -/
theorem C49_error_changes_no_file (env : Env) (dest : Option String) (w : World)
    (hs : (∃ e, env.server HTTP_PYSPECTRAL_RSR = .raises e) ∨
      ∃ st ok ch, env.server HTTP_PYSPECTRAL_RSR = .answered st ok ch ∧ 400 ≤ st ∧ st < 600) :
    (Eff.result (downloadRsr env dest false) w).isOk = false ∧
    ∀ x, (x = Eff.final (downloadRsr env dest false) w ∨ x ∈ Eff.crashStates (downloadRsr env dest false) w) →
      x.files = w.files := by
  obtain ⟨e, t, ht, hxt⟩ := download_fail env HTTP_PYSPECTRAL_RSR RSR_TARBALL (dest.getD env.cfg.rsr_dir)
    (configured env w) (by
      rcases hs with h | ⟨st, ok, ch, h, h'⟩
      · exact Or.inl h
      · exact Or.inr (Or.inl ⟨st, ok, ch, h, Or.inl h'⟩))
  unfold Eff.result Eff.final Eff.crashStates
  rw [downloadRsr_wet, ht]
  refine ⟨rfl, ?_⟩
  intro x hx
  simp only [List.mem_cons] at hx
  rcases hx with rfl | rfl | rfl | rfl | hx
  · rfl
  · rfl
  · rfl
  · rfl
  · rw [hxt x hx]; rfl

/-- C49: when the download returns, the temporary archive is gone and the archive was complete. -/
theorem C49_success_removes_archive (env : Env) (dest : Option String) (w : World)
    (h : Eff.result (downloadRsr env dest false) w = .ok ()) :
    (Eff.final (downloadRsr env dest false) w).files (dest.getD env.cfg.rsr_dir, "pyspectral_rsr_data.tgz") = none ∧
    ∃ chunks, Usable (env.server HTTP_PYSPECTRAL_RSR) chunks ∧ (env.untar chunks.flatten).2 = true ∧
      ((∀ m ∈ (env.untar chunks.flatten).1, m.1 ≠ "pyspectral_rsr_data.tgz") →
        Installed (env.untar chunks.flatten).1 (dest.getD env.cfg.rsr_dir)
          (Eff.final (downloadRsr env dest false) w)) := by
  set D := dest.getD env.cfg.rsr_dir with hD
  by_cases hg : (∃ chunks, Usable (env.server HTTP_PYSPECTRAL_RSR) chunks) ∧ (configured env w).dirs D = true
  · obtain ⟨⟨chunks, hu⟩, hd⟩ := hg
    have hok : (env.untar chunks.flatten).2 = true := by
      obtain ⟨st, hs, hst⟩ := hu
      obtain ⟨t, ht, -⟩ := download_run env HTTP_PYSPECTRAL_RSR RSR_TARBALL D (configured env w) st chunks hs hst hd
      unfold Eff.result at h
      rw [downloadRsr_wet, ← hD, ht] at h
      by_contra hne
      simp [hne] at h
    obtain ⟨-, hf⟩ := downloadRsr_success env dest w chunks hu hok hd
    rw [← hD] at hf
    rw [hf]
    refine ⟨by simp [setFile_files, RSR_TARBALL], chunks, hu, hok, ?_⟩
    intro hno before name content after hsplit hafter
    have hmem : (name, content) ∈ (env.untar chunks.flatten).1 := by rw [hsplit]; simp
    rw [setFile_files, if_neg (by simpa [RSR_TARBALL] using hno _ hmem), hsplit]
    exact extracted_last _ _ _ _ _ hafter _
  · obtain ⟨e, w', t, ht, -⟩ := download_unusable env HTTP_PYSPECTRAL_RSR RSR_TARBALL D (configured env w) (not_usable hg)
    unfold Eff.result at h
    rw [downloadRsr_wet, ← hD, ht] at h
    simp at h

/-- C49: if the connection is lost in the body of the answer, the download raises, and at every point at most the
temporary archive has been written: no data file and no version file is created, changed or removed. -/
theorem C49_connection_lost (env : Env) (dest : Option String) (w : World) (chunks : List Content) (e : PyErr)
    (hs : env.server HTTP_PYSPECTRAL_RSR = .broken chunks e) :
    (Eff.result (downloadRsr env dest false) w).isOk = false ∧
    ∀ x, (x = Eff.final (downloadRsr env dest false) w ∨ x ∈ Eff.crashStates (downloadRsr env dest false) w) →
      ∀ p, p ≠ (dest.getD env.cfg.rsr_dir, "pyspectral_rsr_data.tgz") → x.files p = w.files p := by
  obtain ⟨e', w', t, ht, hxt⟩ := download_unusable env HTTP_PYSPECTRAL_RSR RSR_TARBALL (dest.getD env.cfg.rsr_dir)
    (configured env w) (by rintro ⟨⟨_, _, h, _⟩, _⟩; rw [hs] at h; cases h)
  unfold Eff.result Eff.final Eff.crashStates
  rw [downloadRsr_wet, ht]
  refine ⟨rfl, ?_⟩
  have key : ∀ x, x = w' ∨ x ∈ t → ∀ p, p ≠ (dest.getD env.cfg.rsr_dir, "pyspectral_rsr_data.tgz") → x.files p = w.files p := by
    intro x hx p hp
    rcases hxt x hx with rfl | ⟨c, rfl⟩
    · rfl
    · rw [setFile_files, if_neg (by simpa [RSR_TARBALL] using hp)]; rfl
  intro x hx p hp
  simp only [List.mem_cons] at hx
  rcases hx with rfl | rfl | rfl | rfl | hx
  · exact key _ (Or.inl rfl) p hp
  · rfl
  · rfl
  · rfl
  · exact key x (Or.inr hx) p hp

/-- C49: what has arrived stays as the temporary archive (if the directory is there), and the next download that
succeeds overwrites and removes it (`C49_success_removes_archive`). -/
theorem C49_connection_lost_leftover (env : Env) (w : World) (chunks : List Content) (e : PyErr)
    (hs : env.server HTTP_PYSPECTRAL_RSR = .broken chunks e) :
    Eff.result (downloadRsr env none false) w = .error e ∧
    (Eff.final (downloadRsr env none false) w).files (env.cfg.rsr_dir, "pyspectral_rsr_data.tgz") = some chunks.flatten := by
  obtain ⟨t, ht, -⟩ := download_broken env HTTP_PYSPECTRAL_RSR RSR_TARBALL env.cfg.rsr_dir (configured env w) chunks e hs
    (by simp [configured, withDir])
  unfold Eff.result Eff.final
  rw [downloadRsr_wet]
  simp only [Option.getD_none]
  rw [ht]
  exact ⟨rfl, by simp [setFile_files, RSR_TARBALL]⟩

/-- the connection is lost after two bytes: they stay, the old data file stays as it was -/
example : (Eff.final (downloadRsr { exampleEnv with server := fun _ => .broken ["TA".toList] .ioError } none false)
      { emptyWorld with files := fun p => if p = ("/rsr", "a.h5") then some "old".toList else none }).files ("/rsr", "a.h5") =
    some "old".toList :=
  ((C49_connection_lost _ none _ ["TA".toList] .ioError rfl).2 _ (Or.inl rfl) ("/rsr", "a.h5") (by simp)).trans rfl

example : (Eff.result (downloadRsr { exampleEnv with server := fun _ => .answered 404 true [] } none false)
    emptyWorld).isOk = false :=
  (C49_error_changes_no_file _ none emptyWorld (Or.inr ⟨404, true, [], rfl, by decide, by decide⟩)).1

example : Eff.result (downloadRsr exampleEnv none false) emptyWorld = .ok () :=
  (downloadRsr_success exampleEnv none emptyWorld ["TAR".toList] exampleEnv_usable rfl (by decide)).1

end Verif.Props
