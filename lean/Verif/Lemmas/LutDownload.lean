import Verif.Lemmas.Download
import Verif.Lemmas.Versions
/-
Lemmas about downloading the Rayleigh tables.
-/
namespace Verif.Lemmas
open Model Spec

/-- one request, and only files of the target directory change, at every point -/
theorem download_frame (env : Env) (url name dir : String) (w x : World)
    (hx : x = (downloadTarballAndExtract env url (dir, name) dir w).2.1 ∨
      x ∈ (downloadTarballAndExtract env url (dir, name) dir w).2.2) :
    x.requests = w.requests ++ [url] ∧ (∀ p, p.1 ≠ dir → x.files p = w.files p) ∧ x.dirs = w.dirs := by
  have hext : ∀ (pre : List (String × Content)) (v : World) (p : Path), p.1 ≠ dir →
      (extracted dir pre v).files p = v.files p := fun pre v p hp =>
    extracted_other _ _ _ (fun m _ he => hp (by rw [he])) _
  have hset : ∀ (n : String) (c : Option Content) (v : World) (p : Path), p.1 ≠ dir →
      (v.setFile (dir, n) c).files p = v.files p := fun n c v p hp => by
    rw [setFile_files, if_neg (fun he => hp (by rw [he]))]
  by_cases hg : (∃ st chunks, env.server url = .answered st true chunks ∧ ¬ (400 ≤ st ∧ st < 600)) ∧ w.dirs dir = true
  · obtain ⟨⟨st, chunks, hs, hst⟩, hd⟩ := hg
    obtain ⟨t, ht, hxt⟩ := download_run env url name dir w st chunks hs hst hd
    rw [ht] at hx
    have hcases : x = requested url w ∨ (∃ c, x = (requested url w).setFile (dir, name) (some c)) ∨
        (∃ pre, x = extracted dir pre ((requested url w).setFile (dir, name) (some chunks.flatten))) ∨
        (∃ pre n c, x = (extracted dir pre ((requested url w).setFile (dir, name) (some chunks.flatten))).setFile
          (dir, n) c) := by
      rcases hx with hx | hx
      · simp only at hx
        split at hx
        · exact Or.inr (Or.inr (Or.inr ⟨_, _, _, hx⟩))
        · exact Or.inr (Or.inr (Or.inl ⟨_, hx⟩))
      · rcases hxt x hx with h | ⟨c, h⟩ | ⟨pre, m, post, _, h | ⟨c', h⟩⟩ | ⟨_, h⟩
        · exact Or.inl h
        · exact Or.inr (Or.inl ⟨c, h⟩)
        · exact Or.inr (Or.inr (Or.inl ⟨pre, h⟩))
        · exact Or.inr (Or.inr (Or.inr ⟨pre, m.1, some c', h⟩))
        · exact Or.inr (Or.inr (Or.inr ⟨_, _, _, h⟩))
    rcases hcases with rfl | ⟨c, rfl⟩ | ⟨pre, rfl⟩ | ⟨pre, n, c, rfl⟩
    · exact ⟨rfl, fun p _ => rfl, rfl⟩
    · exact ⟨rfl, fun p hp => hset _ _ _ p hp, rfl⟩
    · refine ⟨by simp [requested], fun p hp => ?_, by simp [requested]⟩
      rw [hext _ _ p hp, hset _ _ _ p hp]; rfl
    · refine ⟨by simp [requested], fun p hp => ?_, by simp [requested]⟩
      rw [hset _ _ _ p hp, hext _ _ p hp, hset _ _ _ p hp]; rfl
  · obtain ⟨e, w', t, ht, hxt⟩ := download_unusable env url name dir w hg
    rw [ht] at hx
    rcases hxt x hx with rfl | ⟨c, rfl⟩
    · exact ⟨rfl, fun p _ => rfl, rfl⟩
    · exact ⟨rfl, fun p hp => hset _ _ _ p hp, rfl⟩

theorem eff_lift_value {α : Type} (a : α) (w : World) : Eff.lift (.ok a) w = (.ok a, w, []) := rfl

/-- one aerosol type -/
theorem downloadLut_eq (env : Env) (t url : String) (hurl : HTTPS_RAYLEIGH_LUTS.getItem t = .ok url) (w : World) :
    downloadLut env false t w =
      ((downloadTarballAndExtract env url (rayleighLutDir env t, LUT_TARBALL) (rayleighLutDir env t)
          (withDir (rayleighLutDir env t) (configured env w))).1,
       (downloadTarballAndExtract env url (rayleighLutDir env t, LUT_TARBALL) (rayleighLutDir env t)
          (withDir (rayleighLutDir env t) (configured env w))).2.1,
       withDir env.cfg.rsr_dir w :: configured env w :: withDir (rayleighLutDir env t) (configured env w) ::
       (downloadTarballAndExtract env url (rayleighLutDir env t, LUT_TARBALL) (rayleighLutDir env t)
          (withDir (rayleighLutDir env t) (configured env w))).2.2) := by
  unfold downloadLut
  rw [hurl, eff_bind_ok (eff_lift_value url w), eff_bind_ok (getConfig_run env w)]
  simp only [Bool.false_eq_true, if_false]
  rw [eff_bind_ok (makedirs_run _ _)]
  rfl

theorem downloadLut_dry (env : Env) (t url : String) (hurl : HTTPS_RAYLEIGH_LUTS.getItem t = .ok url) (w : World) :
    downloadLut env true t w = (.ok (), configured env w, [withDir env.cfg.rsr_dir w, configured env w]) := by
  unfold downloadLut
  rw [hurl, eff_bind_ok (eff_lift_value url w), eff_bind_ok (getConfig_run env w)]
  rfl

theorem rayleighLutDir_inj (env : Env) {a b : String} (h : rayleighLutDir env a = rayleighLutDir env b) : a = b := by
  unfold rayleighLutDir at h
  have h' := congrArg String.toList h
  simp only [String.toList_append] at h'
  exact String.toList_inj.1 (List.append_cancel_left h')

end Verif.Lemmas
