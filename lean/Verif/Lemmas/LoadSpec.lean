import Verif.Props.ReadFile
/-
A file whose items are known loads, with the data of these items.
-/
namespace Verif.Lemmas
open Model Spec Props PyNum
variable {α : Type} [PyNum α]

theorem load_of_items (f : H5File α) (names : List String) (hnd : names.Nodup) (hb : ListsBands f names)
    (desc : String) (v : AttrVal α) (hv : f.attrs.get? "description" = some v) (hvt : AttrText v desc)
    (platform shown : String) (hp : f.attrs.get? "platform_name" = some (.text (.str platform) shown))
    (hs : f.attrs.get? "sensor" = none) (n : String → Nat) (w r : String → Nat → List α) (c : String → Nat → α)
    (hc : ∀ b ∈ names, DetectorCount f b (n b))
    (hi : ∀ b ∈ names, ∀ i < n b, HasResponse f b (detName i) (r b i) ∧ HasWavelength f b (detName i) (w b i) ∧
      HasCentral f b (detName i) (c b i)) :
    ∃ info, loadRsrInfo f = .ok info ∧ info.band_names = names ∧ info.description = desc ∧ info.rsr.keys = names ∧
      ∀ b ∈ names, ∃ B, info.rsr.get? b = some B ∧ B.keys = (List.range (n b)).map detName ∧
        ∀ i < n b, B.get? (detName i) = some (detEntry (r b i) (w b i) (c b i)) := by
  have hband : ∀ b ∈ names, ∃ B, readBand f b = .ok B ∧ B.keys = (List.range (n b)).map detName ∧
      ∀ i < n b, B.get? (detName i) = some (detEntry (r b i) (w b i) (c b i)) := by
    intro b hbn
    have hn : detectorNames f b = .ok ((List.range (n b)).map detName) :=
      ((detectorNames_spec f b).1 _).2 ⟨n b, hc b hbn, rfl⟩
    have hdet : ∀ i < n b, readDetector f b (detName i) = .ok (detEntry (r b i) (w b i) (c b i)) := by
      intro i hin
      rw [readDetector_iff]
      obtain ⟨h1, h2, h3⟩ := hi b hbn i hin
      exact ⟨_, _, _, h1, h2, h3, rfl⟩
    obtain ⟨B, hB⟩ := storeAll_succeeds (readDetector f b) ((List.range (n b)).map detName) (fun d hd => by
      obtain ⟨i, hin, rfl⟩ := List.mem_map.1 hd
      exact ⟨_, hdet i (by simpa using hin)⟩) []
    obtain ⟨k1, _, _, _, k5⟩ := storeAll_ok _ _ _ _ hB
    refine ⟨B, ?_, ?_, ?_⟩
    · rw [readBand_eq, hn]; exact hB
    · rw [k5 (names_nodup _) (by simp [Dict.keys])]; rfl
    · intro i hin
      obtain ⟨d, hd, hget⟩ := k1 (detName i) (List.mem_map.2 ⟨i, by simpa using hin, rfl⟩)
      rw [hdet i hin] at hd
      cases hd
      exact hget
  obtain ⟨rsr, hrsr⟩ := storeAll_succeeds (readBand f) names (fun b hb => by
    obtain ⟨B, hB, _⟩ := hband b hb
    exact ⟨_, hB⟩) []
  obtain ⟨k1, _, _, _, k5⟩ := storeAll_ok _ _ _ _ hrsr
  have hplat : ∃ p, getPlatformName f = .ok p := by
    unfold getPlatformName
    rw [getItem_ok_iff.2 hp]
    exact ⟨_, rfl⟩
  obtain ⟨p, hpn⟩ := hplat
  have hinst : ∃ i, getInstrument f p = .ok i := by
    unfold getInstrument
    rw [getItem_err_iff.2 ⟨rfl, hs⟩]
    exact ⟨_, rfl⟩
  obtain ⟨i, hi⟩ := hinst
  refine ⟨⟨p, i, names, desc, rsr⟩, ?_, rfl, rfl, ?_, ?_⟩
  · rw [load_eq, listsBands_iter f names hb]
    simp only [bind, Except.bind]
    rw [getItem_ok_iff.2 hv]
    simp only
    rw [(attrStr_iff _ _).2 hvt]
    simp only
    rw [hpn]
    simp only
    rw [hi]
    simp only
    rw [readResponses_eq, hrsr]
    rfl
  · show rsr.keys = names
    rw [k5 hnd (by simp [Dict.keys])]; rfl
  · intro b hbn
    obtain ⟨B, hB, g1, g2⟩ := hband b hbn
    obtain ⟨B', hB', hget⟩ := k1 b hbn
    rw [hB] at hB'; cases hB'
    exact ⟨B, hget, g1, g2⟩

/-- the same for a file that names its instrument (attribute `sensor`) -/
theorem load_of_items_sensor (f : H5File α) (names : List String) (hnd : names.Nodup) (hb : ListsBands f names)
    (desc : String) (v : AttrVal α) (hv : f.attrs.get? "description" = some v) (hvt : AttrText v desc)
    (platform shown : String) (hp : f.attrs.get? "platform_name" = some (.text (.str platform) shown))
    (sensor sshown : String)
    (hs : f.attrs.get? "sensor" = some (.text (.str sensor) sshown)) (n : String → Nat) (w r : String → Nat → List α) (c : String → Nat → α)
    (hc : ∀ b ∈ names, DetectorCount f b (n b))
    (hi : ∀ b ∈ names, ∀ i < n b, HasResponse f b (detName i) (r b i) ∧ HasWavelength f b (detName i) (w b i) ∧
      HasCentral f b (detName i) (c b i)) :
    ∃ info, loadRsrInfo f = .ok info ∧ info.band_names = names ∧ info.description = desc ∧ info.instrument = .str sensor ∧ info.rsr.keys = names ∧
      ∀ b ∈ names, ∃ B, info.rsr.get? b = some B ∧ B.keys = (List.range (n b)).map detName ∧
        ∀ i < n b, B.get? (detName i) = some (detEntry (r b i) (w b i) (c b i)) := by
  have hband : ∀ b ∈ names, ∃ B, readBand f b = .ok B ∧ B.keys = (List.range (n b)).map detName ∧
      ∀ i < n b, B.get? (detName i) = some (detEntry (r b i) (w b i) (c b i)) := by
    intro b hbn
    have hn : detectorNames f b = .ok ((List.range (n b)).map detName) :=
      ((detectorNames_spec f b).1 _).2 ⟨n b, hc b hbn, rfl⟩
    have hdet : ∀ i < n b, readDetector f b (detName i) = .ok (detEntry (r b i) (w b i) (c b i)) := by
      intro i hin
      rw [readDetector_iff]
      obtain ⟨h1, h2, h3⟩ := hi b hbn i hin
      exact ⟨_, _, _, h1, h2, h3, rfl⟩
    obtain ⟨B, hB⟩ := storeAll_succeeds (readDetector f b) ((List.range (n b)).map detName) (fun d hd => by
      obtain ⟨i, hin, rfl⟩ := List.mem_map.1 hd
      exact ⟨_, hdet i (by simpa using hin)⟩) []
    obtain ⟨k1, _, _, _, k5⟩ := storeAll_ok _ _ _ _ hB
    refine ⟨B, ?_, ?_, ?_⟩
    · rw [readBand_eq, hn]; exact hB
    · rw [k5 (names_nodup _) (by simp [Dict.keys])]; rfl
    · intro i hin
      obtain ⟨d, hd, hget⟩ := k1 (detName i) (List.mem_map.2 ⟨i, by simpa using hin, rfl⟩)
      rw [hdet i hin] at hd
      cases hd
      exact hget
  obtain ⟨rsr, hrsr⟩ := storeAll_succeeds (readBand f) names (fun b hb => by
    obtain ⟨B, hB, _⟩ := hband b hb
    exact ⟨_, hB⟩) []
  obtain ⟨k1, _, _, _, k5⟩ := storeAll_ok _ _ _ _ hrsr
  have hplat : ∃ p, getPlatformName f = .ok p := by
    unfold getPlatformName
    rw [getItem_ok_iff.2 hp]
    exact ⟨_, rfl⟩
  obtain ⟨p, hpn⟩ := hplat
  have hi : getInstrument f p = .ok (.str sensor) := by
    unfold getInstrument
    rw [getItem_ok_iff.2 hs]
    rfl
  refine ⟨⟨p, .str sensor, names, desc, rsr⟩, ?_, rfl, rfl, rfl, ?_, ?_⟩
  · rw [load_eq, listsBands_iter f names hb]
    simp only [bind, Except.bind]
    rw [getItem_ok_iff.2 hv]
    simp only
    rw [(attrStr_iff _ _).2 hvt]
    simp only
    rw [hpn]
    simp only
    rw [hi]
    simp only
    rw [readResponses_eq, hrsr]
    rfl
  · show rsr.keys = names
    rw [k5 hnd (by simp [Dict.keys])]; rfl
  · intro b hbn
    obtain ⟨B, hB, g1, g2⟩ := hband b hbn
    obtain ⟨B', hB', hget⟩ := k1 b hbn
    rw [hB] at hB'; cases hB'
    exact ⟨B, hget, g1, g2⟩

end Verif.Lemmas
