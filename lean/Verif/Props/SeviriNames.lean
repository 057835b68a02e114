import Verif.Props.Converters
/-
Property C17: exactly which names of SEVIRI channels are convertible.
-/
namespace Verif.Props
open Verif Verif.XF Verif.Model Verif.Lemmas PyNum

/-- the names under which a thermal channel of SEVIRI can be converted -/
def seviriUsable : List String := ["IR_039", "IR_087", "IR_097", "IR_108", "IR_120", "IR_134",
  "IR3.9", "WV6.2", "WV7.3", "IR8.7", "IR9.7", "IR10.8", "IR12.0", "IR13.4"]

/-- the channels with coefficients -/
def seviriChannels : List String := ["IR3.9", "WV6.2", "WV7.3", "IR8.7", "IR9.7", "IR10.8", "IR12.0", "IR13.4"]

theorem seviriCoefs_ok (c : SeviriConv) :
    (seviriCoefs (α := XF) c).isOk = true ↔
      c.bandname ∈ seviriChannels ∧ (c.platform_name = "Meteosat-8" ∨ c.platform_name = "Meteosat-9") := by
  obtain ⟨p, b⟩ := c
  by_cases hb : b ∈ seviriChannels
  · by_cases hp : p ∈ ["Meteosat-8", "Meteosat-9", "Meteosat-10"]
    · simp only [seviriChannels, List.mem_cons, List.not_mem_nil, or_false] at hb hp
      rcases hb with rfl | rfl | rfl | rfl | rfl | rfl | rfl | rfl <;> rcases hp with rfl | rfl | rfl <;>
        first
        | exact ⟨fun _ => ⟨by decide, by decide⟩, fun _ => rfl⟩
        | exact ⟨fun h => (by cases h), fun h => absurd h.2 (by decide)⟩
    · simp only [List.mem_cons, List.not_mem_nil, or_false, not_or] at hp
      have : (seviriCoefs (α := XF) ⟨p, b⟩).isOk = false := by
        simp only [seviriChannels, List.mem_cons, List.not_mem_nil, or_false] at hb
        rcases hb with rfl | rfl | rfl | rfl | rfl | rfl | rfl | rfl <;>
          simp [seviriCoefs, SEVIRI, Dict.getItem, Dict.get?, Ne.symm hp.1, Ne.symm hp.2.1, Ne.symm hp.2.2, bind, Except.bind, Py.isOk]
      rw [this]
      simp [hp.1, hp.2.1]
  · have : (seviriCoefs (α := XF) ⟨p, b⟩).isOk = false := by
      simp only [seviriChannels, List.mem_cons, List.not_mem_nil, or_false, not_or] at hb
      obtain ⟨h1, h2, h3, h4, h5, h6, h7, h8⟩ := hb
      simp [seviriCoefs, SEVIRI, Dict.getItem, Dict.get?, Ne.symm h1, Ne.symm h2, Ne.symm h3, Ne.symm h4, Ne.symm h5, Ne.symm h6, Ne.symm h7, Ne.symm h8, bind, Except.bind, Py.isOk]
    rw [this]
    simp [hb]

theorem seviriName_mem (nick : String) : (bn_seviri.get? nick).getD nick ∈ seviriChannels ↔ nick ∈ seviriUsable := by
  by_cases hk : nick ∈ bn_seviri.keys
  · have h : ∀ n ∈ bn_seviri.keys, (bn_seviri.get? n).getD n ∈ seviriChannels ↔ n ∈ seviriUsable := by decide +kernel
    exact h nick hk
  · rw [get?_eq_none_iff.2 hk]
    show nick ∈ seviriChannels ↔ nick ∈ seviriUsable
    have h1 : ∀ n ∈ seviriChannels, n ∈ seviriUsable := by decide
    have h2 : ∀ n ∈ seviriUsable, n ∈ seviriChannels ∨ n ∈ bn_seviri.keys := by decide +kernel
    exact ⟨h1 nick, fun h => (h2 nick h).resolve_right hk⟩

/-- C17, exactly: under any name and on any platform, a converter is made, and it converts (any temperatures, any radiances) if
and only if the platform is Meteosat-8 or Meteosat-9 and the name is one of fourteen. -/
theorem C17_exactly (p nick ws : String) (hw : ws = "wavelength" ∨ ws = "wavenumber") :
    ∃ c, SeviriConv.new p (.name nick : BandArg XF) ws = .ok c ∧
      (∀ tb : List XF, (c.tb2radiance tb).isOk = true ↔
        (p = "Meteosat-8" ∨ p = "Meteosat-9") ∧ nick ∈ seviriUsable) ∧
      ∀ rad : List XF, (c.radiance2tb rad).isOk = true ↔ (p = "Meteosat-8" ∨ p = "Meteosat-9") ∧ nick ∈ seviriUsable := by
  have key := seviriCoefs_ok ⟨p, (bn_seviri.get? nick).getD nick⟩
  simp only [seviriName_mem] at key
  refine ⟨⟨p, (bn_seviri.get? nick).getD nick⟩, ?_, fun tb => ?_, fun rad => ?_⟩
  · rcases hw with rfl | rfl <;> rfl
  · rw [and_comm, ← key]
    unfold SeviriConv.tb2radiance
    cases seviriCoefs (α := XF) ⟨p, (bn_seviri.get? nick).getD nick⟩ <;> rfl
  · rw [and_comm, ← key]
    unfold SeviriConv.radiance2tb
    cases seviriCoefs (α := XF) ⟨p, (bn_seviri.get? nick).getD nick⟩ <;> rfl

/-- on Meteosat-11 no name works, on Meteosat-9 the published name of the water vapour channel does not -/
example : (∀ nick, ¬ ∃ c, SeviriConv.new "Meteosat-11" (.name nick : BandArg XF) = .ok c ∧ (c.tb2radiance [fin 280]).isOk = true) ∧
    ∃ c, SeviriConv.new "Meteosat-9" (.name "WV_062" : BandArg XF) = .ok c ∧ ¬ (c.tb2radiance [fin 280]).isOk = true := by
  constructor
  · rintro nick ⟨c, hc, h⟩
    obtain ⟨c', hc', h', -⟩ := C17_exactly "Meteosat-11" nick WAVE_LENGTH (Or.inl rfl)
    cases hc.symm.trans hc'
    exact absurd ((h' _).1 h).1 (by decide)
  · obtain ⟨c, hc, h, -⟩ := C17_exactly "Meteosat-9" "WV_062" WAVE_LENGTH (Or.inl rfl)
    exact ⟨c, hc, fun ho => absurd ((h _).1 ho).2 (by decide)⟩

end Verif.Props
