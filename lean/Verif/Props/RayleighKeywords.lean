import Verif.Props.LutDownload
/-
Property C182: the keyword arguments of Rayleigh.
-/
namespace Verif.Props
open Model Spec Lemmas

/-- C182: only the keywords `atmosphere` and `aerosol_type` matter; every other keyword is ignored. -/
theorem C182_other_keywords_ignored (env : Env) (platform sensor : String) (kw kw' : Dict String RayleighKw)
    (h1 : kw.get? "atmosphere" = kw'.get? "atmosphere") (h2 : kw.get? "aerosol_type" = kw'.get? "aerosol_type") :
    rayleighNewKw env platform sensor kw = rayleighNewKw env platform sensor kw' := by
  unfold rayleighNewKw
  rw [h1, h2]

/-- C182: keywords given as text select the table; a missing one means us-standard or
marine_clean_aerosol, and a value that is not text is refused. -/
theorem C182_selected (env : Env) (platform sensor : String) (kw : Dict String RayleighKw) (w : World) (o : RayleighObj)
    (h : Eff.result (rayleighNewKw env platform sensor kw) w = .ok o) :
    ∃ atm t : String,
      (kw.get? "atmosphere" = some (.str atm) ∨ kw.get? "atmosphere" = none ∧ atm = "us-standard") ∧
      (kw.get? "aerosol_type" = some (.str t) ∨ kw.get? "aerosol_type" = none ∧ t = "marine_clean_aerosol") ∧
      o.reflectance_lut_filename = (lutDir env t,
        "rayleigh_lut_" ++ String.ofList (atm.toList.map fun c => if c = ' ' then '_' else c) ++ ".h5") := by
  have fails : ∀ {w : World} {o : RayleighObj}, Eff.result (do
      let _ ← getConfig env
      Eff.raise .attributeError : Eff RayleighObj) w ≠ .ok o := by
    intro w o h
    unfold Eff.result at h
    rcases hg : getConfig env w with ⟨r, v, tr⟩
    cases r with
    | error e => rw [eff_bind_error hg] at h; cases h
    | ok c => rw [eff_bind_ok hg] at h; cases h
  unfold rayleighNewKw at h
  rcases ha : kw.get? "atmosphere" with _ | (a | _) <;> rcases ht : kw.get? "aerosol_type" with _ | (t | _) <;>
    simp only [ha, ht, Option.getD_none, Option.getD_some] at h
  · exact ⟨_, _, .inr ⟨rfl, rfl⟩, .inr ⟨rfl, rfl⟩, (C66_table_file env platform sensor _ _ w o h).1⟩
  · exact ⟨_, _, .inr ⟨rfl, rfl⟩, .inl rfl, (C66_table_file env platform sensor _ _ w o h).1⟩
  · exact absurd h fails
  · exact ⟨_, _, .inl rfl, .inr ⟨rfl, rfl⟩, (C66_table_file env platform sensor _ _ w o h).1⟩
  · exact ⟨_, _, .inl rfl, .inl rfl, (C66_table_file env platform sensor _ _ w o h).1⟩
  · exact absurd h fails
  · exact absurd h fails
  · exact absurd h fails
  · exact absurd h fails

/-- C182: the documented call `Rayleigh(platform, sensor, atmosphere=…, rural_aerosol=True)` never uses
the rural aerosol table: it uses the marine one. -/
theorem C182_documented_rural (env : Env) (platform sensor atm : String) (w : World) (o : RayleighObj)
    (h : Eff.result (rayleighNewKw env platform sensor [("atmosphere", .str atm), ("rural_aerosol", .other)]) w = .ok o) :
    o.reflectance_lut_filename.1 = lutDir env "marine_clean_aerosol" ∧
      o.reflectance_lut_filename.1 ≠ lutDir env "rural_aerosol" := by
  obtain ⟨a, t, _, h2, h3⟩ := C182_selected env platform sensor _ w o h
  have ht : t = "marine_clean_aerosol" := by
    rcases h2 with h2 | ⟨_, h2⟩
    · simp [Dict.get?] at h2
    · exact h2
  subst ht
  refine ⟨by rw [h3], ?_⟩
  rw [h3]
  intro e
  exact absurd (rayleighLutDir_inj env (a := "marine_clean_aerosol") (b := "rural_aerosol") e) (by decide)

/-- the documented call does succeed, for instance when downloading is switched off -/
example : ∃ o, Eff.result (rayleighNewKw (otherEnv exampleLutEnv exampleLutEnv.server false) "Suomi-NPP" "viirs"
    [("atmosphere", .str "midlatitude summer"), ("rural_aerosol", .other)]) emptyWorld = .ok o := by
  obtain ⟨v, tr, -, -, -, hrun⟩ := rayleighNew_run (otherEnv exampleLutEnv exampleLutEnv.server false) "Suomi-NPP" "viirs"
    "midlatitude summer" "marine_clean_aerosol" emptyWorld (by decide) (by decide) "viirs" (by decide +kernel)
  rw [if_neg (fun h => absurd h.2 (by decide))] at hrun
  exact ⟨_, congrArg Prod.fst hrun⟩

/-- `rural_aerosol=True` changes nothing -/
example (env : Env) : rayleighNewKw env "Suomi-NPP" "viirs" [("atmosphere", .str "tropical"), ("rural_aerosol", .other)] =
    rayleighNewKw env "Suomi-NPP" "viirs" [("atmosphere", .str "tropical")] :=
  C182_other_keywords_ignored env _ _ _ _ rfl rfl

end Verif.Props
