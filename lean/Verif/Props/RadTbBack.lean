import Verif.Props.RadTb
/-
Property C94: exactly when a band radiance can be converted back.
-/
namespace Verif.Props
open Verif Verif.XF Verif.Model Verif.Lemmas PyNum

variable {α : Type} [PyNum α]

/-- the radiance of a result of `tb2radiance`, as the argument of `radiance2tb` -/
def Back (r : Rad α) : Val α :=
  match r with
  | .arr xs => .nd xs
  | .pyFloat x => .pyFloat x

/-- the central wavelength (micrometres) of the band and detector of a converter -/
def HasCentralWave (c : RadTb α) (cw : α) : Prop :=
  ∃ b det, converterLookup c.wavespace c.rsrInstrument c.rsr c.bandname = .ok b ∧ Dict.getItem b c.detector = .ok det ∧
    getNum det "central_wavelength" = .ok cw

theorem radiance2tb_of {c : RadTb α} {cw : α} (h : HasCentralWave c cw) (order : List Nat) (v : Val α) :
    c.radiance2tb order v = radiance2tbFun order v (cw * 1e-6) := by
  obtain ⟨b, det, h1, h2, h3⟩ := h
  simp only [RadTb.radiance2tb, h1, h2, h3, bind, Except.bind]

theorem lutRadiance_kind {nc : Int} {s : α} {lut : Lut α} {tb : List α} {r : Rad α} (h : lutRadiance nc s lut tb = .ok r) :
    (tb.length = 1 ∧ ∃ x, r = .pyFloat x) ∨ (tb.length ≠ 1 ∧ ∃ xs, r = .arr xs ∧ xs.length = tb.length) := by
  unfold lutRadiance at h
  simp only [bind, Except.bind] at h
  split at h
  · cases h
  split at h
  · cases h
  split at h
  · cases h
  split at h
  · cases h
  rename_i ys hys
  have hl := mapM_length _ _ _ hys
  simp only [List.length_map] at hl
  split at h
  · simp only [pure, Except.pure, Except.ok.injEq] at h
    exact Or.inl ⟨by simpa using hl.symm, _, h.symm⟩
  · rename_i hne
    simp only [pure, Except.pure, Except.ok.injEq] at h
    refine Or.inr ⟨fun h1 => ?_, _, h.symm, hl⟩
    rw [h1] at hl
    obtain ⟨x, rfl⟩ := List.length_eq_one_iff.1 hl
    exact hne x rfl

/-- C94, exactly: the radiances of any call of `tb2radiance` that succeeds are converted back to temperatures, at the central
wavelength of the band, one by one, unless a table was used for a single temperature; then `radiance2tb` always raises
AttributeError. -/
theorem C94_exactly (c : RadTb α) (cw : α) (hw : HasCentralWave c cw) (nc : Int) (order : List Nat) (tb : List α)
    (lut : Option (Lut α)) (normalized : Bool) (r : RadResult α) (h : c.tb2radiance nc tb lut normalized = .ok r) :
    (lut.isSome ∧ tb.length = 1 → c.radiance2tb order (Back r.radiance) = .error .attributeError) ∧
    (¬ (lut.isSome ∧ tb.length = 1) → ∃ xs, r.radiance = .arr xs ∧
      c.radiance2tb order (Back r.radiance) = .ok (.nd (xs.map (rad2tempPoint (cw * 1e-6))))) := by
  cases lut with
  | none =>
    refine ⟨fun h1 => by simp at h1, fun _ => ?_⟩
    unfold RadTb.tb2radiance at h
    simp only [bind, Except.bind] at h
    split at h
    · cases h
    split at h
    · cases h
    split at h
    · cases h
    simp only [pure, Except.pure, Except.ok.injEq] at h
    subst h
    exact ⟨_, rfl, radiance2tb_of hw order _⟩
  | some lut =>
    unfold RadTb.tb2radiance at h
    simp only [bind, Except.bind] at h
    split at h
    · cases h
    rename_i v hv
    simp only [pure, Except.pure, Except.ok.injEq] at h
    subst h
    rcases lutRadiance_kind hv with ⟨h1, x, rfl⟩ | ⟨h1, xs, rfl, _⟩
    · exact ⟨fun _ => radiance2tb_of hw order _, fun hn => absurd ⟨rfl, h1⟩ hn⟩
    · exact ⟨fun hn => absurd hn.2 h1, fun _ => ⟨xs, rfl, radiance2tb_of hw order _⟩⟩

/-- a converter with a central wavelength, and a table of two temperatures: two temperatures come back, one does not -/
example : ∃ c : RadTb XF, HasCentralWave c (fin 11) ∧
    (∃ r, c.tb2radiance 0 [fin 150, fin 150.1] (some ⟨[fin 150, fin 150.1], [fin 3, fin 4]⟩) = .ok r ∧
      ∃ xs, c.radiance2tb [] (Back r.radiance) = .ok (.nd xs)) ∧
    (∃ r, c.tb2radiance 0 [fin 150] (some ⟨[fin 150, fin 150.1], [fin 3, fin 4]⟩) = .ok r ∧
      c.radiance2tb [] (Back r.radiance) = .error .attributeError) := by
  have hw : HasCentralWave { exConv with tb_scale := fin 10, rsr := [("ch4", [("det-1", [("central_wavelength", .num (fin 11))])])] } (fin 11) :=
    ⟨_, _, rfl, rfl, rfl⟩
  have ht : ∀ tb : List XF, ∃ r, RadTb.tb2radiance
      { exConv with tb_scale := fin 10, rsr := [("ch4", [("det-1", [("central_wavelength", .num (fin 11))])])] } 0 tb (some ⟨[fin 150, fin 150.1], [fin 3, fin 4]⟩) = .ok r := by
    intro tb
    have h : truncR ((150 : ℝ) * 10) = 1500 := by
      unfold truncR
      rw [if_pos (by norm_num), show (150 : ℝ) * 10 = ((1500 : ℤ) : ℝ) by norm_num, Int.floor_intCast]
    obtain ⟨ys, -, -, h3⟩ := C12_lut_total 0 10 150 [fin 150.1] [fin 3, fin 4] (by simp) (by rw [h]; omega) tb
    unfold RadTb.tb2radiance
    rcases h3 with h3 | ⟨y, -, h3⟩ <;> simp only [h3, bind, Except.bind] <;> exact ⟨_, rfl⟩
  refine ⟨_, hw, ?_, ?_⟩
  · obtain ⟨r, hr⟩ := ht [fin 150, fin 150.1]
    obtain ⟨xs, _, h⟩ := (C94_exactly _ _ hw 0 [] _ _ _ r hr).2 (by simp)
    exact ⟨r, hr, _, h⟩
  · obtain ⟨r, hr⟩ := ht [fin 150]
    exact ⟨r, hr, (C94_exactly _ _ hw 0 [] _ _ _ r hr).1 (by simp)⟩

end Verif.Props
