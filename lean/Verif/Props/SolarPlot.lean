import Verif.Model.SolarPlot
import Verif.Lemmas.Rayleigh
import Verif.Props.SolarConversion
/-
Property C189: plots of the solar spectrum.
-/
namespace Verif.Props
open XF Model PyNum Lemmas Spec

/-- plotting the samples of one space -/
theorem plot_samples (s : Solar XF) (xs ys : List ℝ) (M : ℝ) (ws : String)
    (hs : s.wavespace = ws) (hx : (if ws = "wavelength" then s.wavelength else s.wavenumber) = some (finL xs))
    (hw : ws = "wavelength" ∨ ws = "wavenumber") (hy : s.irradiance = finL ys) (hl : xs.length = ys.length)
    (hM : M ∈ ys) (hle : ∀ y ∈ ys, y ≤ M) (color : Option String) :
    s.plot color = .ok
      { xs := finL xs, ys := finL ys
        xlabel := if ws = "wavelength" then "Wavelength ($\\mu m$)" else "Wavenumber ($cm^{-1}$)"
        ylabel := if ws = "wavelength" then "Irradiance ($W/(m^2 \\mu m$))" else "Irradiance ($mW/m^2 (cm^{-1})^{-1}$))"
        xlim := if ws = "wavelength" then (0, 4.2) else (0, 35000)
        ylim := (0, fin M), color := color.getD "blue" } := by
  have e0 : PyNum.eq (fin M - fin M : XF) 0 = true := by
    rw [fin_sub, sub_self, ofNat_zero]
    simp [PyNum.eq, eqb]
  have hll : (finL xs).length = (finL ys).length := by simp [hl]
  subst hs
  unfold Solar.plot
  rcases hw with h | h
  · rw [if_pos h] at hx
    simp only [h, if_true, bind, Except.bind, pure, Except.pure, hx, hy, amax_eq hM hle, e0, hll, ne_eq,
      not_true_eq_false, if_false]
  · rw [if_neg (by rw [h]; decide)] at hx
    have hn : ¬ ("wavenumber" = "wavelength") := by decide
    simp only [h, hn, if_true, if_false, bind, Except.bind, pure, Except.pure, hx, hy, amax_eq hM hle, e0, hll, ne_eq,
      not_true_eq_false]

/-- C189: the plot of a spectrum made in wavelength space shows the samples of the file, with the unit of
the file at the axis. -/
theorem C189_by_wavelength (c : Curve) (M : ℝ) (hM : M ∈ c.map Prod.snd) (hle : ∀ p ∈ c, p.2 ≤ M) (dl : Option XF)
    (color : Option String) :
    ∃ s f, solarNew (.ok (finL (c.map Prod.fst), finL (c.map Prod.snd))) none dl = .ok s ∧ s.plot color = .ok f ∧
      f.xs.zip f.ys = c.map (fun p => (fin p.1, fin p.2)) ∧
      f.xlabel = "Wavelength ($\\mu m$)" ∧ f.ylabel = "Irradiance ($W/(m^2 \\mu m$))" ∧
      f.xlim = (fin 0, fin 4.2) ∧ f.ylim = (fin 0, fin M) ∧ f.color = color.getD "blue" := by
  refine ⟨_, _, (solarNew_default _ _ dl).trans (solarNew_plain _ _ _ (by decide) dl),
    plot_samples _ (c.map Prod.fst) (c.map Prod.snd) M "wavelength" rfl rfl (.inl rfl) rfl (by simp) hM ?_ color,
    ?_, rfl, rfl, ?_, ?_, rfl⟩
  · intro y hy
    obtain ⟨p, hp, rfl⟩ := List.mem_map.1 hy
    exact hle p hp
  · simp only [finL, List.map_map, List.zip_map']
    rfl
  · simp only [if_true, ofNat_zero, ofSci_eq]
  · simp only [ofNat_zero]

/-- C189: in wavenumber space it shows the sample of wavelength `w` (micron) and irradiance `E`
(W m⁻² µm⁻¹) at `10⁴/w` (cm⁻¹) with `E w²/10` (mW m⁻² per cm⁻¹), in ascending order of wavenumber. -/
theorem C189_by_wavenumber (c : Curve) (hpos : ∀ p ∈ c, 0 < p.1) (M : ℝ) (hM : M ∈ c.map fun p => p.2 * p.1 ^ 2 / 10)
    (hle : ∀ p ∈ c, p.2 * p.1 ^ 2 / 10 ≤ M) (dl : Option XF) (color : Option String) :
    ∃ s f, solarNew (.ok (finL (c.map Prod.fst), finL (c.map Prod.snd))) (some "wavenumber") dl = .ok s ∧ s.plot color = .ok f ∧
      f.xs.zip f.ys = (c.map fun p => (fin (1e4 / p.1), fin (p.2 * p.1 ^ 2 / 10))).reverse ∧
      f.xlabel = "Wavenumber ($cm^{-1}$)" ∧ f.ylabel = "Irradiance ($mW/m^2 (cm^{-1})^{-1}$))" ∧
      f.xlim = (fin 0, fin 35000) ∧ f.ylim = (fin 0, fin M) ∧ f.color = color.getD "blue" := by
  obtain ⟨s, h1, h2, h3, -, -, h6⟩ := C52_wavenumber_spectrum c hpos dl
  refine ⟨s, _, h1, plot_samples s _ _ M "wavenumber" h6 h2 (.inr rfl) h3 (by simp) (List.mem_reverse.2 hM) ?_ color,
    ?_, rfl, rfl, ?_, ?_, rfl⟩
  · intro y hy
    obtain ⟨p, hp, rfl⟩ := List.mem_map.1 (List.mem_reverse.1 hy)
    exact hle p hp
  · simp only [← List.map_reverse, finL, List.map_map, List.zip_map']
    rfl
  · show (if "wavenumber" = "wavelength" then ((0, 4.2) : XF × XF) else (0, 35000)) = _
    rw [if_neg (by decide)]
    have : (35000 : XF) = fin 35000 := by
      show fin ((35000 : ℤ) : ℝ) = _
      norm_num
    rw [ofNat_zero, this]
  · simp only [ofNat_zero]

/-- C189: what lies inside the limits: wavelengths up to 4.2 micron in one space, from 2/7 micron on in
the other. -/
theorem C189_visible (w : ℝ) (hw : 0 < w) :
    ((0 ≤ w ∧ w ≤ 4.2) ↔ w ≤ 4.2) ∧ ((0 ≤ 1e4 / w ∧ 1e4 / w ≤ 35000) ↔ 2 / 7 ≤ w) := by
  refine ⟨⟨fun h => h.2, fun h => ⟨hw.le, h⟩⟩, ⟨fun h => ?_, fun h => ⟨by positivity, ?_⟩⟩⟩
  · have := (div_le_iff₀ hw).1 h.2
    linarith
  · rw [div_le_iff₀ hw]
    linarith

/-- C189: a spectrum in an unknown wave space raises TypeError; one converted after it was made has no
samples for the space it still claims, and raises ValueError. -/
theorem C189_refused {α : Type} [PyNum α] (w e : List α) (ws : String) (h : ws ≠ "wavelength") (h' : ws ≠ "wavenumber") (dl : Option α)
    (color : Option String) :
    (∃ s, solarNew (.ok (w, e)) (some ws) dl = .ok s ∧ s.plot color = .error .typeError) ∧
    ∀ s s', solarNew (.ok (w, e)) none dl = .ok s → s.convert2wavenumber = .ok s' → s'.plot color = .error .valueError := by
  constructor
  · refine ⟨_, solarNew_plain w e ws h' dl, ?_⟩
    unfold Solar.plot
    simp only [h, h', if_false, bind, Except.bind]
  · intro s s' h1 h2
    rw [solarNew_default, solarNew_plain _ _ _ (by decide)] at h1
    cases h1
    unfold Solar.convert2wavenumber at h2
    simp only [notNone, bind, Except.bind, pure, Except.pure] at h2
    cases ha : NP.bcast2 (· * ·) e.reverse w.reverse with
    | error x => rw [ha] at h2; cases h2
    | ok a =>
      rw [ha] at h2
      dsimp only at h2
      cases hb : NP.bcast2 (· * ·) a w.reverse with
      | error x => rw [hb] at h2; cases h2
      | ok b =>
        rw [hb] at h2
        cases h2
        rfl

example : ∃ s f, solarNew (.ok (finL (exSpectrum.map Prod.fst), finL (exSpectrum.map Prod.snd))) (some "wavenumber") none = .ok s ∧
    s.plot none = .ok f ∧ f.xs.zip f.ys = [(fin (1e4 / 4), fin (1 * 4 ^ 2 / 10)), (fin (1e4 / 3), fin (2 * 3 ^ 2 / 10)),
      (fin (1e4 / 2), fin (3 * 2 ^ 2 / 10)), (fin (1e4 / 1), fin (4 * 1 ^ 2 / 10))] ∧ f.ylim = (fin 0, fin 1.8) := by
  obtain ⟨s, f, h1, h2, h3, -, -, -, h4, -⟩ := C189_by_wavenumber exSpectrum
    (by intro p hp; simp [exSpectrum] at hp; rcases hp with rfl | rfl | rfl | rfl <;> norm_num) 1.8
    (by simp [exSpectrum]; norm_num)
    (by intro p hp; simp [exSpectrum] at hp; rcases hp with rfl | rfl | rfl | rfl <;> norm_num) none none
  exact ⟨s, f, h1, h2, h3, h4⟩

example : ∃ s f, solarNew (.ok (finL (exSpectrum.map Prod.fst), finL (exSpectrum.map Prod.snd))) none none = .ok s ∧
    s.plot none = .ok f ∧ f.ylim = (fin 0, fin 4) := by
  obtain ⟨s, f, h1, h2, -, -, -, -, h4, -⟩ := C189_by_wavelength exSpectrum 4 (by simp [exSpectrum])
    (by intro p hp; simp [exSpectrum] at hp; rcases hp with rfl | rfl | rfl | rfl <;> norm_num) none none
  exact ⟨s, f, h1, h2, h4⟩

end Verif.Props
