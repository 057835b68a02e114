import Verif.Spec.Solar
import Verif.Lemmas.ReaderOps
import Mathlib.Algebra.Order.Round
/-
Lemmas about the solar spectrum.
-/
namespace Verif.Lemmas
open Model Spec XF PyNum

/-! ### Rounding -/

theorem rintR_close (x : ℝ) : |x - (rintR x : ℝ)| ≤ 1 / 2 := by
  have h1 := Int.floor_le x
  have h2 := Int.lt_floor_add_one x
  unfold rintR
  split
  · rename_i h
    rw [abs_of_nonneg (by linarith)]; exact h.le
  · rename_i h
    push Not at h
    split
    · push_cast
      rw [abs_of_nonpos (by linarith)]; linarith
    · rename_i h'
      push Not at h'
      split
      · rw [abs_of_nonneg (by linarith)]; exact h'
      · push_cast
        rw [abs_of_nonpos (by linarith)]; linarith

theorem rintR_pos {x : ℝ} (h : 1 / 2 < x) : 1 ≤ rintR x := by
  by_contra hc
  push Not at hc
  have h0 : rintR x ≤ 0 := by omega
  have : (rintR x : ℝ) ≤ 0 := by exact_mod_cast h0
  have := (abs_le.1 (rintR_close x)).2
  linarith

theorem rintR_half {x : ℝ} (h0 : 0 ≤ x) (h : x ≤ 1 / 2) : rintR x = 0 := by
  have hf : ⌊x⌋ = 0 := by
    rw [Int.floor_eq_iff]; push_cast; constructor <;> linarith
  unfold rintR
  rw [hf]
  rcases lt_or_eq_of_le h with h1 | h1
  · rw [if_pos (by simpa using h1)]
  · rw [if_neg (by simp [h1]), if_neg (by simp [h1]), if_pos (by decide)]

/-! ### The grid -/

/-- equally spaced points -/
noncomputable def steps (a h : ℝ) (n : Nat) : List ℝ := (List.range (n + 1)).map fun i : Nat => a + i * h

theorem linspace_fin (a b : ℝ) (n : Nat) (hn : 1 ≤ n) :
    NP.linspace (fin a) (fin b) (n + 1) = finL (steps a ((b - a) / n) n) := by
  unfold NP.linspace steps finL
  rw [if_neg (by omega), List.map_map]
  apply List.map_congr_left
  intro i hi
  have hn0 : (n : ℝ) ≠ 0 := by exact_mod_cast (by omega : n ≠ 0)
  simp only [Function.comp]
  by_cases h : i + 1 = n + 1
  · rw [if_pos h]
    have : i = n := by omega
    subst this
    rw [fin_inj]; field_simp; ring
  · rw [if_neg h]
    simp only [ofInt_eq, fin_sub]
    have e : (((n + 1 : ℕ) : ℤ) - 1 : ℤ) = (n : ℤ) := by push_cast; ring
    rw [e]
    push_cast
    rw [fin_div _ hn0, fin_mul, fin_add, fin_inj]
    ring

theorem regularGrid_fin {a b d : ℝ} (hd : 0 < d) (h : 1 / 2 < (b - a) / d) :
    regularGrid (fin a) (fin b) (fin d) =
      .ok (finL (steps a ((b - a) / (rintR ((b - a) / d)).toNat) (rintR ((b - a) / d)).toNat)) := by
  unfold regularGrid
  rw [fin_sub, fin_div _ hd.ne', rint_fin]
  have h1 := rintR_pos h
  simp only
  rw [if_neg (by omega)]
  have : ((rintR ((b - a) / d)) + 1).toNat = (rintR ((b - a) / d)).toNat + 1 := by omega
  rw [this, linspace_fin _ _ _ (by omega)]

theorem steps_regular {a b d : ℝ} (hd : 0 < d) (h : 1 / 2 < (b - a) / d) :
    RegularGrid (steps a ((b - a) / (rintR ((b - a) / d)).toNat) (rintR ((b - a) / d)).toNat) a b d := by
  set q := (b - a) / d with hq
  set n := (rintR q).toNat with hn
  have h1 := rintR_pos h
  have hn1 : 1 ≤ n := by omega
  have hnr : (n : ℝ) = (rintR q : ℝ) := by
    have : ((n : ℤ) : ℝ) = (rintR q : ℝ) := by congr 1; omega
    exact_mod_cast this
  have hn1r : (1 : ℝ) ≤ n := by exact_mod_cast hn1
  have hba : b - a = q * d := by rw [hq]; field_simp
  have hq0 : 0 < q := by linarith
  have hstep : 0 < (b - a) / n := by rw [hba]; positivity
  refine ⟨?_, ?_, ?_, by simp [steps]; omega, (b - a) / n, ?_, ?_⟩
  · simp [steps, List.range_succ_eq_map]
  · simp only [steps, List.range_succ, List.map_append, List.map_cons, List.map_nil,
      List.getLast?_append, List.getLast?_singleton, Option.some_or]
    have : (n : ℝ) ≠ 0 := by positivity
    congr 1; field_simp; ring
  · unfold Increasing steps
    rw [List.pairwise_map]
    refine List.pairwise_lt_range.imp ?_
    intro i j hij
    have : (i : ℝ) < j := by exact_mod_cast hij
    have := mul_lt_mul_of_pos_right this hstep
    linarith
  · have hc := rintR_close q
    rw [← hnr] at hc
    have e : (b - a) / n - d = (q - n) * (d / n) := by
      rw [hba]; field_simp
    rw [e, abs_mul, abs_of_pos (show 0 < d / n by positivity)]
    have : d / n ≤ d := div_le_self hd.le hn1r
    calc |q - n| * (d / n) ≤ 1 / 2 * d := mul_le_mul hc this (by positivity) (by norm_num)
      _ = d / 2 := by ring
  · intro i hi
    simp only [steps, List.getElem_map, List.getElem_range]
    push_cast; ring

theorem steps_bounds {G : List ℝ} {a b d : ℝ} (h : RegularGrid G a b d) : ∀ x ∈ G, a ≤ x ∧ x ≤ b :=
  increasing_ends h.2.2.1 a b h.1 h.2.1

/-! ### Runs -/

variable {α : Type} [PyNum α]

/-- what the methods never change -/
def SameSpectrum (s t : Solar α) : Prop :=
  t.wavelength = s.wavelength ∧ t.wavenumber = s.wavenumber ∧ t.irradiance = s.irradiance ∧
  t.wavespace = s.wavespace ∧ t.irradianceUnit = s.irradianceUnit

theorem interpolate_run (spline : Spline α) (dl : Option α) (ival : Option (α × α)) (s : Solar α) :
    let s1 : Solar α := match dl with
      | some d => { s with dlambda := d }
      | none => s
    Solar.interpolate spline dl ival s =
      match solarResampled spline s1 ival with
      | .ok r => (.ok (), { s1 with ipol_wavelength := r.1, ipol_irradiance := r.2 })
      | .error e => (.error e, s1) := by
  intro s1
  unfold Solar.interpolate
  rw [st_bind_ok (st_modify _ s), st_bind_ok (st_get _)]
  show (PySt.lift (solarResampled spline s1 ival) >>= _) s1 = _
  cases h : solarResampled spline s1 ival with
  | error e => rw [st_bind_error (st_lift_error rfl s1)]
  | ok r => rw [st_bind_ok (st_lift_ok rfl s1)]; rfl

theorem resampled_core (spline : Spline α) (s t : Solar α) (h : SameSpectrum s t) (hd : t.dlambda = s.dlambda)
    (ival : Option (α × α)) : solarResampled spline t ival = solarResampled spline s ival := by
  obtain ⟨h1, h2, h3, h4, _⟩ := h
  have ha : t.axis = s.axis := by unfold Solar.axis; rw [h1, h2, h4]
  unfold solarResampled
  rw [ha, h3, hd]

/-- the result of an in-band call -/
def bandValue (spline : Spline α) (s : Solar α) (rsr : RsrArg α) (flux : Bool) (scale : α) (det : Nat) : Py α := do
  let b ← bandResampled spline s.wavespace s.dlambda rsr scale det
  let r ← solarResampled spline s (some b.1)
  foldBand flux b.1 r.1 r.2 b.2

theorem bandCalculations_run (spline : Spline α) (s : Solar α) (rsr : RsrArg α) (flux : Bool) (scale : α) (det : Nat) :
    ∃ s', Solar.bandCalculations spline rsr flux scale det s = (bandValue spline s rsr flux scale det, s') ∧
      SameSpectrum s s' ∧ s'.dlambda = s.dlambda ∧
      ∀ b r, bandResampled spline s.wavespace s.dlambda rsr scale det = .ok b →
        solarResampled spline s (some b.1) = .ok r → s'.ipol_wavelength = r.1 ∧ s'.ipol_irradiance = r.2 := by
  unfold Solar.bandCalculations bandValue
  rw [st_bind_ok (st_get s)]
  cases hb : bandResampled spline s.wavespace s.dlambda rsr scale det with
  | error e =>
    rw [st_bind_error (st_lift_error rfl s)]
    exact ⟨s, rfl, ⟨rfl, rfl, rfl, rfl, rfl⟩, rfl, by simp⟩
  | ok b =>
    rw [st_bind_ok (st_lift_ok rfl s)]
    have hi := interpolate_run spline (some s.dlambda) (some b.1) s
    have e : ({ s with dlambda := s.dlambda } : Solar α) = s := rfl
    simp only [e] at hi
    cases hr : solarResampled spline s (some b.1) with
    | error er =>
      rw [hr] at hi
      rw [st_bind_error hi]
      simp only [bind, Except.bind, hr]
      exact ⟨s, rfl, ⟨rfl, rfl, rfl, rfl, rfl⟩, rfl, by
        intro b' r' hb' hr'
        cases hb'; rw [hr] at hr'; cases hr'⟩
    | ok r =>
      rw [hr] at hi
      rw [st_bind_ok hi, st_bind_ok (st_get _)]
      simp only [bind, Except.bind, hr]
      refine ⟨{ s with ipol_wavelength := r.1, ipol_irradiance := r.2 }, rfl, ⟨rfl, rfl, rfl, rfl, rfl⟩, rfl, ?_⟩
      intro b' r' hb' hr'
      cases hb'; rw [hr] at hr'; cases hr'; exact ⟨rfl, rfl⟩

theorem bandValue_core (spline : Spline α) (s t : Solar α) (h : SameSpectrum s t) (hd : t.dlambda = s.dlambda)
    (rsr : RsrArg α) (flux : Bool) (scale : α) (det : Nat) :
    bandValue spline t rsr flux scale det = bandValue spline s rsr flux scale det := by
  unfold bandValue
  simp only [resampled_core spline s t h hd, h.2.2.2.1, hd]

theorem pyIndex_head {l : List ℝ} {a : ℝ} (h : l.head? = some a) : NP.pyIndex (finL l) 0 = .ok (fin a) := by
  cases l with
  | nil => simp at h
  | cons x l => simp at h; subst h; rfl

theorem pyIndex_last {l : List ℝ} {b : ℝ} (h : l.getLast? = some b) : NP.pyIndex (finL l) (-1) = .ok (fin b) := by
  have hne : l ≠ [] := by rintro rfl; simp at h
  have hlen : 0 < l.length := List.length_pos_of_ne_nil hne
  unfold NP.pyIndex
  have e : (-1 : Int) < 0 := by decide
  simp only [e, if_true, finL_length]
  rw [if_neg (by omega)]
  have ht : (-1 + (l.length : Int)).toNat = l.length - 1 := by omega
  rw [ht]
  have : (finL l)[l.length - 1]? = some (fin b) := by
    unfold finL
    rw [List.getElem?_map, ← List.getLast?_eq_getElem?, h]; rfl
  rw [this]

end Verif.Lemmas
