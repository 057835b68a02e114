import Verif.Props.FloatWave
import Verif.Props.Curves
/-
C194: wavelength ranges of bands in floating point.
-/
namespace Verif.Props
open XF Model PyNum Lemmas Spec

theorem waveRange_step {α : Type} [PyNum α] (det : DetRsr α) (w r : List α) (hw : det.get? "wavelength" = some (.arr w))
    (hr : det.get? "response" = some (.arr r)) (c t : α) (hc : getCentralWave w r = .ok c) :
    getWaveRange det t =
      match (NP.whereIdx (fun x => PyNum.gt x t) r).head?, (NP.whereIdx (fun x => PyNum.gt x t) r).getLast? with
      | some first, some last => (NP.getIdx w first).bind fun a => (NP.getIdx w last).bind fun b => .ok [a, c, b]
      | _, _ => .error .indexError := by
  unfold getWaveRange
  simp only [getArr, Dict.getItem, hw, hr, bind, Except.bind, pure, Except.pure, hc]
  rfl

/-- C194: in floating point the wavelength range of a band runs from the first to the last sample above the threshold,
returned as they are stored; the central wavelength between them is that of exact arithmetic up to the fraction
`(12 + 4 n)/2^50`. -/
theorem C194_wave_range (F : FP) (det : DetRsr (RF F)) (w r : List ℝ) (h : FpSamples w r)
    (hw : det.get? "wavelength" = some (.arr (w.map RF.of))) (hr : det.get? "response" = some (.arr (r.map RF.of)))
    (t : ℝ) (i j : Nat) (hi : FirstAt (fun v => t < v) r i) (hj : LastAt (fun v => t < v) r j) :
    ∃ v : ℝ, getWaveRange det (RF.of t) = .ok [RF.of (w.getD i 0), RF.of v, RF.of (w.getD j 0)] ∧
      |v - trap w (List.zipWith (· * ·) w r) / trap w r| ≤
        trap w (List.zipWith (· * ·) w r) / trap w r * (12 + 4 * w.length) / 2 ^ 50 := by
  obtain ⟨v, h1, h2, -⟩ := C163_central_wave_accuracy F w r h
  refine ⟨v, ?_, h2⟩
  have hx := C29_wave_range [("wavelength", .arr (finL w)), ("response", .arr (finL r))] w r h.len (by simp [Dict.get?])
    (by simp [Dict.get?]) t i j hi hj (ne_of_gt h.integral)
  have hc : getCentralWave (finL w) (finL r) = .ok (fin (trap w (List.zipWith (· * ·) w r) / trap w r)) := by
    rw [getCentralWave_default h.len, fin_div _ (ne_of_gt h.integral)]
  rw [waveRange_step (α := XF) _ (finL w) (finL r) (by simp [Dict.get?]) (by simp [Dict.get?]) _ (fin t) hc] at hx
  refine (waveRange_step (α := RF F) det _ _ hw hr (RF.of v) (RF.of t) h1).trans ?_
  show (match (NP.whereIdx (fun x => PyNum.gt x (fin t)) (finL r)).head?,
      (NP.whereIdx (fun x => PyNum.gt x (fin t)) (finL r)).getLast? with
    | some first, some last =>
      (NP.getIdx (finL w) first).bind fun a => (NP.getIdx (finL w) last).bind fun b => .ok [a, fin v, b]
    | _, _ => .error .indexError) = .ok [fin (w.getD i 0), fin v, fin (w.getD j 0)]
  split
  · rename_i f l e1 e2
    rw [e1, e2] at hx
    cases ha : NP.getIdx (finL w) f with
    | error e => simp [ha, Except.bind] at hx
    | ok a =>
      cases hb : NP.getIdx (finL w) l with
      | error e => simp [ha, hb, Except.bind] at hx
      | ok b =>
        simp [ha, hb, Except.bind] at hx
        simp [Except.bind, hx.1, hx.2]
  · rename_i e
    exfalso
    split at hx
    · rename_i f l e1 e2
      exact e f l e1 e2
    · cases hx

/-- C194: in floating point too, IndexError exactly when no sample exceeds the threshold. -/
theorem C194_fails_iff (F : FP) (det : DetRsr (RF F)) (w r : List ℝ) (h : FpSamples w r)
    (hw : det.get? "wavelength" = some (.arr (w.map RF.of))) (hr : det.get? "response" = some (.arr (r.map RF.of)))
    (t : ℝ) : getWaveRange det (RF.of t) = .error .indexError ↔ ∀ v ∈ r, v ≤ t := by
  obtain ⟨v, h1, h2, -⟩ := C163_central_wave_accuracy F w r h
  have hx := C29_fails_iff [("wavelength", .arr (finL w)), ("response", .arr (finL r))] w r h.len (by simp [Dict.get?])
    (by simp [Dict.get?]) t
  have hc : getCentralWave (finL w) (finL r) = .ok (fin (trap w (List.zipWith (· * ·) w r) / trap w r)) := by
    rw [getCentralWave_default h.len, fin_div _ (ne_of_gt h.integral)]
  rw [waveRange_step (α := XF) _ (finL w) (finL r) (by simp [Dict.get?]) (by simp [Dict.get?]) _ (fin t) hc] at hx
  rw [← hx]
  refine (Eq.congr_left (waveRange_step (α := RF F) det _ _ hw hr (RF.of v) (RF.of t) h1)).trans ?_
  show (match (NP.whereIdx (fun x => PyNum.gt x (fin t)) (finL r)).head?,
      (NP.whereIdx (fun x => PyNum.gt x (fin t)) (finL r)).getLast? with
    | some first, some last =>
      (NP.getIdx (finL w) first).bind fun a => (NP.getIdx (finL w) last).bind fun b => .ok [a, fin v, b]
    | _, _ => .error .indexError) = .error .indexError ↔ _
  split
  · rename_i f l e1 e2
    cases ha : NP.getIdx (finL w) f with
    | error e => simp [Except.bind]
    | ok a =>
      cases hb : NP.getIdx (finL w) l with
      | error e => simp [Except.bind]
      | ok b => simp [Except.bind]
  · simp

example : ∃ v : ℝ, getWaveRange (α := RF Double.fp) [("wavelength", .arr ([0.5, 0.55, 0.7].map RF.of)),
    ("response", .arr ([0.1, 1, 0].map RF.of))] (RF.of 0.05) = .ok [RF.of 0.5, RF.of v, RF.of 0.55] := by
  obtain ⟨v, h, -⟩ := C194_wave_range Double.fp [("wavelength", .arr ([0.5, 0.55, 0.7].map RF.of)),
    ("response", .arr ([0.1, 1, 0].map RF.of))] _ _ exSamples rfl rfl 0.05 0 1
    ⟨⟨0.1, rfl, by norm_num⟩, fun k v hk hv => Nat.zero_le k⟩
    ⟨⟨1, rfl, by norm_num⟩, fun k v hk hv => by
      match k with
      | 0 => omega
      | 1 => omega
      | 2 => simp at hk; subst hk; norm_num at hv
      | k + 3 => simp at hk⟩
  exact ⟨v, h⟩

end Verif.Props
