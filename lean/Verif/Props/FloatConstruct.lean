import Verif.Props.FloatLut
import Verif.Lemmas.Wavenumber
/-
Property C124: band radiances in floating point, from the stored response curves.
-/
namespace Verif.Props
open XF Model PyNum Lemmas Spec

/-- positions that differ by at least one part in 10^10 -/
def RelGaps (w : List ℝ) : Prop := w.IsChain fun a b => a * (1 + 1e-10) ≤ b

/-- A stored response curve: wavelengths in micron and responses, in ascending order of
wavelength. -/
structure FpCurve (w r : List ℝ) : Prop where
  range : ∀ x ∈ w, 0.02 ≤ x ∧ x ≤ 5000
  gaps : RelGaps w
  resp : ∀ y ∈ r, y = 0 ∨ (1e-10 ≤ y ∧ y ≤ 1e10)
  len : w.length = r.length
  two : 2 ≤ w.length
  size : w.length ≤ 2 ^ 20
  some : ∃ y ∈ r, y ≠ 0

section
variable (F : FP)

omit F in
/-- curves with a nonzero response have a positive integral -/
theorem fpTrap_pos {w r : List ℝ} (hg : Gaps w) (hr : ∀ y ∈ r, 0 ≤ y) (hl : w.length = r.length) (h2 : 2 ≤ w.length)
    (hs : ∃ y ∈ r, 0 < y) : 0 < trap w r := by
  induction w generalizing r with
  | nil => simp at h2
  | cons a w ih =>
    match w, r, hl, h2 with
    | b :: w, y :: z :: r, hl, _ =>
      have hg1 : 1e-20 ≤ b - a := hg.1.1
      have hab : 0 < b - a := lt_of_lt_of_le (by norm_num) hg1
      have hy := hr y (by simp)
      have hz := hr z (by simp)
      have hrest : 0 ≤ trap (b :: w) (z :: r) := by
        have hl' : (b :: w).length = (z :: r).length := by simpa using hl
        have := trap_nonneg Prod.fst Prod.snd ((b :: w).zip (z :: r)) (by rw [zip_map_fst hl']; exact gaps_nonDec hg.2)
          (fun p hp => hr _ (List.mem_cons_of_mem _ (List.of_mem_zip hp).2))
        rwa [zip_map_fst hl', zip_map_snd hl'] at this
      by_cases hyz : 0 < y + z
      · have : 0 < (b - a) * ((y + z) / 2) := mul_pos hab (by linarith)
        show 0 < (b - a) * ((y + z) / 2) + trap (b :: w) (z :: r)
        linarith
      · have hy0 : y = 0 := by linarith
        have hz0 : z = 0 := by linarith
        obtain ⟨u, hu, hu0⟩ := hs
        have hu' : u ∈ r := by
          simp at hu
          rcases hu with h | h | h
          · linarith
          · linarith
          · exact h
        have : 0 < trap (b :: w) (z :: r) := by
          cases w with
          | nil =>
            have : r = [] := by
              have := hl
              simp at this
              exact this
            rw [this] at hu'; simp at hu'
          | cons c w =>
            exact ih hg.2 (fun v hv => hr v (by simp at hv ⊢; tauto)) (by simpa using hl) (by simp)
              ⟨u, by simp [hu'], hu0⟩
        have h0 : 0 ≤ (b - a) * ((y + z) / 2) := mul_nonneg hab.le (by linarith)
        show 0 < (b - a) * ((y + z) / 2) + trap (b :: w) (z :: r)
        linarith

omit F in
theorem forall₂_mem {A B : Type} {R : A → B → Prop} {xs : List A} {ys : List B} (h : List.Forall₂ R xs ys) {x : A}
    (hx : x ∈ xs) : ∃ y ∈ ys, R x y := by
  induction h with
  | nil => simp at hx
  | @cons a b xs ys hab _ ih =>
    rcases List.mem_cons.1 hx with rfl | hx
    · exact ⟨b, by simp, hab⟩
    · obtain ⟨y, hy, h⟩ := ih hx
      exact ⟨y, by simp [hy], h⟩

/-- numbers near well separated positions are separated -/
theorem near_gaps {w : List ℝ} (hg : RelGaps w) (hr : ∀ x ∈ w, 1e-8 ≤ x ∧ x ≤ 9e7) {ys : List (RF F)}
    (h : List.Forall₂ (fun (a : RF F) x => Near (8 * uu) a x) ys w) :
    ∃ w' : List ℝ, ys = w'.map RF.of ∧ Gaps w' ∧
      List.Forall₂ (fun x' x => x * (1 - 8 * uu) ≤ x' ∧ x' ≤ x * (1 + 16 * uu)) w' w := by
  have hu := uu_small
  have hu0 := uu_pos
  norm_num at hu
  have e1 : 1 - 8 * uu ≤ Real.exp (-(8 * uu)) := by have := Real.add_one_le_exp (-(8 * uu)); linarith
  have e2 : Real.exp (8 * uu) ≤ 1 + 16 * uu := by
    have h1 := Real.add_one_le_exp (-(8 * uu))
    rw [Real.exp_neg] at h1
    have h2 : Real.exp (8 * uu) ≤ (1 - 8 * uu)⁻¹ := by
      rw [le_inv_comm₀ (Real.exp_pos _) (by linarith)]; linarith
    refine h2.trans ?_
    rw [inv_le_iff_one_le_mul₀ (by linarith)]
    nlinarith
  induction h with
  | nil => exact ⟨[], rfl, trivial, .nil⟩
  | @cons y x ys w hy ht ih =>
    obtain ⟨w', e, g, hn⟩ := ih hg.tail (fun x hx => hr x (by simp [hx]))
    obtain ⟨x0, x', ex, l1, l2⟩ := hy
    have hx := hr x (by simp)
    have l1' : x * (1 - 8 * uu) ≤ x' := (mul_le_mul_of_nonneg_left e1 x0.le).trans l1
    have l2' : x' ≤ x * (1 + 16 * uu) := l2.trans (mul_le_mul_of_nonneg_left e2 x0.le)
    refine ⟨x' :: w', by rw [e]; exact congrArg (· :: _) ex, ?_, .cons ⟨l1', l2'⟩ hn⟩
    cases hn with
    | nil => trivial
    | @cons z' z w' w hz hn =>
      refine ⟨⟨?_, ?_⟩, g⟩
      · have h1 : x * (1 + 1e-10) ≤ z := (List.isChain_cons_cons.1 hg).1
        have h2 : x * (1 + 1e-10) * (1 - 8 * uu) ≤ z' := (mul_le_mul_of_nonneg_right h1 (by linarith)).trans hz.1
        have h3 : x * 5e-11 ≤ x * (1 + 1e-10) * (1 - 8 * uu) - x * (1 + 16 * uu) := by
          rw [mul_assoc, ← mul_sub]
          refine mul_le_mul_of_nonneg_left ?_ x0.le
          norm_num; nlinarith
        have h4 : (1e-20 : ℝ) ≤ x * 5e-11 := le_trans (by norm_num) (mul_le_mul_of_nonneg_right hx.1 (by norm_num))
        linarith
      · have hz2 := (hr z (by simp)).2
        have hz0 : (0 : ℝ) ≤ z := le_trans (by norm_num) (hr z (by simp)).1
        have h1 : z' ≤ 9e7 * 2 := hz.2.trans (mul_le_mul hz2 (by linarith) (by linarith) (by norm_num))
        have h2 : 0 ≤ x' := le_trans (mul_nonneg x0.le (by linarith)) l1'
        norm_num at h1 ⊢
        linarith

/-- a curve in SI units of wavelength -/
theorem curve_wavelength {w r : List ℝ} (h : FpCurve w r) :
    ∃ w' : List ℝ, (w.map RF.of).map (· * (1e-6 : RF F)) = w'.map RF.of ∧ FpBand WAVE_LENGTH w' r := by
  have hu := uu_small
  have hu0 := uu_pos
  norm_num at hu
  have hn : ∀ x ∈ w, Near (8 * uu) ((RF.of x : RF F) * (1e-6 : RF F)) (x * 1e-6) := by
    intro x hx
    obtain ⟨h1, h2⟩ := h.range x hx
    have hx0 : 0 < x := lt_of_lt_of_le (by norm_num) h1
    refine (near_mul F (near_refl hx0) (near_lit F 1 true 6 (by norm_num) (by norm_num)) (by linarith) ?_ ?_).mono (by linarith)
    · refine le_trans ?_ (mul_le_mul_of_nonneg_right h1 (by norm_num)); norm_num
    · refine (mul_le_mul_of_nonneg_right h2 (by norm_num)).trans ?_; norm_num
  have hgap : RelGaps (w.map (· * 1e-6)) := by
    unfold RelGaps
    rw [List.isChain_map]
    refine h.gaps.imp ?_
    intro a b hab
    have := mul_le_mul_of_nonneg_right hab (show (0 : ℝ) ≤ 1e-6 by norm_num)
    linarith
  obtain ⟨w', e, g, hw⟩ := near_gaps F hgap (by
    intro x hx
    obtain ⟨y, hy, rfl⟩ := List.mem_map.1 hx
    obtain ⟨h1, h2⟩ := h.range y hy
    norm_num at h1 ⊢
    constructor <;> linarith) (ys := (w.map RF.of).map (· * (1e-6 : RF F))) (by
      rw [List.map_map, List.forall₂_map_left_iff, List.forall₂_map_right_iff, List.forall₂_same]
      exact hn)
  have hl : w'.length = w.length := by simpa using hw.length_eq
  refine ⟨w', e, g, ?_, h.resp, hl.trans h.len, by rw [hl]; exact h.size, ?_⟩
  · intro x hx
    rw [if_neg (by decide)]
    obtain ⟨y, hy, h1, h2⟩ := forall₂_mem hw hx
    obtain ⟨z, hz, rfl⟩ := List.mem_map.1 hy
    obtain ⟨h3, h4⟩ := h.range z hz
    norm_num at h1 h2 h3 ⊢
    constructor <;> nlinarith
  · refine fpTrap_pos g ?_ (hl.trans h.len) (by rw [hl]; exact h.two) ?_
    · intro y hy
      rcases h.resp y hy with h | h
      · exact h.ge
      · exact le_trans (by norm_num) h.1
    · obtain ⟨y, hy, h0⟩ := h.some
      exact ⟨y, hy, lt_of_lt_of_le (by norm_num) ((h.resp y hy).resolve_left h0).1⟩

omit F in
theorem relGaps_inv {w : List ℝ} (hg : RelGaps w) (hr : ∀ x ∈ w, 0 < x) :
    w.IsChain fun a b => 1 / (1e-4 * b) * 100.0 * (1 + 1e-10) ≤ 1 / (1e-4 * a) * 100.0 := by
  induction w with
  | nil => exact .nil
  | cons a w ih =>
    cases w with
    | nil => exact .singleton a
    | cons b w =>
      have hab := (List.isChain_cons_cons.1 hg).1
      refine List.isChain_cons_cons.2 ⟨?_, ih hg.tail (fun x hx => hr x (by simp [hx]))⟩
      have ha := hr a (by simp)
      have hb := hr b (by simp)
      rw [one_div_mul_eq_div, one_div_mul_eq_div, div_mul_eq_mul_div, div_le_div_iff₀ (by positivity) (by positivity)]
      norm_num at hab ⊢
      linarith

/-- a curve in SI units of wavenumber -/
theorem curve_wavenumber {w r : List ℝ} (h : FpCurve w r) :
    ∃ w' : List ℝ, ((w.map RF.of).map fun x => 1.0 / (1e-4 * x)).reverse.map (· * (100.0 : RF F)) = w'.map RF.of ∧
      FpBand WAVE_NUMBER w' r.reverse := by
  have hu := uu_small
  have hu0 := uu_pos
  norm_num at hu
  have hn : ∀ x ∈ w, Near (8 * uu) (((1.0 : RF F) / ((1e-4 : RF F) * (RF.of x : RF F))) * (100.0 : RF F)) (1 / (1e-4 * x) * 100.0) := by
    intro x hx
    obtain ⟨h1, h2⟩ := h.range x hx
    have hx0 : 0 < x := lt_of_lt_of_le (by norm_num) h1
    have b1 : 1e-6 ≤ 1e-4 * x := by norm_num at h1 ⊢; linarith
    have b2 : 1e-4 * x ≤ 1 := by norm_num at h2 ⊢; linarith
    have b0 : 0 < 1e-4 * x := lt_of_lt_of_le (by norm_num) b1
    have n1 := near_mul F (near_lit F 1 true 4 (by norm_num) (by norm_num)) (near_refl hx0) (by linarith)
      (le_trans (by norm_num) b1) (b2.trans (by norm_num))
    have d1 : 1 ≤ 1 / (1e-4 * x) := by rw [le_div_iff₀ b0]; linarith
    have d2 : 1 / (1e-4 * x) ≤ 1e6 := by rw [div_le_iff₀ b0]; refine le_trans ?_ (mul_le_mul_of_nonneg_left b1 (by norm_num)); norm_num
    have n2 := near_div F (near_refl (x := 1) one_pos) n1 (by linarith) (le_trans (by norm_num) d1) (d2.trans (by norm_num))
    have n3 := near_mul F n2 (near_lit F 1000 true 1 (by norm_num) (by norm_num)) (by linarith)
      (by refine le_trans ?_ (mul_le_mul_of_nonneg_right d1 (by norm_num)); norm_num)
      (by refine (mul_le_mul_of_nonneg_right d2 (by norm_num)).trans ?_; norm_num)
    rw [one_lit]
    exact n3.mono (by linarith)
  have hgap : RelGaps (w.map fun x => 1 / (1e-4 * x) * 100.0).reverse := by
    unfold RelGaps
    rw [List.isChain_reverse, List.isChain_map]
    exact relGaps_inv h.gaps (fun x hx => lt_of_lt_of_le (by norm_num) (h.range x hx).1)
  have hrange : ∀ y ∈ w, 200 ≤ 1 / (1e-4 * y) * 100.0 ∧ 1 / (1e-4 * y) * 100.0 ≤ 5e7 := by
    intro y hy
    obtain ⟨h1, h2⟩ := h.range y hy
    have y0 : 0 < y := lt_of_lt_of_le (by norm_num) h1
    rw [one_div_mul_eq_div, le_div_iff₀ (by positivity), div_le_iff₀ (by positivity)]
    norm_num at h1 ⊢
    constructor <;> linarith
  obtain ⟨w', e, g, hw⟩ := near_gaps F hgap (by
    intro x hx
    rw [List.mem_reverse] at hx
    obtain ⟨y, hy, rfl⟩ := List.mem_map.1 hx
    obtain ⟨h1, h2⟩ := hrange y hy
    exact ⟨le_trans (by norm_num) h1, h2.trans (by norm_num)⟩) (ys := ((w.map RF.of).map fun x => 1.0 / (1e-4 * x)).reverse.map (· * (100.0 : RF F))) (by
      rw [List.map_reverse, List.forall₂_reverse_iff, List.map_map, List.map_map, List.forall₂_map_left_iff,
        List.forall₂_map_right_iff, List.forall₂_same]
      exact hn)
  have hl : w'.length = w.length := by simpa using hw.length_eq
  refine ⟨w', e, g, ?_, fun y hy => h.resp y (by simpa using hy), by simpa using hl.trans h.len, by rw [hl]; exact h.size, ?_⟩
  · intro x hx
    rw [if_pos (by decide)]
    obtain ⟨y, hy, h1, h2⟩ := forall₂_mem hw hx
    rw [List.mem_reverse] at hy
    obtain ⟨z, hz, rfl⟩ := List.mem_map.1 hy
    obtain ⟨h3, h4⟩ := hrange z hz
    generalize 1 / (1e-4 * z) * 100.0 = v at *
    norm_num at h4 ⊢
    constructor <;> nlinarith
  · refine fpTrap_pos g ?_ (by simpa using hl.trans h.len) (by rw [hl]; exact h.two) ?_
    · intro y hy
      rcases h.resp y (by simpa using hy) with h | h
      · exact h.ge
      · exact le_trans (by norm_num) h.1
    · obtain ⟨y, hy, h0⟩ := h.some
      exact ⟨y, by simpa using hy, lt_of_lt_of_le (by norm_num) ((h.resp y hy).resolve_left h0).1⟩

end

/-! ### Construction -/

/-- the last part of a construction -/
theorem new_tail {α : Type} [PyNum α] {inst : InstVal} {rsr : Rsr α} {unit : String} {si : α} {p i d ws : String}
    {band : BandArg α} {res : α} {c : RadTb α}
    (h : (do
      let bandname ← converterBandname i rsr band
      let b ← converterLookup ws inst rsr bandname
      let det ← Dict.getItem b d
      let waves ← getArr det ws
      let wave := waves.map (· * si)
      let response ← getArr det "response"
      let integral ← NP.trapezoid response wave
      return {
        platform_name := p, instrument := i, bandname := bandname, detector := d, wavespace := ws, tb_resolution := res
        tb_scale := 1.0 / res
        wave_unit := unit, wave_si_scale := si
        rsr := rsr, rsrInstrument := inst, wave := wave, response := response
        rsr_integral := integral } : Py (RadTb α)) = .ok c) :
    ∃ (name : String) (b : BandRsr α) (det : DetRsr α) (w : List α),
      converterLookup ws inst rsr (some name) = .ok b ∧ b.get? d = some det ∧
      det.get? ws = some (.arr w) ∧ det.get? "response" = some (.arr c.response) ∧ c.wave = w.map (· * si) ∧
      NP.trapezoid c.response c.wave = .ok c.rsr_integral ∧ c.wavespace = ws ∧ c.tb_resolution = res ∧
      c.tb_scale = 1.0 / res := by
  have getA : ∀ (det : DetRsr α) k xs, getArr det k = .ok xs → det.get? k = some (.arr xs) := by
    intro det k xs hk
    unfold getArr at hk
    cases hg : Dict.getItem det k with
    | error e => rw [hg] at hk; cases hk
    | ok v =>
      rw [hg] at hk
      cases v with
      | arr ys => cases hk; exact getItem_ok_iff.1 hg
      | num x => cases hk
      | dict x => cases hk
  simp only [bind, Except.bind] at h
  cases hb : converterBandname i rsr band with
  | error e => rw [hb] at h; cases h
  | ok bn =>
    rw [hb] at h; simp only at h
    cases hl : converterLookup ws inst rsr bn with
    | error e => rw [hl] at h; cases h
    | ok b =>
      rw [hl] at h; simp only at h
      cases hd : Dict.getItem b d with
      | error e => rw [hd] at h; cases h
      | ok det =>
        rw [hd] at h; simp only at h
        cases hw : getArr det ws with
        | error e => rw [hw] at h; cases h
        | ok w =>
          rw [hw] at h; simp only at h
          cases hr : getArr det "response" with
          | error e => rw [hr] at h; cases h
          | ok r =>
            rw [hr] at h; simp only at h
            cases ht : NP.trapezoid r (w.map (· * si)) with
            | error e => rw [ht] at h; cases h
            | ok I =>
              rw [ht] at h
              simp only [pure, Except.pure, Except.ok.injEq] at h
              subst h
              cases bn with
              | none => cases hl
              | some name =>
                exact ⟨name, b, det, w, hl, getItem_ok_iff.1 hd, getA _ _ _ hw, getA _ _ _ hr, rfl, ht, rfl, rfl, rfl⟩

/-- what a successful construction did -/
theorem new_fields {α : Type} [PyNum α] {s : Sensor α} {p i d ws : String} {band : BandArg α} {res : α} {c : RadTb α}
    (h : RadTb.new (.ok s) p i band d ws res = .ok c) :
    ∃ (rsr : Rsr α) (si : α) (name : String) (b : BandRsr α) (det : DetRsr α) (w : List α),
      ((ws = WAVE_LENGTH ∧ rsr = s.rsr ∧ si = s.si_scale) ∨
        (ws = WAVE_NUMBER ∧ ∃ info, convert2wavenumber s.rsr = .ok (rsr, info) ∧ si = info.si_scale)) ∧
      converterLookup ws s.instrument rsr (some name) = .ok b ∧ b.get? d = some det ∧
      det.get? ws = some (.arr w) ∧ det.get? "response" = some (.arr c.response) ∧ c.wave = w.map (· * si) ∧
      NP.trapezoid c.response c.wave = .ok c.rsr_integral ∧ c.wavespace = ws ∧ c.tb_resolution = res ∧
      c.tb_scale = 1.0 / res := by
  unfold RadTb.new at h
  split at h
  · cases h
  rename_i hws
  split at h
  · cases h
  simp only [bind, Except.bind] at h
  split at h
  · rename_i hn
    cases hc : convert2wavenumber s.rsr with
    | error e => rw [hc] at h; cases h
    | ok v =>
      rw [hc] at h
      obtain ⟨name, b, det, w, h'⟩ := new_tail (inst := s.instrument) (rsr := v.1) (unit := v.2.unit) (si := v.2.si_scale) h
      exact ⟨v.1, v.2.si_scale, name, b, det, w, Or.inr ⟨hn, v.2, rfl, rfl⟩, h'⟩
  · rename_i hn
    obtain ⟨name, b, det, w, h'⟩ := new_tail (inst := s.instrument) (rsr := s.rsr) (unit := s.unit) (si := s.si_scale) h
    refine ⟨s.rsr, s.si_scale, name, b, det, w, Or.inl ⟨?_, rfl, rfl⟩, h'⟩
    by_contra hc
    exact hws ⟨hc, hn⟩

/-- the result of a band lookup is one of the stored bands -/
theorem lookup_mem {α : Type} {ws : String} {inst : InstVal} {rsr : Rsr α} {name : String} {b : BandRsr α}
    (h : converterLookup ws inst rsr (some name) = .ok b) : ∃ k, rsr.get? k = some b := by
  unfold converterLookup at h
  simp only at h
  split at h
  · exact ⟨_, getItem_ok_iff.1 h⟩
  · unfold rsrDictGetItem at h
    split at h
    · rename_i v hv
      cases h
      exact ⟨_, hv⟩
    · simp only [bind, Except.bind] at h
      repeat' split at h
      all_goals first | exact ⟨_, getItem_ok_iff.1 h⟩ | cases h

/-- Response data as a reader holds them: wavelengths in micron, every detector of every band a
usable curve. -/
structure FpSensor {F : FP} (s : Sensor (RF F)) : Prop where
  scale : s.si_scale = 1e-6
  bands : s.rsr.WF
  dets : ∀ k b, s.rsr.get? k = some b → b.WF
  curve : ∀ k b, s.rsr.get? k = some b → ∀ d det, b.get? d = some det →
    ∃ w r : List ℝ, det.get? "wavelength" = some (.arr (w.map RF.of)) ∧ det.get? "response" = some (.arr (r.map RF.of)) ∧
      det.get? "wavenumber" = none ∧ FpCurve w r

/-- a converter made from such data satisfies the hypotheses of C118-C120 -/
theorem new_loaded (F : FP) {s : Sensor (RF F)} (hs : FpSensor s) {p i d ws : String} {band : BandArg (RF F)} {res : RF F}
    {c : RadTb (RF F)} (h : RadTb.new (.ok s) p i band d ws res = .ok c) :
    c.tb_resolution = res ∧ c.tb_scale = 1.0 / res ∧ ∃ w r, FpLoaded c w r ∧ FpBand c.wavespace w r := by
  obtain ⟨rsr, si, name, b, det, w, hsel, hl, hd, hw, hr, hwave, hI, hws, h1, h2⟩ := new_fields h
  refine ⟨h1, h2, ?_⟩
  obtain ⟨k, hk⟩ := lookup_mem hl
  rcases hsel with ⟨rfl, rfl, rfl⟩ | ⟨rfl, info, hc, rfl⟩
  · obtain ⟨x, r, hx, hr', _, hcv⟩ := hs.curve k b hk d det hd
    rw [show WAVE_LENGTH = "wavelength" from rfl, hx] at hw
    rw [hr'] at hr
    cases hw
    have hr := Option.some.inj hr
    injection hr with hr
    obtain ⟨w', e, hb⟩ := curve_wavelength F hcv
    rw [hs.scale, e] at hwave
    exact ⟨w', r, ⟨hwave, hr.symm, hI⟩, by rw [hws]; exact hb⟩
  · rw [convert2wavenumber_eq _ hs.bands] at hc
    simp only [bind, Except.bind] at hc
    split at hc
    · cases hc
    rename_i rs hrs
    simp only [pure, Except.pure] at hc
    cases hc
    have hf := (mapM_pair_spec band2wavenumber s.rsr _ hrs).2
    have g := forall₂_get? hf k
    cases hv : s.rsr.get? k with
    | none => rw [g.2 hv] at hk; cases hk
    | some b0 =>
      obtain ⟨y, hy, hy'⟩ := g.1 b0 hv
      rw [hk] at hy'
      cases hy'
      rw [band2wavenumber_eq _ (hs.dets k b0 hv)] at hy
      have hf2 := (mapM_pair_spec convertDetector b0 _ hy).2
      have g2 := forall₂_get? hf2 d
      cases hv2 : b0.get? d with
      | none => rw [g2.2 hv2] at hd; cases hd
      | some det0 =>
        obtain ⟨z, hz, hz'⟩ := g2.1 det0 hv2
        rw [hd] at hz'
        cases hz'
        obtain ⟨x, r, hx, hr', hno, hcv⟩ := hs.curve k b0 hv d det0 hv2
        obtain ⟨out, ho, ho1, ho2, _⟩ := convertDetector_spec det0 _ _ _ hno hx hr' rfl
        rw [hz] at ho
        cases ho
        rw [show WAVE_NUMBER = "wavenumber" from rfl, ho1] at hw
        rw [ho2] at hr
        cases hw
        have hr := Option.some.inj hr
        injection hr with hr
        obtain ⟨w', e, hb⟩ := curve_wavenumber F hcv
        rw [e] at hwave
        exact ⟨w', r.reverse, ⟨hwave, by rw [← hr, List.map_reverse], hI⟩, by rw [hws]; exact hb⟩

/-! ### C124 -/

/-- C124: whatever band, detector, wave space and resolution a converter was made for from stored
response curves, its computed radiances are numbers, not negative and never smaller for a higher
temperature. -/
theorem C124_constructed_never_decreases (F : FP) (s : Sensor (RF F)) (hs : FpSensor s) (p i d ws : String)
    (band : BandArg (RF F)) (res : RF F) (c : RadTb (RF F)) (h : RadTb.new (.ok s) p i band d ws res = .ok c)
    (nc : Int) (norm : Bool) (ts : List ℝ) (hts : ts ≠ []) (ht : ∀ t ∈ ts, 2e-6 ≤ t ∧ t ≤ 1e5) :
    ∃ (b : ℝ → RF F) (out : RadResult (RF F)), c.tb2radiance nc (ts.map RF.of) none norm = .ok out ∧
      out.radiance = .arr (ts.map b) ∧
      ∀ t₁ ∈ ts, ∀ t₂ ∈ ts, t₁ ≤ t₂ → RF.Le (RF.of 0) (b t₁) ∧ RF.Le (b t₁) (b t₂) := by
  obtain ⟨_, _, w, r, hc, hb⟩ := new_loaded F hs h
  exact C118_band_radiance_never_decreases F c w r hc hb nc norm ts hts ht

/-- C124: with a resolution between 0.02 and 10 K (the default is 0.1 K) the converter's table
never decreases, and neither do radiances looked up in it. -/
theorem C124_constructed_table (F : FP) (s : Sensor (RF F)) (hs : FpSensor s) (p i d ws : String)
    (band : BandArg (RF F)) (res : ℝ) (hres : 0.02 ≤ res ∧ res ≤ 10) (c : RadTb (RF F))
    (h : RadTb.new (.ok s) p i band d ws (RF.of res) = .ok c) (nc : Int) (norm : Bool) :
    ∃ lut : Lut (RF F), c.makeTb2radLut nc norm = .ok lut ∧ lut.tb.length = lut.radiance.length ∧
      lut.radiance.Pairwise RF.Le ∧
      ∀ ts : List ℝ, 2 ≤ ts.length → (∀ t ∈ ts, 0 ≤ t ∧ t ≤ 500) →
        ∃ (b : ℝ → RF F) (out : RadResult (RF F)), c.tb2radiance nc (ts.map RF.of) (some lut) norm = .ok out ∧
          out.radiance = .arr (ts.map b) ∧
          ∀ t₁ ∈ ts, ∀ t₂ ∈ ts, t₁ ≤ t₂ → b t₁ ∈ lut.radiance ∧ RF.Le (b t₁) (b t₂) := by
  obtain ⟨h1, h2, w, r, hc, hb⟩ := new_loaded F hs h
  exact C120_table_never_decreases F c w r hc hb nc norm res hres h1 h2

/-- a band around 11 micron in double precision -/
noncomputable def exFpSensor : Sensor (RF Double.fp) :=
  { rsr := [("ch4", [("det-1", [("wavelength", .arr ([10, 11, 12].map RF.of)), ("response", .arr ([0, 1, 0].map RF.of)),
      ("central_wavelength", .num (RF.of 11))])])]
    instrument := .str "xyz", unit := "1e-6 m", si_scale := 1e-6 }

theorem exFpSensor_good : FpSensor exFpSensor where
  scale := rfl
  bands := by simp [exFpSensor, Dict.WF, Dict.keys]
  dets := by
    intro k b h
    simp only [exFpSensor, Dict.get?] at h
    split at h
    · cases h; simp [Dict.WF, Dict.keys]
    · cases h
  curve := by
    intro k b h d det h'
    simp only [exFpSensor, Dict.get?] at h
    split at h
    · cases h
      simp only [Dict.get?] at h'
      split at h'
      · cases h'
        refine ⟨[10, 11, 12], [0, 1, 0], rfl, rfl, rfl, ?_, ?_, ?_, rfl, by simp, by simp, ⟨1, by simp, one_ne_zero⟩⟩
        · intro x hx; simp at hx; rcases hx with rfl | rfl | rfl <;> norm_num
        · unfold RelGaps
          refine .cons_cons ?_ (.cons_cons ?_ (.singleton _)) <;> norm_num
        · intro y hy; simp at hy; rcases hy with rfl | rfl | rfl <;> norm_num
      · cases h'
    · cases h

theorem exFpNew (ws : String) (hws : ws = "wavelength" ∨ ws = "wavenumber") :
    ∃ c, RadTb.new (α := RF Double.fp) (.ok exFpSensor) "P" "xyz" (.name "ch4") "det-1" ws (RF.of 0.1) = .ok c := by
  have h : ¬ PyNum.eq (α := RF Double.fp) (RF.of 0.1) 0 = true := by
    rw [show (0 : RF Double.fp) = RF.of 0 from (show Double.fp.rnd ((0 : ℤ) : ℝ) = _ by rw [Int.cast_zero]; exact rnd_zero _)]
    show ¬ PyNum.eq (α := XF) (fin 0.1) (fin 0) = true
    rw [eq_fin]
    norm_num
  unfold RadTb.new
  rcases hws with rfl | rfl
  · rw [if_neg (by decide), if_neg h]
    exact ⟨_, rfl⟩
  · rw [if_neg (by decide), if_neg h]
    exact ⟨_, rfl⟩

example (ws : String) (hws : ws = "wavelength" ∨ ws = "wavenumber") :
    ∃ (c : RadTb (RF Double.fp)) (x y : RF Double.fp) (out : RadResult (RF Double.fp)),
      RadTb.new (.ok exFpSensor) "P" "xyz" (.name "ch4") "det-1" ws (RF.of 0.1) = .ok c ∧
      c.tb2radiance 0 ([220, 300].map RF.of) none true = .ok out ∧ out.radiance = .arr [x, y] ∧ RF.Le x y := by
  obtain ⟨c, hc⟩ := exFpNew ws hws
  obtain ⟨b, out, h1, h2, h3⟩ := C124_constructed_never_decreases Double.fp exFpSensor exFpSensor_good _ _ _ _ _ _ c hc 0 true
    [220, 300] (by simp) (by intro t ht; simp at ht; rcases ht with rfl | rfl <;> norm_num)
  exact ⟨c, _, _, out, hc, h1, h2, (h3 220 (by simp) 300 (by simp) (by norm_num)).2⟩

example : ∃ (c : RadTb (RF Double.fp)) (lut : Lut (RF Double.fp)),
    RadTb.new (.ok exFpSensor) "P" "xyz" (.name "ch4") "det-1" "wavenumber" (RF.of 0.1) = .ok c ∧
      c.makeTb2radLut 0 true = .ok lut ∧ lut.radiance.Pairwise RF.Le := by
  obtain ⟨c, hc⟩ := exFpNew "wavenumber" (.inr rfl)
  obtain ⟨lut, h1, _, h2, _⟩ := C124_constructed_table Double.fp exFpSensor exFpSensor_good _ _ _ _ _ 0.1 (by norm_num) c hc 0 true
  exact ⟨c, lut, hc, h1, h2⟩

end Verif.Props
