import Verif.Lemmas.CentralWave
import Verif.Lemmas.Wavenumber
/-
Properties C20-C24 and C37: response data, conversion to wavenumbers, central wavelength,
band lookup.
-/
namespace Verif.Props
open XF Model PyNum Lemmas Spec

/-! ### C20 -/

/-- A response data set in wavelength space: dictionaries with distinct keys, every detector
with positive wavelengths (micron), a response of the same length, and no wavenumbers yet. -/
structure WavelengthData (rsr : Rsr XF) : Prop where
  wf : rsr.WF
  bandWf : ∀ p ∈ rsr, p.2.WF
  det : ∀ p ∈ rsr, ∀ q ∈ p.2, q.2.get? "wavenumber" = none ∧
    ∃ w r : List ℝ, q.2.get? "wavelength" = some (.arr (finL w)) ∧
      q.2.get? "response" = some (.arr (finL r)) ∧ w.length = r.length ∧ ∀ x ∈ w, 0 < x

/-- the sampled response curve of a detector in micron -/
def HasCurve (det : DetRsr XF) (key : String) (c : Curve) : Prop :=
  det.get? key = some (.arr (finL (c.map Prod.fst))) ∧
  det.get? "response" = some (.arr (finL (c.map Prod.snd)))

theorem wn_of_fin {x : ℝ} (h : 0 < x) : (1.0 / (1e-4 * fin x) : XF) = fin (1e4 / x) := by
  simp only [ofSci_eq, fin_mul]
  rw [fin_div _ (by positivity)]
  congr 1
  have := h.ne'
  field_simp; norm_num

/-- C20: the converted data set has the same bands and detectors in the same order, the
samples `(w, r)` have become `(1e4/w, r)` in reverse order, and the unit is cm-1 with SI
scale 100. -/
theorem C20_convert2wavenumber (rsr : Rsr XF) (hd : WavelengthData rsr) :
    ∃ out info, convert2wavenumber rsr = .ok (out, info) ∧
      info.unit = "cm-1" ∧ info.si_scale = fin 100 ∧
      out.keys = rsr.keys ∧
      ∀ ch b, rsr.get? ch = some b → ∃ b', out.get? ch = some b' ∧ b'.keys = b.keys ∧
        ∀ d det, b.get? d = some det → ∃ det', b'.get? d = some det' ∧
          ∀ c : Curve, HasCurve det "wavelength" c → (∀ p ∈ c, 0 < p.1) →
            HasCurve det' "wavenumber" (c.map fun p => (1e4 / p.1, p.2)).reverse := by
  have hdet : ∀ p ∈ rsr, ∀ q ∈ p.2, ∃ y, convertDetector q.2 = .ok y := by
    intro p hp q hq
    obtain ⟨h1, w, r, h2, h3, _, _⟩ := hd.det p hp q hq
    obtain ⟨o, ho, _⟩ := convertDetector_spec q.2 (finL w) (.arr (finL r)) _ h1 h2 h3 rfl
    exact ⟨o, ho⟩
  have hband : ∀ p ∈ rsr, ∃ y, band2wavenumber p.2 = .ok y := by
    intro p hp
    rw [band2wavenumber_eq _ (hd.bandWf p hp)]
    exact mapM_pair_ok _ _ (hdet p hp)
  obtain ⟨out, hout⟩ := mapM_pair_ok band2wavenumber rsr hband
  obtain ⟨hk, hf⟩ := mapM_pair_spec _ _ _ hout
  refine ⟨out, ⟨"cm-1", 100.0⟩, ?_, rfl, ?_, hk, ?_⟩
  · rw [convert2wavenumber_eq _ hd.wf, hout]; rfl
  · simp only [ofSci_eq, fin_inj]; norm_num
  · intro ch b hb
    obtain ⟨b', hb', hget⟩ := (forall₂_get? hf ch).1 b hb
    have hm := get?_eq_some_mem hb
    rw [band2wavenumber_eq _ (hd.bandWf _ hm)] at hb'
    obtain ⟨hk', hf'⟩ := mapM_pair_spec _ _ _ hb'
    refine ⟨b', hget, hk', ?_⟩
    intro d det hdd
    obtain ⟨det', hdet', hget'⟩ := (forall₂_get? hf' d).1 det hdd
    refine ⟨det', hget', ?_⟩
    intro c hc hpos
    have hno := (hd.det _ hm _ (get?_eq_some_mem hdd)).1
    obtain ⟨o, ho, e1, e2, _⟩ := convertDetector_spec det _ _ _ hno hc.1 hc.2 rfl
    rw [hdet'] at ho; cases ho
    refine ⟨?_, ?_⟩
    · rw [e1]
      congr 2
      simp only [finL, List.map_map, List.map_reverse]
      congr 1
      apply List.map_congr_left
      intro p hp
      exact wn_of_fin (hpos p hp)
    · rw [e2]
      congr 2
      simp only [finL, List.map_map, List.map_reverse]
      rfl

/-- C20: for strictly increasing positive wavelengths the converted wavenumbers strictly
increase. -/
theorem C20_wavenumbers_increase (c : Curve) (hpos : ∀ p ∈ c, 0 < p.1)
    (hinc : Increasing (c.map Prod.fst)) :
    Increasing ((c.map fun p => (1e4 / p.1, p.2)).reverse.map Prod.fst) := by
  unfold Increasing at *
  rw [List.map_reverse, List.pairwise_reverse, List.map_map, List.pairwise_map]
  rw [List.pairwise_map] at hinc
  refine hinc.imp_of_mem ?_
  intro a b ha hb hab
  exact div_lt_div_of_pos_left (by norm_num) (hpos a ha) hab

example : Increasing (([(10, 0.1), (11, 1), (12, 0.2)].map fun p : ℝ × ℝ => (1e4 / p.1, p.2)).reverse.map Prod.fst) :=
  C20_wavenumbers_increase [(10, 0.1), (11, 1), (12, 0.2)]
    (by intro p hp; simp at hp; rcases hp with rfl | rfl | rfl <;> norm_num) (by simp [Increasing]; norm_num)

/-- A small two-band data set. -/
noncomputable def exData : Rsr XF :=
  [("ch1", [("det-1", [("wavelength", .arr (finL [0.5, 0.6])), ("response", .arr (finL [1, 0.5])),
      ("central_wavelength", .num (fin 0.55))])]),
   ("ch2", [("det-1", [("wavelength", .arr (finL [0.8, 1])), ("response", .arr (finL [0, 1]))])])]

theorem exData_ok : WavelengthData exData := by
  refine ⟨by simp [Dict.WF, exData], ?_, ?_⟩
  · intro p hp; simp [exData] at hp; rcases hp with rfl | rfl <;> simp [Dict.WF]
  · intro p hp q hq
    simp only [exData, List.mem_cons, List.not_mem_nil, or_false] at hp
    rcases hp with rfl | rfl
    · simp only [List.mem_cons, List.not_mem_nil, or_false] at hq; subst hq
      refine ⟨rfl, [0.5, 0.6], [1, 0.5], rfl, rfl, rfl, ?_⟩
      intro x hx; simp at hx; rcases hx with rfl | rfl <;> norm_num
    · simp only [List.mem_cons, List.not_mem_nil, or_false] at hq; subst hq
      refine ⟨rfl, [0.8, 1], [0, 1], rfl, rfl, rfl, ?_⟩
      intro x hx; simp at hx; rcases hx with rfl | rfl <;> norm_num

example : ∃ out info, convert2wavenumber exData = .ok (out, info) ∧ out.keys = ["ch1", "ch2"] := by
  obtain ⟨out, info, h, _, _, hk, _⟩ := C20_convert2wavenumber exData exData_ok
  exact ⟨out, info, h, hk⟩

/-! ### C21 -/

/-- A data set all of whose detectors are in wavenumber space. -/
structure WavenumberData (rsr : Rsr XF) : Prop where
  wf : rsr.WF
  bandWf : ∀ p ∈ rsr, p.2.WF
  det : ∀ p ∈ rsr, ∀ q ∈ p.2, (q.2.get? "wavenumber").isSome

theorem mapM_id_of {κ β : Type} (f : β → Py β) (d : List (κ × β)) (h : ∀ p ∈ d, f p.2 = .ok p.2) :
    d.mapM (fun p => do return (p.1, ← f p.2)) = (.ok d : Py _) := by
  induction d with
  | nil => rfl
  | cons p d ih =>
    rw [List.mapM_cons, ih (fun q hq => h q (List.mem_cons_of_mem _ hq))]
    simp [bind, Except.bind, h p (by simp), pure, Except.pure]

/-- C21: converting data already in wavenumber space gives an equal data set. -/
theorem C21_idempotent_on_wavenumber_data (rsr : Rsr XF) (h : WavenumberData rsr) :
    ∃ info, convert2wavenumber rsr = .ok (rsr, info) := by
  refine ⟨⟨"cm-1", 100.0⟩, ?_⟩
  rw [convert2wavenumber_eq _ h.wf, mapM_id_of]
  · rfl
  · intro p hp
    rw [band2wavenumber_eq _ (h.bandWf p hp)]
    apply mapM_id_of
    intro q hq
    have := h.det p hp q hq
    simp [convertDetector, Dict.contains, this]

example : ∃ info, convert2wavenumber [("ch1", [("det-1", [("wavenumber", .arr (finL [900, 901])), ("response", .arr (finL [1, 1]))])])] =
    .ok ([("ch1", [("det-1", [("wavenumber", .arr (finL [900, 901])), ("response", .arr (finL [1, 1]))])])], info) := by
  refine C21_idempotent_on_wavenumber_data _ ⟨?_, ?_, ?_⟩
  · simp [Dict.WF, Dict.keys]
  · intro p hp; simp at hp; subst hp; simp [Dict.WF, Dict.keys]
  · intro p hp q hq; simp at hp; subst hp; simp at hq; subst hq; rfl

/-- C21: the result of a conversion is in wavenumber space, so converting twice is the same as
converting once. -/
theorem C21_converting_twice (rsr : Rsr XF) (hd : WavelengthData rsr) :
    ∃ out info, convert2wavenumber rsr = .ok (out, info) ∧
      ∃ info', convert2wavenumber out = .ok (out, info') := by
  obtain ⟨out, info, h1, _, _, hk, hall⟩ := C20_convert2wavenumber rsr hd
  refine ⟨out, info, h1, C21_idempotent_on_wavenumber_data out ⟨?_, ?_, ?_⟩⟩
  · show (out.map Prod.fst).Nodup
    have : out.map Prod.fst = rsr.map Prod.fst := hk
    rw [this]; exact hd.wf
  all_goals
    have hwf : (out.map Prod.fst).Nodup := by
      have : out.map Prod.fst = rsr.map Prod.fst := hk
      rw [this]; exact hd.wf
    intro p hp
    obtain ⟨ch, b'⟩ := p
    have hg : Dict.get? out ch = some b' := get?_of_mem hwf hp
    have hmem : ch ∈ Dict.keys rsr := by
      rw [← hk]; exact List.mem_map.2 ⟨_, hp, rfl⟩
    obtain ⟨⟨ch', b⟩, hb, rfl⟩ := List.mem_map.1 hmem
    obtain ⟨b'', hb'', hkeys, hdet⟩ := hall ch' b (get?_of_mem hd.wf hb)
    rw [hg] at hb''; cases hb''
    have hbwf : b'.WF := by
      show (b'.map Prod.fst).Nodup
      have e : b'.map Prod.fst = b.map Prod.fst := hkeys
      rw [e]; exact hd.bandWf _ hb
  · exact hbwf
  · intro q hq
    obtain ⟨d, det'⟩ := q
    have hmemd : d ∈ Dict.keys b := by
      rw [← hkeys]; exact List.mem_map.2 ⟨_, hq, rfl⟩
    obtain ⟨⟨d', det⟩, hdm, rfl⟩ := List.mem_map.1 hmemd
    obtain ⟨det'', hget, hc⟩ := hdet d' det (get?_of_mem (hd.bandWf _ hb) hdm)
    rw [get?_of_mem hbwf hq] at hget; cases hget
    obtain ⟨_, w, r, h2, h3, hl, hpos⟩ := hd.det _ hb _ hdm
    have := (hc (w.zip r) ⟨by rw [zip_map_fst hl]; exact h2, by rw [zip_map_snd hl]; exact h3⟩
      (fun p hp => hpos _ (List.of_mem_zip hp).1)).1
    rw [this]; rfl

/-- C21: the map of curves is invertible by the same formula: converting the wavenumber curve
back gives the original wavelengths and responses. -/
theorem C21_invertible (c : Curve) (hpos : ∀ p ∈ c, 0 < p.1) :
    (((c.map fun p => (1e4 / p.1, p.2)).reverse).map fun p => (1e4 / p.1, p.2)).reverse = c := by
  rw [List.map_reverse, List.reverse_reverse, List.map_map]
  conv_rhs => rw [← List.map_id c]
  apply List.map_congr_left
  intro p hp
  have := (hpos p hp).ne'
  simp only [Function.comp_apply, id]
  ext
  · simp only; field_simp
  · rfl

example : ∃ out info, convert2wavenumber exData = .ok (out, info) ∧
      ∃ info', convert2wavenumber out = .ok (out, info') := C21_converting_twice exData exData_ok

/-! ### C22 -/

/-- C22: central wave with a weight: between the first and the last wave. -/
theorem C22_central_wave_inside (w r g : List ℝ) (h1 : w.length = r.length) (h2 : w.length = g.length)
    (hinc : Increasing w) (hnn : ∀ p ∈ r.zip g, 0 ≤ p.1 * p.2)
    (hint : trap w (List.zipWith (· * ·) r g) ≠ 0) (a b : ℝ) (ha : w.head? = some a)
    (hb : w.getLast? = some b) :
    ∃ v, getCentralWave (finL w) (finL r) (finL g) = .ok (fin v) ∧ a ≤ v ∧ v ≤ b ∧
      v * trap w (List.zipWith (· * ·) r g) =
        trap w (List.zipWith (· * ·) w (List.zipWith (· * ·) r g)) := by
  obtain ⟨e1, e2, e3⟩ := triples h1 h2
  set l := w.zip (r.zip g) with hl
  have hden : cwDen l = trap w (List.zipWith (· * ·) r g) := by
    unfold cwDen
    rw [← zipWith_map_map (· * ·) l, e2, e3, e1]
  have hnum : cwNum l = trap w (List.zipWith (· * ·) w (List.zipWith (· * ·) r g)) := by
    unfold cwNum
    conv_rhs => rw [← e1, ← e2, ← e3, zipWith_map_map, zipWith_map_map]
    apply trap_congr; intro p _; ring
  have hb' := cwNum_bounds l (by rw [e1]; exact Increasing.nonDec hinc)
    (fun p hp => hnn _ (List.of_mem_zip hp).2) a b
    (fun p hp => increasing_ends hinc a b ha hb _ (List.of_mem_zip hp).1)
  have hpos : 0 < cwDen l := by
    refine lt_of_le_of_ne ?_ (by rw [hden]; exact Ne.symm hint)
    exact trap_nonneg _ _ l (by rw [e1]; exact Increasing.nonDec hinc)
      (fun p hp => hnn _ (List.of_mem_zip hp).2)
  have hv := getCentralWave_triples l
  rw [e1, e2, e3, fin_div _ hpos.ne'] at hv
  refine ⟨_, hv, ?_, ?_, ?_⟩
  · rw [le_div_iff₀ hpos]; exact hb'.1
  · rw [div_le_iff₀ hpos]; exact hb'.2
  · rw [← hden, ← hnum, div_mul_cancel₀ _ hpos.ne']

/-- a negative response with a negative weight -/
example : ∃ v, getCentralWave (finL [10, 11, 12]) (finL [0, -1, 0.5]) (finL [1, -2, 3]) = .ok (fin v) ∧ 10 ≤ v ∧ v ≤ 12 := by
  obtain ⟨v, h, h1, h2, _⟩ := C22_central_wave_inside [10, 11, 12] [0, -1, 0.5] [1, -2, 3] rfl rfl
    (by simp [Increasing]; norm_num) (by intro p hp; simp at hp; rcases hp with rfl | rfl | rfl <;> norm_num)
    (by simp [trap]; norm_num) 10 12 rfl rfl
  exact ⟨v, h, h1, h2⟩

/-- C22: the default (unweighted) central wave is the response-weighted mean wave, inside the
band. -/
theorem C22_central_wave_inside_unweighted (w r : List ℝ) (h1 : w.length = r.length)
    (hinc : Increasing w) (hnn : ∀ x ∈ r, 0 ≤ x) (hint : trap w r ≠ 0) (a b : ℝ)
    (ha : w.head? = some a) (hb : w.getLast? = some b) :
    ∃ v, getCentralWave (finL w) (finL r) = .ok (fin v) ∧ a ≤ v ∧ v ≤ b ∧
      v * trap w r = trap w (List.zipWith (· * ·) w r) := by
  have hs := getCentralWave_scalar (w.zip r) 1
  have e0 : (w.zip r).map (fun p => p.1) = w := zip_map_fst h1
  have e0' : (w.zip r).map (fun p => p.2) = r := zip_map_snd h1
  rw [e0, e0'] at hs
  set l := (w.zip r).map (fun p => (p.1, p.2, (1:ℝ))) with hl
  have e1 : l.map (fun p => p.1) = w := by rw [hl, List.map_map]; exact e0
  have hden : cwDen l = trap w r := by
    unfold cwDen
    rw [e1]; congr 1
    rw [hl, List.map_map]; conv_rhs => rw [← e0']
    apply List.map_congr_left; intro p _; simp
  have hnum : cwNum l = trap w (List.zipWith (· * ·) w r) := by
    unfold cwNum
    rw [e1]; congr 1
    rw [hl, List.map_map]; rw [show List.zipWith (· * ·) w r = (w.zip r).map (fun p => p.1 * p.2) by
      rw [← zipWith_map_map (· * ·) (w.zip r), e0, e0']]
    apply List.map_congr_left; intro p _; simp; ring
  have hmem : ∀ p ∈ l, p.1 ∈ w ∧ 0 ≤ p.2.1 * p.2.2 := by
    intro p hp
    rw [hl, List.mem_map] at hp
    obtain ⟨q, hq, rfl⟩ := hp
    exact ⟨(List.of_mem_zip hq).1, by simpa using hnn _ (List.of_mem_zip hq).2⟩
  have hb' := cwNum_bounds l (by rw [e1]; exact Increasing.nonDec hinc)
    (fun p hp => (hmem p hp).2) a b (fun p hp => increasing_ends hinc a b ha hb _ (hmem p hp).1)
  have hpos : 0 < cwDen l := by
    refine lt_of_le_of_ne ?_ (by rw [hden]; exact Ne.symm hint)
    exact trap_nonneg _ _ l (by rw [e1]; exact Increasing.nonDec hinc) (fun p hp => (hmem p hp).2)
  have h10 : ([1.0] : List XF) = [fin 1] := by simp only [ofSci_eq]; norm_num
  rw [fin_div _ hpos.ne', ← h10] at hs
  refine ⟨_, hs, ?_, ?_, ?_⟩
  · rw [le_div_iff₀ hpos]; exact hb'.1
  · rw [div_le_iff₀ hpos]; exact hb'.2
  · rw [← hden, ← hnum, div_mul_cancel₀ _ hpos.ne']

example : ∃ v, getCentralWave (finL [10, 11, 12]) (finL [0, 1, 0.5]) = .ok (fin v) ∧ 10 ≤ v ∧ v ≤ 12 := by
  obtain ⟨v, h, h1, h2, _⟩ := C22_central_wave_inside_unweighted [10, 11, 12] [0, 1, 0.5] rfl
    (by simp [Increasing]; norm_num) (by intro x hx; simp at hx; rcases hx with rfl | rfl | rfl <;> norm_num)
    (by simp [trap]; norm_num) 10 12 rfl rfl
  exact ⟨v, h, h1, h2⟩

/-- C22: scaling the responses by a non-zero factor does not change the central wave. -/
theorem C22_response_scaling (w r g : List ℝ) (h1 : w.length = r.length) (h2 : w.length = g.length)
    (a : ℝ) (ha : a ≠ 0) (hint : trap w (List.zipWith (· * ·) r g) ≠ 0) :
    getCentralWave (finL w) (finL (r.map (a * ·))) (finL g) =
      getCentralWave (finL w) (finL r) (finL g) := by
  obtain ⟨e1, e2, e3⟩ := triples h1 h2
  set l := w.zip (r.zip g) with hl
  have hden : cwDen l = trap w (List.zipWith (· * ·) r g) := by
    unfold cwDen
    rw [← zipWith_map_map (· * ·) l, e2, e3, e1]
  have hv := getCentralWave_triples l
  have hv' := getCentralWave_triples (l.map fun p => (p.1, a * p.2.1, p.2.2))
  simp only [List.map_map, Function.comp_def] at hv'
  have e2' : l.map (fun p => a * p.2.1) = r.map (a * ·) := by rw [← e2, List.map_map]; rfl
  rw [e1, e2', e3] at hv'
  rw [e1, e2, e3] at hv
  rw [hv, hv']
  have n : cwNum (l.map fun p => (p.1, a * p.2.1, p.2.2)) = a * cwNum l := by
    unfold cwNum
    rw [← trap_smul, List.map_map, List.map_map]
    apply trap_congr; intro p _; simp; ring
  have d : cwDen (l.map fun p => (p.1, a * p.2.1, p.2.2)) = a * cwDen l := by
    unfold cwDen
    rw [← trap_smul, List.map_map, List.map_map]
    apply trap_congr; intro p _; simp; ring
  have hne : cwDen l ≠ 0 := by rw [hden]; exact hint
  rw [n, d, fin_div _ hne, fin_div _ (mul_ne_zero ha hne), mul_div_mul_left _ _ ha]

example : getCentralWave (finL [10, 11, 12]) (finL ([0, 1, 0.5].map (7 * ·))) (finL [1, 2, 3]) =
    getCentralWave (finL [10, 11, 12]) (finL [0, 1, 0.5]) (finL [1, 2, 3]) :=
  C22_response_scaling [10, 11, 12] [0, 1, 0.5] [1, 2, 3] rfl rfl 7 (by norm_num) (by simp [trap]; norm_num)

/-- C22: reversing all arrays does not change the central wave. -/
theorem C22_reversal (w r g : List ℝ) (h1 : w.length = r.length) (h2 : w.length = g.length)
    (hint : trap w (List.zipWith (· * ·) r g) ≠ 0) :
    getCentralWave (finL w.reverse) (finL r.reverse) (finL g.reverse) =
      getCentralWave (finL w) (finL r) (finL g) := by
  obtain ⟨e1, e2, e3⟩ := triples h1 h2
  set l := w.zip (r.zip g) with hl
  have hden : cwDen l = trap w (List.zipWith (· * ·) r g) := by
    unfold cwDen
    rw [← zipWith_map_map (· * ·) l, e2, e3, e1]
  have hv := getCentralWave_triples l
  have hv' := getCentralWave_triples l.reverse
  simp only [List.map_reverse] at hv'
  rw [e1, e2, e3] at hv hv'
  rw [hv, hv']
  have n : cwNum l.reverse = - cwNum l := by
    unfold cwNum; rw [List.map_reverse, List.map_reverse, trap_reverse _ _ (by simp)]
  have d : cwDen l.reverse = - cwDen l := by
    unfold cwDen; rw [List.map_reverse, List.map_reverse, trap_reverse _ _ (by simp)]
  have hne : cwDen l ≠ 0 := by rw [hden]; exact hint
  rw [n, d, fin_div _ hne, fin_div _ (neg_ne_zero.2 hne), neg_div_neg_eq]

example : getCentralWave (finL [12, 11, 10]) (finL [0.5, 1, 0]) (finL [3, 2, 1]) =
    getCentralWave (finL [10, 11, 12]) (finL [0, 1, 0.5]) (finL [1, 2, 3]) :=
  C22_reversal [10, 11, 12] [0, 1, 0.5] [1, 2, 3] rfl rfl (by simp [trap]; norm_num)

/-- C22: shifting the grid shifts the central wave, scaling the grid scales it. -/
theorem C22_grid_shift_and_scale (w r g : List ℝ) (h1 : w.length = r.length) (h2 : w.length = g.length)
    (hint : trap w (List.zipWith (· * ·) r g) ≠ 0) (s a : ℝ) (ha : a ≠ 0) :
    ∃ v, getCentralWave (finL w) (finL r) (finL g) = .ok (fin v) ∧
      getCentralWave (finL (w.map (· + s))) (finL r) (finL g) = .ok (fin (v + s)) ∧
      getCentralWave (finL (w.map (a * ·))) (finL r) (finL g) = .ok (fin (a * v)) := by
  obtain ⟨e1, e2, e3⟩ := triples h1 h2
  set l := w.zip (r.zip g) with hl
  have hden : cwDen l = trap w (List.zipWith (· * ·) r g) := by
    unfold cwDen
    rw [← zipWith_map_map (· * ·) l, e2, e3, e1]
  have hne : cwDen l ≠ 0 := by rw [hden]; exact hint
  have hv := getCentralWave_triples l
  have hs := getCentralWave_triples (l.map fun p => (p.1 + s, p.2.1, p.2.2))
  have hm := getCentralWave_triples (l.map fun p => (a * p.1, p.2.1, p.2.2))
  simp only [List.map_map, Function.comp_def] at hs hm
  have es : l.map (fun p => p.1 + s) = w.map (· + s) := by rw [← e1, List.map_map]; rfl
  have em : l.map (fun p => a * p.1) = w.map (a * ·) := by rw [← e1, List.map_map]; rfl
  rw [es, e2, e3] at hs
  rw [em, e2, e3] at hm
  rw [e1, e2, e3] at hv
  have ds : cwDen (l.map fun p => (p.1 + s, p.2.1, p.2.2)) = cwDen l := by
    unfold cwDen; rw [List.map_map, List.map_map]
    exact trap_map_add_x (fun p : ℝ × ℝ × ℝ => p.1) _ s l
  have ns : cwNum (l.map fun p => (p.1 + s, p.2.1, p.2.2)) = cwNum l + s * cwDen l := by
    unfold cwNum cwDen; rw [List.map_map, List.map_map]
    refine (trap_map_add_x (fun p : ℝ × ℝ × ℝ => p.1) _ s l).trans ?_
    rw [← trap_smul, ← trap_add]
    apply trap_congr; intro p _; simp; ring
  have dm : cwDen (l.map fun p => (a * p.1, p.2.1, p.2.2)) = a * cwDen l := by
    unfold cwDen; rw [List.map_map, List.map_map]
    exact trap_map_mul_x (fun p : ℝ × ℝ × ℝ => p.1) _ a l
  have nm : cwNum (l.map fun p => (a * p.1, p.2.1, p.2.2)) = a * (a * cwNum l) := by
    unfold cwNum; rw [List.map_map, List.map_map]
    refine (trap_map_mul_x (fun p : ℝ × ℝ × ℝ => p.1) _ a l).trans ?_
    congr 1
    rw [← trap_smul]
    apply trap_congr; intro p _; simp; ring
  rw [fin_div _ hne] at hv
  rw [ds, ns, fin_div _ hne] at hs
  rw [dm, nm, fin_div _ (mul_ne_zero ha hne), mul_div_mul_left _ _ ha] at hm
  refine ⟨_, hv, ?_, ?_⟩
  · rw [hs, add_div, mul_div_cancel_right₀ _ hne]
  · rw [hm, mul_div_assoc]

example : ∃ v, getCentralWave (finL [10, 11, 12]) (finL [0, 1, 0.5]) (finL [1, 2, 3]) = .ok (fin v) ∧
    getCentralWave (finL ([10, 11, 12].map (1000 * ·))) (finL [0, 1, 0.5]) (finL [1, 2, 3]) = .ok (fin (1000 * v)) := by
  obtain ⟨v, h, -, h1⟩ := C22_grid_shift_and_scale [10, 11, 12] [0, 1, 0.5] [1, 2, 3] rfl rfl (by simp [trap]; norm_num)
    0 1000 (by norm_num)
  exact ⟨v, h, h1⟩

/-- C22: when the weighted integral of a non-negative curve is zero, the result is NaN. -/
theorem C22_zero_integral_is_nan (w r g : List ℝ) (h1 : w.length = r.length) (h2 : w.length = g.length)
    (hinc : Increasing w) (hnn : ∀ p ∈ r.zip g, 0 ≤ p.1 * p.2)
    (hint : trap w (List.zipWith (· * ·) r g) = 0) :
    getCentralWave (finL w) (finL r) (finL g) = .ok XF.nan := by
  obtain ⟨e1, e2, e3⟩ := triples h1 h2
  set l := w.zip (r.zip g) with hl
  have hden : cwDen l = trap w (List.zipWith (· * ·) r g) := by
    unfold cwDen
    rw [← zipWith_map_map (· * ·) l, e2, e3, e1]
  have hv := getCentralWave_triples l
  rw [e1, e2, e3] at hv
  have hnum : cwNum l = 0 := by
    cases hw : w with
    | nil => rw [hl, hw]; rfl
    | cons a w' =>
      obtain ⟨b, hb⟩ : ∃ b, w.getLast? = some b := by
        rw [hw]; exact ⟨_, List.getLast?_eq_some_getLast (by simp)⟩
      have := cwNum_bounds l (by rw [e1]; exact Increasing.nonDec hinc)
        (fun p hp => hnn _ (List.of_mem_zip hp).2) a b
        (fun p hp => increasing_ends hinc a b (by rw [hw]; rfl) hb _ (List.of_mem_zip hp).1)
      rw [hden, hint] at this
      linarith [this.1, this.2]
  rw [hv, hnum, hden, hint, fin_div']
  simp [signInf]

example : getCentralWave (finL [10, 11]) (finL [0, 0]) (finL [1, 1]) = .ok XF.nan :=
  C22_zero_integral_is_nan [10, 11] [0, 0] [1, 1] rfl rfl (by simp [Increasing]; norm_num)
    (by intro p hp; simp at hp; subst hp; simp) (by simp [trap])

end Verif.Props
