import Verif.Lemmas.Dict
import Verif.Lemmas.Trap
import Verif.Model.Rsr
/-
Properties C23, C24, C37: finding a band by wavelength or by name.
-/
namespace Verif.Props
open XF Model PyNum Lemmas

/-! ### C23 -/

/-- `cw` gives the central wavelength (micron) of the first detector of every band. -/
def CentralOf (rsr : Rsr XF) (cw : String → ℝ) : Prop :=
  ∀ ch ∈ rsr.keys, ∃ b det, rsr.get? ch = some b ∧ b.get? "det-1" = some det ∧
    det.get? "central_wavelength" = some (.num (fin (cw ch)))

/-- The name under which a channel is reported for a sensor (independent restatement of the
alias rule: the sensor's table, or the generic one for a sensor without a table). -/
def stdName (sensor channel : String) : String :=
  match BANDNAMES.get? sensor with
  | some t => (t.get? channel).getD channel
  | none => ((BANDNAMES.get? "generic").bind (·.get? channel)).getD channel

open Classical in
theorem bandsNear_eq (sensor : String) (x eps : ℝ) (rsr : Rsr XF) (cw : String → ℝ)
    (h : CentralOf rsr cw) (chs : List String) (hs : ∀ c ∈ chs, c ∈ rsr.keys) :
    bandsNear (.str sensor) (fin x) (fin eps) (rsr.getItem ·) chs =
      .ok ((chs.filter fun c => decide (|cw c - x| < min eps 2)).map (stdName sensor)) := by
  induction chs with
  | nil => rfl
  | cons c chs ih =>
    obtain ⟨b, det, h1, h2, h3⟩ := h c (hs c (by simp))
    have ih' := ih (fun c' hc' => hs c' (List.mem_cons_of_mem _ hc'))
    have e1 : rsr.getItem c = .ok b := getItem_ok_iff.2 h1
    have e2 : Dict.getItem b "det-1" = .ok det := getItem_ok_iff.2 h2
    have e3 : getNum det "central_wavelength" = .ok (fin (cw c)) := by
      simp [getNum, Dict.getItem, h3, bind, Except.bind, pure, Except.pure]
    have estd : ∀ t, bandTable (.str sensor) = .ok t → (t.get? c).getD c = stdName sensor c := by
      intro t ht
      simp only [bandTable, Except.ok.injEq] at ht
      subst ht
      unfold stdName
      cases BANDNAMES.get? sensor <;> rfl
    have hcond : (PyNum.lt (fin |cw c - x| : XF) 2.0 && PyNum.lt (fin |cw c - x|) (fin eps)) =
        decide (|cw c - x| < min eps 2) := by
      rw [show (2.0 : XF) = fin 2 by simp only [ofSci_eq]; norm_num]
      rw [lt_fin, lt_fin, ← Bool.decide_and]
      apply decide_eq_decide.2
      rw [lt_min_iff, and_comm]
    unfold bandsNear
    simp only [e1, e2, e3, bind, Except.bind, fin_sub, abs_fin, hcond]
    by_cases hc : |cw c - x| < min eps 2
    · simp only [hc, decide_true, if_true, bandTable, ih', pure, Except.pure]
      rw [List.filter_cons_of_pos (by simpa using hc), List.map_cons,
        estd _ rfl]
    · simp only [hc, decide_false, ih']
      rw [List.filter_cons_of_neg (by simpa using hc)]
      rfl

/-- C23: the complete specification of the lookup by wavelength: with `near` the bands (in data
order) whose central wavelength is closer than `min(epsilon, 2)`, the result is None, the name
of the single band, all of them, or AttributeError. -/
theorem C23_band_by_wavelength (sensor : String) (x eps : ℝ) (rsr : Rsr XF) (cw : String → ℝ)
    (h : CentralOf rsr cw) (multiple : Bool) (near : List String)
    (hnear : near.Sublist rsr.keys)
    (hmem : ∀ c ∈ rsr.keys, (c ∈ near ↔ |cw c - x| < min eps 2)) (hnd : rsr.keys.Nodup) :
    (near = [] → getBandnameFromWavelength (.str sensor) (fin x) rsr (fin eps) multiple = .ok .none) ∧
    (∀ b, near = [b] → getBandnameFromWavelength (.str sensor) (fin x) rsr (fin eps) multiple =
      .ok (.one (stdName sensor b))) ∧
    (2 ≤ near.length → getBandnameFromWavelength (.str sensor) (fin x) rsr (fin eps) multiple =
      if multiple then .ok (.several (near.map (stdName sensor))) else .error .attributeError) := by
  classical
  have hf : rsr.keys.filter (fun c => decide (|cw c - x| < min eps 2)) = near := by
    have h1 : rsr.keys.filter (fun c => decide (|cw c - x| < min eps 2)) =
        rsr.keys.filter (fun c => decide (c ∈ near)) := by
      apply List.filter_congr
      intro c hc
      exact decide_eq_decide.2 (hmem c hc).symm
    rw [h1]
    clear h1 hmem h
    generalize rsr.keys = ks at *
    induction hnear with
    | slnil => rfl
    | @cons l₁ l₂ a hs ih =>
      have hnd' := List.nodup_cons.1 hnd
      rw [List.filter_cons_of_neg]
      · exact ih hnd'.2
      · simp only [decide_eq_true_eq]
        intro ha; exact hnd'.1 (hs.subset ha)
    | @cons_cons l₁ l₂ a hs ih =>
      have hnd' := List.nodup_cons.1 hnd
      rw [List.filter_cons_of_pos (by simp)]
      congr 1
      rw [← ih hnd'.2]
      apply List.filter_congr
      intro c hc
      apply decide_eq_decide.2
      have : c ≠ a := by rintro rfl; exact hnd'.1 hc
      simp [this]
      intro _; exact hc
  have main : ∀ m, getBandnameFromWavelength (.str sensor) (fin x) rsr (fin eps) m =
      bandMatchResult (near.map (stdName sensor)) m := by
    intro m
    unfold getBandnameFromWavelength
    rw [bandsNear_eq sensor x eps rsr cw h rsr.keys (fun c hc => hc)]
    simp only [bind, Except.bind]
    rw [← hf]
  refine ⟨?_, ?_, ?_⟩
  · rintro rfl; rw [main]; rfl
  · rintro b rfl; rw [main]; rfl
  · intro hl
    rw [main]
    match near, hl with
    | a :: b :: l, _ => rfl

/-- data used in the example: bands at 0.6, 0.8 and 0.81 micron -/
noncomputable def exBands : Rsr XF :=
  [("VIS0.6", [("det-1", [("central_wavelength", .num (fin 0.6))])]),
   ("VIS0.8", [("det-1", [("central_wavelength", .num (fin 0.8))])]),
   ("HRV", [("det-1", [("central_wavelength", .num (fin 0.81))])])]

example : getBandnameFromWavelength (.str "seviri") (fin 0.61) exBands (fin 0.1) = .ok (.one "VIS0.6") := by
  have hc : CentralOf exBands (fun s => if s = "VIS0.6" then 0.6 else if s = "VIS0.8" then 0.8 else 0.81) := by
    intro ch hch
    simp only [exBands, Dict.keys, List.map_cons, List.map_nil, List.mem_cons, List.not_mem_nil,
      or_false] at hch
    rcases hch with rfl | rfl | rfl <;> exact ⟨_, _, rfl, rfl, rfl⟩
  have := (C23_band_by_wavelength "seviri" 0.61 0.1 exBands _ hc false ["VIS0.6"]
    (by simp [exBands, Dict.keys]) (by
      intro c hc
      simp only [exBands, Dict.keys, List.map_cons, List.map_nil, List.mem_cons, List.not_mem_nil,
        or_false] at hc
      rcases hc with rfl | rfl | rfl
      · simp; norm_num [abs_lt]
      · simp; norm_num [le_abs]
      · simp; norm_num [le_abs]) (by simp [exBands, Dict.keys])).2.1 "VIS0.6" rfl
  exact this

/-! ### C24 -/

/-- C24 is false of the code: data keyed by a plain channel number, a sensor without its own
alias table: the name returned is not a key of the data. -/
theorem C24_returned_name_may_be_no_key :
    ∃ rsr : Rsr XF, getBandnameFromWavelength (.str "xyz") (fin 0.6) rsr = .ok (.one "ch1") ∧
      rsr.getItem "ch1" = .error .keyError ∧
      rsrDictGetItem (.str "xyz") rsr "ch1" = .error .keyError := by
  refine ⟨[("1", [("det-1", [("central_wavelength", .num (fin 0.6))])])], ?_, rfl, ?_⟩
  · simp [getBandnameFromWavelength, Dict.keys, bandsNear, getNum, Dict.getItem, Dict.get?, bind,
        Except.bind, bandTable, bandMatchResult, pure, Except.pure]
    norm_num
    decide
  · rfl

/-- What holds of C24: if no key of the data is an alias for a different name in the sensor's
table, the single name returned is a key of the data (and names the only band close enough).
Missing: data keyed by alias names (refuted above). -/
theorem C24_returned_name_is_key_partial (sensor : String) (x eps : ℝ) (rsr : Rsr XF)
    (cw : String → ℝ) (h : CentralOf rsr cw)
    (hstd : ∀ c ∈ rsr.keys, stdName sensor c = c) (m : Bool) (name : String)
    (hres : getBandnameFromWavelength (.str sensor) (fin x) rsr (fin eps) m = .ok (.one name)) :
    (∃ b, rsr.getItem name = .ok b) ∧ |cw name - x| < min eps 2 := by
  classical
  unfold getBandnameFromWavelength at hres
  rw [bandsNear_eq sensor x eps rsr cw h rsr.keys (fun c hc => hc)] at hres
  simp only [bind, Except.bind] at hres
  have : name ∈ (rsr.keys.filter fun c => decide (|cw c - x| < min eps 2)).map (stdName sensor) := by
    generalize (rsr.keys.filter fun c => decide (|cw c - x| < min eps 2)).map (stdName sensor) = l at *
    match l, hres with
    | [], hres => simp [bandMatchResult] at hres
    | [b], hres => simp [bandMatchResult] at hres; simp [hres]
    | a :: b :: l, hres =>
      simp only [bandMatchResult] at hres
      split at hres <;> simp at hres
  obtain ⟨c, hc, rfl⟩ := List.mem_map.1 this
  have hc' := List.mem_filter.1 hc
  rw [hstd c hc'.1]
  obtain ⟨b, _, hb, _⟩ := h c hc'.1
  exact ⟨⟨b, getItem_ok_iff.2 hb⟩, by simpa using hc'.2⟩

example : ∀ c ∈ exBands.keys, stdName "seviri" c = c := by
  intro c hc
  simp only [exBands, Dict.keys, List.map_cons, List.map_nil, List.mem_cons, List.not_mem_nil,
        or_false] at hc
  rcases hc with rfl | rfl | rfl <;> decide

/-! ### C37 -/

/-- C37: the stored name wins. -/
theorem C37_direct (inst : InstVal) (rsr : Rsr XF) (key : String) (b : BandRsr XF)
    (h : rsr.get? key = some b) : rsrDictGetItem inst rsr key = .ok b := by
  simp [rsrDictGetItem, h]

example : rsrDictGetItem (.str "viirs") [("M5", []), ("5", [("det-1", [])])] "5" =
    .ok ([("det-1", [])] : BandRsr XF) :=
  C37_direct _ _ _ _ rfl

/-- C37: otherwise the instrument's own alias decides (even if its target is missing). -/
theorem C37_instrument_alias (i key std : String) (rsr : Rsr XF) (t : Dict String String)
    (h : rsr.get? key = none) (ht : BANDNAMES.get? i = some t) (hs : t.get? key = some std) :
    rsrDictGetItem (.str i) rsr key = rsr.getItem std := by
  simp [rsrDictGetItem, h, ht, hs, bind, Except.bind, pure, Except.pure]

/-- C37: otherwise the generic alias decides; without one it is a KeyError. -/
theorem C37_generic_alias (i key : String) (rsr : Rsr XF)
    (h : rsr.get? key = none)
    (ht : ∀ t, BANDNAMES.get? i = some t → t.get? key = none) :
    rsrDictGetItem (.str i) rsr key =
      match (BANDNAMES.get? "generic").bind (·.get? key) with
      | some std => rsr.getItem std
      | none => .error .keyError := by
  have e : (BANDNAMES.get? i).bind (·.get? key) = none := by
    cases hb : BANDNAMES.get? i with
    | none => rfl
    | some t => exact ht t hb
  have g : (BANDNAMES.get? "generic") = some bn_generic := rfl
  simp only [rsrDictGetItem, h, bind, Except.bind, pure, Except.pure]
  rw [show (Option.bind (Dict.get? BANDNAMES i) fun x => Dict.get? x key) = none from e, g]
  simp only [Option.bind_some]
  cases bn_generic.get? key <;> rfl

example : rsrDictGetItem (.str "xyz") [("ch5", [("det-1", [])])] "5" = .ok ([("det-1", [])] : BandRsr XF) := by
  rw [C37_generic_alias _ _ _ rfl (by decide)]
  rfl

/-- C37: `get` never raises for a string instrument (or None) and returns the default exactly
when indexing raises KeyError. -/
theorem C37_get (inst : InstVal) (hi : ∀ l, inst ≠ .list l) (rsr : Rsr XF) (key : String)
    (default : Option (BandRsr XF)) :
    ∃ r, rsrDictGet inst rsr key default = .ok r ∧
      (∀ b, rsrDictGetItem inst rsr key = .ok b → r = some b) ∧
      (rsrDictGetItem inst rsr key = .error .keyError → r = default) ∧
      (∀ e, rsrDictGetItem inst rsr key = .error e → e = .keyError) := by
  have key' : ∀ e, rsrDictGetItem inst rsr key = .error e → e = .keyError := by
    intro e he
    unfold rsrDictGetItem at he
    cases hk : Dict.get? rsr key with
    | some v => rw [hk] at he; cases he
    | none =>
      rw [hk] at he
      have step : ∀ o : Option (Dict String String),
          (match o.bind (·.get? key) with
            | some std => rsr.getItem std
            | none => match bn_generic.get? key with
              | some std => rsr.getItem std
              | none => .error .keyError) = (.error e : Py (BandRsr XF)) → e = .keyError := by
        intro o ho
        split at ho
        · exact (getItem_err_iff.1 ho).1
        · split at ho
          · exact (getItem_err_iff.1 ho).1
          · cases ho; rfl
      cases inst with
      | none => exact step none he
      | str s => exact step (BANDNAMES.get? s) he
      | list l => exact absurd rfl (hi l)
  cases hg : rsrDictGetItem inst rsr key with
  | ok b =>
    refine ⟨some b, by simp [rsrDictGet, hg], ?_, ?_, ?_⟩
    · intro b' hb'; cases hb'; rfl
    · intro h; cases h
    · intro e h; cases h
  | error e =>
    have := key' e hg
    subst this
    refine ⟨default, by simp [rsrDictGet, hg], ?_, ?_, ?_⟩
    · intro b' hb'; cases hb'
    · intro _; rfl
    · intro e' h; cases h; rfl

example : rsrDictGetItem (.str "seviri") exBands "VIS006" =
    .ok [("det-1", [("central_wavelength", .num (fin 0.6))])] := by
  rw [C37_instrument_alias "seviri" "VIS006" "VIS0.6" exBands bn_seviri (by simp [exBands, Dict.get?])
    (by decide) (by decide)]
  rfl

end Verif.Props
