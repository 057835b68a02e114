import Verif.Model.ViirsConvert
import Verif.Props.MoreConvert
import Verif.Props.OriginalData
import Verif.Props.Modis
import Verif.Props.WriterSteps
/-
Property C149: converting VIIRS responses.
-/
namespace Verif.Props
open Model Spec Lemmas PyNum XF
variable {α : Type} [PyNum α]

/-! ### The file of a band -/

/-- The configuration names this file for the band: the last section with the band counts. -/
def BandFile (compose : String → String → String) (conf : ViirsConf) (band path : String) : Prop :=
  ∃ pre s post, conf.sections = pre ++ s :: post ∧ Str.startsWith s.key "section" = true ∧ band ∈ s.bands ∧
    (∀ t ∈ post, Str.startsWith t.key "section" = true → band ∉ t.bands) ∧
    path = compose (OsPath.join conf.rootdir s.filename) band

theorem setAll_get (g : String → String) (bands : List String) (band : String) : ∀ d : Dict String String,
    (bands.foldl (fun d b => d.set b (g b)) d).get? band = if band ∈ bands then some (g band) else d.get? band := by
  induction bands with
  | nil => intro d; simp
  | cons a l ih =>
    intro d
    rw [List.foldl_cons, ih]
    by_cases h1 : band ∈ l
    · simp [h1]
    · by_cases h2 : band = a
      · subst h2; simp [h1, get?_set_self]
      · simp [h1, h2, get?_set_ne _ _ h2]

theorem viirsSection_get (compose : String → String → String) (root : String) (d : Dict String String)
    (s : ViirsSection) (band : String) : (viirsSection compose root d s).get? band =
      if Str.startsWith s.key "section" = true ∧ band ∈ s.bands then some (compose (OsPath.join root s.filename) band)
      else d.get? band := by
  unfold viirsSection
  by_cases h : Str.startsWith s.key "section" = true
  · rw [if_pos h, setAll_get (compose (OsPath.join root s.filename))]
    simp [h]
  · rw [if_neg h, if_neg (fun hh => h hh.1)]

theorem viirsFilenames_get {compose : String → String → String} {conf : ViirsConf} {band path : String}
    (h : BandFile compose conf band path) : (viirsFilenames compose conf).getItem band = .ok path := by
  obtain ⟨pre, s, post, h1, h2, h3, h4, rfl⟩ := h
  rw [getItem_ok_iff]
  unfold viirsFilenames
  rw [h1, List.foldl_append, List.foldl_cons]
  generalize pre.foldl _ _ = d
  have : ∀ d : Dict String String, d.get? band = some (compose (OsPath.join conf.rootdir s.filename) band) →
      (post.foldl (viirsSection compose conf.rootdir) d).get? band =
        some (compose (OsPath.join conf.rootdir s.filename) band) := by
    clear h1
    induction post with
    | nil => intro d hd; exact hd
    | cons t post ih =>
      intro d hd
      refine ih (fun t ht => h4 t (by simp [ht])) _ ?_
      rw [viirsSection_get, if_neg, hd]
      rintro ⟨a, b⟩
      exact h4 t (by simp) a b
  refine this _ ?_
  rw [viirsSection_get, if_pos ⟨h2, h3⟩]

/-! ### Comparing wavelengths -/

theorem xf_eq_true {x y : XF} (h : PyNum.eq x y = true) : x = y ∧ x ≠ XF.nan := by
  have h1 : x ≠ XF.nan := by rintro rfl; cases y <;> cases h
  refine ⟨?_, h1⟩
  cases x <;> cases y <;> first
    | rfl
    | (rw [eq_fin, decide_eq_true_eq] at h; rw [h])
    | exact absurd rfl h1
    | cases h

theorem bcast2_ok {β γ δ : Type} {f : β → γ → δ} {xs : List β} {ys : List γ} {l : List δ}
    (h : NP.bcast2 f xs ys = .ok l) :
    (xs.length = ys.length ∧ l = List.zipWith f xs ys) ∨ (∃ x, xs = [x] ∧ l = ys.map (f x)) ∨
      ∃ y, ys = [y] ∧ l = xs.map (f · y) := by
  unfold NP.bcast2 at h
  split_ifs at h with hl
  · cases h; exact Or.inl ⟨hl, rfl⟩
  · split at h
    · cases h; exact Or.inr (Or.inl ⟨_, rfl, rfl⟩)
    · cases h; exact Or.inr (Or.inr ⟨_, rfl, rfl⟩)
    · cases h

theorem finL_inj {a b : List ℝ} (h : finL a = finL b) : a = b :=
  (List.map_injective_iff.2 fun _ _ h => (fin_inj _ _).1 h) h

theorem zip_all_eq (a : List XF) : ∀ b : List XF, a.length = b.length →
    (List.zipWith (fun x y => PyNum.eq x y) a b).all id = true → a = b ∧ XF.nan ∉ a := by
  induction a with
  | nil =>
    intro b hl _
    cases b with
    | nil => exact ⟨rfl, by simp⟩
    | cons _ _ => simp at hl
  | cons x a ih =>
    intro b hl h
    cases b with
    | nil => simp at hl
    | cons y b =>
      simp only [List.zipWith_cons_cons, List.all_cons, Bool.and_eq_true, id] at h
      obtain ⟨e1, e2⟩ := xf_eq_true h.1
      obtain ⟨i1, i2⟩ := ih b (by simpa using hl) h.2
      refine ⟨by rw [e1, i1], ?_⟩
      simp only [List.mem_cons, not_or]
      exact ⟨fun h => e2 h.symm, i2⟩

/-- ascending wavelengths, and NaN at the end when one is missing -/
noncomputable def withMissing (a : List ℝ) (missing : Prop) [Decidable missing] : List XF := finL a ++ if missing then [XF.nan] else []

theorem all_one {x : ℝ} {b : List ℝ} {q : Prop} [Decidable q] (hb : b.Pairwise (· < ·)) (hbn : b ≠ [])
    (h : ∀ y ∈ withMissing b q, y = fin x ∧ y ≠ XF.nan) : b = [x] ∧ ¬ q := by
  have hq : ¬ q := by
    intro hq
    exact (h XF.nan (by simp [withMissing, hq])).2 rfl
  refine ⟨?_, hq⟩
  have hx : ∀ y ∈ b, y = x := by
    intro y hy
    have := (h (fin y) (by unfold withMissing finL; simp [hy])).1
    exact (fin_inj _ _).1 this
  match b, hbn with
  | [y], _ => rw [hx y (by simp)]
  | y :: z :: t, _ =>
    have h1 := hx y (by simp)
    have h2 := hx z (by simp)
    have := (List.pairwise_cons.1 hb).1 z (by simp)
    rw [h1, h2] at this
    exact absurd this (lt_irrefl _)

theorem withMissing_one {a : List ℝ} {p : Prop} [Decidable p] {x : XF} (han : a ≠ []) (h : withMissing a p = [x]) :
    ∃ x', a = [x'] ∧ ¬ p ∧ x = fin x' := by
  match a, han with
  | [x'], _ =>
    unfold withMissing at h
    by_cases hp : p
    · simp [hp, finL] at h
    · refine ⟨x', rfl, hp, ?_⟩
      simp only [hp, if_false, finL_cons, List.append_nil, List.cons.injEq] at h
      exact h.1.symm
  | _ :: _ :: _, _ => simp [withMissing, finL] at h

theorem same_true {np : NumpyApi} {a b : List ℝ} {p q : Prop} [Decidable p] [Decidable q] (ha : a.Pairwise (· < ·))
    (hb : b.Pairwise (· < ·)) (han : a ≠ []) (hbn : b ≠ [])
    (h : sameWavelengths np (withMissing a p) (withMissing b q) = .ok true) : a = b ∧ ¬ p := by
  unfold sameWavelengths at h
  by_cases hnp : (!np.alltrue) = true
  · rw [if_pos hnp] at h; cases h
  rw [if_neg hnp] at h
  cases hm : NP.bcast2 (fun a b => PyNum.eq a b) (withMissing a p) (withMissing b q) with
  | error e =>
    rw [hm] at h
    simp only at h
    split_ifs at h <;> cases h
  | ok l =>
    rw [hm] at h
    have hall : l.all id = true := Except.ok.inj h
    rcases bcast2_ok hm with ⟨hl, rfl⟩ | ⟨x, hx, rfl⟩ | ⟨y, hy, rfl⟩
    · obtain ⟨e, hn⟩ := zip_all_eq _ _ hl hall
      have hp : ¬ p := by
        intro hp
        exact hn (by simp [withMissing, hp])
      have hq : ¬ q := by
        intro hq
        rw [e] at hn
        exact hn (by simp [withMissing, hq])
      refine ⟨?_, hp⟩
      unfold withMissing at e
      rw [if_neg hp, if_neg hq, List.append_nil, List.append_nil] at e
      exact finL_inj e
    · obtain ⟨x', rfl, hp, rfl⟩ := withMissing_one han hx
      rw [List.all_map, List.all_eq_true] at hall
      obtain ⟨e, _⟩ := all_one hb hbn (fun y hy => by
        obtain ⟨e1, e2⟩ := xf_eq_true (hall y hy)
        exact ⟨e1.symm, by rw [← e1]; exact e2⟩)
      exact ⟨e.symm, hp⟩
    · obtain ⟨y', rfl, _, rfl⟩ := withMissing_one hbn hy
      rw [List.all_map, List.all_eq_true] at hall
      exact all_one ha han (fun y hy => by
        obtain ⟨e1, e2⟩ := xf_eq_true (hall y hy)
        exact ⟨e1, e2⟩)

/-! ### One band -/

/-- the columns of a detector -/
noncomputable def colsOf (rows : List (Option ℝ × ℝ)) : RawCurve XF :=
  ⟨rows.map fun p => cell p.1, rows.map fun p => fin p.2⟩

theorem cols_unique (f32 : XF → XF) (rows : List (Option ℝ × ℝ)) :
    ∃ u cw, SortedUnique (present rows) u ∧
      uniqueValues (colsOf rows).wavelength = withMissing (u.map Prod.fst) (none ∈ rows.map Prod.fst) ∧
      getCentralWave (finL (u.map Prod.fst)) (finL (u.map Prod.snd)) = .ok cw ∧
      ∀ constant, viirsDetector f32 constant (colsOf rows) = .ok
        { attrs := [("central_wavelength", .num cw "")],
          datasets := (if constant then [] else [wavelengthSet f32 (finL (u.map Prod.fst))]) ++
            [("response", stored f32 (finL (u.map Prod.snd)) [])] } := by
  obtain ⟨u, hu, hs⟩ := uniquePairs_fin (present rows)
  obtain ⟨cw, hcw⟩ := centralWave_total (finL (u.map Prod.fst)) (finL (u.map Prod.snd)) (by simp)
  have hw1 : withoutNaN (rows.map fun p => cell p.1) (rows.map fun p => cell p.1) =
      .ok (finL ((present rows).map Prod.fst)) := by
    unfold withoutNaN
    rw [if_pos rfl, List.map_map]
    congr 1
    rw [select_filter]
    exact present_fst rows
  have hw2 : withoutNaN (rows.map fun p => cell p.1) (rows.map fun p => fin p.2) =
      .ok (finL ((present rows).map Prod.snd)) := by
    unfold withoutNaN
    rw [if_pos (by simp), List.map_map]
    congr 1
    rw [select_filter]
    exact present_snd rows
  have hz : (finL ((present rows).map Prod.fst)).zip (finL ((present rows).map Prod.snd)) = finP (present rows) := by
    unfold finL finP
    rw [List.map_map, List.map_map, List.zip_map']
    rfl
  refine ⟨u, cw, hs, ?_, hcw, ?_⟩
  · unfold uniqueValues withMissing colsOf
    congr 1
    · have : (rows.map fun p => cell p.1).filter (fun x => !isNaN x) = (finP (present rows)).map Prod.fst := by
        rw [finP_fst]
        rw [← present_fst, List.filter_map]
        rfl
      rw [this, List.map_map, ← finP_fst, ← hu, ← uniquePairs_fst (finP (present rows))]
      rfl
    · exact missing_one rows
  · intro constant
    unfold viirsDetector colsOf
    simp only [hw1, hw2, bind, Except.bind, hz, hu, finP_fst, finP_snd, hcw]
    rfl

theorem constant_run (np : NumpyApi) (wvl : List α) (others : List (RawCurve α))
    (h : ∀ c ∈ others, ∃ b, sameWavelengths np wvl (uniqueValues c.wavelength) = .ok b) :
    ∃ b, viirsConstant np wvl others = .ok b ∧
      (b = true → ∀ c ∈ others, sameWavelengths np wvl (uniqueValues c.wavelength) = .ok true) := by
  have : ∀ acc : Bool, ∃ b, others.foldlM (fun constant c => do
      let same ← sameWavelengths np wvl (uniqueValues c.wavelength)
      return constant && same) acc = (.ok b : Py Bool) ∧
      (b = true → acc = true ∧ ∀ c ∈ others, sameWavelengths np wvl (uniqueValues c.wavelength) = .ok true) := by
    induction others with
    | nil => intro acc; exact ⟨acc, rfl, fun h => ⟨h, by simp⟩⟩
    | cons c l ih =>
      intro acc
      obtain ⟨s, hs⟩ := h c (by simp)
      obtain ⟨b, hb, hb2⟩ := ih (fun c hc => h c (by simp [hc])) (acc && s)
      refine ⟨b, ?_, ?_⟩
      · rw [List.foldlM_cons, hs]
        exact hb
      · intro ht
        obtain ⟨h1, h2⟩ := hb2 ht
        rw [Bool.and_eq_true] at h1
        refine ⟨h1.1, ?_⟩
        intro c' hc'
        rcases List.mem_cons.1 hc' with rfl | hc'
        · rw [hs, h1.2]
        · exact h2 c' hc'
  obtain ⟨b, h1, h2⟩ := this true
  exact ⟨b, h1, fun ht => (h2 ht).2⟩

/-- the loop over the detectors -/
theorem detectors_run (f32 : α → α) (band : String) (constant : Bool) (D : String × RawCurve α → H5Det α)
    (L : List (String × RawCurve α)) (hD : ∀ p ∈ L, viirsDetector f32 constant p.2 = .ok (D p))
    (at_ : Attrs α) (groups : Dict String (H5Band α)) : ∀ B : H5Band α, (L.map Prod.fst).Nodup →
    (∀ p ∈ L, p.1 ∉ B.dets.keys) →
    PySt.forEach (viirsDetectorSteps f32 band constant) L ⟨at_, groups.set band B⟩ =
      (.ok (), ⟨at_, groups.set band { B with dets := B.dets ++ L.map fun p => (p.1, D p) }⟩) := by
  induction L with
  | nil => intro B _ _; simp only [List.map_nil, List.append_nil]; rfl
  | cons p L ih =>
    intro B hnd hdis
    rw [List.map_cons, List.nodup_cons] at hnd
    rw [st_forEach_cons]
    have hstep : viirsDetectorSteps f32 band constant p ⟨at_, groups.set band B⟩ =
        (.ok (), ⟨at_, groups.set band { B with dets := B.dets ++ [(p.1, D p)] }⟩) := by
      unfold viirsDetectorSteps
      rw [st_bind_ok (st_lift_ok (hD p (by simp)) _)]
      show ((.ok () : Py Unit), H5File.onBand _ _ _) = _
      unfold H5File.onBand
      simp only [get?_set_self, Option.getD_some, set_set, H5Band.onDet]
      rw [set_new _ (hdis p (by simp))]
    rw [st_bind_ok hstep, ih (fun q hq => hD q (by simp [hq])) _ hnd.2]
    · simp
    · intro q hq
      simp only [Dict.keys, List.map_append, List.map_cons, List.map_nil, List.mem_append, List.mem_singleton, not_or]
      refine ⟨hdis q (by simp [hq]), ?_⟩
      intro he
      exact hnd.1 (by rw [← he]; exact List.mem_map_of_mem hq)

/-- What the group of a band holds for a detector with these rows. -/
def StoredRows (f32 : XF → XF) (B : H5Band XF) (det : String) (rows : List (Option ℝ × ℝ)) : Prop :=
  ∃ u cw D, SortedUnique (present rows) u ∧
    getCentralWave (finL (u.map Prod.fst)) (finL (u.map Prod.snd)) = .ok cw ∧
    B.dets.get? det = some D ∧ D.attrs.get? "central_wavelength" = some (.num cw "") ∧
    D.datasets.get? "response" = some (stored f32 (finL (u.map Prod.snd)) []) ∧
    (scaledData D.datasets = some ((finL (u.map Prod.fst)).map f32, .num 1e-6 "") ∨
      (scaledData D.datasets = none ∧ scaledData B.datasets = some ((finL (u.map Prod.fst)).map f32, .num 1e-6 "")))

theorem sorted_fst {l u : List (ℝ × ℝ)} (h : SortedUnique l u) : (u.map Prod.fst).Pairwise (· < ·) := by
  rw [List.pairwise_map]
  exact h.1

theorem sorted_ne_nil {l u : List (ℝ × ℝ)} (h : SortedUnique l u) (hl : l ≠ []) : u.map Prod.fst ≠ [] := by
  cases l with
  | nil => exact absurd rfl hl
  | cons p t =>
    have : p ∈ u := (h.2 p).2 ⟨[], t, rfl, by simp⟩
    intro e
    rw [List.map_eq_nil_iff] at e
    rw [e] at this
    cases this

/-- Comparing the distinct wavelengths of two detectors does not raise. -/
def Comparable (np : NumpyApi) (a b : List (Option ℝ × ℝ)) : Prop :=
  np.unevenRaises = true → ∀ u v, SortedUnique (present a) u → SortedUnique (present b) v →
    (withMissing (u.map Prod.fst) (none ∈ a.map Prod.fst)).length =
      (withMissing (v.map Prod.fst) (none ∈ b.map Prod.fst)).length

theorem band_run (np : NumpyApi) (hnp : np.alltrue = true) (f32 : XF → XF) (S : ViirsSetup XF) (platform band : String)
    (out : String) (n : Nat) (hn : 0 < n) (R : Nat → List (Option ℝ × ℝ))
    (hr : ViirsRSR S band platform = .ok ⟨out, (List.range n).map fun i => (detName i, colsOf (R i))⟩)
    (hne : ∀ i < n, present (R i) ≠ []) (hc : ∀ i < n, Comparable np (R 0) (R i))
    (h1 : n = 1 → none ∉ (R 0).map Prod.fst) :
    ∃ B, (∀ (at_ : Attrs XF) (groups : Dict String (H5Band XF)), band ∉ groups.keys →
        viirsBandSteps np f32 S platform band ⟨at_, groups⟩ = (.ok (), ⟨at_, groups ++ [(band, B)]⟩)) ∧
      B.attrs.get? "number_of_detectors" = some (.int n) ∧ ∀ i < n, StoredRows f32 B (detName i) (R i) := by
  have hu := fun i => cols_unique f32 (R i)
  choose u cw u1 u2 u3 u4 using hu
  obtain ⟨m, rfl⟩ : ∃ m, n = m + 1 := ⟨n - 1, by omega⟩
  have hlist : ((List.range (m + 1)).map fun i => (detName i, colsOf (R i))) =
      (detName 0, colsOf (R 0)) :: (List.range m).map fun i => (detName (i + 1), colsOf (R (i + 1))) := by
    rw [List.range_succ_eq_map, List.map_cons, List.map_map]
    rfl
  obtain ⟨constant, hcon, hcon2⟩ := constant_run np (uniqueValues (colsOf (R 0)).wavelength)
    (((List.range m).map fun i => (detName (i + 1), colsOf (R (i + 1)))).map Prod.snd) (by
      intro c hcm
      simp only [List.map_map, List.mem_map, List.mem_range, Function.comp] at hcm
      obtain ⟨i, hi, rfl⟩ := hcm
      rw [u2, u2]
      unfold sameWavelengths
      rw [hnp]
      simp only [Bool.not_true, Bool.false_eq_true, if_false]
      cases hm : NP.bcast2 (fun a b => PyNum.eq a b) (withMissing ((u 0).map Prod.fst) (none ∈ (R 0).map Prod.fst))
        (withMissing ((u (i + 1)).map Prod.fst) (none ∈ (R (i + 1)).map Prod.fst)) with
      | ok l => exact ⟨_, rfl⟩
      | error e =>
        cases hr : np.unevenRaises with
        | false => exact ⟨false, rfl⟩
        | true =>
          rw [bcast2_eq_len _ _ _ (hc (i + 1) (by omega) hr _ _ (u1 0) (u1 (i + 1)))] at hm
          cases hm)
  have hsame : constant = true → ∀ i < m + 1, (u 0).map Prod.fst = (u i).map Prod.fst ∧ none ∉ (R 0).map Prod.fst := by
    intro ht i hi
    cases i with
    | zero =>
      refine ⟨rfl, ?_⟩
      cases m with
      | zero => exact h1 rfl
      | succ m =>
        have := hcon2 ht (colsOf (R 1)) (by
          simp only [List.map_map, List.mem_map, List.mem_range, Function.comp]
          exact ⟨0, by omega, rfl⟩)
        rw [u2, u2] at this
        exact (same_true (sorted_fst (u1 0)) (sorted_fst (u1 1)) (sorted_ne_nil (u1 0) (hne 0 (by omega)))
          (sorted_ne_nil (u1 1) (hne 1 (by omega))) this).2
    | succ i =>
      have := hcon2 ht (colsOf (R (i + 1))) (by
        simp only [List.map_map, List.mem_map, List.mem_range, Function.comp]
        exact ⟨i, by omega, rfl⟩)
      rw [u2, u2] at this
      exact same_true (sorted_fst (u1 0)) (sorted_fst (u1 _)) (sorted_ne_nil (u1 0) (hne 0 (by omega)))
        (sorted_ne_nil (u1 _) (hne _ hi)) this
  have hDex : ∀ p ∈ (List.range (m + 1)).map (fun i => (detName i, colsOf (R i))),
      ∃ D, viirsDetector f32 constant p.2 = .ok D := by
    intro p hp
    obtain ⟨i, _, rfl⟩ := List.mem_map.1 hp
    exact ⟨_, u4 i constant⟩
  let D : String × RawCurve XF → H5Det XF := fun p => match viirsDetector f32 constant p.2 with
    | .ok D => D
    | .error _ => ⟨[], []⟩
  have hD : ∀ p ∈ (List.range (m + 1)).map (fun i => (detName i, colsOf (R i))),
      viirsDetector f32 constant p.2 = .ok (D p) := by
    intro p hp
    obtain ⟨D', hD'⟩ := hDex p hp
    show _ = Except.ok (match viirsDetector f32 constant p.2 with | .ok D => D | .error _ => ⟨[], []⟩)
    rw [hD']
  let B0 : H5Band XF := ⟨[("number_of_detectors", .int (m + 1 : Nat))],
    if constant then [wavelengthSet f32 (uniqueValues (colsOf (R 0)).wavelength)] else [], []⟩
  have hdets := fun at_ groups => detectors_run f32 band constant D _ hD at_ groups B0
    (by
      rw [List.map_map]
      exact names_nodup (m + 1)) (by intro p _; simp [B0, Dict.keys])
  refine ⟨{ B0 with dets := B0.dets ++ ((List.range (m + 1)).map fun i => (detName i, colsOf (R i))).map fun p => (p.1, D p) },
    ?_, rfl, ?_⟩
  · intro at_ groups hb
    rw [← set_new _ hb, ← hdets]
    unfold viirsBandSteps
    rw [st_bind_ok (st_lift_ok hr _)]
    have hcontains : groups.contains band = false := by
      have := get?_eq_none_iff.2 hb
      simp [Dict.contains, this]
    rw [st_bind_ok (a := ()) (s' := ⟨at_, groups.set band H5Band.empty⟩) (by rw [createBand_run]; simp [hcontains])]
    rw [st_bind_ok (a := ()) (s' := ⟨at_, groups.set band ⟨[("number_of_detectors", .int (m + 1 : Nat))], [], []⟩⟩) (by
      show ((.ok () : Py Unit), H5File.onBand _ _ _) = _
      unfold H5File.onBand
      simp only [get?_set_self, Option.getD_some, set_set, List.length_map, List.length_range]
      rfl)]
    simp only [hlist]
    rw [st_bind_ok (st_lift_ok hcon _)]
    cases hct : constant with
    | false =>
      simp only [Bool.false_eq_true, if_false]
      simp only [B0, hct]
      rfl
    | true =>
      simp only [if_true]
      rw [st_bind_ok (a := ()) (s' := ⟨at_, groups.set band B0⟩) (by
        show ((.ok () : Py Unit), H5File.onBand _ _ _) = _
        unfold H5File.onBand
        simp only [get?_set_self, Option.getD_some, set_set, B0, hct, if_true]
        rfl)]
  · intro i hi
    have hgetD : Dict.get? (((List.range (m + 1)).map fun i => (detName i, colsOf (R i))).map fun p => (p.1, D p)) (detName i) =
        some (D (detName i, colsOf (R i))) := by
      refine get?_of_mem ?_ ?_
      · simp only [Dict.WF, List.map_map, Function.comp_def]
        exact names_nodup (m + 1)
      · rw [List.map_map]
        exact List.mem_map.2 ⟨i, by simpa using hi, rfl⟩
    have hDi := hD (detName i, colsOf (R i)) (List.mem_map.2 ⟨i, by simpa using hi, rfl⟩)
    rw [u4 i constant] at hDi
    refine ⟨u i, cw i, D (detName i, colsOf (R i)), u1 i, u3 i, hgetD, ?_, ?_, ?_⟩
    · rw [← Except.ok.inj hDi]; rfl
    · rw [← Except.ok.inj hDi]
      cases constant <;> rfl
    · rw [← Except.ok.inj hDi]
      cases hct : constant with
      | false => left; rfl
      | true =>
        right
        refine ⟨rfl, ?_⟩
        obtain ⟨e, hm⟩ := hsame hct i hi
        show scaledData B0.datasets = _
        simp only [B0, hct, if_true]
        rw [u2 0, ← e]
        unfold withMissing
        rw [if_neg hm, List.append_nil]
        rfl

/-! ### The whole file -/

/-- The rows of detector i+1 in a table of (detector, wavelength in nm or missing, response), with
wavelengths in micron. -/
noncomputable def detectorRows (rows : List (Int × Option ℝ × ℝ)) (i : Nat) : List (Option ℝ × ℝ) :=
  (rows.filter fun r => r.1 == (i : Int) + 1).map fun r => (r.2.1.map (· / 1000), r.2.2)

/-- The configured file of the band holds this table. -/
def HasTable (S : ViirsSetup XF) (platform band : String) (rows : List (Int × Option ℝ × ℝ)) : Prop :=
  ∃ conf path, S.options.get? (platform ++ "-viirs") = some conf ∧ BandFile S.compose conf band path ∧
    S.files path = some (rows.map fun r => ⟨r.1, cell r.2.1, fin r.2.2⟩)

/-- `n` is the greatest detector number of the table. -/
def Greatest (rows : List (Int × Option ℝ × ℝ)) (n : Nat) : Prop :=
  (∃ r ∈ rows, r.1 = n) ∧ ∀ r ∈ rows, r.1 ≤ n

theorem list_of_keys {β : Type} (d : Dict String β) (n : Nat) (v : Nat → β) (hk : d.keys = (List.range n).map detName)
    (hg : ∀ i < n, d.get? (detName i) = some (v i)) : d = (List.range n).map fun i => (detName i, v i) := by
  have hlen : d.length = n := by
    have := congrArg List.length hk
    simpa [Dict.keys] using this
  have hwf : d.WF := by
    show d.keys.Nodup
    rw [hk]; exact names_nodup n
  refine List.ext_getElem (by simp [hlen]) ?_
  intro i h1 h2
  have hi : i < n := by omega
  have e1 : d[i].1 = detName i := by
    have hki : i < d.keys.length := by simpa [Dict.keys] using h1
    have : d.keys[i] = ((List.range n).map detName)[i]'(by simpa using hi) := by
      simp only [hk]
    simpa [Dict.keys] using this
  have e2 := get?_of_mem hwf (k := d[i].1) (v := d[i].2) (List.getElem_mem h1)
  rw [e1, hg i hi] at e2
  rw [List.getElem_map, List.getElem_range]
  exact Prod.ext e1 (Option.some.inj e2).symm

theorem viirsRSR_run (S : ViirsSetup XF) (platform band : String) (rows : List (Int × Option ℝ × ℝ)) (n : Nat)
    (h : HasTable S platform band rows) (hn : Greatest rows n) :
    ViirsRSR S band platform = .ok ⟨S.output_dir, (List.range n).map fun i => (detName i, colsOf (detectorRows rows i))⟩ := by
  obtain ⟨conf, path, h1, h2, h3⟩ := h
  obtain ⟨⟨r0, hr0, e0⟩, hle⟩ := hn
  have hd : viirsDetectors (rows.map fun r => (⟨r.1, cell r.2.1, fin r.2.2⟩ : ViirsRow XF)) =
      .ok ((List.range n).map fun i => (detName i, colsOf (detectorRows rows i))) := by
    obtain ⟨out, m, d1, ⟨r, hr, hm⟩, d3, d4, d5⟩ := C107_detectors
      (rows.map fun r => (⟨r.1, cell r.2.1, fin r.2.2⟩ : ViirsRow XF)) (by
        intro e
        rw [List.map_eq_nil_iff] at e
        rw [e] at hr0; cases hr0) 0.001
    obtain ⟨r1, hr1, rfl⟩ := List.mem_map.1 hr
    have hmn : m = n := by
      have a := hle r1 hr1
      have b := d3 _ (List.mem_map.2 ⟨r0, hr0, rfl⟩)
      simp only at hm b
      omega
    subst hmn
    rw [Int.toNat_natCast] at d4 d5
    rw [d1]
    congr 1
    refine list_of_keys out n _ d4 ?_
    intro i hi
    rw [d5 i hi]
    unfold colsOf detectorRows
    congr 2
    · rw [List.filter_map, List.map_map, List.map_map]
      refine List.map_congr_left ?_
      intro r _
      show cell r.2.1 * (0.001 : XF) = cell (r.2.1.map (· / 1000))
      cases r.2.1 with
      | none => rfl
      | some w =>
        show fin w * (0.001 : XF) = fin (w / 1000)
        rw [ofSci_eq, fin_mul, fin_inj]
        norm_num
        ring
    · rw [List.filter_map, List.map_map, List.map_map]
      rfl
  unfold ViirsRSR
  rw [getItem_ok_iff.2 h1]
  simp only [bind, Except.bind]
  rw [viirsFilenames_get h2]
  simp only [h3]
  rw [hd]
  rfl

theorem bands_run (step : String → PySt (H5File α) Unit) (B : String → H5Band α) (at_ : Attrs α) (L : List String) :
    ∀ groups : Dict String (H5Band α),
    (∀ b ∈ L, ∀ groups : Dict String (H5Band α), b ∉ groups.keys →
      step b ⟨at_, groups⟩ = (.ok (), ⟨at_, groups ++ [(b, B b)]⟩)) → L.Nodup → (∀ b ∈ L, b ∉ groups.keys) →
    PySt.forEach step L ⟨at_, groups⟩ = (.ok (), ⟨at_, groups ++ L.map fun b => (b, B b)⟩) := by
  induction L with
  | nil => intro groups _ _ _; simp only [List.map_nil, List.append_nil]; rfl
  | cons b L ih =>
    intro groups hs hnd hdis
    rw [List.nodup_cons] at hnd
    rw [st_forEach_cons, st_bind_ok (hs b (by simp) groups (hdis b (by simp))), ih _ (fun c hc => hs c (by simp [hc])) hnd.2]
    · simp
    · intro c hc
      simp only [Dict.keys, List.map_append, List.map_cons, List.map_nil, List.mem_append, List.mem_singleton, not_or]
      refine ⟨hdis c (by simp [hc]), ?_⟩
      rintro rfl
      exact hnd.1 hc

theorem viirsNames_nodup : VIIRS_BAND_NAMES.Nodup := by decide +kernel

/-- C149 (with a numpy that has `alltrue`): whatever the tables and the numbers of detectors, if
every detector has a sample whose wavelength is there (and none is missing in a band with a single
detector), converting VIIRS writes `rsr_viirs_<platform>.h5`, and reading it back gives every band
and detector its own samples: the different wavelengths in ascending order, each with the response
of the first sample at it (both in 32 bit), and their central wavelength.  Missing: no such file is
written with numpy 2, see `C149_new_numpy`. -/
theorem C149_roundtrip_partial (np : NumpyApi) (hnp : np.alltrue = true) (f32 : XF → XF) (S : ViirsSetup XF)
    (platform : String) (rows : String → List (Int × Option ℝ × ℝ)) (n : String → Nat)
    (ht : ∀ b ∈ VIIRS_BAND_NAMES, HasTable S platform b (rows b) ∧ 0 < n b ∧ Greatest (rows b) (n b) ∧
      (∀ i < n b, present (detectorRows (rows b) i) ≠ []) ∧
      (∀ i < n b, Comparable np (detectorRows (rows b) 0) (detectorRows (rows b) i)) ∧
      (n b = 1 → none ∉ (detectorRows (rows b) 0).map Prod.fst)) (fs : H5Files XF) :
    ∃ file info, createViirsRsr np f32 S platform fs =
        (.ok (), fs.put (S.output_dir, "rsr_viirs_" ++ platform ++ ".h5") file) ∧
      loadRsrInfo file = .ok info ∧ info.instrument = .str "viirs" ∧ info.band_names = VIIRS_BAND_NAMES ∧
      info.rsr.keys = VIIRS_BAND_NAMES ∧
      ∀ b ∈ VIIRS_BAND_NAMES, ∃ B, info.rsr.get? b = some B ∧ B.keys = (List.range (n b)).map detName ∧
        ∀ i < n b, ∃ u cw, SortedUnique (present (detectorRows (rows b) i)) u ∧
          getCentralWave (finL (u.map Prod.fst)) (finL (u.map Prod.snd)) = .ok cw ∧
          B.get? (detName i) = some (detEntry ((finL (u.map Prod.snd)).map f32)
            (readBack f32 (finL (u.map Prod.fst))) cw) := by
  have hB : ∀ b, ∃ B : H5Band XF, b ∈ VIIRS_BAND_NAMES →
      (∀ groups : Dict String (H5Band XF), b ∉ groups.keys →
        viirsBandSteps np f32 S platform b ⟨viirsAttrs platform, groups⟩ =
          (.ok (), ⟨viirsAttrs platform, groups ++ [(b, B)]⟩)) ∧
      B.attrs.get? "number_of_detectors" = some (.int (n b)) ∧
      ∀ i < n b, StoredRows f32 B (detName i) (detectorRows (rows b) i) := by
    intro b
    by_cases hb : b ∈ VIIRS_BAND_NAMES
    · obtain ⟨h1, h2, h3, h4, h5, h6⟩ := ht b hb
      obtain ⟨B, b1, b2, b3⟩ := band_run np hnp f32 S platform b S.output_dir (n b) h2 (detectorRows (rows b))
        (viirsRSR_run S platform b (rows b) (n b) h1 h3) h4 h5 h6
      exact ⟨B, fun _ => ⟨b1 _, b2, b3⟩⟩
    · exact ⟨H5Band.empty, fun h => absurd h hb⟩
  choose B hB using hB
  have hloop := bands_run (viirsBandSteps np f32 S platform) B (viirsAttrs platform) VIIRS_BAND_NAMES []
    (fun b hb => (hB b hb).1) viirsNames_nodup (by intro b _; simp [Dict.keys])
  rw [List.nil_append] at hloop
  generalize hfile : (H5File.mk (viirsAttrs platform) (VIIRS_BAND_NAMES.map fun b => (b, B b)) : H5File XF) = file at hloop
  have hget : ∀ b ∈ VIIRS_BAND_NAMES, file.bands.get? b = some (B b) := by
    intro b hb
    rw [← hfile]
    refine get?_of_mem ?_ (List.mem_map.2 ⟨b, hb, rfl⟩)
    simp only [Dict.WF, List.map_map, Function.comp_def, List.map_id']
    exact viirsNames_nodup
  have hdata : ∀ b i, ∃ (u : List (ℝ × ℝ)) (cw : XF), b ∈ VIIRS_BAND_NAMES → i < n b →
      SortedUnique (present (detectorRows (rows b) i)) u ∧
      getCentralWave (finL (u.map Prod.fst)) (finL (u.map Prod.snd)) = .ok cw ∧
      ∃ D, (B b).dets.get? (detName i) = some D ∧ D.attrs.get? "central_wavelength" = some (.num cw "") ∧
        D.datasets.get? "response" = some (stored f32 (finL (u.map Prod.snd)) []) ∧
        (scaledData D.datasets = some ((finL (u.map Prod.fst)).map f32, .num 1e-6 "") ∨
          (scaledData D.datasets = none ∧
            scaledData (B b).datasets = some ((finL (u.map Prod.fst)).map f32, .num 1e-6 ""))) := by
    intro b i
    by_cases hb : b ∈ VIIRS_BAND_NAMES
    · by_cases hi : i < n b
      · obtain ⟨u, cw, D, h1, h2, h3, h4, h5, h6⟩ := (hB b hb).2.2 i hi
        exact ⟨u, cw, fun _ _ => ⟨h1, h2, D, h3, h4, h5, h6⟩⟩
      · exact ⟨[], .nan, fun _ h => absurd h hi⟩
    · exact ⟨[], .nan, fun h => absurd h hb⟩
  choose U Z hdata using hdata
  obtain ⟨info, g1, g2, _, g3, g4, g5⟩ := load_of_items_sensor file VIIRS_BAND_NAMES viirsNames_nodup
    ⟨.object_, VIIRS_BAND_NAMES.map .str, "", by rw [← hfile]; rfl, textOf_map _⟩
    "Relative Spectral Responses for VIIRS" _ (by rw [← hfile]; rfl) ⟨_, _, rfl, .str _⟩ platform platform
    (by rw [← hfile]; rfl) "viirs" "viirs" (by rw [← hfile]; rfl) n
    (fun b i => readBack f32 (finL ((U b i).map Prod.fst))) (fun b i => (finL ((U b i).map Prod.snd)).map f32) Z (by
      intro b hb
      exact Or.inl ⟨_, _, hget b hb, (hB b hb).2.1, by simp⟩) (by
      intro b hb i hi
      obtain ⟨_, _, D, d1, d2, d3, d4⟩ := hdata b i hb hi
      have hgb := hget b hb
      refine ⟨⟨_, hgb, Or.inl ⟨D, d1, by dsimp only; rw [d3]; rfl⟩⟩,
        ⟨(finL ((U b i).map Prod.fst)).map f32, .num 1e-6 "", 1e-6, ⟨_, hgb, ?_⟩, Or.inr ⟨_, rfl⟩, rfl⟩,
        ⟨_, ⟨_, hgb, Or.inl ⟨D, d1, d2⟩⟩, Or.inr ⟨_, rfl⟩⟩⟩
      rcases d4 with d4 | ⟨d4, d5⟩
      · exact Or.inl ⟨D, d1, d4⟩
      · refine Or.inr ⟨?_, d5⟩
        intro D' hD'
        rw [d1] at hD'
        cases hD'
        exact d4)
  refine ⟨file, info, ?_, g1, g3, g2, g4, ?_⟩
  · have hM1 : "M1" ∈ VIIRS_BAND_NAMES := by decide
    unfold createViirsRsr
    rw [st_bind_ok (st_lift_ok (viirsRSR_run S platform "M1" (rows "M1") (n "M1") (ht _ hM1).1 (ht _ hM1).2.2.1) _)]
    simp only [hloop]
    rfl
  · intro b hb
    obtain ⟨B', c1, c2, c3⟩ := g5 b hb
    refine ⟨B', c1, c2, ?_⟩
    intro i hi
    obtain ⟨h1, h2, _⟩ := hdata b i hb hi
    exact ⟨U b i, Z b i, h1, h2, c3 i hi⟩

/-! ### When it fails -/

theorem not_loaded_absent (f : H5File α) (names : List String) (hl : ListsBands f names) (b : String) (hb : b ∈ names)
    (hB : f.bands.get? b = none) (info : RsrInfo α) : loadRsrInfo f ≠ .ok info := by
  intro h
  obtain ⟨_, _, _, h4, _, h6⟩ := C40_loaded_data f info h
  obtain ⟨R, _, n, hc, _, hd⟩ := h6 b (by rw [h4 names hl]; exact hb)
  have hn : n = 1 := by
    rcases hc with ⟨B', m, hB', _⟩ | ⟨_, rfl⟩
    · rw [hB] at hB'; cases hB'
    · rfl
  obtain ⟨r, w, c, ⟨B', hB', _⟩, _⟩ := hd 0 (by omega)
  rw [hB] at hB'; cases hB'

/-- A step that writes into one band group only. -/
def OnlyBand {β : Type} (m : PySt (H5File α) β) (band : String) : Prop :=
  ∀ f, (m f).2.attrs = f.attrs ∧ ∀ b, b ≠ band → (m f).2.bands.get? b = f.bands.get? b

theorem OnlyBand.bind {β γ : Type} {m : PySt (H5File α) β} {k : β → PySt (H5File α) γ} {band : String}
    (hm : OnlyBand m band) (hk : ∀ a, OnlyBand (k a) band) : OnlyBand (m >>= k) band := by
  intro f
  obtain ⟨h1, h2⟩ := hm f
  cases hr : m f with
  | mk r f' =>
    rw [hr] at h1 h2
    cases r with
    | error e => rw [st_bind_error hr]; exact ⟨h1, h2⟩
    | ok a =>
      rw [st_bind_ok hr]
      obtain ⟨k1, k2⟩ := hk a f'
      exact ⟨k1.trans h1, fun b hb => (k2 b hb).trans (h2 b hb)⟩

theorem OnlyBand.lift {β : Type} (p : Py β) (band : String) : OnlyBand (PySt.lift p : PySt (H5File α) β) band :=
  fun _ => ⟨rfl, fun _ _ => rfl⟩

theorem OnlyBand.change (band : String) (g : H5Band α → H5Band α) : OnlyBand (changeBand band g) band :=
  fun _ => ⟨rfl, fun _ hb => get?_set_ne _ _ hb⟩

theorem OnlyBand.create (band : String) : OnlyBand (createBand band : PySt (H5File α) Unit) band := by
  intro f
  rw [createBand_run]
  split_ifs
  · exact ⟨rfl, fun _ _ => rfl⟩
  · exact ⟨rfl, fun _ hb => get?_set_ne _ _ hb⟩

theorem OnlyBand.each {β : Type} (step : β → PySt (H5File α) Unit) (band : String) (h : ∀ a, OnlyBand (step a) band)
    (L : List β) : OnlyBand (PySt.forEach step L) band := by
  induction L with
  | nil => exact fun _ => ⟨rfl, fun _ _ => rfl⟩
  | cons a L ih => exact OnlyBand.bind (h a) (fun _ => ih)

theorem viirsBand_only (np : NumpyApi) (f32 : α → α) (S : ViirsSetup α) (platform band : String) :
    OnlyBand (viirsBandSteps np f32 S platform band) band := by
  unfold viirsBandSteps
  refine .bind (.lift _ _) fun v => .bind (.create _) fun _ => .bind (.change _ _) fun _ => ?_
  split
  · exact fun _ => ⟨rfl, fun _ _ => rfl⟩
  · refine .bind (.lift _ _) fun constant => ?_
    cases constant with
    | false => exact .each _ _ (fun _ => .bind (.lift _ _) fun _ => .change _ _) _
    | true => exact .bind (.change _ _) fun _ => .each _ _ (fun _ => .bind (.lift _ _) fun _ => .change _ _) _

theorem bands_fail (np : NumpyApi) (f32 : α → α) (S : ViirsSetup α) (platform band : String) (e : PyErr)
    (he : ViirsRSR S band platform = .error e) (L : List String) : ∀ f : H5File α, f.bands.get? band = none →
    ((PySt.forEach (viirsBandSteps np f32 S platform) L f).2.attrs = f.attrs ∧
      (PySt.forEach (viirsBandSteps np f32 S platform) L f).2.bands.get? band = none) ∧
    (band ∈ L → ∃ e', (PySt.forEach (viirsBandSteps np f32 S platform) L f).1 = .error e') := by
  induction L with
  | nil => intro f hf; exact ⟨⟨rfl, hf⟩, by simp⟩
  | cons b L ih =>
    intro f hf
    rw [st_forEach_cons]
    by_cases hb : b = band
    · subst hb
      have : viirsBandSteps np f32 S platform b f = (.error e, f) := by
        unfold viirsBandSteps
        exact st_bind_error (st_lift_error he f)
      rw [st_bind_error this]
      exact ⟨⟨rfl, hf⟩, fun _ => ⟨e, rfl⟩⟩
    · obtain ⟨h1, h2⟩ := viirsBand_only np f32 S platform b f
      have h2 := h2 band (fun h => hb h.symm)
      cases hr : viirsBandSteps np f32 S platform b f with
      | mk r f' =>
        rw [hr] at h1 h2
        cases r with
        | error e' =>
          rw [st_bind_error hr]
          exact ⟨⟨h1, h2.trans hf⟩, fun _ => ⟨e', rfl⟩⟩
        | ok _ =>
          rw [st_bind_ok hr]
          obtain ⟨⟨i1, i2⟩, i3⟩ := ih f' (h2.trans hf)
          refine ⟨⟨i1.trans h1, i2⟩, fun hm => i3 ?_⟩
          rcases List.mem_cons.1 hm with h | h
          · exact absurd h.symm hb
          · exact h

theorem viirsAttrs_lists (f : H5File α) (platform : String) (h : f.attrs = viirsAttrs platform) :
    ListsBands f VIIRS_BAND_NAMES :=
  ⟨.object_, VIIRS_BAND_NAMES.map .str, "", by rw [h]; rfl, textOf_map _⟩

/-- C149, when a file is missing: if the data of M1 can be read but the file of another band does
not exist, the conversion fails, the response file that was there before is lost, and the new one
cannot be read. -/
theorem C149_missing_file_destroys (np : NumpyApi) (f32 : α → α) (S : ViirsSetup α) (platform : String)
    (first : DetectorsRSR α) (h1 : ViirsRSR S "M1" platform = .ok first) (band path : String)
    (hb : band ∈ VIIRS_BAND_NAMES) (conf : ViirsConf) (hc : S.options.get? (platform ++ "-viirs") = some conf)
    (hp : BandFile S.compose conf band path) (hf : S.files path = none) (fs : H5Files α) :
    ∃ e file, createViirsRsr np f32 S platform fs =
        (.error e, fs.put (first.output_dir, "rsr_viirs_" ++ platform ++ ".h5") file) ∧
      ∀ info, loadRsrInfo file ≠ .ok info := by
  have he : ViirsRSR S band platform = .error .ioError := by
    unfold ViirsRSR
    rw [getItem_ok_iff.2 hc]
    simp only [bind, Except.bind]
    rw [viirsFilenames_get hp]
    simp only [hf]
  obtain ⟨⟨i1, i2⟩, i3⟩ := bands_fail np f32 S platform band _ he VIIRS_BAND_NAMES ⟨viirsAttrs platform, []⟩ rfl
  obtain ⟨e, i3⟩ := i3 hb
  refine ⟨e, _, ?_, not_loaded_absent _ VIIRS_BAND_NAMES (viirsAttrs_lists _ platform i1) band hb i2⟩
  unfold createViirsRsr
  rw [st_bind_ok (st_lift_ok h1 _)]
  simp only [i3]
  rfl

/-- C149: nothing is changed when the data of M1 cannot be read. -/
theorem C149_first_band_unreadable (np : NumpyApi) (f32 : α → α) (S : ViirsSetup α) (platform : String) (e : PyErr)
    (h : ViirsRSR S "M1" platform = .error e) (fs : H5Files α) :
    createViirsRsr np f32 S platform fs = (.error e, fs) := by
  unfold createViirsRsr
  exact st_bind_error (st_lift_error h fs)

/-- C149 is false with numpy 2, which has no `alltrue`: as soon as M1 has two detectors the
conversion ends with an AttributeError, the response file that was there before is lost, and the
new one cannot be read. -/
theorem C149_new_numpy (np : NumpyApi) (hnp : np.alltrue = false) (f32 : α → α) (S : ViirsSetup α) (platform : String)
    (first : DetectorsRSR α) (h1 : ViirsRSR S "M1" platform = .ok first) (hd : 2 ≤ first.rsr.length) (fs : H5Files α) :
    ∃ file, createViirsRsr np f32 S platform fs =
        (.error .attributeError, fs.put (first.output_dir, "rsr_viirs_" ++ platform ++ ".h5") file) ∧
      ∀ info, loadRsrInfo file ≠ .ok info := by
  obtain ⟨out, rsr⟩ := first
  match rsr, hd with
  | p :: q :: rest, _ =>
    have hcon : viirsConstant np (uniqueValues p.2.wavelength) ((q :: rest).map Prod.snd) = .error .attributeError := by
      unfold viirsConstant
      rw [List.map_cons, List.foldlM_cons]
      unfold sameWavelengths
      rw [hnp]
      rfl
    have hM1 : viirsBandSteps np f32 S platform "M1" ⟨viirsAttrs platform, []⟩ =
        (.error .attributeError, ⟨viirsAttrs platform,
          [("M1", ⟨[("number_of_detectors", .int (p :: q :: rest).length)], [], []⟩)]⟩) := by
      unfold viirsBandSteps
      rw [st_bind_ok (st_lift_ok h1 _)]
      rw [st_bind_ok (a := ()) (s' := (⟨viirsAttrs platform, [("M1", H5Band.empty)]⟩ : H5File α)) (by rfl)]
      rw [st_bind_ok (a := ()) (s' := (⟨viirsAttrs platform,
          [("M1", ⟨[("number_of_detectors", .int (p :: q :: rest).length)], [], []⟩)]⟩ : H5File α)) (by rfl)]
      simp only
      exact st_bind_error (st_lift_error hcon _)
    have hloop : PySt.forEach (viirsBandSteps np f32 S platform) VIIRS_BAND_NAMES ⟨viirsAttrs platform, []⟩ =
        (.error .attributeError, ⟨viirsAttrs platform,
          [("M1", ⟨[("number_of_detectors", .int (p :: q :: rest).length)], [], []⟩)]⟩) :=
      st_bind_error hM1
    refine ⟨⟨viirsAttrs platform, [("M1", ⟨[("number_of_detectors", .int (p :: q :: rest).length)], [], []⟩)]⟩, ?_,
      not_loaded_absent _ VIIRS_BAND_NAMES (viirsAttrs_lists _ platform rfl) "M2" (by decide) (by rfl)⟩
    unfold createViirsRsr
    rw [st_bind_ok (st_lift_ok h1 _)]
    simp only [hloop]
    rfl

/-! ### Concrete cases -/

/-- two detectors; the second has two samples at 412 nm and one without wavelength -/
noncomputable def exRows : List (Int × Option ℝ × ℝ) :=
  [(2, some 413, 0.75), (1, some 412, 0.5), (2, some 412, 0.25), (1, some 413, 1), (2, some 412, 0.9), (2, none, 0.1)]

/-- every band in one section; a file per band -/
def exConf : ViirsConf := ⟨"/data", [⟨"rootdir", [], ""⟩, ⟨"section1", VIIRS_BAND_NAMES, "viirs_"⟩]⟩

/-- the original files; that of M7 is missing if so wished -/
noncomputable def exViirs (missing : Bool) : ViirsSetup XF where
  compose := fun pattern band => pattern ++ band
  options := [("NOAA-20-viirs", exConf)]
  output_dir := "/rsr"
  files := fun path => if missing ∧ path = "/data/viirs_M7" then none
    else some (exRows.map fun r => ⟨r.1, cell r.2.1, fin r.2.2⟩)

theorem exBandFile (b : String) (hb : b ∈ VIIRS_BAND_NAMES) : BandFile (exViirs false).compose exConf b ("/data/viirs_" ++ b) :=
  ⟨[⟨"rootdir", [], ""⟩], ⟨"section1", VIIRS_BAND_NAMES, "viirs_"⟩, [], rfl, by decide, hb, by simp, rfl⟩

theorem exHasTable (missing : Bool) (b : String) (hb : b ∈ VIIRS_BAND_NAMES) (hm : missing = true → b ≠ "M7") :
    HasTable (exViirs missing) "NOAA-20" b exRows := by
  refine ⟨exConf, _, rfl, exBandFile b hb, ?_⟩
  unfold exViirs
  dsimp only
  rw [if_neg]
  rintro ⟨h1, h2⟩
  have h3 : "/data/viirs_" ++ b = "/data/viirs_" ++ "M7" := h2
  refine hm h1 ?_
  have := congrArg String.toList h3
  rw [String.toList_append, String.toList_append] at this
  exact String.toList_inj.1 (List.append_cancel_left this)

theorem exGreatest : Greatest exRows 2 :=
  ⟨⟨(2, some 413, 0.75), by simp [exRows], rfl⟩, by simp [exRows]⟩

example (f32 : XF → XF) (fs : H5Files XF) : ∃ file info,
    createViirsRsr ⟨true, false⟩ f32 (exViirs false) "NOAA-20" fs = (.ok (), fs.put ("/rsr", "rsr_viirs_NOAA-20.h5") file) ∧
    loadRsrInfo file = .ok info ∧ ∃ B u cw, info.rsr.get? "I4" = some B ∧
      SortedUnique [(413 / 1000, 0.75), (412 / 1000, 0.25), (412 / 1000, 0.9)] u ∧
      B.get? "det-2" = some (detEntry ((finL (u.map Prod.snd)).map f32) (readBack f32 (finL (u.map Prod.fst))) cw) := by
  obtain ⟨file, info, h1, h2, _, _, _, h3⟩ := C149_roundtrip_partial ⟨true, false⟩ rfl f32 (exViirs false) "NOAA-20"
    (fun _ => exRows) (fun _ => 2) (fun b hb => ⟨exHasTable false b hb (by simp), by decide, exGreatest, by
      intro i hi
      have : i = 0 ∨ i = 1 := by omega
      rcases this with rfl | rfl <;> simp [exRows, detectorRows, present],
      (fun i _ h => by cases h), by simp⟩) fs
  obtain ⟨B, b1, _, b3⟩ := h3 "I4" (by decide)
  obtain ⟨u, cw, u1, _, u3⟩ := b3 1 (by decide)
  refine ⟨file, info, h1, h2, B, u, cw, b1, ?_, u3⟩
  have : present (detectorRows exRows 1) = [(413 / 1000, 0.75), (412 / 1000, 0.25), (412 / 1000, 0.9)] := by
    simp [exRows, detectorRows, present]
  rw [this] at u1
  exact u1

example (fs : H5Files XF) : ∃ e file, createViirsRsr ⟨true, false⟩ id (exViirs true) "NOAA-20" fs =
    (.error e, fs.put ("/rsr", "rsr_viirs_NOAA-20.h5") file) ∧ ∀ info, loadRsrInfo file ≠ .ok info :=
  C149_missing_file_destroys _ id (exViirs true) "NOAA-20" _
    (viirsRSR_run _ _ _ _ _ (exHasTable true "M1" (by decide) (by decide)) exGreatest) "M7" "/data/viirs_M7" (by decide)
    exConf rfl (exBandFile "M7" (by decide)) (by simp [exViirs]) fs

example (fs : H5Files XF) : ∃ file, createViirsRsr ⟨false, true⟩ id (exViirs false) "NOAA-20" fs =
    (.error .attributeError, fs.put ("/rsr", "rsr_viirs_NOAA-20.h5") file) ∧ ∀ info, loadRsrInfo file ≠ .ok info :=
  C149_new_numpy _ rfl id (exViirs false) "NOAA-20" _
    (viirsRSR_run _ _ _ _ _ (exHasTable false "M1" (by decide) (by decide)) exGreatest) (by simp) fs

example (fs : H5Files XF) : createViirsRsr ⟨true, true⟩ id (exViirs false) "NOAA-21" fs = (.error .keyError, fs) :=
  C149_first_band_unreadable _ id _ _ _ (by
    unfold ViirsRSR
    rw [getItem_err_iff.2 ⟨rfl, by decide⟩]
    rfl) fs

end Verif.Props
