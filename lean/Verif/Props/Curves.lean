import Verif.Lemmas.CentralWave
import Verif.Lemmas.Where
import Verif.Lemmas.SortData
import Mathlib.Data.List.Sort
import Mathlib.Algebra.BigOperators.Group.List.Basic
import Mathlib.Algebra.Order.BigOperators.Group.List
/-
Properties C25-C29: sorting and summary measures of sampled response curves.
-/
namespace Verif.Props
open XF Model PyNum Lemmas Spec

/-! ### C25 -/

/-- What `np.argsort` guarantees: the positions are permuted so that the values are in order
with NaN last.  Nothing is assumed about the order of equal values. -/
structure IsArgsort (argsort : List XF → List Nat) : Prop where
  perm : ∀ xs, (argsort xs).Perm (List.range xs.length)
  sorted : ∀ xs, ((argsort xs).map fun i => xs.getD i XF.nan).Pairwise NanLastLe

/-- C25: whatever order the sort leaves equal keys in, `sort_data` returns a strictly
increasing `x` holding exactly the non-NaN values of the input (one NaN only if all are NaN),
each paired with a `y` it was paired with in the input. -/
theorem C25_sort_data (argsort : List XF → List Nat) (ha : IsArgsort argsort) (x y : List XF)
    (hl : x.length = y.length) (hne : x ≠ []) :
    ∃ x' y', sortData argsort x y = .ok (x', y') ∧ x'.length = y'.length ∧
      x'.Pairwise (fun a b => PyNum.lt a b = true) ∧
      (∀ v, v ≠ XF.nan → (v ∈ x' ↔ v ∈ x)) ∧
      (XF.nan ∈ x' ↔ ∀ v ∈ x, v = XF.nan) ∧
      ∀ p ∈ x'.zip y', p ∈ x.zip y := by
  have hp := ha.perm x
  have hlt : ∀ i ∈ argsort x, i < x.length := fun i hi => by
    have := hp.mem_iff.1 hi; simpa using this
  have e1 := takeIdx_ok x XF.nan (argsort x) hlt
  have e2 := takeIdx_ok y XF.nan (argsort x) (fun i hi => hl ▸ hlt i hi)
  set ps : List (XF × XF) := (argsort x).map fun i => (x.getD i XF.nan, y.getD i XF.nan) with hps
  have e1' : takeIdx x (argsort x) = .ok (ps.map Prod.fst) := by
    rw [e1, hps, List.map_map]; rfl
  have e2' : takeIdx y (argsort x) = .ok (ps.map Prod.snd) := by
    rw [e2, hps, List.map_map]; rfl
  have hlen : ps.length = x.length := by rw [hps, List.length_map, hp.length_eq, List.length_range]
  have hsort : (ps.map Prod.fst).Pairwise NanLastLe := by
    have := ha.sorted x
    rw [hps, List.map_map]; exact this
  have hpm : ∀ p ∈ ps, p ∈ x.zip y := by
    intro p hpp
    rw [hps, List.mem_map] at hpp
    obtain ⟨i, hi, rfl⟩ := hpp
    have h1 := hlt i hi
    have h2 : i < y.length := hl ▸ h1
    rw [List.mem_iff_getElem]
    exact ⟨i, by simp [h1, h2], by simp [List.getD, h1, h2]⟩
  have hval : ∀ v, v ∈ ps.map Prod.fst ↔ v ∈ x := by
    intro v
    rw [hps, List.map_map, List.mem_map]
    constructor
    · rintro ⟨i, hi, rfl⟩
      have h1 := hlt i hi
      simp [List.getD, h1]
    · intro hv
      obtain ⟨i, hi, rfl⟩ := List.mem_iff_getElem.1 hv
      exact ⟨i, hp.mem_iff.2 (by simpa using hi), by simp [List.getD, hi]⟩
  cases hq : ps with
  | nil => rw [hq] at hlen; exact absurd (List.length_eq_zero_iff.1 hlen.symm) hne
  | cons p qs =>
    rw [hq] at e1' e2' hsort hpm hval
    refine ⟨(p :: dedupFrom p.1 qs).map Prod.fst, (p :: dedupFrom p.1 qs).map Prod.snd, ?_, by simp,
      ?_, ?_, ?_, ?_⟩
    · unfold sortData
      simp only [e1', e2', bind, Except.bind]
      rw [maskSelect_dedup Prod.fst]
      simp only
      rw [maskSelect_dedup Prod.snd]
      rfl
    · exact dedupFrom_sorted qs p.1 (by simpa using hsort)
    · intro v hv
      rw [← hval v]
      constructor
      · intro h
        simp only [List.map_cons, List.mem_cons, List.mem_map] at h ⊢
        rcases h with h | ⟨q, hq1, hq2⟩
        · exact Or.inl h
        · exact Or.inr ⟨q, (dedupFrom_sub _ _ _ hq1).1, hq2⟩
      · intro h
        have h' : v = p.1 ∨ v ∈ qs.map Prod.fst := by simpa using h
        rcases h' with h' | h'
        · simp [h']
        · rcases dedupFrom_complete qs p.1 (by simpa using hsort) v hv h' with h'' | h''
          · simp [h'']
          · exact List.mem_cons_of_mem _ h''
    · have hrest : XF.nan ∉ (dedupFrom p.1 qs).map Prod.fst := by
        intro hm
        obtain ⟨q, hq1, hq2⟩ := List.mem_map.1 hm
        exact (dedupFrom_sub _ _ _ hq1).2 hq2
      have hs1 := (List.pairwise_cons.1 (show (p.1 :: qs.map Prod.fst).Pairwise NanLastLe by simpa using hsort)).1
      constructor
      · intro h v hv
        have hp1 : p.1 = XF.nan := by
          rcases List.mem_cons.1 (show XF.nan ∈ p.1 :: (dedupFrom p.1 qs).map Prod.fst from h) with h1 | h1
          · exact h1.symm
          · exact absurd h1 hrest
        rcases List.mem_cons.1 (show v ∈ p.1 :: qs.map Prod.fst from (hval v).2 hv) with h1 | h1
        · rw [h1, hp1]
        · rcases hs1 v h1 with h2 | h2
          · exact h2
          · rw [hp1] at h2; simp at h2
      · intro h
        have : p.1 = XF.nan := h p.1 ((hval p.1).1 (by simp))
        simp [this]
    · intro q hq1
      rw [List.zip_map', List.mem_map] at hq1
      obtain ⟨q', hq2, rfl⟩ := hq1
      apply hpm
      rcases List.mem_cons.1 hq2 with rfl | h
      · simp
      · exact List.mem_cons_of_mem _ (dedupFrom_sub _ _ _ h).1

/-- C25: there is nothing to return for an empty curve: IndexError. -/
theorem C25_empty_raises (argsort : List XF → List Nat) (ha : IsArgsort argsort) :
    sortData argsort [] [] = .error .indexError := by
  have h := ha.perm []
  have : argsort [] = [] := by simpa using h
  simp [sortData, this, takeIdx, maskSelect, NP.adj, bind, Except.bind, pure, Except.pure]

open Classical in
/-- an argsort exists -/
theorem exists_argsort : ∃ argsort, IsArgsort argsort := by
  refine ⟨fun xs => (List.range xs.length).mergeSort
    (fun i j => decide (NanLastLe (xs.getD i XF.nan) (xs.getD j XF.nan))),
    fun xs => List.mergeSort_perm _ _, fun xs => ?_⟩
  rw [List.pairwise_map]
  have htot : ∀ a b : XF, NanLastLe a b ∨ NanLastLe b a := by
    intro a b
    cases a <;> cases b <;> first
      | exact Or.inl (Or.inl rfl)
      | exact Or.inr (Or.inl rfl)
      | exact Or.inl (Or.inr rfl)
      | exact Or.inr (Or.inr rfl)
      | (rename_i x y
         rcases le_total x y with h | h
         · exact Or.inl (Or.inr (by simpa using h))
         · exact Or.inr (Or.inr (by simpa using h)))
  have htrans : ∀ a b c : XF, NanLastLe a b → NanLastLe b c → NanLastLe a c := by
    intro a b c h1 h2
    rcases h2 with h2 | h2
    · exact Or.inl h2
    rcases h1 with h1 | h1
    · rw [h1] at h2; simp at h2
    right
    cases a <;> cases b <;> cases c <;> first
      | (simp only [le_fin, decide_eq_true_eq] at *; exact le_trans h1 h2)
      | exact absurd h1 Bool.false_ne_true
      | exact absurd h2 Bool.false_ne_true
      | rfl
  have := List.pairwise_mergeSort (le := fun i j => decide (NanLastLe (xs.getD i XF.nan) (xs.getD j XF.nan)))
    (fun a b c h1 h2 => by
      simp only [decide_eq_true_eq] at *; exact htrans _ _ _ h1 h2)
    (fun a b => by
      rw [Bool.or_eq_true]; simp only [decide_eq_true_eq]
      exact htot _ _) (List.range xs.length)
  simpa only [decide_eq_true_eq] using this

-- a curve with a duplicate and a NaN
example : ∃ argsort, sortData argsort [] ([] : List XF) = .error .indexError := by
  obtain ⟨s, hs⟩ := exists_argsort
  exact ⟨s, C25_empty_raises s hs⟩

example : ∃ argsort, ∃ x' y', sortData argsort [fin 2, XF.nan, fin 1, fin 2] [fin 5, fin 6, fin 7, fin 8] = .ok (x', y') ∧
    (fin 1 ∈ x' ∧ fin 2 ∈ x' ∧ XF.nan ∉ x') := by
  obtain ⟨s, hs⟩ := exists_argsort
  obtain ⟨x', y', h, _, _, h1, h2, _⟩ := C25_sort_data s hs [fin 2, XF.nan, fin 1, fin 2]
    [fin 5, fin 6, fin 7, fin 8] rfl (by simp)
  refine ⟨s, x', y', h, (h1 _ (by simp)).2 (by simp), (h1 _ (by simp)).2 (by simp), fun hn => ?_⟩
  exact absurd (h2.1 hn (fin 2) (by simp)) (by simp)

/-! ### C26 -/

/-- at or above one half -/
def HalfOrMore (v : XF) : Prop := PyNum.le (fin (1 / 2)) v = true

theorem ge_half (v : XF) : PyNum.ge v (0.5 : XF) = true ↔ HalfOrMore v := by
  unfold HalfOrMore PyNum.ge
  have : (0.5 : XF) = fin (1 / 2) := by simp only [ofSci_eq, fin_inj]; norm_num
  rw [this]

/-- C26: the width is the distance between the first and the last sample at or above one half. -/
theorem C26_width (rsp wvl : List XF) (i j : Nat) (hij : i < j)
    (hi : FirstAt HalfOrMore rsp i) (hj : LastAt HalfOrMore rsp j) (a b : XF)
    (ha : wvl[i]? = some a) (hb : wvl[j]? = some b) :
    getFullwidthHalfmax rsp wvl = .ok (b - a) := by
  unfold getFullwidthHalfmax
  have h1 := (whereIdx_head (fun r => PyNum.ge r (0.5 : XF)) rsp i).2 (by simpa only [ge_half] using hi)
  have h2 := (whereIdx_last (fun r => PyNum.ge r (0.5 : XF)) rsp j).2 (by simpa only [ge_half] using hj)
  have h3 : ¬ (NP.whereIdx (fun r => PyNum.ge r (0.5 : XF)) rsp).length < 2 := by
    rw [whereIdx_length_lt_two, not_not]
    obtain ⟨⟨u, hu, hu'⟩, _⟩ := hi
    obtain ⟨⟨v, hv, hv'⟩, _⟩ := hj
    exact ⟨i, j, u, v, hij, hu, hv, (ge_half u).2 hu', (ge_half v).2 hv'⟩
  simp only [h1, h2, h3, if_false, NP.getIdx, ha, hb]
  rfl

/-- C26: ValueError exactly when fewer than two samples reach one half. -/
theorem C26_raises_iff (rsp wvl : List XF) (hl : rsp.length = wvl.length) :
    getFullwidthHalfmax rsp wvl = .error .valueError ↔
      ¬ ∃ (i j : Nat) (u v : XF), i < j ∧ rsp[i]? = some u ∧ rsp[j]? = some v ∧ HalfOrMore u ∧ HalfOrMore v := by
  have key := whereIdx_length_lt_two (fun r => PyNum.ge r (0.5 : XF)) rsp
  simp only [ge_half] at key
  rw [← key]
  have hin : ∀ i ∈ NP.whereIdx (fun r => PyNum.ge r (0.5 : XF)) rsp, i < wvl.length := by
    intro i hi
    obtain ⟨v, hv, _⟩ := (mem_whereIdx _ _ _).1 hi
    exact hl ▸ (List.getElem?_eq_some_iff.1 hv).1
  unfold getFullwidthHalfmax
  generalize NP.whereIdx (fun r => PyNum.ge r (0.5 : XF)) rsp = L at *
  cases h1 : L.head? with
  | none => rw [List.head?_eq_none_iff] at h1; simp [h1]
  | some f =>
    cases h2 : L.getLast? with
    | none => rw [List.getLast?_eq_none_iff] at h2; rw [h2] at h1; simp at h1
    | some l =>
      have hf := hin f (List.mem_of_mem_head? h1)
      have hll := hin l (List.mem_of_mem_getLast? h2)
      by_cases h : L.length < 2
      · simp [h1, h2, h]
      · simp [h1, h2, h, NP.getIdx, hf, hll, bind, Except.bind, pure, Except.pure]

example : getFullwidthHalfmax [fin 0.1, fin 0.9, XF.nan] [fin 1, fin 2, fin 3] = .error .valueError := by
  rw [C26_raises_iff _ _ (by rfl)]
  rintro ⟨i, j, u, v, hij, hu, hv, h1, h2⟩
  have e : ∀ (k : Nat) (x : XF), [fin 0.1, fin 0.9, XF.nan][k]? = some x → HalfOrMore x → k = 1 := by
    intro k x hk hx
    match k, hk with
    | 0, hk => simp at hk; subst hk; unfold HalfOrMore at hx; simp at hx; norm_num at hx
    | 1, _ => rfl
    | 2, hk => simp at hk; subst hk; unfold HalfOrMore at hx; simp at hx
    | k + 3, hk => simp at hk
  have := e i u hu h1
  have := e j v hv h2
  omega

/-- C26: positive whenever it is returned for increasing wavelengths. -/
theorem C26_positive (rsp : List XF) (wvl : List ℝ) (hl : rsp.length = wvl.length)
    (hinc : Increasing wvl) (v : XF) (h : getFullwidthHalfmax rsp (finL wvl) = .ok v) :
    ∃ d : ℝ, 0 < d ∧ v = fin d := by
  unfold getFullwidthHalfmax at h
  cases h1 : (NP.whereIdx (fun r => PyNum.ge r (0.5 : XF)) rsp).head? with
  | none => simp only [h1] at h; simp at h
  | some f =>
    cases h2 : (NP.whereIdx (fun r => PyNum.ge r (0.5 : XF)) rsp).getLast? with
    | none => simp only [h1, h2] at h; simp at h
    | some l =>
      simp only [h1, h2] at h
      split at h
      · simp at h
      · rename_i h3
        rw [whereIdx_length_lt_two, not_not] at h3
        obtain ⟨i, j, p, q, hij, hp, hq, hp', hq'⟩ := h3
        have hF := (whereIdx_head _ _ _).1 h1
        have hL := (whereIdx_last _ _ _).1 h2
        have hfi := hF.2 i p hp hp'
        have hjl := hL.2 j q hq hq'
        obtain ⟨⟨u, hu, _⟩, _⟩ := hF
        obtain ⟨⟨w, hw, _⟩, _⟩ := hL
        have hf : f < wvl.length := hl ▸ (List.getElem?_eq_some_iff.1 hu).1
        have hll : l < wvl.length := hl ▸ (List.getElem?_eq_some_iff.1 hw).1
        have hlt : wvl[f] < wvl[l] := List.pairwise_iff_getElem.1 hinc f l hf hll (by omega)
        have e1 : NP.getIdx (finL wvl) l = .ok (fin wvl[l]) := by simp [NP.getIdx, finL, hll]
        have e2 : NP.getIdx (finL wvl) f = .ok (fin wvl[f]) := by simp [NP.getIdx, finL, hf]
        simp only [e1, e2, bind, Except.bind, pure, Except.pure, fin_sub, Except.ok.injEq] at h
        exact ⟨wvl[l] - wvl[f], by linarith, h.symm⟩

example : getFullwidthHalfmax [fin 0.1, fin 0.5, fin 1, XF.nan, fin 0.7, fin 0.2]
    [fin 1, fin 2, fin 3, fin 4, fin 5, fin 6] = .ok (fin 5 - fin 2) := by
  refine C26_width _ _ 1 4 (by norm_num) ?_ ?_ (fin 2) (fin 5) rfl rfl
  · refine ⟨⟨fin 0.5, rfl, by unfold HalfOrMore; simp; norm_num⟩, fun j v hj hv => ?_⟩
    cases j with
    | zero => simp at hj; subst hj; unfold HalfOrMore at hv; simp at hv; norm_num at hv
    | succ j => omega
  · refine ⟨⟨fin 0.7, rfl, by unfold HalfOrMore; simp; norm_num⟩, fun j v hj hv => ?_⟩
    by_contra hc
    have : j = 5 := by
      have := (List.getElem?_eq_some_iff.1 hj).1
      simp at this; omega
    subst this
    simp at hj; subst hj; unfold HalfOrMore at hv; simp at hv; norm_num at hv

/-! ### C27 -/

/-- C27 is false: scaling the response changes the result (here from a width to ValueError),
because the threshold is the constant 0.5. -/
theorem C27_not_scale_invariant :
    ∃ (r w : List ℝ) (a : ℝ), 0 < a ∧ Increasing w ∧
      getFullwidthHalfmax (finL r) (finL w) = .ok (fin 1) ∧
      getFullwidthHalfmax (finL (r.map (a * ·))) (finL w) = .error .valueError := by
  refine ⟨[1, 1], [1, 2], 2 / 5, by norm_num, by simp [Increasing], ?_, ?_⟩
  · have := C26_width (finL [1, 1]) (finL [1, 2]) 0 1 (by norm_num)
      ⟨⟨fin 1, rfl, by unfold HalfOrMore; simp; norm_num⟩, fun j v hj hv => by omega⟩
      ⟨⟨fin 1, rfl, by unfold HalfOrMore; simp; norm_num⟩, fun j v hj hv => by
        have := (List.getElem?_eq_some_iff.1 hj).1
        simp at this; omega⟩ (fin 1) (fin 2) rfl rfl
    rw [this]; simp; norm_num
  · rw [C26_raises_iff _ _ (by simp)]
    rintro ⟨i, j, u, v, hij, hu, hv, hu', hv'⟩
    have hm := List.mem_of_getElem? hu
    simp at hm
    subst hm
    unfold HalfOrMore at hu'
    simp at hu'
    norm_num at hu'

/-- C27, part that holds: when the largest response is 1, the width is between the first and
the last sample at or above half of the largest response.  Missing: curves with another
maximum. -/
theorem C27_unit_maximum_partial (r w : List ℝ) (hl : r.length = w.length) (m : ℝ)
    (hm1 : m = 1) (hm : m ∈ r) (hmax : ∀ x ∈ r, x ≤ m) (i j : Nat) (hij : i < j)
    (hi : FirstAt (fun x => m / 2 ≤ x) r i) (hj : LastAt (fun x => m / 2 ≤ x) r j) :
    getFullwidthHalfmax (finL r) (finL w) = .ok (fin (w.getD j 0 - w.getD i 0)) := by
  subst hm1
  obtain ⟨⟨u, hu, hu'⟩, hmin⟩ := hi
  obtain ⟨⟨v, hv, hv'⟩, hmx⟩ := hj
  have h1 : i < w.length := hl ▸ (List.getElem?_eq_some_iff.1 hu).1
  have h2 : j < w.length := hl ▸ (List.getElem?_eq_some_iff.1 hv).1
  have conv : ∀ (k : Nat) (z : XF), (finL r)[k]? = some z → HalfOrMore z → ∃ y : ℝ, r[k]? = some y ∧ 1 / 2 ≤ y := by
    intro k z hk hz
    simp only [finL, List.getElem?_map, Option.map_eq_some_iff] at hk
    obtain ⟨y, hy, rfl⟩ := hk
    unfold HalfOrMore at hz
    exact ⟨y, hy, by simpa only [le_fin, decide_eq_true_eq] using hz⟩
  rw [C26_width (finL r) (finL w) i j hij ⟨⟨fin u, by simp [finL, hu], by
      unfold HalfOrMore; simpa only [le_fin, decide_eq_true_eq] using hu'⟩, fun k z hk hz => by
        obtain ⟨y, hy, hy'⟩ := conv k z hk hz
        exact hmin k y hy hy'⟩
    ⟨⟨fin v, by simp [finL, hv], by
      unfold HalfOrMore; simpa only [le_fin, decide_eq_true_eq] using hv'⟩, fun k z hk hz => by
        obtain ⟨y, hy, hy'⟩ := conv k z hk hz
        exact hmx k y hy hy'⟩ (fin w[i]) (fin w[j]) (by simp [finL, h1]) (by simp [finL, h2])]
  simp [List.getD, h1, h2]

example : getFullwidthHalfmax (finL [0.2, 1, 0.6]) (finL [1, 2, 4]) = .ok (fin 2) := by
  have := C27_unit_maximum_partial [0.2, 1, 0.6] [1, 2, 4] rfl 1 rfl (by simp)
    (by intro x hx; simp at hx; rcases hx with rfl | rfl | rfl <;> norm_num) 1 2 (by norm_num)
    ⟨⟨1, rfl, by norm_num⟩, fun k v hk hv => by
      cases k with
      | zero => simp at hk; subst hk; norm_num at hv
      | succ k => omega⟩
    ⟨⟨0.6, rfl, by norm_num⟩, fun k v hk hv => by
      have := (List.getElem?_eq_some_iff.1 hk).1
      simp at this; omega⟩
  rw [this]; simp; norm_num

/-! ### C28 -/

/-- Share (percent) of the total response accumulated up to and including sample `i`. -/
noncomputable def share (r : List ℝ) (i : Nat) : ℝ := (r.take (i + 1)).sum / r.sum * 100

theorem cumsumFrom_fin (r : List ℝ) : ∀ a : ℝ, NP.cumsumFrom (fin a) (finL r) =
    (List.range r.length).map fun i => fin (a + (r.take (i + 1)).sum) := by
  induction r with
  | nil => intro a; rfl
  | cons x r ih =>
    intro a
    simp only [finL_cons, NP.cumsumFrom, fin_add, ih, List.length_cons, List.range_succ_eq_map,
      List.map_cons, List.map_map, List.take_succ_cons, List.take_zero, List.sum_cons, List.sum_nil,
      add_zero, Function.comp_def, add_assoc]

theorem cumsum_fin (r : List ℝ) : NP.cumsum (finL r) =
    (List.range r.length).map fun i => fin (r.take (i + 1)).sum := by
  cases r with
  | nil => rfl
  | cons x r =>
    have := cumsumFrom_fin (x :: r) 0
    simp only [zero_add] at this
    rw [← this]
    simp [NP.cumsum, NP.cumsumFrom]

theorem foldl_max_fin (l : List ℝ) : ∀ a : ℝ, (finL l).foldl PyNum.maximum (fin a) = fin (l.foldl max a) := by
  induction l with
  | nil => intro a; rfl
  | cons x l ih => intro a; simp only [finL_cons, List.foldl_cons, maximum_fin, ih]

theorem foldl_max_eq (l : List ℝ) : ∀ (a m : ℝ), m ∈ a :: l → (∀ x ∈ a :: l, x ≤ m) → l.foldl max a = m := by
  induction l with
  | nil => intro a m hm _; simp at hm; exact hm.symm
  | cons x l ih =>
    intro a m hm hx
    rw [List.foldl_cons]
    apply ih
    · simp only [List.mem_cons] at hm ⊢
      have h1 := hx a (by simp)
      have h2 := hx x (by simp)
      rcases hm with rfl | rfl | h
      · left; rw [max_eq_left h2]
      · left; rw [max_eq_right h1]
      · right; exact h
    · intro y hy
      simp only [List.mem_cons] at hy
      rcases hy with rfl | hy
      · exact max_le (hx a (by simp)) (hx x (by simp))
      · exact hx y (by simp [hy])

theorem amax_fin (l : List ℝ) (m : ℝ) (hm : m ∈ l) (hx : ∀ x ∈ l, x ≤ m) :
    NP.amax (finL l) = .ok (fin m) := by
  cases l with
  | nil => simp at hm
  | cons a l => simp only [finL_cons, NP.amax, foldl_max_fin, foldl_max_eq l a m hm hx]

theorem take_sum_le (r : List ℝ) (h : ∀ x ∈ r, 0 ≤ x) (i : Nat) : (r.take i).sum ≤ r.sum := by
  conv_rhs => rw [← List.take_append_drop i r, List.sum_append]
  have : 0 ≤ (r.drop i).sum := List.sum_nonneg fun x hx => h x (List.mem_of_mem_drop hx)
  linarith

theorem take_sum_mono (r : List ℝ) (h : ∀ x ∈ r, 0 ≤ x) {i j : Nat} (hij : i ≤ j) :
    (r.take i).sum ≤ (r.take j).sum := by
  have := take_sum_le (r.take j) (fun x hx => h x (List.mem_of_mem_take hx)) i
  rwa [List.take_take, min_eq_left hij] at this

theorem share_mono (r : List ℝ) (h : ∀ x ∈ r, 0 ≤ x) (ht : 0 < r.sum) {i j : Nat} (hij : i ≤ j) :
    share r i ≤ share r j := by
  unfold share
  have := take_sum_mono r h (show i + 1 ≤ j + 1 by omega)
  gcongr

/-- the cumulative shares, as computed -/
theorem shares_eq (r : List ℝ) (h : ∀ x ∈ r, 0 ≤ x) (ht : 0 < r.sum) :
    NP.amax (NP.cumsum (finL r)) = .ok (fin r.sum) ∧
    (NP.cumsum (finL r)).map (fun c => c / fin r.sum * (100.0 : XF)) =
      (List.range r.length).map fun i => fin (share r i) := by
  have hne : r ≠ [] := by rintro rfl; simp at ht
  have hpos : 0 < r.length := List.length_pos_of_ne_nil hne
  have e : NP.cumsum (finL r) = finL ((List.range r.length).map fun i => (r.take (i + 1)).sum) := by
    rw [cumsum_fin, finL, List.map_map]; rfl
  constructor
  · rw [e]
    refine amax_fin _ _ ?_ ?_
    · rw [List.mem_map]
      exact ⟨r.length - 1, by simp; omega, by rw [List.take_of_length_le (by omega)]⟩
    · intro x hx
      rw [List.mem_map] at hx
      obtain ⟨i, _, rfl⟩ := hx
      exact take_sum_le r h _
  · rw [cumsum_fin, List.map_map]
    apply List.map_congr_left
    intro i _
    simp only [Function.comp_def, fin_div _ ht.ne', ofSci_eq, fin_mul, fin_inj, share]
    norm_num

theorem takeIdx_head {w : List ℝ} {idx : List Nat} (h : ∀ i ∈ idx, i < w.length) :
    takeIdx (finL w) idx = .ok (idx.map fun i => fin (w.getD i 0)) := by
  rw [takeIdx_ok (finL w) (fin 0) idx (by simpa using h)]
  congr 1
  apply List.map_congr_left
  intro i hi
  simp [finL, List.getD, h i hi]

/-- the two index lists of the bounds computation -/
theorem bounds_eval (r w : List ℝ) (hl : r.length = w.length) (h : ∀ x ∈ r, 0 ≤ x) (ht : 0 < r.sum)
    (lim : ℝ) :
    getBoundsIntegratedEnergy (finL r) (finL w) (fin lim) =
      (match (NP.whereIdx (fun c => PyNum.ge c (fin lim)) ((List.range r.length).map fun i => fin (share r i))).head?,
        (NP.whereIdx (fun c => PyNum.le c (fin (100 - lim))) ((List.range r.length).map fun i => fin (share r i))).getLast? with
       | some i, some j => .ok (fin (w.getD i 0), fin (w.getD j 0))
       | _, _ => .error .indexError) := by
  obtain ⟨e1, e2⟩ := shares_eq r h ht
  have hb : ∀ (p : XF → Bool), ∀ i ∈ NP.whereIdx p ((List.range r.length).map fun i => fin (share r i)), i < w.length := by
    intro p i hi
    obtain ⟨v, hv, _⟩ := (mem_whereIdx _ _ _).1 hi
    have := (List.getElem?_eq_some_iff.1 hv).1
    simp at this; omega
  unfold getBoundsIntegratedEnergy
  have h100 : ((100 : XF) - fin lim) = fin (100 - lim) := by simp
  simp only [e1, bind, Except.bind]
  rw [e2, h100, takeIdx_head (hb _)]
  simp only
  rw [takeIdx_head (hb _)]
  cases h1 : (NP.whereIdx (fun c => PyNum.ge c (fin lim)) ((List.range r.length).map fun i => fin (share r i))).head? with
  | none => simp [h1]
  | some i =>
    cases h2 : (NP.whereIdx (fun c => PyNum.le c (fin (100 - lim))) ((List.range r.length).map fun i => fin (share r i))).getLast? with
    | none => simp [h1, h2, pure, Except.pure]
    | some j => simp [h1, h2, pure, Except.pure]

theorem shares_get (r : List ℝ) (i : Nat) (v : XF) :
    ((List.range r.length).map fun i => fin (share r i))[i]? = some v ↔
      i < r.length ∧ v = fin (share r i) := by
  rw [List.getElem?_map, Option.map_eq_some_iff]
  constructor
  · rintro ⟨k, hk, rfl⟩
    obtain ⟨h1, h2⟩ := List.getElem?_eq_some_iff.1 hk
    simp at h1 h2; subst h2; exact ⟨h1, rfl⟩
  · rintro ⟨h1, rfl⟩
    exact ⟨i, by simp [h1], rfl⟩

/-- C28: lower bound: the first wavelength at which the cumulative share reaches the limit;
upper bound: the last at which it is at most 100 minus the limit. -/
theorem C28_bounds (r w : List ℝ) (hl : r.length = w.length) (h : ∀ x ∈ r, 0 ≤ x) (ht : 0 < r.sum)
    (lim : ℝ) (i j : Nat) (hi : i < r.length) (hj : j < r.length)
    (hi1 : lim ≤ share r i) (hi2 : ∀ k < i, share r k < lim)
    (hj1 : share r j ≤ 100 - lim) (hj2 : ∀ k, j < k → k < r.length → 100 - lim < share r k) :
    getBoundsIntegratedEnergy (finL r) (finL w) (fin lim) =
      .ok (fin (w.getD i 0), fin (w.getD j 0)) := by
  rw [bounds_eval r w hl h ht]
  have h1 := (whereIdx_head (fun c => PyNum.ge c (fin lim))
    ((List.range r.length).map fun i => fin (share r i)) i).2 ⟨⟨_, (shares_get r i _).2 ⟨hi, rfl⟩, by
      simpa using hi1⟩, fun k v hk hv => by
      obtain ⟨_, rfl⟩ := (shares_get r k v).1 hk
      by_contra hc
      have := hi2 k (by omega)
      simp at hv; linarith⟩
  have h2 := (whereIdx_last (fun c => PyNum.le c (fin (100 - lim)))
    ((List.range r.length).map fun i => fin (share r i)) j).2 ⟨⟨_, (shares_get r j _).2 ⟨hj, rfl⟩, by
      simpa only [le_fin, decide_eq_true_eq] using hj1⟩, fun k v hk hv => by
      obtain ⟨hk', rfl⟩ := (shares_get r k v).1 hk
      by_contra hc
      have := hj2 k (by omega) hk'
      simp only [le_fin, decide_eq_true_eq] at hv; linarith⟩
  rw [h1, h2]

example : getBoundsIntegratedEnergy (finL [1, 2, 1]) (finL [5, 6, 7]) (fin 1) = .ok (fin 5, fin 6) :=
  C28_bounds [1, 2, 1] [5, 6, 7] rfl
    (by intro x hx; simp at hx; rcases hx with rfl | rfl | rfl <;> norm_num) (by norm_num) 1 0 1 (by simp) (by simp)
    (by simp [share]; norm_num) (by omega) (by simp [share]; norm_num) (by
      intro k h1 h2
      obtain rfl : k = 2 := by simp at h2; omega
      simp [share]; norm_num)

/-- C28: there is a lower bound for every limit up to 100; the call fails with IndexError
exactly when no sample has a share of at most 100 minus the limit. -/
theorem C28_fails_iff (r w : List ℝ) (hl : r.length = w.length) (h : ∀ x ∈ r, 0 ≤ x) (ht : 0 < r.sum)
    (lim : ℝ) (hlim : lim ≤ 100) :
    (getBoundsIntegratedEnergy (finL r) (finL w) (fin lim) = .error .indexError ↔
      ∀ k < r.length, 100 - lim < share r k) := by
  have hne : r ≠ [] := by rintro rfl; simp at ht
  have hpos : 0 < r.length := List.length_pos_of_ne_nil hne
  rw [bounds_eval r w hl h ht]
  cases h1 : (NP.whereIdx (fun c => PyNum.ge c (fin lim)) ((List.range r.length).map fun i => fin (share r i))).head? with
  | none =>
    exfalso
    rw [whereIdx_head_none] at h1
    have := h1 (fin (share r (r.length - 1))) (by
      rw [List.mem_map]; exact ⟨r.length - 1, by simp; omega, rfl⟩)
    have h100 : share r (r.length - 1) = 100 := by
      unfold share
      rw [List.take_of_length_le (by omega), div_self ht.ne']; norm_num
    rw [h100] at this
    simp at this; linarith
  | some i =>
    cases h2 : (NP.whereIdx (fun c => PyNum.le c (fin (100 - lim))) ((List.range r.length).map fun i => fin (share r i))).getLast? with
    | none =>
      rw [List.getLast?_eq_none_iff, ← List.head?_eq_none_iff, whereIdx_head_none] at h2
      simp only [true_iff]
      intro k hk
      have := h2 (fin (share r k)) (by rw [List.mem_map]; exact ⟨k, by simpa using hk, rfl⟩)
      simpa only [le_fin, decide_eq_false_iff_not, not_le] using this
    | some j =>
      simp only [reduceCtorEq, false_iff]
      intro hall
      obtain ⟨⟨v, hv, hv'⟩, _⟩ := (whereIdx_last _ _ _).1 h2
      obtain ⟨hj, rfl⟩ := (shares_get r j v).1 hv
      have := hall j hj
      simp only [le_fin, decide_eq_true_eq] at hv'; linarith

example : getBoundsIntegratedEnergy (finL [3]) (finL [5]) (fin 1) = .error .indexError := by
  rw [C28_fails_iff [3] [5] rfl (by simp) (by simp) 1 (by norm_num)]
  intro k hk
  obtain rfl : k = 0 := by simpa using hk
  simp [share]

/-- C28 is false as to the order of the bounds: for a spike in one sample, lower > upper. -/
theorem C28_bounds_reversed_for_spike :
    ∃ (r w : List ℝ) (lo up : ℝ), (∀ x ∈ r, 0 ≤ x) ∧ 0 < r.sum ∧ Increasing w ∧
      getBoundsIntegratedEnergy (finL r) (finL w) = .ok (fin lo, fin up) ∧ up < lo := by
  refine ⟨[0, 1, 0], [1, 2, 3], 2, 1, ?_, by norm_num, by simp [Increasing]; norm_num, ?_, by norm_num⟩
  · intro x hx; simp at hx; rcases hx with rfl | rfl | rfl <;> norm_num
  · have := C28_bounds [0, 1, 0] [1, 2, 3] rfl
      (by intro x hx; simp at hx; rcases hx with rfl | rfl | rfl <;> norm_num) (by norm_num) 1 1 0
      (by simp) (by simp) (by simp [share]) (by intro k hk; have : k = 0 := by omega
                                                subst this; simp [share])
      (by simp [share]) (by
        intro k hk1 hk2
        simp at hk2
        have : k = 1 ∨ k = 2 := by omega
        rcases this with rfl | rfl <;> simp [share])
    simpa using this

/-- C28, part that holds: if some sample's share lies between the limit and 100 minus the
limit, then lower ≤ upper.  Missing: bands with more than that share in one sample. -/
theorem C28_ordered_partial (r w : List ℝ) (hl : r.length = w.length) (h : ∀ x ∈ r, 0 ≤ x) (ht : 0 < r.sum)
    (hinc : Increasing w) (lim : ℝ) (m : Nat) (hm : m < r.length) (hm1 : lim ≤ share r m)
    (hm2 : share r m ≤ 100 - lim) :
    ∃ lo up : ℝ, getBoundsIntegratedEnergy (finL r) (finL w) (fin lim) = .ok (fin lo, fin up) ∧ lo ≤ up := by
  rw [bounds_eval r w hl h ht]
  have hmem : fin (share r m) ∈ (List.range r.length).map fun i => fin (share r i) := by
    rw [List.mem_map]; exact ⟨m, by simpa using hm, rfl⟩
  cases h1 : (NP.whereIdx (fun c => PyNum.ge c (fin lim)) ((List.range r.length).map fun i => fin (share r i))).head? with
  | none =>
    rw [whereIdx_head_none] at h1
    have := h1 _ hmem
    simp at this; linarith
  | some i =>
    cases h2 : (NP.whereIdx (fun c => PyNum.le c (fin (100 - lim))) ((List.range r.length).map fun i => fin (share r i))).getLast? with
    | none =>
      rw [List.getLast?_eq_none_iff, ← List.head?_eq_none_iff, whereIdx_head_none] at h2
      have := h2 _ hmem
      simp only [le_fin, decide_eq_false_iff_not, not_le] at this; linarith
    | some j =>
      refine ⟨_, _, rfl, ?_⟩
      obtain ⟨_, hF⟩ := (whereIdx_head _ _ _).1 h1
      obtain ⟨⟨v, hv, _⟩, hL⟩ := (whereIdx_last _ _ _).1 h2
      have him := hF m _ ((shares_get r m _).2 ⟨hm, rfl⟩) (by simpa using hm1)
      have hmj := hL m _ ((shares_get r m _).2 ⟨hm, rfl⟩) (by simpa only [le_fin, decide_eq_true_eq] using hm2)
      obtain ⟨hj, _⟩ := (shares_get r j v).1 hv
      have hi' : i < w.length := by omega
      have hj' : j < w.length := by omega
      simp only [List.getD, hi', hj', List.getElem?_eq_getElem, Option.getD_some]
      rcases Nat.lt_or_ge i j with hlt | hge
      · exact (List.pairwise_iff_getElem.1 hinc i j hi' hj' hlt).le
      · have : i = j := by omega
        subst this; exact le_refl _

example : ∃ lo up : ℝ, getBoundsIntegratedEnergy (finL [1, 2, 1]) (finL [5, 6, 7]) (fin 1) =
    .ok (fin lo, fin up) ∧ lo ≤ up :=
  C28_ordered_partial [1, 2, 1] [5, 6, 7] rfl
    (by intro x hx; simp at hx; rcases hx with rfl | rfl | rfl <;> norm_num) (by norm_num)
    (by simp [Increasing]; norm_num) 1 1 (by simp) (by simp [share]; norm_num) (by simp [share]; norm_num)

/-! ### C29 -/

/-- C29: `[min, centre, max]` with the wavelengths of the first and last sample above the
threshold and the response-weighted mean wavelength. -/
theorem C29_wave_range (det : DetRsr XF) (w r : List ℝ) (hl : w.length = r.length)
    (hw : det.get? "wavelength" = some (.arr (finL w))) (hr : det.get? "response" = some (.arr (finL r)))
    (t : ℝ) (i j : Nat) (hi : FirstAt (fun v => t < v) r i) (hj : LastAt (fun v => t < v) r j)
    (hint : trap w r ≠ 0) :
    getWaveRange det (fin t) = .ok [fin (w.getD i 0),
      fin (trap w (List.zipWith (· * ·) w r) / trap w r), fin (w.getD j 0)] := by
  obtain ⟨⟨u, hu, hu'⟩, hmin⟩ := hi
  obtain ⟨⟨v, hv, hv'⟩, hmx⟩ := hj
  have h1 : i < w.length := hl ▸ (List.getElem?_eq_some_iff.1 hu).1
  have h2 : j < w.length := hl ▸ (List.getElem?_eq_some_iff.1 hv).1
  have conv : ∀ (k : Nat) (z : XF), (finL r)[k]? = some z → PyNum.gt z (fin t) = true → ∃ y : ℝ, r[k]? = some y ∧ t < y := by
    intro k z hk hz
    simp only [finL, List.getElem?_map, Option.map_eq_some_iff] at hk
    obtain ⟨y, hy, rfl⟩ := hk
    exact ⟨y, hy, by simpa using hz⟩
  have e1 := (whereIdx_head (fun x => PyNum.gt x (fin t)) (finL r) i).2 ⟨⟨fin u, by simp [finL, hu], by
      simpa using hu'⟩, fun k z hk hz => by
        obtain ⟨y, hy, hy'⟩ := conv k z hk hz
        exact hmin k y hy hy'⟩
  have e2 := (whereIdx_last (fun x => PyNum.gt x (fin t)) (finL r) j).2 ⟨⟨fin v, by simp [finL, hv], by
      simpa using hv'⟩, fun k z hk hz => by
        obtain ⟨y, hy, hy'⟩ := conv k z hk hz
        exact hmx k y hy hy'⟩
  unfold getWaveRange
  simp only [getArr, Dict.getItem, hw, hr, bind, Except.bind, pure, Except.pure]
  rw [getCentralWave_default hl, fin_div _ hint]
  simp only [e1, e2]
  simp [NP.getIdx, finL, h1, h2, List.getD, pure, Except.pure]

/-- C29: so every sample above the threshold lies between the returned wavelengths. -/
theorem C29_samples_inside (det : DetRsr XF) (w r : List ℝ) (hl : w.length = r.length)
    (hw : det.get? "wavelength" = some (.arr (finL w))) (hr : det.get? "response" = some (.arr (finL r)))
    (hinc : Increasing w) (t : ℝ) (lo c up : XF) (h : getWaveRange det (fin t) = .ok [lo, c, up]) :
    ∃ a b : ℝ, lo = fin a ∧ up = fin b ∧ ∀ p ∈ w.zip r, t < p.2 → a ≤ p.1 ∧ p.1 ≤ b := by
  unfold getWaveRange at h
  simp only [getArr, Dict.getItem, hw, hr, bind, Except.bind, pure, Except.pure] at h
  rw [getCentralWave_default hl] at h
  simp only at h
  cases h1 : (NP.whereIdx (fun x => PyNum.gt x (fin t)) (finL r)).head? with
  | none => simp only [h1] at h; simp at h
  | some f =>
    cases h2 : (NP.whereIdx (fun x => PyNum.gt x (fin t)) (finL r)).getLast? with
    | none => simp only [h1, h2] at h; simp at h
    | some l =>
      obtain ⟨⟨u, hu, _⟩, hF⟩ := (whereIdx_head _ _ _).1 h1
      obtain ⟨⟨v, hv, _⟩, hL⟩ := (whereIdx_last _ _ _).1 h2
      have hf : f < w.length := by
        have := (List.getElem?_eq_some_iff.1 hu).1; simp at this; omega
      have hll : l < w.length := by
        have := (List.getElem?_eq_some_iff.1 hv).1; simp at this; omega
      have e1 : NP.getIdx (finL w) f = .ok (fin w[f]) := by simp [NP.getIdx, finL, hf]
      have e2 : NP.getIdx (finL w) l = .ok (fin w[l]) := by simp [NP.getIdx, finL, hll]
      simp only [h1, h2, e1, e2, pure, Except.pure, Except.ok.injEq, List.cons.injEq, and_true] at h
      refine ⟨w[f], w[l], h.1.symm, h.2.2.symm, fun p hp hpt => ?_⟩
      obtain ⟨k, hk, rfl⟩ := List.mem_iff_getElem.1 hp
      have hkw : k < w.length := by simp at hk; omega
      have hkr : k < r.length := by simp at hk; omega
      simp only [List.getElem_zip] at hpt ⊢
      have hk' : (finL r)[k]? = some (fin r[k]) := by simp [finL, hkr]
      have h3 := hF k _ hk' (by simpa using hpt)
      have h4 := hL k _ hk' (by simpa using hpt)
      have mono : ∀ a b (ha : a < w.length) (hb : b < w.length), a ≤ b → w[a] ≤ w[b] := by
        intro a b ha hb hab
        rcases Nat.lt_or_ge a b with hlt | hge
        · exact (List.pairwise_iff_getElem.1 hinc a b ha hb hlt).le
        · have : a = b := by omega
          subst this; exact le_refl _
      exact ⟨mono _ _ hf hkw h3, mono _ _ hkw hll h4⟩

example (lo c up : XF) (h : getWaveRange [("wavelength", .arr (finL [10, 11, 12])), ("response", .arr (finL [0.1, 1, 0.5]))]
    (fin 0.15) = .ok [lo, c, up]) : ∃ a b : ℝ, lo = fin a ∧ up = fin b ∧ a ≤ 11 ∧ 12 ≤ b := by
  obtain ⟨a, b, h1, h2, h3⟩ := C29_samples_inside _ [10, 11, 12] [0.1, 1, 0.5] rfl rfl (by simp [Dict.get?])
    (by simp [Increasing]; norm_num) 0.15 lo c up h
  exact ⟨a, b, h1, h2, (h3 (11, 1) (by simp) (by norm_num)).1, (h3 (12, 0.5) (by simp) (by norm_num)).2⟩

/-- C29: IndexError exactly when no sample exceeds the threshold. -/
theorem C29_fails_iff (det : DetRsr XF) (w r : List ℝ) (hl : w.length = r.length)
    (hw : det.get? "wavelength" = some (.arr (finL w))) (hr : det.get? "response" = some (.arr (finL r)))
    (t : ℝ) : getWaveRange det (fin t) = .error .indexError ↔ ∀ v ∈ r, v ≤ t := by
  unfold getWaveRange
  simp only [getArr, Dict.getItem, hw, hr, bind, Except.bind, pure, Except.pure]
  rw [getCentralWave_default hl]
  simp only
  cases h1 : (NP.whereIdx (fun x => PyNum.gt x (fin t)) (finL r)).head? with
  | none =>
    have h0 := (whereIdx_head_none _ _).1 h1
    simp only [true_iff]
    intro v hv
    have := h0 (fin v) (by simp only [finL, List.mem_map]; exact ⟨v, hv, rfl⟩)
    simpa using this
  | some f =>
    obtain ⟨⟨u, hu, hu'⟩, hF⟩ := (whereIdx_head _ _ _).1 h1
    cases h2 : (NP.whereIdx (fun x => PyNum.gt x (fin t)) (finL r)).getLast? with
    | none =>
      rw [List.getLast?_eq_none_iff] at h2; rw [h2] at h1; simp at h1
    | some l =>
      obtain ⟨⟨v, hv, _⟩, hL⟩ := (whereIdx_last _ _ _).1 h2
      have hf : f < w.length := by
        have := (List.getElem?_eq_some_iff.1 hu).1; simp at this; omega
      have hll : l < w.length := by
        have := (List.getElem?_eq_some_iff.1 hv).1; simp at this; omega
      have e1 : NP.getIdx (finL w) f = .ok (fin w[f]) := by simp [NP.getIdx, finL, hf]
      have e2 : NP.getIdx (finL w) l = .ok (fin w[l]) := by simp [NP.getIdx, finL, hll]
      simp only [e1, e2, pure, Except.pure, reduceCtorEq, false_iff]
      intro hall
      have hm := List.mem_of_getElem? hu
      simp only [finL, List.mem_map] at hm
      obtain ⟨y, hy, rfl⟩ := hm
      have := hall y hy
      simp at hu'; linarith

example : getWaveRange [("wavelength", .arr (finL [10, 11, 12])), ("response", .arr (finL [0.1, 1, 0.5]))]
    (fin 0.15) = .ok [fin 11, fin (trap [10, 11, 12] (List.zipWith (· * ·) [10, 11, 12] [0.1, 1, 0.5]) /
      trap [10, 11, 12] [0.1, 1, 0.5]), fin 12] := by
  have := C29_wave_range [("wavelength", .arr (finL [10, 11, 12])), ("response", .arr (finL [0.1, 1, 0.5]))]
    [10, 11, 12] [0.1, 1, 0.5] rfl (by simp [Dict.get?]) (by simp [Dict.get?]) 0.15 1 2
    ⟨⟨1, rfl, by norm_num⟩, fun k v hk hv => by
      cases k with
      | zero => simp at hk; subst hk; norm_num at hv
      | succ k => omega⟩
    ⟨⟨0.5, rfl, by norm_num⟩, fun k v hk hv => by
      have := (List.getElem?_eq_some_iff.1 hk).1
      simp at this; omega⟩ (by simp [trap]; norm_num)
  simpa using this

end Verif.Props
