import Verif.Props.Curves
import Verif.Props.Names
import Verif.Props.Reader
/-
Exactly when the partial properties C27, C28, C32 and C42 hold.
-/
namespace Verif.Props
open Model Spec Lemmas PyNum XF
variable {α : Type} [PyNum α]

/-- C32: adjusting an adjusted name changes it exactly for "mersi-1" on FY-3A, FY-3B and FY-3C. -/
theorem C32_exactly (platform instrument r : String) (h : checkAndAdjustInstrumentName platform instrument = .ok r) :
    checkAndAdjustInstrumentName platform r = .ok r ↔
      ¬ ((platform = "FY-3A" ∨ platform = "FY-3B" ∨ platform = "FY-3C") ∧ Str.lower instrument = "mersi-1") := by
  by_cases hp : platform = "FY-3A" ∨ platform = "FY-3B" ∨ platform = "FY-3C"
  · have hI : INSTRUMENTS.get? platform = some (.many ["virr", "mersi-1"]) := by
      rcases hp with rfl | rfl | rfl <;> decide
    have hv : checkAndAdjustInstrumentName platform "virr" = .ok "virr" := by
      rcases hp with rfl | rfl | rfl <;> decide
    have hm : checkAndAdjustInstrumentName platform "mersi1" = .ok "virr" := by
      rcases hp with rfl | rfl | rfl <;> decide
    by_cases hl : Str.lower instrument = "mersi-1"
    · have hr : r = "mersi1" := by
        unfold checkAndAdjustInstrumentName at h
        rw [hI] at h
        have hg : goodInstrument (.many ["virr", "mersi-1"]) (Str.lower instrument) = true := by rw [hl]; decide
        simp only [Option.getD_some, hg, if_true] at h
        have : stripInstrument instrument = r := by simpa [bind, Except.bind, pure, Except.pure] using h
        rw [← this]
        unfold stripInstrument
        rw [hl]; decide
      subst hr
      rw [hm]
      simp [hp, hl]
    · have hr : r = "virr" := by
        unfold checkAndAdjustInstrumentName at h
        rw [hI] at h
        by_cases hlv : Str.lower instrument = "virr"
        · have hg : goodInstrument (.many ["virr", "mersi-1"]) (Str.lower instrument) = true := by rw [hlv]; decide
          simp only [Option.getD_some, hg, if_true] at h
          have : stripInstrument instrument = r := by simpa [bind, Except.bind, pure, Except.pure] using h
          rw [← this]
          unfold stripInstrument
          rw [hlv]; decide
        · have hg : goodInstrument (.many ["virr", "mersi-1"]) (Str.lower instrument) = false := by
            have key : ∀ v s, INSTRUMENT_TRANSLATION_DASH2SLASH.get? s = some v → v ≠ "virr" ∧ v ≠ "mersi-1" := by
              intro v s hs
              have := get?_eq_some_mem hs
              have all : ∀ p ∈ INSTRUMENT_TRANSLATION_DASH2SLASH, p.2 ≠ "virr" ∧ p.2 ≠ "mersi-1" := by decide
              exact all _ this
            simp only [goodInstrument, List.any_cons, List.any_nil, Bool.or_false, Bool.or_eq_false_iff]
            unfold areInstrumentsIdentical
            rw [if_neg (Ne.symm hlv), if_neg (Ne.symm hl)]
            constructor
            · rw [if_neg]
              intro hc; exact (key _ _ hc.symm).1 rfl
            · rw [if_neg]
              intro hc; exact (key _ _ hc.symm).2 rfl
          simp only [Option.getD_some, hg, Bool.false_eq_true, if_false] at h
          have : stripInstrument "virr" = r := by simpa [bind, Except.bind, pure, Except.pure, replaceInstName] using h
          rw [← this]; decide
      subst hr
      simp [hv, hl]
  · have := C32_idempotent_partial platform instrument r (fun l hl n hn => by
      by_contra hc
      exact hp (C32_excluded_platforms platform l hl fun hall => hc (hall n hn))) h
    simp [this, hp]

example : checkAndAdjustInstrumentName "FY-3A" "virr" = .ok "virr" :=
  (C32_exactly "FY-3A" "VIRR" "virr" (by decide)).2 (by decide)

/-- C42: the instrument of a response read from a file is a list exactly if the file does not name its
sensor and its platform carries several instruments. -/
theorem C42_exactly (env : Env) (h5open : Content → Option (H5File α)) (w : World) (p : Path) (r : Reader α)
    (hr : Eff.result (readerNew env h5open none none (some p)) w = .ok r)
    (content : Content) (f : H5File α) (hw : w.files p = some content) (hf : h5open content = some f) (l : List String) :
    r.instrument = .list l ↔
      f.attrs.get? "sensor" = none ∧ ∃ q, r.platform_name = some q ∧ INSTRUMENTS.get? q = some (.many l) := by
  obtain ⟨_, content', f', info, h1, h2, h3, h4, h5, _⟩ := (C38_by_filename env h5open p w).2.2 r hr
  rw [hw] at h1; cases h1
  rw [hf] at h2; cases h2
  have hi := (C41_names_from_file f info h3).2
  rw [← h5] at hi
  rw [h4]
  generalize r.instrument = i at hi ⊢
  cases hi with
  | sensor v s hv _ => simp [hv]
  | single h0 p i hp hq =>
    constructor
    · intro hc; exact absurd hc (by simp)
    · rintro ⟨_, q, e1, e2⟩
      rw [hp] at e1; cases e1
      rw [hq] at e2; simp at e2
  | unknown h0 hq =>
    constructor
    · intro hc; exact absurd hc (by simp)
    · rintro ⟨_, q, e1, e2⟩
      rw [hq q e1] at e2; simp at e2
  | several h0 q l' hq hl =>
    constructor
    · intro hc
      have : l' = l := by simpa using hc
      subst this
      exact ⟨h0, q, hq, hl⟩
    · rintro ⟨_, q', e1, e2⟩
      rw [hq] at e1; cases e1
      rw [hl] at e2
      simp at e2; rw [e2]

/-- C28: the bounds are in order exactly if the cumulative share of some sample lies between the limits. -/
theorem C28_exactly (r w : List ℝ) (hl : r.length = w.length) (h : ∀ x ∈ r, 0 ≤ x) (ht : 0 < r.sum)
    (hinc : Increasing w) (lim : ℝ) :
    (∃ lo up : ℝ, getBoundsIntegratedEnergy (finL r) (finL w) (fin lim) = .ok (fin lo, fin up) ∧ lo ≤ up) ↔
      ∃ m < r.length, lim ≤ share r m ∧ share r m ≤ 100 - lim := by
  constructor
  · rintro ⟨lo, up, he, hle⟩
    rw [bounds_eval r w hl h ht] at he
    cases h1 : (NP.whereIdx (fun c => PyNum.ge c (fin lim)) ((List.range r.length).map fun i => fin (share r i))).head? with
    | none => rw [h1] at he; simp at he
    | some i =>
      cases h2 : (NP.whereIdx (fun c => PyNum.le c (fin (100 - lim))) ((List.range r.length).map fun i => fin (share r i))).getLast? with
      | none => rw [h1, h2] at he; simp at he
      | some j =>
        rw [h1, h2] at he
        simp only [Except.ok.injEq, Prod.mk.injEq, fin_inj] at he
        obtain ⟨⟨v, hv, hv'⟩, _⟩ := (whereIdx_head _ _ _).1 h1
        obtain ⟨⟨v', hw, hw'⟩, _⟩ := (whereIdx_last _ _ _).1 h2
        obtain ⟨hi, rfl⟩ := (shares_get r i v).1 hv
        obtain ⟨hj, rfl⟩ := (shares_get r j v').1 hw
        refine ⟨j, hj, ?_, by simpa only [le_fin, decide_eq_true_eq] using hw'⟩
        have hs : lim ≤ share r i := by simpa using hv'
        refine hs.trans (share_mono r h ht ?_)
        by_contra hc
        have := List.pairwise_iff_getElem.1 hinc j i (by omega) (by omega) (by omega)
        obtain ⟨e1, e2⟩ := he
        rw [← e1, ← e2] at hle
        simp only [List.getD, show i < w.length by omega, show j < w.length by omega, List.getElem?_eq_getElem,
          Option.getD_some] at hle
        linarith
  · rintro ⟨m, hm, h1, h2⟩
    exact C28_ordered_partial r w hl h ht hinc lim m hm h1 h2

example : ¬ ∃ lo up : ℝ, getBoundsIntegratedEnergy (finL [0, 1, 0]) (finL [1, 2, 3]) (fin 1) = .ok (fin lo, fin up) ∧ lo ≤ up := by
  rw [C28_exactly [0, 1, 0] [1, 2, 3] rfl
    (by intro x hx; simp at hx; rcases hx with rfl | rfl | rfl <;> norm_num) (by norm_num) (by simp [Increasing]; norm_num)]
  rintro ⟨m, hm, h1, h2⟩
  simp at hm
  have : m = 0 ∨ m = 1 ∨ m = 2 := by omega
  rcases this with rfl | rfl | rfl
  · norm_num [share] at h1
  · norm_num [share] at h2
  · norm_num [share] at h2

theorem halfs_width (r w : List ℝ) (hl : r.length = w.length) (i j : Nat) (hij : i < j)
    (hi : FirstAt (fun x => 1 / 2 ≤ x) r i) (hj : LastAt (fun x => 1 / 2 ≤ x) r j) :
    getFullwidthHalfmax (finL r) (finL w) = .ok (fin (w.getD j 0 - w.getD i 0)) := by
  obtain ⟨⟨u, hu, hu'⟩, hmin⟩ := hi
  obtain ⟨⟨v, hv, hv'⟩, hmx⟩ := hj
  have h1 : i < w.length := hl ▸ (List.getElem?_eq_some_iff.1 hu).1
  have h2 : j < w.length := hl ▸ (List.getElem?_eq_some_iff.1 hv).1
  have conv : ∀ (k : Nat) (z : XF), (finL r)[k]? = some z → HalfOrMore z → ∃ y : ℝ, r[k]? = some y ∧ 1 / 2 ≤ y := by
    intro k z hk hz
    simp only [finL, List.getElem?_map, Option.map_eq_some_iff] at hk
    obtain ⟨y, hy, rfl⟩ := hk
    unfold HalfOrMore at hz
    exact ⟨y, hy, by simpa only [le_fin, decide_eq_true_eq] using hz⟩
  rw [C26_width (finL r) (finL w) i j hij ⟨⟨fin u, by simp [finL, hu], by
      unfold HalfOrMore; simpa only [le_fin, decide_eq_true_eq] using hu'⟩, fun k z hk hz => by
        obtain ⟨y, hy, hy'⟩ := conv k z hk hz
        exact hmin k y hy hy'⟩
    ⟨⟨fin v, by simp [finL, hv], by
      unfold HalfOrMore; simpa only [le_fin, decide_eq_true_eq] using hv'⟩, fun k z hk hz => by
        obtain ⟨y, hy, hy'⟩ := conv k z hk hz
        exact hmx k y hy hy'⟩ (fin w[i]) (fin w[j]) (by simp [finL, h1]) (by simp [finL, h2])]
  simp [List.getD, h1, h2]

theorem first_exists {P : ℝ → Prop} (r : List ℝ) {i j : Nat} {u v : ℝ} (hij : i < j) (hu : r[i]? = some u)
    (hv : r[j]? = some v) (hu' : P u) (hv' : P v) : ∃ i' j', i' < j' ∧ FirstAt P r i' ∧ LastAt P r j' := by
  classical
  have hex : ∃ k, ∃ x, r[k]? = some x ∧ P x := ⟨i, u, hu, hu'⟩
  have hlen : ∀ k, (∃ x, r[k]? = some x ∧ P x) → k ≤ r.length := fun k ⟨x, hx, _⟩ => (List.getElem?_eq_some_iff.1 hx).1.le
  refine ⟨Nat.find hex, Nat.findGreatest (fun k => ∃ x, r[k]? = some x ∧ P x) r.length, ?_, ⟨Nat.find_spec hex, ?_⟩, ?_, ?_⟩
  · have h1 : Nat.find hex ≤ i := Nat.find_min' hex ⟨u, hu, hu'⟩
    have h2 : j ≤ Nat.findGreatest (fun k => ∃ x, r[k]? = some x ∧ P x) r.length :=
      Nat.le_findGreatest (hlen j ⟨v, hv, hv'⟩) ⟨v, hv, hv'⟩
    omega
  · intro k x hk hx
    exact Nat.find_min' hex ⟨x, hk, hx⟩
  · exact Nat.findGreatest_spec (P := fun k => ∃ x, r[k]? = some x ∧ P x) (hlen j ⟨v, hv, hv'⟩) ⟨v, hv, hv'⟩
  · intro k x hk hx
    exact Nat.le_findGreatest (hlen k ⟨x, hk, hx⟩) ⟨x, hk, hx⟩

/-- C27: the width returned is the documented one (above half of the maximum `m`) exactly if the same
two samples are the outermost ones of at least 0.5. -/
theorem C27_exactly (r w : List ℝ) (hl : r.length = w.length) (hinc : Increasing w) (m : ℝ) (i j : Nat) (hij : i < j)
    (hi : FirstAt (fun x => m / 2 ≤ x) r i) (hj : LastAt (fun x => m / 2 ≤ x) r j) :
    getFullwidthHalfmax (finL r) (finL w) = .ok (fin (w.getD j 0 - w.getD i 0)) ↔
      FirstAt (fun x => 1 / 2 ≤ x) r i ∧ LastAt (fun x => 1 / 2 ≤ x) r j := by
  constructor
  swap
  · rintro ⟨h1, h2⟩
    exact halfs_width r w hl i j hij h1 h2
  intro he
  have hne : ¬ getFullwidthHalfmax (finL r) (finL w) = .error .valueError := by rw [he]; simp
  rw [C26_raises_iff _ _ (by simpa using hl), not_not] at hne
  obtain ⟨p, q, u, v, hpq, hu, hv, hu', hv'⟩ := hne
  have conv : ∀ (k : Nat) (z : XF), (finL r)[k]? = some z → HalfOrMore z → ∃ y : ℝ, r[k]? = some y ∧ 1 / 2 ≤ y := by
    intro k z hk hz
    simp only [finL, List.getElem?_map, Option.map_eq_some_iff] at hk
    obtain ⟨y, hy, rfl⟩ := hk
    unfold HalfOrMore at hz
    exact ⟨y, hy, by simpa only [le_fin, decide_eq_true_eq] using hz⟩
  obtain ⟨y, hy, hy'⟩ := conv p u hu hu'
  obtain ⟨z, hz, hz'⟩ := conv q v hv hv'
  obtain ⟨i', j', hij', hi', hj'⟩ := first_exists (P := fun x => 1 / 2 ≤ x) r hpq hy hz hy' hz'
  have he' := halfs_width r w hl i' j' hij' hi' hj'
  rw [he'] at he
  simp only [Except.ok.injEq, fin_inj] at he
  have lt : ∀ k, (∃ x, r[k]? = some x) → k < w.length := fun k ⟨x, hx⟩ => hl ▸ (List.getElem?_eq_some_iff.1 hx).1
  have li : i < w.length := lt i ⟨_, hi.1.choose_spec.1⟩
  have lj : j < w.length := lt j ⟨_, hj.1.choose_spec.1⟩
  have li' : i' < w.length := lt i' ⟨_, hi'.1.choose_spec.1⟩
  have lj' : j' < w.length := lt j' ⟨_, hj'.1.choose_spec.1⟩
  simp only [List.getD, li, lj, li', lj', List.getElem?_eq_getElem, Option.getD_some] at he
  have mono : ∀ a b (ha : a < w.length) (hb : b < w.length), a < b → w[a] < w[b] := fun a b ha hb hab =>
    List.pairwise_iff_getElem.1 hinc a b ha hb hab
  have key : i' = i ∧ j' = j := by
    rcases le_total m 1 with hm | hm
    · obtain ⟨⟨a, ha, ha'⟩, _⟩ := hi'
      obtain ⟨⟨b, hb, hb'⟩, _⟩ := hj'
      have h1 : i ≤ i' := hi.2 i' a ha (by linarith)
      have h2 : j' ≤ j := hj.2 j' b hb (by linarith)
      rcases Nat.lt_or_ge i i' with h3 | h3 <;> rcases Nat.lt_or_ge j' j with h4 | h4
      · have := mono _ _ li li' h3; have := mono _ _ lj' lj h4; linarith
      · have e : j' = j := by omega
        subst e
        have := mono _ _ li li' h3; linarith
      · have e : i' = i := by omega
        subst e
        have := mono _ _ lj' lj h4; linarith
      · omega
    · obtain ⟨⟨a, ha, ha'⟩, _⟩ := hi
      obtain ⟨⟨b, hb, hb'⟩, _⟩ := hj
      have h1 : i' ≤ i := hi'.2 i a ha (by linarith)
      have h2 : j ≤ j' := hj'.2 j b hb (by linarith)
      rcases Nat.lt_or_ge i' i with h3 | h3 <;> rcases Nat.lt_or_ge j j' with h4 | h4
      · have := mono _ _ li' li h3; have := mono _ _ lj lj' h4; linarith
      · have e : j' = j := by omega
        subst e
        have := mono _ _ li' li h3; linarith
      · have e : i' = i := by omega
        subst e
        have := mono _ _ lj lj' h4; linarith
      · omega
  obtain ⟨rfl, rfl⟩ := key
  exact ⟨hi', hj'⟩

example : getFullwidthHalfmax (finL [0.1, 0.8, 0.6]) (finL [1, 2, 4]) = .ok (fin 2) := by
  have hf : ∀ t : ℝ, 0.1 < t → t ≤ 0.6 → FirstAt (fun x => t ≤ x) [0.1, 0.8, 0.6] 1 ∧ LastAt (fun x => t ≤ x) [0.1, 0.8, 0.6] 2 := by
    intro t h1 h2
    refine ⟨⟨⟨0.8, rfl, by linarith⟩, fun k v hk hv => ?_⟩, ⟨0.6, rfl, h2⟩, fun k v hk hv => ?_⟩
    · cases k with
      | zero => simp at hk; subst hk; linarith
      | succ k => omega
    · have := (List.getElem?_eq_some_iff.1 hk).1
      simp at this; omega
  have := (C27_exactly [0.1, 0.8, 0.6] [1, 2, 4] rfl (by simp [Increasing]; norm_num) 0.8 1 2 (by norm_num)
    (hf _ (by norm_num) (by norm_num)).1 (hf _ (by norm_num) (by norm_num)).2).2 (hf _ (by norm_num) (by norm_num))
  rw [this]; simp; norm_num

end Verif.Props
