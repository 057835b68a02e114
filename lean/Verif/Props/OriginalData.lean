import Verif.Model.Convert
import Verif.Spec.RsrFile
import Verif.Lemmas.Convert
import Verif.Lemmas.Trap
import Mathlib.Tactic.Linarith
/-
Properties C107, C110-C113: reading the original responses of VIIRS, of the instruments with tables
by wavenumber, of AGRI and GHI, of MERSI-1 and of AVHRR-1.
-/
namespace Verif.Props
open Model Spec Lemmas PyNum XF
variable {α : Type} [PyNum α]

/-! ### C107 -/

/-- C107: whatever the file, the header that is skipped is the leading lines with a percent sign:
all of these, and the first line after them (if any) is none. -/
theorem C107_header (lines : List String) : ∃ k : Nat, getHeaderLines2skip lines = k ∧ k ≤ lines.length ∧
    (∀ l ∈ lines.take k, l.toList.head? = some '%') ∧ ∀ l, lines[k]? = some l → l.toList.head? ≠ some '%' := by
  have key : ∀ lines : List String, ∃ k : Nat, linesRead lines = k + 1 ∧ k ≤ lines.length ∧
      (∀ l ∈ lines.take k, l.toList.head? = some '%') ∧ ∀ l, lines[k]? = some l → l.toList.head? ≠ some '%' := by
    intro lines
    induction lines with
    | nil => exact ⟨0, rfl, by simp, by simp, by simp⟩
    | cons a lines ih =>
      have ha := startsWith_char a '%' "%" (by decide)
      unfold linesRead
      by_cases h : Str.startsWith a "%" = true
      · obtain ⟨k, h1, h2, h3, h4⟩ := ih
        rw [if_pos h, h1]
        refine ⟨k + 1, rfl, by simpa using h2, ?_, ?_⟩
        · intro l hl
          rw [List.take_succ_cons, List.mem_cons] at hl
          rcases hl with rfl | hl
          · exact ha.1 h
          · exact h3 l hl
        · intro l hl
          exact h4 l (by simpa using hl)
      · rw [if_neg h]
        refine ⟨0, rfl, by simp, by simp, ?_⟩
        intro l hl
        simp only [List.length_cons, Nat.zero_lt_succ, List.getElem?_eq_getElem, List.getElem_cons_zero,
          Option.some.injEq] at hl
        subst hl
        exact fun hc => h (ha.2 hc)
  obtain ⟨k, h1, h2⟩ := key lines
  refine ⟨k, ?_, h2⟩
  unfold getHeaderLines2skip
  rw [h1]
  simp

example : getHeaderLines2skip ["% VIIRS", "%", "M1 1 412 0.5", "% not in the header"] = 2 := by decide

theorem foldl_max_spec (l : List Int) : ∀ d, (l.foldl max d = d ∨ l.foldl max d ∈ l) ∧ d ≤ l.foldl max d ∧
    ∀ x ∈ l, x ≤ l.foldl max d := by
  induction l with
  | nil => intro d; simp
  | cons a l ih =>
    intro d
    obtain ⟨h1, h2, h3⟩ := ih (max d a)
    simp only [List.foldl_cons]
    refine ⟨?_, by omega, ?_⟩
    · rcases h1 with h | h
      · rw [h]
        rcases Int.le_total d a with g | g
        · right; rw [max_eq_right g]; simp
        · left; exact max_eq_left g
      · right; exact List.mem_cons_of_mem _ h
    · intro x hx
      rcases List.mem_cons.1 hx with rfl | hx
      · omega
      · exact h3 x hx

/-- C107: whatever the rows and their order, the detectors are det-1 to det-m, m being the greatest
number in the table, and each has exactly the rows with its own number, in the order of the table,
wavelengths times the scale. -/
theorem C107_detectors (rows : List (ViirsRow α)) (hne : rows ≠ []) (scale : α) :
    ∃ out m, viirsDetectors rows scale = .ok out ∧ (∃ r ∈ rows, r.detector = m) ∧ (∀ r ∈ rows, r.detector ≤ m) ∧
      out.keys = (List.range m.toNat).map detName ∧
      ∀ i < m.toNat, out.get? (detName i) = some
        ⟨(rows.filter fun r => r.detector == (i : Int) + 1).map (fun r => r.wavelength * scale),
         (rows.filter fun r => r.detector == (i : Int) + 1).map ViirsRow.response⟩ := by
  cases rows with
  | nil => exact absurd rfl hne
  | cons a rows =>
    obtain ⟨h1, h2, h3⟩ := foldl_max_spec (rows.map ViirsRow.detector) a.detector
    have hkeys : ∀ (n : Nat) (g : Nat → RawCurve α),
        Dict.keys ((List.range n).map fun i => ("det-" ++ toString (i + 1), g i)) = (List.range n).map detName := by
      intro n g
      simp only [Dict.keys, List.map_map]
      rfl
    refine ⟨_, (rows.map ViirsRow.detector).foldl max a.detector, rfl, ?_, ?_, ?_, ?_⟩
    · rcases h1 with h | h
      · exact ⟨a, by simp, h.symm⟩
      · obtain ⟨r, hr, e⟩ := List.mem_map.1 h
        exact ⟨r, by simp [hr], e⟩
    · intro r hr
      rcases List.mem_cons.1 hr with rfl | hr
      · exact h2
      · exact h3 _ (List.mem_map.2 ⟨r, hr, rfl⟩)
    · exact hkeys _ _
    · intro i hi
      refine get?_of_mem ?_ (List.mem_map.2 ⟨i, by simpa using hi, ?_⟩)
      · unfold Dict.WF
        rw [List.map_map]
        exact List.nodup_range.map (fun a b h => detName_inj h)
      · simp only [Prod.mk.injEq]
        refine ⟨rfl, ?_⟩
        have := select_filter (a :: rows) (fun r => r.detector == (i : Int) + 1) (γ := α)
        rw [RawCurve.mk.injEq]
        constructor
        · rw [← this]; simp [List.map_map, Function.comp_def]
        · rw [← this]; simp [List.map_map, Function.comp_def]

example : ∃ out, viirsDetectors [⟨2, fin 412, fin 1⟩, ⟨1, fin 412, fin 0.5⟩, ⟨2, fin 413, fin 0.25⟩] = .ok out ∧
    out.get? "det-2" = some ⟨[fin 412 * 0.001, fin 413 * 0.001], [fin 1, fin 0.25]⟩ := by
  obtain ⟨out, m, h1, ⟨r, hr, hm⟩, h3, _, h5⟩ := C107_detectors
    [⟨2, fin 412, fin 1⟩, ⟨1, fin 412, fin 0.5⟩, ⟨2, fin 413, fin 0.25⟩] (by simp) 0.001
  have h2 := h3 ⟨2, fin 412, fin 1⟩ (by simp)
  have hm2 : m = 2 := by
    fin_cases hr <;> simp at hm h2 <;> omega
  subst hm2
  exact ⟨out, h1, h5 1 (by decide)⟩

/-! ### C110 -/

/-- C110: for every table of samples at positive wavenumbers (cm-1) in ascending order, the
wavelengths (micron) are 10000 over the wavenumber, in ascending order, and every response stays
with its own sample; the three converters agree. -/
theorem C110_wavenumber_tables (ns rs : List ℝ) (hlen : ns.length = rs.length) (hpos : ∀ n ∈ ns, 0 < n)
    (hinc : ns.Pairwise (· < ·)) :
    ∃ ws : List ℝ, fromWavenumbers (finL ns) (finL rs) = ⟨finL ws, finL rs.reverse⟩ ∧
      slstrFromWavenumbers (finL ns) (finL rs) = ⟨finL ws, finL rs.reverse⟩ ∧ ws.Pairwise (· < ·) ∧
      ws.zip rs.reverse = ((ns.zip rs).map fun p => (10000 / p.1, p.2)).reverse := by
  have e1 : ∀ l : List ℝ, (∀ n ∈ l, 0 < n) → ((finL l).map fun n => 1.0 / n * 10000.0) = finL (l.map (10000 / ·)) := by
    intro l hl
    induction l with
    | nil => rfl
    | cons a l ih =>
      have ha := hl a (by simp)
      simp only [finL_cons, List.map_cons]
      rw [ih (fun n hn => hl n (by simp [hn]))]
      congr 1
      rw [ofSci_eq, ofSci_eq, fin_div _ ha.ne', fin_mul, fin_inj]
      field_simp
      norm_num
  have e2 : ∀ l : List ℝ, (∀ n ∈ l, 0 < n) → ((finL l).map fun n => 10000.0 / n) = finL (l.map (10000 / ·)) := by
    intro l hl
    induction l with
    | nil => rfl
    | cons a l ih =>
      have ha := hl a (by simp)
      simp only [finL_cons, List.map_cons]
      rw [ih (fun n hn => hl n (by simp [hn]))]
      congr 1
      rw [ofSci_eq, fin_div _ ha.ne', fin_inj]
      norm_num
  have hpos' : ∀ n ∈ ns.reverse, 0 < n := fun n hn => hpos n (by simpa using hn)
  refine ⟨ns.reverse.map (10000 / ·), ?_, ?_, ?_, ?_⟩
  · unfold fromWavenumbers
    rw [← finL_reverse, e1 _ hpos', finL_reverse]
  · unfold slstrFromWavenumbers
    rw [← finL_reverse, e2 _ hpos', finL_reverse]
  · rw [List.pairwise_map, List.pairwise_reverse]
    refine hinc.imp_of_mem ?_
    intro a b ha hb hab
    exact div_lt_div_of_pos_left (by norm_num) (hpos a ha) hab
  · rw [← List.map_reverse, List.zip, List.reverse_zipWith hlen]
    rw [List.zipWith_map_left, List.map_zipWith]

example : ∃ ws : List ℝ, fromWavenumbers (finL [1000, 2000, 2500]) (finL [0.1, 1, 0.2]) = ⟨finL ws, finL [0.2, 1, 0.1]⟩ ∧
    ws.Pairwise (· < ·) ∧ ws.zip ([0.2, 1, 0.1] : List ℝ) = [(10000 / 2500, 0.2), (10000 / 2000, 1), (10000 / 1000, 0.1)] := by
  obtain ⟨ws, h1, _, h3, h4⟩ := C110_wavenumber_tables [1000, 2000, 2500] [0.1, 1, 0.2] rfl
    (by intro n hn; fin_cases hn <;> norm_num) (by simp; norm_num)
  refine ⟨ws, h1, h3, ?_⟩
  simpa using h4

/-! ### C111 -/

/-- C111: for every table the samples kept are exactly those with a response above 0.001, in order,
each with its own wavelength times the scale; responses are in percent exactly if one exceeds 1. -/
theorem C111_agri_samples (w r : List α) (scale : α) (hlen : w.length = r.length) (hne : r ≠ []) :
    ∃ c, agriLoad w r scale = .ok c ∧ c.wavelength.length = c.response.length ∧
      c.wavelength.zip c.response = ((w.zip r).map fun p => (p.1 * scale,
        if r.any (fun x => gt x 1) then p.2 / 100.0 else p.2)).filter fun p => gt p.2 0.001 := by
  have key : ∀ (f : α → α) , cutBelow 0.001 ⟨w.map (· * scale), r.map f⟩ =
      ⟨(((w.zip r).map fun p => (p.1 * scale, f p.2)).filter fun p => gt p.2 0.001).map Prod.fst,
       (((w.zip r).map fun p => (p.1 * scale, f p.2)).filter fun p => gt p.2 0.001).map Prod.snd⟩ := by
    intro f
    unfold cutBelow
    have := select_filter ((w.zip r).map fun p => (p.1 * scale, f p.2)) (fun p => gt p.2 (0.001 : α)) (γ := α)
    rw [RawCurve.mk.injEq, ← this, ← this]
    have e1 : (w.map (· * scale)) = ((w.zip r).map fun p => (p.1 * scale, f p.2)).map Prod.fst := by
      rw [List.map_map]
      conv_lhs => rw [← List.map_fst_zip (l₁ := w) (l₂ := r) (by omega), List.map_map]
      rfl
    have e2 : (r.map f) = ((w.zip r).map fun p => (p.1 * scale, f p.2)).map Prod.snd := by
      rw [List.map_map]
      conv_lhs => rw [← List.map_snd_zip (l₁ := w) (l₂ := r) (by omega), List.map_map]
      rfl
    rw [← e1, ← e2]
    simp only [List.map_map, Function.comp_def]
    have e3 : (r.map fun x => gt (f x) 0.001) = (w.zip r).map fun x => gt (f x.2) 0.001 := by
      conv_lhs => rw [← List.map_snd_zip (l₁ := w) (l₂ := r) (by omega), List.map_map]
      rfl
    rw [e3]
    exact ⟨rfl, rfl⟩
  have hz : ∀ l : List (α × α), (l.map Prod.fst).zip (l.map Prod.snd) = l := by
    intro l
    rw [List.zip_map']
    simp
  cases r with
  | nil => exact absurd rfl hne
  | cons x r =>
    have hk : agriLoad w (x :: r) scale = .ok (cutBelow 0.001 ⟨w.map (· * scale),
        (x :: r).map fun y => if (x :: r).any (fun x => gt x 1) then y / 100.0 else y⟩) := by
      unfold agriLoad
      simp only
      cases hp : (x :: r).any (fun x => gt x 1) with
      | true => rfl
      | false => simp only [Bool.false_eq_true, if_false, List.map_id']
    rw [key] at hk
    exact ⟨_, hk, by simp, hz _⟩

example : ∃ c, agriLoad (finL [450, 460, 470]) (finL [0, 50, 100]) 0.001 = .ok c ∧
    c.wavelength.length = c.response.length := by
  obtain ⟨c, h1, h2, _⟩ := C111_agri_samples (finL [450, 460, 470]) (finL [0, 50, 100]) 0.001 rfl (by simp)
  exact ⟨c, h1, h2⟩

/-! ### C112 -/

/-- The bands of FY-3B that share one file. -/
def mersi1File1 : List String := ["ch1", "ch2", "ch3", "ch4", "ch8", "ch9", "ch10", "ch11", "ch12", "ch13", "ch14",
  "ch15", "ch16", "ch17", "ch18", "ch19", "ch20"]

/-- C112 is false of the code: two bands of the same file are read from the same column. -/
theorem C112_same_column : "ch4" ∈ mersi1File1 ∧ "ch8" ∈ mersi1File1 ∧
    mersi1ColumnFY3B "ch4" = .ok 4 ∧ mersi1ColumnFY3B "ch8" = .ok 4 := by
  refine ⟨by decide, by decide, by decide +kernel, by decide +kernel⟩

/-- C112, the part that holds: all bands of that file but ch8 are read from columns of their own,
and so are ch6 and ch7 of the other file.  What is missing: ch8. -/
theorem C112_own_columns_partial :
    (∀ a ∈ mersi1File1, ∀ b ∈ mersi1File1, a ≠ "ch8" → b ≠ "ch8" → mersi1ColumnFY3B a = mersi1ColumnFY3B b → a = b) ∧
    mersi1ColumnFY3B "ch6" ≠ mersi1ColumnFY3B "ch7" := by
  refine ⟨by decide +kernel, by decide +kernel⟩

/-! ### C113 -/

/-- the value is (nearly) the mistyped wavelength 640 -/
def IsTypo (x : ℝ) : Prop := |x - 640| < 0.01

/-- the corrected list: a value is replaced by 840 exactly if it is (nearly) 640 and less than the
(corrected) value before it -/
inductive Corrected : ℝ → List ℝ → List ℝ → Prop
  | nil {p} : Corrected p [] []
  | keep {p x xs ys} (h : ¬ (x < p ∧ IsTypo x)) (hr : Corrected x xs ys) : Corrected p (x :: xs) (x :: ys)
  | replace {p x xs ys} (h : x < p ∧ IsTypo x) (hr : Corrected 840 xs ys) : Corrected p (x :: xs) (840 :: ys)

theorem adjustFrom_spec (xs : List ℝ) : ∀ p, ∃ ys, adjustFrom (fin p) (finL xs) = finL ys ∧ Corrected p xs ys := by
  induction xs with
  | nil => intro p; exact ⟨[], rfl, .nil⟩
  | cons x xs ih =>
    intro p
    have hc : (gt (fin p) (fin x) && lt (PyNum.abs (fin x - 640.0)) (0.01 : XF)) = true ↔ (x < p ∧ IsTypo x) := by
      unfold IsTypo
      simp only [gt_fin, ofSci_eq, fin_sub, abs_fin, lt_fin, Bool.and_eq_true, decide_eq_true_eq]
      norm_num
    simp only [finL_cons, adjustFrom]
    by_cases h : x < p ∧ IsTypo x
    · obtain ⟨ys, h1, h2⟩ := ih 840
      refine ⟨840 :: ys, ?_, .replace h h2⟩
      rw [if_pos (hc.2 h)]
      have e : (840.0 : XF) = fin 840 := by rw [ofSci_eq]; norm_num
      rw [e, h1]; rfl
    · obtain ⟨ys, h1, h2⟩ := ih x
      refine ⟨x :: ys, ?_, .keep h h2⟩
      rw [if_neg (fun hh => h (hc.1 hh)), h1]; rfl

/-- C113: the correction leaves the first value alone and replaces a later value by 840 exactly if
it is (nearly) 640 and less than the corrected value before it. -/
theorem C113_typo (x : ℝ) (xs : List ℝ) : ∃ ys, adjustTypo (finL (x :: xs)) = finL (x :: ys) ∧ Corrected x xs ys := by
  obtain ⟨ys, h1, h2⟩ := adjustFrom_spec xs x
  exact ⟨ys, by simp only [finL_cons, adjustTypo]; rw [h1], h2⟩

/-- C113: lists that do not decrease are unchanged. -/
theorem C113_ascending (xs : List ℝ) (h : xs.Pairwise (· ≤ ·)) : adjustTypo (finL xs) = finL xs := by
  have key : ∀ (xs : List ℝ) (p : ℝ), (p :: xs).Pairwise (· ≤ ·) → ∀ ys, Corrected p xs ys → ys = xs := by
    intro xs
    induction xs with
    | nil => intro p _ ys h; cases h; rfl
    | cons x xs ih =>
      intro p hp ys h
      have hpx := (List.pairwise_cons.1 hp).1 x (by simp)
      cases h with
      | keep _ hr => rw [ih x (List.pairwise_cons.1 hp).2 _ hr]
      | replace h _ => exact absurd h.1 (not_lt.2 hpx)
  cases xs with
  | nil => rfl
  | cons x xs =>
    obtain ⟨ys, h1, h2⟩ := C113_typo x xs
    rw [h1, key xs x h ys h2]

example : adjustTypo (finL [820, 830, 830, 850]) = finL [820, 830, 830, 850] :=
  C113_ascending _ (by simp; norm_num)

/-- C113: correcting twice is the same as correcting once. -/
theorem C113_idempotent (xs : List ℝ) : adjustTypo (adjustTypo (finL xs)) = adjustTypo (finL xs) := by
  have key : ∀ (xs ys : List ℝ) (p : ℝ), Corrected p xs ys → ∀ zs, Corrected p ys zs → zs = ys := by
    intro xs ys p h
    induction h with
    | nil => intro zs hz; cases hz; rfl
    | keep h hr ih =>
      intro zs hz
      cases hz with
      | keep _ hr' => rw [ih _ hr']
      | replace h' _ => exact absurd h' h
    | replace h hr ih =>
      intro zs hz
      cases hz with
      | keep _ hr' => rw [ih _ hr']
      | replace h' _ =>
        have := h'.2
        unfold IsTypo at this
        norm_num at this
  cases xs with
  | nil => rfl
  | cons x xs =>
    obtain ⟨ys, h1, h2⟩ := C113_typo x xs
    obtain ⟨zs, h3, h4⟩ := C113_typo x ys
    rw [h1, h3, key _ _ _ h2 _ h4]

example : adjustTypo (finL [820, 830, 640, 850]) = finL [820, 830, 840, 850] := by
  obtain ⟨ys, h1, h2⟩ := C113_typo 820 [830, 640, 850]
  rw [h1]
  cases h2 with
  | replace h _ => exact absurd h.1 (by norm_num)
  | keep _ h2 => cases h2 with
    | keep h _ => exact absurd ⟨by norm_num, by unfold IsTypo; norm_num⟩ h
    | replace _ h2 => cases h2 with
      | replace h _ => exact absurd h.1 (by norm_num)
      | keep _ h2 => cases h2; rfl

end Verif.Props
