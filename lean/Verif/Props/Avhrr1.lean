import Verif.Model.Avhrr1Convert
import Verif.Lemmas.WriterSteps
import Verif.Props.WriterSteps
import Verif.Props.Modis
import Verif.Props.OriginalData
import Verif.Props.ViirsConvert
import Mathlib.Tactic.IntervalCases
/-
Property C160: the AVHRR/1 responses, from the workbook to what the reader returns.
-/
namespace Verif.Props
open Model Spec Lemmas PyNum XF

/-! ### what a workbook should look like -/

/-- The sheet of channel `n` (1 to 4) of the instrument model `k` (1 to 4) is called A10kC00n. -/
def ChannelSheet (name : String) (n : Nat) : Prop :=
  1 ≤ n ∧ n ≤ 4 ∧ ∃ k, 1 ≤ k ∧ k ≤ 4 ∧ name = "A10" ++ toString k ++ "C00" ++ toString n

/-- The platforms with an AVHRR/1. -/
def avhrr1Platforms : List String := ["TIROS-N", "NOAA-6", "NOAA-8", "NOAA-10"]

/-- What is in a sheet: wavelengths in the unit of the sheet, responses, and the length of that unit
in micron. -/
structure SheetData where
  w : List ℝ
  r : List ℝ
  unit : ℝ

/-- The two units: Ångström and nanometre. -/
def UnitText (text : String) (u : ℝ) : Prop := (text = "Å" ∧ u = 1 / 10000) ∨ (text = "nm" ∧ u = 1 / 1000)

/-- A sheet with the data of channel `n` of a platform: the platform is named in the first row (with
hashes and blanks around), the unit in the second; then come the samples, and below the wavelengths
there may be remarks. -/
structure SheetOf (s : CellSheet XF) (platform : String) (n : Nat) (d : SheetData) : Prop where
  name : ChannelSheet (Str.strip s.name) n
  known : platform ∈ avhrr1Platforms
  samples : d.w ≠ [] ∧ d.w.length = d.r.length
  rows : ∃ (pre post : List Char) (unitText : String) (before : List Char) (remarks : List String),
    (∀ c ∈ pre ++ post, c = '#' ∨ c = ' ') ∧ UnitText unitText d.unit ∧ 'W' ∉ before ∧
    s.col 0 = .text (String.ofList (pre ++ platform.toList ++ post)) ::
      .text (String.ofList (before ++ "Wavelength (".toList ++ unitText.toList ++ [')'])) ::
      ((d.w.map fun x => .num (fin x)) ++ remarks.map .text)
  responses : ∃ a b rest, s.col 1 = a :: b :: ((d.r.map fun x => .num (fin x)) ++ rest)

/-- The wavelengths after the correction of the mistyped one in the TIROS-N sheets. -/
def CorrectedFor (platform : String) (w ys : List ℝ) : Prop :=
  if platform = "TIROS-N" then
    match w, ys with
    | [], [] => True
    | x :: xs, y :: ys => y = x ∧ Corrected x xs ys
    | _, _ => False
  else ys = w

/-! ### a sheet -/

theorem splitFirst_at (sep pre post : List Char) (c : Char) (t : List Char) (hs : sep = c :: t) (h : c ∉ pre) :
    splitFirst sep (pre ++ sep ++ post) = (pre, some post) := by
  induction pre with
  | nil =>
    subst hs
    rw [List.nil_append, List.cons_append]
    unfold splitFirst
    rw [if_pos (by rw [List.isPrefixOf_iff_prefix]; exact ⟨post, rfl⟩)]
    rw [show c :: (t ++ post) = (c :: t) ++ post from rfl, List.drop_left]
  | cons a pre ih =>
    have ha : a ≠ c := fun e => h (e ▸ List.mem_cons_self)
    have := ih (fun hm => h (List.mem_cons_of_mem _ hm))
    rw [List.cons_append, List.cons_append]
    unfold splitFirst
    rw [if_neg, this]
    rw [List.isPrefixOf_iff_prefix, hs]
    rintro ⟨x, hx⟩
    rw [List.cons_append] at hx
    exact ha (List.cons.inj hx).1.symm

theorem stripChars_mid (chars pre mid post : List Char) (hpre : ∀ c ∈ pre, chars.contains c = true)
    (hpost : ∀ c ∈ post, chars.contains c = true) (a z : Char) (ha : mid.head? = some a) (hz : mid.getLast? = some z)
    (ha' : chars.contains a = false) (hz' : chars.contains z = false) :
    stripChars chars (pre ++ mid ++ post) = mid := by
  unfold stripChars
  rw [List.append_assoc, List.dropWhile_append_of_pos hpre]
  have h1 : (mid ++ post).dropWhile (chars.contains ·) = mid ++ post := by
    cases mid with
    | nil => cases ha
    | cons b m =>
      simp only [List.head?_cons, Option.some.injEq] at ha
      subst ha
      rw [List.cons_append, List.dropWhile_cons, ha']
      rfl
  rw [h1, List.reverse_append, List.dropWhile_append_of_pos (by simpa using hpost)]
  have h2 : mid.reverse.dropWhile (chars.contains ·) = mid.reverse := by
    have : mid.reverse.head? = some z := by rw [List.head?_reverse, hz]
    cases hm : mid.reverse with
    | nil => rw [hm] at this; cases this
    | cons b m =>
      rw [hm] at this
      simp only [List.head?_cons, Option.some.injEq] at this
      subst this
      rw [List.dropWhile_cons, hz']
      rfl
  rw [h2, List.reverse_reverse]

theorem platform_ends (p : String) (h : p ∈ avhrr1Platforms) : ∃ a z, p.toList.head? = some a ∧
    p.toList.getLast? = some z ∧ ['#', ' '].contains a = false ∧ ['#', ' '].contains z = false := by
  simp only [avhrr1Platforms, List.mem_cons, List.not_mem_nil, or_false] at h
  rcases h with rfl | rfl | rfl | rfl
  · exact ⟨'T', 'N', by decide⟩
  · exact ⟨'N', '6', by decide⟩
  · exact ⟨'N', '8', by decide⟩
  · exact ⟨'N', '0', by decide⟩

theorem cellNumbers_nums (xs : List ℝ) : cellNumbers (xs.map fun x => Cell.num (fin x)) = some (finL xs) := by
  induction xs with
  | nil => rfl
  | cons x xs ih =>
    unfold cellNumbers at ih ⊢
    rw [List.map_cons, List.mapM_cons, ih]
    rfl

theorem kept_nums (xs : List ℝ) (hx : xs ≠ []) (remarks : List String) :
    ((((xs.map fun x => Cell.num (fin x)) ++ remarks.map Cell.text).reverse.dropWhile Cell.isText).reverse) =
      xs.map fun x => Cell.num (fin x) := by
  rw [List.reverse_append, List.dropWhile_append_of_pos (by
    intro c hc
    rw [List.mem_reverse, List.mem_map] at hc
    obtain ⟨s, _, rfl⟩ := hc
    rfl)]
  have : (xs.map fun x => Cell.num (fin x)).reverse.dropWhile Cell.isText = (xs.map fun x => Cell.num (fin x)).reverse := by
    rw [← List.map_reverse]
    cases hr : xs.reverse with
    | nil => exact absurd (List.reverse_eq_nil_iff.1 hr) hx
    | cons y ys => rfl
  rw [this, List.reverse_reverse]

/-- the wavelengths in micron as the constructor calculates them -/
theorem corrected_samples (platform : String) (d : SheetData) (hw : d.w ≠ []) :
    ∃ ys, CorrectedFor platform d.w ys ∧ ys.length = d.w.length ∧
      (if platform = "TIROS-N" then adjustTypo (finL d.w) else finL d.w) = finL ys := by
  by_cases h : platform = "TIROS-N"
  · obtain ⟨x, xs, e⟩ := List.exists_cons_of_ne_nil hw
    obtain ⟨ys, h1, h2⟩ := C113_typo x xs
    have hl : ys.length = xs.length := by
      clear h1 e
      induction h2 with
      | nil => rfl
      | keep _ _ ih => simp [ih]
      | replace _ _ ih => simp [ih]
    refine ⟨x :: ys, ?_, by simp [e, hl], ?_⟩
    · unfold CorrectedFor
      rw [if_pos h, e]
      exact ⟨rfl, h2⟩
    · rw [if_pos h, e, h1]
  · exact ⟨d.w, by unfold CorrectedFor; rw [if_neg h], rfl, by rw [if_neg h]⟩

/-- the samples of a sheet as the constructor keeps them -/
noncomputable def keptSamples (platform : String) (d : SheetData) : Avhrr1Chan XF :=
  ⟨some ((if platform = "TIROS-N" then adjustTypo (finL d.w) else finL d.w).map (· * fin d.unit)), some (finL d.r)⟩

theorem kept_corrected (platform : String) (d : SheetData) (hw : d.w ≠ []) :
    ∃ ys, CorrectedFor platform d.w ys ∧ ys.length = d.w.length ∧
      keptSamples platform d = ⟨some (finL (ys.map (· * d.unit))), some (finL d.r)⟩ := by
  obtain ⟨ys, h1, h2, h3⟩ := corrected_samples platform d hw
  refine ⟨ys, h1, h2, ?_⟩
  unfold keptSamples
  rw [h3]
  have : (finL ys).map (· * fin d.unit) = finL (ys.map (· * d.unit)) := by
    simp only [finL, List.map_map]
    refine List.map_congr_left ?_
    intro x _
    exact fin_mul _ _
  rw [this]

theorem sheet_read (s : CellSheet XF) (platform : String) (n : Nat) (d : SheetData) (h : SheetOf s platform n d) :
    avhrr1Sheet s = .ok (platform, keptSamples platform d) := by
  obtain ⟨hw, hlen⟩ := h.samples
  obtain ⟨pre, post, ut, before, remarks, hpp, hu, hb, hcol⟩ := h.rows
  obtain ⟨a, b, rest, hcol1⟩ := h.responses
  obtain ⟨f, l, e1, e2, e3, e4⟩ := platform_ends platform h.known
  have hplat : String.ofList (stripChars ['#', ' '] (pre ++ platform.toList ++ post)) = platform := by
    rw [stripChars_mid ['#', ' '] pre platform.toList post _ _ f l e1 e2 e3 e4]
    · simp
    · intro c hc
      rcases hpp c (List.mem_append_left _ hc) with rfl | rfl <;> decide
    · intro c hc
      rcases hpp c (List.mem_append_right _ hc) with rfl | rfl <;> decide
  have hunit : secondPart "Wavelength (".toList (before ++ "Wavelength (".toList ++ ut.toList ++ [')']) =
      .ok (ut.toList ++ [')']) ∧ String.ofList (stripChars [')'] (ut.toList ++ [')'])) = ut ∧
      ∃ sc : XF, (avhrr1Scale ut : Option XF) = some sc ∧ sc = fin d.unit := by
    have hs : splitFirst "Wavelength (".toList (before ++ "Wavelength (".toList ++ (ut.toList ++ [')'])) =
        (before, some (ut.toList ++ [')'])) := splitFirst_at _ _ _ 'W' _ rfl hb
    unfold secondPart
    rw [List.append_assoc, hs]
    rcases hu with ⟨rfl, hd⟩ | ⟨rfl, hd⟩
    · refine ⟨rfl, by decide, 0.0001, rfl, ?_⟩
      rw [ofSci_eq, hd]; norm_num
    · refine ⟨rfl, by decide, 0.001, rfl, ?_⟩
      rw [ofSci_eq, hd]; norm_num
  obtain ⟨u1, u2, sc, u3, rfl⟩ := hunit
  unfold avhrr1Sheet
  rw [hcol, hcol1]
  simp only [List.take_succ_cons, List.take_zero, headerText, List.getElem?_cons_zero, List.getElem?_cons_succ,
    String.toList_ofList, bind, Except.bind, u1, List.drop_succ_cons, List.drop_zero]
  rw [hplat, u2, kept_nums d.w hw remarks, cellNumbers_nums, u3]
  have hne : (d.w.map fun x => Cell.num (fin x)).isEmpty = false := by
    cases hd : d.w with
    | nil => exact absurd hd hw
    | cons x xs => rfl
  rw [hne]
  simp only [Bool.false_eq_true, if_false]
  rw [List.length_map, hlen, List.take_left' (by simp), cellNumbers_nums]
  rfl

/-! ### the workbook -/

/-- A complete workbook: `data` tells what is in the sheet of every channel of every platform.  The
sheet "Kleespies Data" may be anywhere; after the last sheet that counts there may be others, the
first of which has a name of another form. -/
structure WorkbookOf (sheets : List (CellSheet XF)) (data : String → Nat → SheetData) : Prop where
  parts : ∃ good stop, sheets = good ++ stop ∧
    (∀ s ∈ good, s.name = "Kleespies Data" ∨ ∃ P n, SheetOf s P n (data P n)) ∧
    (∀ P ∈ avhrr1Platforms, ∀ n, 1 ≤ n → n ≤ 4 → ∃ s ∈ good, SheetOf s P n (data P n)) ∧
    (∀ s ∈ stop.head?, s.name ≠ "Kleespies Data" ∧ ∀ n, ¬ ChannelSheet (Str.strip s.name) n)

/-- the name of channel `n` -/
def chName (n : Nat) : String := "ch" ++ toString n

theorem channel_known (name : String) (n : Nat) (h : ChannelSheet name n) :
    AVHRR1_CHANNEL_NAMES.get? name = some (chName n) := by
  obtain ⟨h1, h2, k, h3, h4, rfl⟩ := h
  interval_cases n <;> interval_cases k <;> decide

theorem channel_unknown (name : String) (h : ∀ n, ¬ ChannelSheet name n) : AVHRR1_CHANNEL_NAMES.get? name = none := by
  by_contra hn
  obtain ⟨c, hc⟩ := Option.ne_none_iff_exists'.1 hn
  have hm := get?_eq_some_mem hc
  have key : ∀ p ∈ AVHRR1_CHANNEL_NAMES, ∃ n, n ≤ 4 ∧ 1 ≤ n ∧ ∃ k, k ≤ 4 ∧ 1 ≤ k ∧ p.1 = "A10" ++ toString k ++ "C00" ++ toString n := by
    decide +kernel
  obtain ⟨n, n1, n2, k, k1, k2, e⟩ := key _ hm
  exact h n ⟨n2, n1, k, k2, k1, e⟩

theorem sheet_not_skipped {s : CellSheet XF} {P : String} {n : Nat} {d : SheetData} (h : SheetOf s P n d) :
    s.name ≠ "Kleespies Data" := by
  intro e
  have := channel_known _ _ h.name
  rw [e] at this
  have h0 : AVHRR1_CHANNEL_NAMES.get? (Str.strip "Kleespies Data") = none := by decide +kernel
  rw [h0] at this
  cases this

/-- what has been read so far: every platform has its four channels, those in `D` with their samples -/
def ReadSoFar (data : String → Nat → SheetData) (D : String → Nat → Prop) (rsr : Avhrr1Rsr XF) : Prop :=
  ∀ P ∈ avhrr1Platforms, ∃ C, rsr.get? P = some C ∧ C.keys = ["ch1", "ch2", "ch3", "ch4"] ∧
    ∀ n, 1 ≤ n → n ≤ 4 → D P n → C.get? (chName n) = some (keptSamples P (data P n))

theorem chName_mem {n : Nat} (h1 : 1 ≤ n) (h2 : n ≤ 4) : chName n ∈ ["ch1", "ch2", "ch3", "ch4"] := by
  interval_cases n <;> decide

theorem chName_inj {n m : Nat} (h : chName n = chName m) : n = m := by
  unfold chName at h
  have := congrArg String.toList h
  rw [String.toList_append, String.toList_append] at this
  have h' := List.append_cancel_left this
  exact toString_inj (String.toList_inj.1 h')

theorem load_good (data : String → Nat → SheetData) (stop : List (CellSheet XF))
    (hstop : ∀ s ∈ stop.head?, s.name ≠ "Kleespies Data" ∧ ∀ n, ¬ ChannelSheet (Str.strip s.name) n)
    (good : List (CellSheet XF)) :
    ∀ (D : String → Nat → Prop) (rsr : Avhrr1Rsr XF), ReadSoFar data D rsr →
    (∀ s ∈ good, s.name = "Kleespies Data" ∨ ∃ P n, SheetOf s P n (data P n)) →
    ∃ rsr', avhrr1Load rsr (good ++ stop) = .ok rsr' ∧
      ReadSoFar data (fun P n => D P n ∨ ∃ s ∈ good, SheetOf s P n (data P n)) rsr' := by
  induction good with
  | nil =>
    intro D rsr hD _
    refine ⟨rsr, ?_, ?_⟩
    · rw [List.nil_append]
      cases stop with
      | nil => rfl
      | cons s rest =>
        obtain ⟨h1, h2⟩ := hstop s rfl
        unfold avhrr1Load
        rw [if_neg h1, channel_unknown _ h2]
    · intro P hP
      obtain ⟨C, c1, c2, c3⟩ := hD P hP
      refine ⟨C, c1, c2, fun n h1 h2 h3 => c3 n h1 h2 ?_⟩
      rcases h3 with h3 | ⟨s, hs, _⟩
      · exact h3
      · cases hs
  | cons s good ih =>
    intro D rsr hD hg
    have hg' := fun s' hs' => hg s' (List.mem_cons_of_mem _ hs')
    rcases Classical.em (s.name = "Kleespies Data") with hk | hk
    · obtain ⟨rsr', r1, r2⟩ := ih D rsr hD hg'
      refine ⟨rsr', ?_, ?_⟩
      · rw [List.cons_append]
        unfold avhrr1Load
        rw [if_pos hk]
        exact r1
      · intro P hP
        obtain ⟨C, c1, c2, c3⟩ := r2 P hP
        refine ⟨C, c1, c2, fun n h1 h2 h3 => c3 n h1 h2 ?_⟩
        rcases h3 with h3 | ⟨s', hs', h3⟩
        · exact .inl h3
        · rcases List.mem_cons.1 hs' with rfl | hs'
          · exact absurd hk (sheet_not_skipped h3)
          · exact .inr ⟨s', hs', h3⟩
    · obtain ⟨P, n, hs⟩ := (hg s List.mem_cons_self).resolve_left hk
      obtain ⟨C, c1, c2, c3⟩ := hD P hs.known
      have hn := hs.name
      obtain ⟨n1, n2, _⟩ := hn
      -- the sheet may be that of several channels only if they are one and the same
      have huniq : ∀ Q m, SheetOf s Q m (data Q m) → Q = P ∧ m = n := by
        intro Q m hq
        have e1 := channel_known _ _ hq.name
        rw [channel_known _ _ hs.name] at e1
        have e2 := sheet_read _ _ _ _ hq
        rw [sheet_read _ _ _ _ hs] at e2
        have e3 := congrArg (fun r => match r with | .ok p => p.1 | .error _ => "") e2
        exact ⟨e3.symm, (chName_inj (Option.some.inj e1)).symm⟩
      obtain ⟨rsr', r1, r2⟩ := ih (fun Q m => D Q m ∨ (Q = P ∧ m = n))
        (rsr.set P (C.set (chName n) (keptSamples P (data P n)))) (by
          intro Q hQ
          by_cases hQP : Q = P
          · subst hQP
            refine ⟨_, get?_set_self _ _ _, ?_, ?_⟩
            · rw [keys_set, c2, if_pos (chName_mem n1 n2)]
            · intro m m1 m2 hm
              by_cases hmn : m = n
              · subst hmn
                exact get?_set_self _ _ _
              · rw [get?_set_ne _ _ (fun e => hmn (chName_inj e))]
                exact c3 m m1 m2 (hm.resolve_right fun h => hmn h.2)
          · obtain ⟨C', d1, d2, d3⟩ := hD Q hQ
            refine ⟨C', ?_, d2, fun m m1 m2 hm => d3 m m1 m2 (hm.resolve_right fun h => hQP h.1)⟩
            rw [get?_set_ne _ _ hQP]
            exact d1) hg'
      refine ⟨rsr', ?_, ?_⟩
      · rw [List.cons_append]
        unfold avhrr1Load
        rw [if_neg hk, channel_known _ _ hs.name]
        simp only [bind, Except.bind, sheet_read _ _ _ _ hs, getItem_ok_iff.2 c1]
        exact r1
      · intro Q hQ
        obtain ⟨C', d1, d2, d3⟩ := r2 Q hQ
        refine ⟨C', d1, d2, fun m m1 m2 hm => d3 m m1 m2 ?_⟩
        rcases hm with hm | ⟨s', hs', hm⟩
        · exact .inl (.inl hm)
        · rcases List.mem_cons.1 hs' with rfl | hs'
          · exact .inl (.inr (huniq _ _ hm))
          · exact .inr ⟨s', hs', hm⟩

/-! ### the files -/

section
variable {α : Type} [PyNum α]

/-- the group of a channel -/
def avhrr1Group (f32 : α → α) (wvl rsp : List α) (cw : α) : H5Band α :=
  ⟨[("central_wavelength", .num cw "")], [wavelengthSet f32 wvl, ("response", stored f32 rsp [])], []⟩

theorem avhrr1Band_run (f32 : α → α) (ch : String) (wvl rsp : List α) (cw : α) (h : getCentralWave wvl rsp = .ok cw)
    (f : H5File α) (hf : ch ∉ f.bands.keys) :
    avhrr1Band f32 (ch, ⟨some wvl, some rsp⟩) f =
      (.ok (), { f with bands := f.bands ++ [(ch, avhrr1Group f32 wvl rsp cw)] }) := by
  have hc : f.bands.contains ch = false := by
    cases hx : f.bands.contains ch with
    | false => rfl
    | true =>
      exfalso
      unfold Dict.contains at hx
      rw [get?_eq_none_iff.2 hf] at hx
      cases hx
  unfold avhrr1Band
  rw [st_bind_ok (a := ()) (s' := { f with bands := f.bands.set ch H5Band.empty })
    (by rw [createBand_run, hc]; rfl)]
  simp only
  rw [st_bind_ok (st_lift_ok h _), st_bind_ok (changeBand_set _ _ _ _), st_bind_ok (changeBand_set _ _ _ _),
    changeBand_set, set_new _ hf]
  rfl

theorem dict_of_keys {β : Type} (C : Dict String β) (h : C.keys = ["ch1", "ch2", "ch3", "ch4"]) :
    ∃ a b c d, C = [("ch1", a), ("ch2", b), ("ch3", c), ("ch4", d)] := by
  match C, h with
  | [(_, a), (_, b), (_, c), (_, d)], h =>
    simp only [Dict.keys, List.map_cons, List.map_nil, List.cons.injEq, and_true] at h
    obtain ⟨rfl, rfl, rfl, rfl⟩ := h
    exact ⟨a, b, c, d, rfl⟩

theorem chName_iff {b : String} (h : b ∈ ["ch1", "ch2", "ch3", "ch4"]) : ∃ n, 1 ≤ n ∧ n ≤ 4 ∧ b = chName n := by
  simp only [List.mem_cons, List.not_mem_nil, or_false] at h
  rcases h with rfl | rfl | rfl | rfl
  · exact ⟨1, by decide⟩
  · exact ⟨2, by decide⟩
  · exact ⟨3, by decide⟩
  · exact ⟨4, by decide⟩

theorem generate_run (f32 : α → α) (A : Avhrr1RSR α) (P : String) (C : Dict String (Avhrr1Chan α))
    (hC : A.rsr.get? P = some C) (hk : C.keys = ["ch1", "ch2", "ch3", "ch4"]) (w r : Nat → List α) (cw : Nat → α)
    (hd : ∀ n, 1 ≤ n → n ≤ 4 → C.get? (chName n) = some ⟨some (w n), some (r n)⟩ ∧ getCentralWave (w n) (r n) = .ok (cw n))
    (fs : H5Files α) :
    generateAvhrr1File f32 A P fs = (.ok (), fs.put (A.output_dir, "rsr_avhrr1_" ++ P ++ ".h5")
      ⟨avhrr1Attrs P ["ch1", "ch2", "ch3", "ch4"],
        [("ch1", avhrr1Group f32 (w 1) (r 1) (cw 1)), ("ch2", avhrr1Group f32 (w 2) (r 2) (cw 2)),
         ("ch3", avhrr1Group f32 (w 3) (r 3) (cw 3)), ("ch4", avhrr1Group f32 (w 4) (r 4) (cw 4))]⟩) := by
  obtain ⟨a, b, c, d, rfl⟩ := dict_of_keys C hk
  obtain ⟨e1, g1⟩ := hd 1 (by decide) (by decide)
  obtain ⟨e2, g2⟩ := hd 2 (by decide) (by decide)
  obtain ⟨e3, g3⟩ := hd 3 (by decide) (by decide)
  obtain ⟨e4, g4⟩ := hd 4 (by decide) (by decide)
  have k1 : a = ⟨some (w 1), some (r 1)⟩ := Option.some.inj e1
  have k2 : b = ⟨some (w 2), some (r 2)⟩ := Option.some.inj e2
  have k3 : c = ⟨some (w 3), some (r 3)⟩ := Option.some.inj e3
  have k4 : d = ⟨some (w 4), some (r 4)⟩ := Option.some.inj e4
  subst k1 k2 k3 k4
  unfold generateAvhrr1File
  rw [hC]
  simp only
  have hrun : PySt.forEach (avhrr1Band f32) [("ch1", ⟨some (w 1), some (r 1)⟩), ("ch2", ⟨some (w 2), some (r 2)⟩),
      ("ch3", ⟨some (w 3), some (r 3)⟩), ("ch4", ⟨some (w 4), some (r 4)⟩)]
      ⟨avhrr1Attrs P ["ch1", "ch2", "ch3", "ch4"], []⟩ = (.ok (), ⟨avhrr1Attrs P ["ch1", "ch2", "ch3", "ch4"],
        [("ch1", avhrr1Group f32 (w 1) (r 1) (cw 1)), ("ch2", avhrr1Group f32 (w 2) (r 2) (cw 2)),
         ("ch3", avhrr1Group f32 (w 3) (r 3) (cw 3)), ("ch4", avhrr1Group f32 (w 4) (r 4) (cw 4))]⟩) := by
    unfold PySt.forEach
    refine (st_bind_ok (f := fun _ => _) (avhrr1Band_run f32 _ _ _ _ g1 _ (by simp [Dict.keys]))).trans ?_
    unfold PySt.forEach
    refine (st_bind_ok (f := fun _ => _) (avhrr1Band_run f32 _ _ _ _ g2 _ (by simp [Dict.keys]))).trans ?_
    unfold PySt.forEach
    refine (st_bind_ok (f := fun _ => _) (avhrr1Band_run f32 _ _ _ _ g3 _ (by simp [Dict.keys]))).trans ?_
    unfold PySt.forEach
    refine (st_bind_ok (f := fun _ => _) (avhrr1Band_run f32 _ _ _ _ g4 _ (by simp [Dict.keys]))).trans ?_
    rfl
  rw [hk, hrun]
  rfl

theorem avhrr1_loaded (f32 : α → α) (P : String) (w r : Nat → List α) (cw : Nat → α) :
    ∃ info, loadRsrInfo (⟨avhrr1Attrs P ["ch1", "ch2", "ch3", "ch4"],
        [("ch1", avhrr1Group f32 (w 1) (r 1) (cw 1)), ("ch2", avhrr1Group f32 (w 2) (r 2) (cw 2)),
         ("ch3", avhrr1Group f32 (w 3) (r 3) (cw 3)), ("ch4", avhrr1Group f32 (w 4) (r 4) (cw 4))]⟩ : H5File α) = .ok info ∧
      info.band_names = ["ch1", "ch2", "ch3", "ch4"] ∧ info.rsr.keys = ["ch1", "ch2", "ch3", "ch4"] ∧
      ∀ n, 1 ≤ n → n ≤ 4 → ∃ B, info.rsr.get? (chName n) = some B ∧ B.keys = ["det-1"] ∧
        B.get? "det-1" = some (detEntry ((r n).map f32) (readBack f32 (w n)) (cw n)) := by
  generalize hfile : (H5File.mk _ _ : H5File α) = file
  have hnum : ∀ b, ∃ n, b ∈ ["ch1", "ch2", "ch3", "ch4"] → 1 ≤ n ∧ n ≤ 4 ∧ b = chName n := by
    intro b
    by_cases hb : b ∈ ["ch1", "ch2", "ch3", "ch4"]
    · obtain ⟨n, h⟩ := chName_iff hb
      exact ⟨n, fun _ => h⟩
    · exact ⟨0, fun h => absurd h hb⟩
  choose num hnum using hnum
  have hget : ∀ n, 1 ≤ n → n ≤ 4 → file.bands.get? (chName n) = some (avhrr1Group f32 (w n) (r n) (cw n)) := by
    intro n h1 h2
    rw [← hfile]
    interval_cases n <;> rfl
  obtain ⟨info, g1, g2, _, g4, g5⟩ := load_of_items file ["ch1", "ch2", "ch3", "ch4"] (by decide)
    ⟨.object_, (["ch1", "ch2", "ch3", "ch4"] : List String).map .str, "", by rw [← hfile]; rfl, textOf_map _⟩
    "Relative Spectral Responses for AVHRR/1" _ (by rw [← hfile]; rfl) ⟨_, _, rfl, .str _⟩ P P
    (by rw [← hfile]; rfl) (by rw [← hfile]; rfl) (fun _ => 1) (fun b _ => readBack f32 (w (num b)))
    (fun b _ => (r (num b)).map f32) (fun b _ => cw (num b)) (by
      intro b hb
      obtain ⟨h1, h2, e⟩ := hnum b hb
      have := hget _ h1 h2
      rw [← e] at this
      refine Or.inr ⟨?_, rfl⟩
      intro B hB
      rw [this] at hB
      cases hB
      rfl) (by
      intro b hb j hj
      obtain ⟨h1, h2, e⟩ := hnum b hb
      have hgb := hget _ h1 h2
      rw [← e] at hgb
      refine ⟨⟨_, hgb, Or.inr ⟨(fun D hD => by cases hD), rfl⟩⟩,
        ⟨(w (num b)).map f32, .num 1e-6 "", 1e-6, ⟨_, hgb, Or.inr ⟨(fun D hD => by cases hD), rfl⟩⟩, Or.inr ⟨_, rfl⟩, rfl⟩,
        ⟨_, ⟨_, hgb, Or.inr ⟨(fun D hD => by cases hD), rfl⟩⟩, Or.inr ⟨_, rfl⟩⟩⟩)
  refine ⟨info, g1, g2, by rw [g4], ?_⟩
  intro n h1 h2
  obtain ⟨B, b1, b2, b3⟩ := g5 (chName n) (chName_mem h1 h2)
  have e : num (chName n) = n := (chName_inj (hnum _ (chName_mem h1 h2)).2.2).symm
  rw [e] at b3
  exact ⟨B, b1, b2, b3 0 (by decide)⟩

end

/-! ### C160 -/

/-- The section `avhrr/1` of the configuration names the workbook, and the output directory is
configured or the current one. -/
def Avhrr1Options (options : List (String × Conf)) (path out : String) : Prop :=
  (∃ d, Dict.get? options "avhrr/1" = some (.map d) ∧ Dict.get? d "path" = some (.leaf (.str path))) ∧
  (Dict.get? options "rsr_dir" = some (.leaf (.str out)) ∨ (Dict.get? options "rsr_dir" = none ∧ out = "./"))

theorem avhrr1_section (options : List (String × Conf)) (path out : String) (h : Avhrr1Options options path out) :
    sectionPath options "avhrr/1" = .ok (path, out) := by
  obtain ⟨⟨d, h1, h2⟩, h3⟩ := h
  unfold sectionPath
  rw [getItem_ok_iff.2 h1]
  rcases h3 with h3 | ⟨h3, rfl⟩ <;> simp [h2, h3, bind, Except.bind] <;> rfl

/-- the file of a platform -/
def avhrr1Path (out platform : String) : Path := (out, "rsr_avhrr1_" ++ platform ++ ".h5")

/-- What reading the file of a platform gives: the platform and the instrument, the four channels,
each with its responses (32 bit), its wavelengths in micron (32 bit, with the correction for
TIROS-N) and its central wavelength. -/
def ReadsAs (f32 : XF → XF) (file : H5File XF) (platform : String) (data : Nat → SheetData) : Prop :=
  ∃ info, loadRsrInfo file = .ok info ∧ info.platform_name = some platform ∧ info.instrument = .str "avhrr/1" ∧
    info.band_names = ["ch1", "ch2", "ch3", "ch4"] ∧ info.rsr.keys = ["ch1", "ch2", "ch3", "ch4"] ∧
    ∀ n, 1 ≤ n → n ≤ 4 → ∃ B ys cw, info.rsr.get? ("ch" ++ toString n) = some B ∧ B.keys = ["det-1"] ∧
      CorrectedFor platform (data n).w ys ∧
      getCentralWave (finL (ys.map (· * (data n).unit))) (finL (data n).r) = .ok cw ∧
      B.get? "det-1" = some (detEntry ((finL (data n).r).map f32)
        (readBack f32 (finL (ys.map (· * (data n).unit)))) cw)

theorem avhrr1_generated (f32 : XF → XF) (A : Avhrr1RSR XF) (data : String → Nat → SheetData)
    (hA : ReadSoFar data (fun _ _ => True) A.rsr) (hd : ∀ P ∈ avhrr1Platforms, ∀ n, 1 ≤ n → n ≤ 4 →
      (data P n).w ≠ [] ∧ (data P n).w.length = (data P n).r.length)
    (P : String) (hP : P ∈ avhrr1Platforms) :
    ∃ file, (∀ fs, generateAvhrr1File f32 A P fs = (.ok (), fs.put (avhrr1Path A.output_dir P) file)) ∧
      ReadsAs f32 file P (data P) := by
  obtain ⟨C, c1, c2, c3⟩ := hA P hP
  have hy : ∀ n, ∃ ys cw, 1 ≤ n → n ≤ 4 → CorrectedFor P (data P n).w ys ∧
      keptSamples P (data P n) = ⟨some (finL (ys.map (· * (data P n).unit))), some (finL (data P n).r)⟩ ∧
      getCentralWave (finL (ys.map (· * (data P n).unit))) (finL (data P n).r) = .ok cw := by
    intro n
    by_cases hn : 1 ≤ n ∧ n ≤ 4
    · obtain ⟨hw, hl⟩ := hd P hP n hn.1 hn.2
      obtain ⟨ys, y1, y2, y3⟩ := kept_corrected P (data P n) hw
      obtain ⟨cw, hcw⟩ := centralWave_total (finL (ys.map (· * (data P n).unit))) (finL (data P n).r) (by
        simp [finL, y2, hl])
      exact ⟨ys, cw, fun _ _ => ⟨y1, y3, hcw⟩⟩
    · exact ⟨[], .nan, fun a b => absurd ⟨a, b⟩ hn⟩
  choose ys cw hy using hy
  obtain ⟨info, i1, i2, i3, i4⟩ := avhrr1_loaded f32 P (fun n => finL ((ys n).map (· * (data P n).unit)))
    (fun n => finL (data P n).r) cw
  refine ⟨_, fun fs => generate_run f32 A P C c1 c2 (fun n => finL ((ys n).map (· * (data P n).unit)))
    (fun n => finL (data P n).r) cw (fun n h1 h2 => ⟨?_, (hy n h1 h2).2.2⟩) fs, info, i1, ?_⟩
  · rw [c3 n h1 h2 trivial, (hy n h1 h2).2.1]
  · obtain ⟨_, _, p1, p2, _⟩ := load_inv _ _ i1
    have hp : info.platform_name = some P := by
      simp only [avhrr1Platforms, List.mem_cons, List.not_mem_nil, or_false] at hP
      rcases hP with rfl | rfl | rfl | rfl <;> exact (Except.ok.inj p1).symm
    refine ⟨hp, ?_, i2, i3, ?_⟩
    · rw [hp] at p2
      simp only [avhrr1Platforms, List.mem_cons, List.not_mem_nil, or_false] at hP
      rcases hP with rfl | rfl | rfl | rfl <;> exact (Except.ok.inj p2).symm
    · intro n h1 h2
      obtain ⟨B, b1, b2, b3⟩ := i4 n h1 h2
      exact ⟨B, ys n, cw n, b1, b2, (hy n h1 h2).1, (hy n h1 h2).2.2, b3⟩

/-- C160: whatever is in the sheets of a complete workbook, converting it writes one file for each
of the four platforms and no other, and reading a file back gives every channel the samples of its
own sheet. -/
theorem C160_converted (f32 : XF → XF) (options : List (String × Conf)) (files : String → Option (List (CellSheet XF)))
    (path out : String) (ho : Avhrr1Options options path out) (sheets : List (CellSheet XF))
    (hf : files path = some sheets) (data : String → Nat → SheetData) (hw : WorkbookOf sheets data) (fs : H5Files XF) :
    ∃ fs', runAvhrr1 f32 options files fs = (.ok (), fs') ∧
      (∀ q, (∀ P ∈ avhrr1Platforms, q ≠ avhrr1Path out P) → fs' q = fs q) ∧
      ∀ P ∈ avhrr1Platforms, ∃ file, fs' (avhrr1Path out P) = some file ∧ ReadsAs f32 file P (data P) := by
  obtain ⟨good, stop, rfl, hg, hall, hstop⟩ := hw.parts
  have h0 : ReadSoFar data (fun _ _ => False) (avhrr1Empty : Avhrr1Rsr XF) := by
    intro P hP
    simp only [avhrr1Platforms, List.mem_cons, List.not_mem_nil, or_false] at hP
    rcases hP with rfl | rfl | rfl | rfl <;> exact ⟨_, rfl, rfl, fun n _ _ h => h.elim⟩
  obtain ⟨rsr, r1, r2⟩ := load_good data stop hstop good _ _ h0 hg
  have hA : ReadSoFar data (fun _ _ => True) rsr := by
    intro P hP
    obtain ⟨C, c1, c2, c3⟩ := r2 P hP
    exact ⟨C, c1, c2, fun n h1 h2 _ => c3 n h1 h2 (.inr (hall P hP n h1 h2))⟩
  have hd : ∀ P ∈ avhrr1Platforms, ∀ n, 1 ≤ n → n ≤ 4 →
      (data P n).w ≠ [] ∧ (data P n).w.length = (data P n).r.length := by
    intro P hP n h1 h2
    obtain ⟨s, _, hs⟩ := hall P hP n h1 h2
    exact hs.samples
  have hnew : Avhrr1RSR.new options files = .ok ⟨out, rsr⟩ := by
    unfold Avhrr1RSR.new
    rw [avhrr1_section options path out ho]
    simp only [bind, Except.bind, hf, r1, if_true]
    rfl
  obtain ⟨f1, a1, b1⟩ := avhrr1_generated f32 ⟨out, rsr⟩ data hA hd "NOAA-10" (by decide)
  obtain ⟨f2, a2, b2⟩ := avhrr1_generated f32 ⟨out, rsr⟩ data hA hd "NOAA-8" (by decide)
  obtain ⟨f3, a3, b3⟩ := avhrr1_generated f32 ⟨out, rsr⟩ data hA hd "NOAA-6" (by decide)
  obtain ⟨f4, a4, b4⟩ := avhrr1_generated f32 ⟨out, rsr⟩ data hA hd "TIROS-N" (by decide)
  have hne : ∀ P ∈ avhrr1Platforms, ∀ Q ∈ avhrr1Platforms, P ≠ Q → avhrr1Path out P ≠ avhrr1Path out Q := by
    intro P hP Q hQ hPQ he
    have : ("rsr_avhrr1_" ++ P ++ ".h5") = ("rsr_avhrr1_" ++ Q ++ ".h5") := congrArg Prod.snd he
    revert this
    simp only [avhrr1Platforms, List.mem_cons, List.not_mem_nil, or_false] at hP hQ
    rcases hP with rfl | rfl | rfl | rfl <;> rcases hQ with rfl | rfl | rfl | rfl <;>
      first | exact absurd rfl hPQ | decide
  refine ⟨(((fs.put (avhrr1Path out "NOAA-10") f1).put (avhrr1Path out "NOAA-8") f2).put (avhrr1Path out "NOAA-6") f3).put
      (avhrr1Path out "TIROS-N") f4, ?_, ?_, ?_⟩
  · unfold runAvhrr1
    rw [st_bind_ok (st_lift_ok hnew _)]
    unfold PySt.forEach
    refine (st_bind_ok (f := fun _ => _) (a1 _)).trans ?_
    unfold PySt.forEach
    refine (st_bind_ok (f := fun _ => _) (a2 _)).trans ?_
    unfold PySt.forEach
    refine (st_bind_ok (f := fun _ => _) (a3 _)).trans ?_
    unfold PySt.forEach
    refine (st_bind_ok (f := fun _ => _) (a4 _)).trans ?_
    rfl
  · intro q hq
    simp only [H5Files.put]
    rw [if_neg (hq _ (by decide)), if_neg (hq _ (by decide)), if_neg (hq _ (by decide)), if_neg (hq _ (by decide))]
  · intro P hP
    have hP' := hP
    simp only [avhrr1Platforms, List.mem_cons, List.not_mem_nil, or_false] at hP
    rcases hP with rfl | rfl | rfl | rfl
    · exact ⟨f4, by simp only [H5Files.put, if_true], b4⟩
    · refine ⟨f3, ?_, b3⟩
      simp only [H5Files.put]
      rw [if_neg (hne _ (by decide) _ (by decide) (by decide)), if_pos trivial]
    · refine ⟨f2, ?_, b2⟩
      simp only [H5Files.put]
      rw [if_neg (hne _ (by decide) _ (by decide) (by decide)), if_neg (hne _ (by decide) _ (by decide) (by decide)),
        if_pos trivial]
    · refine ⟨f1, ?_, b1⟩
      simp only [H5Files.put]
      rw [if_neg (hne _ (by decide) _ (by decide) (by decide)), if_neg (hne _ (by decide) _ (by decide) (by decide)),
        if_neg (hne _ (by decide) _ (by decide) (by decide)), if_pos trivial]

/-- C160: the files written are the ones the reader looks for, under whatever name the instrument is
asked for. -/
theorem C160_found (out platform instrument : String) (h : platform ∈ avhrr1Platforms) :
    sanitizeInputs out none (some platform) (some instrument) =
      .ok (avhrr1Path out platform, some platform, some "avhrr1") := by
  have key : checkAndAdjustInstrumentName platform instrument = .ok "avhrr1" := by
    have hi : INSTRUMENTS.get? platform = some (.one "avhrr/1") := by
      simp only [avhrr1Platforms, List.mem_cons, List.not_mem_nil, or_false] at h
      rcases h with rfl | rfl | rfl | rfl <;> rfl
    unfold checkAndAdjustInstrumentName
    rw [hi]
    simp only [Option.getD_some, goodInstrument, bind, Except.bind, pure, Except.pure]
    by_cases hg : areInstrumentsIdentical "avhrr/1" (Str.lower instrument) = true
    · simp only [hg, if_true]
      have : Str.lower instrument = "avhrr/1" ∨ Str.lower instrument = "avhrr-1" := by
        unfold areInstrumentsIdentical at hg
        split_ifs at hg with h1 h2
        · exact .inl h1.symm
        · right
          have := get?_eq_some_mem h2.symm
          revert this
          generalize Str.lower instrument = x
          intro hm
          simp only [INSTRUMENT_TRANSLATION_DASH2SLASH, List.mem_cons, Prod.mk.injEq, List.not_mem_nil, or_false] at hm
          rcases hm with ⟨h, _⟩ | ⟨_, h⟩ | ⟨_, h⟩
          · exact h
          · exact absurd h (by decide)
          · exact absurd h (by decide)
      simp only [stripInstrument]
      rcases this with e | e <;> rw [e] <;> rfl
    · simp only [hg, if_false]
      rfl
  unfold sanitizeInputs
  simp only [key, bind, Except.bind]
  rfl

/-- C160 is false when the configured workbook does not exist: the workbook in the package's data
directory is not used instead, wherever it is. -/
theorem C160_no_fallback {α : Type} [PyNum α] (f32 : α → α) (options : List (String × Conf))
    (files : String → Option (List (CellSheet α)))
    (path out : String) (ho : Avhrr1Options options path out) (hf : files path = none) (fs : H5Files α) :
    ∃ e, runAvhrr1 f32 options files fs = (.error e, fs) := by
  have : ∃ e, Avhrr1RSR.new options files = .error e := by
    unfold Avhrr1RSR.new
    rw [avhrr1_section options path out ho]
    obtain ⟨⟨d, h1, h2⟩, _⟩ := ho
    simp only [bind, Except.bind, hf, h1]
    cases Dict.get? d "filename" with
    | none => exact ⟨_, rfl⟩
    | some v =>
      cases v with
      | map m => exact ⟨_, rfl⟩
      | leaf x => cases x <;> exact ⟨_, rfl⟩
  obtain ⟨e, he⟩ := this
  refine ⟨e, ?_⟩
  unfold runAvhrr1
  exact st_bind_error (st_lift_error he fs)

/-- C160: responses by wavenumber cannot be asked for. -/
theorem C160_no_wavenumbers {α : Type} [PyNum α] (options : List (String × Conf))
    (files : String → Option (List (CellSheet α)))
    (wavespace : String) (h : wavespace ≠ "wavelength") (A : Avhrr1RSR α) : Avhrr1RSR.new options files wavespace ≠ .ok A := by
  intro hA
  unfold Avhrr1RSR.new at hA
  simp only [bind, Except.bind] at hA
  split at hA
  · cases hA
  · split at hA
    · split at hA
      · split at hA <;> cases hA
      · cases hA
    · split at hA
      · cases hA
      · rw [if_neg h] at hA
        cases hA

/-- C160 is false when the workbook begins with a sheet of another kind: everything after it is
ignored, the conversion fails, the file of NOAA-10 that was there before is lost, and the new one
cannot be read. -/
theorem C160_unknown_sheet_first {α : Type} [PyNum α] (f32 : α → α) (options : List (String × Conf))
    (files : String → Option (List (CellSheet α))) (path out : String) (ho : Avhrr1Options options path out)
    (s : CellSheet α) (rest : List (CellSheet α)) (hf : files path = some (s :: rest))
    (hk : s.name ≠ "Kleespies Data") (hs : ∀ n, ¬ ChannelSheet (Str.strip s.name) n) (fs : H5Files α) :
    ∃ file, runAvhrr1 f32 options files fs = (.error .typeError, fs.put (avhrr1Path out "NOAA-10") file) ∧
      ∀ info, loadRsrInfo file ≠ .ok info := by
  have hnew : Avhrr1RSR.new options files = .ok ⟨out, avhrr1Empty⟩ := by
    unfold Avhrr1RSR.new
    rw [avhrr1_section options path out ho]
    simp only [bind, Except.bind, hf]
    unfold avhrr1Load
    rw [if_neg hk, channel_unknown _ hs]
    rfl
  refine ⟨⟨avhrr1Attrs "NOAA-10" ["ch1", "ch2", "ch3", "ch4"], [("ch1", H5Band.empty)]⟩, ?_, ?_⟩
  · unfold runAvhrr1
    rw [st_bind_ok (st_lift_ok hnew _)]
    rfl
  · exact not_loaded_absent _ ["ch1", "ch2", "ch3", "ch4"]
      ⟨.object_, (["ch1", "ch2", "ch3", "ch4"] : List String).map .str, "", rfl, textOf_map _⟩ "ch2" (by decide) rfl

/-! ### cases -/

/-- a sheet with two samples -/
noncomputable def exAvhrr1Sheet (platform : String) (k n : Nat) : CellSheet XF :=
  ⟨"A10" ++ toString k ++ "C00" ++ toString n, fun c =>
    if c = 0 then [.text ("# " ++ platform), .text "Wavelength (nm)", .num (fin 630), .num (fin (630 + n)), .text "end"]
    else [.text "", .text "Response", .num (fin 0), .num (fin 1), .text ""]⟩

noncomputable def exAvhrr1Data (n : Nat) : SheetData := ⟨[630, 630 + n], [0, 1], 1 / 1000⟩

theorem exSheet_of (platform : String) (k n : Nat) (hp : platform ∈ avhrr1Platforms) (hk : 1 ≤ k ∧ k ≤ 4)
    (hn : 1 ≤ n ∧ n ≤ 4) : SheetOf (exAvhrr1Sheet platform k n) platform n (exAvhrr1Data n) where
  name := by
    refine ⟨hn.1, hn.2, k, hk.1, hk.2, ?_⟩
    show Str.strip ("A10" ++ toString k ++ "C00" ++ toString n) = _
    clear hp
    obtain ⟨k1, k2⟩ := hk
    obtain ⟨n1, n2⟩ := hn
    interval_cases k <;> interval_cases n <;> decide
  known := hp
  samples := ⟨by simp [exAvhrr1Data], rfl⟩
  rows := by
    refine ⟨['#', ' '], [], "nm", [], ["end"], by decide, .inr ⟨rfl, rfl⟩, by decide, ?_⟩
    have : ("# " ++ platform) = String.ofList (['#', ' '] ++ platform.toList ++ []) := by
      apply String.toList_inj.1
      simp
    show [_, _, _, _, _] = _
    rw [this]
    rfl
  responses := ⟨_, _, [.text ""], rfl⟩

noncomputable def exAvhrr1Workbook : List (CellSheet XF) :=
  ⟨"Kleespies Data", fun _ => []⟩ ::
    ([("NOAA-10", 1), ("NOAA-8", 2), ("NOAA-6", 3), ("TIROS-N", 4)] : List (String × Nat)).flatMap
      (fun p => [1, 2, 3, 4].map fun n => exAvhrr1Sheet p.1 p.2 n) ++ [⟨"Notes", fun _ => []⟩]

example : WorkbookOf exAvhrr1Workbook fun _ n => exAvhrr1Data n where
  parts := by
    refine ⟨_, _, rfl, ?_, ?_, ?_⟩
    · intro s hs
      rcases List.mem_cons.1 hs with rfl | hs
      · exact .inl rfl
      · right
        obtain ⟨p, hp, hs⟩ := List.mem_flatMap.1 hs
        obtain ⟨n, hn, rfl⟩ := List.mem_map.1 hs
        clear hs
        have hp' : ∀ p ∈ ([("NOAA-10", 1), ("NOAA-8", 2), ("NOAA-6", 3), ("TIROS-N", 4)] : List (String × Nat)),
            p.1 ∈ avhrr1Platforms ∧ 1 ≤ p.2 ∧ p.2 ≤ 4 := by decide
        have hn' : ∀ n ∈ [1, 2, 3, 4], 1 ≤ n ∧ n ≤ 4 := by decide
        exact ⟨p.1, n, exSheet_of _ _ _ (hp' p hp).1 (hp' p hp).2 (hn' n hn)⟩
    · intro P hP n h1 h2
      have : ∃ k, 1 ≤ k ∧ k ≤ 4 ∧ (P, k) ∈ ([("NOAA-10", 1), ("NOAA-8", 2), ("NOAA-6", 3), ("TIROS-N", 4)] : List (String × Nat)) := by
        simp only [avhrr1Platforms, List.mem_cons, List.not_mem_nil, or_false] at hP
        rcases hP with rfl | rfl | rfl | rfl
        · exact ⟨4, by decide⟩
        · exact ⟨3, by decide⟩
        · exact ⟨2, by decide⟩
        · exact ⟨1, by decide⟩
      obtain ⟨k, k1, k2, hk⟩ := this
      refine ⟨exAvhrr1Sheet P k n, ?_, exSheet_of P k n hP ⟨k1, k2⟩ ⟨h1, h2⟩⟩
      refine List.mem_cons_of_mem _ (List.mem_flatMap.2 ⟨(P, k), hk, List.mem_map.2 ⟨n, ?_, rfl⟩⟩)
      interval_cases n <;> decide
    · intro s hs
      cases hs
      refine ⟨by decide, ?_⟩
      intro n hn
      have h0 : AVHRR1_CHANNEL_NAMES.get? (Str.strip "Notes") = none := by decide +kernel
      rw [channel_known _ _ hn] at h0
      cases h0

end Verif.Props
