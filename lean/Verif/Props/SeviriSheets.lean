import Verif.Props.SeviriData
/-
Property C108, continued: which cells of the workbook the SEVIRI converter takes.
-/
namespace Verif.Props
open Model Spec Lemmas PyNum

variable {α : Type} [PyNum α]

/-- The sheet is of the high resolution visible channel. -/
def IsHrv (s : Sheet α) : Prop := ∃ rest, (Str.strip s.name).toList = 'H' :: 'R' :: 'V' :: rest

open Classical in
/-- The first row of the samples, counted from zero. -/
noncomputable def seviriRow (s : Sheet α) : Nat := if IsHrv s then 37 else if IsInfrared s then 13 else 12

open Classical in
/-- The column of the responses of a satellite (in an infrared channel also of a temperature). -/
noncomputable def seviriColumn (s : Sheet α) (sat : String) (temp : Option String) : Option Nat :=
  if IsHrv s then
    if temp = none then Dict.get? [("Meteosat-8", 1), ("Meteosat-9", 3), ("Meteosat-10", 5), ("Meteosat-11", 6)] sat else none
  else if IsInfrared s then
    if temp = some "95" then irColumn sat
    else if temp = some "85" then (irColumn sat).map (· + 1)
    else none
  else if temp = none then Dict.get? [("Meteosat-8", 1), ("Meteosat-9", 2), ("Meteosat-10", 3), ("Meteosat-11", 4)] sat
  else none

/-- A hundred cells of a column. -/
noncomputable def seviriCells (s : Sheet α) (c : Nat) : List α := ((s.col c).drop (seviriRow s)).take 100

omit [PyNum α] in
theorem hrv_iff (s : Sheet α) : Str.startsWith (Str.strip s.name) "HRV" = true ↔ IsHrv s := by
  unfold Str.startsWith IsHrv
  rw [List.isPrefixOf_iff_prefix]
  constructor
  · rintro ⟨rest, h⟩; exact ⟨rest, h.symm⟩
  · rintro ⟨rest, h⟩; exact ⟨rest, h.symm⟩

omit [PyNum α] in
theorem cells_eq (s : Sheet α) (c : Nat) : s.colValues c (seviriRow s) (seviriRow s + 100) = seviriCells s c := by
  unfold Sheet.colValues seviriCells
  rw [List.drop_take]; simp

omit [PyNum α] in
theorem sheet_cells (s : Sheet α) : (seviriSheet s).wave = seviriCells s 0 ∧
    ∀ sat temp, satResponse (seviriSheet s) sat temp = (seviriColumn s sat temp).map (seviriCells s) := by
  unfold seviriSheet
  dsimp only
  by_cases h : IsHrv s
  · rw [if_pos ((hrv_iff s).2 h)]
    have hr : seviriRow s = 37 := if_pos h
    have e : ∀ c, s.colValues c 37 137 = seviriCells s c := fun c => by rw [← cells_eq, hr]
    simp only [e]
    refine ⟨trivial, fun sat temp => ?_⟩
    unfold satResponse seviriColumn
    rw [if_pos h]
    simp only [Dict.get?]
    cases temp <;> simp only [reduceCtorEq, if_true, if_false]
    all_goals (repeat' split) <;> simp_all [ofTemp, List.find?]
  · by_cases hi : IsInfrared s
    · rw [if_neg (infrared_not_hrv s hi), if_pos ((infrared_iff s).2 hi)]
      have hr : seviriRow s = 13 := by unfold seviriRow; rw [if_neg h, if_pos hi]
      have e : ∀ c, s.colValues c 13 113 = seviriCells s c := fun c => by rw [← cells_eq, hr]
      simp only [e]
      refine ⟨trivial, fun sat temp => ?_⟩
      unfold satResponse seviriColumn irColumn
      rw [if_neg h, if_pos hi]
      have key : ∀ (x y : List α), ofTemp (.temps [("95", x), ("85", y)]) temp =
          if temp = some "95" then some x else if temp = some "85" then some y else none := by
        intro x y
        cases temp with
        | none => rfl
        | some t =>
          by_cases h1 : t = "95"
          · subst h1; rfl
          · by_cases h2 : t = "85"
            · subst h2; rfl
            · rw [if_neg (by simpa using h1), if_neg (by simpa using h2)]
              show Dict.get? _ t = none
              rw [get?_eq_none_iff]
              simp [Dict.keys, h1, h2]
      by_cases h8 : sat = "Meteosat-8"
      · subst h8
        refine (key _ _).trans ?_
        split
        · rfl
        · split <;> rfl
      by_cases h9 : sat = "Meteosat-9"
      · subst h9
        refine (key _ _).trans ?_
        split
        · rfl
        · split <;> rfl
      by_cases h10 : sat = "Meteosat-10"
      · subst h10
        refine (key _ _).trans ?_
        split
        · rfl
        · split <;> rfl
      by_cases h11 : sat = "Meteosat-11"
      · subst h11
        refine (key _ _).trans ?_
        split
        · rfl
        · split <;> rfl
      have hn : ∀ (a b c d : SatResp (List α)), Dict.get? [("Meteosat-8", a), ("Meteosat-9", b), ("Meteosat-10", c), ("Meteosat-11", d)] sat = none := by
        intro a b c d
        rw [get?_eq_none_iff]
        simp [Dict.keys, h8, h9, h10, h11]
      rw [hn, if_neg h8, if_neg h9, if_neg h10, if_neg h11]
      simp
    · rw [if_neg (fun k => h ((hrv_iff s).1 k)), if_neg (fun k => hi ((infrared_iff s).1 k))]
      have hr : seviriRow s = 12 := by unfold seviriRow; rw [if_neg h, if_neg hi]
      have e : ∀ c, s.colValues c 12 112 = seviriCells s c := fun c => by rw [← cells_eq, hr]
      simp only [e]
      refine ⟨trivial, fun sat temp => ?_⟩
      unfold satResponse seviriColumn
      rw [if_neg h, if_neg hi]
      simp only [Dict.get?]
      cases temp <;> simp only [reduceCtorEq, if_true, if_false]
      all_goals (repeat' split) <;> simp_all [ofTemp, List.find?]

/-- C108: the object made from the workbook holds, for each sheet of a channel, the hundred cells of
the first column from the first sample row on, and for each satellite (and detector temperature) the
hundred cells of its column from the same row on, and no responses for anything else. -/
theorem C108_from_sheets (sheets : List (Sheet α)) (out : String) (hr : Rectangular sheets) (hd : DistinctNames sheets) :
    ∃ L, Seviri.new sheets out = .ok L ∧
      (∀ ch, ch ∈ L.rsr.keys ↔ ∃ s ∈ sheets, IsChannel s ∧ ch = Str.strip s.name) ∧
      ∀ s ∈ sheets, IsChannel s → ∃ c, L.rsr.get? (Str.strip s.name) = some c ∧ c.wave = seviriCells s 0 ∧
        ∀ sat temp, satResponse c sat temp = (seviriColumn s sat temp).map (seviriCells s) := by
  obtain ⟨⟨m, e, _⟩, _⟩ := seviri_new sheets out hr
  obtain ⟨hwf, hmem, hkeys⟩ := seviriLoad_mem sheets
  refine ⟨_, e, fun ch => ⟨fun h => ?_, ?_⟩, fun s hs hc => ?_⟩
  · obtain ⟨p, hp, rfl⟩ := List.mem_map.1 h
    obtain ⟨s, hs, hc, e⟩ := hmem _ hp
    exact ⟨s, hs, hc, by rw [e]⟩
  · rintro ⟨s, hs, hc, rfl⟩
    exact hkeys s hs hc
  · exact ⟨_, load_get sheets hd s hs hc, sheet_cells s⟩

/-- a sheet of the broad band channel -/
noncomputable def exHrvSheet : Sheet XF where
  name := " HRV"
  col := fun c => List.replicate 37 (.fin 0) ++ [.fin c, .fin (c + 1)]

example : ∃ L c, Seviri.new [exHrvSheet] "/out" = .ok L ∧ L.rsr.get? "HRV" = some c ∧
    c.wave = [.fin 0, .fin 1] ∧ satResponse c "Meteosat-11" none = some [.fin 6, .fin 7] ∧
    satResponse c "Meteosat-11" (some "95") = none := by
  have hrect : Rectangular [exHrvSheet] := by
    intro s hs c
    simp only [List.mem_singleton] at hs
    subst hs; simp [exHrvSheet]
  have hn : Str.strip exHrvSheet.name = "HRV" := by show Str.strip " HRV" = _; decide +kernel
  obtain ⟨L, h1, _, h2⟩ := C108_from_sheets [exHrvSheet] "/out" hrect (by
    intro s hs t ht _ _ _
    simp only [List.mem_singleton] at hs ht
    rw [hs, ht])
  obtain ⟨c, g1, g2, g3⟩ := h2 exHrvSheet (by simp) (by constructor <;> (show " HRV" ≠ _; decide))
  rw [hn] at g1
  have hh : IsHrv exHrvSheet := ⟨[], by rw [hn]; rfl⟩
  have hrow : seviriRow exHrvSheet = 37 := if_pos hh
  have hcells : ∀ k : Nat, seviriCells exHrvSheet k = [.fin k, .fin (k + 1)] := by
    intro k
    unfold seviriCells
    rw [hrow]; simp [exHrvSheet]
  refine ⟨L, c, h1, g1, ?_, ?_, ?_⟩
  · rw [g2, hcells]; norm_num
  · rw [g3]
    have : seviriColumn exHrvSheet "Meteosat-11" none = some 6 := by
      unfold seviriColumn; rw [if_pos hh, if_pos rfl]; rfl
    rw [this, Option.map_some, hcells]; norm_num
  · rw [g3]
    have : seviriColumn exHrvSheet "Meteosat-11" (some "95") = none := by
      unfold seviriColumn; rw [if_pos hh]; rfl
    rw [this]; rfl

end Verif.Props
