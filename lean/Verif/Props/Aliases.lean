import Verif.Lemmas.Dict
import Verif.Model.Rsr
/-
Property C159: another name of a band stands for the band it says.

The specification does not use the alias tables.  It reads the number that is part of both names
(`VIS006` and `VIS0.6` both say 6 tenths of a micron, `C07` and `ch7` both say 7) and looks at the
letters the names begin with.
-/
namespace Verif.Props
open Model Lemmas

/-! ### what the names say -/

/-- The number in a name: its digits (and the `a` or `b` of the AVHRR bands 3a and 3b) without
leading zeros. -/
def figures (s : String) : List Char :=
  (s.toList.filter fun c => c.isDigit || c == 'a' || c == 'b').dropWhile (· == '0')

/-- The letter a band name may begin with, given the letter another name of the band begins with:
visible bands are called VIS, shortwave infrared ones NIR or IR, water vapour ones WV or IR, the
VIIRS imagery and moderate resolution bands I and M, and all others `ch` or just a number. -/
def Family : Option Char → Option Char → Bool
  | some 'V', some d => d == 'V'
  | some 'v', some d => d == 'V'
  | some 'I', some d => d == 'I' || d == 'N'
  | some 'i', some d => d == 'I'
  | some 'W', some d => d == 'I'
  | some 'w', some d => d == 'W'
  | some 'n', some d => d == 'N'
  | some 'M', some d => d == 'M'
  | some 'H', some d => d == 'H'
  | some 'B', some d => d == 'c'
  | some 'C', some d => d == 'c'
  | some 'S', some d => d == 'c'
  | some c, some d => c.isDigit && (d == 'c' || c == d)
  | none, _ => false
  | some _, none => false

/-- The wavelengths (tenths of a micron) of the FCI bands that exist in high resolution. -/
def fciHighRes : List String := ["6", "22", "38", "105"]

/-- The wavelengths (tenths of a micron) of the AMI bands 1 to 16. -/
def amiWavelengths : List String :=
  ["4", "5", "6", "8", "13", "16", "38", "63", "69", "73", "87", "96", "105", "112", "123", "133"]

/-- Both names say the same number, and their letters belong together. -/
def Alike (q c : String) : Bool :=
  figures q == figures c && Family q.toList.head? c.toList.head?

/-- `c` is a proper name for what instrument `i` calls `q`. -/
def SameBand (i q c : String) : Bool :=
  (Alike q c && (i != "fci" || q.toList.head?.elim true (fun d => !d.isLower) ||
    ((fciHighRes.map String.toList).contains (figures q) == "_HR".toList.isSuffixOf c.toList))) ||
  -- the fire channels of SLSTR are its bands 7 and 8
  (i == "slstr" && ((q == "F1" && c == "ch7") || (q == "F2" && c == "ch8"))) ||
  -- AMI bands are counted by increasing wavelength
  (i == "ami" && (List.range 16).any fun n =>
    amiWavelengths[n]? == some (String.ofList (figures q)) && c == "ch" ++ toString (n + 1))

/-- Numbers written with two digits. -/
def two (n : Nat) : String := if n < 10 then "0" ++ toString n else toString n

/-- The names the instruments' data providers use. -/
def offered : List (String × List String) := [
  ("abi", (List.range 16).map fun n => "C" ++ two (n + 1)),
  ("agri", (List.range 14).map fun n => "C" ++ two (n + 1)),
  ("ahi", (List.range 16).map fun n => "B" ++ two (n + 1)),
  ("viirs", (List.range 5).map (fun n => "I" ++ two (n + 1)) ++
    (List.range 9).map (fun n => "M" ++ two (n + 1))),
  ("seviri", ["VIS006", "VIS008", "IR_016", "IR_039", "WV_062", "WV_073", "IR_087", "IR_097",
    "IR_108", "IR_120", "IR_134", "HRV"]),
  ("fci", ["vis_04", "vis_05", "vis_06", "vis_08", "vis_09", "nir_13", "nir_16", "nir_22",
    "ir_38", "wv_63", "wv_73", "ir_87", "ir_97", "ir_105", "ir_123", "ir_133"]),
  ("ami", ["VI004", "VI005", "VI006", "VI008", "NR013", "NR016", "SW038", "WV063", "WV069",
    "WV073", "IR087", "IR096", "IR105", "IR112", "IR123", "IR133"]),
  ("slstr", (List.range 9).map (fun n => "S" ++ toString (n + 1)) ++ ["F1", "F2"]),
  ("modis", (List.range 36).map fun n => toString (n + 1)),
  ("any other", (List.range 36).map fun n => toString (n + 1))]

/-! ### the tables -/

theorem tables_same : ∀ P ∈ BANDNAMES, P.1 ≠ "VII" → ∀ e ∈ P.2, ∀ i, (P.1 = "generic" ∨ P.1 = i) →
    SameBand i e.1 e.2 = true := by
  have h1 : (BANDNAMES.all fun P => P.1 == "VII" || P.2.all fun e => SameBand P.1 e.1 e.2) = true := by
    decide +kernel
  have h2 : (bn_generic.all fun e => Alike e.1 e.2 && e.1.toList.head?.elim true (fun d => !d.isLower)) =
      true := by
    decide +kernel
  have h3 : ∀ P ∈ BANDNAMES, P.1 = "generic" → P.2 = bn_generic := by decide +kernel
  intro P hP hV e he i hi
  rcases hi with hg | rfl
  · rw [h3 P hP hg] at he
    have := List.all_eq_true.1 h2 e he
    simp only [Bool.and_eq_true] at this
    simp [SameBand, this.1, this.2]
  · have := List.all_eq_true.1 h1 P hP
    simp only [Bool.or_eq_true, beq_iff_eq, hV, false_or] at this
    exact List.all_eq_true.1 this e he

/-! ### C159 -/

/-- C159: whatever a look-up by name returns is stored under that name or under a proper name for
it: a name never leads to the data of another band. -/
theorem C159_lookup {β : Type} (i q : String) (rsr : Dict String β) (b : β) (hi : i ≠ "VII")
    (h : rsrDictGetItem (.str i) rsr q = .ok b) :
    ∃ c, rsr.get? c = some b ∧ (c = q ∨ SameBand i q c = true) := by
  have gen : ∀ std, bn_generic.get? q = some std → SameBand i q std = true := fun std hs =>
    tables_same ("generic", bn_generic) (by unfold BANDNAMES; exact List.mem_cons_self) (by decide) (q, std)
      (get?_eq_some_mem hs) i (.inl rfl)
  have fall : ∀ r : Py β, (match bn_generic.get? q with
      | some std => rsr.getItem std
      | none => .error .keyError) = r → r = .ok b →
      ∃ c, rsr.get? c = some b ∧ (c = q ∨ SameBand i q c = true) := by
    generalize bn_generic = g at gen
    intro r hr hb
    cases hg : g.get? q with
    | none => rw [hg] at hr; rw [← hr] at hb; cases hb
    | some std =>
      rw [hg] at hr
      exact ⟨std, (getItem_ok_iff).1 (hr.trans hb), .inr (gen std hg)⟩
  unfold rsrDictGetItem at h
  cases hq : rsr.get? q with
  | some v => rw [hq] at h; cases h; exact ⟨q, hq, .inl rfl⟩
  | none =>
    rw [hq] at h
    simp only [bind, Except.bind, pure, Except.pure] at h
    cases ho : BANDNAMES.get? i with
    | none => rw [ho] at h; exact fall _ rfl h
    | some t =>
      rw [ho] at h
      simp only [Option.bind_some] at h
      cases ht : t.get? q with
      | none => rw [ht] at h; exact fall _ rfl h
      | some std =>
        rw [ht] at h
        exact ⟨std, (getItem_ok_iff).1 h,
          .inr (tables_same (i, t) (get?_eq_some_mem ho) hi (q, std) (get?_eq_some_mem ht) i (.inr rfl))⟩

/-- C159: the name under which a band found by its wavelength is reported, and under which a
correction looks for a band, is the name it was asked with or a proper name for it. -/
theorem C159_reported (i q : String) (t : Dict String String) (hi : i ≠ "VII")
    (h : bandTable (.str i) = .ok t) :
    (t.get? q).getD q = q ∨ SameBand i q ((t.get? q).getD q) = true := by
  simp only [bandTable] at h
  cases ht : t.get? q with
  | none => exact .inl rfl
  | some std =>
    refine .inr ?_
    show SameBand i q std = true
    cases ho : BANDNAMES.get? i with
    | none =>
      rw [ho] at h
      have e : bn_generic = t := by simpa using h
      exact tables_same ("generic", bn_generic) (by unfold BANDNAMES; exact List.mem_cons_self) (by decide)
        (q, std) (get?_eq_some_mem (e ▸ ht)) i (.inl rfl)
    | some t' =>
      rw [ho] at h
      have e : t' = t := by simpa using h
      subst e
      exact tables_same (i, t') (get?_eq_some_mem ho) hi (q, std) (get?_eq_some_mem ht) i (.inr rfl)

theorem offered_known : ∀ P ∈ offered, ∀ q ∈ P.2, ∃ c, SameBand P.1 q c = true ∧
    ((BANDNAMES.get? P.1).bind (·.get? q)).or (bn_generic.get? q) = some c := by
  have : (offered.all fun P => P.2.all fun q =>
      (((BANDNAMES.get? P.1).bind (·.get? q)).or (bn_generic.get? q)).any (SameBand P.1 q)) = true := by
    decide +kernel
  intro P hP q hq
  have h := List.all_eq_true.1 (List.all_eq_true.1 this P hP) q hq
  cases ho : ((BANDNAMES.get? P.1).bind (·.get? q)).or (bn_generic.get? q) with
  | none => rw [ho] at h; cases h
  | some c => rw [ho] at h; exact ⟨c, h, rfl⟩

/-- C159: every name the instruments' data providers use is known: for each there is a proper name
such that data stored under the proper name are found by asking for the provider's name. -/
theorem C159_known {β : Type} (i q : String) (names : List String) (hi : (i, names) ∈ offered) (hq : q ∈ names) :
    ∃ c, SameBand i q c = true ∧ ∀ (rsr : Dict String β) (b : β), rsr.get? q = none → rsr.get? c = some b →
      rsrDictGetItem (.str i) rsr q = .ok b := by
  obtain ⟨c, hc, h⟩ := offered_known (i, names) hi q hq
  refine ⟨c, hc, fun rsr b hn hb => ?_⟩
  unfold rsrDictGetItem
  rw [hn]
  simp only [bind, Except.bind, pure, Except.pure]
  generalize bn_generic = g at h
  dsimp only at h
  generalize Option.bind (BANDNAMES.get? i) (·.get? q) = o at h
  cases o with
  | some std =>
    have e : std = c := by simpa using h
    exact (getItem_ok_iff).2 (e ▸ hb)
  | none =>
    have e : g.get? q = some c := by simpa using h
    rw [e]
    exact (getItem_ok_iff).2 hb

/-- C159: two different names in the table of one instrument stand for different bands, apart from
the fire channels of SLSTR, which share theirs with S7 and S8. -/
theorem C159_distinct (i : String) (t : Dict String String) (h : BANDNAMES.get? i = some t) (hi : i ≠ "generic")
    (q r c : String) (hq : t.get? q = some c) (hr : t.get? r = some c) :
    q = r ∨ (i = "slstr" ∧ (c = "ch7" ∨ c = "ch8")) := by
  have : (BANDNAMES.all fun P => P.1 == "generic" || P.2.all fun e => P.2.all fun f =>
      e.2 != f.2 || e.1 == f.1 || (P.1 == "slstr" && (e.2 == "ch7" || e.2 == "ch8"))) = true := by
    decide +kernel
  have h1 := List.all_eq_true.1 this (i, t) (get?_eq_some_mem h)
  simp only [Bool.or_eq_true, beq_iff_eq, hi, false_or] at h1
  have h2 := List.all_eq_true.1 (List.all_eq_true.1 h1 _ (get?_eq_some_mem hq)) _ (get?_eq_some_mem hr)
  simpa using h2

/-- C159: the bands of METimage are numbered by increasing wavelength. -/
theorem C159_metimage : ∃ t, BANDNAMES.get? "VII" = some t ∧
    t.Pairwise (fun e f => (figures e.1).length < (figures f.1).length ∨
      (figures e.1).length = (figures f.1).length ∧ figures e.1 < figures f.1) ∧
    t.Pairwise (fun e f => (figures e.2).length < (figures f.2).length ∨
      (figures e.2).length = (figures f.2).length ∧ figures e.2 < figures f.2) :=
  ⟨bn_vii, rfl, by decide +kernel, by decide +kernel⟩

/-! ### cases -/

/-- asking FCI data for `ir_105` gives the high resolution band -/
example : rsrDictGetItem (.str "fci") [("IR8.7", 1), ("IR10.5_HR", (2 : Nat))] "ir_105" = .ok 2 ∧
    SameBand "fci" "ir_105" "IR10.5_HR" = true ∧ SameBand "fci" "ir_105" "IR10.5" = false ∧
    SameBand "fci" "ir_105" "IR8.7" = false := by
  exact ⟨rfl, by decide +kernel⟩

/-- the specification tells bands apart -/
example : SameBand "abi" "C07" "ch7" = true ∧ SameBand "abi" "C07" "ch8" = false ∧
    SameBand "viirs" "I01" "M1" = false ∧ SameBand "ami" "SW038" "ch7" = true ∧
    SameBand "ami" "SW038" "ch8" = false ∧ SameBand "ami" "VI004" "ch4" = false ∧
    SameBand "slstr" "F1" "ch1" = false ∧ SameBand "avhrr-3" "3a" "ch3b" = false ∧
    SameBand "seviri" "IR_016" "VIS1.6" = false := by
  decide +kernel

example : ∃ c, SameBand "ahi" "B12" c = true ∧ ∀ (rsr : Dict String Nat) (b : Nat),
    rsr.get? "B12" = none → rsr.get? c = some b → rsrDictGetItem (.str "ahi") rsr "B12" = .ok b :=
  C159_known "ahi" "B12" ((List.range 16).map fun n => "B" ++ two (n + 1)) (by simp [offered]) (by decide)

end Verif.Props
