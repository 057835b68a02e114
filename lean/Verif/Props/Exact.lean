import Verif.Props.Names
import Verif.Props.BandLookup
import Verif.Props.Reader
/-
Properties C24, C33 and C39, completed: exactly when they hold.
-/
namespace Verif.Props
open XF Model PyNum Lemmas Spec

/-! ### C24 -/

/-- C24, exactly: the single name returned is the standard name of the only band close enough; it
is a key of the data if and only if the data have a band of that name.  So it can be used to look
the band up if and only if the band is stored under its standard name or another band is. -/
theorem C24_exactly (sensor : String) (x eps : ℝ) (rsr : Rsr XF) (cw : String → ℝ) (h : CentralOf rsr cw) (m : Bool)
    (name : String) (hres : getBandnameFromWavelength (.str sensor) (fin x) rsr (fin eps) m = .ok (.one name)) :
    ∃ c ∈ rsr.keys, |cw c - x| < min eps 2 ∧ (∀ c' ∈ rsr.keys, |cw c' - x| < min eps 2 → c' = c) ∧
      name = stdName sensor c ∧ ((∃ b, rsr.getItem name = .ok b) ↔ stdName sensor c ∈ rsr.keys) := by
  classical
  unfold getBandnameFromWavelength at hres
  rw [bandsNear_eq sensor x eps rsr cw h rsr.keys (fun c hc => hc)] at hres
  simp only [bind, Except.bind] at hres
  have key : ∀ l : List String, bandMatchResult (l.map (stdName sensor)) m = .ok (.one name) →
      ∃ c, l = [c] ∧ name = stdName sensor c := by
    intro l hl
    match l, hl with
    | [], hl => simp [bandMatchResult] at hl
    | [b], hl => simp [bandMatchResult] at hl; exact ⟨b, rfl, hl.symm⟩
    | a :: b :: l, hl =>
      simp only [List.map_cons, bandMatchResult] at hl
      split at hl <;> simp at hl
  obtain ⟨c, hc, hn⟩ := key _ hres
  have hm : ∀ c', c' ∈ rsr.keys.filter (fun c => decide (|cw c - x| < min eps 2)) ↔ c' = c := by
    intro c'; rw [hc]; simp
  have h1 := List.mem_filter.1 ((hm c).2 rfl)
  refine ⟨c, h1.1, by simpa using h1.2, ?_, hn, ?_⟩
  · intro c' hc' hd
    exact (hm c').1 (List.mem_filter.2 ⟨hc', by simpa using hd⟩)
  · rw [hn]
    constructor
    · rintro ⟨b, hb⟩
      by_contra hno
      rw [getItem_ok_iff] at hb
      rw [get?_eq_none_iff.2 (by simpa [Dict.keys] using hno)] at hb
      cases hb
    · intro hk
      obtain ⟨b, _, hb, _⟩ := h _ hk
      exact ⟨b, getItem_ok_iff.2 hb⟩

/-- A channel stored under its number: found, and reported under a name that is no key. -/
example : ∃ (rsr : Rsr XF) (cw : String → ℝ), CentralOf rsr cw ∧
    getBandnameFromWavelength (.str "xyz") (fin 0.6) rsr = .ok (.one "ch1") ∧ stdName "xyz" "1" ∉ rsr.keys := by
  refine ⟨[("1", [("det-1", [("central_wavelength", .num (fin 0.6))])])], fun _ => 0.6, ?_, ?_, by decide⟩
  · intro ch hch
    simp [Dict.keys] at hch
    subst hch
    exact ⟨_, _, rfl, rfl, rfl⟩
  · simp [getBandnameFromWavelength, Dict.keys, bandsNear, getNum, Dict.getItem, Dict.get?, bind,
        Except.bind, bandTable, bandMatchResult, pure, Except.pure]
    norm_num
    decide

/-! ### C33 -/

/-- C33, exactly: two names are identical if and only if they are equal or the first is an AVHRR
name with a slash and the second the same with a dash.  So the function is symmetric except for
those three pairs. -/
theorem C33_exactly (a b : String) :
    (areInstrumentsIdenticalVal (.str a) (.str b) = .ok true ↔
      a = b ∨ (a, b) ∈ [("avhrr/1", "avhrr-1"), ("avhrr/2", "avhrr-2"), ("avhrr/3", "avhrr-3")]) ∧
    (areInstrumentsIdenticalVal (.str a) (.str b) = .ok true ∨ areInstrumentsIdenticalVal (.str a) (.str b) = .ok false) := by
  have key : areInstrumentsIdentical a b = true ↔ a = b ∨ INSTRUMENT_TRANSLATION_DASH2SLASH.get? b = some a := by
    unfold areInstrumentsIdentical
    by_cases h : a = b
    · simp [h]
    · by_cases h2 : some a = INSTRUMENT_TRANSLATION_DASH2SLASH.get? b
      · simp [h, h2.symm]
      · simp only [h, h2, if_false, Bool.false_eq_true, false_or, false_iff]
        exact fun e => h2 e.symm
  have tab : INSTRUMENT_TRANSLATION_DASH2SLASH.get? b = some a ↔
      (a, b) ∈ [("avhrr/1", "avhrr-1"), ("avhrr/2", "avhrr-2"), ("avhrr/3", "avhrr-3")] := by
    by_cases h1 : b = "avhrr-1"
    · subst h1
      rw [show INSTRUMENT_TRANSLATION_DASH2SLASH.get? "avhrr-1" = some "avhrr/1" by decide]
      simp [eq_comm]
    by_cases h2 : b = "avhrr-2"
    · subst h2
      rw [show INSTRUMENT_TRANSLATION_DASH2SLASH.get? "avhrr-2" = some "avhrr/2" by decide]
      simp [eq_comm]
    by_cases h3 : b = "avhrr-3"
    · subst h3
      rw [show INSTRUMENT_TRANSLATION_DASH2SLASH.get? "avhrr-3" = some "avhrr/3" by decide]
      simp [eq_comm]
    have : INSTRUMENT_TRANSLATION_DASH2SLASH.get? b = none := by
      simp [INSTRUMENT_TRANSLATION_DASH2SLASH, Dict.get?, Ne.symm h1, Ne.symm h2, Ne.symm h3]
    simp [this, h1, h2, h3]
  show ((Except.ok (areInstrumentsIdentical a b) : Py Bool) = .ok true ↔ _) ∧
    ((Except.ok (areInstrumentsIdentical a b) : Py Bool) = .ok true ∨
      (Except.ok (areInstrumentsIdentical a b) : Py Bool) = .ok false)
  rw [Except.ok.injEq, key, tab]
  refine ⟨Iff.rfl, ?_⟩
  rw [← tab, ← key]
  cases areInstrumentsIdentical a b <;> simp

example : areInstrumentsIdenticalVal (.str "avhrr-2") (.str "avhrr/2") ≠ .ok true := by
  rw [Ne, (C33_exactly _ _).1]; simp

/-! ### C39 -/

/-- C39, exactly: two different pairs of platform and instrument share a response file if and only
if one instrument name is the other followed by an underscore and the part of the other's platform
name before an underscore. -/
theorem C39_exactly (p₁ i₁ p₂ i₂ : String) :
    getRsrFilename p₁ i₁ = getRsrFilename p₂ i₂ ↔ (p₁ = p₂ ∧ i₁ = i₂) ∨
      (∃ x, i₁ = i₂ ++ "_" ++ x ∧ p₂ = x ++ "_" ++ p₁) ∨ ∃ x, i₂ = i₁ ++ "_" ++ x ∧ p₁ = x ++ "_" ++ p₂ := by
  have hname : ∀ p i : String, (getRsrFilename p i).toList = "rsr_".toList ++ ((i.toList ++ '_' :: p.toList) ++ ".h5".toList) := by
    intro p i
    simp [getRsrFilename, String.toList_append]
  have hlist : getRsrFilename p₁ i₁ = getRsrFilename p₂ i₂ ↔ i₁.toList ++ '_' :: p₁.toList = i₂.toList ++ '_' :: p₂.toList := by
    rw [← String.toList_inj, hname, hname, List.append_cancel_left_eq, List.append_cancel_right_eq]
  have hs : ∀ a b x : String, a = b ++ "_" ++ x ↔ a.toList = b.toList ++ '_' :: x.toList := by
    intro a b x
    rw [← String.toList_inj]
    simp [String.toList_append]
  have cut : ∀ a b c d : List Char, a ++ '_' :: b = c ++ '_' :: d → (b = d ∧ a = c) ∨
      (∃ x, a = c ++ '_' :: x ∧ d = x ++ '_' :: b) ∨ ∃ x, c = a ++ '_' :: x ∧ b = x ++ '_' :: d := by
    intro a b c d h
    rcases List.append_eq_append_iff.1 h with ⟨e, h1, h2⟩ | ⟨e, h1, h2⟩
    · cases e with
      | nil => simp at h1 h2; exact Or.inl ⟨h2, h1.symm⟩
      | cons u e =>
        simp at h2
        obtain ⟨rfl, h2⟩ := h2
        exact Or.inr (Or.inr ⟨e, h1, h2⟩)
    · cases e with
      | nil => simp at h1 h2; exact Or.inl ⟨h2.symm, h1⟩
      | cons u e =>
        simp at h2
        obtain ⟨rfl, h2⟩ := h2
        exact Or.inr (Or.inl ⟨e, h1, h2⟩)
  rw [hlist]
  constructor
  · intro h
    rcases cut _ _ _ _ h with ⟨h1, h2⟩ | ⟨x, h1, h2⟩ | ⟨x, h1, h2⟩
    · exact Or.inl ⟨String.toList_inj.1 h1, String.toList_inj.1 h2⟩
    · refine Or.inr (Or.inl ⟨String.ofList x, ?_, ?_⟩) <;> rw [hs] <;> simpa using by assumption
    · refine Or.inr (Or.inr ⟨String.ofList x, ?_, ?_⟩) <;> rw [hs] <;> simpa using by assumption
  · rintro (⟨rfl, rfl⟩ | ⟨x, h1, h2⟩ | ⟨x, h1, h2⟩)
    · rfl
    · rw [hs] at h1 h2; rw [h1, h2]; simp
    · rw [hs] at h1 h2; rw [h1, h2]; simp

example : getRsrFilename "X" "oli_tirs" = getRsrFilename "tirs_X" "oli" :=
  (C39_exactly _ _ _ _).2 (Or.inr (Or.inl ⟨"tirs", by decide, by decide⟩))

end Verif.Props
