import Verif.Lemmas.Names
/-
Properties C30-C34: decoding of strings, instrument names.
-/
namespace Verif.Props
open Model Lemmas Spec

/-! ### C30 -/

/-- C30: `convert2str` returns a text exactly for the values carrying it. -/
theorem C30_accepts_iff (v : PyVal) (s : String) : convert2str v = .ok s ↔ TextOf v s := by
  constructor
  · intro h
    match v with
    | .str t => simp [convert2str, bytes2string, np2str, bind, Except.bind] at h; subst h; exact .str _
    | .bytes (some t) =>
      simp [convert2str, bytes2string, np2str, bind, Except.bind] at h; subst h; exact .bytes _
    | .bytes none => simp [convert2str, bytes2string, bind, Except.bind] at h
    | .other => simp [convert2str, bytes2string, np2str, bind, Except.bind] at h
    | .array dt els =>
      simp only [convert2str, bytes2string, np2str, bind, Except.bind] at h
      split at h
      · rename_i hc
        match els with
        | [] => simp at hc
        | [.str t] => simp at h; subst h; exact .arrStr _ hc.1 _
        | [.bytes (some t)] => simp [PyVal.decode] at h; subst h; exact .arrBytes _ hc.1 _
        | [.bytes none] => simp [PyVal.decode] at h
        | [.array _ _] => simp [PyVal.decode] at h
        | [.other] => simp [PyVal.decode] at h
        | _ :: _ :: _ => simp at hc
      · simp at h
  · intro h
    cases h with
    | str => rfl
    | bytes => rfl
    | arrStr dt hd => simp [convert2str, bytes2string, np2str, bind, Except.bind, hd]
    | arrBytes dt hd => simp [convert2str, bytes2string, np2str, bind, Except.bind, hd, PyVal.decode]

/-- C30: the identity on strings. -/
theorem C30_identity_on_str (s : String) : convert2str (.str s) = .ok s :=
  (C30_accepts_iff _ _).2 (.str s)

/-- C30 is false as to the exception: a one-element object array of something else fails with
AttributeError, not ValueError. -/
theorem C30_object_array_attribute_error :
    convert2str (.array .object_ [.other]) = .error .attributeError := by decide

/-- numpy's typing: string arrays hold strings, bytes arrays hold bytes -/
def WellTyped : PyVal → Prop
  | .array .str_ els => ∀ e ∈ els, ∃ s, e = .str s
  | .array .bytes_ els => ∀ e ∈ els, ∃ s, e = .bytes s
  | _ => True

/-- C30, part that holds: ValueError for every value carrying no text, except one-element
object arrays. -/
theorem C30_rejects_partial (v : PyVal) (hv : WellTyped v) (hno : ∀ s, ¬ TextOf v s)
    (hobj : ∀ e, v ≠ .array .object_ [e]) : convert2str v = .error .valueError := by
  match v with
  | .str t => exact absurd (.str t) (hno t)
  | .bytes (some t) => exact absurd (.bytes t) (hno t)
  | .bytes none => rfl
  | .other => rfl
  | .array dt els =>
    simp only [convert2str, bytes2string, np2str, bind, Except.bind]
    split
    · rename_i hc
      match els with
      | [] => simp at hc
      | _ :: _ :: _ => simp at hc
      | [e] =>
        cases dt with
        | other => exact absurd rfl hc.1
        | object_ => exact absurd rfl (hobj e)
        | str_ =>
          obtain ⟨s, rfl⟩ := hv e (by simp)
          exact absurd (.arrStr _ (by simp) s) (hno s)
        | bytes_ =>
          obtain ⟨s, rfl⟩ := hv e (by simp)
          cases s with
          | none => rfl
          | some s => exact absurd (.arrBytes _ (by simp) s) (hno s)
    · rfl

example : convert2str (.array .bytes_ [.bytes (some "M1")]) = .ok "M1" :=
  (C30_accepts_iff _ _).2 (.arrBytes _ (by decide) _)
example : convert2str (.array .str_ [.str "a", .str "b"]) = .error .valueError := by
  refine C30_rejects_partial _ (by intro e he; simp at he; rcases he with rfl | rfl <;> exact ⟨_, rfl⟩) ?_ ?_
  · intro s h; cases h
  · intro e h; simp at h

/-! ### C31 -/

/-- The instruments listed for a platform. -/
def platformInstruments (platform : String) : List String :=
  match INSTRUMENTS.get? platform with
  | some (.one n) => [n]
  | some (.many l) => l
  | none => []

/-- the names of one entry of the table -/
def instNames : Inst → List String
  | .one n => [n]
  | .many l => l

theorem instruments_nonempty : ∀ p ∈ INSTRUMENTS, ∀ l, p.2 = .many l → l ≠ [] := by
  have h : ∀ p ∈ INSTRUMENTS, instNames p.2 ≠ [] := by decide
  intro p hp l hl
  have := h p hp
  rwa [hl] at this

theorem adjust_cases (platform instrument : String) :
    ∃ chosen, checkAndAdjustInstrumentName platform instrument = .ok (canonical chosen) ∧
      ((goodInstrument ((INSTRUMENTS.get? platform).getD (.one (Str.lower instrument))) (Str.lower instrument) = true ∧
          chosen = instrument) ∨
       (goodInstrument ((INSTRUMENTS.get? platform).getD (.one (Str.lower instrument))) (Str.lower instrument) = false ∧
          replaceInstName ((INSTRUMENTS.get? platform).getD (.one (Str.lower instrument))) = .ok chosen)) := by
  unfold checkAndAdjustInstrumentName
  cases hg : goodInstrument ((INSTRUMENTS.get? platform).getD (.one (Str.lower instrument))) (Str.lower instrument) with
  | true =>
    refine ⟨instrument, ?_, Or.inl ⟨rfl, rfl⟩⟩
    simp only [hg, if_true]
    rw [← stripInstrument_eq]; rfl
  | false =>
    have : ∃ c, replaceInstName ((INSTRUMENTS.get? platform).getD (.one (Str.lower instrument))) = .ok c := by
      cases h : INSTRUMENTS.get? platform with
      | none => exact ⟨_, rfl⟩
      | some i =>
        cases i with
        | one n => exact ⟨n, rfl⟩
        | many l =>
          cases l with
          | nil => exact absurd rfl (instruments_nonempty _ (get?_eq_some_mem h) [] rfl)
          | cons a l => exact ⟨a, rfl⟩
    obtain ⟨c, hc⟩ := this
    refine ⟨c, ?_, Or.inr ⟨rfl, hc⟩⟩
    simp only [hg, Bool.false_eq_true, if_false, hc, bind, Except.bind, pure, Except.pure]
    rw [stripInstrument_eq]

/-- C31: the adjustment always succeeds with a canonical name. -/
theorem C31_canonical (platform instrument : String) :
    ∃ r, checkAndAdjustInstrumentName platform instrument = .ok r ∧ IsCanonical r := by
  obtain ⟨c, hc, _⟩ := adjust_cases platform instrument
  exact ⟨_, hc, canonical_isCanonical c⟩

/-- C31: for a known platform the result is the canonical form of one of its instruments. -/
theorem C31_belongs_to_platform (platform instrument : String)
    (hp : (INSTRUMENTS.get? platform).isSome) :
    ∃ n ∈ platformInstruments platform,
      checkAndAdjustInstrumentName platform instrument = .ok (canonical n) := by
  obtain ⟨c, hc, hcase⟩ := adjust_cases platform instrument
  obtain ⟨inst, hi⟩ := Option.isSome_iff_exists.1 hp
  rw [hi, Option.getD_some] at hcase
  rw [hc]
  unfold platformInstruments
  rw [hi]
  rcases hcase with ⟨hg, rfl⟩ | ⟨_, hr⟩
  · cases inst with
    | one n =>
      refine ⟨n, by simp, ?_⟩
      rw [canonical_of_identical (a := n) (b := Str.lower c) hg, canonical_lower]
    | many l =>
      obtain ⟨n, hn, hid⟩ := List.any_eq_true.1 (show l.any _ = true from hg)
      refine ⟨n, hn, ?_⟩
      rw [canonical_of_identical hid, canonical_lower]
  · cases inst with
    | one n => simp [replaceInstName] at hr; subst hr; exact ⟨n, by simp, rfl⟩
    | many l =>
      cases l with
      | nil => simp [replaceInstName] at hr
      | cons a l => simp [replaceInstName] at hr; subst hr; exact ⟨a, by simp, rfl⟩

/-- C31: an instrument of the platform is kept, in any letter case, and for AVHRR with a dash
in place of the slash. -/
theorem C31_listed_instrument_kept (platform instrument n : String)
    (hn : n ∈ platformInstruments platform)
    (hi : Str.lower instrument = n ∨ (Str.lower instrument, n) ∈
      [("avhrr-1", "avhrr/1"), ("avhrr-2", "avhrr/2"), ("avhrr-3", "avhrr/3")]) :
    checkAndAdjustInstrumentName platform instrument = .ok (canonical instrument) := by
  have hid : areInstrumentsIdentical n (Str.lower instrument) = true := by
    unfold areInstrumentsIdentical
    rcases hi with h | h
    · simp [h]
    · have : INSTRUMENT_TRANSLATION_DASH2SLASH.get? (Str.lower instrument) = some n :=
        get?_of_mem (d := INSTRUMENT_TRANSLATION_DASH2SLASH) (by unfold Dict.WF; decide) h
      simp [this]
  obtain ⟨c, hc, hcase⟩ := adjust_cases platform instrument
  have hgood : goodInstrument ((INSTRUMENTS.get? platform).getD (.one (Str.lower instrument)))
      (Str.lower instrument) = true := by
    unfold platformInstruments at hn
    cases h : INSTRUMENTS.get? platform with
    | none => rw [h] at hn; simp at hn
    | some i =>
      rw [h] at hn
      cases i with
      | one m => simp at hn; subst hn; exact hid
      | many l => exact List.any_eq_true.2 ⟨n, hn, hid⟩
  rcases hcase with ⟨_, rfl⟩ | ⟨h, _⟩
  · exact hc
  · rw [hgood] at h; simp at h

/-- C31: on a platform that is not listed any instrument is kept. -/
theorem C31_unknown_platform (platform instrument : String) (hp : INSTRUMENTS.get? platform = none) :
    checkAndAdjustInstrumentName platform instrument = .ok (canonical instrument) := by
  obtain ⟨c, hc, hcase⟩ := adjust_cases platform instrument
  rw [hp, Option.getD_none] at hcase
  have : goodInstrument (.one (Str.lower instrument)) (Str.lower instrument) = true := by
    simp [goodInstrument, areInstrumentsIdentical]
  rw [this] at hcase
  rcases hcase with ⟨_, rfl⟩ | ⟨h, _⟩
  · exact hc
  · simp at h

example : checkAndAdjustInstrumentName "NOAA-19" "AVHRR-3" = .ok "avhrr3" :=
  C31_listed_instrument_kept "NOAA-19" "AVHRR-3" "avhrr/3" (by decide) (by decide)
example : checkAndAdjustInstrumentName "Metop-SG-A1" "VII" = .ok "metimage" := by
  obtain ⟨n, hn, h⟩ := C31_belongs_to_platform "Metop-SG-A1" "VII" (by decide)
  rw [show platformInstruments "Metop-SG-A1" = ["metimage"] by decide, List.mem_singleton] at hn
  rw [h, hn]; decide

/-! ### C32 -/

/-- C32 is false: the adjusted name of an instrument of FY-3A is adjusted to another one. -/
theorem C32_not_idempotent :
    checkAndAdjustInstrumentName "FY-3A" "mersi-1" = .ok "mersi1" ∧
    checkAndAdjustInstrumentName "FY-3A" "mersi1" = .ok "virr" := by
  decide

/-- C32, part that holds: adjusting twice is adjusting once on unlisted platforms, on platforms
with a single instrument, and on platforms whose listed names are all canonical.  Missing:
FY-3A, FY-3B and FY-3C (list containing "mersi-1"). -/
theorem C32_idempotent_partial (platform instrument r : String)
    (hp : ∀ l, INSTRUMENTS.get? platform = some (.many l) → ∀ n ∈ l, IsCanonical n)
    (h : checkAndAdjustInstrumentName platform instrument = .ok r) :
    checkAndAdjustInstrumentName platform r = .ok r := by
  cases hi : INSTRUMENTS.get? platform with
  | none =>
    rw [C31_unknown_platform _ _ hi] at h ⊢
    simp only [Except.ok.injEq] at h
    rw [← h, canonical_of_isCanonical (canonical_isCanonical _)]
  | some inst =>
    have hs : (INSTRUMENTS.get? platform).isSome := by rw [hi]; rfl
    cases inst with
    | one n =>
      have hpi : platformInstruments platform = [n] := by unfold platformInstruments; rw [hi]
      obtain ⟨a, ha, h1⟩ := C31_belongs_to_platform platform instrument hs
      obtain ⟨b, hb, h2⟩ := C31_belongs_to_platform platform r hs
      rw [hpi, List.mem_singleton] at ha hb
      subst ha; subst hb
      rw [h2, ← h, h1]
    | many l =>
      have hpi : platformInstruments platform = l := by unfold platformInstruments; rw [hi]
      obtain ⟨a, ha, h1⟩ := C31_belongs_to_platform platform instrument hs
      rw [h1] at h
      simp only [Except.ok.injEq] at h
      have hc : IsCanonical a := hp l hi a (hpi ▸ ha)
      rw [canonical_of_isCanonical hc] at h
      subst h
      have hlow : Str.lower a = a := by
        unfold Str.lower
        have : a.toList.map Str.lowerChar = a.toList := by
          conv_rhs => rw [← List.map_id a.toList]
          apply List.map_congr_left
          intro c hcm
          unfold Str.lowerChar
          rw [if_neg (hc c hcm).2.2]; rfl
        rw [this, String.ofList_toList]
      rw [C31_listed_instrument_kept platform a a ha (Or.inl hlow), canonical_of_isCanonical hc]

/-- C32: the platforms excluded by the partial theorem. -/
theorem C32_excluded_platforms (platform : String) (l : List String)
    (h : INSTRUMENTS.get? platform = some (.many l)) (hn : ¬ ∀ n ∈ l, IsCanonical n) :
    platform = "FY-3A" ∨ platform = "FY-3B" ∨ platform = "FY-3C" := by
  by_contra hc
  apply hn
  have key0 : ∀ p ∈ INSTRUMENTS, (instNames p.2).length = 1 ∨ p.1 = "FY-3A" ∨ p.1 = "FY-3B" ∨ p.1 = "FY-3C" ∨
      ∀ n ∈ instNames p.2, canonical n = n := by decide +kernel
  have key1 : ∀ p ∈ INSTRUMENTS, (instNames p.2).length = 1 → p.2 = .one (instNames p.2).head! := by
    decide +kernel
  have key : ∀ p ∈ INSTRUMENTS, ∀ l, p.2 = .many l → p.1 ≠ "FY-3A" → p.1 ≠ "FY-3B" → p.1 ≠ "FY-3C" →
      ∀ n ∈ l, canonical n = n := by
    intro p hp l hl h1 h2 h3
    rcases key0 p hp with h | h | h | h | h
    · rw [key1 p hp h] at hl; simp at hl
    · exact absurd h h1
    · exact absurd h h2
    · exact absurd h h3
    · rw [hl] at h; exact h
  push Not at hc
  intro n hnl
  rw [← key _ (get?_eq_some_mem h) l rfl hc.1 hc.2.1 hc.2.2 n hnl]
  exact canonical_isCanonical n

example : checkAndAdjustInstrumentName "Sentinel-3A" "slstr" = .ok "slstr" :=
  C32_idempotent_partial "Sentinel-3A" "SLSTR" "slstr" (by
    intro l hl n hn
    have : l = ["olci", "slstr"] := by
      have h : INSTRUMENTS.get? "Sentinel-3A" = some (.many ["olci", "slstr"]) := by decide
      rw [h] at hl; simpa using hl.symm
    subst this
    simp at hn
    rcases hn with rfl | rfl <;> (unfold IsCanonical; decide)) (by decide)

/-! ### C33 -/

/-- C33 is false: the identity test is not symmetric. -/
theorem C33_not_symmetric :
    areInstrumentsIdenticalVal (.str "avhrr/1") (.str "avhrr-1") = .ok true ∧
    areInstrumentsIdenticalVal (.str "avhrr-1") (.str "avhrr/1") = .ok false := by decide

/-- C33, part that holds: reflexive and transitive on strings. Missing: symmetry. -/
theorem C33_reflexive_transitive_partial :
    (∀ a, areInstrumentsIdenticalVal (.str a) (.str a) = .ok true) ∧
    ∀ a b c, areInstrumentsIdenticalVal (.str a) (.str b) = .ok true →
      areInstrumentsIdenticalVal (.str b) (.str c) = .ok true →
      areInstrumentsIdenticalVal (.str a) (.str c) = .ok true := by
  have key : ∀ a b, areInstrumentsIdentical a b = true ↔
      a = b ∨ INSTRUMENT_TRANSLATION_DASH2SLASH.get? b = some a := by
    intro a b
    unfold areInstrumentsIdentical
    by_cases h : a = b
    · simp [h]
    · by_cases h2 : some a = INSTRUMENT_TRANSLATION_DASH2SLASH.get? b
      · simp [h, h2.symm]
      · simp only [h, h2, if_false, Bool.false_eq_true, false_or, false_iff]
        exact fun e => h2 e.symm
  refine ⟨fun a => by simp [areInstrumentsIdenticalVal, areInstrumentsIdentical], fun a b c h1 h2 => ?_⟩
  simp only [areInstrumentsIdenticalVal, Except.ok.injEq] at *
  rw [key] at *
  rcases h1 with rfl | h1
  · exact h2
  rcases h2 with rfl | h2
  · exact Or.inr h1
  · exfalso
    have m1 := get?_eq_some_mem h1
    have m2 := get?_eq_some_mem h2
    have hd : ∀ p ∈ INSTRUMENT_TRANSLATION_DASH2SLASH, ∀ q ∈ INSTRUMENT_TRANSLATION_DASH2SLASH,
        p.1 ≠ q.2 := by decide
    exact hd _ m1 _ m2 rfl

/-- C33, part that holds: symmetric between names neither of which is an AVHRR name with a dash. -/
theorem C33_symmetric_partial (a b : String)
    (ha : a ≠ "avhrr-1" ∧ a ≠ "avhrr-2" ∧ a ≠ "avhrr-3") (hb : b ≠ "avhrr-1" ∧ b ≠ "avhrr-2" ∧ b ≠ "avhrr-3") :
    areInstrumentsIdenticalVal (.str a) (.str b) = areInstrumentsIdenticalVal (.str b) (.str a) := by
  have key : ∀ x : String, x ≠ "avhrr-1" ∧ x ≠ "avhrr-2" ∧ x ≠ "avhrr-3" →
      INSTRUMENT_TRANSLATION_DASH2SLASH.get? x = none := by
    intro x hx
    simp [INSTRUMENT_TRANSLATION_DASH2SLASH, Dict.get?, Ne.symm hx.1, Ne.symm hx.2.1, Ne.symm hx.2.2]
  simp only [areInstrumentsIdenticalVal, areInstrumentsIdentical, key a ha, key b hb]
  by_cases h : a = b
  · simp [h]
  · simp [h, Ne.symm h]

example : areInstrumentsIdenticalVal (.str "avhrr/3") (.str "avhrr3") = areInstrumentsIdenticalVal (.str "avhrr3") (.str "avhrr/3") :=
  C33_symmetric_partial _ _ (by decide) (by decide)

/-- C33: ValueError when either argument is not a string. -/
theorem C33_non_string_raises (v w : PyVal) (h : (∀ s, v ≠ .str s) ∨ ∀ s, w ≠ .str s) :
    areInstrumentsIdenticalVal v w = .error .valueError := by
  unfold areInstrumentsIdenticalVal
  split
  · rename_i a b
    rcases h with h | h
    · exact absurd rfl (h a)
    · exact absurd rfl (h b)
  · rfl

example : areInstrumentsIdenticalVal (.str "modis") .other = .error .valueError :=
  C33_non_string_raises _ _ (Or.inr (by simp))

/-! ### C34 -/

theorem removeSlash_eq (s : String) : Str.removeChar '/' s = withoutSlashes s := by
  unfold Str.removeChar withoutSlashes
  refine congrArg String.ofList (List.filter_congr fun c _ => ?_)
  by_cases h : c = '/' <;> simp [h]

/-- C34: a sensor of a platform with several sensors. -/
theorem C34_multi_sensor_kept (platform sensor : String) (l : List String)
    (hp : INSTRUMENTS.get? platform = some (.many l)) (hs : sensor ∈ l) :
    normalizeSensor platform sensor = .ok (withoutSlashes sensor) := by
  simp [normalizeSensor, hp, hs, removeSlash_eq, bind, Except.bind, pure, Except.pure]

example : normalizeSensor "Sentinel-3A" "olci" = .ok "olci" :=
  C34_multi_sensor_kept _ _ _ (show INSTRUMENTS.get? "Sentinel-3A" = some (.many ["olci", "slstr"]) by decide +kernel) (by simp)

/-- C34: a sensor that is not on a platform with several sensors. -/
theorem C34_multi_sensor_rejected (platform sensor : String) (l : List String)
    (hp : INSTRUMENTS.get? platform = some (.many l)) (hs : sensor ∉ l) :
    normalizeSensor platform sensor = .error .valueError := by
  simp [normalizeSensor, hp, hs, bind, Except.bind, pure, Except.pure]

/-- C34: any sensor is replaced by the only sensor of the platform. -/
theorem C34_single_sensor_replaces (platform sensor n : String)
    (hp : INSTRUMENTS.get? platform = some (.one n)) :
    normalizeSensor platform sensor = .ok (withoutSlashes n) := by
  simp [normalizeSensor, hp, removeSlash_eq, bind, Except.bind, pure, Except.pure]

/-- C34: kept on a platform that is not listed. -/
theorem C34_unknown_platform_kept (platform sensor : String) (hp : INSTRUMENTS.get? platform = none) :
    normalizeSensor platform sensor = .ok (withoutSlashes sensor) := by
  simp [normalizeSensor, hp, removeSlash_eq, bind, Except.bind, pure, Except.pure]

example : normalizeSensor "Tiangong" "a/b" = .ok "ab" :=
  C34_unknown_platform_kept _ _ (by decide +kernel)

/-- C34: the result never contains a slash. -/
theorem C34_no_slash (platform sensor r : String) (h : normalizeSensor platform sensor = .ok r) :
    '/' ∉ r.toList := by
  have hw : ∀ s, '/' ∉ (withoutSlashes s).toList := by
    intro s; simp [withoutSlashes]
  cases hp : INSTRUMENTS.get? platform with
  | none => rw [C34_unknown_platform_kept _ _ hp] at h; simp at h; rw [← h]; exact hw _
  | some i =>
    cases i with
    | one n => rw [C34_single_sensor_replaces _ _ n hp] at h; simp at h; rw [← h]; exact hw _
    | many l =>
      by_cases hs : sensor ∈ l
      · rw [C34_multi_sensor_kept _ _ l hp hs] at h; simp at h; rw [← h]; exact hw _
      · rw [C34_multi_sensor_rejected _ _ l hp hs] at h; simp at h

example : normalizeSensor "NOAA-19" "whatever" = .ok "avhrr3" :=
  C34_single_sensor_replaces "NOAA-19" "whatever" "avhrr/3" (by decide)
example : normalizeSensor "Sentinel-3A" "avhrr/3" = .error .valueError :=
  C34_multi_sensor_rejected "Sentinel-3A" "avhrr/3" ["olci", "slstr"] (by decide) (by decide)

end Verif.Props
