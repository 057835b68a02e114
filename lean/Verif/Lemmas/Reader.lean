import Verif.Spec.RsrFile
import Verif.Lemmas.Wavenumber
import Verif.Props.Names
import Std.Data.String.ToNat
/-
Lemmas about reading a file of relative spectral responses.
-/
namespace Verif.Lemmas
open Model Spec Props PyNum
variable {α : Type} [PyNum α]

/-! ### Loops storing under names -/

section
variable {κ γ : Type} [DecidableEq κ]

theorem keys_set (d : Dict κ γ) (k : κ) (v : γ) :
    (d.set k v).keys = if k ∈ d.keys then d.keys else d.keys ++ [k] := by
  induction d with
  | nil => simp [Dict.set, Dict.keys]
  | cons p d ih =>
    obtain ⟨k', v'⟩ := p
    by_cases hk : k' = k
    · subst hk; simp [Dict.set, Dict.keys]
    · have hk' : ¬ k = k' := fun e => hk e.symm
      simp only [Dict.keys] at ih
      simp only [Dict.set, hk, if_false, Dict.keys, List.map_cons, List.mem_cons, hk', false_or, ih]
      split <;> simp_all

/-- A loop `for k in ks: out[k] = g(k)`. -/
def storeAll (g : κ → Py γ) (ks : List κ) (out : Dict κ γ) : Py (Dict κ γ) :=
  ks.foldlM (fun (out : Dict κ γ) k => do return out.set k (← g k)) out

theorem storeAll_cons (g : κ → Py γ) (k : κ) (ks : List κ) (out : Dict κ γ) :
    storeAll g (k :: ks) out = match g k with
      | .ok v => storeAll g ks (out.set k v)
      | .error e => .error e := by
  unfold storeAll
  rw [List.foldlM_cons]
  cases g k <;> rfl

theorem storeAll_ok (g : κ → Py γ) (ks : List κ) : ∀ (out out' : Dict κ γ), storeAll g ks out = .ok out' →
    (∀ k ∈ ks, ∃ v, g k = .ok v ∧ out'.get? k = some v) ∧ (∀ k, k ∉ ks → out'.get? k = out.get? k) ∧
    (∀ k, k ∈ out'.keys ↔ k ∈ out.keys ∨ k ∈ ks) ∧ (out.WF → out'.WF) ∧
    (ks.Nodup → (∀ k ∈ ks, k ∉ out.keys) → out'.keys = out.keys ++ ks) := by
  induction ks with
  | nil =>
    intro out out' h
    cases h
    simp
  | cons k ks ih =>
    intro out out' h
    rw [storeAll_cons] at h
    cases hg : g k with
    | error e => rw [hg] at h; cases h
    | ok v =>
      rw [hg] at h
      obtain ⟨h1, h2, h3, h4, h5⟩ := ih _ _ h
      refine ⟨?_, ?_, ?_, ?_, ?_⟩
      · intro k' hk'
        by_cases hm : k' ∈ ks
        · exact h1 k' hm
        · have : k' = k := by simpa [hm] using hk'
          subst this
          exact ⟨v, hg, by rw [h2 _ hm, get?_set_self]⟩
      · intro k' hk'
        simp only [List.mem_cons, not_or] at hk'
        rw [h2 _ hk'.2, get?_set_ne _ _ hk'.1]
      · intro k'
        rw [h3, keys_set]
        split <;> simp [List.mem_cons] <;> grind
      · intro hw
        apply h4
        show ((out.set k v).keys).Nodup
        rw [keys_set]
        split
        · exact hw
        · rename_i hk
          have : out.keys.Nodup := hw
          rw [List.nodup_append]
          refine ⟨this, by simp, ?_⟩
          intro a ha b hb
          simp at hb; subst hb; rintro rfl; exact hk ha
      · intro hnd hdis
        rw [List.nodup_cons] at hnd
        have hk : k ∉ out.keys := hdis k (by simp)
        rw [h5 hnd.2 ?_, keys_set, if_neg hk]
        · simp
        · intro k' hk' hc
          rw [keys_set, if_neg hk] at hc
          simp at hc
          rcases hc with hc | rfl
          · exact hdis k' (by simp [hk']) hc
          · exact hnd.1 hk'

theorem storeAll_succeeds (g : κ → Py γ) (ks : List κ) (h : ∀ k ∈ ks, ∃ v, g k = .ok v) :
    ∀ out, ∃ out', storeAll g ks out = .ok out' := by
  induction ks with
  | nil => exact fun out => ⟨out, rfl⟩
  | cons k ks ih =>
    intro out
    obtain ⟨v, hv⟩ := h k (by simp)
    rw [storeAll_cons, hv]
    exact ih (fun k' hk' => h k' (by simp [hk'])) _

theorem storeAll_fails (g : κ → Py γ) (e : PyErr) (ks : List κ) (h : ∀ k ∈ ks, ∀ e', g k = .error e' → e' = e)
    (hex : ∃ k ∈ ks, ∃ e', g k = .error e') : ∀ out, storeAll g ks out = .error e := by
  induction ks with
  | nil => simp at hex
  | cons k ks ih =>
    intro out
    rw [storeAll_cons]
    cases hg : g k with
    | error e' => rw [h k (by simp) e' hg]
    | ok v =>
      refine ih (fun k' hk' => h k' (by simp [hk'])) ?_ _
      obtain ⟨k', hk', e', he⟩ := hex
      rcases List.mem_cons.1 hk' with rfl | hk'
      · rw [hg] at he; cases he
      · exact ⟨k', hk', e', he⟩

end

/-! ### Items -/

theorem attrStr_iff (v : AttrVal α) (s : String) : attrStr v = .ok s ↔ AttrText v s := by
  unfold AttrText
  cases v with
  | text pv sh =>
    show convert2str pv = _ ↔ _
    rw [C30_accepts_iff]
    constructor
    · exact fun h => ⟨pv, sh, rfl, h⟩
    · rintro ⟨_, _, h, ht⟩; cases h; exact ht
  | int n =>
    constructor
    · intro h; exact absurd h (by simp [attrStr, convert2str, bytes2string, np2str, bind, Except.bind])
    · rintro ⟨_, _, h, _⟩; cases h
  | num x sh =>
    constructor
    · intro h; exact absurd h (by simp [attrStr, convert2str, bytes2string, np2str, bind, Except.bind])
    · rintro ⟨_, _, h, _⟩; cases h

theorem convert2str_not_key (v : PyVal) : convert2str v ≠ .error .keyError := by
  match v with
  | .str s => simp [convert2str, bytes2string, np2str, bind, Except.bind]
  | .bytes (some s) => simp [convert2str, bytes2string, np2str, bind, Except.bind]
  | .bytes none => simp [convert2str, bytes2string, bind, Except.bind]
  | .other => simp [convert2str, bytes2string, np2str, bind, Except.bind]
  | .array dt els =>
    simp only [convert2str, bytes2string, np2str, bind, Except.bind]
    split
    · match els with
      | [] => simp
      | [.str t] => simp
      | [.bytes (some t)] => simp [PyVal.decode]
      | [.bytes none] => simp [PyVal.decode]
      | [.array _ _] => simp [PyVal.decode]
      | [.other] => simp [PyVal.decode]
      | _ :: _ :: _ => simp
    · simp

theorem attrStr_not_key (v : AttrVal α) : attrStr v ≠ .error .keyError := by
  cases v <;> exact convert2str_not_key _

theorem attrNum_iff (v : AttrVal α) (x : α) : attrNum v = .ok x ↔ AttrIs v x := by
  unfold AttrIs
  cases v with
  | text pv sh => simp [attrNum]
  | int n => simp [attrNum, eq_comm]
  | num y sh => simp [attrNum]

/-- a lookup that tries the detector first and falls back to the band on KeyError -/
theorem item_lookup {β : Type} (f : H5File α) (band det : String) (own : H5Det α → Option β)
    (common : H5Band α → Option β) (a : H5Det α → Py β) (c : H5Band α → Py β)
    (ha : ∀ D, a D = match own D with | some v => .ok v | none => .error .keyError)
    (hc : ∀ B, c B = match common B with | some v => .ok v | none => .error .keyError) :
    (∀ v, orKeyError (do a (← detGroup f band det)) (do c (← f.bands.getItem band)) = .ok v ↔
      Item f band det own common v) ∧
    ((∀ v, ¬ Item f band det own common v) →
      orKeyError (do a (← detGroup f band det)) (do c (← f.bands.getItem band)) = .error .keyError) := by
  unfold Item detGroup
  cases hB : f.bands.get? band with
  | none =>
    have hg : f.bands.getItem band = .error .keyError := getItem_err_iff.2 ⟨rfl, hB⟩
    simp [hg, bind, Except.bind, orKeyError]
  | some B =>
    have hg : f.bands.getItem band = .ok B := getItem_ok_iff.2 hB
    simp only [hg, bind, Except.bind, Option.some.injEq, exists_eq_left']
    cases hD : B.dets.get? det with
    | none =>
      have hd : B.dets.getItem det = .error .keyError := getItem_err_iff.2 ⟨rfl, hD⟩
      simp only [hd, orKeyError, hc, reduceCtorEq, false_and, exists_false, false_or, IsEmpty.forall_iff,
        implies_true, true_and]
      cases common B <;> simp
    | some D =>
      have hd : B.dets.getItem det = .ok D := getItem_ok_iff.2 hD
      simp only [hd, ha, hc, Option.some.injEq, exists_eq_left', forall_eq']
      cases own D with
      | some v => simp [orKeyError]
      | none => cases common B <;> simp [orKeyError]

theorem bandResponses_spec (f : H5File α) (band det : String) :
    (∀ r, bandResponses f band det = .ok r ↔ HasResponse f band det r) ∧
    ((∀ r, ¬ HasResponse f band det r) → bandResponses f band det = .error .keyError) := by
  have := item_lookup f band det (fun D => (D.datasets.get? "response").map H5Data.values)
    (fun B => (B.datasets.get? "response").map H5Data.values)
    (fun D => do return (← D.datasets.getItem "response").values)
    (fun B => do return (← B.datasets.getItem "response").values)
    (by intro D; unfold Dict.getItem; cases D.datasets.get? "response" <;> rfl)
    (by intro B; unfold Dict.getItem; cases B.datasets.get? "response" <;> rfl)
  exact this

/-- a partial function after a lookup that falls back on KeyError only -/
theorem item_lookup_map {β γ : Type} (f : H5File α) (band det : String) (own : H5Det α → Option β)
    (common : H5Band α → Option β) (g : β → Py γ) (hg : ∀ x, g x ≠ .error .keyError)
    (a : H5Det α → Py γ) (c : H5Band α → Py γ)
    (ha : ∀ D, a D = match own D with | some v => g v | none => .error .keyError)
    (hc : ∀ B, c B = match common B with | some v => g v | none => .error .keyError) :
    (∀ v, orKeyError (do a (← detGroup f band det)) (do c (← f.bands.getItem band)) = .ok v ↔
      ∃ x, Item f band det own common x ∧ g x = .ok v) ∧
    ((∀ x, Item f band det own common x → ∃ v, g x = .ok v) → (∀ x, ¬ Item f band det own common x) →
      orKeyError (do a (← detGroup f band det)) (do c (← f.bands.getItem band)) = .error .keyError) := by
  unfold Item detGroup
  cases hB : f.bands.get? band with
  | none =>
    have hg : f.bands.getItem band = .error .keyError := getItem_err_iff.2 ⟨rfl, hB⟩
    simp [hg, bind, Except.bind, orKeyError]
  | some B =>
    have hgB : f.bands.getItem band = .ok B := getItem_ok_iff.2 hB
    simp only [hgB, bind, Except.bind, Option.some.injEq, exists_eq_left']
    cases hD : B.dets.get? det with
    | none =>
      have hd : B.dets.getItem det = .error .keyError := getItem_err_iff.2 ⟨rfl, hD⟩
      simp only [hd, orKeyError, hc, reduceCtorEq, false_and, exists_false, false_or, IsEmpty.forall_iff,
        implies_true, true_and]
      cases common B <;> simp
    | some D =>
      have hd : B.dets.getItem det = .ok D := getItem_ok_iff.2 hD
      simp only [hd, ha, hc, Option.some.injEq, exists_eq_left', forall_eq']
      cases own D with
      | some v =>
        have hne := hg v
        cases hgv : g v with
        | ok y => simp [orKeyError, hgv]
        | error e =>
          have : e ≠ .keyError := fun he => hne (by rw [hgv, he])
          cases e <;> simp_all [orKeyError]
      | none => cases common B <;> simp [orKeyError]

theorem attrNum_not_key (v : AttrVal α) : attrNum v ≠ .error .keyError := by
  cases v <;> simp [attrNum]

theorem bandCentral_spec (f : H5File α) (band det : String) :
    (∀ c, bandCentral f band det = .ok c ↔ HasCentral f band det c) ∧
    ((∀ v, ¬ Item f band det (fun D => D.attrs.get? "central_wavelength")
        (fun B => B.attrs.get? "central_wavelength") v) → bandCentral f band det = .error .keyError) := by
  have := item_lookup_map f band det (fun D => D.attrs.get? "central_wavelength")
    (fun B => B.attrs.get? "central_wavelength") attrNum attrNum_not_key
    (fun D => do attrNum (← D.attrs.getItem "central_wavelength"))
    (fun B => do attrNum (← B.attrs.getItem "central_wavelength"))
    (by intro D; unfold Dict.getItem; cases D.attrs.get? "central_wavelength" <;> rfl)
    (by intro B; unfold Dict.getItem; cases B.attrs.get? "central_wavelength" <;> rfl)
  refine ⟨fun c => ?_, fun h => this.2 (fun x hx => absurd hx (h x)) h⟩
  refine (this.1 c).trans ?_
  unfold HasCentral
  simp only [attrNum_iff]

theorem scaled_eq (ds : Dict String (H5Data α)) :
    (do scaled (← ds.getItem "wavelength")) = match scaledData ds with
      | some p => (do let s ← attrNum p.2; return p.1.map (· * s) : Py (List α))
      | none => .error .keyError := by
  unfold scaled scaledData Dict.getItem
  cases ds.get? "wavelength" with
  | none => rfl
  | some d =>
    simp only [bind, Except.bind, Option.bind_some]
    cases d.attrs.get? "scale" <;> rfl

theorem bandWavelengths_spec (f : H5File α) (band det : String) :
    (∀ w, bandWavelengths f band det = .ok w ↔ HasWavelength f band det w) ∧
    ((∀ v, ¬ Item f band det (fun D => scaledData D.datasets) (fun B => scaledData B.datasets) v) →
      bandWavelengths f band det = .error .keyError) := by
  have := item_lookup_map f band det (fun D => scaledData D.datasets) (fun B => scaledData B.datasets)
    (fun p => (do let s ← attrNum p.2; return p.1.map (· * s) : Py (List α)))
    (by
      intro p
      have := attrNum_not_key p.2
      cases h : attrNum p.2 with
      | ok s => simp [bind, Except.bind, pure, Except.pure]
      | error e => intro hc; simp [bind, Except.bind] at hc; rw [h, hc] at this; exact this rfl)
    (fun D => do scaled (← D.datasets.getItem "wavelength"))
    (fun B => do scaled (← B.datasets.getItem "wavelength"))
    (fun D => by rw [scaled_eq]; cases scaledData D.datasets <;> rfl)
    (fun B => by rw [scaled_eq]; cases scaledData B.datasets <;> rfl)
  have e : bandWavelengths f band det = (do
      let wvl ← orKeyError (do (fun D => do scaled (← D.datasets.getItem "wavelength")) (← detGroup f band det))
        (do (fun B => do scaled (← B.datasets.getItem "wavelength")) (← f.bands.getItem band))
      return wvl.map (· * 1e6) : Py (List α)) := rfl
  rw [e]
  refine ⟨fun w => ?_, fun h => ?_⟩
  · unfold HasWavelength
    have t := this.1
    generalize orKeyError (do (fun D => do scaled (← D.datasets.getItem "wavelength")) (← detGroup f band det))
        (do (fun B => do scaled (← B.datasets.getItem "wavelength")) (← f.bands.getItem band)) = M at t ⊢
    constructor
    · intro h
      cases M with
      | error e => simp [bind, Except.bind] at h
      | ok v =>
        simp only [bind, Except.bind, pure, Except.pure, Except.ok.injEq] at h
        obtain ⟨⟨vals, sv⟩, hi, hv⟩ := (t v).1 rfl
        cases hs : attrNum sv with
        | error e => simp [hs, bind, Except.bind] at hv
        | ok s =>
          simp only [hs, bind, Except.bind, pure, Except.pure, Except.ok.injEq] at hv
          refine ⟨vals, sv, s, hi, (attrNum_iff _ _).1 hs, ?_⟩
          rw [← h, ← hv, List.map_map]; rfl
    · rintro ⟨vals, sv, s, hi, hs, rfl⟩
      have := (t (vals.map (· * s))).2 ⟨(vals, sv), hi, by simp [(attrNum_iff _ _).2 hs, bind, Except.bind, pure, Except.pure]⟩
      rw [this]
      simp [bind, Except.bind, pure, Except.pure]
  · rw [this.2 (fun x hx => absurd hx (h x)) h]; rfl

theorem detectorNames_spec (f : H5File α) (band : String) :
    (∀ l, detectorNames f band = .ok l ↔ ∃ n, DetectorCount f band n ∧ l = (List.range n).map detName) ∧
    ((∀ B v, f.bands.get? band = some B → B.attrs.get? "number_of_detectors" = some v → ∃ n, v = .int n) →
      ∃ n, DetectorCount f band n) ∧
    (∀ n m, DetectorCount f band n → DetectorCount f band m → n = m) := by
  unfold detectorNames numberOfDetectors DetectorCount
  cases hB : f.bands.get? band with
  | none =>
    have hg : f.bands.getItem band = .error .keyError := getItem_err_iff.2 ⟨rfl, hB⟩
    simp only [hg, bind, Except.bind, orKeyError, pure, Except.pure, Except.ok.injEq]
    refine ⟨fun l => ?_, ?_, ?_⟩
    · constructor
      · rintro rfl; exact ⟨1, Or.inr ⟨by simp, rfl⟩, rfl⟩
      · rintro ⟨n, h | h, rfl⟩
        · simp at h
        · rw [h.2]; rfl
    · intro _; exact ⟨1, Or.inr ⟨by simp, rfl⟩⟩
    · rintro n m (h | h) (h' | h')
      · simp at h
      · simp at h
      · simp at h'
      · rw [h.2, h'.2]
  | some B =>
    have hgB : f.bands.getItem band = .ok B := getItem_ok_iff.2 hB
    simp only [hgB, bind, Except.bind, Option.some.injEq, exists_eq_left', forall_eq']
    cases hA : B.attrs.get? "number_of_detectors" with
    | none =>
      have hg : B.attrs.getItem "number_of_detectors" = .error .keyError := getItem_err_iff.2 ⟨rfl, hA⟩
      simp only [hg, orKeyError, pure, Except.pure, Except.ok.injEq]
      refine ⟨fun l => ?_, ?_, ?_⟩
      · constructor
        · rintro rfl; exact ⟨1, by simp [hA], rfl⟩
        · rintro ⟨n, h, rfl⟩
          have : n = 1 := by simpa [hA] using h
          rw [this]; rfl
      · intro _; exact ⟨1, by simp [hA]⟩
      · intro n m h h'
        have h1 : n = 1 := by simpa [hA] using h
        have h2 : m = 1 := by simpa [hA] using h'
        rw [h1, h2]
    | some v =>
      have hg : B.attrs.getItem "number_of_detectors" = .ok v := getItem_ok_iff.2 hA
      simp only [hg]
      cases v with
      | int k =>
        simp only [attrInt, orKeyError, pure, Except.pure, Except.ok.injEq]
        refine ⟨fun l => ?_, ?_, ?_⟩
        · constructor
          · rintro rfl; exact ⟨k.toNat, by simp [hA], rfl⟩
          · rintro ⟨n, h, rfl⟩
            have : n = k.toNat := by simpa [hA] using h
            rw [this]; rfl
        · intro _; exact ⟨k.toNat, by simp [hA]⟩
        · intro n m h h'
          have h1 : n = k.toNat := by simpa [hA] using h
          have h2 : m = k.toNat := by simpa [hA] using h'
          rw [h1, h2]
      | text pv sh =>
        simp only [attrInt, orKeyError]
        refine ⟨fun l => ?_, ?_, ?_⟩
        · simp [hA]
        · intro h; obtain ⟨n, hn⟩ := h B _ rfl hA; cases hn
        · intro n m h; simp [hA] at h
      | num x sh =>
        simp only [attrInt, orKeyError]
        refine ⟨fun l => ?_, ?_, ?_⟩
        · simp [hA]
        · intro h; obtain ⟨n, hn⟩ := h B _ rfl hA; cases hn
        · intro n m h; simp [hA] at h

/-- the dictionary stored for one detector -/
def detEntry (r w : List α) (c : α) : DetRsr α :=
  [("response", .arr r), ("wavelength", .arr w), ("central_wavelength", .num c)]

theorem readDetector_iff (f : H5File α) (band det : String) (d : DetRsr α) :
    readDetector f band det = .ok d ↔ ∃ r w c, HasResponse f band det r ∧ HasWavelength f band det w ∧
      HasCentral f band det c ∧ d = detEntry r w c := by
  unfold readDetector
  constructor
  · intro h
    cases hr : bandResponses f band det with
    | error e => rw [hr] at h; cases h
    | ok r =>
      cases hw : bandWavelengths f band det with
      | error e => rw [hr, hw] at h; cases h
      | ok w =>
        cases hc : bandCentral f band det with
        | error e => rw [hr, hw, hc] at h; cases h
        | ok c =>
          rw [hr, hw, hc] at h
          cases h
          exact ⟨r, w, c, ((bandResponses_spec f band det).1 r).1 hr, ((bandWavelengths_spec f band det).1 w).1 hw,
            ((bandCentral_spec f band det).1 c).1 hc, rfl⟩
  · rintro ⟨r, w, c, hr, hw, hc, rfl⟩
    rw [((bandResponses_spec f band det).1 r).2 hr, ((bandWavelengths_spec f band det).1 w).2 hw,
      ((bandCentral_spec f band det).1 c).2 hc]
    rfl

theorem detName_inj {i j : Nat} (h : detName i = detName j) : i = j := by
  unfold detName at h
  have h1 : toString (i + 1) = toString (j + 1) := by
    have := congrArg String.toList h
    simp only [String.toList_append, List.append_cancel_left_eq] at this
    exact String.ext this
  have : (i + 1).repr = (j + 1).repr := h1
  have := Nat.repr_inj.1 this
  omega

end Verif.Lemmas
