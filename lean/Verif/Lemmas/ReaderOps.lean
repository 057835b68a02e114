import Verif.Model.Reader
import Verif.Lemmas.Reader
import Verif.Lemmas.CentralWave
/-
Lemmas about methods that change a reader.
-/
namespace Verif.Lemmas
open Model PyNum
variable {α : Type} [PyNum α]

/-! ### Runs -/

theorem st_bind_ok {σ β γ : Type} {m : PySt σ β} {f : β → PySt σ γ} {s s' : σ} {a : β} (h : m s = (.ok a, s')) :
    (m >>= f) s = f a s' := by
  show PySt.bind m f s = _
  unfold PySt.bind
  rw [h]

theorem st_bind_error {σ β γ : Type} {m : PySt σ β} {f : β → PySt σ γ} {s s' : σ} {e : PyErr}
    (h : m s = (.error e, s')) : (m >>= f) s = (.error e, s') := by
  show PySt.bind m f s = _
  unfold PySt.bind
  rw [h]

theorem st_get {σ : Type} (s : σ) : (PySt.get : PySt σ σ) s = (.ok s, s) := rfl
theorem st_modify {σ : Type} (f : σ → σ) (s : σ) : PySt.modify f s = (.ok (), f s) := rfl
theorem st_pure {σ β : Type} (a : β) (s : σ) : (pure a : PySt σ β) s = (.ok a, s) := rfl
theorem st_lift_ok {σ β : Type} {p : Py β} {a : β} (h : p = .ok a) (s : σ) : PySt.lift p s = (.ok a, s) := by
  rw [h]; rfl
theorem st_lift_error {σ β : Type} {p : Py β} {e : PyErr} (h : p = .error e) (s : σ) :
    (PySt.lift p : PySt σ β) s = (.error e, s) := by
  rw [h]; rfl

theorem st_forEach_cons {σ β : Type} (f : β → PySt σ Unit) (a : β) (as : List β) :
    PySt.forEach f (a :: as) = (f a >>= fun _ => PySt.forEach f as) := rfl

theorem st_forEach_append {σ β : Type} (f : β → PySt σ Unit) (a b : List β) (s : σ) :
    PySt.forEach f (a ++ b) s = (PySt.forEach f a >>= fun _ => PySt.forEach f b) s := by
  induction a generalizing s with
  | nil => rfl
  | cons x a ih =>
    rw [List.cons_append, st_forEach_cons, st_forEach_cons]
    rcases hx : f x s with ⟨r, s1⟩
    cases r with
    | error e =>
      have h2 : (f x >>= fun _ => PySt.forEach f a) s = (.error e, s1) := st_bind_error hx
      rw [st_bind_error hx, st_bind_error h2]
    | ok u =>
      rw [st_bind_ok hx, ih]
      rcases ha : PySt.forEach f a s1 with ⟨r2, s2⟩
      have h2 : (f x >>= fun _ => PySt.forEach f a) s = (r2, s2) := by rw [st_bind_ok hx, ha]
      cases r2 with
      | error e => rw [st_bind_error ha, st_bind_error h2]
      | ok u2 => rw [st_bind_ok ha, st_bind_ok h2]

/-- all (band, detector) pairs of a data set -/
def pairs (rsr : Rsr α) : List (String × String) := rsr.flatMap fun p => p.2.keys.map fun d => (p.1, d)

omit [PyNum α] in
theorem forDetectors_eq (rsr : Rsr α) (body : String → String → PySt (Reader α) Unit) (r : Reader α) :
    forDetectors rsr body r = PySt.forEach (fun p => body p.1 p.2) (pairs rsr) r := by
  unfold forDetectors pairs
  induction rsr generalizing r with
  | nil => rfl
  | cons p rsr ih =>
    rw [st_forEach_cons, List.flatMap_cons, st_forEach_append]
    have inner : ∀ (ds : List String) (s : Reader α), PySt.forEach (body p.1) ds s =
        PySt.forEach (fun q : String × String => body q.1 q.2) (ds.map fun d => (p.1, d)) s := by
      intro ds
      induction ds with
      | nil => intro s; rfl
      | cons d ds ihd =>
        intro s
        rw [List.map_cons, st_forEach_cons, st_forEach_cons]
        rcases hb : body p.1 d s with ⟨u, s'⟩
        cases u with
        | error e => rw [st_bind_error hb, st_bind_error hb]
        | ok u => rw [st_bind_ok hb, st_bind_ok hb, ihd]
    rcases hb : PySt.forEach (body p.1) p.2.keys r with ⟨u, s'⟩
    have hb' := hb
    rw [inner] at hb'
    cases u with
    | error e => rw [st_bind_error hb, st_bind_error hb']
    | ok u => rw [st_bind_ok hb, st_bind_ok hb', ih]

/-- the data of one detector of one band -/
def entry (rsr : Rsr α) (b d : String) : Option (DetRsr α) := (rsr.get? b).bind (·.get? d)

/-- replace the data of one detector of one band -/
def setDet (rsr : Rsr α) (b d : String) (v : DetRsr α) : Rsr α :=
  match rsr.get? b with
  | some B => rsr.set b (B.set d v)
  | none => rsr

omit [PyNum α] in
theorem entry_setDet (rsr : Rsr α) (b d b' d' : String) (v : DetRsr α) (h : (entry rsr b d).isSome) :
    entry (setDet rsr b d v) b' d' = if b' = b ∧ d' = d then some v else entry rsr b' d' := by
  unfold entry setDet at *
  cases hb : rsr.get? b with
  | none => rw [hb] at h; simp at h
  | some B =>
    simp only
    by_cases h1 : b' = b
    · subst h1
      rw [get?_set_self, hb]
      simp only [Option.bind_some, true_and]
      by_cases h2 : d' = d
      · subst h2; rw [get?_set_self, if_pos rfl]
      · rw [get?_set_ne _ _ h2, if_neg h2]
    · rw [get?_set_ne _ _ h1, if_neg (by simp [h1])]

omit [PyNum α] in
theorem keys_setDet (rsr : Rsr α) (b d : String) (v : DetRsr α) (h : (entry rsr b d).isSome) :
    (setDet rsr b d v).keys = rsr.keys ∧ ∀ b' B, rsr.get? b' = some B →
      ∃ B', (setDet rsr b d v).get? b' = some B' ∧ B'.keys = B.keys := by
  unfold entry setDet at *
  cases hb : rsr.get? b with
  | none => rw [hb] at h; simp at h
  | some B =>
    rw [hb] at h
    simp only [Option.bind_some] at h
    have mem : ∀ {κ γ : Type} [DecidableEq κ] (D : Dict κ γ) (k : κ), (D.get? k).isSome → k ∈ D.keys := by
      intro κ γ _ D k hk
      by_contra hc
      rw [get?_eq_none_iff.2 hc] at hk; simp at hk
    constructor
    · show (Dict.set rsr b _).keys = _
      rw [keys_set, if_pos (mem rsr b (by rw [hb]; rfl))]
    · intro b' B0 hB0
      by_cases h1 : b' = b
      · subst h1
        rw [hb] at hB0; cases hB0
        refine ⟨_, get?_set_self _ _ _, ?_⟩
        rw [keys_set, if_pos (mem B d h)]
      · exact ⟨B0, (get?_set_ne _ _ h1).trans hB0, rfl⟩

/-- A loop over (band, detector) pairs whose body replaces the entry of that pair. -/
theorem pairs_loop (body : String → String → PySt (Reader α) Unit) (F : String → String → DetRsr α → DetRsr α)
    (R : Reader α → Reader α → Prop) (Q : Reader α → Prop) (hrefl : ∀ r, R r r)
    (htrans : ∀ a b c, R a b → R b c → R a c)
    (Pre : String → String → DetRsr α → Prop)
    (hbody : ∀ r b d det, entry r.rsr b d = some det → Pre b d det →
      ∃ r', body b d r = (.ok (), r') ∧ r'.rsr = setDet r.rsr b d (F b d det) ∧ R r r' ∧ Q r')
    (ps : List (String × String)) : ∀ (r : Reader α), ps.Nodup →
    (∀ p ∈ ps, ∃ det, entry r.rsr p.1 p.2 = some det ∧ Pre p.1 p.2 det) →
    ∃ r', PySt.forEach (fun p => body p.1 p.2) ps r = (.ok (), r') ∧
      (∀ b d, entry r'.rsr b d = if (b, d) ∈ ps then (entry r.rsr b d).map (F b d) else entry r.rsr b d) ∧
      r'.rsr.keys = r.rsr.keys ∧
      (∀ b B, r.rsr.get? b = some B → ∃ B', r'.rsr.get? b = some B' ∧ B'.keys = B.keys) ∧
      R r r' ∧ (ps ≠ [] → Q r') := by
  induction ps with
  | nil =>
    intro r _ _
    exact ⟨r, rfl, by simp, rfl, fun b B h => ⟨B, h, rfl⟩, hrefl r, by simp⟩
  | cons p ps ih =>
    intro r hnd hpre
    obtain ⟨b0, d0⟩ := p
    rw [List.nodup_cons] at hnd
    obtain ⟨det, he, hp⟩ := hpre (b0, d0) (by simp)
    obtain ⟨r1, h1, h2, h3, h4⟩ := hbody r b0 d0 det he hp
    have hs : (entry r.rsr b0 d0).isSome := by rw [show entry r.rsr b0 d0 = some det from he]; rfl
    obtain ⟨r', g1, g2, g3, g4, g5, g6⟩ := ih r1 hnd.2 (by
      intro q hq
      obtain ⟨det', he', hp'⟩ := hpre q (by simp [hq])
      refine ⟨det', ?_, hp'⟩
      rw [h2, entry_setDet _ _ _ _ _ _ hs, if_neg]
      · exact he'
      · rintro ⟨e1, e2⟩
        apply hnd.1
        have : q = (b0, d0) := Prod.ext e1 e2
        rw [← this]; exact hq)
    refine ⟨r', ?_, ?_, ?_, ?_, htrans _ _ _ h3 g5, ?_⟩
    · rw [st_forEach_cons, st_bind_ok h1, g1]
    · intro b d
      rw [g2 b d, h2, entry_setDet _ _ _ _ _ _ hs]
      by_cases hc : b = b0 ∧ d = d0
      · obtain ⟨rfl, rfl⟩ := hc
        have hnot : (b, d) ∉ ps := hnd.1
        have he' : entry r.rsr b d = some det := he
        simp [hnot, he']
      · have : ((b, d) = (b0, d0)) = False := by
          simp only [Prod.mk.injEq, eq_iff_iff, iff_false]; exact hc
        simp only [if_neg hc, List.mem_cons, this, false_or]
    · rw [g3, h2, (keys_setDet _ _ _ _ hs).1]
    · intro b B hB
      obtain ⟨B1, hB1, hk1⟩ := (keys_setDet _ _ _ (F b0 d0 det) hs).2 b B hB
      rw [← h2] at hB1
      obtain ⟨B2, hB2, hk2⟩ := g4 b B1 hB1
      exact ⟨B2, hB2, hk2.trans hk1⟩
    · intro _
      by_cases hps : ps = []
      · subst hps
        have : r' = r1 := by
          have h0 : (Except.ok (), r1) = (Except.ok (), r') := g1
          exact (Prod.mk.inj h0).2.symm
        rw [this]; exact h4
      · exact g6 hps

theorem entry_get {rsr : Rsr α} {b d : String} {det : DetRsr α} (h : entry rsr b d = some det) :
    ∃ B, rsr.get? b = some B ∧ B.get? d = some det := by
  unfold entry at h
  cases hb : rsr.get? b with
  | none => rw [hb] at h; cases h
  | some B => rw [hb] at h; exact ⟨B, rfl, h⟩

theorem setEntry_run (b d key : String) (v : DetVal α) (r : Reader α) (det : DetRsr α)
    (h : entry r.rsr b d = some det) :
    Reader.setEntry b d key v r = (.ok (), { r with rsr := setDet r.rsr b d (det.set key v) }) := by
  obtain ⟨B, hB, hD⟩ := entry_get h
  unfold Reader.setEntry
  rw [st_bind_ok (st_get r)]
  have h1 : rsrDictGetItem r.instrument r.rsr b = .ok B := by unfold rsrDictGetItem; rw [hB]
  rw [st_bind_ok (st_lift_ok h1 r), st_bind_ok (st_lift_ok (getItem_ok_iff.2 hD) r), st_modify]
  unfold setDet
  rw [hB]

/-- everything but the data, the unit and the wave space is the same -/
def SameNames (a b : Reader α) : Prop :=
  b.filename = a.filename ∧ b.platform_name = a.platform_name ∧ b.instrument = a.instrument ∧
  b.description = a.description ∧ b.band_names = a.band_names

omit [PyNum α] in
theorem SameNames.rfl' (r : Reader α) : SameNames r r := ⟨rfl, rfl, rfl, rfl, rfl⟩
omit [PyNum α] in
theorem SameNames.trans' {a b c : Reader α} (h1 : SameNames a b) (h2 : SameNames b c) : SameNames a c :=
  ⟨h2.1.trans h1.1, h2.2.1.trans h1.2.1, h2.2.2.1.trans h1.2.2.1, h2.2.2.2.1.trans h1.2.2.2.1,
    h2.2.2.2.2.trans h1.2.2.2.2⟩

omit [PyNum α] in
theorem setDet_setDet (rsr : Rsr α) (b d : String) (v w : DetRsr α) :
    setDet (setDet rsr b d v) b d w = setDet rsr b d w := by
  have set_set : ∀ {κ γ : Type} [DecidableEq κ] (D : Dict κ γ) (k : κ) (x y : γ), (D.set k x).set k y = D.set k y := by
    intro κ γ _ D k x y
    induction D with
    | nil => simp [Dict.set]
    | cons p D ih =>
      obtain ⟨k', v'⟩ := p
      by_cases hk : k' = k
      · simp [Dict.set, hk]
      · simp [Dict.set, hk, ih]
  unfold setDet
  cases hb : rsr.get? b with
  | none => simp only [hb]
  | some B =>
    simp only
    rw [get?_set_self]
    simp only
    rw [set_set, set_set]

theorem convertStep_run (c : Rsr α) (info : WaveInfo α) (b d : String) (r : Reader α) (det cdet : DetRsr α)
    (wn resp : DetVal α) (h : entry r.rsr b d = some det) (hc : entry c b d = some cdet)
    (hw : cdet.get? "wavenumber" = some wn) (hr : cdet.get? "response" = some resp) :
    ∃ r', Reader.convertStep c info b d r = (.ok (), r') ∧
      r'.rsr = setDet r.rsr b d ((det.set "wavenumber" wn).set "response" resp) ∧
      (SameNames r r' ∧ r'.wavespace = r.wavespace) ∧ (r'.unit = info.unit ∧ r'.si_scale = info.si_scale) := by
  obtain ⟨B, hB, hD⟩ := entry_get hc
  unfold Reader.convertStep
  have hl : (do (← c.getItem b).getItem d : Py (DetRsr α)) = .ok cdet := by
    rw [getItem_ok_iff.2 hB]; exact getItem_ok_iff.2 hD
  rw [st_bind_ok (st_lift_ok hl r),
    st_bind_ok (st_lift_ok (show cdet.getItem WAVE_NUMBER = .ok wn from getItem_ok_iff.2 hw) r),
    st_bind_ok (setEntry_run b d WAVE_NUMBER wn r det h),
    st_bind_ok (st_lift_ok (show cdet.getItem "response" = .ok resp from getItem_ok_iff.2 hr) _)]
  have hs : (entry r.rsr b d).isSome := by rw [h]; rfl
  have h2 : entry (setDet r.rsr b d (det.set "wavenumber" wn)) b d = some (det.set "wavenumber" wn) := by
    rw [entry_setDet _ _ _ _ _ _ hs, if_pos ⟨rfl, rfl⟩]
  rw [st_bind_ok (setEntry_run b d "response" resp _ (det.set "wavenumber" wn) h2), st_modify]
  refine ⟨_, rfl, ?_, ⟨⟨rfl, rfl, rfl, rfl, rfl⟩, rfl⟩, ⟨rfl, rfl⟩⟩
  exact setDet_setDet _ _ _ _ _

theorem centralStep_run (b d : String) (r : Reader α) (det : DetRsr α) (wn resp : List α) (cw : α) (wl : DetVal α)
    (h : entry r.rsr b d = some det) (hw : det.get? "wavenumber" = some (.arr wn))
    (hr : det.get? "response" = some (.arr resp)) (hc : getCentralWave wn resp = .ok cw)
    (hwl : det.get? "wavelength" = some wl) :
    ∃ r', Reader.centralStep b d r = (.ok (), r') ∧
      r'.rsr = setDet r.rsr b d ((det.set "central_wavenumber" (.num cw)).erase "wavelength") ∧
      (SameNames r r' ∧ r'.wavespace = r.wavespace ∧ r'.unit = r.unit ∧ r'.si_scale = r.si_scale) ∧ True := by
  obtain ⟨B, hB, hD⟩ := entry_get h
  unfold Reader.centralStep
  have hg : rsrDictGetItem r.instrument r.rsr b = .ok B := by unfold rsrDictGetItem; rw [hB]
  have hl : (do (← rsrDictGetItem r.instrument r.rsr b).getItem d : Py (DetRsr α)) = .ok det := by
    rw [hg]; exact getItem_ok_iff.2 hD
  have ga : ∀ k xs, det.get? k = some (.arr xs) → getArr det k = .ok xs := by
    intro k xs hk
    unfold getArr
    rw [getItem_ok_iff.2 hk]; rfl
  have hcw : (do getCentralWave (← getArr det WAVE_NUMBER) (← getArr det "response") : Py α) = .ok cw := by
    rw [ga WAVE_NUMBER wn hw, ga "response" resp hr]; exact hc
  rw [st_bind_ok (st_get r), st_bind_ok (st_lift_ok hl r), st_bind_ok (st_lift_ok hcw r),
    st_bind_ok (setEntry_run b d "central_wavenumber" (.num cw) r det h), st_bind_ok (st_get _)]
  have hs : (entry r.rsr b d).isSome := by rw [h]; rfl
  set r1 : Reader α := { r with rsr := setDet r.rsr b d (det.set "central_wavenumber" (.num cw)) } with hr1
  have h2 : entry r1.rsr b d = some (det.set "central_wavenumber" (.num cw)) := by
    rw [hr1, entry_setDet _ _ _ _ _ _ hs, if_pos ⟨rfl, rfl⟩]
  obtain ⟨B1, hB1, hD1⟩ := entry_get h2
  have hg1 : rsrDictGetItem r1.instrument r1.rsr b = .ok B1 := by unfold rsrDictGetItem; rw [hB1]
  rw [st_bind_ok (st_lift_ok hg1 r1), st_bind_ok (st_lift_ok (getItem_ok_iff.2 hD1) r1),
    st_bind_ok (st_lift_ok (show Dict.getItem (det.set "central_wavenumber" (.num cw)) WAVE_LENGTH = .ok wl from
      getItem_ok_iff.2 (by rw [get?_set_ne _ _ (by decide)]; exact hwl)) r1), st_modify]
  refine ⟨_, rfl, ?_, ⟨⟨rfl, rfl, rfl, rfl, rfl⟩, rfl, rfl, rfl⟩, trivial⟩
  have : setDet r1.rsr b d ((det.set "central_wavenumber" (.num cw)).erase "wavelength") =
      r1.rsr.set b (B1.set d ((det.set "central_wavenumber" (.num cw)).erase "wavelength")) := by
    unfold setDet; rw [hB1]
  show r1.rsr.set b (B1.set d ((det.set "central_wavenumber" (.num cw)).erase WAVE_LENGTH)) = _
  rw [show WAVE_LENGTH = "wavelength" from rfl, ← this]
  exact setDet_setDet _ _ _ _ _

section
variable {κ γ : Type} [DecidableEq κ]

theorem get?_erase_self (D : Dict κ γ) (k : κ) (h : D.WF) : (D.erase k).get? k = none := by
  induction D with
  | nil => rfl
  | cons p D ih =>
    obtain ⟨k', v'⟩ := p
    have h' : k' ∉ D.map Prod.fst ∧ Dict.WF D := List.nodup_cons.1 h
    by_cases hk : k' = k
    · subst hk
      simp only [Dict.erase, if_true]
      exact get?_eq_none_iff.2 h'.1
    · simp only [Dict.erase, hk, if_false, Dict.get?]
      exact ih h'.2

theorem get?_erase_ne (D : Dict κ γ) {k k' : κ} (h : k' ≠ k) : (D.erase k).get? k' = D.get? k' := by
  induction D with
  | nil => rfl
  | cons p D ih =>
    obtain ⟨k0, v0⟩ := p
    by_cases hk : k0 = k
    · subst hk
      simp [Dict.erase, Dict.get?, Ne.symm h]
    · by_cases hk' : k0 = k'
      · subst hk'; simp [Dict.erase, Dict.get?, hk]
      · simp [Dict.erase, Dict.get?, hk, hk', ih]

theorem set_wf (D : Dict κ γ) (k : κ) (v : γ) (h : D.WF) : (D.set k v).WF := by
  show (Dict.keys (D.set k v)).Nodup
  rw [keys_set]
  have hD : D.keys.Nodup := h
  split
  · exact hD
  · rename_i hk
    rw [List.nodup_append]
    refine ⟨hD, by simp, ?_⟩
    intro a ha b hb
    simp at hb; subst hb; rintro rfl; exact hk ha

end
end Verif.Lemmas
