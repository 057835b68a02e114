import Verif.Props.Rsr
import Verif.Lemmas.ReaderOps
/-
Properties C43 and C44: converting a reader to wavenumbers, and its band integrals.
-/
namespace Verif.Props
open XF Model PyNum Lemmas Spec

/-! ### C43 -/

theorem mem_pairs {α : Type} (rsr : Rsr α) (h : rsr.WF) (hb : ∀ p ∈ rsr, p.2.WF) (b d : String) :
    (b, d) ∈ pairs rsr ↔ ∃ det, entry rsr b d = some det := by
  unfold pairs entry
  simp only [List.mem_flatMap, List.mem_map, Prod.mk.injEq]
  constructor
  · rintro ⟨p, hp, d', hd', rfl, rfl⟩
    have hg : rsr.get? p.1 = some p.2 := get?_of_mem h hp
    cases hd : p.2.get? d' with
    | none => exact absurd hd' (get?_eq_none_iff.1 hd)
    | some det => exact ⟨det, by rw [hg]; exact hd⟩
  · rintro ⟨det, he⟩
    cases hB : rsr.get? b with
    | none => rw [hB] at he; cases he
    | some B =>
      rw [hB] at he
      refine ⟨(b, B), get?_eq_some_mem hB, d, ?_, rfl, rfl⟩
      by_contra hc
      have : B.get? d = some det := he
      rw [get?_eq_none_iff.2 hc] at this; cases this

theorem pairs_nodup {α : Type} (rsr : Rsr α) (h : rsr.WF) (hb : ∀ p ∈ rsr, p.2.WF) : (pairs rsr).Nodup := by
  induction rsr with
  | nil => exact List.nodup_nil
  | cons p rsr ih =>
    have h' : p.1 ∉ rsr.map Prod.fst ∧ Dict.WF rsr := List.nodup_cons.1 h
    unfold pairs
    rw [List.flatMap_cons, List.nodup_append]
    refine ⟨?_, ih h'.2 (fun q hq => hb q (by simp [hq])), ?_⟩
    · have hp : p.2.keys.Nodup := hb p (by simp)
      exact hp.map (fun a b hab => (Prod.mk.inj hab).2)
    · intro x hx y hy hxy
      subst hxy
      simp only [List.mem_map, List.mem_flatMap] at hx hy
      obtain ⟨d, _, rfl⟩ := hx
      obtain ⟨q, hq, d', _, he⟩ := hy
      exact h'.1 (List.mem_map.2 ⟨q, hq, (Prod.mk.inj he).1⟩)

/-- the entry of the converted data under a key -/
def convVal (out : Rsr XF) (key b d : String) : DetVal XF :=
  (((entry out b d).bind (·.get? key)).getD (.arr []))

/-- the central wave of a detector's current arrays -/
noncomputable def cwOf (det : DetRsr XF) : XF :=
  match (do getCentralWave (← getArr det "wavenumber") (← getArr det "response") : Py XF) with
  | .ok v => v
  | .error _ => XF.nan

/-- C43: on a reader in wavelength space with data for at least one detector, `convert()`
succeeds; the reader is then in wavenumber space with unit cm-1 and SI scale 100; the bands and
detectors are the same; for every detector the samples `(w, r)` have become `(1e4/w, r)` in
reverse order (increasing wavenumber), the central wavenumber is the response-weighted mean of
the new curve, the wavelengths are gone, and all other entries are kept. -/
theorem C43_convert (r : Reader XF) (hws : r.wavespace = "wavelength") (hd : WavelengthData r.rsr)
    (hwf : ∀ p ∈ r.rsr, ∀ q ∈ p.2, q.2.WF) (hne : ∃ p ∈ r.rsr, p.2 ≠ []) :
    ∃ r', Reader.convert r = (.ok (), r') ∧
      r'.wavespace = "wavenumber" ∧ r'.unit = "cm-1" ∧ r'.si_scale = fin 100 ∧
      r'.platform_name = r.platform_name ∧ r'.instrument = r.instrument ∧
      r'.description = r.description ∧ r'.band_names = r.band_names ∧ r'.filename = r.filename ∧
      r'.rsr.keys = r.rsr.keys ∧
      ∀ b B, r.rsr.get? b = some B → ∃ B', r'.rsr.get? b = some B' ∧ B'.keys = B.keys ∧
        ∀ d det, B.get? d = some det → ∃ det', B'.get? d = some det' ∧
          (∀ c : Curve, HasCurve det "wavelength" c →
            HasCurve det' "wavenumber" (c.map fun p => (1e4 / p.1, p.2)).reverse ∧
            ∃ v, det'.get? "central_wavenumber" = some (.num v) ∧
              getCentralWave (finL ((c.map fun p => (1e4 / p.1, p.2)).reverse.map Prod.fst))
                (finL ((c.map fun p => (1e4 / p.1, p.2)).reverse.map Prod.snd)) = .ok v) ∧
          det'.get? "wavelength" = none ∧
          ∀ k, k ≠ "wavelength" → k ≠ "wavenumber" → k ≠ "response" → k ≠ "central_wavenumber" →
            det'.get? k = det.get? k := by
  obtain ⟨out, info, hconv, hu, hs, hk, hbands⟩ := C20_convert2wavenumber r.rsr hd
  have hrwf : ∀ b B, r.rsr.get? b = some B → B.WF := fun b B h => hd.bandWf _ (get?_eq_some_mem h)
  have howf : out.WF := by
    have : out.keys.Nodup := by rw [hk]; exact hd.wf
    exact this
  have hobwf : ∀ p ∈ out, p.2.WF := by
    intro p hp
    have hg : out.get? p.1 = some p.2 := get?_of_mem howf hp
    have hm : p.1 ∈ r.rsr.keys := by rw [← hk]; exact List.mem_map.2 ⟨p, hp, rfl⟩
    cases hB : r.rsr.get? p.1 with
    | none => exact absurd hm (get?_eq_none_iff.1 hB)
    | some B =>
      obtain ⟨B', hB', hkB, _⟩ := hbands _ B hB
      rw [hg] at hB'; cases hB'
      have : p.2.keys.Nodup := by rw [hkB]; exact hrwf _ _ hB
      exact this
  -- the curve of every detector
  have hcurve : ∀ b d det, entry r.rsr b d = some det → det.get? "wavenumber" = none ∧ det.WF ∧
      ∃ c : Curve, HasCurve det "wavelength" c ∧ ∀ p ∈ c, 0 < p.1 := by
    intro b d det he
    obtain ⟨B, hB, hD⟩ := entry_get he
    have m1 := get?_eq_some_mem hB
    have m2 := get?_eq_some_mem hD
    obtain ⟨h1, w, x, h2, h3, h4, h5⟩ := hd.det _ m1 _ m2
    refine ⟨h1, hwf _ m1 _ m2, w.zip x, ⟨by rw [zip_map_fst h4]; exact h2, by rw [zip_map_snd h4]; exact h3⟩, ?_⟩
    intro p hp
    exact h5 _ (List.of_mem_zip hp).1
  have hout : ∀ b d det (c : Curve), entry r.rsr b d = some det → HasCurve det "wavelength" c → (∀ p ∈ c, 0 < p.1) →
      ∃ cdet, entry out b d = some cdet ∧ HasCurve cdet "wavenumber" (c.map fun p => (1e4 / p.1, p.2)).reverse := by
    intro b d det c he hc hp
    obtain ⟨B, hB, hD⟩ := entry_get he
    obtain ⟨B', hB', _, hdets⟩ := hbands b B hB
    obtain ⟨det', hdet', hcc⟩ := hdets d det hD
    refine ⟨det', ?_, hcc c hc hp⟩
    unfold entry; rw [hB']; exact hdet'
  have hmem : ∀ b d, (b, d) ∈ pairs out ↔ ∃ det, entry r.rsr b d = some det := by
    intro b d
    rw [mem_pairs out howf hobwf]
    constructor
    · rintro ⟨cdet, hc⟩
      obtain ⟨B', hB', hD'⟩ := entry_get hc
      have hm : b ∈ r.rsr.keys := by
        rw [← hk]; by_contra hcon; rw [get?_eq_none_iff.2 hcon] at hB'; cases hB'
      cases hB : r.rsr.get? b with
      | none => exact absurd hm (get?_eq_none_iff.1 hB)
      | some B =>
        obtain ⟨B2, hB2, hkB, _⟩ := hbands b B hB
        rw [hB'] at hB2; cases hB2
        have hm2 : d ∈ B.keys := by
          rw [← hkB]; by_contra hcon; rw [get?_eq_none_iff.2 hcon] at hD'; cases hD'
        cases hD : B.get? d with
        | none => exact absurd hm2 (get?_eq_none_iff.1 hD)
        | some det => exact ⟨det, by unfold entry; rw [hB]; exact hD⟩
    · rintro ⟨det, he⟩
      obtain ⟨_, _, c, hc, hp⟩ := hcurve b d det he
      obtain ⟨cdet, h1, _⟩ := hout b d det c he hc hp
      exact ⟨cdet, h1⟩
  have hnonempty : pairs out ≠ [] := by
    obtain ⟨p, hp, hpne⟩ := hne
    obtain ⟨q, hq⟩ := List.exists_mem_of_ne_nil _ hpne
    have : (p.1, q.1) ∈ pairs out := by
      rw [hmem]
      refine ⟨q.2, ?_⟩
      unfold entry
      rw [show r.rsr.get? p.1 = some p.2 from get?_of_mem hd.wf hp]
      exact get?_of_mem (hd.bandWf _ hp) hq
    intro hcon; rw [hcon] at this; simp at this
  -- first loop
  set F1 : String → String → DetRsr XF → DetRsr XF := fun b d det =>
    (det.set "wavenumber" (convVal out "wavenumber" b d)).set "response" (convVal out "response" b d) with hF1
  obtain ⟨r1, l1, e1, k1, kb1, s1, q1⟩ := pairs_loop (Reader.convertStep out info) F1
    (fun a b => SameNames a b ∧ b.wavespace = a.wavespace) (fun a => a.unit = info.unit ∧ a.si_scale = info.si_scale)
    (fun a => ⟨SameNames.rfl' a, rfl⟩) (fun a b c h1 h2 => ⟨h1.1.trans' h2.1, h2.2.trans h1.2⟩)
    (fun b d det => ∃ c : Curve, ∃ cdet, entry out b d = some cdet ∧ HasCurve cdet "wavenumber" c)
    (by
      intro r0 b d det he ⟨c, cdet, hc, hcur⟩
      obtain ⟨r', h1, h2, h3, h4⟩ := convertStep_run out info b d r0 det cdet _ _ he hc hcur.1 hcur.2
      refine ⟨r', h1, ?_, h3, h4⟩
      rw [h2, hF1]
      simp [convVal, hc, hcur.1, hcur.2])
    (pairs out) r (pairs_nodup out howf hobwf) (by
      intro p hp
      obtain ⟨det, he⟩ := (hmem p.1 p.2).1 hp
      obtain ⟨_, _, c, hc, hpos⟩ := hcurve _ _ det he
      obtain ⟨cdet, h1, h2⟩ := hout _ _ det c he hc hpos
      exact ⟨det, he, _, cdet, h1, h2⟩)
  set r2 : Reader XF := { r1 with wavespace := WAVE_NUMBER } with hr2
  -- the detectors after the first loop
  have hmid : ∀ b d det, entry r.rsr b d = some det → entry r2.rsr b d = some (F1 b d det) := by
    intro b d det he
    have hm : (b, d) ∈ pairs out := (hmem b d).2 ⟨det, he⟩
    rw [hr2, e1 b d, if_pos hm, he]; rfl
  have hmid' : ∀ b d det (c : Curve), entry r.rsr b d = some det → HasCurve det "wavelength" c →
      (∀ p ∈ c, 0 < p.1) → HasCurve (F1 b d det) "wavenumber" (c.map fun p => (1e4 / p.1, p.2)).reverse := by
    intro b d det c he hc hp
    obtain ⟨cdet, h1, h2⟩ := hout b d det c he hc hp
    refine ⟨?_, ?_⟩
    · rw [hF1]
      simp only
      rw [get?_set_ne _ _ (by decide), get?_set_self]
      simp [convVal, h1, h2.1]
    · rw [hF1]
      simp only
      rw [get?_set_self]
      simp [convVal, h1, h2.2]
  have harr : ∀ (det : DetRsr XF) (c : Curve), HasCurve det "wavenumber" c →
      getCentralWave (finL (c.map Prod.fst)) (finL (c.map Prod.snd)) = .ok (cwOf det) := by
    intro det c hc
    unfold cwOf
    have ga : ∀ k xs, det.get? k = some (.arr xs) → getArr det k = .ok xs := by
      intro k xs hk
      unfold getArr
      rw [getItem_ok_iff.2 hk]; rfl
    rw [ga _ _ hc.1, ga _ _ hc.2]
    have := getCentralWave_default (w := c.map Prod.fst) (r := c.map Prod.snd) (by simp)
    simp only [bind, Except.bind]
    rw [this]
  set F2 : String → String → DetRsr XF → DetRsr XF := fun _ _ det =>
    (det.set "central_wavenumber" (.num (cwOf det))).erase "wavelength" with hF2
  obtain ⟨r3, l3, e3, k3, kb3, s3, _⟩ := pairs_loop Reader.centralStep F2
    (fun a b => SameNames a b ∧ b.wavespace = a.wavespace ∧ b.unit = a.unit ∧ b.si_scale = a.si_scale) (fun _ => True)
    (fun a => ⟨SameNames.rfl' a, rfl, rfl, rfl⟩)
    (fun a b c h1 h2 => ⟨h1.1.trans' h2.1, h2.2.1.trans h1.2.1, h2.2.2.1.trans h1.2.2.1, h2.2.2.2.trans h1.2.2.2⟩)
    (fun b d det => ∃ c : Curve, HasCurve det "wavenumber" c ∧ ∃ wl, det.get? "wavelength" = some wl)
    (by
      intro r0 b d det he ⟨c, hcur, wl, hwl⟩
      obtain ⟨r', h1, h2, h3, h4⟩ := centralStep_run b d r0 det _ _ _ wl he hcur.1 hcur.2 (harr det c hcur) hwl
      exact ⟨r', h1, h2, h3, h4⟩)
    (pairs out) r2 (pairs_nodup out howf hobwf) (by
      intro p hp
      obtain ⟨det, he⟩ := (hmem p.1 p.2).1 hp
      obtain ⟨_, _, c, hc, hpos⟩ := hcurve _ _ det he
      refine ⟨_, hmid _ _ det he, _, hmid' _ _ det c he hc hpos, .arr (finL (c.map Prod.fst)), ?_⟩
      · rw [hF1]
        simp only
        rw [get?_set_ne _ _ (by decide), get?_set_ne _ _ (by decide)]
        exact hc.1)
  have hr : Reader.convert r = (.ok (), r3) := by
    unfold Reader.convert
    rw [st_bind_ok (st_get r), if_pos (show r.wavespace = WAVE_LENGTH from hws), st_bind_ok (st_lift_ok hconv r)]
    rw [← forDetectors_eq] at l1 l3
    dsimp only
    rw [st_bind_ok l1, st_bind_ok (st_modify _ r1)]
    exact l3
  obtain ⟨q1u, q1s⟩ := q1 hnonempty
  refine ⟨r3, hr, s3.2.1, ?_, ?_, ?_, ?_, ?_, ?_, ?_, ?_, ?_⟩
  · rw [s3.2.2.1]; exact q1u.trans hu
  · rw [s3.2.2.2]; exact q1s.trans hs
  · exact s3.1.2.1.trans s1.1.2.1
  · exact s3.1.2.2.1.trans s1.1.2.2.1
  · exact s3.1.2.2.2.1.trans s1.1.2.2.2.1
  · exact s3.1.2.2.2.2.trans s1.1.2.2.2.2
  · exact s3.1.1.trans s1.1.1
  · exact k3.trans k1
  · intro b B hB
    obtain ⟨B1, hB1, hk1⟩ := kb1 b B hB
    obtain ⟨B3, hB3, hk3⟩ := kb3 b B1 hB1
    refine ⟨B3, hB3, hk3.trans hk1, ?_⟩
    intro d det hD
    have he : entry r.rsr b d = some det := by unfold entry; rw [hB]; exact hD
    have he3 : entry r3.rsr b d = some (F2 b d (F1 b d det)) := by
      rw [e3 b d, if_pos ((hmem b d).2 ⟨det, he⟩), hmid b d det he]; rfl
    have hget : B3.get? d = some (F2 b d (F1 b d det)) := by
      obtain ⟨B4, hB4, h⟩ := entry_get he3
      rw [hB3] at hB4; cases hB4; exact h
    obtain ⟨hnw, hdwf, _, _⟩ := hcurve b d det he
    refine ⟨_, hget, ?_, ?_, ?_⟩
    · intro c hc
      have hpos : ∀ p ∈ c, 0 < p.1 := by
        obtain ⟨h1, w, x, h2, _, _, h5⟩ := hd.det _ (get?_eq_some_mem hB) _ (get?_eq_some_mem hD)
        have h2' := hc.1
        rw [show det.get? "wavelength" = _ from h2] at h2'
        have : w = c.map Prod.fst := by
          have h6 : finL w = finL (c.map Prod.fst) := by simpa using h2'
          exact (List.map_injective_iff.2 (fun a b h => by simpa using h)) h6
        intro p hp
        apply h5; rw [this]; exact List.mem_map.2 ⟨p, hp, rfl⟩
      have hcur := hmid' b d det c he hc hpos
      refine ⟨⟨?_, ?_⟩, cwOf (F1 b d det), ?_, harr _ _ hcur⟩
      · rw [hF2]; simp only
        rw [get?_erase_ne _ (by decide), get?_set_ne _ _ (by decide)]; exact hcur.1
      · rw [hF2]; simp only
        rw [get?_erase_ne _ (by decide), get?_set_ne _ _ (by decide)]; exact hcur.2
      · rw [hF2]; simp only
        rw [get?_erase_ne _ (by decide), get?_set_self]
    · rw [hF2]; simp only
      exact get?_erase_self _ _ (set_wf _ _ _ (by rw [hF1]; exact set_wf _ _ _ (set_wf _ _ _ hdwf)))
    · intro k n1 n2 n3 n4
      rw [hF2, hF1]; simp only
      rw [get?_erase_ne _ n1, get?_set_ne _ _ n4, get?_set_ne _ _ n3, get?_set_ne _ _ n2]

/-- C43: after that, every number of further calls raises NotImplementedError and changes
nothing. -/
theorem C43_only_once (r : Reader XF) (h : r.wavespace = "wavenumber") (n : ℕ) :
    Reader.convert ((fun s => (Reader.convert s).2)^[n] r) = (.error .notImplemented, r) := by
  have h1 : Reader.convert r = (.error .notImplemented, r) := by
    unfold Reader.convert
    rw [st_bind_ok (st_get r), if_neg (by rw [h]; decide)]
    rfl
  have h2 : (fun s => (Reader.convert s).2)^[n] r = r := by
    induction n with
    | zero => rfl
    | succ n ih => rw [Function.iterate_succ_apply', ih, h1]
  rw [h2, h1]

/-- C43 (limit of the claim): with no detector at all the unit is not changed although the
reader says it is in wavenumber space. -/
theorem C43_no_detectors (r : Reader XF) (hws : r.wavespace = "wavelength") (hne : r.rsr = []) :
    Reader.convert r = (.ok (), { r with wavespace := "wavenumber" }) := by
  unfold Reader.convert
  rw [st_bind_ok (st_get r), if_pos (show r.wavespace = WAVE_LENGTH from hws)]
  have h : convert2wavenumber r.rsr = .ok ([], ⟨"cm-1", 100.0⟩) := by rw [hne]; rfl
  rw [st_bind_ok (st_lift_ok h r)]
  rfl

example : ∃ r : Reader XF, r.wavespace = "wavelength" ∧ r.rsr = [] ∧ (Reader.convert r).1 = .ok () := by
  refine ⟨⟨("/d", "f.h5"), none, .none, "1e-6 m", fin 1e-6, "wavelength", "", [], []⟩, rfl, rfl, ?_⟩
  rw [C43_no_detectors _ rfl rfl]

/-- a reader with two bands -/
noncomputable def exReader : Reader XF where
  filename := ("/data", "rsr_x.h5")
  platform_name := some "NOAA-20"
  instrument := .str "viirs"
  unit := "1e-6 m"
  si_scale := fin 1e-6
  wavespace := "wavelength"
  description := "d"
  band_names := ["ch1", "ch2"]
  rsr := exData

example : ∃ r', Reader.convert exReader = (.ok (), r') ∧ r'.unit = "cm-1" ∧ r'.rsr.keys = ["ch1", "ch2"] ∧
    ∀ n, Reader.convert ((fun s => (Reader.convert s).2)^[n] r') = (.error .notImplemented, r') := by
  obtain ⟨r', h1, h2, h3, _, _, _, _, _, _, h4, _⟩ := C43_convert exReader rfl exData_ok
    (by
      intro p hp q hq
      simp only [exReader, exData, List.mem_cons, List.not_mem_nil, or_false] at hp
      rcases hp with rfl | rfl
      · simp only [List.mem_cons, List.not_mem_nil, or_false] at hq; subst hq; simp [Dict.WF]
      · simp only [List.mem_cons, List.not_mem_nil, or_false] at hq; subst hq; simp [Dict.WF])
    ⟨_, List.mem_cons_self, by simp⟩
  exact ⟨r', h1, h3, h4, C43_only_once r' h2⟩

/-! ### C44 -/

/-- C44: `integral` of a band that the reader finds under the given name has exactly the
band's detectors as keys, each with the trapezoid integral of response over wavelength. -/
theorem C44_integral (r : Reader XF) (name : String) (B : BandRsr XF)
    (hB : rsrDictGetItem r.instrument r.rsr name = .ok B) (hwf : B.WF)
    (hc : ∀ p ∈ B, ∃ c : Curve, HasCurve p.2 "wavelength" c) :
    ∃ out, r.integral name = .ok out ∧ out.keys = B.keys ∧
      ∀ d det (c : Curve), B.get? d = some det → HasCurve det "wavelength" c →
        out.get? d = some (fin (trap (c.map Prod.fst) (c.map Prod.snd))) := by
  set g : String → Py XF := fun det => do
    let d ← B.getItem det
    let wvl ← getArr d "wavelength"
    let resp ← getArr d "response"
    NP.trapezoid resp wvl with hg
  have hval : ∀ d det (c : Curve), B.get? d = some det → HasCurve det "wavelength" c →
      g d = .ok (fin (trap (c.map Prod.fst) (c.map Prod.snd))) := by
    intro d det c hd hcur
    rw [hg]
    simp only
    rw [getItem_ok_iff.2 hd]
    simp only [bind, Except.bind]
    have ga : ∀ k xs, det.get? k = some (.arr xs) → getArr det k = .ok xs := by
      intro k xs hk
      unfold getArr
      rw [getItem_ok_iff.2 hk]; rfl
    rw [ga _ _ hcur.1, ga _ _ hcur.2]
    exact trapezoid_fin _ _ (by simp)
  have hrun : r.integral name = storeAll g B.keys [] := by
    unfold Reader.integral storeAll
    rw [hB]
    simp only [bind, Except.bind]
    congr 1
    funext out d
    rw [hg]
    simp only [bind, Except.bind]
    cases B.getItem d with
    | error e => rfl
    | ok det =>
      simp only
      cases getArr det "wavelength" with
      | error e => rfl
      | ok w =>
        simp only
        cases getArr det "response" <;> rfl
  obtain ⟨out, hout⟩ := storeAll_succeeds g B.keys (by
    intro k hk
    obtain ⟨p, hp, rfl⟩ := List.mem_map.1 hk
    obtain ⟨c, hcur⟩ := hc p hp
    exact ⟨_, hval p.1 p.2 c (get?_of_mem hwf hp) hcur⟩) []
  obtain ⟨h1, _, _, _, h5⟩ := storeAll_ok g B.keys [] out hout
  refine ⟨out, hrun.trans hout, ?_, ?_⟩
  · rw [h5 hwf (by simp [Dict.keys])]; rfl
  · intro d det c hd hcur
    have hm : d ∈ B.keys := by
      by_contra hcon; rw [get?_eq_none_iff.2 hcon] at hd; cases hd
    obtain ⟨v, hv, hget⟩ := h1 d hm
    rw [hval d det c hd hcur] at hv
    cases hv; exact hget

/-- C44: the integral is not negative for non-negative responses on an increasing grid, and at
most the length of the grid when no response exceeds one. -/
theorem C44_bounds (r : Reader XF) (name : String) (B : BandRsr XF)
    (hB : rsrDictGetItem r.instrument r.rsr name = .ok B) (hwf : B.WF)
    (hc : ∀ p ∈ B, ∃ c : Curve, HasCurve p.2 "wavelength" c ∧ Increasing (c.map Prod.fst) ∧ ∀ s ∈ c, 0 ≤ s.2 ∧ s.2 ≤ 1) :
    ∃ out, r.integral name = .ok out ∧ ∀ d det (c : Curve) (a b : ℝ), B.get? d = some det →
      HasCurve det "wavelength" c → (c.map Prod.fst).head? = some a → (c.map Prod.fst).getLast? = some b →
        ∃ x, out.get? d = some (fin x) ∧ 0 ≤ x ∧ x ≤ b - a := by
  obtain ⟨out, h1, _, h3⟩ := C44_integral r name B hB hwf (fun p hp => (hc p hp).imp fun c h => h.1)
  refine ⟨out, h1, ?_⟩
  intro d det c a b hd hcur ha hb
  refine ⟨_, h3 d det c hd hcur, ?_⟩
  obtain ⟨c', hcur', hinc, hr⟩ := hc _ (get?_eq_some_mem hd)
  have hinj : ∀ x y : List ℝ, finL x = finL y → x = y := fun x y h =>
    (List.map_injective_iff.2 (fun a b h => by simpa using h)) h
  have e1 : c'.map Prod.fst = c.map Prod.fst := by
    apply hinj
    have := hcur'.1.symm.trans hcur.1; simpa using this
  have e2 : c'.map Prod.snd = c.map Prod.snd := by
    apply hinj
    have := hcur'.2.symm.trans hcur.2; simpa using this
  rw [← e1, ← e2]
  rw [← e1] at ha hb
  refine ⟨trap_nonneg _ _ _ (Increasing.nonDec hinc) (fun i hi => (hr i hi).1), ?_⟩
  refine (trap_mono Prod.fst Prod.snd (fun _ => 1) c' (Increasing.nonDec hinc) (fun i hi => (hr i hi).2)).trans ?_
  cases c' with
  | nil => simp at ha
  | cons i l =>
    simp at ha; subst ha
    rcases List.eq_nil_or_concat l with rfl | ⟨l', j, rfl⟩
    · simp at hb; subst hb; simp [trap]
    · rw [List.concat_eq_append] at hb ⊢
      have hb' : j.1 = b := by
        simpa [List.map_append, List.getLast?_append, List.getLast?_cons] using hb
      rw [trap_const_mul_le_length, hb']

/-- C44: an unknown band name fails as the look-up does. -/
theorem C44_unknown_band (r : Reader XF) (name : String) (e : PyErr)
    (h : rsrDictGetItem r.instrument r.rsr name = .error e) : r.integral name = .error e := by
  unfold Reader.integral
  rw [h]; rfl

example : ∃ out, exReader.integral "ch1" = .ok out ∧ out.keys = ["det-1"] ∧
    ∃ x, out.get? "det-1" = some (fin x) ∧ 0 ≤ x ∧ x ≤ 0.6 - 0.5 := by
  have hb : rsrDictGetItem exReader.instrument exReader.rsr "ch1" = .ok
    [("det-1", [("wavelength", .arr (finL [0.5, 0.6])), ("response", .arr (finL [1, 0.5])),
      ("central_wavelength", .num (fin 0.55))])] := rfl
  have hcv : HasCurve [("wavelength", .arr (finL [0.5, 0.6])), ("response", .arr (finL [1, 0.5])),
      ("central_wavelength", .num (fin 0.55))] "wavelength" [(0.5, 1), (0.6, 0.5)] := ⟨rfl, rfl⟩
  have hw : Dict.WF ([("det-1", [("wavelength", .arr (finL [0.5, 0.6])), ("response", .arr (finL [1, 0.5])),
      ("central_wavelength", .num (fin 0.55))])] : BandRsr XF) := by simp [Dict.WF]
  obtain ⟨out, h1, h2, _⟩ := C44_integral exReader "ch1" _ hb hw (by
    intro p hp; simp at hp; subst hp; exact ⟨_, hcv⟩)
  obtain ⟨out', h1', h3⟩ := C44_bounds exReader "ch1" _ hb hw (by
    intro p hp; simp at hp; subst hp
    refine ⟨_, hcv, by simp [Increasing]; norm_num, ?_⟩
    intro s hs; simp at hs; rcases hs with rfl | rfl <;> norm_num)
  rw [h1] at h1'; cases h1'
  exact ⟨out, h1, h2, h3 "det-1" _ _ _ _ rfl hcv rfl rfl⟩

end Verif.Props
