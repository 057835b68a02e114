import Verif.Props.Writer
import Verif.Props.Rsr
import Verif.Lemmas.Convert
import Verif.Lemmas.LoadSpec
import Verif.Lemmas.ReaderOps
/-
Properties C108 and C109: the workbook with the original SEVIRI responses and its conversion.
-/
namespace Verif.Props
open Model Spec Lemmas PyNum XF
variable {α : Type} [PyNum α]

/-- The data of a satellite: without a detector temperature, or for one of the temperatures. -/
def ofTemp {β : Type} (s : SatResp β) (temp : Option String) : Option β :=
  match s, temp with
  | .one r, none => some r
  | .temps d, some t => d.get? t
  | _, _ => none

/-- The responses of a satellite in a channel. -/
def satResponse (c : SeviriChan α) (sat : String) (temp : Option String) : Option (List α) :=
  (c.sats.get? sat).bind fun s => ofTemp s temp

/-- The central wave of a satellite in a channel. -/
def satCentral (m : Dict String (Dict String (SatResp α))) (ch sat : String) (temp : Option String) : Option α :=
  ((m.get? ch).bind fun d => d.get? sat).bind fun s => ofTemp s temp

/-- Every column of a sheet has the same number of cells (as in any workbook). -/
def Rectangular (sheets : List (Sheet α)) : Prop := ∀ s ∈ sheets, ∀ c, (s.col c).length = (s.col 0).length

/-! ### Everything has the same length -/

/-- all arrays of a satellite have `n` elements -/
def GoodSat (n : Nat) : SatResp (List α) → Prop
  | .one r => r.length = n
  | .temps d => ∀ p ∈ d, p.2.length = n

/-- all arrays of a channel have the same length -/
def GoodChan (c : SeviriChan α) : Prop := ∀ p ∈ c.sats, GoodSat c.wave.length p.2

omit [PyNum α] in
theorem colValues_length (s : Sheet α) (h : ∀ c, (s.col c).length = (s.col 0).length) (c a b : Nat) :
    (s.colValues c a b).length = (s.colValues 0 a b).length := by
  unfold Sheet.colValues
  simp only [List.length_drop, List.length_take, h c]

omit [PyNum α] in
theorem good_four (w : List α) (a b c d : String) (x y z u : SatResp (List α)) (hx : GoodSat w.length x)
    (hy : GoodSat w.length y) (hz : GoodSat w.length z) (hu : GoodSat w.length u) :
    GoodChan ⟨w, [(a, x), (b, y), (c, z), (d, u)]⟩ := by
  intro p hp
  simp only [List.mem_cons, List.not_mem_nil, or_false] at hp
  rcases hp with rfl | rfl | rfl | rfl
  · exact hx
  · exact hy
  · exact hz
  · exact hu

omit [PyNum α] in
theorem good_temps (n : Nat) (a b : String) (x y : List α) (hx : x.length = n) (hy : y.length = n) :
    GoodSat n (.temps [(a, x), (b, y)]) := by
  intro p hp
  simp only [List.mem_cons, List.not_mem_nil, or_false] at hp
  rcases hp with rfl | rfl
  · exact hx
  · exact hy

omit [PyNum α] in
theorem seviriSheet_good (s : Sheet α) (h : ∀ c, (s.col c).length = (s.col 0).length) : GoodChan (seviriSheet s) := by
  have hc := colValues_length s h
  have ht : ∀ a b, GoodSat (s.colValues 0 13 113).length
      (.temps [("95", s.colValues a 13 113), ("85", s.colValues b 13 113)]) :=
    fun a b => good_temps _ _ _ _ _ (hc _ _ _) (hc _ _ _)
  unfold seviriSheet
  dsimp only
  split
  · exact good_four _ _ _ _ _ _ _ _ _ (hc 1 37 137) (hc 3 37 137) (hc 5 37 137) (hc 6 37 137)
  · split
    · exact good_four _ _ _ _ _ _ _ _ _ (ht 1 2) (ht 3 4) (ht 5 6) (ht 7 8)
    · exact good_four _ _ _ _ _ _ _ _ _ (hc 1 12 112) (hc 2 12 112) (hc 3 12 112) (hc 4 12 112)

omit [PyNum α] in
theorem seviriSheet_sats (s : Sheet α) :
    (seviriSheet s).sats.keys = ["Meteosat-8", "Meteosat-9", "Meteosat-10", "Meteosat-11"] := by
  unfold seviriSheet
  dsimp only
  split
  · rfl
  · split <;> rfl

/-- the sheet holds a channel -/
def IsChannel (s : Sheet α) : Prop := s.name ≠ "Info" ∧ s.name ≠ "Requirements"

omit [PyNum α] in
theorem foldSet_mem (skip : Sheet α → Prop) [DecidablePred skip] (key : Sheet α → String) (val : Sheet α → SeviriChan α)
    (sheets : List (Sheet α)) : ∀ (rest : List (Sheet α)) (d : Dict String (SeviriChan α)), d.WF →
      (∀ p ∈ d, ∃ s ∈ sheets, ¬ skip s ∧ p = (key s, val s)) → (∀ s ∈ rest, s ∈ sheets) →
      ∃ out : Dict String (SeviriChan α), rest.foldl (fun rsr s => if skip s then rsr else rsr.set (key s) (val s)) d = out ∧
      out.WF ∧ (∀ p ∈ out, ∃ s ∈ sheets, ¬ skip s ∧ p = (key s, val s)) ∧
      ∀ k, (k ∈ d.keys ∨ ∃ s ∈ rest, ¬ skip s ∧ key s = k) → k ∈ out.keys := by
  intro rest
  induction rest with
  | nil => intro d hd hm _; exact ⟨d, rfl, hd, hm, fun k h => by simpa using h⟩
  | cons a rest ih =>
    intro d hd hm hs
    simp only [List.foldl_cons]
    by_cases hi : skip a
    · rw [if_pos hi]
      obtain ⟨out, h0, h1, h2, h3⟩ := ih d hd hm (fun s h => hs s (by simp [h]))
      refine ⟨out, h0, h1, h2, ?_⟩
      rintro k (hk | ⟨s, hs', hc, e⟩)
      · exact h3 k (Or.inl hk)
      · rcases List.mem_cons.1 hs' with rfl | hs'
        · exact absurd hi hc
        · exact h3 k (Or.inr ⟨s, hs', hc, e⟩)
    · rw [if_neg hi]
      obtain ⟨out, h0, h1, h2, h3⟩ := ih (d.set (key a) (val a)) (set_wf _ _ _ hd) (by
        intro p hp
        have hg := get?_of_mem (set_wf d (key a) (val a) hd) hp
        by_cases hk : p.1 = key a
        · rw [hk, get?_set_self] at hg
          refine ⟨a, hs a (by simp), hi, ?_⟩
          rw [← hk, Option.some.inj hg]
        · rw [get?_set_ne _ _ hk] at hg
          exact hm p (get?_eq_some_mem hg)) (fun s h => hs s (by simp [h]))
      refine ⟨out, h0, h1, h2, ?_⟩
      have hself : key a ∈ (d.set (key a) (val a)).keys := by
        by_contra hn
        rw [← get?_eq_none_iff, get?_set_self] at hn
        cases hn
      rintro k (hk | ⟨s, hs', hc, e⟩)
      · refine h3 k (Or.inl ?_)
        by_contra hn
        rw [← get?_eq_none_iff] at hn
        by_cases he : k = key a
        · rw [he, get?_set_self] at hn; cases hn
        · rw [get?_set_ne _ _ he, get?_eq_none_iff] at hn
          exact hn hk
      · rcases List.mem_cons.1 hs' with rfl | hs'
        · exact h3 k (Or.inl (e ▸ hself))
        · exact h3 k (Or.inr ⟨s, hs', hc, e⟩)

omit [PyNum α] in
theorem seviriLoad_mem (sheets : List (Sheet α)) : (seviriLoad sheets).WF ∧
    (∀ p ∈ seviriLoad sheets, ∃ s ∈ sheets, IsChannel s ∧ p = (Str.strip s.name, seviriSheet s)) ∧
    ∀ s ∈ sheets, IsChannel s → Str.strip s.name ∈ (seviriLoad sheets).keys := by
  obtain ⟨out, h0, h1, h2, h3⟩ := foldSet_mem (fun s : Sheet α => s.name = "Info" ∨ s.name = "Requirements")
    (fun s => Str.strip s.name) seviriSheet sheets sheets [] (by simp [Dict.WF]) (by simp) (fun s h => h)
  have e : seviriLoad sheets = out := h0
  rw [e]
  refine ⟨h1, ?_, fun s hs hc => h3 _ (Or.inr ⟨s, hs, not_or.2 hc, rfl⟩)⟩
  intro p hp
  obtain ⟨s, hs, hc, he⟩ := h2 p hp
  exact ⟨s, hs, not_or.1 hc, he⟩

theorem seviriCentralWave_total (w r : List α) (h : r.length = w.length) : ∃ v, seviriCentralWave w r = .ok v := by
  unfold seviriCentralWave
  have hadj : ∀ (f g : α → α → α) (x y : List α), x.length = y.length → (NP.adj f x).length = (NP.adj g y).length := by
    intro f g x
    induction x with
    | nil => intro y h; cases y with
      | nil => rfl
      | cons b y => cases h
    | cons a x ih =>
      intro y h
      cases y with
      | nil => cases h
      | cons b y =>
        have hl : x.length = y.length := by simpa using h
        have hi := ih y hl
        cases x with
        | nil => cases y with
          | nil => rfl
          | cons _ _ => cases hl
        | cons a' x => cases y with
          | nil => cases hl
          | cons b' y =>
            simp only [NP.adj, List.length_cons] at hi ⊢
            rw [hi]
  have htrap : ∀ y x : List α, y.length = x.length → ∃ v, NP.trapezoid y x = .ok v := by
    intro y x hyx
    unfold NP.trapezoid NP.bcast2
    have hh : (NP.diff x).length = (NP.adj (· + ·) y).length := by
      unfold NP.diff
      exact hadj _ _ _ _ hyx.symm
    rw [if_pos hh]
    exact ⟨_, rfl⟩
  have hb : NP.bcast2 (· * ·) r w = .ok (List.zipWith (· * ·) r w) := by
    unfold NP.bcast2; rw [if_pos h]
  rw [hb]
  simp only [bind, Except.bind]
  obtain ⟨a, ha⟩ := htrap (List.zipWith (· * ·) r w) w (by simp [h])
  obtain ⟨b, hb⟩ := htrap r w h
  rw [ha, hb]
  exact ⟨_, rfl⟩

omit [PyNum α] in
theorem satMapM_ok {β : Type} (f : List α → Py β) (n : Nat) (hf : ∀ r : List α, r.length = n → ∃ v, f r = .ok v)
    (s : SatResp (List α)) (hs : GoodSat n s) :
    ∃ out, s.mapM f = .ok out ∧ ∀ t r, ofTemp s t = some r → ∃ v, f r = .ok v ∧ ofTemp out t = some v := by
  cases s with
  | one r =>
    obtain ⟨v, hv⟩ := hf r hs
    refine ⟨.one v, by unfold SatResp.mapM; simp only; rw [hv]; rfl, ?_⟩
    intro t r' h
    cases t with
    | none => cases h; exact ⟨v, hv, rfl⟩
    | some t => cases h
  | temps d =>
    obtain ⟨out, h1, _, h3⟩ := mapMVals_ok f d (fun p hp => hf _ (hs p hp))
    refine ⟨.temps out, by unfold SatResp.mapM; simp only; rw [h1]; rfl, ?_⟩
    intro t r' h
    cases t with
    | none => cases h
    | some t => exact h3 t r' h

theorem seviriCentrals_ok (rsr : Dict String (SeviriChan α)) (h : ∀ p ∈ rsr, GoodChan p.2) :
    ∃ m, seviriCentrals rsr = .ok m ∧ m.keys = rsr.keys ∧
      ∀ ch c, rsr.get? ch = some c → ∀ sat s, c.sats.get? sat = some s → ∃ d sc, m.get? ch = some d ∧ d.get? sat = some sc ∧
        s.mapM (seviriCentralWave c.wave) = .ok sc ∧
        ∀ t r, ofTemp s t = some r → ∃ v, seviriCentralWave c.wave r = .ok v ∧ ofTemp sc t = some v := by
  have hsat : ∀ c : SeviriChan α, ∀ s, GoodSat c.wave.length s → ∃ out, s.mapM (seviriCentralWave c.wave) = .ok out ∧
      ∀ t r, ofTemp s t = some r → ∃ v, seviriCentralWave c.wave r = .ok v ∧ ofTemp out t = some v :=
    fun c s hs => satMapM_ok _ c.wave.length (fun r hr => seviriCentralWave_total c.wave r hr) s hs
  have hchan : ∀ c : SeviriChan α, GoodChan c → ∃ out : Dict String (SatResp α),
      (c.sats.mapM fun q => do return (q.1, ← q.2.mapM (seviriCentralWave c.wave))) = .ok out ∧
      ∀ sat s, c.sats.get? sat = some s → ∃ u, s.mapM (seviriCentralWave c.wave) = .ok u ∧ out.get? sat = some u := by
    intro c hc
    obtain ⟨out, h1, _, h3⟩ := mapMVals_ok (fun s : SatResp (List α) => s.mapM (seviriCentralWave c.wave)) c.sats
      (fun p hp => by obtain ⟨o, ho, _⟩ := hsat c p.2 (hc p hp); exact ⟨o, ho⟩)
    exact ⟨out, h1, h3⟩
  obtain ⟨m, h1, h2, h3⟩ := mapMVals_ok (fun c : SeviriChan α =>
    c.sats.mapM fun q => do return (q.1, ← q.2.mapM (seviriCentralWave c.wave))) rsr
    (fun p hp => by obtain ⟨o, ho, _⟩ := hchan p.2 (h p hp); exact ⟨o, ho⟩)
  refine ⟨m, h1, h2, ?_⟩
  intro ch c hch sat s hs
  have hg := h (ch, c) (get?_eq_some_mem hch)
  obtain ⟨d, hd, hmd⟩ := h3 ch c hch
  obtain ⟨d', hd', hget⟩ := hchan c hg
  rw [hd] at hd'
  cases hd'
  obtain ⟨sc, hsc, hdsc⟩ := hget sat s hs
  obtain ⟨sc', hsc', hv⟩ := hsat c s (hg (sat, s) (get?_eq_some_mem hs))
  rw [hsc] at hsc'
  cases hsc'
  exact ⟨d, sc, hmd, hdsc, hsc, hv⟩

omit [PyNum α] in
theorem textOf_strs (l : List String) : List.Forall₂ TextOf (l.map PyVal.str) l := by
  induction l with
  | nil => exact .nil
  | cons a l ih => exact .cons (.str a) ih

/-! ### C108 -/

section
attribute [local irreducible] seviriLoad seviriSheet

omit [PyNum α] in
theorem good_of_rectangular (sheets : List (Sheet α)) (hr : Rectangular sheets) :
    ∀ p ∈ seviriLoad sheets, GoodChan p.2 := by
  intro p hp
  obtain ⟨s, hs, _, e⟩ := (seviriLoad_mem sheets).2.1 p hp
  rw [e]
  exact seviriSheet_good s (hr s hs)

/-- a channel by wavenumber -/
def chanWavenumber (c : SeviriChan α) : SeviriChan α :=
  ⟨(c.wave.map fun w => 1.0 / (1e-4 * w)).reverse, c.sats.mapVals (SatResp.map List.reverse)⟩

theorem good_wavenumber (c : SeviriChan α) (h : GoodChan c) : GoodChan (chanWavenumber c) := by
  intro p hp
  unfold chanWavenumber at hp ⊢
  dsimp only [Dict.mapVals] at hp
  obtain ⟨q, hq, rfl⟩ := List.mem_map.1 hp
  have hg := h q hq
  dsimp only
  simp only [List.length_reverse, List.length_map]
  cases hs : q.2 with
  | one r => rw [hs] at hg; simpa [SatResp.map, GoodSat] using hg
  | temps d =>
    rw [hs] at hg
    intro x hx
    obtain ⟨y, hy, rfl⟩ := List.mem_map.1 hx
    simpa using hg y hy

omit [PyNum α] in
theorem ofTemp_map {β γ : Type} (f : β → γ) (s : SatResp β) (t : Option String) :
    ofTemp (s.map f) t = (ofTemp s t).map f := by
  cases s with
  | one r => cases t <;> rfl
  | temps d => cases t with
    | none => rfl
    | some t => exact get?_mapVals f d t

theorem satResponse_wavenumber (c : SeviriChan α) (sat : String) (temp : Option String) :
    satResponse (chanWavenumber c) sat temp = (satResponse c sat temp).map List.reverse := by
  unfold satResponse chanWavenumber
  dsimp only
  rw [get?_mapVals]
  cases c.sats.get? sat with
  | none => rfl
  | some s => exact ofTemp_map _ _ _

/-- both objects exist -/
theorem seviri_new (sheets : List (Sheet α)) (out : String) (hr : Rectangular sheets) :
    (∃ m, Seviri.new sheets out = .ok ⟨out, seviriLoad sheets, "wavelength", "micrometer", some m, none⟩ ∧
      seviriCentrals (seviriLoad sheets) = .ok m) ∧
    ∃ m, Seviri.new sheets out "wavenumber" =
        .ok ⟨out, (seviriLoad sheets).mapVals chanWavenumber, "wavenumber", "cm-1", none, some m⟩ ∧
      seviriCentrals ((seviriLoad sheets).mapVals chanWavenumber) = .ok m := by
  have hg := good_of_rectangular sheets hr
  constructor
  · obtain ⟨m, hm, _⟩ := seviriCentrals_ok _ hg
    refine ⟨m, ?_, hm⟩
    unfold Seviri.new
    rw [if_pos rfl, hm]
    rfl
  · obtain ⟨m, hm, _⟩ := seviriCentrals_ok ((seviriLoad sheets).mapVals chanWavenumber) (by
      intro p hp
      obtain ⟨q, hq, rfl⟩ := List.mem_map.1 hp
      exact good_wavenumber _ (hg q hq))
    refine ⟨m, ?_, hm⟩
    unfold Seviri.new
    rw [if_neg (by decide), if_pos rfl]
    dsimp only
    have e : seviriWavenumber (seviriLoad sheets) = (seviriLoad sheets).mapVals chanWavenumber := rfl
    rw [e, hm]
    rfl

/-- C108: for every workbook the data by wavenumber hold the same channels, satellites and detector
temperatures as those by wavelength, with the same samples: each response at the wavenumber (cm-1)
of its wavelength (micron), in reversed order. -/
theorem C108_same_samples (sheets : List (Sheet α)) (out : String) (hr : Rectangular sheets) :
    ∃ L N, Seviri.new sheets out = .ok L ∧ Seviri.new sheets out "wavenumber" = .ok N ∧
      L.unit = "micrometer" ∧ N.unit = "cm-1" ∧ N.rsr.keys = L.rsr.keys ∧
      ∀ ch c, L.rsr.get? ch = some c → ∃ c', N.rsr.get? ch = some c' ∧ ∀ sat temp,
        (satResponse c sat temp = none → satResponse c' sat temp = none) ∧
        ∀ r, satResponse c sat temp = some r → ∃ r', satResponse c' sat temp = some r' ∧
          c.wave.length = r.length ∧ c'.wave.length = r'.length ∧
          c'.wave.zip r' = ((c.wave.zip r).map fun p => (1.0 / (1e-4 * p.1), p.2)).reverse := by
  obtain ⟨⟨m1, h1, _⟩, ⟨m2, h2, _⟩⟩ := seviri_new sheets out hr
  refine ⟨_, _, h1, h2, rfl, rfl, keys_mapVals _ _, ?_⟩
  intro ch c hc
  refine ⟨chanWavenumber c, ?_, ?_⟩
  · show ((seviriLoad sheets).mapVals chanWavenumber).get? ch = _
    rw [get?_mapVals]
    have hc' : (seviriLoad sheets).get? ch = some c := hc
    rw [hc']
    rfl
  · intro sat temp
    rw [satResponse_wavenumber]
    refine ⟨fun h => by rw [h]; rfl, ?_⟩
    intro r hsr
    have hlen : c.wave.length = r.length := by
      have hg := good_of_rectangular sheets hr (ch, c) (get?_eq_some_mem hc)
      unfold satResponse at hsr
      cases hs : c.sats.get? sat with
      | none => rw [hs] at hsr; cases hsr
      | some s =>
        rw [hs] at hsr
        have hgs := hg (sat, s) (get?_eq_some_mem hs)
        have hsr' : ofTemp s temp = some r := hsr
        cases s with
        | one q =>
          cases temp with
          | none => cases hsr'; exact hgs.symm
          | some t => cases hsr'
        | temps d =>
          cases temp with
          | none => cases hsr'
          | some t => exact (hgs (t, r) (get?_eq_some_mem hsr')).symm
    refine ⟨r.reverse, by rw [hsr]; rfl, hlen, by simp [chanWavenumber, hlen], ?_⟩
    unfold chanWavenumber
    dsimp only
    have := List.reverse_zipWith (f := fun (a b : α) => (1.0 / (1e-4 * a), b)) hlen
    rw [List.map_zip_eq_zipWith]
    have this' : (List.zipWith (Function.curry fun p : α × α => (1.0 / (1e-4 * p.1), p.2)) c.wave r).reverse = _ := this
    rw [this', ← List.map_reverse, ← List.map_id r.reverse, List.zip_map, List.map_zip_eq_zipWith]
    simp only [List.map_id]
    rfl

/-- C108: positive wavelengths in ascending order give positive wavenumbers in ascending order, the
products of a wavelength (micron) with its wavenumber (cm-1) being 10000. -/
theorem C108_ascending (sheets : List (Sheet XF)) (out : String) (hr : Rectangular sheets) (L N : Seviri XF)
    (hL : Seviri.new sheets out = .ok L) (hN : Seviri.new sheets out "wavenumber" = .ok N) (ch : String)
    (c : SeviriChan XF) (hc : L.rsr.get? ch = some c) (ws : List ℝ) (hw : c.wave = finL ws) (hpos : ∀ w ∈ ws, 0 < w)
    (hinc : ws.Pairwise (· < ·)) :
    ∃ c' ns, N.rsr.get? ch = some c' ∧ c'.wave = finL ns ∧ ns.Pairwise (· < ·) ∧
      ns.reverse.length = ws.length ∧ ∀ p ∈ ns.reverse.zip ws, 0 < p.1 ∧ p.1 * p.2 = 10000 := by
  obtain ⟨⟨m1, h1, _⟩, ⟨m2, h2, _⟩⟩ := seviri_new sheets out hr
  rw [h1] at hL
  rw [h2] at hN
  have hL := Except.ok.inj hL
  have hN := Except.ok.inj hN
  subst hL hN
  have hc' : (seviriLoad sheets).get? ch = some c := hc
  have e : ((finL ws).map fun w => 1.0 / (1e-4 * w)) = finL (ws.map (10000 / ·)) := by
    clear hw hinc
    induction ws with
    | nil => rfl
    | cons a l ih =>
      have ha := hpos a (by simp)
      simp only [finL_cons, List.map_cons]
      rw [ih (fun n hn => hpos n (by simp [hn]))]
      congr 1
      rw [ofSci_eq, ofSci_eq, fin_mul, fin_div _ (by positivity), fin_inj]
      norm_num
      field_simp
  refine ⟨chanWavenumber c, (ws.map (10000 / ·)).reverse, ?_, ?_, ?_, by simp, ?_⟩
  · show ((seviriLoad sheets).mapVals chanWavenumber).get? ch = _
    rw [get?_mapVals, hc']
    rfl
  · unfold chanWavenumber
    dsimp only
    rw [hw, e, finL_reverse]
  · rw [List.pairwise_reverse, List.pairwise_map]
    refine hinc.imp_of_mem ?_
    intro a b ha hb hab
    exact div_lt_div_of_pos_left (by norm_num) (hpos a ha) hab
  · intro p hp
    rw [List.reverse_reverse] at hp
    have : ∀ l : List ℝ, (∀ w ∈ l, 0 < w) → ∀ p ∈ (l.map (10000 / ·)).zip l, 0 < p.1 ∧ p.1 * p.2 = 10000 := by
      intro l
      induction l with
      | nil => intro _ p hp; cases hp
      | cons a l ih =>
        intro hl p hp
        rcases List.mem_cons.1 hp with rfl | hp
        · have ha := hl a (by simp)
          exact ⟨by positivity, by field_simp⟩
        · exact ih (fun w hw => hl w (by simp [hw])) p hp
    exact this ws hpos p hp

/-- C108: the central wave of every channel, satellite and detector temperature is the mean of the
wave weighted by its own response; it lies inside the channel. -/
theorem C108_centrals (sheets : List (Sheet XF)) (out : String) (hr : Rectangular sheets) (space : String) (S : Seviri XF)
    (hS : Seviri.new sheets out space = .ok S) (ch sat : String) (temp : Option String) (c : SeviriChan XF)
    (r : List XF) (hc : S.rsr.get? ch = some c) (hsr : satResponse c sat temp = some r)
    (w q : List ℝ) (hw : c.wave = finL w) (hq : r = finL q) (hlen : w.length = q.length) (hinc : Increasing w)
    (hnn : ∀ x ∈ q, 0 ≤ x) (hint : trap w q ≠ 0) (a b : ℝ) (ha : w.head? = some a) (hb : w.getLast? = some b) :
    ∃ m v, (if space = "wavelength" then S.central_wavelength = some m ∧ S.central_wavenumber = none
        else S.central_wavenumber = some m ∧ S.central_wavelength = none) ∧
      satCentral m ch sat temp = some (fin v) ∧ a ≤ v ∧ v ≤ b ∧ v * trap w q = trap w (List.zipWith (· * ·) w q) := by
  obtain ⟨v, hv, h1, h2, h3⟩ := C22_central_wave_inside_unweighted w q hlen hinc hnn hint a b ha hb
  have hcw : seviriCentralWave (finL w) (finL q) = .ok (fin v) := by
    rw [getCentralWave_default hlen] at hv
    rw [← hv]
    unfold seviriCentralWave
    rw [bcast2_fin_mul _ _ hlen.symm]
    simp only [bind, Except.bind]
    rw [trapezoid_fin _ _ (by simp [hlen])]
    simp only
    rw [trapezoid_fin _ _ (by simp [hlen])]
    rw [List.zipWith_comm_of_comm (f := ((· * ·) : ℝ → ℝ → ℝ)) (fun a b => mul_comm a b)]
    rfl
  have main : ∀ rsr : Dict String (SeviriChan XF), (∀ p ∈ rsr, GoodChan p.2) → rsr.get? ch = some c →
      ∀ m, seviriCentrals rsr = .ok m → satCentral m ch sat temp = some (fin v) := by
    intro rsr hg hch m hm
    obtain ⟨m', hm', _, h⟩ := seviriCentrals_ok rsr hg
    rw [hm] at hm'
    cases hm'
    unfold satResponse at hsr
    cases hs : c.sats.get? sat with
    | none => rw [hs] at hsr; cases hsr
    | some s =>
      rw [hs] at hsr
      obtain ⟨d, sc, g1, g2, _, g4⟩ := h ch c hch sat s hs
      obtain ⟨u, hu, g5⟩ := g4 temp r hsr
      rw [hw, hq, hcw] at hu
      cases hu
      unfold satCentral
      rw [g1]
      simp only [Option.bind_some]
      rw [g2]
      exact g5
  have hg := good_of_rectangular sheets hr
  obtain ⟨⟨m1, e1, g1⟩, ⟨m2, e2, g2⟩⟩ := seviri_new sheets out hr
  by_cases hs1 : space = "wavelength"
  · subst hs1
    rw [show Seviri.new sheets out "wavelength" = Seviri.new sheets out from rfl, e1] at hS
    have hS := Except.ok.inj hS
    subst hS
    exact ⟨m1, v, by rw [if_pos rfl]; exact ⟨rfl, rfl⟩, main _ hg hc m1 g1, h1, h2, h3⟩
  · by_cases hs2 : space = "wavenumber"
    · subst hs2
      rw [e2] at hS
      have hS := Except.ok.inj hS
      subst hS
      refine ⟨m2, v, by rw [if_neg hs1]; exact ⟨rfl, rfl⟩, main _ ?_ hc m2 g2, h1, h2, h3⟩
      intro p hp
      obtain ⟨q, hq, rfl⟩ := List.mem_map.1 hp
      exact good_wavenumber _ (hg q hq)
    · exfalso
      unfold Seviri.new at hS
      rw [if_neg hs1, if_neg hs2] at hS
      cases hS

/-- C108: any other wave space is refused. -/
theorem C108_other_space (sheets : List (Sheet α)) (out space : String) (h1 : space ≠ "wavelength")
    (h2 : space ≠ "wavenumber") : Seviri.new sheets out space = .error .attributeError := by
  unfold Seviri.new
  rw [if_neg h1, if_neg h2]

end

/-! ### C109 -/

/-- The sheet is of an infrared channel: its name begins with IR. -/
def IsInfrared (s : Sheet α) : Prop := ∃ rest, (Str.strip s.name).toList = 'I' :: 'R' :: rest

/-- The column with the responses of a satellite at 95 K in the sheet of an infrared channel. -/
def irColumn (platform : String) : Option Nat :=
  if platform = "Meteosat-8" then some 1
  else if platform = "Meteosat-9" then some 3
  else if platform = "Meteosat-10" then some 5
  else if platform = "Meteosat-11" then some 7
  else none

/-- The 100 cells from row 14 on of a column. -/
def irCells (s : Sheet α) (c : Nat) : List α := ((s.col c).drop 13).take 100

omit [PyNum α] in
theorem irCells_eq (s : Sheet α) (c : Nat) : s.colValues c 13 113 = irCells s c := by
  unfold Sheet.colValues irCells
  rw [List.drop_take]

omit [PyNum α] in
theorem infrared_iff (s : Sheet α) : Str.startsWith (Str.strip s.name) "IR" = true ↔ IsInfrared s := by
  unfold Str.startsWith IsInfrared
  rw [List.isPrefixOf_iff_prefix]
  constructor
  · rintro ⟨rest, h⟩; exact ⟨rest, h.symm⟩
  · rintro ⟨rest, h⟩; exact ⟨rest, h.symm⟩

omit [PyNum α] in
theorem infrared_not_hrv (s : Sheet α) (h : IsInfrared s) : ¬ Str.startsWith (Str.strip s.name) "HRV" = true := by
  obtain ⟨rest, h⟩ := h
  unfold Str.startsWith
  rw [List.isPrefixOf_iff_prefix, h]
  rintro ⟨t, ht⟩
  cases ht

omit [PyNum α] in
theorem sheet_infrared (s : Sheet α) (h : IsInfrared s) (platform : String) (k : Nat) (hk : irColumn platform = some k) :
    (seviriSheet s).wave = irCells s 0 ∧
    ∃ d, (seviriSheet s).sats.get? platform = some (.temps d) ∧ d.get? "95" = some (irCells s k) := by
  have e : seviriSheet s = ⟨s.colValues 0 13 113,
     [("Meteosat-8", .temps [("95", s.colValues 1 13 113), ("85", s.colValues 2 13 113)]),
      ("Meteosat-9", .temps [("95", s.colValues 3 13 113), ("85", s.colValues 4 13 113)]),
      ("Meteosat-10", .temps [("95", s.colValues 5 13 113), ("85", s.colValues 6 13 113)]),
      ("Meteosat-11", .temps [("95", s.colValues 7 13 113), ("85", s.colValues 8 13 113)])]⟩ := by
    unfold seviriSheet
    dsimp only
    rw [if_neg (infrared_not_hrv s h), if_pos ((infrared_iff s).2 h)]
  rw [e]
  dsimp only
  refine ⟨irCells_eq s 0, ?_⟩
  simp only [← irCells_eq]
  unfold irColumn at hk
  split at hk
  · next hp => subst hp; cases hk; exact ⟨_, rfl, rfl⟩
  · split at hk
    · next hp => subst hp; cases hk; exact ⟨_, rfl, rfl⟩
    · split at hk
      · next hp => subst hp; cases hk; exact ⟨_, rfl, rfl⟩
      · split at hk
        · next hp => subst hp; cases hk; exact ⟨_, rfl, rfl⟩
        · cases hk

omit [PyNum α] in
theorem sheet_other (s : Sheet α) (h : ¬ IsInfrared s) (platform : String) (k : Nat) (hk : irColumn platform = some k) :
    ∃ r, (seviriSheet s).sats.get? platform = some (.one r) := by
  have hp : platform = "Meteosat-8" ∨ platform = "Meteosat-9" ∨ platform = "Meteosat-10" ∨ platform = "Meteosat-11" := by
    unfold irColumn at hk
    split at hk
    · next hp => exact Or.inl hp
    · split at hk
      · next hp => exact Or.inr (Or.inl hp)
      · split at hk
        · next hp => exact Or.inr (Or.inr (Or.inl hp))
        · split at hk
          · next hp => exact Or.inr (Or.inr (Or.inr hp))
          · cases hk
  unfold seviriSheet
  dsimp only
  split
  · rcases hp with rfl | rfl | rfl | rfl <;> exact ⟨_, rfl⟩
  · rw [if_neg (fun hh => h ((infrared_iff s).1 hh))]
    rcases hp with rfl | rfl | rfl | rfl <;> exact ⟨_, rfl⟩

section
attribute [local irreducible] seviriLoad seviriSheet

/-- the group of an infrared channel -/
theorem seviriBand_infrared (f32 : α → α) (sheets : List (Sheet α)) (hr : Rectangular sheets)
    (m : Dict String (Dict String (SatResp α))) (hm : seviriCentrals (seviriLoad sheets) = .ok m) (platform : String) (k : Nat)
    (hk : irColumn platform = some k) (s : Sheet α) (hi : IsInfrared s)
    (hget : (seviriLoad sheets).get? (Str.strip s.name) = some (seviriSheet s)) :
    ∃ v, seviriCentralWave (irCells s 0) (irCells s k) = .ok v ∧
      seviriBand f32 m platform (Str.strip s.name) (seviriSheet s) = .ok
        { attrs := [("central_wavelength", .num v "")],
          datasets := [wavelengthSet f32 (irCells s 0), ("response", stored f32 (irCells s k) [])], dets := [] } := by
  obtain ⟨hw, d, hd, h95⟩ := sheet_infrared s hi platform k hk
  obtain ⟨m', hm', _, h⟩ := seviriCentrals_ok _ (good_of_rectangular sheets hr)
  rw [hm] at hm'
  cases hm'
  obtain ⟨dd, sc, g1, g2, _, g4⟩ := h _ _ hget platform _ hd
  obtain ⟨v, hv, hsc⟩ := g4 (some "95") _ h95
  rw [hw] at hv
  refine ⟨v, hv, ?_⟩
  have hcen : sc.central = .ok v := by
    cases sc with
    | one x => cases hsc
    | temps e => exact getItem_ok_iff.2 hsc
  have hresp : (SatResp.temps d).responses = .ok (irCells s k) := by
    unfold SatResp.responses SatResp.at95 orValueError
    simp only
    rw [getItem_ok_iff.2 h95]
  unfold seviriBand
  rw [getItem_ok_iff.2 g1]
  simp only [bind, Except.bind]
  rw [getItem_ok_iff.2 g2]
  simp only
  rw [hcen]
  simp only
  rw [getItem_ok_iff.2 hd]
  simp only
  rw [hresp, hw]
  rfl

/-- the group of any other channel cannot be written -/
theorem seviriBand_other (f32 : α → α) (sheets : List (Sheet α)) (hr : Rectangular sheets)
    (m : Dict String (Dict String (SatResp α))) (hm : seviriCentrals (seviriLoad sheets) = .ok m) (platform : String) (k : Nat)
    (hk : irColumn platform = some k) (s : Sheet α) (hi : ¬ IsInfrared s)
    (hget : (seviriLoad sheets).get? (Str.strip s.name) = some (seviriSheet s)) :
    seviriBand f32 m platform (Str.strip s.name) (seviriSheet s) = .error .indexError := by
  obtain ⟨r, hd⟩ := sheet_other s hi platform k hk
  obtain ⟨m', hm', _, h⟩ := seviriCentrals_ok _ (good_of_rectangular sheets hr)
  rw [hm] at hm'
  cases hm'
  obtain ⟨dd, sc, g1, g2, _, g4⟩ := h _ _ hget platform _ hd
  obtain ⟨v, _, hsc⟩ := g4 none r rfl
  have hcen : sc.central = .ok v := by
    cases sc with
    | one x => cases hsc; rfl
    | temps e => cases hsc
  have hresp : (SatResp.one r).responses = .error .indexError := rfl
  unfold seviriBand
  rw [getItem_ok_iff.2 g1]
  simp only [bind, Except.bind]
  rw [getItem_ok_iff.2 g2]
  simp only
  rw [hcen]
  simp only
  rw [getItem_ok_iff.2 hd]
  simp only
  rw [hresp]

omit [PyNum α] in
theorem mapM_error {β γ : Type} (f : β → Py γ) (e : PyErr) (l : List β) (h : ∀ x ∈ l, (∃ y, f x = .ok y) ∨ f x = .error e)
    (hx : ∃ x ∈ l, f x = .error e) : l.mapM f = .error e := by
  induction l with
  | nil => obtain ⟨x, hx, _⟩ := hx; cases hx
  | cons a l ih =>
    rw [List.mapM_cons]
    rcases h a (by simp) with ⟨y, hy⟩ | hy
    · rw [hy]
      obtain ⟨x, hx, he⟩ := hx
      rcases List.mem_cons.1 hx with rfl | hx
      · rw [hy] at he; cases he
      · rw [show l.mapM f = .error e from ih (fun x hx => h x (by simp [hx])) ⟨x, hx, he⟩]
        rfl
    · rw [hy]; rfl

/-- C109 is false of the code: whatever the workbook, if it has a sheet of a channel that is not an
infrared one (such as VIS0.6 or HRV), no file can be generated from it for any of the satellites:
the attempt to index the responses by "95" raises an IndexError, which is not caught. -/
theorem C109_visible_channels_fail (f32 : α → α) (sheets : List (Sheet α)) (out : String) (hr : Rectangular sheets)
    (platform : String) (k : Nat) (hk : irColumn platform = some k) (hs : ∃ s ∈ sheets, IsChannel s ∧ ¬ IsInfrared s) :
    ∃ L, Seviri.new sheets out = .ok L ∧ generateSeviriFile f32 L platform = .error .indexError := by
  obtain ⟨⟨m, e1, hm⟩, _⟩ := seviri_new sheets out hr
  refine ⟨_, e1, ?_⟩
  obtain ⟨hwf, hmem, hkeys⟩ := seviriLoad_mem sheets
  unfold generateSeviriFile
  dsimp only
  rw [mapM_error _ .indexError (seviriLoad sheets)]
  · rfl
  · intro p hp
    obtain ⟨s, hs, _, e⟩ := hmem p hp
    have hget : (seviriLoad sheets).get? (Str.strip s.name) = some (seviriSheet s) :=
      get?_of_mem hwf (by rw [← e]; exact hp)
    rw [e]
    by_cases hi : IsInfrared s
    · obtain ⟨v, _, hb⟩ := seviriBand_infrared f32 sheets hr m hm platform k hk s hi hget
      left
      exact ⟨_, by rw [hb]; rfl⟩
    · right
      rw [seviriBand_other f32 sheets hr m hm platform k hk s hi hget]
      rfl
  · obtain ⟨s, hs, hc, hi⟩ := hs
    have hk' := hkeys s hs hc
    have : ∃ c, (seviriLoad sheets).get? (Str.strip s.name) = some c := by
      cases hg : (seviriLoad sheets).get? (Str.strip s.name) with
      | none => rw [get?_eq_none_iff] at hg; exact absurd hk' hg
      | some c => exact ⟨c, rfl⟩
    obtain ⟨c, hg⟩ := this
    have hpm := get?_eq_some_mem hg
    obtain ⟨s', _, _, e⟩ := hmem _ hpm
    have hname := (Prod.mk.inj e).1
    have hval := (Prod.mk.inj e).2
    have hi' : ¬ IsInfrared s' := by
      intro h
      apply hi
      unfold IsInfrared at h ⊢
      rw [hname]
      exact h
    refine ⟨_, hpm, ?_⟩
    rw [hname, hval] at hg ⊢
    rw [seviriBand_other f32 sheets hr m hm platform k hk s' hi' hg]
    rfl

/-- No two channels have the same name. -/
def DistinctNames (sheets : List (Sheet α)) : Prop :=
  ∀ s ∈ sheets, ∀ t ∈ sheets, IsChannel s → IsChannel t → Str.strip s.name = Str.strip t.name → s = t

omit [PyNum α] in
theorem load_get (sheets : List (Sheet α)) (hd : DistinctNames sheets) (s : Sheet α) (hs : s ∈ sheets) (hc : IsChannel s) :
    (seviriLoad sheets).get? (Str.strip s.name) = some (seviriSheet s) := by
  obtain ⟨hwf, hmem, hkeys⟩ := seviriLoad_mem sheets
  have hk' := hkeys s hs hc
  cases hg : (seviriLoad sheets).get? (Str.strip s.name) with
  | none => rw [get?_eq_none_iff] at hg; exact absurd hk' hg
  | some c =>
    obtain ⟨s', hs', hc', e⟩ := hmem _ (get?_eq_some_mem hg)
    have hname := (Prod.mk.inj e).1
    have hval := (Prod.mk.inj e).2
    rw [hval, hd s hs s' hs' hc hc' hname]

/-- C109, the part that holds: from a workbook with infrared channels only, the file
`rsr_seviri_<platform>.h5` is generated for each of the satellites, and reading it back gives every
channel the wavelengths of its sheet and the responses of that satellite at 95 K (both in 32 bit),
with the central wavelength of these.  What is missing: the channels HRV and VIS, and WV. -/
theorem C109_infrared_partial (f32 : α → α) (sheets : List (Sheet α)) (out : String) (hr : Rectangular sheets)
    (hd : DistinctNames sheets) (platform : String) (k : Nat) (hk : irColumn platform = some k)
    (hs : ∀ s ∈ sheets, IsChannel s → IsInfrared s) :
    ∃ L file info, Seviri.new sheets out = .ok L ∧
      generateSeviriFile f32 L platform = .ok ((out, "rsr_seviri_" ++ platform ++ ".h5"), file) ∧
      loadRsrInfo file = .ok info ∧ info.rsr.keys = info.band_names ∧
      (∀ b, b ∈ info.band_names ↔ ∃ s ∈ sheets, IsChannel s ∧ b = Str.strip s.name) ∧
      ∀ s ∈ sheets, IsChannel s → ∃ v B, seviriCentralWave (irCells s 0) (irCells s k) = .ok v ∧
        info.rsr.get? (Str.strip s.name) = some B ∧ B.keys = ["det-1"] ∧
        B.get? "det-1" = some (detEntry ((irCells s k).map f32)
          (((irCells s 0).map f32).map fun x => x * 1e-6 * 1e6) v) := by
  obtain ⟨⟨m, e1, hm⟩, _⟩ := seviri_new sheets out hr
  obtain ⟨hwf, hmem, hkeys⟩ := seviriLoad_mem sheets
  have hband : ∀ s ∈ sheets, IsChannel s → ∃ v, seviriCentralWave (irCells s 0) (irCells s k) = .ok v ∧
      seviriBand f32 m platform (Str.strip s.name) (seviriSheet s) = .ok
        { attrs := [("central_wavelength", .num v "")],
          datasets := [wavelengthSet f32 (irCells s 0), ("response", stored f32 (irCells s k) [])], dets := [] } :=
    fun s h hc => seviriBand_infrared f32 sheets hr m hm platform k hk s (hs s h hc) (load_get sheets hd s h hc)
  have hmap : ∃ bands : Dict String (H5Band α), ((seviriLoad sheets).mapM fun p =>
      (do return (p.1, ← seviriBand f32 m platform p.1 p.2) : Py (String × H5Band α))) = .ok bands ∧
      bands.keys = (seviriLoad sheets).keys ∧
      ∀ p ∈ seviriLoad sheets, ∃ B, seviriBand f32 m platform p.1 p.2 = .ok B ∧ (p.1, B) ∈ bands := by
    have : ∀ l : List (String × SeviriChan α), (∀ p ∈ l, ∃ B, seviriBand f32 m platform p.1 p.2 = .ok B) →
        ∃ bands : List (String × H5Band α), (l.mapM fun p =>
          (do return (p.1, ← seviriBand f32 m platform p.1 p.2) : Py (String × H5Band α))) = .ok bands ∧
        bands.map Prod.fst = l.map Prod.fst ∧
        ∀ p ∈ l, ∃ B, seviriBand f32 m platform p.1 p.2 = .ok B ∧ (p.1, B) ∈ bands := by
      intro l
      induction l with
      | nil => intro _; exact ⟨[], rfl, rfl, fun p hp => by cases hp⟩
      | cons a l ih =>
        intro h
        obtain ⟨B, hB⟩ := h a (by simp)
        obtain ⟨bands, g1, g2, g3⟩ := ih (fun p hp => h p (by simp [hp]))
        refine ⟨(a.1, B) :: bands, ?_, by simp [g2], ?_⟩
        · rw [List.mapM_cons, hB, g1]; rfl
        · intro p hp
          rcases List.mem_cons.1 hp with rfl | hp
          · exact ⟨B, hB, by simp⟩
          · obtain ⟨B', h1, h2⟩ := g3 p hp
            exact ⟨B', h1, by simp [h2]⟩
    refine this (seviriLoad sheets) ?_
    intro p hp
    obtain ⟨s, h, hc, e⟩ := hmem p hp
    obtain ⟨v, _, hb⟩ := hband s h hc
    rw [e]
    exact ⟨_, hb⟩
  obtain ⟨bands, b1, b2, b3⟩ := hmap
  have hbwf : bands.WF := by
    unfold Dict.WF
    have : bands.map Prod.fst = (seviriLoad sheets).map Prod.fst := b2
    rw [this]
    exact hwf
  have hgen : generateSeviriFile f32 ⟨out, seviriLoad sheets, "wavelength", "micrometer", some m, none⟩ platform =
      .ok ((out, "rsr_seviri_" ++ platform ++ ".h5"),
        { attrs := [("description", .text (.str "Relative Spectral Responses for SEVIRI")
                  "Relative Spectral Responses for SEVIRI"),
                ("platform_name", .text (.str platform) platform),
                ("band_names", .text (.array .object_ ((seviriLoad sheets).keys.map .str)) "")],
          bands }) := by
    unfold generateSeviriFile
    dsimp only
    rw [b1]
    rfl
  generalize hfile : (H5File.mk _ _ : H5File α) = file at hgen
  have hnum : ∀ b, ∃ s : Option (Sheet α), b ∈ (seviriLoad sheets).keys → ∃ t, s = some t ∧ t ∈ sheets ∧ IsChannel t ∧
      b = Str.strip t.name := by
    intro b
    by_cases hb : b ∈ (seviriLoad sheets).keys
    · obtain ⟨p, hp, rfl⟩ := List.mem_map.1 hb
      obtain ⟨s, h, hc, e⟩ := hmem p hp
      exact ⟨some s, fun _ => ⟨s, rfl, h, hc, by rw [e]⟩⟩
    · exact ⟨none, fun h => absurd h hb⟩
  choose sh hsh using hnum
  have hcen : ∀ s : Sheet α, ∃ v, s ∈ sheets → IsChannel s → seviriCentralWave (irCells s 0) (irCells s k) = .ok v ∧
      seviriBand f32 m platform (Str.strip s.name) (seviriSheet s) = .ok
        { attrs := [("central_wavelength", .num v "")],
          datasets := [wavelengthSet f32 (irCells s 0), ("response", stored f32 (irCells s k) [])], dets := [] } := by
    intro s
    by_cases h : s ∈ sheets ∧ IsChannel s
    · obtain ⟨v, hv⟩ := hband s h.1 h.2
      exact ⟨v, fun _ _ => hv⟩
    · exact ⟨0, fun a b => absurd ⟨a, b⟩ h⟩
  choose V hV using hcen
  have hfb : ∀ s ∈ sheets, IsChannel s → file.bands.get? (Str.strip s.name) = some
      { attrs := [("central_wavelength", .num (V s) "")],
        datasets := [wavelengthSet f32 (irCells s 0), ("response", stored f32 (irCells s k) [])], dets := [] } := by
    intro s h hc
    have hg := load_get sheets hd s h hc
    obtain ⟨B, hB, hmB⟩ := b3 _ (get?_eq_some_mem hg)
    rw [(hV s h hc).2] at hB
    cases hB
    rw [← hfile]
    exact get?_of_mem hbwf hmB
  have hdn : detName 0 = "det-1" := rfl
  obtain ⟨info, g1, g2, _, g4, g5⟩ := load_of_items file (seviriLoad sheets).keys hwf
    ⟨.object_, (seviriLoad sheets).keys.map .str, "", by rw [← hfile]; rfl, textOf_strs _⟩
    "Relative Spectral Responses for SEVIRI" _ (by rw [← hfile]; rfl) ⟨_, _, rfl, .str _⟩ platform platform
    (by rw [← hfile]; rfl) (by rw [← hfile]; rfl) (fun _ => 1)
    (fun b _ => ((sh b).elim [] fun s => irCells s 0).map f32 |>.map fun x => x * 1e-6 * 1e6)
    (fun b _ => ((sh b).elim [] fun s => irCells s k).map f32) (fun b _ => (sh b).elim 0 V) (by
      intro b hb
      obtain ⟨s, _, h, hc, e⟩ := hsh b hb
      right
      refine ⟨?_, rfl⟩
      intro B hB
      rw [e, hfb s h hc] at hB
      cases hB
      rfl) (by
      intro b hb j hj
      obtain ⟨s, es, h, hc, e⟩ := hsh b hb
      have hB := hfb s h hc
      rw [← e] at hB
      rw [es]
      dsimp only [Option.elim]
      refine ⟨⟨_, hB, Or.inr ⟨?_, rfl⟩⟩, ⟨_, _, 1e-6, ⟨_, hB, Or.inr ⟨?_, rfl⟩⟩, Or.inr ⟨_, rfl⟩, rfl⟩,
        ⟨_, ⟨_, hB, Or.inr ⟨?_, rfl⟩⟩, Or.inr ⟨_, rfl⟩⟩⟩
      all_goals intro D hD; cases hD)
  refine ⟨_, file, info, e1, hgen, g1, by rw [g4, g2], ?_, ?_⟩
  · intro b
    rw [g2]
    constructor
    · intro hb
      obtain ⟨s, _, h, hc, e⟩ := hsh b hb
      exact ⟨s, h, hc, e⟩
    · rintro ⟨s, h, hc, rfl⟩
      exact hkeys s h hc
  · intro s h hc
    obtain ⟨B, k1, k2, k3⟩ := g5 _ (hkeys s h hc)
    obtain ⟨t, et, ht, hct, e⟩ := hsh _ (hkeys s h hc)
    have := hd s h t ht hc hct e
    subst this
    refine ⟨V s, B, (hV s h hc).1, k1, k2, ?_⟩
    have := k3 0 (by decide)
    rw [et] at this
    exact this

/-- C109: an object by wavenumber cannot be written (unless it has no channel): TypeError. -/
theorem C109_wavenumber_fails (f32 : α → α) (sheets : List (Sheet α)) (out platform : String) (hr : Rectangular sheets)
    (hs : ∃ s ∈ sheets, IsChannel s) :
    ∃ N, Seviri.new sheets out "wavenumber" = .ok N ∧ generateSeviriFile f32 N platform = .error .typeError := by
  obtain ⟨_, ⟨m, e1, _⟩⟩ := seviri_new sheets out hr
  refine ⟨_, e1, ?_⟩
  obtain ⟨s, h, hc⟩ := hs
  have hk := (seviriLoad_mem sheets).2.2 s h hc
  unfold generateSeviriFile
  dsimp only
  rw [mapM_error _ .typeError]
  · rfl
  · intro p _
    right; rfl
  · rw [← keys_mapVals chanWavenumber] at hk
    obtain ⟨p, hp, _⟩ := List.mem_map.1 hk
    exact ⟨p, hp, rfl⟩

end

/-- a sheet with three samples below 13 rows of text -/
noncomputable def exIrSheet : Sheet XF where
  name := "IR_108 "
  col := fun c => List.replicate 13 (fin 0) ++ (if c = 0 then finL [10, 11, 12] else finL [0, c, 0])

/-- a workbook with it -/
noncomputable def exWorkbook : List (Sheet XF) := [⟨"Info", fun _ => []⟩, exIrSheet]

theorem exWorkbook_rect : Rectangular exWorkbook := by
  intro s hs c
  simp only [exWorkbook, List.mem_cons, List.not_mem_nil, or_false] at hs
  rcases hs with rfl | rfl
  · rfl
  · unfold exIrSheet
    dsimp only
    split <;> simp

theorem exIrSheet_channel : IsChannel exIrSheet := by
  constructor <;> (unfold exIrSheet; decide)

theorem exIrSheet_ir : IsInfrared exIrSheet := ⟨['_', '1', '0', '8'], by unfold exIrSheet; decide +kernel⟩

theorem exIrSheet_cells (c : Nat) : irCells exIrSheet c = if c = 0 then finL [10, 11, 12] else finL [0, c, 0] := by
  unfold irCells exIrSheet
  dsimp only
  rw [List.drop_append_of_le_length (by simp)]
  split <;> simp

example : ∃ L N, Seviri.new exWorkbook "/out" = .ok L ∧ Seviri.new exWorkbook "/out" "wavenumber" = .ok N ∧
    N.rsr.keys = L.rsr.keys ∧ Seviri.new exWorkbook "/out" "frequency" = .error .attributeError := by
  obtain ⟨L, N, h1, h2, _, _, h3, _⟩ := C108_same_samples exWorkbook "/out" exWorkbook_rect
  exact ⟨L, N, h1, h2, h3, C108_other_space exWorkbook "/out" "frequency" (by decide) (by decide)⟩

theorem exWorkbook_load : (seviriLoad exWorkbook).get? "IR_108" = some (seviriSheet exIrSheet) := by
  have hd : DistinctNames exWorkbook := by
    intro s hs t ht hcs hct _
    simp only [exWorkbook, List.mem_cons, List.not_mem_nil, or_false] at hs ht
    rcases hs with rfl | rfl
    · exact absurd rfl hcs.1
    · rcases ht with rfl | rfl
      · exact absurd rfl hct.1
      · rfl
  have := load_get exWorkbook hd exIrSheet (by simp [exWorkbook]) exIrSheet_channel
  rwa [show Str.strip exIrSheet.name = "IR_108" by unfold exIrSheet; decide +kernel] at this

example : ∃ L N c' ns, Seviri.new exWorkbook "/out" = .ok L ∧ Seviri.new exWorkbook "/out" "wavenumber" = .ok N ∧
    N.rsr.get? "IR_108" = some c' ∧ c'.wave = finL ns ∧ ns.Pairwise (· < ·) := by
  obtain ⟨⟨m1, e1, _⟩, ⟨m2, e2, _⟩⟩ := seviri_new exWorkbook "/out" exWorkbook_rect
  obtain ⟨hw, _⟩ := sheet_infrared exIrSheet exIrSheet_ir "Meteosat-8" 1 rfl
  obtain ⟨c', ns, h1, h2, h3, _⟩ := C108_ascending exWorkbook "/out" exWorkbook_rect _ _ e1 e2 "IR_108" _ exWorkbook_load
    [10, 11, 12] (by rw [hw, exIrSheet_cells]; rfl) (by intro w hw; fin_cases hw <;> norm_num) (by simp; norm_num)
  exact ⟨_, _, c', ns, e1, e2, h1, h2, h3⟩

example : ∃ L m v, Seviri.new exWorkbook "/out" = .ok L ∧ L.central_wavelength = some m ∧
    satCentral m "IR_108" "Meteosat-9" (some "95") = some (fin v) ∧ 10 ≤ v ∧ v ≤ 12 := by
  obtain ⟨⟨m1, e1, _⟩, _⟩ := seviri_new exWorkbook "/out" exWorkbook_rect
  obtain ⟨hw, d, hd, h95⟩ := sheet_infrared exIrSheet exIrSheet_ir "Meteosat-9" 3 rfl
  obtain ⟨m, v, h1, h2, h3, h4, _⟩ := C108_centrals exWorkbook "/out" exWorkbook_rect "wavelength" _ e1 "IR_108" "Meteosat-9"
    (some "95") _ (finL [0, 3, 0]) exWorkbook_load (by
      unfold satResponse
      rw [hd]
      show d.get? "95" = _
      rw [h95, exIrSheet_cells]
      rfl) [10, 11, 12] [0, 3, 0] (by rw [hw, exIrSheet_cells]; rfl) rfl rfl (by unfold Increasing; simp; norm_num)
    (by intro x hx; fin_cases hx <;> norm_num) (by simp [trap]; norm_num) 10 12 rfl rfl
  rw [if_pos rfl] at h1
  exact ⟨_, m, v, e1, h1.1, h2, h3, h4⟩

example : ∃ L, Seviri.new ([exIrSheet, ⟨"VIS0.6", fun _ => []⟩] : List (Sheet XF)) "/out" = .ok L ∧
    generateSeviriFile id L "Meteosat-10" = .error .indexError := by
  refine C109_visible_channels_fail id _ "/out" ?_ "Meteosat-10" 5 rfl ⟨⟨"VIS0.6", fun _ => []⟩, by simp, ?_, ?_⟩
  · intro s hs c
    simp only [List.mem_cons, List.not_mem_nil, or_false] at hs
    rcases hs with rfl | rfl
    · exact exWorkbook_rect exIrSheet (by simp [exWorkbook]) c
    · rfl
  · constructor <;> decide
  · rintro ⟨rest, h⟩
    rw [show (Str.strip "VIS0.6").toList = ['V', 'I', 'S', '0', '.', '6'] by decide +kernel] at h
    cases h

example : ∃ L file info, Seviri.new exWorkbook "/out" = .ok L ∧
    generateSeviriFile id L "Meteosat-10" = .ok (("/out", "rsr_seviri_Meteosat-10.h5"), file) ∧
    loadRsrInfo file = .ok info ∧ "IR_108" ∈ info.band_names := by
  obtain ⟨L, file, info, h1, h2, h3, _, h5, _⟩ := C109_infrared_partial id exWorkbook "/out" exWorkbook_rect (by
    intro s hs t ht hcs hct _
    simp only [exWorkbook, List.mem_cons, List.not_mem_nil, or_false] at hs ht
    rcases hs with rfl | rfl
    · exact absurd rfl hcs.1
    · rcases ht with rfl | rfl
      · exact absurd rfl hct.1
      · rfl) "Meteosat-10" 5 rfl (by
    intro s hs hc
    simp only [exWorkbook, List.mem_cons, List.not_mem_nil, or_false] at hs
    rcases hs with rfl | rfl
    · exact absurd rfl hc.1
    · exact exIrSheet_ir)
  exact ⟨L, file, info, h1, h2, h3, (h5 _).2 ⟨exIrSheet, by simp [exWorkbook], exIrSheet_channel,
    by unfold exIrSheet; decide +kernel⟩⟩

example : ∃ N, Seviri.new exWorkbook "/out" "wavenumber" = .ok N ∧
    generateSeviriFile id N "Meteosat-8" = .error .typeError :=
  C109_wavenumber_fails id exWorkbook "/out" "Meteosat-8" exWorkbook_rect ⟨exIrSheet, by simp [exWorkbook], exIrSheet_channel⟩

end Verif.Props
