import Verif.Model.Chunks
import Verif.Spec.Chunks
import Verif.Props.Rayleigh
/-
Properties C140 and C141: chunks do not matter.
-/
namespace Verif.Props
open XF Model PyNum Lemmas Spec
variable {α β γ δ : Type} [PyNum α]

omit [PyNum α] in
theorem gather_map (f : β → γ) (xs : List β) (b : List Nat) : gather (xs.map f) b = (gather xs b).map f := by
  unfold gather
  induction b with
  | nil => rfl
  | cons i b ih => cases h : xs[i]? <;> simp_all

theorem gather_zipWith (f : β → γ → δ) (xs : List β) (ys : List γ) (h : xs.length = ys.length) (b : List Nat) :
    gather (List.zipWith f xs ys) b = List.zipWith f (gather xs b) (gather ys b) := by
  unfold gather
  induction b with
  | nil => rfl
  | cons i b ih =>
    rcases Nat.lt_or_ge i xs.length with hi | hi
    · have hj : i < ys.length := by omega
      simp_all [List.getElem?_zipWith]
    · have hj : ys.length ≤ i := by omega
      simp_all [List.getElem?_zipWith]

theorem gather_length (xs : List β) (b : List Nat) (h : ∀ i ∈ b, i < xs.length) : (gather xs b).length = b.length := by
  unfold gather
  induction b with
  | nil => rfl
  | cons i b ih =>
    rw [List.filterMap_cons_some (List.getElem?_eq_getElem (h i (by simp)))]
    simp [ih (fun j hj => h j (by simp [hj]))]

theorem gather_length_eq (xs : List β) (ys : List γ) (h : xs.length = ys.length) (b : List Nat) :
    (gather xs b).length = (gather ys b).length := by
  unfold gather
  induction b with
  | nil => rfl
  | cons i b ih =>
    rcases Nat.lt_or_ge i xs.length with hi | hi
    · rw [List.filterMap_cons_some (List.getElem?_eq_getElem hi),
        List.filterMap_cons_some (List.getElem?_eq_getElem (by omega : i < ys.length))]
      simp [ih]
    · rw [List.filterMap_cons_none (by simpa using hi), List.filterMap_cons_none (by simp; omega), ih]

theorem zip_gather_mem (xs : List β) (b : List Nat) (h : ∀ i ∈ b, i < xs.length) :
    ∀ q ∈ b.zip (gather xs b), xs[q.1]? = some q.2 := by
  unfold gather
  induction b with
  | nil => intro q hq; simp at hq
  | cons i b ih =>
    rw [List.filterMap_cons_some (List.getElem?_eq_getElem (h i (by simp)))]
    intro q hq
    rw [List.zip_cons_cons, List.mem_cons] at hq
    rcases hq with rfl | hq
    · exact List.getElem?_eq_getElem (h i (by simp))
    · exact ih (fun j hj => h j (by simp [hj])) q hq

theorem zip_gather_keys (xs : List β) (b : List Nat) (h : ∀ i ∈ b, i < xs.length) :
    ∀ i ∈ b, ∃ v, (i, v) ∈ b.zip (gather xs b) := by
  intro i hi
  obtain ⟨p, hp, rfl⟩ := List.getElem_of_mem hi
  have hg : p < (gather xs b).length := by rw [gather_length xs b h]; exact hp
  exact ⟨(gather xs b)[p], List.mem_iff_getElem.2 ⟨p, by simp; omega, by simp⟩⟩

theorem chunk_lookup_mem {l : List (Nat × β)} {i : Nat} {v : β} (h : l.lookup i = some v) : (i, v) ∈ l := by
  induction l with
  | nil => simp at h
  | cons a l ih =>
    obtain ⟨k, u⟩ := a
    rw [List.lookup_cons] at h
    by_cases hk : i = k
    · subst hk; simp at h; subst h; simp
    · rw [show (i == k) = false by simpa using hk] at h
      exact List.mem_cons_of_mem _ (ih h)

theorem lookup_some {l : List (Nat × β)} {i : Nat} {v : β} (h : (i, v) ∈ l) : ∃ u, l.lookup i = some u := by
  induction l with
  | nil => simp at h
  | cons a l ih =>
    obtain ⟨k, u⟩ := a
    rw [List.lookup_cons]
    by_cases hk : i = k
    · subst hk; exact ⟨u, by simp⟩
    · rw [show (i == k) = false by simpa using hk]
      refine ih ?_
      rcases List.mem_cons.1 h with h | h
      · cases h; exact absurd rfl hk
      · exact h

theorem mapM_ok_map (f : γ → β) (l : List γ) : (l.mapM fun x => (Except.ok (f x) : Py β)) = .ok (l.map f) := by
  induction l with
  | nil => rfl
  | cons a l ih => rw [List.mapM_cons, ih]; rfl

theorem mapM_ok_congr (g : γ → Py β) (f : γ → β) (l : List γ) (h : ∀ x ∈ l, g x = .ok (f x)) :
    l.mapM g = .ok (l.map f) := by
  induction l with
  | nil => rfl
  | cons a l ih =>
    rw [List.mapM_cons, h a (by simp), ih (fun x hx => h x (by simp [hx]))]; rfl

theorem mapM_map' (l : List γ) {g : δ → Py β} (k : γ → δ) (f : γ → β) (h : ∀ x, g (k x) = .ok (f x)) :
    (l.map k).mapM g = .ok (l.map f) := by
  induction l with
  | nil => rfl
  | cons a l ih => rw [List.map_cons, List.mapM_cons, h, ih]; rfl

/-- all pixels computed, each with its value -/
theorem assemble_ok (xs : List β) (parts : List (Nat × β)) (h1 : ∀ q ∈ parts, xs[q.1]? = some q.2)
    (h2 : ∀ i < xs.length, ∃ v, (i, v) ∈ parts) : assemble xs.length parts = .ok xs := by
  have key : ∀ i < xs.length, parts.lookup i = xs[i]? := by
    intro i hi
    obtain ⟨v, hv⟩ := h2 i hi
    obtain ⟨u, hu⟩ := lookup_some hv
    rw [hu, h1 _ (chunk_lookup_mem hu)]
  unfold assemble
  cases xs with
  | nil => rfl
  | cons d xs' =>
    rw [mapM_ok_congr _ (fun i => (d :: xs').getD i d)]
    · rw [Except.ok.injEq]
      apply List.ext_getElem?
      intro i
      rw [List.getElem?_map]
      rcases Nat.lt_or_ge i (d :: xs').length with h | h
      · rw [List.getElem?_range h]
        simp [List.getD_eq_getElem?_getD, List.getElem?_eq_getElem h]
      · rw [List.getElem?_eq_none (by simpa using h), List.getElem?_eq_none h]; rfl
    · intro i hi
      have hi' := List.mem_range.1 hi
      rw [key i hi', List.getElem?_eq_getElem hi']
      simp [List.getD_eq_getElem?_getD, List.getElem?_eq_getElem hi']

/-- blocks that give parts of one array -/
theorem runBlocks_ok (xs : List β) (blocks : List (List Nat)) (f : Nat → List Nat → Py (List β))
    (hb : ∀ b ∈ blocks, ∀ i ∈ b, i < xs.length) (hf : ∀ k, ∀ b ∈ blocks, f k b = .ok (gather xs b)) (order : List Nat) :
    ∃ parts, runBlocks blocks f order = .ok parts ∧ (∀ q ∈ parts, xs[q.1]? = some q.2) ∧
      ∀ k ∈ order, ∀ b, blocks[k]? = some b → ∀ i ∈ b, ∃ v, (i, v) ∈ parts := by
  induction order with
  | nil => exact ⟨[], rfl, by simp, by simp⟩
  | cons k order ih =>
    obtain ⟨parts, h1, h2, h3⟩ := ih
    unfold runBlocks
    cases hk : blocks[k]? with
    | none =>
      refine ⟨parts, h1, h2, ?_⟩
      intro k' hk' b hb'
      rcases List.mem_cons.1 hk' with rfl | hk'
      · rw [hk] at hb'; cases hb'
      · exact h3 k' hk' b hb'
    | some b =>
      have hm := List.mem_of_getElem? hk
      refine ⟨b.zip (gather xs b) ++ parts, ?_, ?_, ?_⟩
      · simp only [hf k b hm, h1, bind, Except.bind, pure, Except.pure]
      · intro q hq
        rcases List.mem_append.1 hq with hq | hq
        · exact zip_gather_mem xs b (hb b hm) q hq
        · exact h2 q hq
      · intro k' hk' b' hb' i hi
        rcases List.mem_cons.1 hk' with rfl | hk'
        · rw [hk] at hb'; cases hb'
          obtain ⟨v, hv⟩ := zip_gather_keys xs b (hb b hm) i hi
          exact ⟨v, List.mem_append_left _ hv⟩
        · obtain ⟨v, hv⟩ := h3 k' hk' b' hb' i hi
          exact ⟨v, List.mem_append_right _ hv⟩

theorem chunking_lt {n : Nat} {blocks : List (List Nat)} (hc : Chunking n blocks) : ∀ b ∈ blocks, ∀ i ∈ b, i < n := by
  intro b hb i hi
  exact List.mem_range.1 (hc.all.mem_iff.1 (List.mem_flatten.2 ⟨b, hb, hi⟩))

theorem computeBlocks_ok (xs : List β) (blocks : List (List Nat)) (hc : Chunking xs.length blocks)
    (f : Nat → List Nat → Py (List β)) (hf : ∀ k, ∀ b ∈ blocks, f k b = .ok (gather xs b)) (order : List Nat)
    (ho : EachOnce blocks.length order) : computeBlocks xs.length blocks f order = .ok xs := by
  obtain ⟨parts, h1, h2, h3⟩ := runBlocks_ok xs blocks f (chunking_lt hc) hf order
  unfold computeBlocks
  rw [h1]
  refine assemble_ok xs parts h2 ?_
  intro i hi
  obtain ⟨b, hb, hib⟩ := List.mem_flatten.1 (hc.all.mem_iff.2 (List.mem_range.2 hi))
  obtain ⟨k, hk, rfl⟩ := List.getElem_of_mem hb
  exact h3 k (ho.mem_iff.2 (List.mem_range.2 hk)) _ (List.getElem?_eq_getElem hk) i hib

theorem runBlocks_error (blocks : List (List Nat)) (f : Nat → List Nat → Py (List β)) (e : PyErr)
    (hf : ∀ k, ∀ b ∈ blocks, f k b = .error e) (order : List Nat) (h : ∃ k ∈ order, k < blocks.length) :
    runBlocks blocks f order = .error e := by
  induction order with
  | nil => obtain ⟨k, hk, _⟩ := h; simp at hk
  | cons k order ih =>
    unfold runBlocks
    cases hk : blocks[k]? with
    | none =>
      refine ih ?_
      obtain ⟨j, hj, hlt⟩ := h
      rcases List.mem_cons.1 hj with rfl | hj
      · rw [List.getElem?_eq_getElem hlt] at hk; cases hk
      · exact ⟨j, hj, hlt⟩
    | some b => simp only [hf k b (List.mem_of_getElem? hk), bind, Except.bind]

theorem computeBlocks_error {n m : Nat} (blocks : List (List Nat)) (hc : Chunking n blocks)
    (f : Nat → List Nat → Py (List β)) (e : PyErr) (hf : ∀ k, ∀ b ∈ blocks, f k b = .error e) (order : List Nat)
    (ho : EachOnce blocks.length order) : computeBlocks m blocks f order = .error e := by
  unfold computeBlocks
  have : 0 < blocks.length := List.length_pos_iff.2 hc.nonempty
  rw [runBlocks_error blocks f e hf order ⟨0, ho.mem_iff.2 (List.mem_range.2 this), this⟩]
  rfl

theorem mapM_length (g : γ → Py β) (l : List γ) : ∀ {out}, l.mapM g = .ok out → out.length = l.length := by
  induction l with
  | nil => intro out h; cases h; rfl
  | cons a l ih =>
    intro out h
    rw [List.mapM_cons] at h
    cases ha : g a with
    | error e => rw [ha] at h; cases h
    | ok v =>
      cases hl : l.mapM g with
      | error e => rw [ha, hl] at h; cases h
      | ok vs => rw [ha, hl] at h; cases h; simp [ih hl]

theorem computeBlocks_length {n : Nat} {blocks : List (List Nat)} {f : Nat → List Nat → Py (List β)}
    {order : List Nat} {out : List β} (h : computeBlocks n blocks f order = .ok out) : out.length = n := by
  unfold computeBlocks at h
  cases hr : runBlocks blocks f order with
  | error e => rw [hr] at h; cases h
  | ok parts => rw [hr] at h; simpa using mapM_length _ _ h

/-! ### The correction of single pixels -/

/-- the interpolation is the same function of every pixel, or the same error -/
theorem interpByAngles_pixels (interp : Interp3 α) (lut : LutFile α) (table : List α) :
    (∃ e, ∀ sun sat azi : List α, interpByAngles interp lut sun sat azi table = .error e) ∨
    ∃ g : α → α × α → α, ∀ sun sat azi : List α, sun.length = azi.length → azi.length = sat.length →
      interpByAngles interp lut sun sat azi table = .ok (List.zipWith g sun (azi.zip sat)) := by
  unfold interpByAngles
  cases h1 : NP.amax lut.sun_zenith_secant with
  | error e => exact Or.inl ⟨e, fun _ _ _ => rfl⟩
  | ok a1 =>
  cases h2 : NP.amax lut.satellite_zenith_secant with
  | error e => exact Or.inl ⟨e, fun _ _ _ => rfl⟩
  | ok a2 =>
  cases h3 : NP.pyIndex lut.sun_zenith_secant 0 with
  | error e => exact Or.inl ⟨e, fun _ _ _ => rfl⟩
  | ok a3 =>
  cases h4 : NP.pyIndex lut.azimuth_difference 0 with
  | error e => exact Or.inl ⟨e, fun _ _ _ => rfl⟩
  | ok a4 =>
  cases h5 : NP.pyIndex lut.satellite_zenith_secant 0 with
  | error e => exact Or.inl ⟨e, fun _ _ _ => rfl⟩
  | ok a5 =>
  cases h6 : NP.pyIndex lut.sun_zenith_secant (-1) with
  | error e => exact Or.inl ⟨e, fun _ _ _ => rfl⟩
  | ok a6 =>
  cases h7 : NP.pyIndex lut.azimuth_difference (-1) with
  | error e => exact Or.inl ⟨e, fun _ _ _ => rfl⟩
  | ok a7 =>
  cases h8 : NP.pyIndex lut.satellite_zenith_secant (-1) with
  | error e => exact Or.inl ⟨e, fun _ _ _ => rfl⟩
  | ok a8 =>
    refine Or.inr ⟨fun z q => interp (a3, a4, a5) (a6, a7, a8) (lut.sun_zenith_secant.length,
      lut.azimuth_difference.length, lut.satellite_zenith_secant.length) table
      (secant (clipAngle a1 z), 180 - q.1, secant (clipAngle a2 q.2)) * 100, ?_⟩
    intro sun sat azi hl1 hl2
    simp only [bind, Except.bind]
    unfold vstack3
    rw [if_pos (by simp; omega)]
    simp only [pure, Except.pure, Except.ok.injEq]
    apply List.ext_getElem?
    intro i
    rcases Nat.lt_or_ge i sun.length with h | h
    · have : i < azi.length := by omega
      have : i < sat.length := by omega
      simp [List.getElem?_zipWith, List.getElem?_eq_getElem, *]
    · rw [List.getElem?_eq_none (by simp; omega), List.getElem?_eq_none (by simp; omega)]

/-- what follows the interpolation is the same function of every pixel -/
theorem finish_pixels (red : Option (List α)) (res : List α) (h : ∀ l, red = some l → l.length = res.length) :
    ∃ out, finish red res = .ok out ∧ out.length = res.length ∧
      ∀ b, finish (red.map (gather · b)) (gather res b) = .ok (gather out b) := by
  cases red with
  | none =>
    refine ⟨_, rfl, by simp, ?_⟩
    intro b
    rw [gather_map]; rfl
  | some l =>
    have hl := h l rfl
    refine ⟨(List.zipWith relaxCloudy l res).map fun x => clip x 0 100, ?_, by simp; omega, ?_⟩
    · unfold finish
      simp only [bcast2_eq_len _ _ _ hl]; rfl
    · intro b
      rw [gather_map, gather_zipWith _ _ _ hl]
      unfold finish
      simp only [Option.map_some, bcast2_eq_len _ _ _ (gather_length_eq _ _ hl b)]; rfl

/-- opening the table file -/
theorem openLut_cases (h5lut : Content → Option (LutFile α)) (p : Path) (w : World) :
    (∃ c lut, w.files p = some c ∧ h5lut c = some lut ∧ openLut h5lut p w = (.ok lut, w, [])) ∨
    ∃ e, openLut h5lut p w = (.error e, w, []) ∧ e ≠ .valueError := by
  have hg : (Eff.get w) = (.ok w, w, []) := rfl
  cases hf : w.files p with
  | none =>
    refine Or.inr ⟨.fileNotFound, ?_, by decide⟩
    unfold openLut
    rw [eff_bind_ok hg]
    simp only [hf]; rfl
  | some c =>
    cases hl : h5lut c with
    | none =>
      refine Or.inr ⟨.ioError, ?_, by decide⟩
      unfold openLut
      rw [eff_bind_ok hg]
      simp only [hf, hl]; rfl
    | some lut =>
      refine Or.inl ⟨c, lut, rfl, hl, ?_⟩
      unfold openLut
      rw [eff_bind_ok hg]
      simp only [hf, hl]; rfl

theorem openLut_same (h5lut : Content → Option (LutFile α)) (p : Path) (w w' : World) (h : w'.files p = w.files p) :
    (openLut h5lut p w').1 = (openLut h5lut p w).1 := by
  have hg : ∀ w, (Eff.get w) = (.ok w, w, []) := fun _ => rfl
  unfold openLut
  rw [eff_bind_ok (hg w), eff_bind_ok (hg w'), h]
  cases w.files p with
  | none => rfl
  | some c => cases hl : h5lut c <;> simp only [hl] <;> rfl

/-- C140: for every way of cutting the arrays into blocks, every order in which they are computed
and whatever else happens to the file system meanwhile, dask arrays give the same values (or the
same error) as numpy arrays without dask (with dask: `C60_dask_installed`), as long as the table file is still the same when they are computed. -/
theorem C140_any_chunking (env : Env) (h5open : Content → Option (H5File α)) (h5lut : Content → Option (LutFile α))
    (interp : Interp3 α) (r : RayleighObj) (blocks : List (List Nat)) (sun sat azi : List α)
    (hl1 : sun.length = azi.length) (hl2 : azi.length = sat.length) (hc : Chunking azi.length blocks)
    (band : RayleighBand α) (red : Option (List α)) (hred : ∀ l, red = some l → l.length = azi.length) (w : World) :
    let direct := getReflectance false env h5open h5lut interp r sun sat azi band red w
    let lazy := getReflectanceDask env h5open h5lut interp r blocks sun sat azi band red w
    lazy.2 = direct.2 ∧
      ((∃ e, lazy.1 = .error e ∧ direct.1 = .error e) ∨
        ∃ compute, lazy.1 = .ok compute ∧ ∀ s : Schedule, EachOnce blocks.length s.order →
          (∀ k, (s.seen k).files r.reflectance_lut_filename = direct.2.1.files r.reflectance_lut_filename) →
          compute s = direct.1) := by
  intro direct lazy
  rcases he : effectiveWavelength env h5open r band w with ⟨x, w', t⟩
  cases x with
  | error e =>
    have h1 : direct = (.error e, w', t) := by
      show getReflectance false env h5open h5lut interp r sun sat azi band red w = _
      unfold getReflectance
      rw [eff_bind_error he]
    have h2 : lazy = (.error e, w', t) := by
      show getReflectanceDask env h5open h5lut interp r blocks sun sat azi band red w = _
      unfold getReflectanceDask
      rw [eff_bind_error he]
    rw [h1, h2]
    exact ⟨rfl, Or.inl ⟨e, rfl, rfl⟩⟩
  | ok x =>
    rw [show direct = _ from eff_bind_ok he, show lazy = _ from eff_bind_ok he]
    generalize r.reflectance_lut_filename = p at *
    rcases openLut_cases h5lut p w' with ⟨c, lut, hf, hl, ho⟩ | ⟨e, ho, hev⟩
    · have ha : adjustedTable h5lut p x w' = (tableAt lut x, w', []) := by
        unfold adjustedTable
        rw [eff_bind_ok ho]; rfl
      cases ht : tableAt lut x with
      | error e =>
        rw [ht] at ha
        by_cases hev : e = .valueError
        · subst hev
          have hu : uncorrected false h5lut interp p x sun sat azi red w' =
              (.ok ((red.getD sun).map fun _ => 0), w', []) := by
            unfold uncorrected; rw [ha]; rfl
          have hlz : lazyCorrection h5lut interp p blocks x sun sat azi red w' =
              (.ok fun s => computeBlocks (red.getD sun).length blocks
                (fun _ b => blockZeros sun red b) s.order, w', []) := by
            unfold lazyCorrection; rw [ha]
          rw [eff_bind_ok hu, hlz]
          refine ⟨rfl, Or.inr ⟨_, rfl, ?_⟩⟩
          intro s hs _
          have hlen : (red.getD sun).length = azi.length := by
            cases red with
            | none => exact hl1
            | some l => exact hred l rfl
          obtain ⟨out, h1, h2, h3⟩ := finish_pixels red ((red.getD sun).map fun _ => (0 : α))
            (by intro l h; simp only [List.length_map, hlen]; exact hred l h)
          rw [List.length_map] at h2
          show computeBlocks (red.getD sun).length blocks _ s.order = finish red _
          rw [h1, ← h2]
          refine computeBlocks_ok out blocks (by rw [h2, hlen]; exact hc) _ ?_ _ hs
          intro k b _
          unfold blockZeros
          rw [← gather_map, h3 b]
        · have hu : uncorrected false h5lut interp p x sun sat azi red w' = (.error e, w', []) := by
            unfold uncorrected; rw [ha]
            cases e <;> first | rfl | exact absurd rfl hev
          have hlz : lazyCorrection h5lut interp p blocks x sun sat azi red w' = (.error e, w', []) := by
            unfold lazyCorrection; rw [ha]
            cases e <;> first | rfl | exact absurd rfl hev
          rw [eff_bind_error hu, hlz]
          exact ⟨rfl, Or.inl ⟨e, rfl, rfl⟩⟩
      | ok table =>
        rw [ht] at ha
        have hu : uncorrected false h5lut interp p x sun sat azi red w' =
            (interpByAngles interp lut sun sat azi table, w', []) := by
          unfold uncorrected; simp only [ha, ho]
        have hlz : lazyCorrection h5lut interp p blocks x sun sat azi red w' =
            (.ok fun s => computeBlocks azi.length blocks
              (fun k b => blockCorrection h5lut interp p table sun sat azi red (s.seen k) b) s.order, w', []) := by
          unfold lazyCorrection; rw [ha]
        rw [hlz]
        have hopen : ∀ w₂ : World, w₂.files p = w'.files p → (openLut h5lut p w₂).1 = .ok lut := by
          intro w₂ h; rw [openLut_same h5lut p w' w₂ h, ho]
        rcases interpByAngles_pixels interp lut table with ⟨e, hpix⟩ | ⟨g, hpix⟩
        · rw [hpix] at hu
          rw [eff_bind_error hu]
          refine ⟨rfl, Or.inr ⟨_, rfl, ?_⟩⟩
          intro s hs hw
          refine computeBlocks_error blocks hc _ e ?_ _ hs
          intro k b _
          unfold blockCorrection
          rw [hopen _ (hw k)]
          show ((interpByAngles interp lut _ _ _ table).bind _) = _
          rw [hpix]; rfl
        · rw [hpix sun sat azi hl1 hl2] at hu
          rw [eff_bind_ok hu]
          refine ⟨rfl, Or.inr ⟨_, rfl, ?_⟩⟩
          intro s hs hw
          have hrl : (List.zipWith g sun (azi.zip sat)).length = azi.length := by simp; omega
          obtain ⟨out, h1, h2, h3⟩ := finish_pixels red (List.zipWith g sun (azi.zip sat))
            (by intro l h; rw [hrl]; exact hred l h)
          show computeBlocks azi.length blocks _ s.order = finish red _
          rw [h1, ← hrl, ← h2]
          refine computeBlocks_ok out blocks (by rw [h2, hrl]; exact hc) _ ?_ _ hs
          intro k b _
          unfold blockCorrection
          rw [hopen _ (hw k)]
          show ((interpByAngles interp lut _ _ _ table).bind _) = _
          rw [hpix _ _ _ (gather_length_eq _ _ hl1 b) (gather_length_eq _ _ hl2 b)]
          show finish _ _ = _
          rw [← h3 b, gather_zipWith _ _ _ (by simp; omega)]
          congr 2
          exact (gather_zipWith Prod.mk azi sat hl2 b).symm
    · have ha : adjustedTable h5lut p x w' = (.error e, w', []) := by
        unfold adjustedTable
        rw [eff_bind_error ho]
      have hu : uncorrected false h5lut interp p x sun sat azi red w' = (.error e, w', []) := by
        unfold uncorrected; rw [ha]
        cases e <;> first | rfl | exact absurd rfl hev
      have hlz : lazyCorrection h5lut interp p blocks x sun sat azi red w' = (.error e, w', []) := by
        unfold lazyCorrection; rw [ha]
        cases e <;> first | rfl | exact absurd rfl hev
      rw [eff_bind_error hu, hlz]
      exact ⟨rfl, Or.inl ⟨e, rfl, rfl⟩⟩

/-- the table file of the examples, and arrays of 2 by 2 pixels cut into columns, the second
column computed first -/
example (env : Env) (h5open : Content → Option (H5File XF)) (w₂ : World)
    (h : w₂.files exRayleigh.reflectance_lut_filename = exLutWorld.files exRayleigh.reflectance_lut_filename) :
    ∃ compute, (getReflectanceDask env h5open exOpen exInterp exRayleigh [[0, 2], [1, 3]]
        [XF.nan, fin 30, fin 20, fin 80] [fin 120, XF.ninf, fin 0, fin 10] (finL [30, 90, 0, 20])
        (.wavelength (fin 0.425)) none exLutWorld).1 = .ok compute ∧
      compute ⟨[1, 0], fun k => if k = 0 then w₂ else exLutWorld⟩ =
        (getReflectance false env h5open exOpen exInterp exRayleigh [XF.nan, fin 30, fin 20, fin 80]
          [fin 120, XF.ninf, fin 0, fin 10] (finL [30, 90, 0, 20]) (.wavelength (fin 0.425)) none exLutWorld).1 := by
  have hc : Chunking 4 [[0, 2], [1, 3]] := ⟨by simp, by decide⟩
  have he := (C69_nanometer env h5open exRayleigh).1 0.425 exLutWorld
  obtain ⟨h2, h1⟩ := C140_any_chunking env h5open exOpen exInterp exRayleigh [[0, 2], [1, 3]]
    [XF.nan, fin 30, fin 20, fin 80] [fin 120, XF.ninf, fin 0, fin 10] (finL [30, 90, 0, 20]) rfl rfl hc
    (.wavelength (fin 0.425)) none (by rintro l h; cases h) exLutWorld
  obtain ⟨out, ho, -⟩ := C59_no_nan false env h5open exOpen exInterp exInterp_multilinear exRayleigh
    [XF.nan, fin 30, fin 20, fin 80] [fin 120, XF.ninf, fin 0, fin 10] [30, 90, 0, 20] rfl rfl
    (.wavelength (fin 0.425)) none (by rintro l h; cases h) exLutWorld exLutWorld [] _ he ['x'] exLut rfl rfl exSun
    exAzi exSat exLut_regular [400, 500, 600]
    [[0, 1, 2, 3, 4, 5, 6, 7], [8, 9, 10, 11, 12, 13, 14, 15], [1, 1, 1, 1, 1, 1, 1, 1]] rfl
    (by simp [Increasing]; norm_num) rfl rfl (by simp [exSun, exAzi, exSat]) (by simp) (by simp; norm_num)
    (by simp; norm_num) (by simp [exAzi]; norm_num)
  simp only [Option.map_none] at ho
  rw [ho] at h1 ⊢
  rcases h1 with ⟨e, -, h1⟩ | ⟨compute, hk, h1⟩
  · cases h1
  · refine ⟨compute, hk, h1 _ (show EachOnce 2 [1, 0] by unfold EachOnce; decide) ?_⟩
    intro k
    show (if k = 0 then w₂ else exLutWorld).files _ = _
    split
    · exact h
    · rfl

theorem runBlocks_some_error (blocks : List (List Nat)) (f : Nat → List Nat → Py (List β)) (order : List Nat)
    (k : Nat) (hk : k ∈ order) (b : List Nat) (hb : blocks[k]? = some b) (e : PyErr) (hf : f k b = .error e) :
    ∃ e', runBlocks blocks f order = .error e' := by
  induction order with
  | nil => simp at hk
  | cons j order ih =>
    unfold runBlocks
    rcases List.mem_cons.1 hk with rfl | hk
    · simp only [hb, hf, bind, Except.bind]; exact ⟨e, rfl⟩
    · obtain ⟨e', he'⟩ := ih hk
      cases hj : blocks[j]? with
      | none => exact ⟨e', he'⟩
      | some c =>
        simp only [bind, Except.bind, he']
        cases f j c with
        | error e'' => exact ⟨e'', rfl⟩
        | ok v => exact ⟨e', rfl⟩

/-- C140: a dask result inside the range of the table needs the table file again when it is
computed: without it for even one block there is an error, and FileNotFoundError if it is gone
for all; never some wrong values. -/
theorem C140_table_gone (env : Env) (h5open : Content → Option (H5File α)) (h5lut : Content → Option (LutFile α))
    (interp : Interp3 α) (r : RayleighObj) (blocks : List (List Nat)) (sun sat azi : List α)
    (band : RayleighBand α) (red : Option (List α)) (hc : Chunking azi.length blocks)
    (w w' : World) (t : List World) (x : α) (he : effectiveWavelength env h5open r band w = (.ok x, w', t))
    (c : Content) (lut : LutFile α) (hf : w'.files r.reflectance_lut_filename = some c) (hl : h5lut c = some lut)
    (table : List α) (ht : tableAt lut x = .ok table) :
    ∃ compute, (getReflectanceDask env h5open h5lut interp r blocks sun sat azi band red w).1 = .ok compute ∧
      ∀ s : Schedule, EachOnce blocks.length s.order →
        ((∃ k < blocks.length, (s.seen k).files r.reflectance_lut_filename = none) → ∃ e, compute s = .error e) ∧
        ((∀ k, (s.seen k).files r.reflectance_lut_filename = none) → compute s = .error .fileNotFound) := by
  have hmiss : ∀ w₂ : World, w₂.files r.reflectance_lut_filename = none →
      (openLut h5lut r.reflectance_lut_filename w₂).1 = .error .fileNotFound := by
    intro w₂ h
    unfold openLut
    rw [eff_bind_ok (show Eff.get w₂ = (.ok w₂, w₂, []) from rfl)]
    simp only [h]; rfl
  have ho : openLut h5lut r.reflectance_lut_filename w' = (.ok lut, w', []) := by
    unfold openLut
    rw [eff_bind_ok (show Eff.get w' = (.ok w', w', []) from rfl)]
    simp only [hf, hl]; rfl
  have ha : adjustedTable h5lut r.reflectance_lut_filename x w' = (.ok table, w', []) := by
    unfold adjustedTable
    rw [eff_bind_ok ho, ht]; rfl
  refine ⟨_, by unfold getReflectanceDask; rw [eff_bind_ok he]; unfold lazyCorrection; rw [ha], ?_⟩
  intro s hs
  constructor
  · rintro ⟨k, hk, hw⟩
    obtain ⟨e, h⟩ := runBlocks_some_error blocks (fun k b => blockCorrection h5lut interp r.reflectance_lut_filename
      table sun sat azi red (s.seen k) b) s.order k (hs.mem_iff.2 (List.mem_range.2 hk)) _
      (List.getElem?_eq_getElem hk) .fileNotFound (by unfold blockCorrection; rw [hmiss _ hw]; rfl)
    refine ⟨e, ?_⟩
    show computeBlocks _ _ _ _ = _
    unfold computeBlocks
    rw [h]; rfl
  · intro hw
    refine computeBlocks_error blocks hc _ _ ?_ _ hs
    intro k b _
    unfold blockCorrection
    rw [hmiss _ (hw k)]; rfl

/-! ### C141 -/

/-- C141: with a temperature table a dask array of temperatures gives, for every way of cutting it
into blocks and every order in which they are computed, the same radiances as the numpy array (a
single one comes as an array instead of a float), or the same error. -/
theorem C141_any_chunking (nanCast : Int) (scale : α) (lut : Lut α) (hr : lut.radiance ≠ []) (blocks : List (List Nat))
    (tb : List α) (hc : Chunking tb.length blocks) (order : List Nat) (ho : EachOnce blocks.length order) :
    lutRadiance nanCast scale lut tb = (lutRadianceDask nanCast scale lut blocks tb order).map fun xs =>
      match xs with
      | [x] => Rad.pyFloat x
      | xs => Rad.arr xs := by
  unfold lutRadiance lutRadianceDask
  cases h0 : NP.pyIndex lut.tb 0 with
  | error e => rfl
  | ok tb0 =>
  simp only [bind, Except.bind]
  cases h1 : pyInt (tb0 * scale) with
  | error e => rfl
  | ok start =>
  simp only
  by_cases hs : start < -32768 ∨ 32767 < start
  · simp only [if_pos hs]; rfl
  · simp only [if_neg hs, List.map_map]
    obtain ⟨d, hd⟩ : ∃ d, d ∈ lut.radiance := List.exists_mem_of_ne_nil _ hr
    have hidx : ∀ i : Int, ∃ v, NP.pyIndex lut.radiance (clipInt i 0 ((lut.radiance.length : Int) - 1)) = .ok v := by
      intro i
      have hl : 0 < lut.radiance.length := List.length_pos_iff.2 hr
      obtain ⟨n, hn, hlt⟩ : ∃ n : Nat, clipInt i 0 ((lut.radiance.length : Int) - 1) = n ∧ n < lut.radiance.length := by
        unfold clipInt
        refine ⟨(min (max i 0) ((lut.radiance.length : Int) - 1)).toNat, ?_, ?_⟩ <;> omega
      rw [hn]
      exact ⟨_, pyIndex_nat _ n _ (List.getElem?_eq_getElem hlt)⟩
    choose val hval using hidx
    let f : α → α := fun t => val (NP.wrap16 (NP.castInt16 nanCast (t * scale) - start))
    have hm := mapM_map' (g := fun i => NP.pyIndex lut.radiance i) tb
      ((fun n => clipInt (NP.wrap16 (n - start)) 0 ((lut.radiance.length : Int) - 1)) ∘
        fun t => NP.castInt16 nanCast (t * scale)) f (fun t => hval _)
    rw [hm]
    have hcomp := computeBlocks_ok (tb.map f) blocks (by simpa using hc)
      (fun _ b => (gather (tb.map fun t => clipInt (NP.wrap16 (NP.castInt16 nanCast (t * scale) - start)) 0
        ((lut.radiance.length : Int) - 1)) b).mapM fun i => NP.pyIndex lut.radiance i)
      (by
        intro k b _
        rw [gather_map, gather_map]
        exact mapM_map' _ _ f (fun t => hval _)) order ho
    rw [List.length_map] at hcomp
    rw [hcomp]
    simp only [Except.map]
    generalize tb.map f = L
    rcases L with _ | ⟨a, _ | ⟨b, L⟩⟩ <;> rfl

example (nanCast : Int) : lutRadiance nanCast (fin 10) ⟨finL [150, 150.1], finL [1, 2]⟩ [fin 150, XF.nan, fin 200] =
    (lutRadianceDask nanCast (fin 10) ⟨finL [150, 150.1], finL [1, 2]⟩ [[2, 0], [1]] [fin 150, XF.nan, fin 200]
      [1, 0]).map Rad.arr := by
  rw [C141_any_chunking nanCast (fin 10) ⟨finL [150, 150.1], finL [1, 2]⟩ (by simp) [[2, 0], [1]]
    [fin 150, XF.nan, fin 200] ⟨by simp, by decide⟩ [1, 0] (show [1, 0].Perm (List.range 2) by decide)]
  cases h : lutRadianceDask nanCast (fin 10) ⟨finL [150, 150.1], finL [1, 2]⟩ [[2, 0], [1]]
    [fin 150, XF.nan, fin 200] [1, 0] with
  | error e => rfl
  | ok xs =>
    have hlen : xs.length = 3 := by
      unfold lutRadianceDask at h
      simp only [bind, Except.bind] at h
      split at h
      · cases h
      split at h
      · cases h
      split at h
      · cases h
      exact computeBlocks_length h
    match xs, hlen with
    | [a, b, c], _ => rfl

end Verif.Props
