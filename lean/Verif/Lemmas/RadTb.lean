import Verif.Lemmas.Planck
import Verif.Lemmas.Trap
import Verif.Lemmas.Dict
import Verif.Model.RadTb
/-
Supporting lemmas for the radiance/brightness-temperature converter.
-/
namespace Verif.Lemmas
open XF Model PyNum Spec

/-- Planck radiance in the given wave space. -/
noncomputable def bandPlanck (wavespace : String) (w t : ℝ) : ℝ :=
  if wavespace = WAVE_NUMBER then planckWavenumber w t else planckWavelength w t

theorem bandPlanck_pos (ws : String) {w t : ℝ} (hw : 0 < w) (ht : 0 < t) : 0 < bandPlanck ws w t := by
  unfold bandPlanck; split
  · exact planckWn_pos hw ht
  · exact planckWl_pos hw ht

theorem bandPlanck_lt (ws : String) {w t₁ t₂ : ℝ} (hw : 0 < w) (h1 : 0 < t₁) (h : t₁ < t₂) :
    bandPlanck ws w t₁ < bandPlanck ws w t₂ := by
  unfold bandPlanck; split
  · exact planckWn_lt hw h1 h
  · exact planckWl_lt hw h1 h

theorem blackbodyFunction_fin (ws : String) (w ts : List ℝ) (hne : w ≠ [] ∧ ts ≠ [])
    (hw : ∀ x ∈ w, 0 < x) (ht : ∀ t ∈ ts, 1e-6 < t) :
    blackbodyFunction ws (finL w) (finL ts) =
      .ok (ts.map fun t => finL (w.map fun x => bandPlanck ws x t)) := by
  have key : ∀ wl, planck (finL w) (finL ts) wl =
      .ok (ts.map fun t => w.map fun x => planckEntry wl (fin x) (fin t)) := by
    intro wl
    rw [planck_entries _ _ _ (by simpa [finL] using hne.1) (by simpa [finL] using hne.2)]
    simp [finL, Function.comp_def]
  unfold blackbodyFunction
  split
  · rename_i h
    rw [blackbody_wn, key]
    congr 1
    apply List.map_congr_left; intro t htm
    simp only [finL, List.map_map]
    apply List.map_congr_left; intro x hx
    simp [bandPlanck, h, entry_wn (hw x hx) (lt_of_lt_of_le (ht t htm) (le_abs_self t))]
  · rename_i h
    rw [blackbody, key]
    congr 1
    apply List.map_congr_left; intro t htm
    simp only [finL, List.map_map]
    apply List.map_congr_left; intro x hx
    simp [bandPlanck, h, entry_wl (hw x hx) (lt_of_lt_of_le (ht t htm) (le_abs_self t))]

/-- A converter whose band data are the finite curve `w ↦ r` (SI waves), with the integral
stored by the constructor. -/
structure Loaded (c : RadTb XF) (w r : List ℝ) : Prop where
  wave : c.wave = finL w
  response : c.response = finL r
  len : w.length = r.length
  integral : c.rsr_integral = fin (trap w r)

/-- A physically meaningful band: positive increasing waves, non-negative responses, not
all zero. -/
structure GoodBand (w r : List ℝ) : Prop where
  inc : Increasing w
  pos : ∀ x ∈ w, 0 < x
  nonneg : ∀ y ∈ r, 0 ≤ y
  integral : 0 < trap w r

/-- Band integral of the Planck function times the response. -/
noncomputable def bandInt (ws : String) (w r : List ℝ) (t : ℝ) : ℝ :=
  trap ((w.zip r).map Prod.fst) ((w.zip r).map fun p => p.2 * bandPlanck ws p.1 t)

theorem zipWith_mul_eq_map (w r : List ℝ) (f : ℝ → ℝ) (h : w.length = r.length) :
    List.zipWith (· * ·) (w.map f) r = (w.zip r).map fun p => p.2 * f p.1 := by
  induction w generalizing r with
  | nil => simp
  | cons a w ih =>
    cases r with
    | nil => simp at h
    | cons b r => simp [ih r (by simpa using h), mul_comm]

theorem tb2radiance_direct' {c : RadTb XF} {w r : List ℝ} (hc : Loaded c w r) (hw : w ≠ [])
    (hpos : ∀ x ∈ w, 0 < x) (nc : Int) (ts : List ℝ) (hts : ts ≠ [])
    (ht : ∀ t ∈ ts, 1e-6 < t) (norm : Bool) (hA : norm = true → trap w r ≠ 0) :
    c.tb2radiance nc (finL ts) none norm =
      .ok { radiance := .arr (finL (ts.map fun t =>
              if norm then bandInt c.wavespace w r t / trap w r else bandInt c.wavespace w r t)),
            unit := radianceUnit c.wavespace norm, scale := fin 1.0 } := by
  have h1 := blackbodyFunction_fin c.wavespace w ts ⟨hw, hts⟩ hpos ht
  have hlen := hc.len
  have h2 : (ts.map fun t => finL (w.map fun x => bandPlanck c.wavespace x t)).mapM
      (fun row => NP.bcast2 (· * ·) row (finL r)) =
      .ok (ts.map fun t => finL ((w.zip r).map fun p => p.2 * bandPlanck c.wavespace p.1 t)) := by
    have := mapM_ok (fun row => NP.bcast2 (· * ·) row (finL r))
      (fun row => List.zipWith (· * ·) row (finL r))
      (ts.map fun t => finL (w.map fun x => bandPlanck c.wavespace x t)) (by
        intro row hrow
        simp only [List.mem_map] at hrow
        obtain ⟨t, _, rfl⟩ := hrow
        exact bcast2_eq_len _ _ _ (by simp [hlen]))
    rw [this, List.map_map]
    congr 1
    apply List.map_congr_left; intro t _
    simp only [Function.comp]
    rw [zipWith_fin_mul, zipWith_mul_eq_map w r _ hlen]
  have h3 : (ts.map fun t => finL ((w.zip r).map fun p => p.2 * bandPlanck c.wavespace p.1 t)).mapM
      (fun row => NP.trapezoid row (finL w)) =
      .ok (finL (ts.map fun t => bandInt c.wavespace w r t)) := by
    have := mapM_ok (fun t => NP.trapezoid
        (finL ((w.zip r).map fun p => p.2 * bandPlanck c.wavespace p.1 t)) (finL w))
      (fun t => fin (bandInt c.wavespace w r t)) ts (by
        intro t _
        rw [trapezoid_fin _ _ (by simp [hlen])]
        simp [bandInt, zip_map_fst hlen])
    simp only [List.mapM_map]
    refine Eq.trans this ?_; simp [finL, Function.comp_def]
  simp only [RadTb.tb2radiance, hc.wave, hc.response, h1, bind, Except.bind, h2, h3, pure,
    Except.pure, hc.integral, ofSci_eq]
  cases norm
  · simp
  · simp [finL, Function.comp_def, fin_div _ (hA rfl)]

theorem tb2radiance_direct {c : RadTb XF} {w r : List ℝ} (hc : Loaded c w r) (hw : w ≠ [])
    (hpos : ∀ x ∈ w, 0 < x) (hA : trap w r ≠ 0) (nc : Int) (ts : List ℝ) (hts : ts ≠ [])
    (ht : ∀ t ∈ ts, 1e-6 < t) (norm : Bool) :
    c.tb2radiance nc (finL ts) none norm =
      .ok { radiance := .arr (finL (ts.map fun t =>
              if norm then bandInt c.wavespace w r t / trap w r else bandInt c.wavespace w r t)),
            unit := radianceUnit c.wavespace norm, scale := fin 1.0 } :=
  tb2radiance_direct' hc hw hpos nc ts hts ht norm fun _ => hA

/-- normalising divides by the integral of the response -/
theorem tb2radiance_norm (c : RadTb XF) (nc : Int) (tb : List XF) (xs : List XF) (res : RadResult XF)
    (h : c.tb2radiance nc tb none false = .ok res) (hx : res.radiance = .arr xs) :
    ∃ res', c.tb2radiance nc tb none true = .ok res' ∧ res'.radiance = .arr (xs.map (· / c.rsr_integral)) := by
  unfold RadTb.tb2radiance at h ⊢
  simp only [bind, Except.bind] at h ⊢
  cases h1 : blackbodyFunction c.wavespace c.wave tb with
  | error e => rw [h1] at h; cases h
  | ok pl =>
    rw [h1] at h
    dsimp only at h ⊢
    generalize List.mapM (m := Except PyErr) (fun row => NP.bcast2 (· * ·) row c.response) pl = m1 at h ⊢
    cases m1 with
    | error e => cases h
    | ok wt =>
      dsimp only at h ⊢
      generalize List.mapM (m := Except PyErr) (fun row => NP.trapezoid row c.wave) wt = m2 at h ⊢
      cases m2 with
      | error e => cases h
      | ok ii =>
        cases h
        cases hx
        exact ⟨_, rfl, rfl⟩

theorem bandInt_bounds (ws : String) {w r : List ℝ} (hb : GoodBand w r) (hl : w.length = r.length)
    (t m M : ℝ) (hm : ∀ x ∈ w, m ≤ bandPlanck ws x t ∧ bandPlanck ws x t ≤ M) :
    m * trap w r ≤ bandInt ws w r t ∧ bandInt ws w r t ≤ M * trap w r := by
  have := trap_mean_bounds Prod.fst Prod.snd (fun p => bandPlanck ws p.1 t) (w.zip r)
    (by rw [zip_map_fst hl]; exact Increasing.nonDec hb.inc)
    (fun p hp => hb.nonneg _ (List.of_mem_zip hp).2) m M
    (fun p hp => (hm _ (List.of_mem_zip hp).1).1) (fun p hp => (hm _ (List.of_mem_zip hp).1).2)
  rw [zip_map_snd hl] at this
  rw [zip_map_fst hl] at this
  unfold bandInt; rw [zip_map_fst hl]; exact this

theorem bandInt_lt (ws : String) {w r : List ℝ} (hb : GoodBand w r) (hl : w.length = r.length)
    {t₁ t₂ : ℝ} (h1 : 0 < t₁) (h : t₁ < t₂) : bandInt ws w r t₁ < bandInt ws w r t₂ := by
  refine trap_strict_mono Prod.fst Prod.snd (fun p => bandPlanck ws p.1 t₁)
    (fun p => bandPlanck ws p.1 t₂) (w.zip r) ?_ ?_ ?_ ?_
  · rw [zip_map_fst hl]; exact Increasing.nonDec hb.inc
  · exact fun p hp => hb.nonneg _ (List.of_mem_zip hp).2
  · rw [zip_map_fst hl, zip_map_snd hl]; exact hb.integral
  · exact fun p hp => bandPlanck_lt ws (hb.pos _ (List.of_mem_zip hp).1) h1 h

theorem goodBand_ne {w r : List ℝ} (hb : GoodBand w r) : w ≠ [] := by
  rintro rfl
  have := hb.integral
  simp [trap] at this

/-! ### integer lemmas for the LUT -/

theorem wrap16_id {i : ℤ} (h1 : -32768 ≤ i) (h2 : i ≤ 32767) : NP.wrap16 i = i := by
  unfold NP.wrap16; omega

theorem wrap16_range (i : ℤ) : -32768 ≤ NP.wrap16 i ∧ NP.wrap16 i ≤ 32767 := by
  unfold NP.wrap16; omega

theorem pyIndex_clip {β : Type} (xs : List β) (h : xs ≠ []) (i : ℤ) :
    ∃ (hlt : (clipInt i 0 ((xs.length : ℤ) - 1)).toNat < xs.length),
      NP.pyIndex xs (clipInt i 0 ((xs.length : ℤ) - 1)) =
        .ok (xs[(clipInt i 0 ((xs.length : ℤ) - 1)).toNat]) := by
  have hp : 0 < xs.length := List.length_pos_iff.2 h
  have h0 : 0 ≤ clipInt i 0 ((xs.length : ℤ) - 1) := by unfold clipInt; omega
  have h1 : clipInt i 0 ((xs.length : ℤ) - 1) < xs.length := by unfold clipInt; omega
  have hlt : (clipInt i 0 ((xs.length : ℤ) - 1)).toNat < xs.length := by omega
  refine ⟨hlt, ?_⟩
  unfold NP.pyIndex
  rw [if_neg (not_lt.2 h0)]
  simp only [not_lt.2 h0, if_false, List.getElem?_eq_getElem hlt]

end Verif.Lemmas
