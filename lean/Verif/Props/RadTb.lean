import Verif.Lemmas.RadTb
/-
Properties C09-C15, C94: radiance <-> brightness temperature conversion with band responses.
-/
namespace Verif.Props
open XF Model PyNum Lemmas Spec

/-- A concrete converter used in the non-vacuity examples: three samples around 11 micron. -/
noncomputable def exConv : RadTb XF :=
  { platform_name := "P", instrument := "i", bandname := some "ch4", detector := "det-1"
    wavespace := WAVE_LENGTH, tb_resolution := fin 0.1, tb_scale := 1.0 / fin 0.1
    wave_unit := "1e-6 m", wave_si_scale := fin 1e-6, rsr := [], rsrInstrument := .none
    wave := finL [10e-6, 11e-6, 12e-6], response := finL [0, 1, 0]
    rsr_integral := fin (trap [10e-6, 11e-6, 12e-6] [0, 1, 0]) }

theorem exConv_loaded : Loaded exConv [10e-6, 11e-6, 12e-6] [0, 1, 0] := ⟨rfl, rfl, rfl, rfl⟩
theorem exBand_good : GoodBand [10e-6, 11e-6, 12e-6] [0, 1, 0] := by
  refine ⟨?_, ?_, ?_, ?_⟩
  · simp [Increasing]; norm_num
  · intro x hx; simp at hx; rcases hx with rfl | rfl | rfl <;> norm_num
  · intro x hx; simp at hx; rcases hx with rfl | rfl | rfl <;> norm_num
  · simp [trap]; norm_num

/-! ### C09 -/

/-- C09: the normalised band radiance is a mean of Planck radiances: it lies between any
bounds that hold for the Planck radiance at every sample of the band. -/
theorem C09_band_radiance_is_a_mean (c : RadTb XF) (w r : List ℝ) (hc : Loaded c w r)
    (hb : GoodBand w r) (nc : Int) (t : ℝ) (ht : 1e-6 < t) :
    ∃ v : ℝ, c.tb2radiance nc [fin t] = .ok
        { radiance := .arr [fin v], unit := radianceUnit c.wavespace true, scale := fin 1 } ∧
      ∀ m M : ℝ, (∀ x ∈ w, m ≤ (if c.wavespace = WAVE_NUMBER then planckWavenumber x t
            else planckWavelength x t) ∧
          (if c.wavespace = WAVE_NUMBER then planckWavenumber x t else planckWavelength x t) ≤ M) →
        m ≤ v ∧ v ≤ M := by
  refine ⟨bandInt c.wavespace w r t / trap w r, ?_, ?_⟩
  · have := tb2radiance_direct hc (goodBand_ne hb) hb.pos hb.integral.ne' nc [t] (by simp)
      (by simpa using ht) true
    rw [show [fin t] = finL [t] from rfl, this]
    norm_num [finL]
  · intro m M h
    have := bandInt_bounds c.wavespace hb hc.len t m M (fun x hx => h x hx)
    have hA := hb.integral
    constructor
    · rw [le_div_iff₀ hA]; exact this.1
    · rw [div_le_iff₀ hA]; exact this.2

example : ∃ v : ℝ, exConv.tb2radiance 0 [fin 300] = .ok
    { radiance := .arr [fin v], unit := radianceUnit WAVE_LENGTH true, scale := fin 1 } := by
  obtain ⟨v, h, _⟩ := C09_band_radiance_is_a_mean exConv _ _ exConv_loaded exBand_good 0 300
    (by norm_num)
  exact ⟨v, h⟩

/-- C09: a band-constant radiance is returned unchanged. -/
theorem C09_constant_band (c : RadTb XF) (w r : List ℝ) (hc : Loaded c w r)
    (hb : GoodBand w r) (nc : Int) (t L : ℝ) (ht : 1e-6 < t)
    (hconst : ∀ x ∈ w, (if c.wavespace = WAVE_NUMBER then planckWavenumber x t
            else planckWavelength x t) = L) :
    ∃ res, c.tb2radiance nc [fin t] = .ok res ∧ res.radiance = .arr [fin L] := by
  obtain ⟨v, h, hv⟩ := C09_band_radiance_is_a_mean c w r hc hb nc t ht
  have := hv L L (fun x hx => ⟨(hconst x hx).ge, (hconst x hx).le⟩)
  refine ⟨_, h, ?_⟩
  rw [le_antisymm this.2 this.1]

/-- two samples, one twice as long as the other, have the same Planck radiance at one temperature -/
theorem exTwice (a t : ℝ) (ha : 0 < a) (ht : t = h * Spec.c / (2 * a * k * Real.log 31)) :
    planckWavelength a t = planckWavelength (2 * a) t := by
  have hl : 0 < Real.log 31 := Real.log_pos (by norm_num)
  have hh : (0 : ℝ) < h := by norm_num [h]
  have hcc : (0 : ℝ) < Spec.c := by norm_num [Spec.c]
  have hk : (0 : ℝ) < k := by norm_num [k]
  have e2 : h * Spec.c / (2 * a * k * t) = Real.log 31 := by rw [ht]; field_simp
  have e1 : h * Spec.c / (a * k * t) = Real.log 31 + Real.log 31 := by rw [ht]; field_simp; norm_num
  unfold planckWavelength
  rw [e1, e2, Real.exp_add, Real.exp_log (by norm_num)]
  field_simp
  norm_num

/-- a band from 10 to 20 micron whose Planck radiance is the same at both ends -/
example (t : ℝ) (ht : t = h * Spec.c / (2 * 10e-6 * k * Real.log 31)) :
    ∃ res, RadTb.tb2radiance { exConv with wave := finL [10e-6, 2 * 10e-6], response := finL [1, 1]
                                           rsr_integral := fin (trap [10e-6, 2 * 10e-6] [1, 1]) } 0 [fin t] = .ok res ∧
      res.radiance = .arr [fin (planckWavelength 10e-6 t)] := by
  have h6 : 1e-6 < t := by
    have h31 : Real.log 31 ≤ 30 := by have := Real.log_le_sub_one_of_pos (show (0 : ℝ) < 31 by norm_num); linarith
    have hl : 0 < Real.log 31 := Real.log_pos (by norm_num)
    rw [ht, lt_div_iff₀ (by norm_num [k]; exact hl)]
    norm_num [h, Spec.c, k]
    linarith
  refine C09_constant_band _ [10e-6, 2 * 10e-6] [1, 1] ⟨rfl, rfl, rfl, rfl⟩ ⟨?_, ?_, ?_, ?_⟩ 0 t _ h6 ?_
  · simp [Increasing]; norm_num
  · intro x hx; simp at hx; rcases hx with rfl | rfl <;> norm_num
  · intro x hx; simp at hx; subst hx; norm_num
  · simp [trap]; norm_num
  · intro x hx
    rw [if_neg (by simp [exConv, WAVE_LENGTH, WAVE_NUMBER])]
    simp only [List.mem_cons, List.not_mem_nil, or_false] at hx
    rcases hx with rfl | rfl
    · rfl
    · exact (exTwice _ t (by norm_num) ht).symm

/-! ### C10 -/

/-- C10: band radiance (normalised or band-integrated) is positive and strictly increasing
in the brightness temperature. -/
theorem C10_band_radiance_increasing (c : RadTb XF) (w r : List ℝ) (hc : Loaded c w r)
    (hb : GoodBand w r) (nc : Int) (norm : Bool) (t₁ t₂ : ℝ) (h₁ : 1e-6 < t₁) (h : t₁ < t₂) :
    ∃ (v₁ v₂ : ℝ) (res : RadResult XF), c.tb2radiance nc [fin t₁, fin t₂] none norm = .ok res ∧
      res.radiance = .arr [fin v₁, fin v₂] ∧ 0 < v₁ ∧ v₁ < v₂ := by
  have h2 := h₁.trans h
  have p1 : 0 < t₁ := lt_trans (by norm_num) h₁
  have hA := hb.integral
  have hd := tb2radiance_direct hc (goodBand_ne hb) hb.pos hb.integral.ne' nc [t₁, t₂] (by simp)
      (by intro t ht; simp at ht; rcases ht with rfl | rfl <;> assumption) norm
  have hlt := bandInt_lt c.wavespace hb hc.len p1 h
  have hpos : 0 < bandInt c.wavespace w r t₁ := by
    -- strictly above the integral of zero
    have := trap_strict_mono Prod.fst Prod.snd (fun _ => 0)
      (fun p => bandPlanck c.wavespace p.1 t₁) (w.zip r)
      (by rw [zip_map_fst hc.len]; exact Increasing.nonDec hb.inc)
      (fun p hp => hb.nonneg _ (List.of_mem_zip hp).2)
      (by rw [zip_map_fst hc.len, zip_map_snd hc.len]; exact hb.integral)
      (fun p hp => bandPlanck_pos _ (hb.pos _ (List.of_mem_zip hp).1) p1)
    simp only [mul_zero] at this
    rw [trap_zero] at this
    exact this
  refine ⟨_, _, _, hd, rfl, ?_, ?_⟩
  · cases norm
    · simpa using hpos
    · simpa using div_pos hpos hA
  · cases norm
    · simpa using hlt
    · simpa using div_lt_div_of_pos_right hlt hA

example : ∃ (v₁ v₂ : ℝ) (res : RadResult XF), exConv.tb2radiance 0 [fin 220, fin 300] none false = .ok res ∧
    res.radiance = .arr [fin v₁, fin v₂] ∧ 0 < v₁ ∧ v₁ < v₂ :=
  C10_band_radiance_increasing exConv _ _ exConv_loaded exBand_good 0 false 220 300
    (by norm_num) (by norm_num)

/-! ### C11 -/

/-- C11: band-integrated radiance = normalised radiance × rsr_integral, for arrays of any
length, with the matching unit strings. -/
theorem C11_unnormalised_is_integral_times_normalised (c : RadTb XF) (w r : List ℝ)
    (hc : Loaded c w r) (hb : GoodBand w r) (nc : Int) (ts : List ℝ) (hts : ts ≠ [])
    (ht : ∀ t ∈ ts, 1e-6 < t) :
    ∃ vs : List ℝ,
      c.tb2radiance nc (ts.map fin) none true = .ok
        { radiance := .arr (vs.map fin)
          unit := if c.wavespace = "wavenumber" then "W/m^2 sr^-1 (m^-1)^-1" else "W/m^2 sr^-1 m^-1"
          scale := fin 1 } ∧
      c.tb2radiance nc (ts.map fin) none false = .ok
        { radiance := .arr (vs.map fun v => fin v * c.rsr_integral)
          unit := "W/m^2 sr^-1", scale := fin 1 } ∧
      vs.length = ts.length := by
  have hA := hb.integral.ne'
  refine ⟨ts.map fun t => bandInt c.wavespace w r t / trap w r, ?_, ?_, by simp⟩
  · have := tb2radiance_direct hc (goodBand_ne hb) hb.pos hA nc ts hts ht true
    rw [show ts.map fin = finL ts from rfl, this]
    simp only [finL, if_true]
    norm_num [radianceUnit, WAVE_NUMBER]
  · have := tb2radiance_direct hc (goodBand_ne hb) hb.pos hA nc ts hts ht false
    rw [show ts.map fin = finL ts from rfl, this]
    simp only [finL, hc.integral, List.map_map, Function.comp_def, fin_mul, div_mul_cancel₀ _ hA]
    norm_num [radianceUnit]

/-- C11: multiplying every response by one positive factor does not change the normalised
radiance. -/
theorem C11_response_scale_invariance (c c' : RadTb XF) (w r : List ℝ) (a : ℝ) (ha : 0 < a)
    (hc : Loaded c w r) (hc' : Loaded c' w (r.map (a * ·))) (hws : c'.wavespace = c.wavespace)
    (hb : GoodBand w r) (nc : Int) (ts : List ℝ) (hts : ts ≠ []) (ht : ∀ t ∈ ts, 1e-6 < t) :
    c'.tb2radiance nc (ts.map fin) = c.tb2radiance nc (ts.map fin) := by
  have hA := hb.integral
  have hz : w.zip (r.map (a * ·)) = (w.zip r).map fun p => (p.1, a * p.2) := by
    rw [List.zip_map_right]; rfl
  have hl := hc.len
  have e1 : trap w (r.map (a * ·)) = a * trap w r := by
    have := trap_smul Prod.fst Prod.snd a (w.zip r)
    rw [zip_map_fst hl, zip_map_snd hl] at this
    rw [← this]
    congr 1
    rw [← zip_map_snd hl, List.map_map, zip_map_snd hl]; rfl
  have e2 : ∀ t, bandInt c.wavespace w (r.map (a * ·)) t = a * bandInt c.wavespace w r t := by
    intro t
    unfold bandInt
    rw [hz, List.map_map, List.map_map, ← trap_smul]
    congr 1
    apply List.map_congr_left; intro p _; simp; ring
  have hA' : trap w (r.map (a * ·)) ≠ 0 := by rw [e1]; exact (mul_pos ha hA).ne'
  have d1 := tb2radiance_direct hc (goodBand_ne hb) hb.pos hA.ne' nc ts hts ht true
  have d2 := tb2radiance_direct hc' (goodBand_ne hb) hb.pos hA' nc ts hts ht true
  rw [show ts.map fin = finL ts from rfl, d1, d2, hws]
  have : ∀ t, bandInt c.wavespace w (r.map (a * ·)) t / trap w (r.map (a * ·)) =
      bandInt c.wavespace w r t / trap w r := by
    intro t; rw [e1, e2, mul_div_mul_left _ _ ha.ne']
  simp only [if_true, this]

example : ∃ vs : List ℝ, vs.length = 2 ∧
      exConv.tb2radiance 0 ([250, 300].map fin) none false = .ok
        { radiance := .arr (vs.map fun v => fin v * exConv.rsr_integral)
          unit := "W/m^2 sr^-1", scale := fin 1 } := by
  obtain ⟨vs, _, h, hl⟩ := C11_unnormalised_is_integral_times_normalised exConv _ _ exConv_loaded
    exBand_good 0 [250, 300] (by simp)
    (by intro t ht; simp at ht; rcases ht with rfl | rfl <;> norm_num)
  exact ⟨vs, hl, h⟩

/-! ### C12 -/

/-- The entry of a non-empty table selected by an integer position: first entry below the
table, last entry above it (specification). -/
def tableEntry {β : Type} (xs : List β) (k : ℤ) (y : β) : Prop :=
  (k ≤ 0 → xs.head? = some y) ∧
  (0 ≤ k → k < xs.length → xs[k.toNat]? = some y) ∧
  ((xs.length : ℤ) ≤ k → xs.getLast? = some y)

/-- C12: LUT lookup of one temperature, when the scaled values fit in int16: the table entry
at distance `trunc(tb·scale) - trunc(tb₀·scale)`, first/last entry outside the table. -/
theorem C12_lut_entry (nc : Int) (s t tb0 : ℝ) (tbs : List XF) (rad : List XF) (hrad : rad ≠ [])
    (ht : -32768 ≤ truncR (t * s) ∧ truncR (t * s) ≤ 32767)
    (h0 : -32768 ≤ truncR (tb0 * s) ∧ truncR (tb0 * s) ≤ 32767)
    (hk : -32768 ≤ truncR (t * s) - truncR (tb0 * s) ∧
      truncR (t * s) - truncR (tb0 * s) ≤ 32767) :
    ∃ y, lutRadiance nc (fin s) ⟨fin tb0 :: tbs, rad⟩ [fin t] = .ok (.pyFloat y) ∧
      tableEntry rad (truncR (t * s) - truncR (tb0 * s)) y := by
  set k := truncR (t * s) - truncR (tb0 * s) with hkdef
  obtain ⟨hlt, hidx⟩ := pyIndex_clip rad hrad k
  refine ⟨rad[(clipInt k 0 ((rad.length : ℤ) - 1)).toNat], ?_, ?_⟩
  · have hn : ¬ (truncR (tb0 * s) < -32768 ∨ 32767 < truncR (tb0 * s)) := by omega
    have e1 : NP.castInt16 nc (fin t * fin s) = truncR (t * s) := by
      simp [NP.castInt16, wrap16_id ht.1 ht.2]
    have e2 : NP.pyIndex (fin tb0 :: tbs) 0 = .ok (fin tb0) := rfl
    have e3 : pyInt (fin tb0 * fin s) = .ok (truncR (tb0 * s)) := by simp [pyInt]
    simp only [lutRadiance, List.map_cons, List.map_nil, e1, e2, e3, bind, Except.bind, hn, if_false,
      wrap16_id hk.1 hk.2, ← hkdef, List.mapM_cons, List.mapM_nil, hidx, pure, Except.pure]
  · have hp : 0 < rad.length := List.length_pos_iff.2 hrad
    refine ⟨fun h => ?_, fun h1 h2 => ?_, fun h => ?_⟩
    · have : (clipInt k 0 ((rad.length : ℤ) - 1)).toNat = 0 := by unfold clipInt; omega
      rw [List.head?_eq_getElem?]; simp only [this]; exact List.getElem?_eq_getElem hp
    · have : (clipInt k 0 ((rad.length : ℤ) - 1)).toNat = k.toNat := by unfold clipInt; omega
      simp only [this]; exact List.getElem?_eq_getElem (by omega)
    · have : (clipInt k 0 ((rad.length : ℤ) - 1)).toNat = rad.length - 1 := by unfold clipInt; omega
      rw [List.getLast?_eq_getElem?]; simp only [this]; exact List.getElem?_eq_getElem (by omega)

example : ∃ y, lutRadiance 0 (fin 10) ⟨[fin 150, fin 150.1], [fin 3, fin 4]⟩ [fin 400] =
    .ok (.pyFloat y) ∧ [fin 3, fin 4].getLast? = some y := by
  have ht : truncR (400 * 10) = 4000 := by
    unfold truncR
    rw [if_pos (by norm_num), show ((400:ℝ) * 10) = ((4000 : ℤ) : ℝ) by norm_num, Int.floor_intCast]
  have h0 : truncR (150 * 10) = 1500 := by
    unfold truncR
    rw [if_pos (by norm_num), show ((150:ℝ) * 10) = ((1500 : ℤ) : ℝ) by norm_num, Int.floor_intCast]
  obtain ⟨y, h1, h2⟩ := C12_lut_entry 0 10 400 150 [fin 150.1] [fin 3, fin 4] (by simp)
    (by rw [ht]; omega) (by rw [h0]; omega) (by rw [ht, h0]; omega)
  exact ⟨y, h1, h2.2.2 (by rw [ht, h0]; simp)⟩

/-- C12: a lookup never fails and returns only table entries, one per temperature, whatever
the temperatures (NaN, infinities and overflowing values included) and whatever NaN casts to. -/
theorem C12_lut_total (nc : Int) (s tb0 : ℝ) (tbs rad : List XF) (hrad : rad ≠ [])
    (h0 : -32768 ≤ truncR (tb0 * s) ∧ truncR (tb0 * s) ≤ 32767) (tb : List XF) :
    ∃ ys : List XF, (∀ y ∈ ys, y ∈ rad) ∧ ys.length = tb.length ∧
      (lutRadiance nc (fin s) ⟨fin tb0 :: tbs, rad⟩ tb = .ok (.arr ys) ∨
        ∃ y, ys = [y] ∧ lutRadiance nc (fin s) ⟨fin tb0 :: tbs, rad⟩ tb = .ok (.pyFloat y)) := by
  have hn : ¬ (truncR (tb0 * s) < -32768 ∨ 32767 < truncR (tb0 * s)) := by omega
  set idx := (tb.map fun t => NP.castInt16 nc (t * fin s)).map fun n =>
    clipInt (NP.wrap16 (n - truncR (tb0 * s))) 0 ((rad.length : ℤ) - 1) with hidx
  have hm : idx.mapM (fun i => NP.pyIndex rad i) =
      .ok ((tb.map fun t => NP.castInt16 nc (t * fin s)).map fun n =>
        rad[(clipInt (NP.wrap16 (n - truncR (tb0 * s))) 0 ((rad.length : ℤ) - 1)).toNat]'(
          (pyIndex_clip rad hrad _).1)) := by
    rw [hidx, List.mapM_map]
    exact mapM_ok _ _ _ (fun n _ => (pyIndex_clip rad hrad _).2)
  set ys := (tb.map fun t => NP.castInt16 nc (t * fin s)).map fun n =>
        rad[(clipInt (NP.wrap16 (n - truncR (tb0 * s))) 0 ((rad.length : ℤ) - 1)).toNat]'(
          (pyIndex_clip rad hrad _).1) with hys
  refine ⟨ys, ?_, by simp [hys], ?_⟩
  · intro y hy
    rw [hys, List.mem_map] at hy
    obtain ⟨n, _, rfl⟩ := hy
    exact List.getElem_mem _
  · have e2 : NP.pyIndex (fin tb0 :: tbs) 0 = .ok (fin tb0) := rfl
    have e3 : pyInt (fin tb0 * fin s) = .ok (truncR (tb0 * s)) := by simp [pyInt]
    have key : ∀ zs, idx.mapM (fun i => NP.pyIndex rad i) = .ok zs →
        (lutRadiance nc (fin s) ⟨fin tb0 :: tbs, rad⟩ tb = .ok (.arr zs) ∨
        ∃ y, zs = [y] ∧ lutRadiance nc (fin s) ⟨fin tb0 :: tbs, rad⟩ tb = .ok (.pyFloat y)) := by
      intro zs hz
      simp only [lutRadiance, e2, e3, bind, Except.bind, hn, if_false]
      rw [← hidx, hz]
      match zs with
      | [] => exact Or.inl rfl
      | [x] => exact Or.inr ⟨x, rfl, rfl⟩
      | x :: y :: zs => exact Or.inl rfl
    exact key ys hm

/-- a NaN and temperatures far outside the table are looked up too -/
example (nc : Int) : ∃ ys : List XF, (∀ y ∈ ys, y ∈ [fin 3, fin 4]) ∧ ys.length = 3 ∧
    lutRadiance nc (fin 10) ⟨[fin 150, fin 150.1], [fin 3, fin 4]⟩ [XF.nan, fin 1e9, fin (-5)] = .ok (.arr ys) := by
  have h : truncR ((150 : ℝ) * 10) = 1500 := by
    unfold truncR
    rw [if_pos (by norm_num), show (150 : ℝ) * 10 = ((1500 : ℤ) : ℝ) by norm_num, Int.floor_intCast]
  obtain ⟨ys, h1, h2, h3⟩ := C12_lut_total nc 10 150 [fin 150.1] [fin 3, fin 4] (by simp) (by rw [h]; omega)
    [XF.nan, fin 1e9, fin (-5)]
  rcases h3 with h3 | ⟨y, rfl, -⟩
  · exact ⟨ys, h1, h2, h3⟩
  · simp at h2

/-! ### C13 -/

/-- arange(150, 360, 0.1) has 2100 values 150 + i/10 -/
theorem arange_default (N : ℕ) (hN : N = 2100) : NP.arange (TB_MIN : XF) TB_MAX (fin 0.1) =
    .ok (finL ((List.range N).map fun (i : ℕ) => 150 + (i : ℝ) * 0.1)) := by
  have h1 : ((TB_MAX - TB_MIN) / fin 0.1 : XF) = fin 2100 := by
    simp only [TB_MAX, TB_MIN, ofSci_eq, fin_sub]
    rw [fin_div _ (by norm_num)]; norm_num
  have h2 : truncR 2100 = 2100 := by
    unfold truncR
    rw [if_pos (by norm_num), show (2100:ℝ) = ((2100 : ℤ) : ℝ) by norm_num, Int.floor_intCast]
  have h3 : NP.ceilI (fin 2100) = some 2100 := by
    simp [NP.ceilI, h2]
  have h4 : (2100 : ℤ).toNat = N := by omega
  simp only [NP.arange, h1, h3, h4]
  clear h3 h4 h2 h1 hN
  congr 1
  simp only [finL, List.map_map]
  apply List.map_congr_left
  intro i _
  simp only [Function.comp_def, TB_MIN, ofSci_eq, ofInt_eq, fin_mul, fin_add]
  norm_num

/-- C13: with the table made by `make_tb2rad_lut` at resolution 0.1 K, for every temperature
in [150, 360) the looked-up radiance `L` satisfies `R(tb - 0.1) < L ≤ R(tb)`, where `R` is the
exact band radiance (as returned by `tb2radiance` without table); and looked-up radiances are
non-decreasing in the temperature. -/
theorem C13_lut_within_one_step (c : RadTb XF) (w r : List ℝ) (hc : Loaded c w r)
    (hb : GoodBand w r) (nc : Int) (norm : Bool)
    (hres : c.tb_resolution = fin 0.1) (hscale : c.tb_scale = 1.0 / fin 0.1) :
    ∃ (R : ℝ → ℝ) (lut : Lut XF) (E : ℝ → ℝ),
      (∀ t, 1e-6 < t → ∃ res, c.tb2radiance nc [fin t] none norm = .ok res ∧
        res.radiance = .arr [fin (R t)]) ∧
      c.makeTb2radLut nc norm = .ok lut ∧
      (∀ t, 150 ≤ t → t < 360 →
        (∃ res, c.tb2radiance nc [fin t] (some lut) norm = .ok res ∧
          res.radiance = .pyFloat (fin (E t))) ∧ R (t - 0.1) < E t ∧ E t ≤ R t) ∧
      (∀ t t', 150 ≤ t → t ≤ t' → t' < 360 → E t ≤ E t') := by
  have hA := hb.integral
  set R : ℝ → ℝ := fun t => if norm then bandInt c.wavespace w r t / trap w r
    else bandInt c.wavespace w r t with hR
  have hRlt : ∀ t₁ t₂, 0 < t₁ → t₁ < t₂ → R t₁ < R t₂ := by
    intro t₁ t₂ h1 h
    have := bandInt_lt c.wavespace hb hc.len h1 h
    rw [hR]
    cases norm
    · simpa using this
    · simpa using div_lt_div_of_pos_right this hA
  have hdir := fun (ts : List ℝ) (h1 : ts ≠ []) (h2 : ∀ t ∈ ts, 1e-6 < t) =>
    tb2radiance_direct hc (goodBand_ne hb) hb.pos hA.ne' nc ts h1 h2 norm
  obtain ⟨N, hN⟩ : ∃ N : ℕ, N = 2100 := ⟨_, rfl⟩
  set grid := (List.range N).map fun (i : ℕ) => 150 + (i : ℝ) * 0.1 with hgrid
  have hgne : grid ≠ [] := by rw [hgrid]; simp; omega
  have hg0 : grid.head? = some 150 := by
    rw [hgrid, List.head?_map, List.head?_range, if_neg (by omega)]; norm_num
  obtain ⟨gtail, hgc⟩ : ∃ tl, grid = 150 :: tl := by
    cases hh : grid with
    | nil => exact absurd hh hgne
    | cons a tl => rw [hh] at hg0; simp at hg0; subst hg0; exact ⟨tl, rfl⟩
  set lut : Lut XF := ⟨finL grid, finL (grid.map R)⟩ with hlut
  set E : ℝ → ℝ := fun t => R (150 + ((⌊t * 10⌋ - 1500).toNat : ℝ) * 0.1) with hE
  have hscale' : c.tb_scale = fin 10 := by
    rw [hscale, ofSci_eq, fin_div _ (by norm_num)]; norm_num
  have hlen : (finL (grid.map R)).length = N := by simp [hgrid]
  -- floor facts
  have hfl : ∀ t : ℝ, 150 ≤ t → t < 360 → 1500 ≤ ⌊t * 10⌋ ∧ ⌊t * 10⌋ < 3600 := by
    intro t h1 h2
    constructor
    · apply Int.le_floor.2; push_cast; linarith
    · apply Int.floor_lt.2; push_cast; linarith
  have hnode : ∀ t : ℝ, 150 ≤ t → t < 360 →
      (150 + ((⌊t * 10⌋ - 1500).toNat : ℝ) * 0.1) = (⌊t * 10⌋ : ℝ) * 0.1 := by
    intro t h1 h2
    obtain ⟨a, b⟩ := hfl t h1 h2
    have : (((⌊t * 10⌋ - 1500).toNat : ℤ) : ℝ) = ((⌊t * 10⌋ - 1500 : ℤ) : ℝ) := by
      rw [Int.toNat_of_nonneg (by omega)]
    rw [show (((⌊t * 10⌋ - 1500).toNat : ℕ) : ℝ) = (((⌊t * 10⌋ - 1500).toNat : ℤ) : ℝ) by norm_cast,
      this]
    push_cast; norm_num; ring
  refine ⟨R, lut, E, ?_, ?_, ?_, ?_⟩
  · intro t ht
    exact ⟨_, hdir [t] (by simp) (by simpa using ht), rfl⟩
  · have := hdir grid hgne (by
      intro t ht
      rw [hgrid, List.mem_map] at ht
      obtain ⟨i, _, rfl⟩ := ht
      have : (0:ℝ) ≤ (i:ℝ) * 0.1 := by positivity
      linarith [show (1e-6:ℝ) < 150 by norm_num])
    simp only [RadTb.makeTb2radLut, hres, arange_default N hN, bind, Except.bind]
    rw [← hgrid, this]
    rfl
  · intro t h1 h2
    obtain ⟨a, b⟩ := hfl t h1 h2
    have htr : truncR (t * 10) = ⌊t * 10⌋ := by unfold truncR; rw [if_pos (by linarith)]
    have h0 : truncR (150 * 10) = 1500 := by
      unfold truncR
      rw [if_pos (by norm_num), show ((150:ℝ) * 10) = ((1500 : ℤ) : ℝ) by norm_num,
        Int.floor_intCast]
    obtain ⟨y, hy, hent⟩ := C12_lut_entry nc 10 t 150 (finL gtail) (finL (grid.map R))
      (by intro h; rw [h] at hlen; simp at hlen; omega) (by rw [htr]; omega) (by rw [h0]; omega)
      (by rw [htr, h0]; omega)
    rw [htr, h0] at hent
    have hyv : y = fin (E t) := by
      have := hent.2.1 (by omega) (by rw [hlen]; omega)
      have hi : (⌊t * 10⌋ - 1500).toNat < N := by omega
      simp only [finL, hgrid, List.map_map, List.getElem?_map, List.getElem?_range hi,
        Option.map_some, Function.comp] at this
      injection this with this
      rw [← this, hE]
    refine ⟨?_, ?_, ?_⟩
    · have hl : lutRadiance nc c.tb_scale lut [fin t] = .ok (.pyFloat y) := by
        rw [hscale', hlut]
        simp only [hgc] at hy ⊢
        exact hy
      refine ⟨{ radiance := .pyFloat y, unit := radianceUnit c.wavespace norm, scale := 1.0 }, ?_, ?_⟩
      · simp only [RadTb.tb2radiance, hl, bind, Except.bind, pure, Except.pure]
      · rw [hyv]
    · show R (t - 0.1) < R _
      rw [hnode t h1 h2]
      apply hRlt
      · norm_num; linarith
      · have := Int.lt_floor_add_one (t * 10)
        norm_num; linarith
    · show R _ ≤ R t
      rw [hnode t h1 h2]
      have := Int.floor_le (t * 10)
      rcases (show (⌊t * 10⌋ : ℝ) * 0.1 ≤ t by norm_num; linarith).eq_or_lt with e | l
      · rw [e]
      · refine (hRlt _ _ ?_ l).le
        have : (1500:ℝ) ≤ (⌊t * 10⌋ : ℝ) := by exact_mod_cast a
        norm_num; linarith
  · intro t t' h1 h h2
    show R _ ≤ R _
    rw [hnode t h1 (by linarith), hnode t' (by linarith) h2]
    have hle : ⌊t * 10⌋ ≤ ⌊t' * 10⌋ := Int.floor_le_floor (by linarith)
    have hle' : (⌊t * 10⌋ : ℝ) ≤ (⌊t' * 10⌋ : ℝ) := by exact_mod_cast hle
    have hpos : (1500:ℝ) ≤ (⌊t * 10⌋ : ℝ) := by exact_mod_cast (hfl t h1 (by linarith)).1
    rcases hle'.eq_or_lt with e | l
    · rw [e]
    · exact (hRlt _ _ (by linarith) (by linarith)).le

example : ∃ (R : ℝ → ℝ) (lut : Lut XF) (E : ℝ → ℝ),
    exConv.makeTb2radLut 0 true = .ok lut ∧ R (300.25 - 0.1) < E 300.25 ∧ E 300.25 ≤ R 300.25 := by
  obtain ⟨R, lut, E, _, h2, h3, _⟩ := C13_lut_within_one_step exConv _ _ exConv_loaded exBand_good 0
    true rfl rfl
  have := h3 300.25 (by norm_num) (by norm_num)
  exact ⟨R, lut, E, h2, this.2⟩

/-! ### C14 -/

/-- C14 is false of the code: with a table of increasing radiances starting at 150 K, 4000 K
looks up the first entry although 300 K looks up the last one (int16 wrap-around). -/
theorem C14_hotter_can_look_up_less :
    lutRadiance 0 (fin 10) ⟨[fin 150, fin 150.1], [fin 1, fin 2]⟩ [fin 300] = .ok (.pyFloat (fin 2)) ∧
    lutRadiance 0 (fin 10) ⟨[fin 150, fin 150.1], [fin 1, fin 2]⟩ [fin 4000] = .ok (.pyFloat (fin 1)) := by
  have tr : ∀ n : ℤ, 0 ≤ n → truncR (n : ℝ) = n := by
    intro n hn
    unfold truncR
    rw [if_pos (by exact_mod_cast hn), Int.floor_intCast]
  have t1 : truncR (300 * 10) = 3000 := by
    have := tr 3000 (by norm_num); norm_num at this ⊢; exact this
  have t2 : truncR (4000 * 10) = 40000 := by
    have := tr 40000 (by norm_num); norm_num at this ⊢; exact this
  have t0 : truncR (150 * 10) = 1500 := by
    have := tr 1500 (by norm_num); norm_num at this ⊢; exact this
  constructor
  · simp [lutRadiance, NP.castInt16, NP.pyIndex, pyInt, t1, t0, NP.wrap16, clipInt, bind, Except.bind,
      pure, Except.pure]
  · simp [lutRadiance, NP.castInt16, NP.pyIndex, pyInt, t2, t0, NP.wrap16, clipInt, bind, Except.bind,
      pure, Except.pure]

theorem truncR_mono {x y : ℝ} (h : x ≤ y) : truncR x ≤ truncR y := by
  unfold truncR
  split
  · rw [if_pos (by linarith)]; exact Int.floor_le_floor h
  · split
    · have h1 : ⌈x⌉ ≤ 0 := Int.ceil_le.2 (by push_cast; linarith)
      have h2 : 0 ≤ ⌊y⌋ := Int.floor_nonneg.2 (by assumption)
      omega
    · exact Int.ceil_le_ceil h

/-- What holds of C14: as long as the scaled temperatures (and their distance to the table
start) fit in int16, lookups in a table of non-decreasing radiances are monotone.
Missing: temperatures whose scaled value overflows int16 (see the counterexample). -/
theorem C14_lut_monotone_partial (nc : Int) (s t t' tb0 : ℝ) (tbs : List XF) (rad : List ℝ)
    (hs : 0 < s) (hrad : rad ≠ []) (hmono : rad.Pairwise (· ≤ ·)) (htt : t ≤ t')
    (h0 : -32768 ≤ truncR (tb0 * s) ∧ truncR (tb0 * s) ≤ 32767)
    (hlo : -32768 ≤ truncR (t * s) ∧ -32768 ≤ truncR (t * s) - truncR (tb0 * s))
    (hhi : truncR (t' * s) ≤ 32767 ∧ truncR (t' * s) - truncR (tb0 * s) ≤ 32767) :
    ∃ y y' : ℝ,
      lutRadiance nc (fin s) ⟨fin tb0 :: tbs, finL rad⟩ [fin t] = .ok (.pyFloat (fin y)) ∧
      lutRadiance nc (fin s) ⟨fin tb0 :: tbs, finL rad⟩ [fin t'] = .ok (.pyFloat (fin y')) ∧
      y ≤ y' := by
  have hle : truncR (t * s) ≤ truncR (t' * s) :=
    truncR_mono (mul_le_mul_of_nonneg_right htt hs.le)
  have hne : finL rad ≠ [] := by simpa [finL] using hrad
  have main : ∀ u : ℝ, -32768 ≤ truncR (u * s) → truncR (u * s) ≤ 32767 →
      -32768 ≤ truncR (u * s) - truncR (tb0 * s) → truncR (u * s) - truncR (tb0 * s) ≤ 32767 →
      ∃ h : (clipInt (truncR (u * s) - truncR (tb0 * s)) 0 ((rad.length : ℤ) - 1)).toNat < rad.length,
      lutRadiance nc (fin s) ⟨fin tb0 :: tbs, finL rad⟩ [fin u] =
        .ok (.pyFloat (fin (rad[(clipInt (truncR (u * s) - truncR (tb0 * s)) 0 ((rad.length : ℤ) - 1)).toNat]))) := by
    intro u a1 a2 a3 a4
    have hn : ¬ (truncR (tb0 * s) < -32768 ∨ 32767 < truncR (tb0 * s)) := by omega
    obtain ⟨hlt, hidx⟩ := pyIndex_clip (finL rad) hne (truncR (u * s) - truncR (tb0 * s))
    have hlen : (finL rad).length = rad.length := by simp
    refine ⟨by simpa using hlt, ?_⟩
    have e1 : NP.castInt16 nc (fin u * fin s) = truncR (u * s) := by
      simp [NP.castInt16, wrap16_id a1 a2]
    have e2 : NP.pyIndex (fin tb0 :: tbs) 0 = .ok (fin tb0) := rfl
    have e3 : pyInt (fin tb0 * fin s) = .ok (truncR (tb0 * s)) := by simp [pyInt]
    simp only [lutRadiance, List.map_cons, List.map_nil, e1, e2, e3, bind, Except.bind, hn, if_false,
      wrap16_id a3 a4, List.mapM_cons, List.mapM_nil, hidx, pure, Except.pure]
    simp [finL]
  obtain ⟨b1, e1⟩ := main t hlo.1 (by omega) hlo.2 (by omega)
  obtain ⟨b2, e2⟩ := main t' (by omega) hhi.1 (by omega) hhi.2
  refine ⟨_, _, e1, e2, ?_⟩
  have hij : (clipInt (truncR (t * s) - truncR (tb0 * s)) 0 ((rad.length : ℤ) - 1)).toNat ≤
      (clipInt (truncR (t' * s) - truncR (tb0 * s)) 0 ((rad.length : ℤ) - 1)).toNat := by
    unfold clipInt; omega
  rcases hij.eq_or_lt with e | l
  · simp only [e]; exact le_refl _
  · exact List.pairwise_iff_getElem.1 hmono _ _ b1 b2 l

/-! ### C15, C94 -/

/-- C15: `RadTbConverter.radiance2tb` returns the unique positive temperature whose Planck
radiance at the band's central wavelength (stored in micron) is the given radiance. -/
theorem C15_radiance2tb_unique_temperature (c : RadTb XF) (order : List ℕ) (b : BandRsr XF)
    (det : DetRsr XF) (cw L : ℝ)
    (hb : converterLookup c.wavespace c.rsrInstrument c.rsr c.bandname = .ok b)
    (hd : Dict.getItem b c.detector = .ok det)
    (hcw : Dict.getItem det "central_wavelength" = .ok (.num (fin cw)))
    (hpos : 0 < cw) (hL : 0 < L) :
    ∃ T : ℝ, c.radiance2tb order (.nd [fin L]) = .ok (.nd [fin T]) ∧ 0 < T ∧
      planckWavelength (cw * 1e-6) T = L ∧
      ∀ T', 0 < T' → planckWavelength (cw * 1e-6) T' = L → T' = T := by
  have hl : 0 < cw * 1e-6 := mul_pos hpos (by norm_num)
  refine ⟨brightnessTemperature (cw * 1e-6) L, ?_, bt_pos hl hL, planck_bt_wl hl hL, ?_⟩
  · have hg : getNum det "central_wavelength" = .ok (fin cw) := by simp [getNum, hcw, bind, Except.bind]; rfl
    simp only [RadTb.radiance2tb, hb, hd, hg, bind, Except.bind, ofSci_eq, fin_mul]
    show Except.ok (Val.nd [rad2tempPoint (fin (cw * 1e-6)) (fin L)]) = _
    rw [rad2temp_fin hl hL]
  · intro T' hT' he
    rw [← he, bt_planck_wl hl hT']

example : ∃ T : ℝ, 0 < T ∧ planckWavelength (11 * 1e-6) T = 9.5e6 := by
  obtain ⟨T, _, h1, h2, _⟩ := C15_radiance2tb_unique_temperature
    { exConv with rsr := [("ch4", [("det-1", [("central_wavelength", .num (fin 11))])])] } []
    [("det-1", [("central_wavelength", .num (fin 11))])] [("central_wavelength", .num (fin 11))]
    11 9.5e6 rfl rfl rfl (by norm_num) (by norm_num)
  exact ⟨T, h1, h2⟩

/-- C94 is false of the code: the radiance that `tb2radiance` returns for a single
temperature with a look-up table is a Python float, and `radiance2tb` raises AttributeError
for every Python float. -/
theorem C94_single_lut_radiance_not_convertible_back (order : List ℕ) (x w : XF) :
    radiance2tbFun order (.pyFloat x) w = .error .attributeError := rfl

/-- C94: what does work: array (or numpy scalar) radiances are accepted.
Missing: the one-element LUT result, which is a Python float. -/
theorem C94_array_radiance_convertible_partial (order : List ℕ) (xs : List XF) (w x : XF) :
    radiance2tbFun order (.nd xs) w = .ok (.nd (xs.map (rad2tempPoint w))) ∧
    radiance2tbFun order (.npScalar x) w = .ok (.npScalar (rad2tempPoint w x)) := ⟨rfl, rfl⟩

end Verif.Props
