import Verif.Model.Nir
import Verif.Spec.Nir
import Verif.Lemmas.RadTb
import Verif.Lemmas.ReaderOps
/-
Lemmas about the 3.x micron reflectance retrieval.
-/
namespace Verif.Lemmas
open XF Model PyNum Spec

/-! ### Arrays -/

theorem zipWith_maps {P A B C : Type} (f : A → B → C) (g : P → A) (h : P → B) (l : List P) :
    List.zipWith f (l.map g) (l.map h) = l.map fun p => f (g p) (h p) := by
  induction l with
  | nil => rfl
  | cons a l ih => simp [ih]

theorem bcast_px {P A B C : Type} (f : A → B → C) (sh : List Nat) (g : P → A) (h : P → B) (l : List P) :
    Arr.bcast f ⟨sh, l.map g⟩ ⟨sh, l.map h⟩ = .ok ⟨sh, l.map fun p => f (g p) (h p)⟩ := by
  unfold Arr.bcast
  rw [if_pos rfl, zipWith_maps]

theorem map_px {P A B : Type} (f : A → B) (sh : List Nat) (g : P → A) (l : List P) :
    Arr.map f ⟨sh, l.map g⟩ = ⟨sh, l.map fun p => f (g p)⟩ := by
  simp [Arr.map, Function.comp_def]

theorem bcastOut_px {P A B : Type} (f : A → B → B) (sh : List Nat) (g : P → A) (h : P → B) (l : List P) :
    Arr.bcastOut f ⟨sh, l.map g⟩ ⟨sh, l.map h⟩ = .ok ⟨sh, l.map fun p => f (g p) (h p)⟩ := by
  unfold Arr.bcastOut
  rw [bcast_px]
  simp [bind, Except.bind, pure, Except.pure]

theorem bcast_scalar_right {A B C : Type} (f : A → B → C) (sh : List Nat) (xs : List A) (y : B)
    (h : sh ≠ []) : Arr.bcast f ⟨sh, xs⟩ (Arr.scalar y) = .ok ⟨sh, xs.map (f · y)⟩ := by
  unfold Arr.bcast Arr.scalar
  rw [if_neg (by simpa using h)]
  cases sh with
  | nil => exact absurd rfl h
  | cons a l => rfl

section
variable {α : Type} [PyNum α]

/-! ### Radiances -/

/-- The conversion `tb2radiance(·, lut=lut)` of an object is the function `R`, element by
element. -/
def Converts (c : RadTb α) (nc : Int) (lut : Option (Lut α)) (R : α → α) : Prop :=
  ∀ ts : List α, ts ≠ [] → ∃ res, c.tb2radiance nc ts lut = .ok res ∧ res.radiance.elems = ts.map R

theorem tb2radianceArr_px {c : RadTb α} {nc : Int} {lut : Option (Lut α)} {R : α → α}
    (hR : Converts c nc lut R) (sh : List Nat) {P : Type} (px : List P) (hpx : px ≠ []) (g : P → α)
    (hsh : lut.isSome ∨ sh = [px.length]) :
    tb2radianceArr c nc ⟨sh, px.map g⟩ lut = .ok ⟨sh, px.map fun p => R (g p)⟩ := by
  obtain ⟨res, h1, h2⟩ := hR (px.map g) (by simpa using hpx)
  unfold tb2radianceArr
  simp only [h1, bind, Except.bind]
  have h3 : res.radiance.elems = px.map fun p => R (g p) := by rw [h2, List.map_map]; rfl
  cases lut with
  | some l => simp [pure, Except.pure]; exact h3
  | none =>
    simp only [pure, Except.pure]
    rw [h3]
    rcases hsh with h | h
    · simp at h
    · simp [h]

/-! ### Pixels -/

/-- the CO2 factor as computed -/
def pxCorr (useCo2 : Bool) (p : Pixel α) : α :=
  if useCo2 then powNat (p.therm - 0.25 * (p.therm - p.co2)) 4 / powNat p.therm 4 else 1.0

/-- corrected thermal radiance as computed -/
def pxTherm (I : α) (R : α → α) (useCo2 : Bool) (p : Pixel α) : α :=
  R p.therm * I * pxCorr useCo2 p

/-- denominator as computed -/
def pxDenom (I flux thr : α) (R : α → α) (useCo2 : Bool) (p : Pixel α) : α :=
  solarRadiancePoint flux thr p.zenith - pxTherm I R useCo2 p

/-- zenith mask as computed -/
def pxZenith (lim : Option α) (p : Pixel α) : Bool :=
  match lim with
  | none => false
  | some l => lt p.zenith 0.0 || gt p.zenith l

/-- reflectance of a pixel as computed -/
def pxValue (I flux thr : α) (lim : Option α) (R : α → α) (useCo2 : Bool) (p : Pixel α) : α :=
  if lt (pxDenom I flux thr R useCo2 p) NIR_EPSILON || pxZenith lim p || isNaN p.nir then nan
  else (R p.nir * I - pxTherm I R useCo2 p) / pxDenom I flux thr R useCo2 p

theorem r3xOf_px (I flux thr : α) (lim : Option α) (R : α → α) (useCo2 : Bool) (sh : List Nat)
    (hsh : sh ≠ []) (px : List (Pixel α)) (corr : Arr α)
    (hc : corr = if useCo2 then ⟨sh, px.map (pxCorr true)⟩ else Arr.scalar 1.0) :
    r3xOf I lim ⟨sh, px.map fun p => R p.therm⟩ ⟨sh, px.map fun p => R p.nir⟩ corr
      ⟨sh, px.map fun p => solarRadiancePoint flux thr p.zenith⟩ ⟨sh, px.map Pixel.zenith⟩
      ⟨sh, px.map Pixel.nir⟩ = .ok ⟨sh, px.map (pxValue I flux thr lim R useCo2)⟩ := by
  unfold r3xOf
  simp only [map_px]
  have h1 : Arr.bcast (· * ·) ⟨sh, px.map fun p => R p.therm * I⟩ corr =
      .ok ⟨sh, px.map (pxTherm I R useCo2)⟩ := by
    cases useCo2 with
    | true => rw [hc, if_pos rfl, bcast_px]; rfl
    | false => rw [hc]; rw [if_neg (by simp), bcast_scalar_right _ _ _ _ hsh]; simp [Function.comp_def, pxTherm, pxCorr]
  simp only [h1, bind, Except.bind, bcast_px, map_px]
  have h2 : zenithMask lim ⟨sh, px.map Pixel.zenith⟩
        ⟨sh, px.map fun p => lt (solarRadiancePoint flux thr p.zenith - pxTherm I R useCo2 p) NIR_EPSILON⟩ =
      .ok ⟨sh, px.map fun p => pxZenith lim p || lt (pxDenom I flux thr R useCo2 p) NIR_EPSILON⟩ := by
    cases lim with
    | none => simp [zenithMask, pxZenith, pxDenom]
    | some l =>
      unfold zenithMask
      simp only [map_px, bcastOut_px]
      rfl
  rw [h2]
  simp only [bcastOut_px, Arr.whereScalar, bcast_px]
  congr 2
  apply List.map_congr_left
  intro p _
  unfold pxValue pxDenom
  simp only [Bool.or_comm (pxZenith lim p)]

theorem rad39Corr_px (sh : List Nat) (px : List (Pixel α)) :
    rad39Corr ⟨sh, px.map Pixel.therm⟩ ⟨sh, px.map Pixel.co2⟩ = .ok ⟨sh, px.map (pxCorr true)⟩ := by
  unfold rad39Corr
  simp only [bcast_px, map_px, bind, Except.bind]
  rfl

/-- the state left by a retrieval -/
def afterRetrieval (s : Nir α) (R : α → α) (useCo2 : Bool) (sh : List Nat) (px : List (Pixel α)) : Nir α :=
  { s with
    rad3x_t11 := some ⟨sh, px.map fun p => R p.therm⟩
    rad3x := some ⟨sh, px.map fun p => R p.nir⟩
    solar_radiance := some ⟨sh, px.map fun p => solarRadiancePoint s.solar_flux s.sunz_threshold p.zenith⟩
    rad3x_correction := if useCo2 then ⟨sh, px.map (pxCorr true)⟩ else Arr.scalar 1.0
    r3x := some ⟨sh, px.map (pxValue s.conv.rsr_integral s.solar_flux s.sunz_threshold s.masking_limit R useCo2)⟩ }

theorem retrieve_px (s : Nir α) (nc : Int) (lut : Option (Lut α)) (R : α → α) (hR : Converts s.conv nc lut R)
    (useCo2 : Bool) (sh : List Nat) (hsh : sh ≠ []) (px : List (Pixel α)) (hpx : px ≠ [])
    (hs : lut.isSome ∨ sh = [px.length]) :
    Nir.retrieve nc lut ⟨sh, px.map Pixel.zenith⟩ ⟨sh, px.map Pixel.nir⟩ ⟨sh, px.map Pixel.therm⟩
      (if useCo2 then some ⟨sh, px.map Pixel.co2⟩ else none) s =
      (.ok ⟨sh, px.map (pxValue s.conv.rsr_integral s.solar_flux s.sunz_threshold s.masking_limit R useCo2)⟩,
        afterRetrieval s R useCo2 sh px) := by
  have h1 := tb2radianceArr_px hR sh px hpx Pixel.therm hs
  have h2 := tb2radianceArr_px hR sh px hpx Pixel.nir hs
  unfold Nir.retrieve Nir.setRadiances
  rw [st_bind_ok (s' := { s with rad3x_t11 := some ⟨sh, px.map fun p => R p.therm⟩, rad3x := some ⟨sh, px.map fun p => R p.nir⟩ })
    (a := (⟨sh, px.map fun p => R p.therm⟩, ⟨sh, px.map fun p => R p.nir⟩))]
  swap
  · rw [st_bind_ok (st_get s), st_bind_ok (st_lift_ok h1 s), st_bind_ok (st_modify _ s),
      st_bind_ok (st_lift_ok h2 _), st_bind_ok (st_modify _ _)]
    rfl
  rw [st_bind_ok (st_get _)]
  dsimp only
  rw [st_bind_ok (st_modify _ _)]
  have h3 : ∀ u : Nir α, Nir.calculateRad3xCorrection ⟨sh, px.map Pixel.therm⟩
      (if useCo2 then some ⟨sh, px.map Pixel.co2⟩ else none) u =
      (.ok (), { u with rad3x_correction := if useCo2 then ⟨sh, px.map (pxCorr true)⟩ else Arr.scalar 1.0 }) := by
    intro u
    cases useCo2 with
    | false => rfl
    | true =>
      show Nir.deriveRad39Corr _ _ _ u = _
      unfold Nir.deriveRad39Corr
      rw [if_neg (by simp), st_bind_ok (st_lift_ok (rad39Corr_px sh px) u)]
      rfl
  rw [st_bind_ok (h3 _), st_bind_ok (st_get _)]
  dsimp only
  rw [map_px]
  rw [st_bind_ok (st_lift_ok (r3xOf_px s.conv.rsr_integral s.solar_flux s.sunz_threshold s.masking_limit R useCo2 sh hsh px _ rfl) _)]
  rfl

end

/-! ### What the conversion computes -/

/-- the row of band radiances of one temperature, integrated (table-free conversion) -/
noncomputable def directFn (c : RadTb XF) (t : XF) : XF :=
  NP.sum (List.zipWith (fun d s => d * s / 2.0) (NP.diff c.wave)
    (NP.adj (· + ·) (List.zipWith (· * ·) (c.wave.map fun w => planckEntry (c.wavespace != WAVE_NUMBER) w t)
      c.response))) / c.rsr_integral

theorem blackbodyFunction_entries (ws : String) (w ts : List XF) (hw : w ≠ []) (ht : ts ≠ []) :
    blackbodyFunction ws w ts = .ok (ts.map fun t => w.map fun x => planckEntry (ws != WAVE_NUMBER) x t) := by
  unfold blackbodyFunction
  split
  · rename_i h
    rw [blackbody_wn, planck_entries _ _ _ hw ht]; simp [h]
  · rename_i h
    rw [blackbody, planck_entries _ _ _ hw ht, show (ws != WAVE_NUMBER) = true by simpa using h]

theorem converts_direct (c : RadTb XF) (hw : c.wave ≠ []) (hlen : c.wave.length = c.response.length) (nc : Int) :
    Converts c nc none (directFn c) := by
  intro ts hts
  have h1 := blackbodyFunction_entries c.wavespace c.wave ts hw hts
  have h2 : (ts.map fun t => c.wave.map fun x => planckEntry (c.wavespace != WAVE_NUMBER) x t).mapM
      (fun row => NP.bcast2 (· * ·) row c.response) =
      .ok (ts.map fun t => List.zipWith (· * ·) (c.wave.map fun x => planckEntry (c.wavespace != WAVE_NUMBER) x t) c.response) := by
    rw [List.mapM_map]
    exact mapM_ok _ _ _ (fun t _ => bcast2_eq_len _ _ _ (by simp [hlen]))
  have h3 : (ts.map fun t => List.zipWith (· * ·) (c.wave.map fun x => planckEntry (c.wavespace != WAVE_NUMBER) x t) c.response).mapM
      (fun row => NP.trapezoid row c.wave) =
      .ok (ts.map fun t => NP.sum (List.zipWith (fun d s => d * s / 2.0) (NP.diff c.wave)
    (NP.adj (· + ·) (List.zipWith (· * ·) (c.wave.map fun w => planckEntry (c.wavespace != WAVE_NUMBER) w t)
      c.response)))) := by
    rw [List.mapM_map]
    refine mapM_ok _ _ _ (fun t _ => ?_)
    simp only [Function.comp, NP.trapezoid]
    rw [bcast2_eq_len _ _ _ (by simp [NP.diff, adj_length, hlen])]
    rfl
  refine ⟨⟨.arr (ts.map (directFn c)), radianceUnit c.wavespace true, 1.0⟩, ?_, rfl⟩
  simp only [RadTb.tb2radiance, h1, h2, h3, bind, Except.bind, if_true, pure, Except.pure, List.map_map]
  rfl

section
variable {α : Type} [PyNum α]

/-- the table entry of one temperature -/
def lutFn (nc : Int) (scale : α) (start : Int) (rad : List α) (t : α) : α :=
  (rad[(clipInt (NP.wrap16 (NP.castInt16 nc (t * scale) - start)) 0 ((rad.length : Int) - 1)).toNat]?).getD nan

theorem lutFn_mem (nc : Int) (scale : α) (start : Int) (rad : List α) (h : rad ≠ []) (t : α) :
    lutFn nc scale start rad t ∈ rad := by
  unfold lutFn
  obtain ⟨h1, _⟩ := pyIndex_clip rad h (NP.wrap16 (NP.castInt16 nc (t * scale) - start))
  rw [List.getElem?_eq_getElem h1]
  exact List.getElem_mem _

/-- A usable table: not empty, first temperature finite and in range. -/
structure GoodLut (scale : α) (lut : Lut α) (start : Int) : Prop where
  rad : lut.radiance ≠ []
  first : ∃ t0 ts, lut.tb = t0 :: ts ∧ PyNum.trunc (t0 * scale) = some start
  lo : -32768 ≤ start
  hi : start ≤ 32767

theorem converts_lut (c : RadTb α) (nc : Int) (lut : Lut α) (start : Int) (h : GoodLut c.tb_scale lut start) :
    Converts c nc (some lut) (lutFn nc c.tb_scale start lut.radiance) := by
  intro ts _
  obtain ⟨t0, tl, ht, htr⟩ := h.first
  have e2 : NP.pyIndex lut.tb 0 = .ok t0 := by rw [ht]; rfl
  have e3 : pyInt (t0 * c.tb_scale) = .ok start := by simp [pyInt, htr]
  have hm : ((ts.map fun t => NP.castInt16 nc (t * c.tb_scale)).map fun n =>
      clipInt (NP.wrap16 (n - start)) 0 ((lut.radiance.length : Int) - 1)).mapM (fun i => NP.pyIndex lut.radiance i) =
      .ok (ts.map (lutFn nc c.tb_scale start lut.radiance)) := by
    rw [List.mapM_map, List.mapM_map]
    refine mapM_ok _ _ _ (fun t _ => ?_)
    simp only [Function.comp]
    obtain ⟨h1, h2⟩ := pyIndex_clip lut.radiance h.rad (NP.wrap16 (NP.castInt16 nc (t * c.tb_scale) - start))
    rw [h2]
    unfold lutFn
    rw [List.getElem?_eq_getElem h1]
    rfl
  have hn : ¬ (start < -32768 ∨ 32767 < start) := by have := h.lo; have := h.hi; omega
  have key : ∃ r : Rad α, lutRadiance nc c.tb_scale lut ts = .ok r ∧
      r.elems = ts.map (lutFn nc c.tb_scale start lut.radiance) := by
    simp only [lutRadiance, e2, e3, bind, Except.bind, hn, if_false, hm]
    generalize ts.map (lutFn nc c.tb_scale start lut.radiance) = ys
    match ys with
    | [] => exact ⟨_, rfl, rfl⟩
    | [x] => exact ⟨_, rfl, rfl⟩
    | x :: y :: zs => exact ⟨_, rfl, rfl⟩
  obtain ⟨r, h1, h2⟩ := key
  refine ⟨⟨r, radianceUnit c.wavespace true, 1.0⟩, ?_, h2⟩
  simp only [RadTb.tb2radiance, h1, bind, Except.bind, pure, Except.pure]

end

/-- the table-free conversion of a finite temperature -/
theorem directFn_fin {c : RadTb XF} {w r : List ℝ} (hc : Loaded c w r) (hb : GoodBand w r) {t : ℝ} (ht : 1e-6 < t) :
    directFn c (fin t) = fin (bandInt c.wavespace w r t / trap w r) := by
  have hw := goodBand_ne hb
  have h1 := tb2radiance_direct hc hw hb.pos hb.integral.ne' 0 [t] (by simp) (by simpa using ht) true
  obtain ⟨res, h2, h3⟩ := converts_direct c (by rw [hc.wave]; simpa [finL] using hw)
    (by rw [hc.wave, hc.response]; simpa using hc.len) 0 [fin t] (by simp)
  rw [show finL [t] = [fin t] from rfl] at h1
  rw [h1] at h2
  cases h2
  simpa [Rad.elems] using h3.symm

/-! ### Pixels with finite values -/

theorem solarRadiancePoint_fin (flux thr z : ℝ) :
    solarRadiancePoint (fin flux) (fin thr) (fin z) = fin (sunlight flux thr z) := by
  have h : PyNum.clip (fin z) (0 : XF) (fin thr) = fin (min (max z 0) thr) := by
    unfold PyNum.clip PyNum.minimum PyNum.maximum
    simp only [ofNat_zero, isNaN_fin, Bool.false_eq_true, if_false, lt_fin, decide_eq_true_eq]
    split
    · rename_i h1
      rw [max_eq_right h1.le]
      simp only [isNaN_fin, Bool.false_eq_true, if_false, lt_fin, decide_eq_true_eq]
      split
      · rename_i h2; rw [min_eq_right h2.le]
      · rename_i h2; rw [min_eq_left (not_lt.1 h2)]
    · rename_i h1
      rw [max_eq_left (not_lt.1 h1)]
      simp only [isNaN_fin, Bool.false_eq_true, if_false, lt_fin, decide_eq_true_eq]
      split
      · rename_i h2; rw [min_eq_right h2.le]
      · rename_i h2; rw [min_eq_left (not_lt.1 h2)]
  unfold solarRadiancePoint sunlight deg2rad
  rw [h]
  simp only [pi_eq, ofInt_eq, Int.cast_ofNat]
  rw [fin_div _ (by norm_num), fin_mul, cos_fin, fin_mul, fin_div _ Real.pi_ne_zero]
  congr 4
  ring

/-- the factor that multiplies the thermal radiance -/
noncomputable def factor (useCo2 : Bool) (t u : ℝ) : ℝ := if useCo2 then co2Factor t u else 1

theorem pxCorr_fin (useCo2 : Bool) (p : Pixel) (t u : ℝ) (ht : useCo2 = true → p.therm = fin t ∧ p.co2 = fin u ∧ t ≠ 0) :
    pxCorr useCo2 p = fin (factor useCo2 t u) := by
  cases useCo2 with
  | false => simp [pxCorr, factor]; norm_num
  | true =>
    obtain ⟨h1, h2, h3⟩ := ht rfl
    simp only [pxCorr, factor, if_true, h1, h2, fin_sub, ofSci_eq, fin_mul, powNat_fin]
    rw [fin_div _ (pow_ne_zero 4 h3)]
    congr 1
    unfold co2Factor
    rw [← div_pow]
    congr 1
    field_simp
    ring

/-- Reflectance of a pixel with finite radiances. -/
theorem pxValue_fin (I flux thr z ln lt t u : ℝ) (lim : Option XF) (R : XF → XF) (useCo2 : Bool) (p : Pixel)
    (hz : p.zenith = fin z) (hn : R p.nir = fin ln) (ht : R p.therm = fin lt)
    (hc : useCo2 = true → p.therm = fin t ∧ p.co2 = fin u ∧ t ≠ 0) :
    pxValue (fin I) (fin flux) (fin thr) lim R useCo2 p =
      if sunlight flux thr z - lt * I * factor useCo2 t u < 0.005 ∨ pxZenith lim p = true ∨ isNaN p.nir = true
      then XF.nan
      else fin ((ln * I - lt * I * factor useCo2 t u) / (sunlight flux thr z - lt * I * factor useCo2 t u)) := by
  unfold pxValue pxDenom pxTherm NIR_EPSILON
  rw [hz, hn, ht, solarRadiancePoint_fin, pxCorr_fin useCo2 p t u hc]
  simp only [fin_mul, fin_sub, ofSci_eq, lt_fin, Bool.or_eq_true, decide_eq_true_eq, or_assoc]
  split
  · rfl
  · rename_i h
    push Not at h
    rw [fin_div _ (by have := h.1; norm_num at this ⊢; intro h0; rw [h0] at this; norm_num at this)]

/-! ### Retrieval in general -/

section general
variable {α : Type} [PyNum α]

/-- the correction factor of a call -/
def corrOf (tb_therm : Arr α) : Option (Arr α) → Py (Arr α)
  | none => .ok (Arr.scalar 1.0)
  | some c => rad39Corr tb_therm c

/-- the reflectance of a call, as a function of the settings of the object -/
def retrieved (s : Nir α) (nc : Int) (lut : Option (Lut α)) (z n t : Arr α) (co2 : Option (Arr α)) : Py (Arr α) := do
  let t11 ← tb2radianceArr s.conv nc t lut
  let r ← tb2radianceArr s.conv nc n lut
  let corr ← corrOf t co2
  r3xOf s.conv.rsr_integral s.masking_limit t11 r corr (z.map (solarRadiancePoint s.solar_flux s.sunz_threshold)) z n

/-- two objects with the same settings (everything but the results of earlier calls) -/
structure SameSettings (s s' : Nir α) : Prop where
  conv : s'.conv = s.conv
  bandname : s'.bandname = s.bandname
  lut : s'.lut = s.lut
  limit : s'.masking_limit = s.masking_limit
  flux : s'.solar_flux = s.solar_flux
  thr : s'.sunz_threshold = s.sunz_threshold

theorem SameSettings.refl (s : Nir α) : SameSettings s s := ⟨rfl, rfl, rfl, rfl, rfl, rfl⟩
theorem SameSettings.trans {a b c : Nir α} (h : SameSettings a b) (h' : SameSettings b c) : SameSettings a c :=
  ⟨h'.conv.trans h.conv, h'.bandname.trans h.bandname, h'.lut.trans h.lut, h'.limit.trans h.limit,
    h'.flux.trans h.flux, h'.thr.trans h.thr⟩

theorem derive_run (bt11 bt13 : Arr α) (m : String) (s : Nir α) :
    SameSettings s (Nir.deriveRad39Corr bt11 bt13 m s).2 := by
  unfold Nir.deriveRad39Corr
  split
  · exact SameSettings.refl s
  · cases h : rad39Corr bt11 bt13 with
    | error e => exact SameSettings.refl s
    | ok v => exact ⟨rfl, rfl, rfl, rfl, rfl, rfl⟩

theorem calcCorr_run (t : Arr α) (co2 : Option (Arr α)) (s : Nir α) :
    Nir.calculateRad3xCorrection t co2 s = match corrOf t co2 with
      | .ok v => (.ok (), { s with rad3x_correction := v })
      | .error e => (.error e, s) := by
  cases co2 with
  | none => rfl
  | some c =>
    show Nir.deriveRad39Corr t c _ s = match rad39Corr t c with
      | .ok v => (.ok (), { s with rad3x_correction := v })
      | .error e => (.error e, s)
    unfold Nir.deriveRad39Corr
    rw [if_neg (by simp)]
    cases h : rad39Corr t c with
    | error e => rfl
    | ok v => rfl

theorem retrieve_run (s : Nir α) (nc : Int) (lut : Option (Lut α)) (z n t : Arr α) (co2 : Option (Arr α)) :
    (Nir.retrieve nc lut z n t co2 s).1 = retrieved s nc lut z n t co2 ∧
    SameSettings s (Nir.retrieve nc lut z n t co2 s).2 := by
  unfold Nir.retrieve retrieved
  cases h1 : tb2radianceArr s.conv nc t lut with
  | error e =>
    have : Nir.setRadiances nc lut n t s = (.error e, s) := by
      unfold Nir.setRadiances
      rw [st_bind_ok (st_get s), st_bind_error (st_lift_error h1 s)]
    rw [st_bind_error this]
    exact ⟨rfl, SameSettings.refl s⟩
  | ok t11 =>
    cases h2 : tb2radianceArr s.conv nc n lut with
    | error e =>
      have : Nir.setRadiances nc lut n t s = (.error e, { s with rad3x_t11 := some t11 }) := by
        unfold Nir.setRadiances
        rw [st_bind_ok (st_get s), st_bind_ok (st_lift_ok h1 s), st_bind_ok (st_modify _ s),
          st_bind_error (st_lift_error h2 _)]
      rw [st_bind_error this]
      exact ⟨rfl, ⟨rfl, rfl, rfl, rfl, rfl, rfl⟩⟩
    | ok r =>
      have : Nir.setRadiances nc lut n t s =
          (.ok (t11, r), { s with rad3x_t11 := some t11, rad3x := some r }) := by
        unfold Nir.setRadiances
        rw [st_bind_ok (st_get s), st_bind_ok (st_lift_ok h1 s), st_bind_ok (st_modify _ s),
          st_bind_ok (st_lift_ok h2 _), st_bind_ok (st_modify _ _)]
        rfl
      rw [st_bind_ok this, st_bind_ok (st_get _)]
      dsimp only
      rw [st_bind_ok (st_modify _ _)]
      cases h3 : corrOf t co2 with
      | error e =>
        rw [st_bind_error (e := e) (by rw [calcCorr_run, h3])]
        exact ⟨rfl, ⟨rfl, rfl, rfl, rfl, rfl, rfl⟩⟩
      | ok v =>
        rw [st_bind_ok (a := ()) (by rw [calcCorr_run, h3]), st_bind_ok (st_get _)]
        dsimp only
        cases h4 : r3xOf s.conv.rsr_integral s.masking_limit t11 r v
            (z.map (solarRadiancePoint s.solar_flux s.sunz_threshold)) z n with
        | error e =>
          exact ⟨h4.symm, ⟨rfl, rfl, rfl, rfl, rfl, rfl⟩⟩
        | ok v2 =>
          exact ⟨h4.symm, ⟨rfl, rfl, rfl, rfl, rfl, rfl⟩⟩

theorem retrieved_same {s s' : Nir α} (h : SameSettings s s') (nc : Int) (lut : Option (Lut α)) (z n t : Arr α)
    (co2 : Option (Arr α)) : retrieved s' nc lut z n t co2 = retrieved s nc lut z n t co2 := by
  unfold retrieved
  rw [h.conv, h.limit, h.flux, h.thr]

end general

/-! ### NaN -/

theorem sum_nan (l : List XF) (hne : l ≠ []) (h : ∀ x ∈ l, x = XF.nan) : NP.sum l = XF.nan := by
  cases l with
  | nil => exact absurd rfl hne
  | cons a l =>
    rw [h a (by simp)]
    rfl


theorem planckEntry_nan (wl : Bool) (w : XF) : planckEntry wl w XF.nan = XF.nan := by
  have h : planckArg2 XF.nan = XF.nan := by
    unfold planckArg2
    split
    · exact div_nan _
    · rfl
  unfold planckEntry
  rw [h, mul_nan]
  have : (PyNum.exp XF.nan - 1 : XF) = XF.nan := nan_sub _
  rw [this, div_nan]

theorem directFn_nan {c : RadTb XF} {w r : List ℝ} (hc : Loaded c w r) (hb : GoodBand w r) :
    directFn c XF.nan = XF.nan := by
  have hlen : 2 ≤ w.length := by
    have := hb.integral
    match w, r, this with
    | [], _, h => simp [trap] at h
    | [_], _, h => simp [trap] at h
    | _ :: _ :: _, _, _ => simp
  have hl := hc.len
  unfold directFn
  rw [hc.wave, hc.response]
  match w, r, hlen, hl with
  | a :: b :: w, x :: y :: r, _, _ =>
    simp only [finL_cons, List.map_cons, planckEntry_nan, List.zipWith_cons_cons, nan_mul, NP.diff, NP.adj, nan_add,
      mul_nan, nan_div, NP.sum, sum_eq, List.foldr_cons]

end Verif.Lemmas
