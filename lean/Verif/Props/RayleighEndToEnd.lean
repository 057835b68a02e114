import Verif.Props.EndToEnd
import Verif.Props.Rayleigh
/-
C148: from the response file and the table file to the Rayleigh correction of every pixel.
-/
namespace Verif.Props
open XF Model PyNum Lemmas Spec

/-! ### Specification -/

/-- The zenith angle used for a pixel: missing and negative angles are 0, angles beyond the table are its
largest angle (the one with secant `s`). -/
noncomputable def zenithSeen (s : ℝ) : XF → ℝ
  | .nan => 0
  | .ninf => 0
  | .pinf => maxZenith s
  | .fin z => min (max z 0) (maxZenith s)

/-- The value of a table at a point of its grid: interpolated in the cell around it. -/
def TableValue (A B C : Axis) (V : List ℝ) (x y z v : ℝ) : Prop :=
  ∃ i j k a b c, (i + 1 < A.n ∧ j + 1 < B.n ∧ k + 1 < C.n) ∧ (0 ≤ a ∧ a ≤ 1) ∧ (0 ≤ b ∧ b ≤ 1) ∧ (0 ≤ c ∧ c ≤ 1) ∧
    x = A.pt i a ∧ y = B.pt j b ∧ z = C.pt k c ∧ v = trilinear (cell V B.n C.n) i j k a b c

/-- How much of the correction is kept under a red reflectance. -/
noncomputable def fade : Option ℝ → ℝ
  | none => 1
  | some red => if red < 20 then 1 else 1 - (red - 20) / 80

/-- The effective wavelength of a response curve: its mean weighted with wavelength to the power -4. -/
noncomputable def effective (lam resp : List ℝ) : ℝ :=
  trap lam (List.zipWith (fun x y => y * (x / x ^ 4)) lam resp) / trap lam (List.zipWith (fun x y => y * (1 / x ^ 4)) lam resp)

/-! ### Pixels -/

theorem clipAngle_seen {s : ℝ} (h : 1 ≤ s) (z : XF) : clipAngle (fin s) z = fin (zenithSeen s z) := by
  rw [clipAngle_eq h]
  have h0 := maxZenith_nonneg s
  have h1 := maxZenith_le s
  have h2 := maxFloat_big
  cases z with
  | nan => simp [angleValue, zenithSeen, h0]
  | ninf =>
    simp only [angleValue, zenithSeen]
    rw [max_eq_right (by linarith), min_eq_left h0]
  | pinf =>
    simp only [angleValue, zenithSeen]
    rw [max_eq_left (by linarith), min_eq_right (by linarith)]
  | fin z =>
    simp only [angleValue, zenithSeen]
    congr 1
    rcases le_total z (-maxFloat) with h | h
    · rw [max_eq_right h]
      have : min (-maxFloat) maxFloat = -maxFloat := min_eq_left (by linarith)
      simp only [this]
      rw [max_eq_right (show z ≤ 0 by linarith)]
      try rw [max_eq_right (show -maxFloat ≤ 0 by linarith)]
      try rw [min_eq_left h0]
    · rw [max_eq_left h]
      rcases le_total z maxFloat with h' | h'
      · rw [min_eq_left h']
      · rw [min_eq_right h', max_eq_left (by linarith), max_eq_left (by linarith), min_eq_right (by linarith),
          min_eq_right (by linarith)]

theorem pixel_trilinear (interp : Interp3 XF) (hi : IsMultilinear interp) (A B C : Axis) (V : List ℝ)
    (hV : V.length = A.n * B.n * C.n) (hA : A.lo ≤ 1 ∧ 1 ≤ A.hi) (hC : C.lo ≤ 1 ∧ 1 ≤ C.hi)
    (sun sat : XF) (d : ℝ) (hd : B.lo ≤ 180 - d ∧ 180 - d ≤ B.hi) :
    ∃ v, TableValue A B C V (secDeg (zenithSeen A.hi sun)) (180 - d) (secDeg (zenithSeen C.hi sat)) v ∧
      pixelValue interp A B C (finL V) sun sat (fin d) = fin (v * 100) := by
  obtain ⟨cs, e1, _, _, s1, l1, u1, _⟩ := C62_clip A.hi hA.2 sun
  obtain ⟨ct, e2, _, _, s2, l2, u2, _⟩ := C62_clip C.hi hC.2 sat
  obtain rfl : zenithSeen A.hi sun = cs := (fin_inj _ _).1 ((clipAngle_seen hA.2 sun).symm.trans e1)
  obtain rfl : zenithSeen C.hi sat = ct := (fin_inj _ _).1 ((clipAngle_seen hC.2 sat).symm.trans e2)
  obtain ⟨i, a, hi1, ha0, ha1, ea⟩ := Axis'.locate A (x := secDeg (zenithSeen A.hi sun)) (by linarith [hA.1]) u1
  obtain ⟨j, b, hj1, hb0, hb1, eb⟩ := Axis'.locate B hd.1 hd.2
  obtain ⟨k, c, hk1, hc0, hc1, ec⟩ := Axis'.locate C (x := secDeg (zenithSeen C.hi sat)) (by linarith [hC.1]) u2
  refine ⟨_, ⟨i, j, k, a, b, c, ⟨hi1, hj1, hk1⟩, ⟨ha0, ha1⟩, ⟨hb0, hb1⟩, ⟨hc0, hc1⟩, ea, eb, ec, rfl⟩, ?_⟩
  unfold pixelValue
  rw [e1, e2, s1, s2, ofNat_two, fin_sub, ea, eb, ec]
  have := hi A B C V hV i j k a b c hi1 hj1 hk1 ha0 ha1 hb0 hb1 hc0 hc1
  unfold finL
  rw [this, ofNat_two, fin_mul]

theorem relax_fade (red v : ℝ) : relaxCloudy (fin red) (fin v) = fin (fade (some red) * v) := by
  unfold relaxCloudy fade
  rw [ofSci_eq, lt_fin]
  by_cases h : red < 20
  · rw [if_pos (by simp; norm_num; exact h)]
    simp [h]
  · rw [if_neg (by simp; norm_num; linarith)]
    simp only [h, if_false, ofNat_one, ofNat_two, fin_sub]
    rw [fin_div _ (by norm_num), fin_sub, fin_mul]

/-- C148: the correction of every pixel of an image of any size, for a band whose effective wavelength is
`x` nm: the two tables next to `x` interpolated linearly, then interpolated at the secants of the zenith
angles and the azimuth difference, in percent, faded out under a bright red band, limited to 0..100. -/
theorem C148_pixels (da : Bool) (env : Env) (h5open : Content → Option (H5File XF)) (h5lut : Content → Option (LutFile XF))
    (interp : Interp3 XF) (hi : IsMultilinear interp) (r : RayleighObj) (sun sat : List XF) (azi : List ℝ)
    (hl1 : sun.length = azi.length) (hl2 : azi.length = sat.length) (band : RayleighBand XF) (red : Option (List ℝ))
    (hred : ∀ l, red = some l → l.length = azi.length) (w w' : World) (t : List World) (x : ℝ)
    (he : effectiveWavelength env h5open r band w = (.ok (fin x), w', t)) (c : Content) (lut : LutFile XF)
    (hf : w'.files r.reflectance_lut_filename = some c) (hl : h5lut c = some lut) (A B C : Axis) (hreg : RegularLut lut A B C)
    (g : List ℝ) (tables : List (List ℝ)) (hg : lut.wavelengths = finL g) (hinc : Increasing g)
    (ht : lut.reflectance = tables.map finL) (hlen : tables.length = g.length) (hN : ∀ T ∈ tables, T.length = A.n * B.n * C.n)
    (k : Nat) (hk : k + 1 < g.length) (hx0 : g[k] < x) (hx1 : x ≤ g[k + 1]) (hlast : x < g[g.length - 1])
    (hazi : ∀ d ∈ azi, B.lo ≤ 180 - d ∧ 180 - d ≤ B.hi) :
    ∃ out, getReflectance da env h5open h5lut interp r sun sat (finL azi) band (red.map finL) w = (.ok out, w', t) ∧
      out.length = azi.length ∧
      ∀ (p : Nat) (su sa : XF) (d : ℝ), sun[p]? = some su → sat[p]? = some sa → azi[p]? = some d →
        ∃ v, TableValue A B C (List.zipWith (lerp ((x - g[k]) / (g[k + 1] - g[k]))) (tables[k]'(by omega)) (tables[k + 1]'(by omega)))
            (secDeg (zenithSeen A.hi su)) (180 - d) (secDeg (zenithSeen C.hi sa)) v ∧
          out[p]? = some (fin (min (max (fade (red.bind (·[p]?)) * (v * 100)) 0) 100)) := by
  obtain ⟨T, hT, hTl, hv, -⟩ := C61_linear_between_neighbours lut g tables (A.n * B.n * C.n) hg hinc ht hlen hN k hk x hx0 hx1 hlast
  have hTz : T = List.zipWith (lerp ((x - g[k]) / (g[k + 1] - g[k]))) (tables[k]'(by omega)) (tables[k + 1]'(by omega)) := by
    have a1 := hN _ (List.getElem_mem (show k < tables.length by omega))
    have a2 := hN _ (List.getElem_mem (show k + 1 < tables.length by omega))
    apply List.ext_getElem?
    intro n
    rcases Nat.lt_or_ge n (A.n * B.n * C.n) with h | h
    · obtain ⟨v, h1, h2, -⟩ := hv n _ _ (List.getElem?_eq_getElem (by omega)) (List.getElem?_eq_getElem (by omega))
      rw [h1, h2, List.getElem?_zipWith, List.getElem?_eq_getElem (by omega), List.getElem?_eq_getElem (by omega)]
    · rw [List.getElem?_eq_none (by omega), List.getElem?_eq_none (by simp; omega)]
  rw [← hTz]
  obtain ⟨res, hres, hrl, hpix⟩ := interp_pixels interp lut A B C hreg sun sat (finL azi) (by simpa using hl1) (by simpa using hl2) (finL T)
  have hu : uncorrected da h5lut interp r.reflectance_lut_filename (fin x) sun sat (finL azi) (red.map finL) w' =
      (.ok res, w', []) := by
    unfold uncorrected
    rw [adjusted_run hf hl, hT]
    simp only [openLut_run hf hl, hres]
  rw [getReflectance_run da env h5open h5lut interp r sun sat (finL azi) band _ w w' t (fin x) he _ hu]
  have hclip : ∀ v : ℝ, PyNum.clip (fin v) 0 100 = fin (min (max v 0) 100) := by
    intro v; simp only [ofNat_zero, ofNat_two, clip_fin]
  have hone : ∀ (p : Nat) (su sa : XF) (d : ℝ), sun[p]? = some su → sat[p]? = some sa → azi[p]? = some d →
      ∃ v, TableValue A B C T (secDeg (zenithSeen A.hi su)) (180 - d) (secDeg (zenithSeen C.hi sa)) v ∧
        res[p]? = some (fin (v * 100)) := by
    intro p su sa d h1 h2 h3
    obtain ⟨v, g1, g2⟩ := pixel_trilinear interp hi A B C T hTl hreg.sunRange hreg.satRange su sa d (hazi d (List.mem_of_getElem? h3))
    exact ⟨v, g1, by rw [hpix p su sa (fin d) h1 h2 (by unfold finL; rw [List.getElem?_map, h3]; rfl), g2]⟩
  cases red with
  | none =>
    refine ⟨res.map fun x => PyNum.clip x 0 100, rfl, by simp; omega, ?_⟩
    intro p su sa d h1 h2 h3
    obtain ⟨v, g1, g2⟩ := hone p su sa d h1 h2 h3
    refine ⟨v, g1, ?_⟩
    rw [List.getElem?_map, g2, Option.map_some, hclip]
    simp [fade]
  | some l =>
    have hll := hred l rfl
    refine ⟨(List.zipWith relaxCloudy (finL l) res).map fun x => PyNum.clip x 0 100, ?_, by simp; omega, ?_⟩
    · show (finish (some (finL l)) res, w', t) = _
      unfold finish
      simp only [bcast2_eq_len relaxCloudy (finL l) res (by simp; omega), bind, Except.bind, pure, Except.pure]
    · intro p su sa d h1 h2 h3
      obtain ⟨v, g1, g2⟩ := hone p su sa d h1 h2 h3
      refine ⟨v, g1, ?_⟩
      have hp : p < l.length := by
        have := (List.getElem?_eq_some_iff.1 h3).1
        omega
      rw [List.getElem?_map, List.getElem?_zipWith, g2]
      unfold finL
      rw [List.getElem?_map, List.getElem?_eq_getElem hp]
      simp only [Option.map_some, relax_fade, hclip, Option.bind_some, List.getElem?_eq_getElem hp]

/-- the effective wavelength of a loaded curve -/
theorem effectiveOf_eq (r : Reader XF) (name : String) (band : BandRsr XF) (det : DetRsr XF) (lam resp : List ℝ)
    (hb : r.rsr.get? name = some band) (hd : band.get? "det-1" = some det)
    (hw : det.get? "wavelength" = some (.arr (finL lam))) (hr : det.get? "response" = some (.arr (finL resp)))
    (hc : RealCurve lam resp) : effectiveOf r name = .ok (fin (effective lam resp)) := by
  have hfst := zip_map_fst hc.len
  have hsnd := zip_map_snd hc.len
  set c := lam.zip resp with hcdef
  have hpos : ∀ p ∈ c, 0 < p.1 := fun p hp => hc.pos _ (List.of_mem_zip hp).1
  have hz : ∀ g : ℝ → ℝ → ℝ, List.zipWith g lam resp = c.map fun p => g p.1 p.2 := by
    intro g
    rw [hcdef, List.zip, List.map_zipWith]
  have hD : 0 < trap lam (List.zipWith (fun x y => y * (1 / x ^ 4)) lam resp) := by
    apply trap_pos_of_mem _ _ (by simp [hc.len]) hc.two hc.inc
    · intro v hv
      rw [hz, List.mem_map] at hv
      obtain ⟨p, hp, rfl⟩ := hv
      exact mul_nonneg (hc.nonneg _ (List.of_mem_zip hp).2) (by have := hpos p hp; positivity)
    · obtain ⟨y, hy, hy0⟩ := hc.some_pos
      rw [← hsnd, List.mem_map] at hy
      obtain ⟨p, hp, rfl⟩ := hy
      refine ⟨p.2 * (1 / p.1 ^ 4), ?_, mul_pos hy0 (by have := hpos p hp; positivity)⟩
      rw [hz]
      exact List.mem_map.2 ⟨p, hp, rfl⟩
  have hweights : (finL lam).map (fun w => (1.0 : XF) / powNat w 4) = finL (c.map fun p => 1 / p.1 ^ 4) := by
    rw [← hfst]
    unfold finL
    rw [List.map_map, List.map_map, List.map_map]
    apply List.map_congr_left
    intro p hp
    have := hpos p hp
    simp only [Function.comp, powNat_fin, ofSci_eq]
    rw [fin_div _ (by positivity)]; norm_num
  have htr := getCentralWave_triples (c.map fun p => (p.1, p.2, 1 / p.1 ^ 4))
  simp only [List.map_map, Function.comp_def] at htr
  have hnum : cwNum (c.map fun p => (p.1, p.2, 1 / p.1 ^ 4)) = trap lam (List.zipWith (fun x y => y * (x / x ^ 4)) lam resp) := by
    unfold cwNum
    simp only [List.map_map, Function.comp_def]
    rw [hz, ← hfst]
    apply trap_congr Prod.fst; intro p _; ring
  have hden : cwDen (c.map fun p => (p.1, p.2, 1 / p.1 ^ 4)) = trap lam (List.zipWith (fun x y => y * (1 / x ^ 4)) lam resp) := by
    unfold cwDen
    simp only [List.map_map, Function.comp_def]
    rw [hz, ← hfst]
  rw [hnum, hden, fin_div _ hD.ne'] at htr
  have e1 : (c.map fun p => p.1) = lam := hfst
  have e2 : (c.map fun p => p.2) = resp := hsnd
  rw [e1, e2] at htr
  have ga : ∀ k xs, det.get? k = some (.arr xs) → getArr det k = .ok xs := by
    intro k xs hk
    unfold getArr
    rw [getItem_ok_iff.2 hk]; rfl
  unfold effectiveOf rsrDictGetItem
  rw [hb]
  simp only [bind, Except.bind]
  rw [getItem_ok_iff.2 hd]
  simp only
  rw [ga _ _ hw, ga _ _ hr]
  simp only
  rw [hweights]
  exact htr

theorem RealCurve.scale {w r : List ℝ} (h : RealCurve w r) {s : ℝ} (hs : 0 < s) : RealCurve (w.map (· * s)) r where
  len := by simp [h.len]
  two := by simpa using h.two
  inc := by
    unfold Increasing
    rw [List.pairwise_map]
    exact h.inc.imp fun {a b} hab => mul_lt_mul_of_pos_right hab hs
  pos := by
    intro x hx
    obtain ⟨y, hy, rfl⟩ := List.mem_map.1 hx
    exact mul_pos (h.pos y hy) hs
  nonneg := h.nonneg
  some_pos := h.some_pos

theorem trap_scale (s : ℝ) (x y : List ℝ) : trap (x.map (· * s)) y = s * trap x y := by
  induction x generalizing y with
  | nil => simp [trap]
  | cons a x ih =>
    match x, y with
    | [], y => simp [trap]
    | b :: x, [] => simp [trap]
    | b :: x, [c] => simp [trap]
    | b :: x, c :: d :: y =>
      show (b * s - a * s) * ((c + d) / 2) + trap ((b :: x).map (· * s)) (d :: y) = s * ((b - a) * ((c + d) / 2) + trap (b :: x) (d :: y))
      rw [ih]
      ring

/-- the unit of wavelengths does not matter -/
theorem effective_scale {lam resp : List ℝ} (h : lam.length = resp.length) (s : ℝ) (hs : 0 < s) :
    effective (lam.map (· * s)) resp = effective lam resp * s := by
  have hfst := zip_map_fst h
  have hz : ∀ (g : ℝ → ℝ → ℝ) (a : ℝ), trap lam (List.zipWith (fun x y => a * g x y) lam resp) =
      a * trap lam (List.zipWith g lam resp) := by
    intro g a
    have e : ∀ g : ℝ → ℝ → ℝ, List.zipWith g lam resp = (lam.zip resp).map fun p => g p.1 p.2 := by
      intro g
      rw [List.zip, List.map_zipWith]
    have := trap_smul Prod.fst (fun p : ℝ × ℝ => g p.1 p.2) a (lam.zip resp)
    rw [hfst] at this
    rw [e, e, this]
  unfold effective
  rw [trap_scale, trap_scale, List.zipWith_map_left, List.zipWith_map_left]
  have e1 : (fun x y : ℝ => y * (x * s / (x * s) ^ 4)) = fun x y => (1 / s ^ 3) * (y * (x / x ^ 4)) := by
    funext x y
    rcases eq_or_ne x 0 with rfl | hx
    · simp
    · field_simp
  have e2 : (fun x y : ℝ => y * (1 / (x * s) ^ 4)) = fun x y => (1 / s ^ 4) * (y * (1 / x ^ 4)) := by
    funext x y
    rcases eq_or_ne x 0 with rfl | hx
    · simp
    · field_simp
  rw [e1, e2, hz, hz]
  set N := trap lam (List.zipWith (fun x y => y * (x / x ^ 4)) lam resp)
  set D := trap lam (List.zipWith (fun x y => y * (1 / x ^ 4)) lam resp)
  rcases eq_or_ne D 0 with hD | hD
  · simp [hD]
  · field_simp

/-- C148: the effective wavelength of a band given by name, in nm, is that of the curve the response file of the
platform stores for the band's first detector; nothing happens apart from reading that file. -/
theorem C148_effective_from_file (env : Env) (h5open : Content → Option (H5File XF)) (o : RayleighObj) (q : String)
    (w : World) (r : Reader XF) (hr : Eff.result (readerNew env h5open (some o.platform_name) (some o.sensor) none) w = .ok r)
    (f : H5File XF) (hf : ReaderFile env h5open o.platform_name o.sensor w f) (l : List String) (hl : ListsBands f l)
    (hq : q ∈ l) (n : Nat) (hn : DetectorCount f q n) (hpos : 0 < n) (lam resp : List ℝ) (hc : FileCurve f q "det-1" lam resp) :
    effectiveWavelength env h5open o (.name q) w = (.ok (fin (effective (lam.map (· * 1e9)) resp)),
      (readerNew env h5open (some o.platform_name) (some o.sensor) none w).2) := by
  obtain ⟨-, -, -, -, -, gb⟩ := reader_detector env h5open o.platform_name o.sensor w r hr f hf l hl
  obtain ⟨B, hB, hBl⟩ := gb _ hq
  obtain ⟨cw, hd⟩ := bandLoaded_curve hBl hn hpos hc
  have he := effectiveOf_eq r q B _ (lam.map (· * 1e6)) resp hB hd rfl rfl (hc.2.2.scale (by norm_num))
  unfold Eff.result at hr
  rcases hh : readerNew env h5open (some o.platform_name) (some o.sensor) none w with ⟨x, w', t⟩
  rw [hh] at hr
  cases hr
  have hk : keyErrorOnOSError (readerNew env h5open (some o.platform_name) (some o.sensor) none) w = (.ok r, w', t) := by
    unfold keyErrorOnOSError
    rw [hh]
  have hs : effective (lam.map (· * 1e6)) resp * 1000 = effective (lam.map (· * 1e9)) resp := by
    rw [effective_scale hc.2.2.len _ (by norm_num), effective_scale hc.2.2.len _ (by norm_num)]
    norm_num [mul_assoc]
  have hb : rsrWavelengthFromBandName env h5open o.platform_name o.sensor q w = (.ok (fin (effective (lam.map (· * 1e6)) resp)), w', t) := by
    unfold rsrWavelengthFromBandName
    rw [eff_bind_ok hk, he]
    simp [Eff.lift]
  unfold effectiveWavelength
  simp only
  rw [eff_bind_ok hb]
  rw [← hs]
  simp [pure, Eff.pure, ofSci_eq]
  norm_num

/-- C148: the correction of a band given by name, from the two files. With a current data directory (or
downloads switched off), the response file of the platform there decides the effective wavelength, and the
table file the object uses decides the correction of each pixel. -/
theorem C148_from_files (da : Bool) (env : Env) (h5open : Content → Option (H5File XF)) (h5lut : Content → Option (LutFile XF))
    (interp : Interp3 XF) (hi : IsMultilinear interp) (o : RayleighObj) (cn q : String)
    (hcan : checkAndAdjustInstrumentName o.platform_name o.sensor = .ok cn) (w : World)
    (hcur : RsrCurrent env w ∨ env.cfg.download_from_internet = false) (content : Content) (f : H5File XF) (info : RsrInfo XF)
    (hw : w.files (env.cfg.rsr_dir, "rsr_" ++ cn ++ "_" ++ o.platform_name ++ ".h5") = some content) (ho : h5open content = some f)
    (hload : loadRsrInfo f = .ok info) (l : List String) (hl : ListsBands f l) (hq : q ∈ l) (n : Nat) (hn : DetectorCount f q n)
    (hpos : 0 < n) (lam resp : List ℝ) (hc : FileCurve f q "det-1" lam resp)
    (c : Content) (lut : LutFile XF) (hlut : w.files o.reflectance_lut_filename = some c) (hol : h5lut c = some lut)
    (A B C : Axis) (hreg : RegularLut lut A B C)
    (g : List ℝ) (tables : List (List ℝ)) (hg : lut.wavelengths = finL g) (hinc : Increasing g)
    (ht : lut.reflectance = tables.map finL) (hlen : tables.length = g.length) (hN : ∀ T ∈ tables, T.length = A.n * B.n * C.n)
    (k : Nat) (hk : k + 1 < g.length) (x : ℝ) (hx : x = effective (lam.map (· * 1e9)) resp) (hx0 : g[k] < x) (hx1 : x ≤ g[k + 1])
    (hlast : x < g[g.length - 1]) (sun sat : List XF) (azi : List ℝ)
    (hl1 : sun.length = azi.length) (hl2 : azi.length = sat.length) (red : Option (List ℝ))
    (hred : ∀ l, red = some l → l.length = azi.length) (hazi : ∀ d ∈ azi, B.lo ≤ 180 - d ∧ 180 - d ≤ B.hi) :
    ∃ out, Eff.result (getReflectance da env h5open h5lut interp o sun sat (finL azi) (.name q) (red.map finL)) w = .ok out ∧
      out.length = azi.length ∧
      ∀ (p : Nat) (su sa : XF) (d : ℝ), sun[p]? = some su → sat[p]? = some sa → azi[p]? = some d →
        ∃ v, TableValue A B C (List.zipWith (lerp ((x - g[k]) / (g[k + 1] - g[k]))) (tables[k]'(by omega)) (tables[k + 1]'(by omega)))
            (secDeg (zenithSeen A.hi su)) (180 - d) (secDeg (zenithSeen C.hi sa)) v ∧
          out[p]? = some (fin (min (max (fade (red.bind (·[p]?)) * (v * 100)) 0) 100)) := by
  obtain ⟨⟨r, hr⟩, hf⟩ := reader_there env h5open o.platform_name o.sensor cn hcan w hcur content f info hw ho hload
  have he := C148_effective_from_file env h5open o q w r hr f hf l hl hq n hn hpos lam resp hc
  obtain ⟨b, hb⟩ := quiet_updates_off env (configured env w) hcur
  obtain ⟨t', ht', -⟩ := reader_by_name env h5open o.platform_name o.sensor cn hcan w _ b _ hb
  rw [ht'] at he
  obtain ⟨out, h1, h2, h3⟩ := C148_pixels da env h5open h5lut interp hi o sun sat azi hl1 hl2 (.name q) red hred w (configured env w) t' x
    (by rw [hx]; exact he) c lut hlut hol A B C hreg g tables hg hinc ht hlen hN k hk hx0 hx1 hlast hazi
  exact ⟨out, by unfold Eff.result; rw [h1], h2, h3⟩

/-- a table file around 650 nm -/
noncomputable def exLut650 : LutFile XF := { exLut with wavelengths := finL [400, 600, 700] }

/-- a response file and a table file in place -/
def exBothWorld : World where
  files := fun p => if p = ("/rsr", "rsr_virr_FY-3A.h5") then some "H".toList
    else if p = ("/rsr", "PYSPECTRAL_RSR_VERSION") then some "v1.6.1".toList
    else if p = ("/ray/rural_aerosol", "rayleigh_lut_us-standard.h5") then some "T".toList else none
  dirs := fun _ => true
  requests := []

theorem exFile_effective : effective ([600e-9, 650e-9, 700e-9].map (· * 1e9)) [0, 1, 0] = 650 := by
  simp [effective, trap]
  norm_num

/-- band M5 (effective wavelength 650 nm): halfway between the tables for 600 nm and 700 nm; two pixels, the second
under a bright red band -/
example : ∃ out, Eff.result (getReflectance true exampleEnv (openOnly "H".toList exFile) (fun _ => some exLut650) exInterp
      ⟨"FY-3A", "virr", ("/ray/rural_aerosol", "rayleigh_lut_us-standard.h5")⟩ [XF.nan, fin 30] [fin 120, XF.ninf]
      (finL [30, 90]) (.name "M5") ((some [10, 60] : Option (List ℝ)).map finL)) exBothWorld = .ok out ∧ out.length = 2 ∧
    ∃ v, TableValue exSun exAzi exSat [4.5, 5, 5.5, 6, 6.5, 7, 7.5, 8] (secDeg (zenithSeen 2 (fin 30))) 90 (secDeg 0) v ∧
      out[1]? = some (fin (min (max ((1 / 2) * (v * 100)) 0) 100)) := by
  obtain ⟨out, h1, h2, h3⟩ := C148_from_files true exampleEnv (openOnly "H".toList exFile) (fun _ => some exLut650) exInterp exInterp_multilinear
    ⟨"FY-3A", "virr", ("/ray/rural_aerosol", "rayleigh_lut_us-standard.h5")⟩ "virr" "M5" (by decide +kernel) exBothWorld
    (.inl ⟨"v1.6.1".toList, by rfl, [], [], [], rfl, by simp, by simp, Or.inl rfl⟩) "H".toList exFile _ (by rfl) (by rfl) exFile_loads
    ["M5"] exFile_lists (by decide) 2 exFile_count (by decide) _ _ exFile_curve1 "T".toList exLut650 (by rfl) rfl exSun exAzi exSat
    ⟨exLut_regular.sun, exLut_regular.azi, exLut_regular.sat, exLut_regular.sunRange, exLut_regular.satRange⟩
    [400, 600, 700] [[0, 1, 2, 3, 4, 5, 6, 7], [8, 9, 10, 11, 12, 13, 14, 15], [1, 1, 1, 1, 1, 1, 1, 1]] rfl
    (by simp [Increasing]; norm_num) rfl rfl (by simp [exSun, exAzi, exSat]) 1 (by simp) 650 exFile_effective.symm (by simp; norm_num)
    (by simp; norm_num) (by simp; norm_num) [XF.nan, fin 30] [fin 120, XF.ninf] [30, 90] rfl rfl (some [10, 60])
    (by rintro l h; cases h; rfl) (by simp [exAzi]; norm_num)
  obtain ⟨v, h4, h5⟩ := h3 1 (fin 30) XF.ninf 90 rfl rfl rfl
  refine ⟨out, h1, h2, v, ?_, ?_⟩
  · convert h4 using 1
    · norm_num [lerp]
    · rfl
    · norm_num
    · rfl
  · rw [h5]
    norm_num [fade]

/-- C148: a band name with no response file (and nothing downloaded) raises KeyError, whatever the angles; a
wavelength needs no response file. -/
theorem C148_no_response_file {α : Type} [PyNum α] (da : Bool) (env : Env) (h5open : Content → Option (H5File α))
    (h5lut : Content → Option (LutFile α)) (interp : Interp3 α) (o : RayleighObj) (cn q : String)
    (hcan : checkAndAdjustInstrumentName o.platform_name o.sensor = .ok cn) (w : World)
    (hcur : RsrCurrent env w ∨ env.cfg.download_from_internet = false)
    (hw : w.files (env.cfg.rsr_dir, "rsr_" ++ cn ++ "_" ++ o.platform_name ++ ".h5") = none)
    (sun sat azi : List α) (red : Option (List α)) :
    Eff.result (getReflectance da env h5open h5lut interp o sun sat azi (.name q) red) w = .error .keyError := by
  obtain ⟨b, hb⟩ := quiet_updates_off env (configured env w) hcur
  obtain ⟨t', ht', -⟩ := reader_by_name env h5open o.platform_name o.sensor cn hcan w _ b _ hb
  have hfd : fileData h5open (configured env w) (env.cfg.rsr_dir, "rsr_" ++ cn ++ "_" ++ o.platform_name ++ ".h5") = .error .fileNotFound := by
    unfold fileData
    rw [show (configured env w).files _ = none from hw]
  rw [hfd] at ht'
  have hk : keyErrorOnOSError (readerNew env h5open (some o.platform_name) (some o.sensor) none) w = (.error .keyError, configured env w, t') := by
    unfold keyErrorOnOSError
    rw [ht']
    rfl
  unfold Eff.result getReflectance effectiveWavelength rsrWavelengthFromBandName
  rw [eff_bind_error (eff_bind_error (eff_bind_error hk))]

example (sun sat azi : List XF) : Eff.result (getReflectance true exampleEnv (openOnly "H".toList exFile) (fun _ => some exLut650) exInterp
      ⟨"FY-3B", "virr", ("/ray/rural_aerosol", "rayleigh_lut_us-standard.h5")⟩ sun sat azi (.name "M5")) exBothWorld = .error .keyError :=
  C148_no_response_file true _ _ _ _ _ "virr" _ (by decide +kernel) _
    (.inl ⟨"v1.6.1".toList, by rfl, [], [], [], rfl, by simp, by simp, Or.inl rfl⟩) (by rfl) _ _ _ _

end Verif.Props
