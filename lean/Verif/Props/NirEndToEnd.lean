import Verif.Props.EndToEnd
import Verif.Props.Nir
import Verif.Props.NirRetrieval
/-
C147: from the response file of a satellite to 3.x micron reflectances.
-/
namespace Verif.Props
open XF Model PyNum Lemmas Spec

/-! ### Specification -/

/-- A pixel: sun zenith angle, temperatures of the 3.x band, the 11 micron and the CO2 band. -/
structure RealPixel where
  zenith : ℝ
  nir : ℝ
  therm : ℝ
  co2 : ℝ

/-- Band radiance of a black body: Planck's law weighted with the response, integrated over wavelength. -/
noncomputable def bandRadiance (lam resp : List ℝ) (t : ℝ) : ℝ :=
  trap lam (List.zipWith (fun x y => y * planckWavelength x t) lam resp)

/-- The reflectance retrieved in a pixel when temperatures are read as `read`. -/
noncomputable def pixelReflectance (lam resp : List ℝ) (flux thr : ℝ) (lim : Option ℝ) (useCo2 : Bool) (read : ℝ → ℝ) (p : RealPixel) : XF :=
  let emitted := bandRadiance lam resp (read p.therm) * (if useCo2 then co2Factor p.therm p.co2 else 1)
  open Classical in
  if (∃ l, lim = some l ∧ (p.zenith < 0 ∨ l < p.zenith)) ∨ sunlight flux thr p.zenith - emitted < 0.005 then XF.nan
  else fin ((bandRadiance lam resp (read p.nir) - emitted) / (sunlight flux thr p.zenith - emitted))

/-- Temperatures of a table in steps of 0.1 K. -/
noncomputable def tenth (t : ℝ) : ℝ := ⌊t * 10⌋ / 10

/-- The table of band radiances (means over the band): 150, 150.1, ... 359.9 K. -/
noncomputable def tableOf (lam resp : List ℝ) : Lut XF :=
  ⟨finL ((List.range 2100).map fun (i : ℕ) => 150 + (i : ℝ) * 0.1),
   finL ((List.range 2100).map fun (i : ℕ) => bandRadiance lam resp (150 + (i : ℝ) * 0.1) / trap lam resp)⟩

noncomputable def RealPixel.toPixel (p : RealPixel) : Pixel := ⟨fin p.zenith, fin p.nir, fin p.therm, fin p.co2⟩

/-! ### The table of a converter -/

/-- The table a converter makes for itself: any array of temperatures is looked up entry by entry, from 150
up to 360 K as the band radiance at the temperature rounded down to 0.1 K. -/
theorem own_table (c : RadTb XF) (w r : List ℝ) (hc : Loaded c w r) (hb : GoodBand w r) (nc : Int)
    (hres : c.tb_resolution = fin 0.1) (hscale : c.tb_scale = 1.0 / fin 0.1) :
    ∃ (lut : Lut XF) (T : XF → XF), c.makeTb2radLut nc true = .ok lut ∧ Converts c nc (some lut) T ∧
      (c.wavespace = "wavelength" → lut = tableOf w r) ∧
      ∀ t, 150 ≤ t → t < 360 → T (fin t) = fin (bandInt c.wavespace w r (tenth t) / trap w r) := by
  have hA := hb.integral
  set R : ℝ → ℝ := fun t => bandInt c.wavespace w r t / trap w r with hR
  obtain ⟨N, hN⟩ : ∃ N : ℕ, N = 2100 := ⟨_, rfl⟩
  set grid := (List.range N).map fun (i : ℕ) => 150 + (i : ℝ) * 0.1 with hgrid
  have hgne : grid ≠ [] := by rw [hgrid]; simp; omega
  have hg0 : grid.head? = some 150 := by
    rw [hgrid, List.head?_map, List.head?_range, if_neg (by omega)]; norm_num
  obtain ⟨gtail, hgc⟩ : ∃ tl, grid = 150 :: tl := by
    cases hh : grid with
    | nil => exact absurd hh hgne
    | cons a tl => rw [hh] at hg0; simp at hg0; subst hg0; exact ⟨tl, rfl⟩
  set rad := finL (grid.map R) with hradd
  have hlen : rad.length = N := by simp [hradd, hgrid]
  have hrad : rad ≠ [] := by intro h; rw [h] at hlen; simp at hlen; omega
  have hscale' : c.tb_scale = fin 10 := by
    rw [hscale, ofSci_eq, fin_div _ (by norm_num)]; norm_num
  have h0 : truncR (150 * 10) = 1500 := by
    unfold truncR
    rw [if_pos (by norm_num), show ((150:ℝ) * 10) = ((1500 : ℤ) : ℝ) by norm_num, Int.floor_intCast]
  set T : XF → XF := fun x => rad[(clipInt (NP.wrap16 (NP.castInt16 nc (x * fin 10) - 1500)) 0 ((rad.length : ℤ) - 1)).toNat]'(
          (pyIndex_clip rad hrad _).1) with hT
  refine ⟨⟨finL grid, rad⟩, T, ?_, ?_, ?_, ?_⟩
  · have := tb2radiance_direct hc (goodBand_ne hb) hb.pos hA.ne' nc grid hgne (by
      intro t ht
      rw [hgrid, List.mem_map] at ht
      obtain ⟨i, _, rfl⟩ := ht
      have : (0:ℝ) ≤ (i:ℝ) * 0.1 := by positivity
      linarith [show (1e-6:ℝ) < 150 by norm_num]) true
    simp only [RadTb.makeTb2radLut, hres, arange_default N hN, bind, Except.bind]
    rw [← hgrid, this]
    rfl
  · intro ts hts
    have hl : ∃ q : Rad XF, lutRadiance nc c.tb_scale ⟨finL grid, rad⟩ ts = .ok q ∧ q.elems = ts.map T := by
      have e2 : NP.pyIndex (finL grid) 0 = .ok (fin 150) := by rw [hgc]; rfl
      have e3 : pyInt (fin 150 * fin 10 : XF) = .ok 1500 := by
        simp only [fin_mul, pyInt]
        show Except.ok (truncR (150 * 10)) = _
        rw [h0]
      have hm : ((ts.map fun t => NP.castInt16 nc (t * fin 10)).map fun n =>
          clipInt (NP.wrap16 (n - 1500)) 0 ((rad.length : ℤ) - 1)).mapM (fun i => NP.pyIndex rad i) = .ok (ts.map T) := by
        rw [List.map_map, List.mapM_map]
        exact mapM_ok _ _ _ (fun n _ => (pyIndex_clip rad hrad _).2)
      have key : ∀ zs, ((ts.map fun t => NP.castInt16 nc (t * fin 10)).map fun n =>
          clipInt (NP.wrap16 (n - 1500)) 0 ((rad.length : ℤ) - 1)).mapM (fun i => NP.pyIndex rad i) = .ok zs →
          ∃ q : Rad XF, lutRadiance nc c.tb_scale ⟨finL grid, rad⟩ ts = .ok q ∧ q.elems = zs := by
        intro zs hz
        simp only [lutRadiance, hscale', e2, e3, bind, Except.bind]
        rw [if_neg (by omega), hz]
        match zs with
        | [] => exact ⟨_, rfl, rfl⟩
        | [x] => exact ⟨_, rfl, rfl⟩
        | x :: y :: zs => exact ⟨_, rfl, rfl⟩
      exact key _ hm
    obtain ⟨q, h1, h2⟩ := hl
    refine ⟨{ radiance := q, unit := radianceUnit c.wavespace true, scale := 1.0 }, ?_, h2⟩
    simp only [RadTb.tb2radiance, h1, bind, Except.bind, pure, Except.pure]
  · intro hws
    unfold tableOf
    rw [hradd, hgrid, ← hN, List.map_map]
    congr 2
    apply List.map_congr_left
    intro i _
    show bandInt _ w r _ / _ = _
    rw [bandInt_eq _ hc.len, hws]
    rfl
  · intro t h1 h2
    have a : 1500 ≤ ⌊t * 10⌋ := by apply Int.le_floor.2; push_cast; linarith
    have b : ⌊t * 10⌋ < 3600 := by apply Int.floor_lt.2; push_cast; linarith
    have htr : truncR (t * 10) = ⌊t * 10⌋ := by unfold truncR; rw [if_pos (by linarith)]
    have e1 : NP.castInt16 nc (fin t * fin 10) = ⌊t * 10⌋ := by
      simp only [fin_mul, NP.castInt16]
      show NP.wrap16 (truncR (t * 10)) = _
      rw [htr, wrap16_id (by omega) (by omega)]
    have e2 : (clipInt (NP.wrap16 (⌊t * 10⌋ - 1500)) 0 ((rad.length : ℤ) - 1)).toNat = (⌊t * 10⌋ - 1500).toNat := by
      rw [wrap16_id (by omega) (by omega), hlen]
      unfold clipInt
      omega
    have hi : (⌊t * 10⌋ - 1500).toNat < N := by omega
    have : T (fin t) = rad[(⌊t * 10⌋ - 1500).toNat]'(by omega) := by
      rw [hT]
      simp only [e1, e2]
    rw [this]
    simp only [hradd, finL, hgrid, List.getElem_map, List.getElem_range]
    show fin (R _) = fin (R _)
    congr 2
    have : (((⌊t * 10⌋ - 1500).toNat : ℕ) : ℝ) = (⌊t * 10⌋ : ℝ) - 1500 := by
      have := Int.toNat_of_nonneg (show 0 ≤ ⌊t * 10⌋ - 1500 by omega)
      have h' : (((⌊t * 10⌋ - 1500).toNat : ℤ) : ℝ) = ((⌊t * 10⌋ - 1500 : ℤ) : ℝ) := by rw [this]
      push_cast at h'
      rw [← h']
    rw [this]
    unfold tenth
    norm_num
    ring

/-- the reflectances of an object whose conversion is known -/
theorem reflectance_values (s : Nir XF) (nc : Int) (lam resp : List ℝ) (hlen : lam.length = resp.length) (htrap : trap lam resp ≠ 0)
    (flux thr : ℝ) (lim : Option ℝ) (read : ℝ → ℝ) (hI : s.conv.rsr_integral = fin (trap lam resp)) (hflux : s.solar_flux = fin flux)
    (hthr : s.sunz_threshold = fin thr) (hlim : s.masking_limit = lim.map fin) (R : XF → XF) (shape : List Nat) (px : List RealPixel)
    (kz kn kt kc : ArrKind) (useCo2 : Bool) (lut : Option (Option (Lut XF)))
    (hu : NirUsable s nc ⟨shape, px.map RealPixel.toPixel, kz, kn, kt, kc, useCo2, lut⟩ R)
    (hR : ∀ p ∈ px, ∀ t, t = p.nir ∨ t = p.therm → R (fin t) = fin (bandInt "wavelength" lam resp (read t) / trap lam resp))
    (hco2 : useCo2 = true → ∀ p ∈ px, p.therm ≠ 0) :
    ∃ out s', reflectance nc ⟨shape, px.map RealPixel.toPixel, kz, kn, kt, kc, useCo2, lut⟩ s = (.ok out, s') ∧
      out.values = ⟨shape, px.map (pixelReflectance lam resp flux thr lim useCo2 read)⟩ := by
  obtain ⟨out, h1, h2⟩ := reflectance_run s nc _ R hu
  refine ⟨out, _, h1, ?_⟩
  rw [h2]
  congr 1
  rw [List.map_map]
  apply List.map_congr_left
  intro p hp
  have hb : ∀ t, bandInt "wavelength" lam resp t = bandRadiance lam resp t := fun t => by
    rw [bandInt_eq _ hlen]; rfl
  show pxValue s.conv.rsr_integral s.solar_flux s.sunz_threshold s.masking_limit R useCo2 p.toPixel = _
  rw [hI, hflux, hthr, pxValue_fin (trap lam resp) flux thr p.zenith _ _ p.therm p.co2 s.masking_limit R useCo2 p.toPixel rfl
    (hR p hp _ (.inl rfl)) (hR p hp _ (.inr rfl)) (fun h => ⟨rfl, rfl, hco2 h p hp⟩)]
  rw [div_mul_cancel₀ _ htrap, div_mul_cancel₀ _ htrap, hb, hb]
  unfold pixelReflectance factor
  have hm : pxZenith s.masking_limit p.toPixel = true ↔ ∃ l, lim = some l ∧ (p.zenith < 0 ∨ l < p.zenith) := by
    rw [hlim]
    unfold pxZenith RealPixel.toPixel
    cases lim with
    | none => simp
    | some l =>
      simp [ofSci_eq, gt]
      norm_num
  have hn : isNaN p.toPixel.nir = false := rfl
  dsimp only
  by_cases hx : (∃ l, lim = some l ∧ (p.zenith < 0 ∨ l < p.zenith)) ∨ sunlight flux thr p.zenith -
      bandRadiance lam resp (read p.therm) * (if useCo2 = true then co2Factor p.therm p.co2 else 1) < 0.005
  · rw [if_pos hx, if_pos]
    rcases hx with h | h
    · exact .inr (.inl (hm.2 h))
    · exact .inl h
  · rw [if_neg hx, if_neg]
    rintro (h | h | h)
    · exact hx (.inr h)
    · exact hx (.inl (hm.1 h))
    · rw [hn] at h; cases h

theorem hasCentral_unique {α : Type} [PyNum α] {f : H5File α} {b d : String} {c c' : α} (h : HasCentral f b d c)
    (h' : HasCentral f b d c') : c = c' := by
  have := ((bandCentral_spec f b d).1 c).2 h
  rw [((bandCentral_spec f b d).1 c').2 h'] at this
  cases this
  rfl

/-- C147: a Calculator made for a platform, instrument and band name (solar flux given, response data
current or downloads off, no table yet and its directory there) retrieves in every pixel the reflectance
that the radiance balance gives with the response curve stored in the platform's file: with its own table
for temperatures from 150 up to 360 K read to 0.1 K, and without table (`lut=None`, one-dimensional
arrays) for the temperatures themselves. -/
theorem C147_reflectance_from_file (ne : NirEnv XF) (h5open : Content → Option (H5File XF)) (platform instrument c q : String)
    (hcan : checkAndAdjustInstrumentName platform instrument = .ok c) (w : World)
    (hcur : RsrCurrent ne.env w ∨ ne.env.cfg.download_from_internet = false) (content : Content) (f : H5File XF) (info : RsrInfo XF)
    (hw : w.files (ne.env.cfg.rsr_dir, "rsr_" ++ c ++ "_" ++ platform ++ ".h5") = some content) (ho : h5open content = some f)
    (hload : loadRsrInfo f = .ok info) (l : List String) (hl : ListsBands f l)
    (hq : bandNamed instrument q ∈ l) (n : Nat) (hn : DetectorCount f (bandNamed instrument q) n) (i : Nat) (hi : i < n)
    (lam resp : List ℝ) (hc : FileCurve f (bandNamed instrument q) (detName i) lam resp)
    (x : ℝ) (hx : HasCentral f (bandNamed instrument q) (detName 0) (fin x)) (h1 : 3.5 ≤ x) (h2 : x ≤ 3.95)
    (flux thr : ℝ) (lim : Option ℝ)
    (p : String) (hp : nirPath ne (configured ne.env w) platform instrument (bandNamed instrument q) = p) (hpne : p ≠ "")
    (hnew : w.files (OsPath.file p) = none) (hnd : (configured ne.env w).dirs p = false) (hdir : w.dirs (OsPath.dirname p) = true)
    (hround : ne.npzDecode (ne.npzEncode (tableOf lam resp)) = .ok (tableOf lam resp)) :
    ∃ s, Eff.result (calculatorNew ne h5open platform instrument (.name q) (detName i) "wavelength" (some (fin flux)) (fin thr)
        (lim.map fin)) w = .ok s ∧
      ∀ (px : List RealPixel) (kz kn kt kc : ArrKind) (useCo2 : Bool), px ≠ [] →
        (∀ shape, shape ≠ [] → (∀ p ∈ px, (150 ≤ p.nir ∧ p.nir < 360) ∧ 150 ≤ p.therm ∧ p.therm < 360) →
          ∃ out s', reflectance ne.nanCast ⟨shape, px.map RealPixel.toPixel, kz, kn, kt, kc, useCo2, none⟩ s = (.ok out, s') ∧
            out.values = ⟨shape, px.map (pixelReflectance lam resp flux thr lim useCo2 tenth)⟩) ∧
        ((∀ p ∈ px, 1e-6 < p.nir ∧ 1e-6 < p.therm) →
          ∃ out s', reflectance ne.nanCast ⟨[px.length], px.map RealPixel.toPixel, kz, kn, kt, kc, useCo2, some none⟩ s =
              (.ok out, s') ∧
            out.values = ⟨[px.length], px.map (pixelReflectance lam resp flux thr lim useCo2 id)⟩) := by
  obtain ⟨b, hb⟩ := quiet_updates_off ne.env (configured ne.env w) hcur
  obtain ⟨t', ht', -⟩ := reader_by_name ne.env h5open platform instrument c hcan w _ b _ hb
  obtain ⟨⟨r, hr⟩, hf⟩ := reader_there ne.env h5open platform instrument c hcan w hcur content f info hw ho hload
  have hrun : readerNew ne.env h5open (some platform) (some instrument) none w = (.ok r, configured ne.env w, t') := by
    unfold Eff.result at hr
    rw [ht'] at hr ⊢
    simp only at hr
    rw [hr]
  obtain ⟨g1, -, -, -, -, gb⟩ := reader_detector ne.env h5open platform instrument w r hr f hf l hl
  obtain ⟨B, hB, hBl⟩ := gb _ hq
  obtain ⟨cw, hd⟩ := bandLoaded_curve hBl hn hi hc
  obtain ⟨cv, k1, k2, k3, -⟩ := new_from_detector r.sensor platform instrument q (detName i) 0.1 g1 B hB cw lam resp hc.2.2 hd
    "wavelength" (.inl rfl) tenth_nonzero
  have k3 : Loaded cv lam resp := k3
  have hcurve : RealCurve lam resp := hc.2.2
  set k : NirArgs XF := ⟨.ok r.sensor, platform, instrument, .name q, detName i, "wavelength", some (fin flux), fin thr, lim.map fin⟩
    with hk
  have hconv : k.conv = .ok cv := k1
  obtain ⟨name, j1, j2, j3, j4, j5, sn, j6, j7, -⟩ := radTbNew_inv k1
  cases j6
  obtain ⟨j7, j8⟩ := j7 (by decide)
  have hname : name = bandNamed instrument q := by
    have : converterBandname (α := XF) instrument cv.rsr (.name q) = .ok (some (bandNamed instrument q)) := rfl
    rw [this] at j5
    cases j5
    rfl
  subst hname
  have hbw : BandWavelength k cv (fin x) := by
    obtain ⟨m, hm, -, hall⟩ := hBl
    have : n = m := (detectorNames_spec f _).2.2 n m hn hm
    subst this
    obtain ⟨r0, w0, c0, -, -, a3, e⟩ := hall 0 (by omega)
    rw [hasCentral_unique a3 hx] at e
    refine ⟨B, _, ?_, getItem_ok_iff.2 e, rfl⟩
    unfold converterLookup
    rw [j1, j3, j7]
    dsimp only
    rw [if_neg (by decide)]
    unfold rsrDictGetItem
    rw [show r.sensor.rsr.get? _ = some B from hB]
  have hpre : k.pre ne = .ok (cv, (bandNamed instrument q, fin x), fin flux) := by
    obtain ⟨name', hn', h3⟩ := nirBand_eq hconv hbw
    rw [j1] at hn'
    cases hn'
    unfold NirArgs.pre
    rw [hconv]
    simp only [bind, Except.bind, h3]
    rw [if_neg]
    · rfl
    · simp [h1, h2]
  obtain ⟨lut', T, o1, o2, o4, o3⟩ := own_table cv lam resp k3 hcurve.good ne.nanCast j4.2.1 j4.2.2
  obtain ⟨s, w', t, lut, m1, m2, m3, -, -⟩ := C95_wavelength_partial ne k cv _ _ hpre lam resp k3 hcurve.good (configured ne.env w) p
    (by rw [configured_twice]; exact hp) hpne hnew (by rw [configured_twice]; exact hnd) (configured_dirs _ _ _ hdir) (fun l h => by
      rw [o1] at h
      cases h
      rw [o4 k2]
      exact hround)
  rw [o1] at m2
  cases m2
  obtain ⟨c', nw', fl', l', n1, n2, -, n4, -⟩ := make_inv ne k _ w' t s m1
  rw [hpre] at n1
  cases n1
  have hsc : s.conv = { cv with bandname := some (bandNamed instrument q) } := by rw [n2]; rfl
  have hI : s.conv.rsr_integral = fin (trap lam resp) := by rw [hsc]; exact k3.integral
  have hws : cv.wavespace = "wavelength" := k2
  have htrap : trap lam resp ≠ 0 := hcurve.good.integral.ne'
  have hrsr : s.conv.rsr ≠ [] := by
    rw [hsc]
    show cv.rsr ≠ []
    rw [j7]
    intro h0
    rw [show r.rsr = [] from h0] at hB
    cases hB
  have hl' : Loaded s.conv lam resp := by
    rw [hsc]
    exact ⟨k3.1, k3.2, k3.3, k3.4⟩
  have hfl : s.solar_flux = fin flux := by rw [n2]; rfl
  have hth : s.sunz_threshold = fin thr := by rw [n2]; rfl
  have hli : s.masking_limit = lim.map fin := by rw [n2]; rfl
  refine ⟨s, ?_, ?_⟩
  · unfold calculatorNew
    rw [if_neg (by decide)]
    unfold Eff.result
    rw [eff_bind_ok hrun]
    show (k.make ne (configured ne.env w)).1 = _
    rw [m1]
  · intro px kz kn kt kc useCo2 hpx
    constructor
    · intro shape hsh hrange
      refine reflectance_values s ne.nanCast lam resp hcurve.len htrap flux thr lim tenth hI hfl hth hli T shape px kz kn kt kc useCo2 none
        ⟨hrsr, by simpa using hpx, hsh, ?_, .inl (by rw [m3]; rfl)⟩ ?_ ?_
      · show Converts s.conv ne.nanCast s.lut T
        rw [m3, hsc]
        exact o2
      · intro p' hp' t ht
        obtain ⟨⟨a1, a2⟩, a3, a4⟩ := hrange p' hp'
        have := o3 t (by rcases ht with rfl | rfl <;> assumption) (by rcases ht with rfl | rfl <;> assumption)
        rw [hws] at this
        exact this
      · intro _ p' hp'
        have := (hrange p' hp').2.1
        intro h0
        rw [h0] at this
        norm_num at this
    · intro hrange
      refine reflectance_values s ne.nanCast lam resp hcurve.len htrap flux thr lim id hI hfl hth hli (directFn s.conv) [px.length] px
        kz kn kt kc useCo2 (some none) ⟨hrsr, by simpa using hpx, by simp, ?_, .inr (by simp)⟩ ?_ ?_
      · exact converts_direct _ (by rw [hl'.wave]; simpa [finL] using goodBand_ne hcurve.good) (by rw [hl'.wave, hl'.response]; simpa [finL] using hcurve.len) ne.nanCast
      · intro p' hp' t ht
        have := directFn_fin hl' hcurve.good (t := t) (by
          obtain ⟨a1, a2⟩ := hrange p' hp'
          rcases ht with rfl | rfl <;> assumption)
        rw [show s.conv.wavespace = "wavelength" by rw [hsc]; exact hws] at this
        exact this
      · intro _ p' hp'
        have := (hrange p' hp').2
        intro h0
        rw [h0] at this
        norm_num at this

/-! ### An example -/

/-- a file with one band at 3.75 micron -/
noncomputable def exFile37 : H5File XF where
  attrs := [("band_names", .text (.array .object_ [.str "M12"]) "['M12']"), ("description", .text (.str "example") "example"),
    ("platform_name", .text (.str "Suomi-NPP") "Suomi-NPP"), ("sensor", .text (.str "viirs") "viirs")]
  bands := [("M12", {
    attrs := [("number_of_detectors", .int 1), ("central_wavelength", .num (XF.fin 3.75) "3.75")]
    datasets := [("response", ⟨finL [0, 1, 0.5], []⟩),
      ("wavelength", ⟨finL [3.7, 3.75, 3.8], [("scale", .num (XF.fin 1e-6) "1e-06")]⟩)]
    dets := [] })]

theorem exFile37_loads : ∃ info, loadRsrInfo exFile37 = .ok info := ⟨_, rfl⟩

theorem exFile37_curve : FileCurve exFile37 "M12" "det-1" [3.7e-6, 3.75e-6, 3.8e-6] [0, 1, 0.5] := by
  refine ⟨((bandResponses_spec exFile37 "M12" "det-1").1 _).1 rfl, ((bandWavelengths_spec exFile37 "M12" "det-1").1 _).1 ?_, ?_⟩
  · show Except.ok ((finL [3.7, 3.75, 3.8]).map fun x => x * XF.fin 1e-6 * 1e6) = _
    simp [finL, ofSci_eq]
    norm_num
  · refine ⟨rfl, by simp, ?_, ?_, ?_, ⟨1, by simp, by norm_num⟩⟩
    · unfold Increasing
      norm_num
    · intro x hx
      simp at hx
      rcases hx with rfl | rfl | rfl <;> norm_num
    · intro x hx
      simp at hx
      rcases hx with rfl | rfl | rfl <;> norm_num

/-- tables are kept in `/lut`, downloads are switched off -/
noncomputable def exEnv37 (enc : Lut XF → Content) (dec : Content → Py (Lut XF)) : NirEnv XF :=
  { exNirEnv enc dec with env := { (exNirEnv enc dec).env with cfg := ⟨"/rsr", "/ray", false⟩ } }

def exWorld37 : World where
  files := fun q => if q = ("/rsr", "rsr_viirs_Suomi-NPP.h5") then some "H".toList else none
  dirs := fun d => d == "/lut"
  requests := []

/-- two pixels, one with the sun below the horizon: the band is asked for by its name -/
example : ∃ s, Eff.result (calculatorNew (exEnv37 (fun _ => []) (fun _ => .ok (tableOf [3.7e-6, 3.75e-6, 3.8e-6] [0, 1, 0.5])))
      (openOnly "H".toList exFile37) "Suomi-NPP" "viirs" (.name "M12") "det-1" "wavelength" (some (fin 2)) (fin 85) (some (fin 85)))
      exWorld37 = .ok s ∧
    ∃ out s', reflectance 0 ⟨[2], [⟨fin 30, fin 300, fin 290.05, fin 250⟩, ⟨fin 100, fin 300, fin 290.05, fin 250⟩],
        .numpy, .numpy, .numpy, .numpy, true, none⟩ s = (.ok out, s') ∧
      out.values = ⟨[2], [pixelReflectance [3.7e-6, 3.75e-6, 3.8e-6] [0, 1, 0.5] 2 85 (some 85) true tenth ⟨30, 300, 290.05, 250⟩,
        XF.nan]⟩ := by
  obtain ⟨info, hinfo⟩ := exFile37_loads
  obtain ⟨s, h1, h2⟩ := C147_reflectance_from_file
    (exEnv37 (fun _ => []) (fun _ => .ok (tableOf [3.7e-6, 3.75e-6, 3.8e-6] [0, 1, 0.5])))
    (openOnly "H".toList exFile37) "Suomi-NPP" "viirs" "viirs" "M12" (by decide +kernel) exWorld37 (.inr rfl) "H".toList exFile37 info
    (by rfl) (by rfl) hinfo ["M12"] ⟨_, _, _, rfl, .cons (.str _) .nil⟩ (by decide +kernel) 1 (.inl ⟨_, _, rfl, rfl, rfl⟩) 0 (by decide) _ _
    exFile37_curve 3.75 (((bandCentral_spec exFile37 "M12" "det-1").1 _).1 rfl) (by norm_num) (by norm_num) 2 85 (some 85)
    "/lut/tb2rad_lut_suomi-npp_viirs_m12.npz" (by rfl) (by decide) (by decide +kernel) (by decide +kernel) (by decide +kernel) rfl
  refine ⟨s, h1, ?_⟩
  obtain ⟨out, s', h3, h4⟩ := (h2 [⟨30, 300, 290.05, 250⟩, ⟨100, 300, 290.05, 250⟩] .numpy .numpy .numpy .numpy true (by simp)).1 [2]
    (by simp) (by
      intro p hp
      simp at hp
      rcases hp with rfl | rfl <;> norm_num)
  refine ⟨out, s', h3, ?_⟩
  rw [h4]
  simp only [List.map_cons, List.map_nil]
  congr 3
  unfold pixelReflectance
  rw [if_pos (.inl ⟨85, rfl, .inr (by norm_num)⟩)]

end Verif.Props
