import Verif.Props.FloatConstruct
import Verif.Props.EndToEnd
/-
C190: from the response file of a satellite to band radiances in floating point.
-/
namespace Verif.Props
open XF Model PyNum Lemmas Spec

/-- A response curve in a file: stored positions in ascending order with a scale (to metre), so that the
positions are between 21 nm and 4.9 mm and differ by at least two parts in 10^10, and responses. -/
structure FpStored {F : FP} (f : H5File (RF F)) (b d : String) (vals : List ℝ) (s : ℝ) (r : List ℝ) : Prop where
  scaled : ∃ sv, Item f b d (fun D => scaledData D.datasets) (fun B => scaledData B.datasets) (vals.map RF.of, sv) ∧
    AttrIs sv (RF.of s)
  response : HasResponse f b d (r.map RF.of)
  range : ∀ x ∈ vals, 0 < x ∧ 2.1e-8 ≤ x * s ∧ x * s ≤ 4.9e-3
  gaps : vals.IsChain fun x y => x * (1 + 2e-10) ≤ y
  resp : ∀ y ∈ r, y = 0 ∨ (1e-10 ≤ y ∧ y ≤ 1e10)
  len : vals.length = r.length
  two : 2 ≤ vals.length
  size : vals.length ≤ 2 ^ 20
  some : ∃ y ∈ r, y ≠ 0

/-- Every detector of every listed band has such a curve. -/
def FpFile {F : FP} (f : H5File (RF F)) : Prop :=
  ∀ l, ListsBands f l → ∀ b ∈ l, ∀ n, DetectorCount f b n → ∀ i < n, ∃ vals s r, FpStored f b (detName i) vals s r

section
variable (F : FP)

/-- a position in micron, as computed -/
theorem micron_near {x s : ℝ} (h0 : 0 < x) (h1 : 2.1e-8 ≤ x * s) (h2 : x * s ≤ 4.9e-3) :
    ∃ y : ℝ, (RF.of x : RF F) * RF.of s * (1e6 : RF F) = RF.of y ∧
      x * s * 1e6 * (1 - 4 * uu) ≤ y ∧ y ≤ x * s * 1e6 * (1 + 8 * uu) := by
  have hu := uu_small
  have hu0 := uu_pos
  norm_num at hu h1 h2
  have hs : 0 < s := by
    by_contra h
    have := mul_nonpos_of_nonneg_of_nonpos h0.le (not_lt.1 h)
    linarith
  have n1 := near_mul F (near_refl h0) (near_refl hs) (by norm_num) (le_trans (by norm_num) h1) (h2.trans (by norm_num))
  have n2 := near_mul F n1 (near_lit F 1 false 6 (by norm_num) (by norm_num)) (by linarith)
    (le_trans (by norm_num) (mul_le_mul_of_nonneg_right h1 (by norm_num)))
    ((mul_le_mul_of_nonneg_right h2 (by norm_num)).trans (by norm_num))
  have n3 := Near.mono n2 (show _ ≤ 4 * uu by linarith)
  obtain ⟨p, y, e, l1, l2⟩ := n3
  have e1 : 1 - 4 * uu ≤ Real.exp (-(4 * uu)) := by have := Real.add_one_le_exp (-(4 * uu)); linarith
  have e2 : Real.exp (4 * uu) ≤ 1 + 8 * uu := by
    have g1 := Real.add_one_le_exp (-(4 * uu))
    rw [Real.exp_neg] at g1
    have g2 : Real.exp (4 * uu) ≤ (1 - 4 * uu)⁻¹ := by
      rw [le_inv_comm₀ (Real.exp_pos _) (by linarith)]; linarith
    refine g2.trans ?_
    rw [inv_le_iff_one_le_mul₀ (by linarith)]
    nlinarith
  have p' : 0 ≤ x * s * (1e6 : ℝ) := p.le
  exact ⟨y, e, (mul_le_mul_of_nonneg_left e1 p').trans l1, l2.trans (mul_le_mul_of_nonneg_left e2 p')⟩

/-- the positions of a stored curve, as computed -/
theorem microns_near {s : ℝ} (hs : 0 < s) {vals : List ℝ} (hr : ∀ x ∈ vals, 0 < x ∧ 2.1e-8 ≤ x * s ∧ x * s ≤ 4.9e-3)
    (hg : vals.IsChain fun x y => x * (1 + 2e-10) ≤ y) :
    ∃ w : List ℝ, ((vals.map RF.of).map fun x => x * RF.of s * (1e6 : RF F)) = w.map RF.of ∧
      (∀ x ∈ w, 0.02 ≤ x ∧ x ≤ 5000) ∧ RelGaps w ∧
      List.Forall₂ (fun y x => x * s * 1e6 * (1 - 4 * uu) ≤ y ∧ y ≤ x * s * 1e6 * (1 + 8 * uu)) w vals := by
  have hu := uu_small
  have hu0 := uu_pos
  norm_num at hu
  induction vals with
  | nil => exact ⟨[], rfl, by simp, .nil, .nil⟩
  | cons x vals ih =>
    obtain ⟨w, e, h1, h2, h3⟩ := ih (fun y hy => hr y (by simp [hy])) hg.tail
    obtain ⟨x0, x1, x2⟩ := hr x (by simp)
    obtain ⟨y, ey, y1, y2⟩ := micron_near F x0 x1 x2
    norm_num at x1 x2
    refine ⟨y :: w, ?_, ?_, ?_, .cons ⟨y1, y2⟩ h3⟩
    · simp only [List.map_cons]
      rw [e, ey]
    · intro z hz
      rcases List.mem_cons.1 hz with rfl | hz
      · norm_num at y1 y2 ⊢
        constructor <;> nlinarith
      · exact h1 z hz
    · cases h3 with
      | nil => exact .singleton _
      | @cons z v w vals hz h3 =>
        refine .cons_cons ?_ h2
        have hv : x * (1 + 2e-10) ≤ v := (List.isChain_cons_cons.1 hg).1
        have hxs : 0 < x * s := mul_pos x0 hs
        have g1 : x * s * (1 + 2e-10) ≤ v * s := by
          have := mul_le_mul_of_nonneg_right hv hs.le
          linarith
        have g2 : x * s * (1 + 2e-10) * (1e6 * (1 - 4 * uu)) ≤ v * s * (1e6 * (1 - 4 * uu)) :=
          mul_le_mul_of_nonneg_right g1 (by norm_num; linarith)
        have g3 : (1 + 8 * uu) * (1 + 1e-10) ≤ (1 + 2e-10) * (1 - 4 * uu) := by norm_num; linarith
        have g4 := mul_le_mul_of_nonneg_left g3 (mul_nonneg hxs.le (show (0 : ℝ) ≤ 1e6 by norm_num))
        have g5 := mul_le_mul_of_nonneg_right y2 (show (0 : ℝ) ≤ 1 + 1e-10 by norm_num)
        have g6 := hz.1
        linarith

theorem FpStored.curve {f : H5File (RF F)} {b d : String} {vals : List ℝ} {s : ℝ} {r : List ℝ} (h : FpStored f b d vals s r) :
    ∃ w : List ℝ, HasWavelength f b d (w.map RF.of) ∧ FpCurve w r := by
  obtain ⟨sv, h1, h2⟩ := h.scaled
  have hs : 0 < s := by
    cases hv : vals with
    | nil => have := h.two; rw [hv] at this; simp at this
    | cons x t =>
      obtain ⟨x0, x1, -⟩ := h.range x (by simp [hv])
      by_contra hn
      have := mul_nonpos_of_nonneg_of_nonpos x0.le (not_lt.1 hn)
      norm_num at x1
      linarith
  obtain ⟨w, e, g1, g2, g3⟩ := microns_near F hs h.range h.gaps
  have hl := g3.length_eq
  exact ⟨w, ⟨_, sv, _, h1, h2, e.symm⟩, g1, g2, h.resp, hl.trans h.len, by rw [hl]; exact h.two, by rw [hl]; exact h.size, h.some⟩

/-- what a reader of such a file holds -/
theorem reader_fpSensor (env : Env) (h5open : Content → Option (H5File (RF F))) (platform instrument : String) (w : World)
    (r : Reader (RF F)) (hr : Eff.result (readerNew env h5open (some platform) (some instrument) none) w = .ok r)
    (f : H5File (RF F)) (hf : ReaderFile env h5open platform instrument w f) (l : List String) (hl : ListsBands f l)
    (hfile : FpFile f) : FpSensor r.sensor := by
  obtain ⟨h1, -, -, h4, h5, h6⟩ := reader_detector env h5open platform instrument w r hr f hf l hl
  have key : ∀ k b, r.rsr.get? k = some b → k ∈ l ∧ BandLoaded f k b := by
    intro k b hk
    have hm : k ∈ l := (h5 k).1 (by
      by_contra hn
      rw [get?_eq_none_iff.2 hn] at hk
      cases hk)
    obtain ⟨B, g1, g2⟩ := h6 k hm
    rw [hk] at g1
    cases g1
    exact ⟨hm, g2⟩
  refine ⟨h1, h4, ?_, ?_⟩
  · intro k b hk
    obtain ⟨-, n, -, g, -⟩ := key k b hk
    show b.keys.Nodup
    rw [g]
    exact names_nodup n
  · intro k b hk d det hd
    obtain ⟨hm, n, hn, g, hall⟩ := key k b hk
    have hd' : d ∈ b.keys := by
      by_contra hn
      rw [get?_eq_none_iff.2 hn] at hd
      cases hd
    rw [g] at hd'
    obtain ⟨i, hi, rfl⟩ := List.mem_map.1 hd'
    obtain ⟨r', w', c, a1, a2, -, e⟩ := hall i (List.mem_range.1 hi)
    rw [hd] at e
    cases e
    obtain ⟨vals, s, rr, hst⟩ := hfile l hl k hm n hn i (List.mem_range.1 hi)
    obtain ⟨ww, hw, hcv⟩ := hst.curve F
    rw [hasResponse_unique a1 hst.response, hasWavelength_unique a2 hw]
    exact ⟨ww, rr, rfl, rfl, rfl, hcv⟩

end

/-- a converter is made for the name of a band there is -/
theorem new_made {F : FP} {s : Sensor (RF F)} (hs : FpSensor s) (p i q d ws : String) (res : RF F)
    (hws : ws = "wavelength" ∨ ws = "wavenumber") (hres : PyNum.eq res 0 = false) {b : BandRsr (RF F)} {det : DetRsr (RF F)}
    (hb : s.rsr.get? (bandNamed i q) = some b) (hd : b.get? d = some det) :
    ∃ c, RadTb.new (.ok s) p i (.name q) d ws res = .ok c := by
  have hname : ∀ rsr : Rsr (RF F), converterBandname i rsr (.name q) = .ok (some (bandNamed i q)) := fun _ => rfl
  have hres' : ¬ PyNum.eq res 0 = true := by rw [hres]; decide
  obtain ⟨w, r, hw, hr, hno, hcv⟩ := hs.curve _ _ hb _ _ hd
  unfold RadTb.new
  rcases hws with rfl | rfl
  · rw [if_neg (by decide), if_neg hres']
    simp only [bind, Except.bind, pure, Except.pure]
    rw [if_neg (by decide)]
    simp only [hname]
    unfold converterLookup
    dsimp only
    rw [if_neg (by decide)]
    unfold rsrDictGetItem
    simp only [hb, Dict.getItem, hd, getArr, hw, hr, bind, Except.bind, pure, Except.pure]
    rw [trapezoid_val _ _ (by simp [hcv.len])]
    exact ⟨_, rfl⟩
  · rw [if_neg (by decide), if_neg hres']
    have dets : ∀ k B, s.rsr.get? k = some B → ∃ y, band2wavenumber B = .ok y := by
      intro k B hk
      rw [band2wavenumber_eq _ (hs.dets k B hk)]
      refine mapM_pair_ok convertDetector B ?_
      intro x hx
      obtain ⟨w, r, hw, hr, hno, -⟩ := hs.curve k B hk x.1 x.2 (get?_of_mem (hs.dets k B hk) hx)
      obtain ⟨out, ho, -⟩ := convertDetector_spec x.2 _ _ _ hno hw hr rfl
      exact ⟨out, ho⟩
    obtain ⟨rs, hrs⟩ := mapM_pair_ok band2wavenumber s.rsr fun x hx => dets x.1 x.2 (get?_of_mem hs.bands hx)
    have hc : convert2wavenumber s.rsr = .ok (rs, ⟨"cm-1", 100.0⟩) := by
      rw [convert2wavenumber_eq _ hs.bands, hrs]
      rfl
    obtain ⟨y, hy, hy'⟩ := (forall₂_get? (mapM_pair_spec band2wavenumber s.rsr _ hrs).2 _).1 _ hb
    rw [band2wavenumber_eq _ (hs.dets _ _ hb)] at hy
    obtain ⟨z, hz, hz'⟩ := (forall₂_get? (mapM_pair_spec convertDetector b _ hy).2 _).1 _ hd
    obtain ⟨out, ho, ho1, ho2, -⟩ := convertDetector_spec det _ _ _ hno hw hr rfl
    rw [hz] at ho
    cases ho
    simp only [bind, Except.bind, pure, Except.pure]
    rw [if_pos (by decide)]
    simp only [hc, hname]
    unfold converterLookup
    dsimp only
    rw [if_pos (by decide)]
    simp only [Dict.getItem, hy', hz', getArr, ho1, ho2, bind, Except.bind, pure, Except.pure]
    rw [trapezoid_val _ _ (by simp [hcv.len])]
    exact ⟨_, rfl⟩

/-- a converter that was made, was made from what a reader read -/
theorem converterNew_ok {α : Type} [PyNum α] {env : Env} {h5open : Content → Option (H5File α)} {platform instrument : String}
    {band : BandArg α} {det ws : String} {res : α} {w : World} {c : RadTb α}
    (h : Eff.result (converterNew env h5open platform instrument band det ws res) w = .ok c) :
    ∃ r, Eff.result (readerNew env h5open (some platform) (some instrument) none) w = .ok r ∧
      RadTb.new (.ok r.sensor) platform instrument band det ws res = .ok c := by
  unfold converterNew at h
  split at h
  · cases h
  split at h
  · cases h
  unfold Eff.result at h ⊢
  rcases hh : readerNew env h5open (some platform) (some instrument) none w with ⟨x, w', t⟩
  cases x with
  | ok r =>
    rw [eff_bind_ok hh] at h
    exact ⟨r, rfl, h⟩
  | error e =>
    rw [eff_bind_error hh] at h
    cases h

/-- C190: a converter is made for every listed band and every one of its detectors, in both wave spaces. -/
theorem C190_made (F : FP) (env : Env) (h5open : Content → Option (H5File (RF F))) (platform instrument q : String)
    (w : World) (r : Reader (RF F)) (hr : Eff.result (readerNew env h5open (some platform) (some instrument) none) w = .ok r)
    (f : H5File (RF F)) (hf : ReaderFile env h5open platform instrument w f) (l : List String) (hl : ListsBands f l)
    (hfile : FpFile f) (hq : bandNamed instrument q ∈ l) (n : Nat) (hn : DetectorCount f (bandNamed instrument q) n)
    (i : Nat) (hi : i < n) (ws : String) (hws : ws = "wavelength" ∨ ws = "wavenumber") (res : RF F)
    (hres : PyNum.eq res 0 = false) :
    ∃ c, Eff.result (converterNew env h5open platform instrument (.name q) (detName i) ws res) w = .ok c := by
  obtain ⟨-, -, -, -, -, hb⟩ := reader_detector env h5open platform instrument w r hr f hf l hl
  obtain ⟨B, hB, m, hm, -, hall⟩ := hb _ hq
  obtain rfl : n = m := (detectorNames_spec f _).2.2 n m hn hm
  obtain ⟨r', w', c', -, -, -, e⟩ := hall i hi
  obtain ⟨c, hc⟩ := new_made (reader_fpSensor F env h5open platform instrument w r hr f hf l hl hfile) platform instrument q
    (detName i) ws res hws hres hB e
  refine ⟨c, ?_⟩
  unfold converterNew
  rw [if_neg (by rcases hws with rfl | rfl <;> decide), if_neg (by rw [hres]; decide)]
  unfold Eff.result at hr ⊢
  rcases hh : readerNew env h5open (some platform) (some instrument) none w with ⟨x, w', t⟩
  rw [hh] at hr
  cases hr
  rw [eff_bind_ok hh]
  exact hc

/-- C190: whatever band, detector, wave space and resolution a converter was made for, if the file of its
platform and instrument holds response curves then its computed radiances are numbers, not negative and
never smaller for a higher temperature. -/
theorem C190_never_decreases (F : FP) (env : Env) (h5open : Content → Option (H5File (RF F))) (platform instrument : String)
    (band : BandArg (RF F)) (det ws : String) (res : RF F) (w : World) (c : RadTb (RF F))
    (h : Eff.result (converterNew env h5open platform instrument band det ws res) w = .ok c)
    (f : H5File (RF F)) (hf : ReaderFile env h5open platform instrument w f) (l : List String) (hl : ListsBands f l)
    (hfile : FpFile f) (nc : Int) (norm : Bool) (ts : List ℝ) (hts : ts ≠ []) (ht : ∀ t ∈ ts, 2e-6 ≤ t ∧ t ≤ 1e5) :
    ∃ (b : ℝ → RF F) (out : RadResult (RF F)), c.tb2radiance nc (ts.map RF.of) none norm = .ok out ∧
      out.radiance = .arr (ts.map b) ∧
      ∀ t₁ ∈ ts, ∀ t₂ ∈ ts, t₁ ≤ t₂ → RF.Le (RF.of 0) (b t₁) ∧ RF.Le (b t₁) (b t₂) := by
  obtain ⟨r, hr, hc⟩ := converterNew_ok h
  exact C124_constructed_never_decreases F _ (reader_fpSensor F env h5open platform instrument w r hr f hf l hl hfile)
    _ _ _ _ _ _ c hc nc norm ts hts ht

/-- C190: so does its table, for resolutions between 0.02 and 10 K. -/
theorem C190_table (F : FP) (env : Env) (h5open : Content → Option (H5File (RF F))) (platform instrument : String)
    (band : BandArg (RF F)) (det ws : String) (res : ℝ) (hres : 0.02 ≤ res ∧ res ≤ 10) (w : World) (c : RadTb (RF F))
    (h : Eff.result (converterNew env h5open platform instrument band det ws (RF.of res)) w = .ok c)
    (f : H5File (RF F)) (hf : ReaderFile env h5open platform instrument w f) (l : List String) (hl : ListsBands f l)
    (hfile : FpFile f) (nc : Int) (norm : Bool) :
    ∃ lut : Lut (RF F), c.makeTb2radLut nc norm = .ok lut ∧ lut.tb.length = lut.radiance.length ∧
      lut.radiance.Pairwise RF.Le ∧
      ∀ ts : List ℝ, 2 ≤ ts.length → (∀ t ∈ ts, 0 ≤ t ∧ t ≤ 500) →
        ∃ (b : ℝ → RF F) (out : RadResult (RF F)), c.tb2radiance nc (ts.map RF.of) (some lut) norm = .ok out ∧
          out.radiance = .arr (ts.map b) ∧
          ∀ t₁ ∈ ts, ∀ t₂ ∈ ts, t₁ ≤ t₂ → b t₁ ∈ lut.radiance ∧ RF.Le (b t₁) (b t₂) := by
  obtain ⟨r, hr, hc⟩ := converterNew_ok h
  exact C124_constructed_table F _ (reader_fpSensor F env h5open platform instrument w r hr f hf l hl hfile)
    _ _ _ _ _ res hres c hc nc norm

/-- a file with a band around 11 micron, stored in nanometre, in double precision -/
noncomputable def exFpFile : H5File (RF Double.fp) where
  attrs := [("band_names", .text (.array .object_ [.str "ch4"]) "['ch4']"), ("description", .text (.str "example") "example"),
    ("platform_name", .text (.str "FY-3A") "FY-3A")]
  bands := [("ch4", {
    attrs := [("central_wavelength", .num (RF.of 11) "11.0")]
    datasets := [("response", ⟨[0, 1, 0.5].map RF.of, []⟩),
      ("wavelength", ⟨[10000, 11000, 12000].map RF.of, [("scale", .num (RF.of 1e-9) "1e-09")]⟩)]
    dets := [] })]

theorem exFpFile_lists : ListsBands exFpFile ["ch4"] := ⟨_, _, _, rfl, .cons (.str _) .nil⟩

theorem exFpFile_loads : ∃ info, loadRsrInfo exFpFile = .ok info := ⟨_, rfl⟩

theorem exFpFile_stored : FpStored exFpFile "ch4" (detName 0) [10000, 11000, 12000] 1e-9 [0, 1, 0.5] where
  scaled := ⟨.num (RF.of 1e-9) "1e-09", ⟨_, rfl, .inr ⟨fun D h => (by cases h), rfl⟩⟩, .inr ⟨_, rfl⟩⟩
  response := ⟨_, rfl, .inr ⟨fun D h => (by cases h), rfl⟩⟩
  range := by intro x hx; simp at hx; rcases hx with rfl | rfl | rfl <;> norm_num
  gaps := .cons_cons (by norm_num) (.cons_cons (by norm_num) (.singleton _))
  resp := by intro y hy; simp at hy; rcases hy with rfl | rfl | rfl <;> norm_num
  len := rfl
  two := by simp
  size := by simp
  some := ⟨1, by simp, one_ne_zero⟩

theorem exFpFile_good : FpFile exFpFile := by
  intro l hl b hb n hn i hi
  obtain ⟨dt, es, shown, h1, h2⟩ := hl
  cases h1
  rcases h2 with _ | ⟨h, h'⟩
  cases h'
  cases h
  obtain rfl : b = "ch4" := by simpa using hb
  have hone : DetectorCount exFpFile "ch4" 1 := .inr ⟨fun B h => (by cases h; rfl), rfl⟩
  obtain rfl : n = 1 := (detectorNames_spec exFpFile "ch4").2.2 n 1 hn hone
  obtain rfl : i = 0 := by omega
  exact ⟨_, _, _, exFpFile_stored⟩

theorem exFpFile_one : DetectorCount exFpFile "ch4" 1 := .inr ⟨fun B h => (by cases h; rfl), rfl⟩

/-- the band of the example file in both wave spaces: a converter is made and its table never decreases -/
example (ws : String) (hws : ws = "wavelength" ∨ ws = "wavenumber") :
    ∃ c, Eff.result (converterNew exampleEnv (openOnly "H".toList exFpFile) "FY-3A" "virr" (.name "ch4") "det-1" ws (RF.of 0.1))
      (worldWith ("/rsr", "rsr_virr_FY-3A.h5") "H".toList) = .ok c ∧
      (∃ (x y : RF Double.fp) (out : RadResult (RF Double.fp)), c.tb2radiance 0 ([220, 300].map RF.of) none true = .ok out ∧
        out.radiance = .arr [x, y] ∧ RF.Le x y) ∧
      ∃ lut, c.makeTb2radLut 0 true = .ok lut ∧ lut.radiance.Pairwise RF.Le := by
  obtain ⟨info, hi⟩ := exFpFile_loads
  obtain ⟨⟨r, hr⟩, hf⟩ := reader_there exampleEnv (openOnly "H".toList exFpFile) "FY-3A" "virr" "virr" (by decide +kernel)
    (worldWith ("/rsr", "rsr_virr_FY-3A.h5") "H".toList)
    (.inl ⟨"v1.6.1".toList, by rfl, [], [], [], rfl, by simp, by simp, Or.inl rfl⟩) "H".toList exFpFile info (by rfl) (by rfl) hi
  have h01 : PyNum.eq (α := RF Double.fp) (RF.of 0.1) 0 = false := by
    rw [show (0 : RF Double.fp) = RF.of 0 from (show Double.fp.rnd ((0 : ℤ) : ℝ) = _ by rw [Int.cast_zero]; exact rnd_zero _)]
    rw [Bool.eq_false_iff]
    show ¬ PyNum.eq (α := XF) (fin 0.1) (fin 0) = true
    rw [eq_fin]
    norm_num
  obtain ⟨c, hc⟩ := C190_made Double.fp _ _ _ _ "ch4" _ r hr exFpFile hf _ exFpFile_lists exFpFile_good (by decide +kernel) 1
    exFpFile_one 0 (by decide) ws hws (RF.of 0.1) h01
  refine ⟨c, hc, ?_, ?_⟩
  · obtain ⟨b, out, h1, h2, h3⟩ := C190_never_decreases Double.fp _ _ _ _ _ _ _ _ _ c hc exFpFile hf _ exFpFile_lists exFpFile_good 0 true
      [220, 300] (by simp) (by intro t ht; simp at ht; rcases ht with rfl | rfl <;> norm_num)
    exact ⟨_, _, out, h1, h2, (h3 220 (by simp) 300 (by simp) (by norm_num)).2⟩
  · obtain ⟨lut, h1, -, h2, -⟩ := C190_table Double.fp _ _ _ _ _ _ _ 0.1 (by norm_num) _ c hc exFpFile hf _ exFpFile_lists
      exFpFile_good 0 true
    exact ⟨lut, h1, h2⟩

end Verif.Props
