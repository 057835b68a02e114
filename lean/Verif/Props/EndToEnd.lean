import Verif.Model.EndToEnd
import Verif.Props.Reader
import Verif.Props.Rsr
import Verif.Props.RadTb
import Verif.Props.Converters
/-
C146: from the response file of a satellite to band radiances.
-/
namespace Verif.Props
open XF Model PyNum Lemmas Spec
variable {α : Type} [PyNum α]

/-- A response curve: at least two samples at ascending positive waves, responses not negative and not
all zero. -/
structure RealCurve (w r : List ℝ) : Prop where
  len : w.length = r.length
  two : 2 ≤ w.length
  inc : Increasing w
  pos : ∀ x ∈ w, 0 < x
  nonneg : ∀ y ∈ r, 0 ≤ y
  some_pos : ∃ y ∈ r, 0 < y

theorem trap_pos_of_mem (x y : List ℝ) (hl : x.length = y.length) (h2 : 2 ≤ x.length) (hinc : Increasing x)
    (hy : ∀ v ∈ y, 0 ≤ v) (hp : ∃ v ∈ y, 0 < v) : 0 < trap x y := by
  induction x generalizing y with
  | nil => simp at h2
  | cons a x ih =>
    match x, y, hl, h2 with
    | b :: x, c :: d :: y, hl, _ =>
      have hab : a < b := (List.pairwise_cons.1 hinc).1 b (by simp)
      have hinc' : Increasing (b :: x) := (List.pairwise_cons.1 hinc).2
      have hl' : (b :: x).length = (d :: y).length := by simpa using hl
      have hn : 0 ≤ trap (b :: x) (d :: y) := by
        have := trap_nonneg Prod.fst Prod.snd ((b :: x).zip (d :: y)) (by
          rw [zip_map_fst hl']
          exact Increasing.nonDec hinc') (by
          intro p hp
          exact hy _ (List.mem_cons_of_mem _ (List.of_mem_zip hp).2))
        rwa [zip_map_fst hl', zip_map_snd hl'] at this
      have hc := hy c (by simp)
      have hd := hy d (by simp)
      have h0 : 0 ≤ (b - a) * ((c + d) / 2) := mul_nonneg (by linarith) (by linarith)
      show 0 < (b - a) * ((c + d) / 2) + trap (b :: x) (d :: y)
      by_cases hcd : 0 < c + d
      · have : 0 < (b - a) * ((c + d) / 2) := mul_pos (by linarith) (by linarith)
        linarith
      · have hc0 : c = 0 := by linarith
        have hd0 : d = 0 := by linarith
        obtain ⟨v, hv, hv0⟩ := hp
        have hv' : v ∈ y := by
          rcases List.mem_cons.1 hv with rfl | hv
          · linarith
          · rcases List.mem_cons.1 hv with rfl | hv
            · linarith
            · exact hv
        have h2' : 2 ≤ (b :: x).length := by
          rw [hl']
          have := List.length_pos_of_mem hv'
          simp; omega
        have := ih (d :: y) hl' h2' hinc' (fun v hv => hy v (List.mem_cons_of_mem _ hv)) ⟨v, List.mem_cons_of_mem _ hv', hv0⟩
        linarith

theorem RealCurve.good {w r : List ℝ} (h : RealCurve w r) : GoodBand w r :=
  ⟨h.inc, h.pos, h.nonneg, trap_pos_of_mem w r h.len h.two h.inc h.nonneg h.some_pos⟩

/-- the same curve by wavenumber -/
theorem RealCurve.wavenumber {w r : List ℝ} (h : RealCurve w r) : RealCurve (w.map fun x => 1 / x).reverse r.reverse where
  len := by simp [h.len]
  two := by simpa using h.two
  inc := by
    unfold Increasing
    rw [List.pairwise_reverse, List.pairwise_map]
    have hp := h.pos
    have := h.inc
    unfold Increasing at this
    exact this.imp_of_mem fun {a b} ha hb hab => one_div_lt_one_div_of_lt (hp a ha) hab
  pos := by
    intro x hx
    rw [List.mem_reverse, List.mem_map] at hx
    obtain ⟨y, hy, rfl⟩ := hx
    exact one_div_pos.2 (h.pos y hy)
  nonneg := fun y hy => h.nonneg y (by simpa using hy)
  some_pos := by
    obtain ⟨y, hy, h0⟩ := h.some_pos
    exact ⟨y, by simpa using hy, h0⟩

/-- The file stores this response curve for the detector of the band, wavelengths in metre. -/
def FileCurve (f : H5File XF) (band det : String) (lam r : List ℝ) : Prop :=
  HasResponse f band det (finL r) ∧ HasWavelength f band det (finL (lam.map (· * 1e6))) ∧ RealCurve lam r

/-- Every detector of every band listed in the file has a response curve. -/
def AllCurves (f : H5File XF) : Prop :=
  ∀ l, ListsBands f l → ∀ b ∈ l, ∀ n, DetectorCount f b n → ∀ i < n, ∃ lam r, FileCurve f b (detName i) lam r

/-- The name under which a band is looked up: its alias for the instrument, or itself. -/
def bandNamed (instrument q : String) : String := (((BANDNAMES.get? instrument).getD bn_generic).get? q).getD q

/-- The file the reader for this platform and instrument has read. -/
def ReaderFile (env : Env) (h5open : Content → Option (H5File α)) (platform instrument : String) (w : World)
    (f : H5File α) : Prop :=
  ∃ c content, checkAndAdjustInstrumentName platform instrument = .ok c ∧
    (Eff.final (readerNew env h5open (some platform) (some instrument) none) w).files
      (env.cfg.rsr_dir, "rsr_" ++ c ++ "_" ++ platform ++ ".h5") = some content ∧ h5open content = some f

/-- what a reader made by names holds for a detector in its file -/
theorem reader_detector (env : Env) (h5open : Content → Option (H5File α)) (platform instrument : String) (w : World)
    (r : Reader α) (hr : Eff.result (readerNew env h5open (some platform) (some instrument) none) w = .ok r)
    (f : H5File α) (hf : ReaderFile env h5open platform instrument w f) (l : List String) (hl : ListsBands f l) :
    r.si_scale = 1e-6 ∧ r.unit = "1e-6 m" ∧ (∃ s, r.instrument = .str s) ∧ r.rsr.WF ∧ (∀ b, b ∈ r.rsr.keys ↔ b ∈ l) ∧
    ∀ b ∈ l, ∃ B, r.rsr.get? b = some B ∧ BandLoaded f b B := by
  obtain ⟨c, h1, -, -, h2, h3, hu, hs, content, f', info, h4, h5, h6, h7, -⟩ := C38_by_names env h5open platform instrument w r hr
  obtain ⟨c', content', g1, g2, g3⟩ := hf
  rw [h1] at g1
  cases g1
  rw [h3, g2] at h4
  cases h4
  rw [g3] at h5
  cases h5
  obtain ⟨k1, k2, -, k3, -, k4⟩ := C40_loaded_data f info h6
  rw [k3 l hl] at k2 k4
  rw [h7]
  exact ⟨hs, hu, ⟨_, h2⟩, k1, k2, k4⟩

theorem hasResponse_unique {f : H5File α} {b d : String} {r r' : List α} (h : HasResponse f b d r) (h' : HasResponse f b d r') :
    r = r' := by
  have := ((bandResponses_spec f b d).1 r).2 h
  rw [((bandResponses_spec f b d).1 r').2 h'] at this
  cases this
  rfl

theorem hasWavelength_unique {f : H5File α} {b d : String} {w w' : List α} (h : HasWavelength f b d w)
    (h' : HasWavelength f b d w') : w = w' := by
  have := ((bandWavelengths_spec f b d).1 w).2 h
  rw [((bandWavelengths_spec f b d).1 w').2 h'] at this
  cases this
  rfl

/-- the entry of a detector whose curve is known -/
theorem bandLoaded_curve {f : H5File XF} {b : String} {B : BandRsr XF} (h : BandLoaded f b B) {n : Nat} (hn : DetectorCount f b n)
    {i : Nat} (hi : i < n) {lam r : List ℝ} (hc : FileCurve f b (detName i) lam r) :
    ∃ c, B.get? (detName i) = some [("response", .arr (finL r)), ("wavelength", .arr (finL (lam.map (· * 1e6)))),
      ("central_wavelength", .num c)] := by
  obtain ⟨m, hm, -, hall⟩ := h
  have : n = m := (detectorNames_spec f b).2.2 n m hn hm
  subst this
  obtain ⟨r', w', c, a1, a2, -, e⟩ := hall i hi
  rw [hasResponse_unique a1 hc.1, hasWavelength_unique a2 hc.2.1] at e
  exact ⟨c, e⟩

/-- a reader of a file where every detector has a curve -/
theorem reader_wavelengthData (env : Env) (h5open : Content → Option (H5File XF)) (platform instrument : String) (w : World)
    (r : Reader XF) (hr : Eff.result (readerNew env h5open (some platform) (some instrument) none) w = .ok r)
    (f : H5File XF) (hf : ReaderFile env h5open platform instrument w f) (l : List String) (hl : ListsBands f l)
    (ha : AllCurves f) : WavelengthData r.rsr := by
  obtain ⟨-, -, -, hwf, hk, hb⟩ := reader_detector env h5open platform instrument w r hr f hf l hl
  have hget : ∀ p ∈ r.rsr, p.1 ∈ l ∧ BandLoaded f p.1 p.2 := by
    intro p hp
    have hg : r.rsr.get? p.1 = some p.2 := get?_of_mem hwf hp
    have hm : p.1 ∈ l := (hk p.1).1 (List.mem_map_of_mem hp)
    obtain ⟨B, h1, h2⟩ := hb p.1 hm
    rw [hg] at h1
    cases h1
    exact ⟨hm, h2⟩
  have hbw : ∀ p ∈ r.rsr, p.2.WF := by
    intro p hp
    obtain ⟨-, n, -, hkeys, -⟩ := hget p hp
    show (Dict.keys p.2).Nodup
    rw [hkeys]
    exact names_nodup n
  refine ⟨hwf, hbw, ?_⟩
  intro p hp q hq
  obtain ⟨hm, hL⟩ := hget p hp
  have hg : p.2.get? q.1 = some q.2 := get?_of_mem (hbw p hp) hq
  obtain ⟨n, hn, hkeys, -⟩ := hL
  have hq1 : q.1 ∈ p.2.keys := List.mem_map_of_mem hq
  rw [hkeys, List.mem_map] at hq1
  obtain ⟨i, hi, hi'⟩ := hq1
  obtain ⟨lam, rr, hc⟩ := ha l hl p.1 hm n hn i (by simpa using hi)
  obtain ⟨c, e⟩ := bandLoaded_curve (hget p hp).2 hn (by simpa using hi) hc
  rw [hi', hg] at e
  rw [Option.some.inj e]
  refine ⟨rfl, lam.map (· * 1e6), rr, rfl, rfl, by simp [hc.2.2.len], ?_⟩
  intro x hx
  obtain ⟨y, hy, rfl⟩ := List.mem_map.1 hx
  have := hc.2.2.pos y hy
  positivity

/-- The response-weighted mean of Planck radiances over a curve. -/
noncomputable def bandMean (B : ℝ → ℝ → ℝ) (w r : List ℝ) (t : ℝ) : ℝ :=
  trap w (List.zipWith (fun x y => y * B x t) w r) / trap w r

theorem bandInt_eq (ws : String) {w r : List ℝ} (h : w.length = r.length) (t : ℝ) :
    bandInt ws w r t = trap w (List.zipWith (fun x y => y * bandPlanck ws x t) w r) := by
  unfold bandInt
  rw [zip_map_fst h]
  congr 1
  rw [List.zip, List.map_zipWith]

/-- The Planck law and the waves of a converter's wave space, for a curve by wavelength. -/
noncomputable def planckIn (wavespace : String) : ℝ → ℝ → ℝ :=
  if wavespace = "wavenumber" then planckWavenumber else planckWavelength
noncomputable def wavesIn (wavespace : String) (lam : List ℝ) : List ℝ :=
  if wavespace = "wavenumber" then (lam.map fun x => 1 / x).reverse else lam
def responsesIn (wavespace : String) (r : List ℝ) : List ℝ := if wavespace = "wavenumber" then r.reverse else r

/-- construction from a loaded detector -/
theorem new_from_detector (s : Sensor XF) (p i q d : String) (res : XF) (hs : s.si_scale = 1e-6) (b : BandRsr XF)
    (hb : s.rsr.get? (bandNamed i q) = some b) (cw : XF) (lam r : List ℝ) (hc : RealCurve lam r)
    (hd : b.get? d = some [("response", .arr (finL r)), ("wavelength", .arr (finL (lam.map (· * 1e6)))),
      ("central_wavelength", .num cw)]) (ws : String)
    (hws : ws = "wavelength" ∨ (ws = "wavenumber" ∧ WavelengthData s.rsr)) (hres : res ≠ fin 0) :
    ∃ c, RadTb.new (.ok s) p i (.name q) d ws res = .ok c ∧ c.wavespace = ws ∧ Loaded c (wavesIn ws lam) (responsesIn ws r) ∧
      (ws = "wavelength" → c.rsr = s.rsr) ∧ c.bandname = some (bandNamed i q) ∧ c.detector = d := by
  have hname : ∀ rsr : Rsr XF, converterBandname i rsr (.name q) = .ok (some (bandNamed i q)) := fun _ => rfl
  rcases hws with rfl | ⟨rfl, hd'⟩
  · have e : (finL (lam.map (· * 1e6))).map (· * s.si_scale) = finL lam := by
      rw [hs]
      simp only [finL, List.map_map]
      apply List.map_congr_left
      intro x _
      simp only [Function.comp, ofSci_eq, fin_mul]
      congr 1
      norm_num
      ring
    have ht : NP.trapezoid (finL r) (finL lam) = .ok (fin (trap lam r)) := trapezoid_fin lam r hc.len
    unfold RadTb.new
    rw [if_neg (by decide), if_neg (nonzero_resolution hres)]
    simp only [bind, Except.bind, pure, Except.pure]
    rw [if_neg (by decide)]
    simp only [hname]
    unfold converterLookup
    dsimp only
    rw [if_neg (by decide)]
    unfold rsrDictGetItem
    simp only [hb, Dict.getItem, hd]
    have g1 : getArr (α := XF) [("response", .arr (finL r)), ("wavelength", .arr (finL (lam.map (· * 1e6)))),
      ("central_wavelength", .num cw)] "wavelength" = .ok (finL (lam.map (· * 1e6))) := rfl
    have g2 : getArr (α := XF) [("response", .arr (finL r)), ("wavelength", .arr (finL (lam.map (· * 1e6)))),
      ("central_wavelength", .num cw)] "response" = .ok (finL r) := rfl
    simp only [g1, g2, e, ht]
    exact ⟨_, rfl, rfl, ⟨rfl, rfl, hc.len, rfl⟩, fun _ => rfl, rfl, rfl⟩
  · obtain ⟨out, info, h1, h2, h3, -, h5⟩ := C20_convert2wavenumber s.rsr hd'
    obtain ⟨b', h6, -, h7⟩ := h5 _ _ hb
    obtain ⟨det', h8, h9⟩ := h7 _ _ hd
    have hlen : (lam.map (· * (1e6 : ℝ))).length = r.length := by simp [hc.len]
    obtain ⟨k1, k2⟩ := h9 ((lam.map (· * 1e6)).zip r) ⟨by rw [zip_map_fst hlen]; rfl, by rw [zip_map_snd hlen]; rfl⟩ (by
      intro p hp
      obtain ⟨y, hy, e⟩ := List.mem_map.1 (List.of_mem_zip hp).1
      have := hc.pos y hy
      rw [← e]; positivity)
    have e1 : (((lam.map (· * (1e6 : ℝ))).zip r).map fun p => (1e4 / p.1, p.2)).reverse.map Prod.fst =
        (lam.map fun x => 1e4 / (x * 1e6)).reverse := by
      rw [List.map_reverse, List.map_map]
      have := zip_map_fst hlen
      rw [show (Prod.fst ∘ fun p : ℝ × ℝ => (1e4 / p.1, p.2)) = (fun x => 1e4 / x) ∘ Prod.fst from rfl, ← List.map_map, this,
        List.map_map]
      rfl
    have e2 : (((lam.map (· * (1e6 : ℝ))).zip r).map fun p => (1e4 / p.1, p.2)).reverse.map Prod.snd = r.reverse := by
      rw [List.map_reverse, List.map_map]
      have := zip_map_snd hlen
      rw [show (Prod.snd ∘ fun p : ℝ × ℝ => (1e4 / p.1, p.2)) = Prod.snd from rfl, this]
    rw [e1] at k1
    rw [e2] at k2
    have e : (finL (lam.map fun x => 1e4 / (x * 1e6)).reverse).map (· * info.si_scale) = finL (lam.map fun x => 1 / x).reverse := by
      rw [h3]
      simp only [finL, List.map_map, List.map_reverse]
      congr 1
      apply List.map_congr_left
      intro x hx
      have := hc.pos x hx
      simp only [Function.comp, fin_mul]
      congr 1
      field_simp
      norm_num
    have ht : NP.trapezoid (finL r.reverse) (finL (lam.map fun x => 1 / x).reverse) =
        .ok (fin (trap (lam.map fun x => 1 / x).reverse r.reverse)) := trapezoid_fin _ _ hc.wavenumber.len
    unfold RadTb.new
    rw [if_neg (by decide), if_neg (nonzero_resolution hres)]
    simp only [bind, Except.bind, pure, Except.pure]
    rw [if_pos (by decide)]
    simp only [h1, hname]
    unfold converterLookup
    dsimp only
    rw [if_pos (by decide)]
    have g1 : getArr det' "wavenumber" = .ok (finL (lam.map fun x => 1e4 / (x * 1e6)).reverse) := by
      unfold getArr Dict.getItem
      rw [k1]; rfl
    have g2 : getArr det' "response" = .ok (finL r.reverse) := by
      unfold getArr Dict.getItem
      rw [k2]; rfl
    simp only [Dict.getItem, h6, h8, g1, g2, e, ht]
    exact ⟨_, rfl, rfl, ⟨rfl, rfl, hc.wavenumber.len, rfl⟩, fun h => absurd h (by decide), rfl, rfl⟩

/-- what a converter made by names holds -/
theorem converter_loaded (env : Env) (h5open : Content → Option (H5File XF)) (platform instrument q : String)
    (w : World) (r : Reader XF) (hr : Eff.result (readerNew env h5open (some platform) (some instrument) none) w = .ok r)
    (f : H5File XF) (hf : ReaderFile env h5open platform instrument w f) (l : List String) (hl : ListsBands f l)
    (hq : bandNamed instrument q ∈ l) (n : Nat) (hn : DetectorCount f (bandNamed instrument q) n) (i : Nat) (hi : i < n)
    (lam resp : List ℝ) (hc : FileCurve f (bandNamed instrument q) (detName i) lam resp) (res : XF) (ws : String)
    (hws : ws = "wavelength" ∨ (ws = "wavenumber" ∧ AllCurves f)) (hres : res ≠ fin 0) :
    ∃ c, Eff.result (converterNew env h5open platform instrument (.name q) (detName i) ws res) w = .ok c ∧
      c.wavespace = ws ∧ Loaded c (wavesIn ws lam) (responsesIn ws resp) ∧
      RealCurve (wavesIn ws lam) (responsesIn ws resp) ∧
      (ws = "wavelength" → c.rsr = r.rsr) ∧ c.bandname = some (bandNamed instrument q) ∧ c.detector = detName i := by
  obtain ⟨h1, -, -, -, -, hb⟩ := reader_detector env h5open platform instrument w r hr f hf l hl
  obtain ⟨B, hB, hBl⟩ := hb _ hq
  obtain ⟨cw, hd⟩ := bandLoaded_curve hBl hn hi hc
  obtain ⟨c, g1, g2, g3, g4⟩ := new_from_detector r.sensor platform instrument q (detName i) res h1 B hB cw lam resp hc.2.2 hd ws
    (hws.imp_right fun h => ⟨h.1, reader_wavelengthData env h5open platform instrument w r hr f hf l hl h.2⟩) hres
  refine ⟨c, ?_, g2, g3, ?_, g4⟩
  · unfold converterNew
    rw [if_neg (by rcases hws with rfl | ⟨rfl, -⟩ <;> decide), if_neg (nonzero_resolution hres)]
    unfold Eff.result at hr ⊢
    rcases hh : readerNew env h5open (some platform) (some instrument) none w with ⟨x, w', t⟩
    rw [hh] at hr
    cases hr
    rw [eff_bind_ok hh]
    exact g1
  · rcases hws with rfl | ⟨rfl, -⟩
    · exact hc.2.2
    · exact hc.2.2.wavenumber

/-- C146: a converter made for a platform, instrument and band name gives, for every temperature, the
mean of Planck's law over the curve that the platform's response file holds for that band and detector,
weighted with the responses of the file; in wavelength space and (if all curves of the file are response
curves) in wavenumber space. -/
theorem C146_radiance_from_file (env : Env) (h5open : Content → Option (H5File XF)) (platform instrument q : String)
    (w : World) (r : Reader XF) (hr : Eff.result (readerNew env h5open (some platform) (some instrument) none) w = .ok r)
    (f : H5File XF) (hf : ReaderFile env h5open platform instrument w f) (l : List String) (hl : ListsBands f l)
    (hq : bandNamed instrument q ∈ l) (n : Nat) (hn : DetectorCount f (bandNamed instrument q) n) (i : Nat) (hi : i < n)
    (lam resp : List ℝ) (hc : FileCurve f (bandNamed instrument q) (detName i) lam resp) (res : XF) (ws : String)
    (hws : ws = "wavelength" ∨ (ws = "wavenumber" ∧ AllCurves f)) (hres : res ≠ fin 0) :
    ∃ c, Eff.result (converterNew env h5open platform instrument (.name q) (detName i) ws res) w = .ok c ∧
      ∀ (nc : Int) (ts : List ℝ), ts ≠ [] → (∀ t ∈ ts, 1e-6 < t) →
        ∃ out, c.tb2radiance nc (finL ts) = .ok out ∧
          out.radiance = .arr (finL (ts.map (bandMean (planckIn ws) (wavesIn ws lam) (responsesIn ws resp)))) := by
  obtain ⟨c, g1, g2, g3, hcurve, -⟩ :=
    converter_loaded env h5open platform instrument q w r hr f hf l hl hq n hn i hi lam resp hc res ws hws hres
  refine ⟨c, g1, ?_⟩
  · intro nc ts hts ht
    have := tb2radiance_direct g3 (goodBand_ne hcurve.good) hcurve.pos hcurve.good.integral.ne' nc ts hts ht true
    refine ⟨_, this, ?_⟩
    simp only [if_true]
    congr 2
    apply List.map_congr_left
    intro t _
    rw [g2, bandInt_eq ws hcurve.len]
    rcases hws with rfl | ⟨rfl, -⟩ <;> rfl

/-- a file that is there and can be read gives a reader, if nothing is downloaded -/
theorem reader_there (env : Env) (h5open : Content → Option (H5File α)) (platform instrument c : String)
    (hc : checkAndAdjustInstrumentName platform instrument = .ok c) (w : World)
    (hq : RsrCurrent env w ∨ env.cfg.download_from_internet = false) (content : Content) (f : H5File α) (info : RsrInfo α)
    (hw : w.files (env.cfg.rsr_dir, "rsr_" ++ c ++ "_" ++ platform ++ ".h5") = some content) (ho : h5open content = some f)
    (hl : loadRsrInfo f = .ok info) :
    (∃ r, Eff.result (readerNew env h5open (some platform) (some instrument) none) w = .ok r) ∧
    ReaderFile env h5open platform instrument w f := by
  obtain ⟨b, hb⟩ := quiet_updates_off env (configured env w) hq
  obtain ⟨t', ht', -⟩ := reader_by_name env h5open platform instrument c hc w _ b _ hb
  have hfd : fileData h5open (configured env w) (env.cfg.rsr_dir, "rsr_" ++ c ++ "_" ++ platform ++ ".h5") = .ok info := by
    unfold fileData
    rw [show (configured env w).files _ = some content from hw]
    simp only [ho, hl]
  constructor
  · unfold Eff.result
    rw [ht', hfd]
    exact ⟨_, rfl⟩
  · refine ⟨c, content, hc, ?_, ho⟩
    unfold Eff.final
    rw [ht']
    exact hw

/-- C146 for a data directory that is current, or with downloads switched off: the file there decides. -/
theorem C146_local_file (env : Env) (h5open : Content → Option (H5File XF)) (platform instrument c q : String)
    (hcan : checkAndAdjustInstrumentName platform instrument = .ok c) (w : World)
    (hcur : RsrCurrent env w ∨ env.cfg.download_from_internet = false) (content : Content) (f : H5File XF) (info : RsrInfo XF)
    (hw : w.files (env.cfg.rsr_dir, "rsr_" ++ c ++ "_" ++ platform ++ ".h5") = some content) (ho : h5open content = some f)
    (hload : loadRsrInfo f = .ok info) (l : List String) (hl : ListsBands f l)
    (hq : bandNamed instrument q ∈ l) (n : Nat) (hn : DetectorCount f (bandNamed instrument q) n) (i : Nat) (hi : i < n)
    (lam resp : List ℝ) (hc : FileCurve f (bandNamed instrument q) (detName i) lam resp) (res : XF) (ws : String)
    (hws : ws = "wavelength" ∨ (ws = "wavenumber" ∧ AllCurves f)) (hres : res ≠ fin 0) :
    ∃ c, Eff.result (converterNew env h5open platform instrument (.name q) (detName i) ws res) w = .ok c ∧
      ∀ (nc : Int) (ts : List ℝ), ts ≠ [] → (∀ t ∈ ts, 1e-6 < t) →
        ∃ out, c.tb2radiance nc (finL ts) = .ok out ∧
          out.radiance = .arr (finL (ts.map (bandMean (planckIn ws) (wavesIn ws lam) (responsesIn ws resp)))) := by
  obtain ⟨⟨r, hr⟩, hf⟩ := reader_there env h5open platform instrument c hcan w hcur content f info hw ho hload
  exact C146_radiance_from_file env h5open platform instrument q w r hr f hf l hl hq n hn i hi lam resp hc res ws hws hres

/-- the curves of the example file -/
theorem exFile_curve1 : FileCurve exFile "M5" "det-1" [600e-9, 650e-9, 700e-9] [0, 1, 0] := by
  refine ⟨((bandResponses_spec exFile "M5" "det-1").1 _).1 rfl, ((bandWavelengths_spec exFile "M5" "det-1").1 _).1 ?_, ?_⟩
  · show Except.ok ((finL [600, 650, 700]).map fun x => x * XF.fin 1e-9 * 1e6) = _
    simp [finL, ofSci_eq]
    norm_num
  · refine ⟨rfl, by simp, ?_, ?_, ?_, ⟨1, by simp, by norm_num⟩⟩
    · unfold Increasing
      norm_num
    · intro x hx
      simp at hx
      rcases hx with rfl | rfl | rfl <;> norm_num
    · intro x hx
      simp at hx
      rcases hx with rfl | rfl | rfl <;> norm_num

theorem exFile_curve2 : FileCurve exFile "M5" "det-2" [600e-9, 650e-9, 700e-9] [0.5, 1, 0.5] := by
  refine ⟨((bandResponses_spec exFile "M5" "det-2").1 _).1 rfl, ((bandWavelengths_spec exFile "M5" "det-2").1 _).1 ?_, ?_⟩
  · show Except.ok ((finL [600, 650, 700]).map fun x => x * XF.fin 1e-9 * 1e6) = _
    simp [finL, ofSci_eq]
    norm_num
  · refine ⟨rfl, by simp, ?_, ?_, ?_, ⟨1, by simp, by norm_num⟩⟩
    · unfold Increasing
      norm_num
    · intro x hx
      simp at hx
      rcases hx with rfl | rfl | rfl <;> norm_num
    · intro x hx
      simp at hx
      rcases hx with rfl | rfl | rfl <;> norm_num

theorem exFile_bands {l : List String} (hl : ListsBands exFile l) : l = ["M5"] := by
  obtain ⟨dt, es, shown, h1, h2⟩ := hl
  cases h1
  rcases h2 with _ | ⟨h, h'⟩
  cases h'
  cases h
  rfl

theorem exFile_lists : ListsBands exFile ["M5"] := ⟨_, _, _, rfl, .cons (.str _) .nil⟩

theorem exFile_count : DetectorCount exFile "M5" 2 := .inl ⟨_, _, rfl, rfl, rfl⟩

theorem exFile_allCurves : AllCurves exFile := by
  intro l hl b hb n hn i hi
  rw [exFile_bands hl] at hb
  obtain rfl : b = "M5" := by simpa using hb
  have : n = 2 := (detectorNames_spec exFile "M5").2.2 n 2 hn exFile_count
  subst this
  match i, hi with
  | 0, _ => exact ⟨_, _, exFile_curve1⟩
  | 1, _ => exact ⟨_, _, exFile_curve2⟩

/-- the second detector of band M5 of the example file, in both wave spaces -/
example (ws : String) (hws : ws = "wavelength" ∨ ws = "wavenumber") :
    ∃ c, Eff.result (converterNew exampleEnv (openOnly "H".toList exFile) "FY-3A" "virr" (.name "M5") "det-2" ws 0.1)
      (worldWith ("/rsr", "rsr_virr_FY-3A.h5") "H".toList) = .ok c ∧
      ∃ out, c.tb2radiance 1 (finL [300, 310]) = .ok out ∧
        out.radiance = .arr (finL ([300, 310].map
          (bandMean (planckIn ws) (wavesIn ws [600e-9, 650e-9, 700e-9]) (responsesIn ws [0.5, 1, 0.5])))) := by
  obtain ⟨c, h1, h2⟩ := C146_local_file exampleEnv (openOnly "H".toList exFile) "FY-3A" "virr" "virr" "M5" (by decide +kernel)
    (worldWith ("/rsr", "rsr_virr_FY-3A.h5") "H".toList)
    (.inl ⟨"v1.6.1".toList, by rfl, [], [], [], rfl, by simp, by simp, Or.inl rfl⟩) "H".toList exFile _ (by rfl) (by rfl) exFile_loads
    ["M5"] exFile_lists (by decide) 2 exFile_count 1 (by decide) _ _ exFile_curve2 0.1 ws (hws.imp_right fun h => ⟨h, exFile_allCurves⟩)
    tenth_nonzero
  exact ⟨c, h1, h2 1 [300, 310] (by simp) (by intro t ht; simp at ht; rcases ht with rfl | rfl <;> norm_num)⟩

/-- C146: if no reader can be made, making the converter raises the same error; a wave space that does
not exist raises AttributeError before any effect, and a resolution of zero ZeroDivisionError. -/
theorem C146_errors {α : Type} [PyNum α] (env : Env) (h5open : Content → Option (H5File α))
    (platform instrument det ws : String) (band : BandArg α) (res : α) (w : World) :
    (ws ≠ "wavelength" → ws ≠ "wavenumber" →
      converterNew env h5open platform instrument band det ws res w = (.error .attributeError, w, [])) ∧
    (ws = "wavelength" ∨ ws = "wavenumber" → PyNum.eq res 0 = true →
      converterNew env h5open platform instrument band det ws res w = (.error .zeroDivision, w, [])) ∧
    (ws = "wavelength" ∨ ws = "wavenumber" → PyNum.eq res 0 = false →
      (∀ e, Eff.result (readerNew env h5open (some platform) (some instrument) none) w = .error e →
        Eff.result (converterNew env h5open platform instrument band det ws res) w = .error e) ∧
      Eff.final (converterNew env h5open platform instrument band det ws res) w =
        Eff.final (readerNew env h5open (some platform) (some instrument) none) w) := by
  refine ⟨?_, ?_, ?_⟩
  · intro h1 h2
    unfold converterNew
    rw [if_pos ⟨h1, h2⟩]
    rfl
  · intro h hz
    unfold converterNew
    rw [if_neg (by rcases h with rfl | rfl <;> decide), if_pos hz]
    rfl
  · intro h hz
    unfold converterNew
    rw [if_neg (by rcases h with rfl | rfl <;> decide), if_neg (by rw [hz]; decide)]
    unfold Eff.result Eff.final
    rcases hh : readerNew env h5open (some platform) (some instrument) none w with ⟨x, w', t⟩
    cases x with
    | ok r =>
      rw [eff_bind_ok hh]
      exact ⟨fun e he => (by cases he), rfl⟩
    | error e =>
      rw [eff_bind_error hh]
      exact ⟨fun e he => (by cases he; rfl), rfl⟩

/-- C146: without the file (and nothing downloaded) no converter is made: FileNotFoundError. -/
theorem C146_no_file (env : Env) (h5open : Content → Option (H5File α)) (platform instrument c : String)
    (hc : checkAndAdjustInstrumentName platform instrument = .ok c) (w : World)
    (hq : RsrCurrent env w ∨ env.cfg.download_from_internet = false)
    (hw : w.files (env.cfg.rsr_dir, "rsr_" ++ c ++ "_" ++ platform ++ ".h5") = none) (band : BandArg α) (det ws : String) (res : α)
    (hws : ws = "wavelength" ∨ ws = "wavenumber") (hres : PyNum.eq res 0 = false) :
    Eff.result (converterNew env h5open platform instrument band det ws res) w = .error .fileNotFound := by
  obtain ⟨b, hb⟩ := quiet_updates_off env (configured env w) hq
  obtain ⟨t', ht', -⟩ := reader_by_name env h5open platform instrument c hc w _ b _ hb
  refine ((C146_errors env h5open platform instrument det ws band res w).2.2 hws hres).1 _ ?_
  unfold Eff.result
  rw [ht']
  unfold fileData
  rw [show (configured env w).files _ = none from hw]
  rfl

example : Eff.result (converterNew exampleEnv (openOnly "H".toList exFile) "FY-3B" "virr" (.name "M5") "det-1" "wavelength" 0.1)
    (worldWith ("/rsr", "rsr_virr_FY-3A.h5") "H".toList) = .error .fileNotFound :=
  C146_no_file _ _ _ _ "virr" (by decide +kernel) _ (.inl ⟨"v1.6.1".toList, by rfl, [], [], [], rfl, by simp, by simp, Or.inl rfl⟩)
    (by rfl) _ _ _ _ (.inl rfl) (Bool.eq_false_iff.2 (nonzero_resolution tenth_nonzero))

example : converterNew exampleEnv (openOnly "H".toList exFile) "FY-3A" "virr" (.name "M5") "det-1" "frequency" 0.1
    (worldWith ("/rsr", "rsr_virr_FY-3A.h5") "H".toList) =
      (.error .attributeError, worldWith ("/rsr", "rsr_virr_FY-3A.h5") "H".toList, []) :=
  (C146_errors _ _ _ _ _ _ _ _ _).1 (by decide) (by decide)

end Verif.Props
