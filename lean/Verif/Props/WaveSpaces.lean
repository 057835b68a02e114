import Verif.Props.Solar
import Verif.Props.EndToEnd
/-
Properties C183 and C184: integrals over wavelength and over wavenumber agree up to the steps of
the grid.
-/
namespace Verif.Props
open XF Model PyNum Lemmas Spec

/-- neighbouring wavelengths differ by a factor of at most `q` -/
def StepsWithin (q : ℝ) (x : List ℝ) : Prop := List.IsChain (fun a b => b ≤ q * a) x

/-- two numbers differ by a factor of at most `q` -/
def WithinFactor (q a b : ℝ) : Prop := b / q ≤ a ∧ a ≤ q * b

/-- one step of the trapezoid sum in either space -/
theorem space_step {q a b y z K : ℝ} (ha : 0 < a) (hab : a < b) (hb : b ≤ q * a) (hy : 0 ≤ y) (hz : 0 ≤ z) (hK : 0 < K) :
    (b - a) * ((y + z) / 2) / q ≤ (K / a - K / b) * ((y * a ^ 2 / K + z * b ^ 2 / K) / 2) ∧
    (K / a - K / b) * ((y * a ^ 2 / K + z * b ^ 2 / K) / 2) ≤ q * ((b - a) * ((y + z) / 2)) := by
  have hb0 : 0 < b := ha.trans hab
  have hq : 0 < q := by
    by_contra hq
    have : q * a ≤ 0 := mul_nonpos_of_nonpos_of_nonneg (not_lt.1 hq) ha.le
    linarith
  have hq1 : 1 ≤ q := by
    by_contra h
    have : q * a < 1 * a := mul_lt_mul_of_pos_right (not_le.1 h) ha
    linarith
  have e : (K / a - K / b) * ((y * a ^ 2 / K + z * b ^ 2 / K) / 2) = (b - a) * ((y * (a / b) + z * (b / a)) / 2) := by
    field_simp
  have h1 : 1 / q ≤ a / b := by rw [div_le_div_iff₀ hq hb0]; linarith
  have h2 : b / a ≤ q := by rw [div_le_iff₀ ha]; exact hb
  have h3 : a / b ≤ 1 := by rw [div_le_one hb0]; exact hab.le
  have h4 : 1 ≤ b / a := by rw [le_div_iff₀ ha]; linarith
  have h5 : 1 / q ≤ 1 := by rw [div_le_one hq]; exact hq1
  have hd : 0 ≤ b - a := by linarith
  rw [e]
  constructor
  · rw [mul_div_assoc]
    refine mul_le_mul_of_nonneg_left ?_ hd
    have u1 := mul_le_mul_of_nonneg_left h1 hy
    have u2 := mul_le_mul_of_nonneg_left (h5.trans h4) hz
    have : (y + z) / 2 / q = (y * (1 / q) + z * (1 / q)) / 2 := by field_simp
    rw [this]; linarith
  · rw [mul_left_comm]
    refine mul_le_mul_of_nonneg_left ?_ hd
    have u1 := mul_le_mul_of_nonneg_left (h3.trans hq1) hy
    have u2 := mul_le_mul_of_nonneg_left h2 hz
    linarith

theorem space_sum {q K : ℝ} (hK : 0 < K) (x y : List ℝ) (hl : x.length = y.length) (hpos : ∀ v ∈ x, 0 < v)
    (hinc : Increasing x) (hst : StepsWithin q x) (hy : ∀ v ∈ y, 0 ≤ v) :
    trap x y / q ≤ -trap (x.map fun v => K / v) (List.zipWith (fun v u => u * v ^ 2 / K) x y) ∧
    -trap (x.map fun v => K / v) (List.zipWith (fun v u => u * v ^ 2 / K) x y) ≤ q * trap x y := by
  induction x generalizing y with
  | nil => cases y <;> simp [trap]
  | cons a x ih =>
    match x, y, hl with
    | [], [c], _ => simp [trap]
    | b :: x, c :: d :: y, hl =>
      have hab : a < b := (List.pairwise_cons.1 hinc).1 b (by simp)
      obtain ⟨s1, s2⟩ := List.isChain_cons_cons.1 hst
      obtain ⟨i1, i2⟩ := ih (d :: y) (by simpa using hl) (fun v hv => hpos v (List.mem_cons_of_mem _ hv))
        (List.pairwise_cons.1 hinc).2 s2 (fun v hv => hy v (List.mem_cons_of_mem _ hv))
      obtain ⟨j1, j2⟩ := space_step (K := K) (hpos a (by simp)) hab s1 (hy c (by simp)) (hy d (by simp)) hK
      have e1 : trap (a :: b :: x) (c :: d :: y) = (b - a) * ((c + d) / 2) + trap (b :: x) (d :: y) := rfl
      have e2 : -trap ((a :: b :: x).map fun v => K / v) (List.zipWith (fun v u => u * v ^ 2 / K) (a :: b :: x) (c :: d :: y)) =
          (K / a - K / b) * ((c * a ^ 2 / K + d * b ^ 2 / K) / 2) +
            -trap ((b :: x).map fun v => K / v) (List.zipWith (fun v u => u * v ^ 2 / K) (b :: x) (d :: y)) := by
        obtain ⟨v, hv⟩ : ∃ v, v = trap ((b :: x).map fun v => K / v)
          (List.zipWith (fun v u => u * v ^ 2 / K) (b :: x) (d :: y)) := ⟨_, rfl⟩
        rw [← hv]
        show -((K / b - K / a) * ((c * a ^ 2 / K + d * b ^ 2 / K) / 2) + trap ((b :: x).map fun v => K / v)
          (List.zipWith (fun v u => u * v ^ 2 / K) (b :: x) (d :: y))) = _
        rw [← hv]
        ring
      rw [e1, e2, add_div, mul_add]
      exact ⟨add_le_add j1 i1, add_le_add j2 i2⟩

/-- C183: the solar constant of a spectrum is, in wavenumber space, a thousand times what it is in
wavelength space (milliwatt for watt), up to the largest ratio of neighbouring wavelengths. -/
theorem C183_solar_constants (c : Curve) (hpos : ∀ p ∈ c, 0 < p.1 ∧ 0 ≤ p.2) (hinc : Increasing (c.map Prod.fst)) (q : ℝ)
    (hst : StepsWithin q (c.map Prod.fst)) (dl dl' : Option XF) :
    ∃ s t a b, solarNew (.ok (finL (c.map Prod.fst), finL (c.map Prod.snd))) none dl = .ok s ∧ s.solarConstant = .ok (fin a) ∧
      solarNew (.ok (finL (c.map Prod.fst), finL (c.map Prod.snd))) (some "wavenumber") dl' = .ok t ∧
      t.solarConstant = .ok (fin b) ∧ WithinFactor q (b / 1000) a := by
  obtain ⟨t, h1, hw, hi, _⟩ := C52_wavenumber_spectrum c (fun p hp => (hpos p hp).1) dl'
  have hS := (C53_solar_constant t _ _ (by simp) hi).1 hw
  have hs : ∃ s, solarNew (.ok (finL (c.map Prod.fst), finL (c.map Prod.snd))) none dl = .ok s ∧
      s.solarConstant = .ok (fin (trap (c.map Prod.fst) (c.map Prod.snd))) := by
    unfold solarNew
    simp only [bind, Except.bind, Option.getD_none]
    exact ⟨_, rfl, (C53_solar_constant _ (c.map Prod.fst) (c.map Prod.snd) (by simp) rfl).2.1 rfl rfl⟩
  obtain ⟨s, hs1, hs2⟩ := hs
  refine ⟨s, t, _, _, hs1, hs2, h1, hS, ?_⟩
  have hsum := space_sum (q := q) (K := 1e4) (by norm_num) (c.map Prod.fst) (c.map Prod.snd) (by simp)
    (by intro v hv; obtain ⟨p, hp, rfl⟩ := List.mem_map.1 hv; exact (hpos p hp).1) hinc hst
    (by intro v hv; obtain ⟨p, hp, rfl⟩ := List.mem_map.1 hv; exact (hpos p hp).2)
  have e : trap (c.map fun p => 1e4 / p.1).reverse (c.map fun p => p.2 * p.1 ^ 2 / 10).reverse / 1000 =
      -trap ((c.map Prod.fst).map fun v => (1e4 : ℝ) / v)
        (List.zipWith (fun v u => u * v ^ 2 / (1e4 : ℝ)) (c.map Prod.fst) (c.map Prod.snd)) := by
    rw [trap_reverse _ _ (by simp), zipWith_map_map, List.map_map]
    have : (c.map fun p => p.2 * p.1 ^ 2 / 10) = c.map fun p => 1000 * (p.2 * p.1 ^ 2 / (1e4 : ℝ)) := by
      apply List.map_congr_left
      intro p _
      ring
    rw [this, trap_smul]
    simp only [Function.comp_def]
    ring
  rw [e]
  exact hsum

/-- the example spectrum: the wavelengths 1, 2, 3, 4 have ratios of at most 2 -/
example : ∃ s t a b, solarNew (.ok (finL (exSpectrum.map Prod.fst), finL (exSpectrum.map Prod.snd))) none none = .ok s ∧
      s.solarConstant = .ok (fin a) ∧
      solarNew (.ok (finL (exSpectrum.map Prod.fst), finL (exSpectrum.map Prod.snd))) (some "wavenumber") none = .ok t ∧
      t.solarConstant = .ok (fin b) ∧ WithinFactor 2 (b / 1000) a :=
  C183_solar_constants exSpectrum
    (by intro p hp; simp [exSpectrum] at hp; rcases hp with rfl | rfl | rfl | rfl <;> norm_num)
    (by simp [exSpectrum, Increasing]; norm_num) 2 (by simp [exSpectrum, StepsWithin]; norm_num) none none

/-- Planck's law per wavelength and per wavenumber -/
theorem planck_spaces {x : ℝ} (hx : 0 < x) (t : ℝ) : planckWavenumber (1 / x) t = planckWavelength x t * x ^ 2 := by
  unfold planckWavenumber planckWavelength
  have : Spec.h * Spec.c * (1 / x) / (Spec.k * t) = Spec.h * Spec.c / (x * Spec.k * t) := by
    by_cases ht : t = 0
    · simp [ht]
    · have := k_pos.ne'
      field_simp
  rw [this]
  by_cases hd : Real.exp (Spec.h * Spec.c / (x * Spec.k * t)) - 1 = 0
  · rw [hd]; simp
  · field_simp

/-- C184: the radiance integrated over a band (`normalized=False`, in W/m^2 sr^-1) is the same number in
wavelength and in wavenumber space, up to the largest ratio of neighbouring wavelengths in the response
file. -/
theorem C184_integrated_radiances (env : Env) (h5open : Content → Option (H5File XF)) (platform instrument b : String)
    (w : World) (r : Reader XF) (hr : Eff.result (readerNew env h5open (some platform) (some instrument) none) w = .ok r)
    (f : H5File XF) (hf : ReaderFile env h5open platform instrument w f) (l : List String) (hl : ListsBands f l)
    (hb : bandNamed instrument b ∈ l) (n : Nat) (hn : DetectorCount f (bandNamed instrument b) n) (i : Nat) (hi : i < n)
    (lam resp : List ℝ) (hc : FileCurve f (bandNamed instrument b) (detName i) lam resp) (hall : AllCurves f)
    (q : ℝ) (hq : StepsWithin q lam) (res res' : XF) (hres : res ≠ fin 0) (hres' : res' ≠ fin 0) :
    ∃ c c', Eff.result (converterNew env h5open platform instrument (.name b) (detName i) "wavelength" res) w = .ok c ∧
      Eff.result (converterNew env h5open platform instrument (.name b) (detName i) "wavenumber" res') w = .ok c' ∧
      ∀ (nc nc' : Int) (ts : List ℝ), ts ≠ [] → (∀ t ∈ ts, 1e-6 < t) →
        ∃ out out' ls ls', c.tb2radiance nc (finL ts) none false = .ok out ∧ out.radiance = .arr (finL ls) ∧
          c'.tb2radiance nc' (finL ts) none false = .ok out' ∧ out'.radiance = .arr (finL ls') ∧
          ls.length = ts.length ∧ List.Forall₂ (WithinFactor q) ls' ls ∧
          out.unit = "W/m^2 sr^-1" ∧ out'.unit = "W/m^2 sr^-1" ∧ out.scale = fin 1 ∧ out'.scale = fin 1 := by
  obtain ⟨c, g1, g2, g3, g4, -⟩ :=
    converter_loaded env h5open platform instrument b w r hr f hf l hl hb n hn i hi lam resp hc res _ (.inl rfl) hres
  obtain ⟨c', k1, k2, k3, k4, -⟩ :=
    converter_loaded env h5open platform instrument b w r hr f hf l hl hb n hn i hi lam resp hc res' _ (.inr ⟨rfl, hall⟩) hres'
  refine ⟨c, c', g1, k1, ?_⟩
  intro nc nc' ts hts ht
  refine ⟨_, _, _, _, tb2radiance_direct g3 (goodBand_ne g4.good) g4.pos g4.good.integral.ne' nc ts hts ht false, rfl,
    tb2radiance_direct k3 (goodBand_ne k4.good) k4.pos k4.good.integral.ne' nc' ts hts ht false, rfl, ?_, ?_, ?_, ?_, ?_, ?_⟩
  · simp
  · simp only [Bool.false_eq_true, if_false]
    rw [List.forall₂_map_left_iff, List.forall₂_map_right_iff, List.forall₂_same]
    intro t htm
    rw [g2, k2, bandInt_eq _ g4.len, bandInt_eq _ k4.len]
    have hlen := hc.2.2.len
    have hsum := space_sum (q := q) (K := 1) one_pos lam (List.zipWith (fun x y => y * planckWavelength x t) lam resp)
      (by simp [hlen]) hc.2.2.pos hc.2.2.inc hq (by
        intro v hv
        obtain ⟨j, hj, rfl⟩ := List.getElem_of_mem hv
        rw [List.getElem_zipWith]
        have hj' : j < lam.length ∧ j < resp.length := by simpa using hj
        exact mul_nonneg (hc.2.2.nonneg _ (List.getElem_mem hj'.2))
          (planckWl_pos (hc.2.2.pos _ (List.getElem_mem hj'.1)) (lt_trans (by norm_num) (ht t htm))).le)
    have e : trap (wavesIn "wavenumber" lam) (List.zipWith (fun x y => y * bandPlanck "wavenumber" x t)
          (wavesIn "wavenumber" lam) (responsesIn "wavenumber" resp)) =
        -trap (lam.map fun v => 1 / v)
          (List.zipWith (fun v u => u * v ^ 2 / 1) lam (List.zipWith (fun x y => y * planckWavelength x t) lam resp)) := by
      show trap (lam.map fun x => 1 / x).reverse (List.zipWith (fun x y => y * planckWavenumber x t)
        (lam.map fun x => 1 / x).reverse resp.reverse) = _
      rw [← List.reverse_zipWith (by simpa using hlen), trap_reverse _ _ (by simp [hlen])]
      congr 2
      apply List.ext_getElem (by simp [hlen])
      intro j hj hj'
      have hj2 : j < lam.length := by simp at hj; exact hj.1
      simp only [List.getElem_zipWith, List.getElem_map]
      rw [planck_spaces (hc.2.2.pos _ (List.getElem_mem hj2))]
      ring
    rw [e]
    exact hsum
  · show radianceUnit _ false = _
    rw [g2]; decide
  · show radianceUnit _ false = _
    rw [k2]; decide
  · norm_num
  · norm_num

/-- the second detector of band M5 of the example file: 600, 650 and 700 nm -/
example : ∃ c c', Eff.result (converterNew exampleEnv (openOnly "H".toList exFile) "FY-3A" "virr" (.name "M5") "det-2" "wavelength" 0.1)
      (worldWith ("/rsr", "rsr_virr_FY-3A.h5") "H".toList) = .ok c ∧
      Eff.result (converterNew exampleEnv (openOnly "H".toList exFile) "FY-3A" "virr" (.name "M5") "det-2" "wavenumber" 0.1)
      (worldWith ("/rsr", "rsr_virr_FY-3A.h5") "H".toList) = .ok c' ∧
      ∃ out out' a b, c.tb2radiance 1 (finL [300]) none false = .ok out ∧ out.radiance = .arr [fin a] ∧
        c'.tb2radiance 1 (finL [300]) none false = .ok out' ∧ out'.radiance = .arr [fin b] ∧ WithinFactor (13 / 12) b a := by
  obtain ⟨⟨r, hr⟩, hf⟩ := reader_there exampleEnv (openOnly "H".toList exFile) "FY-3A" "virr" "virr" (by decide +kernel)
    (worldWith ("/rsr", "rsr_virr_FY-3A.h5") "H".toList)
    (.inl ⟨"v1.6.1".toList, by rfl, [], [], [], rfl, by simp, by simp, Or.inl rfl⟩) "H".toList exFile _ (by rfl) (by rfl) exFile_loads
  obtain ⟨c, c', h1, h2, h3⟩ := C184_integrated_radiances _ _ _ _ "M5" _ r hr exFile hf ["M5"] exFile_lists (by decide) 2 exFile_count 1
    (by decide) _ _ exFile_curve2 exFile_allCurves (13 / 12) (by simp [StepsWithin]; norm_num) 0.1 0.1 tenth_nonzero tenth_nonzero
  obtain ⟨out, out', ls, ls', k1, k2, k3, k4, k5, k6, _⟩ := h3 1 1 [300] (by simp) (by simp; norm_num)
  match ls, ls', k5, k6 with
  | [a], [b], _, k6 =>
    exact ⟨c, c', h1, h2, out, out', a, b, k1, k2, k3, k4, (List.forall₂_cons.1 k6).1⟩

end Verif.Props
