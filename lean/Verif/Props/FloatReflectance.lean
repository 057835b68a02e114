import Verif.Props.FloatNirAccuracy
/-
Property C166: how accurate the computed 3.x micron reflectance is.
-/
namespace Verif.Props
open XF Model PyNum Lemmas Spec

section
variable (F : FP)

theorem diff_near {x x' y y' P Q M e : ℝ} (h1 : |x' - x| ≤ P * e) (h2 : |y' - y| ≤ Q * e) (hx : |x| ≤ P) (hy : |y| ≤ Q)
    (hM : P + Q ≤ M) (hM0 : 0.006 ≤ M) (hM1 : M ≤ 1e5) (he0 : 0 ≤ e) (he : e ≤ 0.01) :
    ∃ v, F.rnd (x' - y') = fin v ∧ |v - (x - y)| ≤ M * (e + 0.3 / 2 ^ 50) := by
  have P0 : 0 ≤ P := (abs_nonneg _).trans hx
  have Q0 : 0 ≤ Q := (abs_nonneg _).trans hy
  have a1 := abs_le.1 h1
  have a2 := abs_le.1 h2
  have a3 := abs_le.1 hx
  have a4 := abs_le.1 hy
  have b1 := mul_le_mul_of_nonneg_left he P0
  have b2 := mul_le_mul_of_nonneg_left he Q0
  have b3 : P * e + Q * e ≤ M * e := by rw [← add_mul]; exact mul_le_mul_of_nonneg_right hM he0
  norm_num at b1 b2 hM0 hM1
  have k : |x' - y'| ≤ M * 1.01 := by
    rw [abs_le]; norm_num
    constructor <;> linarith [a1.1, a1.2, a2.1, a2.2, a3.1, a3.2, a4.1, a4.2]
  obtain ⟨v, ev, hv⟩ := rnd_any F (x' - y') (k.trans (by norm_num; linarith))
  refine ⟨v, ev, ?_⟩
  have tiny : (2e-200 : ℝ) ≤ M * 1e-20 := by
    refine le_trans ?_ (mul_le_mul_of_nonneg_right hM0 (by norm_num)); norm_num
  have h3 := abs_le.1 (hv.trans (add_le_add (div_le_div_of_nonneg_right k (by positivity)) tiny))
  rw [abs_le]
  rw [mul_add]
  norm_num at h3 ⊢
  constructor <;> linarith [a1.1, a1.2, a2.1, a2.2, h3.1, h3.2]

/-- the rounded quotient -/
theorem quot_near {L T S Φ E n d : ℝ} (hL : 0 ≤ L) (hT : 0 ≤ T) (hΦ : S ≤ Φ) (hD : 0.006 ≤ S - T)
    (hM : L + T + Φ ≤ 1e5) (hE : 0 ≤ E) (hME : (L + T + Φ) * E ≤ 5e-5)
    (hn : |n - (L - T)| ≤ (L + T + Φ) * E) (hd : |d - (S - T)| ≤ (L + T + Φ) * E) :
    0.0055 ≤ d ∧ ∃ ρ, F.rnd (n / d) = fin ρ ∧
      |ρ - (L - T) / (S - T)| ≤ (E * 1.01 + 0.3 / 2 ^ 50) * (1 + |(L - T) / (S - T)|) * ((L + T + Φ) / (S - T)) := by
  obtain ⟨d1, k⟩ := ratio_near hL hT hΦ hD hE hME hn hd
  refine ⟨d1, ?_⟩
  set D := S - T with hDd
  set N := L - T with hNd
  set M := L + T + Φ with hMd
  norm_num at hD hM hME
  have D0 : 0 < D := lt_of_lt_of_le (by norm_num) hD
  have DM : D ≤ M := by rw [hDd, hMd]; linarith
  have NM : |N| ≤ M := by rw [abs_le]; constructor <;> linarith
  have g1 : 1 ≤ M / D := (one_le_div D0).2 DM
  set r := |N / D| with hr
  have r0 : 0 ≤ r := abs_nonneg _
  have r1 : r ≤ 1e8 := by
    rw [hr, abs_div, abs_of_pos D0, div_le_iff₀ D0]
    norm_num; linarith
  have EMD : E * (M / D) ≤ 0.0084 := by
    rw [← mul_div_assoc, div_le_iff₀ D0, mul_comm E M]; norm_num; linarith
  have k2 : |n / d| ≤ 1.01 * (1 + r) := by
    have e1 : E * 1.01 * (1 + r) * (M / D) ≤ 0.01 * (1 + r) := by
      rw [show E * 1.01 * (1 + r) * (M / D) = E * (M / D) * 1.01 * (1 + r) by ring]
      refine mul_le_mul_of_nonneg_right ?_ (by linarith)
      norm_num at EMD ⊢; linarith
    have e2 : |n / d| ≤ |n / d - N / D| + r := by
      have := abs_add_le (n / d - N / D) (N / D)
      rwa [sub_add_cancel] at this
    norm_num at e1 ⊢
    norm_num at k
    linarith
  obtain ⟨ρ, eρ, hρ⟩ := rnd_any F (n / d) (k2.trans (by norm_num at r1 ⊢; linarith))
  refine ⟨ρ, eρ, ?_⟩
  have h3 : |ρ - n / d| ≤ 0.3 / 2 ^ 50 * (1 + r) * (M / D) := by
    have s1 : |n / d| / 2 ^ 52 + 2e-200 ≤ 0.3 / 2 ^ 50 * (1 + r) := by
      refine (add_le_add_left (div_le_div_of_nonneg_right k2 (by positivity)) _).trans ?_
      norm_num; linarith
    refine hρ.trans (s1.trans (le_mul_of_one_le_right (by positivity) g1))
  have : ρ - N / D = (ρ - n / d) + (n / d - N / D) := by ring
  rw [this]
  refine (abs_add_le _ _).trans ((add_le_add h3 k).trans (le_of_eq (by ring)))

/-- one pixel, with the radiances taken at the temperatures `a'` and `t'` -/
theorem px_near {c : RadTb (RF F)} {w r : List ℝ} (hc : FpLoaded c w r) (hb : FpBand c.wavespace w r)
    {flux thr : ℝ} (hf : 1e-3 ≤ flux ∧ flux ≤ 1e4) (hthr : 0 ≤ thr ∧ thr ≤ 90) (lim : Option (RF F)) (useCo2 : Bool)
    (p : Pixel (RF F)) (R : RF F → RF F) {z a t u a' t' X : ℝ} (hz : p.zenith = RF.of z) (hp : p.nir = RF.of a) (hpt : p.therm = RF.of t)
    (hRa : R (RF.of a) = bandVal c true (RF.of a')) (hRt : R (RF.of t) = bandVal c true (RF.of t'))
    (ha : 0 < a') (ht : 0 < t')
    (hu : useCo2 = true → p.co2 = RF.of u ∧ (100 ≤ t ∧ t ≤ 400) ∧ 100 ≤ u ∧ u ≤ 400)
    (hlim : ∀ l, lim = some l → ∃ m : ℝ, l = RF.of m ∧ 0 ≤ z ∧ z ≤ m) (hX : X ≤ 300)
    (hx : ∀ x ∈ w, (0.7 ≤ planckX c.wavespace x a' ∧ planckX c.wavespace x a' ≤ X) ∧
      0.7 ≤ planckX c.wavespace x t' ∧ planckX c.wavespace x t' ≤ X)
    (hL : 1e-100 ≤ exactBand c.wavespace w r false a' ∧ exactBand c.wavespace w r false a' ≤ 1000)
    (hB : 1e-100 ≤ exactBand c.wavespace w r false t' ∧ exactBand c.wavespace w r false t' ≤ 1000)
    (hD : 0.006 ≤ exactSun flux thr z - exactBand c.wavespace w r false t' * exactCorr useCo2 t u) :
    ∃ ρ : ℝ, pxValue (α := RF F) c.rsr_integral (RF.of flux) (RF.of thr) lim R useCo2 p = RF.of ρ ∧
      |ρ - (exactBand c.wavespace w r false a' - exactBand c.wavespace w r false t' * exactCorr useCo2 t u) /
          (exactSun flux thr z - exactBand c.wavespace w r false t' * exactCorr useCo2 t u)| ≤
        (95 + 114 * X + 7 * w.length) / 2 ^ 50 *
        (1 + |(exactBand c.wavespace w r false a' - exactBand c.wavespace w r false t' * exactCorr useCo2 t u) /
          (exactSun flux thr z - exactBand c.wavespace w r false t' * exactCorr useCo2 t u)|) *
        ((exactBand c.wavespace w r false a' + exactBand c.wavespace w r false t' * exactCorr useCo2 t u + flux / Real.pi) /
          (exactSun flux thr z - exactBand c.wavespace w r false t' * exactCorr useCo2 t u)) := by
  have hw : w ≠ [] := gaps_ne hb.integral
  obtain ⟨x0, hx0⟩ := List.exists_mem_of_ne_nil w hw
  have hX0 : 0 ≤ X := by have := (hx x0 hx0).1; norm_num at this; linarith [this.1, this.2]
  have n1 := raw_near F hc hb ha hX hX0 (fun x h => (hx x h).1) hL
  obtain ⟨n2, T0, T1⟩ := therm_near F hc hb ht hX hX0 (fun x h => (hx x h).2) hB R useCo2 p hpt hRt hu
  obtain ⟨S', eS, hS⟩ := sun_near F z hf hthr
  have hl : (w.length : ℝ) ≤ 1048576 := by
    have : w.length ≤ 1048576 := hb.size.trans (by norm_num)
    exact_mod_cast this
  have hl0 : (0 : ℝ) ≤ w.length := Nat.cast_nonneg _
  have eU : uu = 2 / 4503599627370496 := by unfold uu; norm_num
  have n1' := n1.mono (ε := (92 + 112 * X + 6 * w.length) * uu) (mul_le_mul_of_nonneg_right (by linarith) uu_pos.le)
  set n : ℝ := (w.length : ℝ) with hn
  set L := exactBand c.wavespace w r false a' with hLd
  set T := exactBand c.wavespace w r false t' * exactCorr useCo2 t u with hTd
  set S := exactSun flux thr z with hSd
  set Φ := flux / Real.pi with hΦd
  set e := (92 + 112 * X + 6 * n) / 2 ^ 50 with he
  have e2 : 2 * ((92 + 112 * X + 6 * n) * uu) = e := by rw [eU, he]; norm_num; ring
  have e0 : 0 ≤ e := by positivity
  have e1 : e ≤ 5.64e-9 := by rw [he, div_le_iff₀ (by positivity)]; norm_num; linarith
  norm_num at e1
  obtain ⟨L', eL', hL'⟩ := near_abs n1' (by linarith) (by norm_num; linarith)
  obtain ⟨T', eT', hT'⟩ := near_abs n2 (by linarith) (by norm_num; linarith)
  rw [e2] at hL' hT'
  have Φ0 : 0 < Φ := div_pos (lt_of_lt_of_le (by norm_num) hf.1) Real.pi_pos
  have Φ1 : Φ ≤ 3334 := by
    have h3 := Real.pi_gt_three
    rw [hΦd, div_le_iff₀ Real.pi_pos]
    have := hf.2
    norm_num at this
    nlinarith
  have SΦ : |S| ≤ Φ := by
    rw [hSd]; unfold exactSun
    rw [mul_div_right_comm, abs_mul, abs_of_pos Φ0]
    exact mul_le_of_le_one_right Φ0.le (Real.abs_cos_le_one _)
  have SΦ' := abs_le.1 SΦ
  have hS' : |S' - S| ≤ Φ * e := by
    refine hS.trans (mul_le_mul_of_nonneg_left ?_ Φ0.le)
    rw [he]
    exact div_le_div_of_nonneg_right (by linarith) (by positivity)
  have L0 : 0 < L := lt_of_lt_of_le (by norm_num) hL.1
  have hD' := hD
  norm_num at hD'
  have hL2 := hL.2
  have M1 : L + T + Φ ≤ 7700 := by linarith [SΦ'.2]
  have M0 : 0.006 ≤ L + T + Φ := by norm_num; linarith [SΦ'.2]
  obtain ⟨N', eN', hN'⟩ := diff_near F hL' hT' (abs_of_pos L0).le (abs_of_pos T0).le (M := L + T + Φ) (by linarith)
    M0 (by norm_num; linarith) e0 (by norm_num; linarith)
  obtain ⟨D', eD', hD2⟩ := diff_near F hS' hT' SΦ (abs_of_pos T0).le (M := L + T + Φ) (by linarith)
    M0 (by norm_num; linarith) e0 (by norm_num; linarith)
  have E1 : (L + T + Φ) * (e + 0.3 / 2 ^ 50) ≤ 5e-5 := by
    have k : e + 0.3 / 2 ^ 50 ≤ 5.65e-9 := by norm_num; linarith
    refine (mul_le_mul M1 k (by positivity) (by norm_num)).trans ?_
    norm_num
  obtain ⟨d1, ρ, eρ, hρ⟩ := quot_near F L0.le T0.le SΦ'.2 hD (by norm_num; linarith) (by positivity) E1 hN' hD2
  refine ⟨ρ, ?_, hρ.trans ?_⟩
  · have hden : pxDenom (α := RF F) c.rsr_integral (RF.of flux) (RF.of thr) R useCo2 p = RF.of D' := by
      unfold pxDenom
      rw [hz, eS, show pxTherm (α := RF F) c.rsr_integral R useCo2 p = RF.of T' from eT']
      exact eD'
    have hzen : pxZenith (α := RF F) lim p = false := by
      unfold pxZenith
      cases hlm : lim with
      | none => rfl
      | some l =>
        obtain ⟨m, rfl, z0, z1⟩ := hlim l hlm
        have z00 : (0.0 : RF F) = RF.of 0 := by
          show F.rnd (0.0 : ℝ) = _
          rw [show (0.0 : ℝ) = 0 by norm_num]; exact rnd_zero F
        simp only [hz, z00]
        have l1 : lt (RF.of z : RF F) (RF.of 0) = false := decide_eq_false (not_lt.2 z0)
        have l2 : gt (RF.of z : RF F) (RF.of m) = false := decide_eq_false (not_lt.2 z1)
        rw [l1, l2]; rfl
    have heps : lt (RF.of D' : RF F) NIR_EPSILON = false := by
      obtain ⟨q, eq, hq⟩ := F.rnd_near (0.005 : ℝ) (by norm_num) (by norm_num)
      have eq' : (NIR_EPSILON : RF F) = RF.of q := eq
      rw [eq']
      have hq' := abs_le.1 hq
      norm_num at hq' d1
      exact decide_eq_false (not_lt.2 (by linarith [hq'.2]))
    unfold pxValue
    rw [hden, heps, hzen, hp]
    have hnn : isNaN (RF.of a : RF F) = false := rfl
    rw [hnn]
    simp only [Bool.or_self, Bool.false_eq_true, if_false]
    rw [show pxTherm (α := RF F) c.rsr_integral R useCo2 p = RF.of T' from eT',
      hRa, show (bandVal (α := RF F) c true (RF.of a') * c.rsr_integral : RF F) = RF.of L' from eL']
    show F.rd (XF.div (F.rnd (L' - T')) (fin D')) = _
    rw [eN']
    show F.rd (if D' = 0 then _ else fin (N' / D')) = _
    rw [if_neg (by norm_num at d1; linarith)]
    exact eρ
  · have D0 : 0 < S - T := lt_of_lt_of_le (by norm_num) hD
    have : 0 ≤ (L + T + Φ) / (S - T) := by positivity
    refine mul_le_mul_of_nonneg_right (mul_le_mul_of_nonneg_right ?_ (by positivity)) this
    rw [he, ← add_div, div_mul_eq_mul_div, ← add_div]
    refine div_le_div_of_nonneg_right ?_ (by positivity)
    norm_num; linarith

end

/-- C166: without a look-up table, every pixel on the day side gets a number, and it differs from the
reflectance the exact formula gives for that pixel by at most (95 + 114·X + 7·n)/2^50 times one plus
the reflectance, times the sum of the radiances over the difference of sunlight and thermal radiance.
`n` is the number of samples of the response and X bounds hc/(λkT) for both temperatures. -/
theorem C166_reflectance_accuracy (F : FP) (s : Nir (RF F)) (nc : Int) (sc : Scene (RF F)) (w r : List ℝ)
    (hc : FpLoaded s.conv w r) (hb : FpBand s.conv.wavespace w r) (hrsr : s.conv.rsr ≠ [])
    (hpx : sc.pixels ≠ []) (hl : sc.lut.getD s.lut = none) (hsh : sc.shape = [sc.pixels.length])
    (flux thr : ℝ) (hflux : s.solar_flux = RF.of flux) (hf : 1e-3 ≤ flux ∧ flux ≤ 1e4)
    (hthr : s.sunz_threshold = RF.of thr) (ht : 0 ≤ thr ∧ thr ≤ 90) :
    ∃ (out : NirOut (RF F)) (s' : Nir (RF F)) (v : Pixel (RF F) → RF F), reflectance nc sc s = (.ok out, s') ∧
      out.values = ⟨sc.shape, sc.pixels.map v⟩ ∧
      ∀ p ∈ sc.pixels, ∀ z a t u X L B T S : ℝ, p.zenith = RF.of z → p.nir = RF.of a → p.therm = RF.of t →
        0 < a → 0 < t →
        (sc.useCo2 = true → p.co2 = RF.of u ∧ (100 ≤ t ∧ t ≤ 400) ∧ 100 ≤ u ∧ u ≤ 400) →
        (∀ l, s.masking_limit = some l → ∃ m : ℝ, l = RF.of m ∧ 0 ≤ z ∧ z ≤ m) → X ≤ 300 →
        (∀ x ∈ w, (0.7 ≤ planckX s.conv.wavespace x a ∧ planckX s.conv.wavespace x a ≤ X) ∧
          0.7 ≤ planckX s.conv.wavespace x t ∧ planckX s.conv.wavespace x t ≤ X) →
        L = exactBand s.conv.wavespace w r false a → 1e-100 ≤ L → L ≤ 1000 →
        B = exactBand s.conv.wavespace w r false t → 1e-100 ≤ B → B ≤ 1000 →
        T = B * exactCorr sc.useCo2 t u → S = exactSun flux thr z → 0.006 ≤ S - T →
        ∃ ρ : ℝ, v p = RF.of ρ ∧ |ρ - (L - T) / (S - T)| ≤
          (95 + 114 * X + 7 * w.length) / 2 ^ 50 * (1 + |(L - T) / (S - T)|) * ((L + T + flux / Real.pi) / (S - T)) := by
  have hne : s.conv.wave ≠ [] := by rw [hc.wave]; simpa using gaps_ne hb.integral
  have hlen : s.conv.wave.length = s.conv.response.length := by rw [hc.wave, hc.response]; simp [hb.len]
  obtain ⟨out, h1, h2⟩ := reflectance_run s nc sc (bandVal s.conv true)
    { rsr := hrsr
      pixels := hpx
      shape := by rw [hsh]; simp
      converts := by
        rw [hl]
        intro ts hts
        exact ⟨_, tb2radiance_val s.conv hne hlen nc ts hts true, rfl⟩
      flat := Or.inr hsh }
  refine ⟨out, _, _, h1, h2, ?_⟩
  intro p _ z a t u X L B T S hz hp hpt ha ht' hu hlim hX hx eL L1 L2 eB B1 B2 eT eS hD
  subst eL eB eT eS
  rw [hflux, hthr]
  exact px_near F hc hb hf ht s.masking_limit sc.useCo2 p (bandVal s.conv true) hz hp hpt rfl rfl ha ht' hu hlim hX hx ⟨L1, L2⟩ ⟨B1, B2⟩ hD

/-- an object with the converter of C118's example -/
noncomputable def exAccNir : Nir (RF Double.fp) :=
  { conv := { exFpConv with rsr := [("ch4", [])] }, bandname := "ch4", bandwavelength := RF.of 3.9, lutfile := "", lut := none
    masking_limit := some (RF.of 88), solar_flux := RF.of 1e4, sunz_threshold := RF.of 85
    e3x := none, r3x := none, rad3x := none, rad3x_t11 := none, rad3x_correction := Arr.scalar 1.0, solar_radiance := none }

/-- one pixel, sun in the zenith, with the CO2 band -/
noncomputable def exAccScene : Scene (RF Double.fp) :=
  { shape := [1], pixels := [⟨RF.of 0, RF.of 290, RF.of 280, RF.of 250⟩]
    kz := .numpy, kn := .numpy, kt := .numpy, kc := .numpy, useCo2 := true, lut := none }

/-- the band radiance of the example -/
theorem exAcc_band {t : ℝ} (h1 : 280 ≤ t) (h2 : t ≤ 290) :
    1e-100 ≤ exactBand exAccNir.conv.wavespace [10e-6, 11e-6, 12e-6] [0, 1, 0] false t ∧
      exactBand exAccNir.conv.wavespace [10e-6, 11e-6, 12e-6] [0, 1, 0] false t ≤ 1000 := by
  have e : exactBand exAccNir.conv.wavespace [10e-6, 11e-6, 12e-6] [0, 1, 0] false t = planckWavelength 11e-6 t * 1e-6 := by
    unfold exactBand planckOf
    rw [show exAccNir.conv.wavespace = WAVE_LENGTH from rfl]
    have : (WAVE_LENGTH = "wavenumber") = False := by simp; decide +kernel
    simp only [this, if_false, List.zipWith, trap, Bool.false_eq_true]
    norm_num
    ring
  rw [e]
  unfold planckWavelength
  have hx1 : (1 : ℝ) ≤ Spec.h * Spec.c / (11e-6 * Spec.k * t) := by
    rw [le_div_iff₀ (by unfold Spec.k; positivity)]
    unfold Spec.h Spec.c Spec.k; norm_num; linarith
  have hx2 : Spec.h * Spec.c / (11e-6 * Spec.k * t) ≤ 10 := by
    rw [div_le_iff₀ (by unfold Spec.k; positivity)]
    unfold Spec.h Spec.c Spec.k; norm_num; linarith
  have k1 := Real.add_one_le_exp (Spec.h * Spec.c / (11e-6 * Spec.k * t))
  have k2 : Real.exp (Spec.h * Spec.c / (11e-6 * Spec.k * t)) ≤ 3 ^ 10 := by
    refine (Real.exp_le_exp.2 hx2).trans ?_
    rw [show (10 : ℝ) = (10 : ℕ) * 1 by norm_num, Real.exp_nat_mul]
    exact pow_le_pow_left₀ (Real.exp_pos _).le Real.exp_one_lt_three.le 10
  set E := Real.exp (Spec.h * Spec.c / (11e-6 * Spec.k * t)) with hE
  have hE1 : 1 ≤ E - 1 := by linarith
  have hE2 : E - 1 ≤ 59049 := by norm_num at k2; linarith
  have A1 : (1e8 : ℝ) ≤ 2 * Spec.h * Spec.c ^ 2 / 11e-6 ^ 5 := by
    rw [le_div_iff₀ (by positivity)]; unfold Spec.h Spec.c; norm_num
  have A2 : 2 * Spec.h * Spec.c ^ 2 / 11e-6 ^ 5 ≤ (1e9 : ℝ) := by
    rw [div_le_iff₀ (by positivity)]; unfold Spec.h Spec.c; norm_num
  set A := 2 * Spec.h * Spec.c ^ 2 / 11e-6 ^ 5
  constructor
  · have : (1e3 : ℝ) ≤ A / (E - 1) := by
      rw [le_div_iff₀ (by linarith)]; norm_num at A1 ⊢; linarith
    norm_num at this ⊢; linarith
  · have : A / (E - 1) ≤ 1e9 := (div_le_self (by norm_num at A1; linarith) hE1).trans A2
    norm_num at this ⊢; linarith

theorem exAcc_x {t x : ℝ} (h1 : 280 ≤ t) (h2 : t ≤ 290) (hx : x ∈ [10e-6, 11e-6, 12e-6]) :
    0.7 ≤ planckX exAccNir.conv.wavespace x t ∧ planckX exAccNir.conv.wavespace x t ≤ 10 := by
  have hx' : 10e-6 ≤ x ∧ x ≤ 12e-6 := by
    simp only [List.mem_cons, List.not_mem_nil, or_false] at hx
    rcases hx with rfl | rfl | rfl <;> norm_num
  have e : planckX exAccNir.conv.wavespace x t = Spec.h * Spec.c / (x * Spec.k * t) := by
    unfold planckX
    rw [if_neg (show ¬ exAccNir.conv.wavespace = "wavenumber" by rw [show exAccNir.conv.wavespace = WAVE_LENGTH from rfl]; decide +kernel)]
  have x0 : 0 < x := lt_of_lt_of_le (by norm_num) hx'.1
  have p0 : 0 < x * Spec.k * t := by unfold Spec.k; have : 0 < t := by linarith
                                     positivity
  have lo := mul_le_mul hx'.1 h1 (by norm_num) x0.le
  have hi := mul_le_mul hx'.2 h2 (by linarith) (by norm_num)
  rw [e]
  constructor
  · rw [le_div_iff₀ p0]
    rw [show x * Spec.k * t = Spec.k * (x * t) by ring]
    unfold Spec.h Spec.c Spec.k; norm_num at hi ⊢; linarith
  · rw [div_le_iff₀ p0]
    rw [show x * Spec.k * t = Spec.k * (x * t) by ring]
    unfold Spec.h Spec.c Spec.k; norm_num at lo ⊢; linarith

example : ∃ out s', ∃ ρ : ℝ, reflectance 0 exAccScene exAccNir = (.ok out, s') ∧ out.values = ⟨[1], [RF.of ρ]⟩ := by
  obtain ⟨out, s', v, h1, h2, h3⟩ := C166_reflectance_accuracy Double.fp exAccNir 0 exAccScene _ _
    ⟨exFpConv_loaded.1, exFpConv_loaded.2, exFpConv_loaded.3⟩ exFpBand (by simp [exAccNir]) (by simp [exAccScene]) rfl rfl
    1e4 85 rfl (by norm_num) rfl (by norm_num)
  have b1 := exAcc_band (t := 290) (by norm_num) (by norm_num)
  have b2 := exAcc_band (t := 280) (by norm_num) (by norm_num)
  obtain ⟨ρ, e, _⟩ := h3 ⟨RF.of 0, RF.of 290, RF.of 280, RF.of 250⟩ (by simp [exAccScene]) 0 290 280 250 10 _ _ _ _ rfl rfl rfl
    (by norm_num) (by norm_num) (fun _ => ⟨rfl, by norm_num, by norm_num⟩)
    (fun l hl => ⟨88, (Option.some.inj hl).symm, by norm_num⟩) (by norm_num)
    (fun x hx => ⟨exAcc_x (by norm_num) (by norm_num) hx, exAcc_x (by norm_num) (by norm_num) hx⟩)
    rfl b1.1 b1.2 rfl b2.1 b2.2 rfl rfl (by
      have s1 : exactSun 1e4 85 0 = 1e4 / Real.pi := by
        unfold exactSun
        rw [max_self, min_eq_left (by norm_num), zero_mul, Real.cos_zero, mul_one]
      have s2 : (2500 : ℝ) ≤ 1e4 / Real.pi := by
        rw [le_div_iff₀ Real.pi_pos]; have := Real.pi_le_four; norm_num; linarith
      have s3 : exactCorr exAccScene.useCo2 280 250 ≤ 1 := by
        rw [show exAccScene.useCo2 = true from rfl]; unfold exactCorr; norm_num
      have s4 := mul_le_mul_of_nonneg_left s3 (le_trans (by norm_num) b2.1)
      rw [s1]
      have := b2.2
      norm_num at s2 s4 this ⊢
      linarith)
  exact ⟨out, s', ρ, h1, by rw [h2]; simp [exAccScene, e]⟩

end Verif.Props
