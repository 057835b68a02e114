import Verif.Props.FloatReflectance
import Verif.Props.FloatLutAccuracy
/-
Property C171: how accurate the 3.x micron reflectance computed with the look-up table is.
-/
namespace Verif.Props
open XF Model PyNum Lemmas Spec

section
variable (F : FP)

/-- the table made by a converter gives, for a temperature between 150 and 360 K, the radiance computed for a
temperature at most a step away -/
theorem lutFn_near (c : RadTb (RF F)) (w r : List ℝ) (hc : FpLoaded c w r)
    (hb : FpBand c.wavespace w r) (nc : Int) (res : ℝ) (hres : 0.02 ≤ res ∧ res ≤ 10)
    (hr : c.tb_resolution = RF.of res) (hs : c.tb_scale = 1.0 / RF.of res) :
    ∃ (lut : Lut (RF F)) (start : Int), c.makeTb2radLut nc true = .ok lut ∧ GoodLut c.tb_scale lut start ∧
      ∀ t : ℝ, 150 ≤ t → t ≤ 360 → ∃ t' : ℝ, |t' - t| ≤ res * (1 + 1e-9) ∧ 150 ≤ t' ∧
        lutFn nc c.tb_scale start lut.radiance (RF.of t) = bandVal c true (RF.of t') := by
  have hres0 : 0 < res := lt_of_lt_of_le (by norm_num) hres.1
  obtain ⟨n, g, hg, g0, gm, gr, ga, gn⟩ := arange_acc F hres.1 hres.2
  have hne : c.wave ≠ [] := by rw [hc.wave]; simpa using gaps_ne hb.integral
  have hl : c.wave.length = c.response.length := by rw [hc.wave, hc.response]; simp [hb.len]
  set tb : List (RF F) := (List.range (n + 1)).map fun i => RF.of (g i) with htb
  set rad : List (RF F) := tb.map (bandVal c true) with hrad
  have hlen : rad.length = n + 1 := by simp [hrad, htb]
  have hradne : rad ≠ [] := by intro h; rw [h] at hlen; simp at hlen
  have hmake : c.makeTb2radLut nc true = .ok ⟨tb, rad⟩ := by
    unfold RadTb.makeTb2radLut
    rw [hr, hg]
    simp only [bind, Except.bind]
    rw [tb2radiance_val c hne hl nc tb (by simp [htb]) true]
    rfl
  have hget : ∀ i, i ≤ n → ∀ hi : i < rad.length, rad[i] = bandVal c true (RF.of (g i)) := by
    intro i hi hi'
    simp [hrad, htb]
  have q1 : 0.1 ≤ 1 / res := by rw [le_div_iff₀ hres0]; have := hres.2; norm_num; linarith
  have q2 : 1 / res ≤ 50 := by rw [div_le_iff₀ hres0]; have := hres.1; norm_num at this ⊢; linarith
  obtain ⟨s, es, hs1, hs2⟩ := rnd_tenth F (x := 1 / res) (le_trans (by norm_num) q1) (q2.trans (by norm_num))
  have hsc : c.tb_scale = RF.of s := by
    rw [hs, one_lit]
    show F.rd (if res = 0 then _ else fin (1 / res)) = _
    rw [if_neg hres0.ne']; exact es
  norm_num at hs1 hs2 q1
  have s0 : 0 < s := by
    have : 0 < res⁻¹ := inv_pos.2 hres0
    linarith
  have s1 : s ≤ 55 := by rw [one_div] at q2; linarith
  have val : ∀ t : ℝ, 0 ≤ t → t ≤ 500 → ∃ y, F.rnd (t * s) = fin y ∧ 0 ≤ y ∧ y ≤ 30250 := by
    intro t h0 h1
    obtain ⟨y, e, h2, h3⟩ := rnd_bound F (x := t * s) (b := 27500) (mul_nonneg h0 s0.le)
      (by have := mul_le_mul h1 s1 s0.le (by norm_num); norm_num at this; linarith) (by norm_num) (by norm_num)
    norm_num at h3
    exact ⟨y, e, h2, by linarith⟩
  choose! y hy hy0 hy1 using val
  have trf : ∀ t : ℝ, 0 ≤ t → t ≤ 500 → truncR (y t) = ⌊y t⌋ := by
    intro t h0 h1
    unfold truncR
    rw [if_pos (hy0 t h0 h1)]
  have tr : ∀ t : ℝ, 0 ≤ t → t ≤ 500 → 0 ≤ truncR (y t) ∧ truncR (y t) ≤ 30250 := by
    intro t h0 h1
    rw [trf t h0 h1]
    refine ⟨Int.floor_nonneg.2 (hy0 t h0 h1), ?_⟩
    have := (Int.floor_le (y t)).trans (hy1 t h0 h1)
    exact_mod_cast this
  have hmul : ∀ t : ℝ, 0 ≤ t → t ≤ 500 → (RF.of t : RF F) * c.tb_scale = RF.of (y t) := by
    intro t h0 h1
    rw [hsc]; exact hy t h0 h1
  have hst := tr 150 (by norm_num) (by norm_num)
  refine ⟨⟨tb, rad⟩, truncR (y 150), hmake, ⟨hradne, ⟨RF.of 150, (List.range n).map fun i => RF.of (g (i + 1)), ?_, ?_⟩,
    by omega, by omega⟩, ?_⟩
  · rw [htb, List.range_succ_eq_map]; simp [g0, Function.comp_def]
  · rw [hmul 150 (by norm_num) (by norm_num)]; rfl
  · intro t h1 h2
    have h0' : 0 ≤ t := by linarith
    have h1' : t ≤ 500 := by linarith
    obtain ⟨pos, hpos⟩ : ∃ pos : ℕ, pos = (clipInt (truncR (y t) - truncR (y 150)) 0 n).toNat := ⟨_, rfl⟩
    have hposn : pos ≤ n := by rw [hpos]; unfold clipInt; omega
    refine ⟨g pos, ?_, (gr pos hposn).1, ?_⟩
    · have i1 := index_near F hres es ⟨h1, h2⟩ (hy t (by linarith) (by linarith)) (hy 150 (by norm_num) (by norm_num))
      rw [← trf t (by linarith) (by linarith), ← trf 150 (by norm_num) (by norm_num)] at i1
      have x1 : (t - 150) / res - 1e-11 ≤ n + 1 := by
        have : (t - 150) / res ≤ 210 / res := by gcongr; linarith
        linarith
      have i2 := clip_near i1 (div_nonneg (by linarith) hres0.le) x1
      have e3 : ((clipInt (truncR (y t) - truncR (y 150)) 0 n : ℤ) : ℝ) = pos := by
        have : (clipInt (truncR (y t) - truncR (y 150)) 0 n : ℤ) = (pos : ℤ) := by
          rw [hpos]; unfold clipInt; omega
        rw [this]; norm_cast
      rw [e3] at i2
      have i3 : |pos * res - (t - 150)| ≤ (1 + 1e-10) * res := by
        have : pos * res - (t - 150) = (pos - (t - 150) / res) * res := by
          rw [sub_mul, div_mul_cancel₀ _ hres0.ne']
        rw [this, abs_mul, abs_of_pos hres0]
        exact mul_le_mul_of_nonneg_right i2 hres0.le
      have i4 := abs_le.1 (ga pos hposn)
      have i5 := abs_le.1 i3
      have := hres.1
      rw [abs_le]
      norm_num at this i4 i5 ⊢
      constructor <;> linarith [i4.1, i4.2, i5.1, i5.2]
    · have h3 := tr t h0' h1'
      have c1 : NP.wrap16 (NP.castInt16 nc ((RF.of t : RF F) * c.tb_scale) - truncR (y 150)) =
          truncR (y t) - truncR (y 150) := by
        rw [hmul t h0' h1']
        have : NP.castInt16 nc (RF.of (y t) : RF F) = truncR (y t) := by
          show NP.wrap16 (truncR (y t)) = _
          exact wrap16_id (by omega) (by omega)
        rw [this, wrap16_id (by omega) (by omega)]
      unfold lutFn
      rw [c1]
      dsimp only
      obtain ⟨l1, _⟩ := pyIndex_clip rad hradne (truncR (y t) - truncR (y 150))
      rw [List.getElem?_eq_getElem l1]
      have e2 : (clipInt (truncR (y t) - truncR (y 150)) 0 ((rad.length : ℤ) - 1)).toNat = pos := by
        rw [hlen, hpos]; simp
      show rad[(clipInt (truncR (y t) - truncR (y 150)) 0 ((rad.length : ℤ) - 1)).toNat] = _
      rw [hget _ (by rw [e2]; exact hposn), e2]

end

/-- C171: with the look-up table of the object's own converter (temperature step `res` from 0.02 to 10 K) every pixel on
the day side gets a number.  Up to the rounding error of C166, it is the reflectance that the exact formula gives with
the two radiances taken at temperatures at most one step (and one part in 1e9 of it) away from those given. -/
theorem C171_table_reflectance_accuracy (F : FP) (s : Nir (RF F)) (nc : Int) (sc : Scene (RF F)) (w r : List ℝ)
    (hc : FpLoaded s.conv w r) (hb : FpBand s.conv.wavespace w r) (hrsr : s.conv.rsr ≠ [])
    (hpx : sc.pixels ≠ []) (hsh : sc.shape ≠ []) (res : ℝ) (hres : 0.02 ≤ res ∧ res ≤ 10)
    (hr : s.conv.tb_resolution = RF.of res) (hs : s.conv.tb_scale = 1.0 / RF.of res) (lut : Lut (RF F))
    (hlut : s.conv.makeTb2radLut nc true = .ok lut) (hl : sc.lut.getD s.lut = some lut)
    (flux thr : ℝ) (hflux : s.solar_flux = RF.of flux) (hf : 1e-3 ≤ flux ∧ flux ≤ 1e4)
    (hthr : s.sunz_threshold = RF.of thr) (ht : 0 ≤ thr ∧ thr ≤ 90) :
    ∃ (out : NirOut (RF F)) (s' : Nir (RF F)) (v : Pixel (RF F) → RF F), reflectance nc sc s = (.ok out, s') ∧
      out.values = ⟨sc.shape, sc.pixels.map v⟩ ∧
      ∀ p ∈ sc.pixels, ∀ z a t u X S K : ℝ, p.zenith = RF.of z → p.nir = RF.of a → p.therm = RF.of t →
        150 ≤ a → a ≤ 360 → 150 ≤ t → t ≤ 360 →
        (sc.useCo2 = true → p.co2 = RF.of u ∧ 100 ≤ u ∧ u ≤ 400) →
        (∀ l, s.masking_limit = some l → ∃ m : ℝ, l = RF.of m ∧ 0 ≤ z ∧ z ≤ m) → X ≤ 300 →
        S = exactSun flux thr z → K = exactCorr sc.useCo2 t u →
        (∀ τ : ℝ, |τ - a| ≤ res * (1 + 1e-9) ∨ |τ - t| ≤ res * (1 + 1e-9) →
          (∀ x ∈ w, 0.7 ≤ planckX s.conv.wavespace x τ ∧ planckX s.conv.wavespace x τ ≤ X) ∧
          1e-100 ≤ exactBand s.conv.wavespace w r false τ ∧ exactBand s.conv.wavespace w r false τ ≤ 1000) →
        (∀ τ : ℝ, |τ - t| ≤ res * (1 + 1e-9) → 0.006 ≤ S - exactBand s.conv.wavespace w r false τ * K) →
        ∃ a' t' ρ L T : ℝ, |a' - a| ≤ res * (1 + 1e-9) ∧ |t' - t| ≤ res * (1 + 1e-9) ∧
          L = exactBand s.conv.wavespace w r false a' ∧ T = exactBand s.conv.wavespace w r false t' * K ∧
          v p = RF.of ρ ∧ |ρ - (L - T) / (S - T)| ≤
            (95 + 114 * X + 7 * w.length) / 2 ^ 50 * (1 + |(L - T) / (S - T)|) * ((L + T + flux / Real.pi) / (S - T)) := by
  obtain ⟨lut', start, e, hg, hnear⟩ := lutFn_near F s.conv w r hc hb nc res hres hr hs
  rw [hlut] at e
  cases e
  obtain ⟨out, h1, h2⟩ := reflectance_run s nc sc (lutFn nc s.conv.tb_scale start lut.radiance)
    { rsr := hrsr
      pixels := hpx
      shape := hsh
      converts := by rw [hl]; exact converts_lut s.conv nc lut start hg
      flat := Or.inl (by rw [hl]; rfl) }
  refine ⟨out, _, _, h1, h2, ?_⟩
  intro p _ z a t u X S K hz hp hpt a1 a2 t1 t2 hu hlim hX eS eK hband hD
  obtain ⟨a', na, ga, ea⟩ := hnear a a1 a2
  obtain ⟨t', nt, gt, et⟩ := hnear t t1 t2
  obtain ⟨xa, La⟩ := hband a' (Or.inl na)
  obtain ⟨xt, Lt⟩ := hband t' (Or.inr nt)
  subst eS eK
  rw [hflux, hthr]
  obtain ⟨ρ, k1, k2⟩ := px_near F hc hb hf ht s.masking_limit sc.useCo2 p _ hz hp hpt ea et (by linarith) (by linarith)
    (fun h => ⟨(hu h).1, ⟨by linarith, by linarith⟩, (hu h).2⟩) hlim hX (fun x hx => ⟨xa x hx, xt x hx⟩) La Lt (hD t' nt)
  exact ⟨a', t', ρ, _, _, na, nt, rfl, rfl, k1, k2⟩

/-- two pixels in a two-dimensional image, sun in the zenith, with the CO2 band and a table -/
noncomputable def exTableScene (lut : Lut (RF Double.fp)) : Scene (RF Double.fp) :=
  { shape := [2, 1], pixels := [⟨RF.of 0, RF.of 288, RF.of 282, RF.of 250⟩, ⟨RF.of 10, RF.of 285, RF.of 284, RF.of 250⟩]
    kz := .numpy, kn := .numpy, kt := .numpy, kc := .numpy, useCo2 := true, lut := some (some lut) }

example : ∃ lut : Lut (RF Double.fp), exAccNir.conv.makeTb2radLut 0 true = .ok lut ∧
    ∃ out s', ∃ ρ : ℝ, ∃ y, reflectance 0 (exTableScene lut) exAccNir = (.ok out, s') ∧
      out.values = ⟨[2, 1], [RF.of ρ, y]⟩ := by
  have hc : FpLoaded exAccNir.conv [10e-6, 11e-6, 12e-6] [0, 1, 0] := ⟨exFpConv_loaded.1, exFpConv_loaded.2, exFpConv_loaded.3⟩
  obtain ⟨lut, start, hl, -⟩ := lutFn_near Double.fp exAccNir.conv _ _ hc exFpBand 0 0.1 (by norm_num) rfl rfl
  refine ⟨lut, hl, ?_⟩
  obtain ⟨out, s', v, h1, h2, h3⟩ := C171_table_reflectance_accuracy Double.fp exAccNir 0 (exTableScene lut) _ _
    hc exFpBand (by simp [exAccNir]) (by simp [exTableScene]) (by simp [exTableScene]) 0.1 (by norm_num) rfl rfl lut hl rfl
    1e4 85 rfl (by norm_num) rfl (by norm_num)
  have rng : ∀ τ : ℝ, |τ - 288| ≤ 0.1 * (1 + 1e-9) ∨ |τ - 282| ≤ 0.1 * (1 + 1e-9) → 280 ≤ τ ∧ τ ≤ 290 := by
    intro τ h
    rcases h with h | h <;> have h := abs_le.1 h <;> norm_num at h <;> constructor <;> linarith [h.1, h.2]
  obtain ⟨a', t', ρ, L, T, -, -, -, -, e, -⟩ := h3 ⟨RF.of 0, RF.of 288, RF.of 282, RF.of 250⟩ (by simp [exTableScene])
    0 288 282 250 10 _ _ rfl rfl rfl
    (by norm_num) (by norm_num) (by norm_num) (by norm_num) (fun _ => ⟨rfl, by norm_num⟩)
    (fun l hl => ⟨88, (Option.some.inj hl).symm, by norm_num⟩) (by norm_num) rfl rfl
    (fun τ hτ => ⟨fun x hx => exAcc_x (rng τ hτ).1 (rng τ hτ).2 hx, exAcc_band (rng τ hτ).1 (rng τ hτ).2⟩)
    (by
      intro τ hτ
      have b2 := exAcc_band (rng τ (Or.inr hτ)).1 (rng τ (Or.inr hτ)).2
      have s1 : exactSun 1e4 85 0 = 1e4 / Real.pi := by
        unfold exactSun
        rw [max_self, min_eq_left (by norm_num), zero_mul, Real.cos_zero, mul_one]
      have s2 : (2500 : ℝ) ≤ 1e4 / Real.pi := by
        rw [le_div_iff₀ Real.pi_pos]; have := Real.pi_le_four; norm_num; linarith
      have s3 : exactCorr (exTableScene lut).useCo2 282 250 ≤ 1 := by
        rw [show (exTableScene lut).useCo2 = true from rfl]; unfold exactCorr; norm_num
      have s4 := mul_le_mul_of_nonneg_left s3 (le_trans (by norm_num) b2.1)
      rw [s1]
      have := b2.2
      norm_num at s2 s4 this ⊢
      linarith)
  exact ⟨out, s', ρ, v ⟨RF.of 10, RF.of 285, RF.of 284, RF.of 250⟩, h1, by rw [h2]; simp [exTableScene, e]⟩

end Verif.Props
