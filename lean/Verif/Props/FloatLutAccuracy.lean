import Verif.Props.FloatLut
/-
Property C165: how far the temperatures of the computed look-up table are from the requested ones.
-/
namespace Verif.Props
open XF Model PyNum Lemmas Spec

section
variable (F : FP)

/-- the index computed for a temperature is within one of the exact position in the table -/
theorem index_near {res s t y y₀ : ℝ} (hres : 0.02 ≤ res ∧ res ≤ 10) (hs : F.rnd (1 / res) = fin s)
    (ht : 150 ≤ t ∧ t ≤ 360) (hy : F.rnd (t * s) = fin y) (hy₀ : F.rnd (150 * s) = fin y₀) :
    |((⌊y⌋ - ⌊y₀⌋ : ℤ) : ℝ) - (t - 150) / res| ≤ 1 + 1e-10 := by
  have hres0 : 0 < res := lt_of_lt_of_le (by norm_num) hres.1
  have q1 : 0.1 ≤ 1 / res := by rw [le_div_iff₀ hres0]; have := hres.2; norm_num; linarith
  have q2 : 1 / res ≤ 50 := by rw [div_le_iff₀ hres0]; have := hres.1; norm_num at this ⊢; linarith
  have k := rnd_abs F (b := 50) (le_trans (by norm_num) q1) (Or.inr (le_trans (by norm_num) q1)) q2 (by norm_num) hs
  have k' := abs_le.1 k
  have s1 : 0.09 ≤ s := by norm_num at k' q1 ⊢; linarith [k'.1]
  have s2 : s ≤ 51 := by norm_num at k' q2 ⊢; linarith [k'.2]
  have s0 : 0 < s := lt_of_lt_of_le (by norm_num) s1
  have key : ∀ t y : ℝ, 150 ≤ t → t ≤ 360 → F.rnd (t * s) = fin y → |y - t / res| ≤ 2.5e-11 := by
    intro t y h1 h2 e
    have h3 : 13.5 ≤ t * s := le_trans (by norm_num) (mul_le_mul h1 s1 (by norm_num) (by linarith))
    have h4 : t * s ≤ 18360 := (mul_le_mul h2 s2 s0.le (by norm_num)).trans (by norm_num)
    have k2 := abs_le.1 (rnd_abs F (le_trans (by norm_num) h3) (Or.inr (le_trans (by norm_num) h3)) h4 (by norm_num) e)
    have k3 : |t * s - t / res| ≤ 360 * (50 / 2 ^ 52) := by
      rw [show t * s - t / res = t * (s - 1 / res) by ring, abs_mul, abs_of_nonneg (by linarith)]
      exact mul_le_mul h2 k (abs_nonneg _) (by norm_num)
    have k3' := abs_le.1 k3
    rw [abs_le]
    norm_num at k2 k3' ⊢
    constructor <;> linarith [k2.1, k2.2, k3'.1, k3'.2]
  have a := abs_le.1 (key t y ht.1 ht.2 hy)
  have b := abs_le.1 (key 150 y₀ le_rfl (by norm_num) hy₀)
  have f1 := Int.floor_le y
  have f2 := Int.lt_floor_add_one y
  have f3 := Int.floor_le y₀
  have f4 := Int.lt_floor_add_one y₀
  rw [sub_div, abs_le]
  push_cast
  norm_num at a b ⊢
  constructor <;> linarith [a.1, a.2, b.1, b.2]

/-- a position kept inside of the table -/
theorem clip_near {n : ℕ} {k : ℤ} {x : ℝ} (h : |(k : ℝ) - x| ≤ 1 + 1e-10) (h0 : 0 ≤ x) (hn : x - 1e-11 ≤ n + 1) :
    |((clipInt k 0 n : ℤ) : ℝ) - x| ≤ 1 + 1e-10 := by
  have h' := abs_le.1 h
  norm_num at hn
  unfold clipInt
  rcases lt_or_ge k 0 with hk | hk
  · rw [show min (max k 0) (n : ℤ) = 0 by omega]
    have : (k : ℝ) ≤ -1 := by exact_mod_cast (show k ≤ -1 by omega)
    rw [abs_le]
    norm_num at h' ⊢
    constructor <;> linarith [h'.1, h'.2]
  · rcases le_or_gt k n with hk' | hk'
    · rw [show min (max k 0) (n : ℤ) = k by omega]; exact h
    · rw [show min (max k 0) (n : ℤ) = n by omega]
      have : (n : ℝ) + 1 ≤ k := by exact_mod_cast (show (n : ℤ) + 1 ≤ k by omega)
      rw [abs_le]
      push_cast
      norm_num at h' ⊢
      constructor <;> linarith [h'.1, h'.2]

end

/-- C165: with a temperature step from 0.02 to 10 K, the radiance looked up for a temperature between
150 and 360 K is the radiance computed directly for some temperature that is at most one step (and one
part in 1e9 of it) away; so it lies between the radiances computed for these two limits. -/
theorem C165_table_within_a_step (F : FP) (c : RadTb (RF F)) (w r : List ℝ) (hc : FpLoaded c w r)
    (hb : FpBand c.wavespace w r) (nc : Int) (norm : Bool) (res : ℝ) (hres : 0.02 ≤ res ∧ res ≤ 10)
    (hr : c.tb_resolution = RF.of res) (hs : c.tb_scale = 1.0 / RF.of res) :
    ∃ lut : Lut (RF F), c.makeTb2radLut nc norm = .ok lut ∧
      ∀ ts : List ℝ, 2 ≤ ts.length → (∀ t ∈ ts, 150 ≤ t ∧ t ≤ 360) →
        ∃ (near : ℝ → ℝ) (out : RadResult (RF F)), (∀ t ∈ ts, |near t - t| ≤ res * (1 + 1e-9)) ∧
          c.tb2radiance nc (ts.map RF.of) (some lut) norm = .ok out ∧
          c.tb2radiance nc (ts.map fun t => RF.of (near t)) none norm = .ok out ∧
          ∃ (b : ℝ → RF F) (lo hi : RadResult (RF F)), out.radiance = .arr (ts.map b) ∧
            ∃ bl bh : ℝ → RF F,
            c.tb2radiance nc (ts.map fun t => RF.of (t - res * (1 + 1e-9))) none norm = .ok lo ∧
            lo.radiance = .arr (ts.map bl) ∧
            c.tb2radiance nc (ts.map fun t => RF.of (t + res * (1 + 1e-9))) none norm = .ok hi ∧
            hi.radiance = .arr (ts.map bh) ∧ ∀ t ∈ ts, RF.Le (bl t) (b t) ∧ RF.Le (b t) (bh t) := by
  have hres0 : 0 < res := lt_of_lt_of_le (by norm_num) hres.1
  obtain ⟨n, g, hg, g0, gm, gr, ga, gn⟩ := arange_acc F hres.1 hres.2
  have hne : c.wave ≠ [] := by rw [hc.wave]; simpa using gaps_ne hb.integral
  have hl : c.wave.length = c.response.length := by rw [hc.wave, hc.response]; simp [hb.len]
  set tb : List (RF F) := (List.range (n + 1)).map fun i => RF.of (g i) with htb
  set rad : List (RF F) := tb.map (bandVal c norm) with hrad
  have hlen : rad.length = n + 1 := by simp [hrad, htb]
  have hradne : rad ≠ [] := by intro h; rw [h] at hlen; simp at hlen
  have hmake : c.makeTb2radLut nc norm = .ok ⟨tb, rad⟩ := by
    unfold RadTb.makeTb2radLut
    rw [hr, hg]
    simp only [bind, Except.bind]
    rw [tb2radiance_val c hne hl nc tb (by simp [htb]) norm]
    rfl
  have hget : ∀ i, i ≤ n → ∀ hi : i < rad.length, rad[i] = bandVal c norm (RF.of (g i)) := by
    intro i hi hi'
    simp [hrad, htb]
  refine ⟨⟨tb, rad⟩, hmake, ?_⟩
  intro ts hts ht
  -- the scale
  have q1 : 0.1 ≤ 1 / res := by rw [le_div_iff₀ hres0]; have := hres.2; norm_num; linarith
  have q2 : 1 / res ≤ 50 := by rw [div_le_iff₀ hres0]; have := hres.1; norm_num at this ⊢; linarith
  obtain ⟨s, es, hs1, hs2⟩ := rnd_tenth F (x := 1 / res) (le_trans (by norm_num) q1) (q2.trans (by norm_num))
  have hsc : c.tb_scale = RF.of s := by
    rw [hs, one_lit]
    show F.rd (if res = 0 then _ else fin (1 / res)) = _
    rw [if_neg hres0.ne']; exact es
  norm_num at hs1 hs2 q1
  have s0 : 0 < s := by
    have : 0 < res⁻¹ := inv_pos.2 hres0
    linarith
  have s1 : s ≤ 55 := by rw [one_div] at q2; linarith
  -- scaled temperatures
  have val : ∀ t : ℝ, 0 ≤ t → t ≤ 500 → ∃ y, F.rnd (t * s) = fin y ∧ 0 ≤ y ∧ y ≤ 30250 := by
    intro t h0 h1
    obtain ⟨y, e, h2, h3⟩ := rnd_bound F (x := t * s) (b := 27500) (mul_nonneg h0 s0.le)
      (by have := mul_le_mul h1 s1 s0.le (by norm_num); norm_num at this; linarith) (by norm_num) (by norm_num)
    norm_num at h3
    exact ⟨y, e, h2, by linarith⟩
  choose! y hy hy0 hy1 using val
  have trf : ∀ t : ℝ, 0 ≤ t → t ≤ 500 → truncR (y t) = ⌊y t⌋ := by
    intro t h0 h1
    unfold truncR
    rw [if_pos (hy0 t h0 h1)]
  have tr : ∀ t : ℝ, 0 ≤ t → t ≤ 500 → 0 ≤ truncR (y t) ∧ truncR (y t) ≤ 30250 := by
    intro t h0 h1
    rw [trf t h0 h1]
    refine ⟨Int.floor_nonneg.2 (hy0 t h0 h1), ?_⟩
    have := (Int.floor_le (y t)).trans (hy1 t h0 h1)
    exact_mod_cast this
  set start := truncR (y 150) with hstart
  have hst := tr 150 (by norm_num) (by norm_num)
  have hmul : ∀ t : ℝ, 0 ≤ t → t ≤ 500 → (RF.of t : RF F) * c.tb_scale = RF.of (y t) := by
    intro t h0 h1
    rw [hsc]; exact hy t h0 h1
  -- the position
  set pos : ℝ → ℕ := fun t => (clipInt (truncR (y t) - start) 0 n).toNat with hpos
  have hposn : ∀ t, pos t ≤ n := by
    intro t; simp only [hpos]; unfold clipInt; omega
  have hbx : ∀ t, NP.pyIndex rad (clipInt (truncR (y t) - start) 0 ((rad.length : ℤ) - 1)) =
      .ok (bandVal c norm (RF.of (g (pos t)))) := by
    intro t
    obtain ⟨l1, e1⟩ := pyIndex_clip rad hradne (truncR (y t) - start)
    rw [e1]
    congr 1
    have e2 : (clipInt (truncR (y t) - start) 0 ((rad.length : ℤ) - 1)).toNat = pos t := by
      rw [hlen]; simp [hpos]
    rw [hget _ (by rw [e2]; exact hposn t)]
    rw [e2]
  have hnear : ∀ t ∈ ts, |g (pos t) - t| ≤ res * (1 + 1e-9) := by
    intro t htm
    obtain ⟨h1, h2⟩ := ht t htm
    have i1 := index_near F hres es ⟨h1, h2⟩ (hy t (by linarith) (by linarith)) (hy 150 (by norm_num) (by norm_num))
    rw [← trf t (by linarith) (by linarith), ← trf 150 (by norm_num) (by norm_num), ← hstart] at i1
    have x1 : (t - 150) / res - 1e-11 ≤ n + 1 := by
      have : (t - 150) / res ≤ 210 / res := by gcongr; linarith
      linarith
    have i2 := clip_near i1 (div_nonneg (by linarith) hres0.le) x1
    have e3 : ((clipInt (truncR (y t) - start) 0 n : ℤ) : ℝ) = pos t := by
      have : (clipInt (truncR (y t) - start) 0 n : ℤ) = (pos t : ℤ) := by
        simp only [hpos]; unfold clipInt; omega
      rw [this]; norm_cast
    rw [e3] at i2
    have i3 : |pos t * res - (t - 150)| ≤ (1 + 1e-10) * res := by
      have : pos t * res - (t - 150) = (pos t - (t - 150) / res) * res := by
        rw [sub_mul, div_mul_cancel₀ _ hres0.ne']
      rw [this, abs_mul, abs_of_pos hres0]
      exact mul_le_mul_of_nonneg_right i2 hres0.le
    have i4 := abs_le.1 (ga (pos t) (hposn t))
    have i5 := abs_le.1 i3
    have := hres.1
    rw [abs_le]
    norm_num at this i4 i5 ⊢
    constructor <;> linarith [i4.1, i4.2, i5.1, i5.2]
  have hlook : lutRadiance nc c.tb_scale ⟨tb, rad⟩ (ts.map RF.of) =
      .ok (.arr (ts.map fun t => bandVal c norm (RF.of (g (pos t))))) := by
    have e0 : NP.pyIndex tb 0 = .ok (RF.of 150 : RF F) := by
      rw [htb, List.range_succ_eq_map]
      simp [NP.pyIndex, g0]
    have e1 : pyInt ((RF.of 150 : RF F) * c.tb_scale) = .ok start := by
      rw [hmul 150 (by norm_num) (by norm_num)]; rfl
    have e2 : ((((ts.map RF.of).map fun t : RF F => NP.castInt16 nc (t * c.tb_scale)).map fun k =>
        clipInt (NP.wrap16 (k - start)) 0 ((rad.length : Int) - 1)).mapM fun i => NP.pyIndex rad i) =
        .ok (ts.map fun t => bandVal c norm (RF.of (g (pos t)))) := by
      rw [List.map_map, List.map_map, List.mapM_map]
      refine mapM_ok _ _ _ ?_
      intro t htm
      obtain ⟨h0, h1⟩ := ht t htm
      have h0' : 0 ≤ t := by linarith
      have h1' : t ≤ 500 := by linarith
      have h2 := tr t h0' h1'
      simp only [Function.comp]
      rw [hmul t h0' h1']
      have : NP.castInt16 nc (RF.of (y t) : RF F) = truncR (y t) := by
        show NP.wrap16 (truncR (y t)) = _
        exact wrap16_id (by omega) (by omega)
      rw [this, wrap16_id (by omega) (by omega)]
      exact hbx t
    unfold lutRadiance
    simp only [bind, Except.bind, e0, e1]
    rw [if_neg (by omega)]
    rw [e2]
    have h2 : 2 ≤ (ts.map fun t => bandVal c norm (RF.of (g (pos t)))).length := by simpa using hts
    generalize (ts.map fun t => bandVal c norm (RF.of (g (pos t)))) = l at h2
    rcases l with _ | ⟨a, _ | ⟨a', l⟩⟩
    · simp at h2
    · simp at h2
    · rfl
  have hts0 : ts ≠ [] := by rintro rfl; simp at hts
  have direct : ∀ f : ℝ → ℝ, c.tb2radiance nc (ts.map fun t => RF.of (f t)) none norm =
      .ok ⟨.arr (ts.map fun t => bandVal c norm (RF.of (f t))), radianceUnit c.wavespace norm, 1.0⟩ := by
    intro f
    rw [tb2radiance_val c hne hl nc _ (by simpa using hts0) norm, List.map_map]
    rfl
  refine ⟨fun t => g (pos t), _, hnear, ?_, direct _, _, _, _, rfl, _, _, direct _, rfl, direct _, rfl, ?_⟩
  · unfold RadTb.tb2radiance
    simp only [bind, Except.bind, hlook]
    rfl
  · intro t htm
    have hn := abs_le.1 (hnear t htm)
    obtain ⟨h1, h2⟩ := ht t htm
    have h3 := hres.2
    have hgr := gr (pos t) (hposn t)
    have r1 : res * (1 + 1e-9) ≤ 11 := by norm_num; linarith
    exact ⟨(bandVal_mono F hc hb norm (by norm_num; linarith) (by linarith [hn.1]) (by norm_num; linarith [hgr.2])).2,
      (bandVal_mono F hc hb norm (by norm_num; linarith [hgr.1]) (by linarith [hn.2]) (by norm_num; linarith)).2⟩

example : ∃ lut : Lut (RF Double.fp), exFpConv.makeTb2radLut 0 true = .ok lut ∧
    ∃ near : ℝ → ℝ, |near 250.05 - 250.05| ≤ 0.1 * (1 + 1e-9) ∧
      exFpConv.tb2radiance 0 [RF.of 250.05, RF.of 300] (some lut) true =
        exFpConv.tb2radiance 0 [RF.of (near 250.05), RF.of (near 300)] none true := by
  obtain ⟨lut, h, h2⟩ := C165_table_within_a_step Double.fp exFpConv _ _ exFpConv_loaded exFpBand 0 true 0.1 (by norm_num) rfl rfl
  obtain ⟨near, out, h3, h4, h5, _⟩ := h2 [250.05, 300] (by simp) (by
    intro t ht; simp at ht; rcases ht with rfl | rfl <;> norm_num)
  exact ⟨lut, h, near, h3 _ (by simp), h4.trans h5.symm⟩

end Verif.Props
