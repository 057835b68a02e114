import Verif.Props.FloatLut
import Verif.Props.NirRetrieval
/-
Property C123: the 3.x micron reflectance as it is computed in floating point.
-/
namespace Verif.Props
open XF Model PyNum Lemmas Spec

section
variable (F : FP)

/-- the table made by a converter, and looking up in it -/
theorem table_fp (c : RadTb (RF F)) (w r : List ℝ) (hc : FpLoaded c w r)
    (hb : FpBand c.wavespace w r) (nc : Int) (res : ℝ) (hres : 0.02 ≤ res ∧ res ≤ 10)
    (hr : c.tb_resolution = RF.of res) (hs : c.tb_scale = 1.0 / RF.of res) :
    ∃ (lut : Lut (RF F)) (start : Int), c.makeTb2radLut nc true = .ok lut ∧ GoodLut c.tb_scale lut start ∧
      (∀ x ∈ lut.radiance, ∃ v : ℝ, x = RF.of v ∧ 0 ≤ v ∧ v ≤ 1e34) ∧
      ∀ t₁ t₂ : ℝ, 0 ≤ t₁ → t₁ ≤ t₂ → t₂ ≤ 500 →
        RF.Le (lutFn nc c.tb_scale start lut.radiance (RF.of t₁)) (lutFn nc c.tb_scale start lut.radiance (RF.of t₂)) := by
  have hres0 : 0 < res := lt_of_lt_of_le (by norm_num) hres.1
  obtain ⟨n, g, hg, g0, gm, gr⟩ := arange_fp F hres.1 hres.2
  have hne : c.wave ≠ [] := by rw [hc.wave]; simpa using gaps_ne hb.integral
  have hl : c.wave.length = c.response.length := by rw [hc.wave, hc.response]; simp [hb.len]
  set tb : List (RF F) := (List.range (n + 1)).map fun i => RF.of (g i) with htb
  set rad : List (RF F) := tb.map (bandVal c true) with hrad
  have hlen : rad.length = n + 1 := by simp [hrad, htb]
  have hradne : rad ≠ [] := by intro h; rw [h] at hlen; simp at hlen
  have hmake : c.makeTb2radLut nc true = .ok ⟨tb, rad⟩ := by
    unfold RadTb.makeTb2radLut
    rw [hr, hg]
    simp only [bind, Except.bind]
    rw [tb2radiance_val c hne hl nc tb (by simp [htb]) true]
    rfl
  have hget : ∀ i, i ≤ n → ∀ hi : i < rad.length, rad[i] = bandVal c true (RF.of (g i)) := by
    intro i hi hi'
    simp [hrad, htb]
  have hmono : ∀ i j, i ≤ j → ∀ (hj : j < rad.length) (hi : i < rad.length), RF.Le rad[i] rad[j] := by
    intro i j hij hj hi
    rw [hget i (by omega) hi, hget j (by omega) hj]
    have h1 := gr i (by omega)
    have h2 := gr j (by omega)
    exact (bandVal_mono F hc hb true (le_trans (by norm_num) h1.1) (gm i j hij (by omega))
      (h2.2.trans (by norm_num))).2
  -- the scale
  have q1 : 0.1 ≤ 1 / res := by rw [le_div_iff₀ hres0]; have := hres.2; norm_num; linarith
  have q2 : 1 / res ≤ 50 := by rw [div_le_iff₀ hres0]; have := hres.1; norm_num at this ⊢; linarith
  obtain ⟨s, es, hs1, hs2⟩ := rnd_tenth F (x := 1 / res) (le_trans (by norm_num) q1) (q2.trans (by norm_num))
  have hsc : c.tb_scale = RF.of s := by
    rw [hs, one_lit]
    show F.rd (if res = 0 then _ else fin (1 / res)) = _
    rw [if_neg hres0.ne']; exact es
  norm_num at hs1 hs2 q1
  have s0 : 0 < s := by
    have : 0 < res⁻¹ := inv_pos.2 hres0
    linarith
  have s1 : s ≤ 55 := by rw [one_div] at q2; linarith
  have val : ∀ t : ℝ, 0 ≤ t → t ≤ 500 → ∃ y, F.rnd (t * s) = fin y ∧ 0 ≤ y ∧ y ≤ 30250 := by
    intro t h0 h1
    obtain ⟨y, e, h2, h3⟩ := rnd_bound F (x := t * s) (b := 27500) (mul_nonneg h0 s0.le)
      (by have := mul_le_mul h1 s1 s0.le (by norm_num); norm_num at this; linarith) (by norm_num) (by norm_num)
    norm_num at h3
    exact ⟨y, e, h2, by linarith⟩
  choose! y hy hy0 hy1 using val
  have tr : ∀ t : ℝ, 0 ≤ t → t ≤ 500 → 0 ≤ truncR (y t) ∧ truncR (y t) ≤ 30250 := by
    intro t h0 h1
    unfold truncR
    rw [if_pos (hy0 t h0 h1)]
    refine ⟨Int.floor_nonneg.2 (hy0 t h0 h1), ?_⟩
    have := (Int.floor_le (y t)).trans (hy1 t h0 h1)
    exact_mod_cast this
  have hmul : ∀ t : ℝ, 0 ≤ t → t ≤ 500 → (RF.of t : RF F) * c.tb_scale = RF.of (y t) := by
    intro t h0 h1
    rw [hsc]; exact hy t h0 h1
  have hst := tr 150 (by norm_num) (by norm_num)
  refine ⟨⟨tb, rad⟩, truncR (y 150), hmake, ⟨hradne, ⟨RF.of 150, (List.range n).map fun i => RF.of (g (i + 1)), ?_, ?_⟩,
    by omega, by omega⟩, ?_, ?_⟩
  · rw [htb, List.range_succ_eq_map]; simp [g0, Function.comp_def]
  · rw [hmul 150 (by norm_num) (by norm_num)]; rfl
  · intro x hx
    obtain ⟨i, hi, rfl⟩ := List.getElem_of_mem hx
    have hi' : i < rad.length := hi
    have h1 := gr i (by omega)
    obtain ⟨v, ev, h⟩ := bandVal_finite F hc hb (t := g i) (le_trans (by norm_num) h1.1) (h1.2.trans (by norm_num))
    exact ⟨v, (hget i (by omega) hi').trans ev, h⟩
  · intro t₁ t₂ h0 h h2
    have c1 : ∀ t : ℝ, 0 ≤ t → t ≤ 500 → NP.wrap16 (NP.castInt16 nc ((RF.of t : RF F) * c.tb_scale) - truncR (y 150)) =
        truncR (y t) - truncR (y 150) := by
      intro t h0 h1
      have h2 := tr t h0 h1
      rw [hmul t h0 h1]
      have : NP.castInt16 nc (RF.of (y t) : RF F) = truncR (y t) := by
        show NP.wrap16 (truncR (y t)) = _
        exact wrap16_id (by omega) (by omega)
      rw [this, wrap16_id (by omega) (by omega)]
    have hle : truncR (y t₁) ≤ truncR (y t₂) := truncR_mono
      (rnd_le F (hy t₁ h0 (h.trans h2)) (hy t₂ (h0.trans h) h2) (mul_le_mul_of_nonneg_right h s0.le))
    unfold lutFn
    rw [c1 t₁ h0 (h.trans h2), c1 t₂ (h0.trans h) h2]
    dsimp only
    obtain ⟨l1, _⟩ := pyIndex_clip rad hradne (truncR (y t₁) - truncR (y 150))
    obtain ⟨l2, _⟩ := pyIndex_clip rad hradne (truncR (y t₂) - truncR (y 150))
    rw [List.getElem?_eq_getElem l1, List.getElem?_eq_getElem l2]
    refine hmono _ _ ?_ l2 l1
    unfold clipInt; omega

/-- the integral of the response is in range -/
theorem integral_le {c : RadTb (RF F)} {w r : List ℝ} {ws : String} (hc : FpLoaded c w r) (hb : FpBand ws w r) :
    ∃ i : ℝ, c.rsr_integral = RF.of i ∧ 0 < i ∧ i ≤ 1e70 := by
  have hu := uu_small
  have hu0 := uu_pos
  norm_num at hu
  have hI := integral_pos F hc hb
  have := trapVal_near F (δ := 0) le_rfl (by norm_num) hb.gaps (ys := r.map RF.of) (vs := r) (by
    rw [List.forall₂_map_left_iff, List.forall₂_same]
    intro y hy
    rcases hb.resp y hy with h | h
    · exact ⟨Or.inl h, Or.inl ⟨h, by rw [h]; rfl⟩⟩
    · exact ⟨Or.inr ⟨le_trans (by norm_num) h.1, h.2.trans (by norm_num)⟩,
        Or.inr (near_refl (lt_of_lt_of_le (by norm_num) h.1))⟩) hb.size
  have ht := (this.2.resolve_left hb.integral.ne').2
  have hl : (w.length : ℝ) ≤ 2 ^ 20 := by exact_mod_cast hb.size
  have hlu : (w.length : ℝ) * uu ≤ 1e-8 := by
    have := mul_le_mul hl hu hu0.le (by norm_num)
    refine this.trans ?_; norm_num
  norm_num at hlu
  obtain ⟨i, ei, pi⟩ := hI.pos
  obtain ⟨_, y, ey, _, hy⟩ := hI.mono (show _ ≤ (1 : ℝ) by nlinarith)
  rw [ei] at ey
  cases ey
  refine ⟨i, ei, pi, hy.trans ?_⟩
  have := mul_le_mul ht (exp_le_three (δ := 1) le_rfl) (Real.exp_pos _).le (by norm_num)
  refine this.trans ?_; norm_num

/-- dividing by a positive number -/
theorem div_mono_any {d : ℝ} (hd : 0 < d) {a b : XF} (h : Lx a b) : Lx (XF.div a (fin d)) (XF.div b (fin d)) := by
  have h0 := not_lt.2 hd.le
  have e1 : XF.div pinf (fin d) = pinf := if_neg h0
  have e2 : XF.div ninf (fin d) = ninf := if_neg h0
  have e3 : ∀ x, XF.div (fin x) (fin d) = fin (x / d) := fun x => if_neg hd.ne'
  cases a with
  | nan => exact absurd rfl h.ne_nan_left
  | ninf =>
    cases b with
    | nan => exact absurd rfl h.ne_nan_right
    | ninf => rw [e2]; simp [Lx, leb]
    | pinf => rw [e1, e2]; simp [Lx, leb]
    | fin y => rw [e2, e3]; simp [Lx, leb]
  | pinf =>
    cases b with
    | nan => exact absurd rfl h.ne_nan_right
    | ninf => simp [Lx, leb] at h
    | pinf => rw [e1]; simp [Lx, leb]
    | fin y => simp [Lx, leb] at h
  | fin x =>
    cases b with
    | nan => exact absurd rfl h.ne_nan_right
    | ninf => simp [Lx, leb] at h
    | pinf => rw [e1, e3]; simp [Lx, leb]
    | fin y => rw [e3, e3]; exact lx_fin.2 (div_le_div_of_nonneg_right (lx_fin.1 h) hd.le)

/-- the arithmetic of one pixel: same sunlight `S` and thermal part `X`, radiances `a ≤ b` -/
theorem ratio_mono {S X : XF} {a b e : ℝ} (h : a ≤ b) (hb : F.rnd b = fin b) (he : 0 < e)
    (hX : X = XF.nan ∨ Lx (fin 0) X) (hd : ltb (F.rd (XF.sub S X)) (fin e) = false)
    (hr : F.rd (XF.div (F.rd (XF.sub (fin a) X)) (F.rd (XF.sub S X))) ≠ XF.nan) :
    Lx (F.rd (XF.div (F.rd (XF.sub (fin a) X)) (F.rd (XF.sub S X))))
      (F.rd (XF.div (F.rd (XF.sub (fin b) X)) (F.rd (XF.sub S X)))) := by
  have nanv : F.rd XF.nan = XF.nan := rfl
  have divnan : ∀ y : XF, XF.div y XF.nan = XF.nan := by intro y; cases y <;> rfl
  rcases hX with rfl | hX
  · exact absurd rfl hr
  rcases nonneg_cases hX with rfl | ⟨x, rfl, hx⟩
  · exfalso
    cases S with
    | nan => rw [show XF.sub XF.nan pinf = XF.nan from rfl, nanv, divnan] at hr; exact hr rfl
    | pinf => rw [show XF.sub pinf pinf = XF.nan from rfl, nanv, divnan] at hr; exact hr rfl
    | ninf => simp [XF.sub, XF.add, XF.neg, FP.rd, ltb] at hd
    | fin s => simp [XF.sub, XF.add, XF.neg, FP.rd, ltb] at hd
  · have hn : Lx (F.rd (XF.sub (fin a) (fin x))) (F.rd (XF.sub (fin b) (fin x))) :=
      rd_mono F (sub_mono x (lx_fin.2 h))
    have hn2 : Lx (F.rd (XF.sub (fin b) (fin x))) (fin b) := by
      have := rd_mono F (a := XF.sub (fin b) (fin x)) (b := fin b) (lx_fin.2 (by linarith))
      rwa [show F.rd (fin b) = fin b from hb] at this
    generalize F.rd (XF.sub (fin a) (fin x)) = A at *
    generalize F.rd (XF.sub (fin b) (fin x)) = B at *
    generalize F.rd (XF.sub S (fin x)) = D at *
    cases D with
    | nan => rw [divnan] at hr; exact absurd rfl hr
    | ninf => simp [ltb] at hd
    | fin d =>
      simp [ltb] at hd
      exact rd_mono F (div_mono_any (lt_of_lt_of_le he hd) hn)
    | pinf =>
      cases A with
      | nan => exact absurd rfl hr
      | pinf => exact absurd rfl hr
      | ninf => exact absurd rfl hr
      | fin y =>
        obtain ⟨z, rfl, _⟩ := fin_of_le hn hn2
        exact lx_refl hr

theorem nn_rd {a : XF} (h : a = XF.nan ∨ Lx (fin 0) a) : F.rd a = XF.nan ∨ Lx (fin 0) (F.rd a) := by
  rcases h with rfl | h
  · exact Or.inl rfl
  · exact Or.inr (rd_nonneg F h)

omit F in
theorem nn_mul {a b : XF} (ha : a = XF.nan ∨ Lx (fin 0) a) (hb : b = XF.nan ∨ Lx (fin 0) b) :
    XF.mul a b = XF.nan ∨ Lx (fin 0) (XF.mul a b) := by
  have sgn : ∀ x : ℝ, 0 ≤ x → signInf x = XF.nan ∨ Lx (fin 0) (signInf x) := by
    intro x hx
    rcases hx.eq_or_lt with rfl | h
    · left; simp [signInf]
    · right; simp [signInf, h, Lx, leb]
  rcases ha with rfl | ha
  · exact Or.inl rfl
  rcases hb with rfl | hb
  · left; cases a <;> rfl
  rcases nonneg_cases ha with rfl | ⟨x, rfl, hx⟩ <;> rcases nonneg_cases hb with rfl | ⟨y, rfl, hy⟩
  · right; simp [XF.mul, Lx, leb]
  · exact sgn y hy
  · exact sgn x hx
  · exact Or.inr (lx_fin.2 (mul_nonneg hx hy))

omit F in
theorem nn_div {a b : XF} (ha : a = XF.nan ∨ Lx (fin 0) a) (hb : b = XF.nan ∨ Lx (fin 0) b) :
    XF.div a b = XF.nan ∨ Lx (fin 0) (XF.div a b) := by
  rcases ha with rfl | ha
  · exact Or.inl rfl
  rcases hb with rfl | hb
  · left; cases a <;> rfl
  rcases nonneg_cases ha with rfl | ⟨x, rfl, hx⟩ <;> rcases nonneg_cases hb with rfl | ⟨y, rfl, hy⟩
  · left; rfl
  · right
    show Lx _ (if y < 0 then _ else _)
    rw [if_neg (not_lt.2 hy)]; simp [Lx, leb]
  · right; exact lx_fin.2 le_rfl
  · show (if y = 0 then signInf x else fin (x / y)) = _ ∨ Lx _ (if y = 0 then signInf x else fin (x / y))
    split
    · rcases hx.eq_or_lt with rfl | h
      · left; simp [signInf]
      · right; simp [signInf, h, Lx, leb]
    · exact Or.inr (lx_fin.2 (div_nonneg hx hy))

/-- the thermal part is not negative -/
theorem therm_nonneg {I : RF F} {R : RF F → RF F} {useCo2 : Bool} {p : Pixel (RF F)} {i v : ℝ} (hI : I = RF.of i)
    (hi : 0 < i) (ht : R p.therm = RF.of v) (hv : 0 ≤ v) :
    pxTherm (α := RF F) I R useCo2 p = XF.nan ∨ Lx (fin 0) (pxTherm (α := RF F) I R useCo2 p) := by
  have h1 : Lx (fin 0) (F.rd (XF.mul (R p.therm) I)) := by
    rw [ht, hI]
    exact rd_nonneg F (lx_fin.2 (mul_nonneg hv hi.le))
  have h2 : pxCorr (α := RF F) useCo2 p = XF.nan ∨ Lx (fin 0) (pxCorr (α := RF F) useCo2 p) := by
    unfold pxCorr
    split
    · have hp : ∀ x : XF, F.powNat x 4 = XF.nan ∨ Lx (fin 0) (F.powNat x 4) := by
        intro x
        by_cases hx : x = XF.nan
        · exact Or.inl (by rw [hx]; exact F.powNat_nan 3)
        · exact Or.inr (F.powNat_even x 2 hx)
      exact nn_rd F (nn_div (hp _) (hp _))
    · right
      rw [one_lit]
      exact lx_fin.2 zero_le_one
  exact nn_rd F (nn_mul (Or.inr h1) h2)

/-- the value of a pixel with a higher radiance -/
theorem px_mono {I flux thr : RF F} {lim : Option (RF F)} {R : RF F → RF F} {useCo2 : Bool} {p q : Pixel (RF F)}
    {i a b v : ℝ} (hI : I = RF.of i) (hi : 0 < i) (hi2 : i ≤ 1e70) (hz : p.zenith = q.zenith) (ht : p.therm = q.therm)
    (hu : p.co2 = q.co2) (hp : R p.nir = RF.of a) (hq : R q.nir = RF.of b) (hn : isNaN q.nir = false)
    (h0 : 0 ≤ a) (h : a ≤ b) (h2 : b ≤ 1e34) (hv : R p.therm = RF.of v) (hv0 : 0 ≤ v)
    (hr : pxValue I flux thr lim R useCo2 p ≠ XF.nan) :
    RF.Le (pxValue I flux thr lim R useCo2 p) (pxValue I flux thr lim R useCo2 q) := by
  have hth : pxTherm I R useCo2 p = pxTherm I R useCo2 q := by unfold pxTherm pxCorr; rw [ht, hu]
  have hd : pxDenom I flux thr R useCo2 p = pxDenom I flux thr R useCo2 q := by unfold pxDenom; rw [hth, hz]
  have hze : pxZenith lim p = pxZenith lim q := by unfold pxZenith; rw [hz]
  have hX := therm_nonneg F (useCo2 := useCo2) hI hi hv hv0
  have prod : ∀ x : ℝ, 0 ≤ x → x ≤ 1e34 → ∃ y, (RF.of x : RF F) * I = RF.of y := by
    intro x hx hx2
    rw [hI]
    obtain ⟨y, e, _⟩ := rnd_bound F (x := x * i) (b := 1e104) (mul_nonneg hx hi.le)
      (by have := mul_le_mul hx2 hi2 hi.le (by norm_num); exact this.trans (by norm_num)) (by norm_num) (by norm_num)
    exact ⟨y, e⟩
  obtain ⟨y, ey⟩ := prod a h0 (h.trans h2)
  obtain ⟨z, ez⟩ := prod b (h0.trans h) h2
  have ey' : F.rnd (a * i) = fin y := by rw [hI] at ey; exact ey
  have ez' : F.rnd (b * i) = fin z := by rw [hI] at ez; exact ez
  have hyz : y ≤ z := rnd_le F ey' ez' (mul_le_mul_of_nonneg_right h hi.le)
  obtain ⟨e, he, he0⟩ := (near_rnd F (x := 0.005) (by norm_num) (by norm_num)).pos
  have hdd : pxDenom I flux thr R useCo2 p =
      F.rd (XF.sub (solarRadiancePoint (α := RF F) flux thr p.zenith) (pxTherm (α := RF F) I R useCo2 p)) := rfl
  unfold pxValue at hr ⊢
  rw [← hth, ← hd, ← hze, hn, hp, hq, ez, ey]
  rw [hp, ey] at hr
  split at hr
  · exact absurd rfl hr
  rename_i hm
  rw [if_neg hm]
  simp only [Bool.or_eq_true, not_or, Bool.not_eq_true] at hm
  rw [if_neg (by rw [hm.1.1, hm.1.2]; simp)]
  have hlt : ltb (pxDenom (α := RF F) I flux thr R useCo2 p) (fin e) = false := by
    rw [← he]; exact hm.1.1
  rw [hdd] at hlt hr ⊢
  exact ratio_mono F hyz (F.rnd_idem _ _ ez') he0 hX hlt hr
end

/-! ### C123 -/

/-- C123: without a look-up table, a pixel with a higher 3.x micron temperature than another pixel of
the same zenith angle, thermal and CO2 temperature never gets a lower computed reflectance; and if
the colder pixel is not masked the warmer is not. -/
theorem C123_reflectance_never_decreases (F : FP) (s : Nir (RF F)) (nc : Int) (sc : Scene (RF F)) (w r : List ℝ)
    (hc : FpLoaded s.conv w r) (hb : FpBand s.conv.wavespace w r) (hrsr : s.conv.rsr ≠ [])
    (hpx : sc.pixels ≠ []) (hl : sc.lut.getD s.lut = none) (hsh : sc.shape = [sc.pixels.length]) :
    ∃ (out : NirOut (RF F)) (s' : Nir (RF F)) (v : Pixel (RF F) → RF F), reflectance nc sc s = (.ok out, s') ∧
      out.values = ⟨sc.shape, sc.pixels.map v⟩ ∧
      ∀ p ∈ sc.pixels, ∀ q ∈ sc.pixels, ∀ a b t : ℝ, p.nir = RF.of a → q.nir = RF.of b → 2e-6 ≤ a → a ≤ b → b ≤ 1e5 →
        p.zenith = q.zenith → p.therm = RF.of t → 2e-6 ≤ t → t ≤ 1e5 → q.therm = p.therm → q.co2 = p.co2 →
        v p ≠ XF.nan → RF.Le (v p) (v q) := by
  have hne : s.conv.wave ≠ [] := by rw [hc.wave]; simpa using gaps_ne hb.integral
  have hlen : s.conv.wave.length = s.conv.response.length := by rw [hc.wave, hc.response]; simp [hb.len]
  obtain ⟨i, ei, hi, hi2⟩ := integral_le F hc hb
  obtain ⟨out, h1, h2⟩ := reflectance_run s nc sc (bandVal s.conv true)
    { rsr := hrsr
      pixels := hpx
      shape := by rw [hsh]; simp
      converts := by
        rw [hl]
        intro ts hts
        exact ⟨_, tb2radiance_val s.conv hne hlen nc ts hts true, rfl⟩
      flat := Or.inr hsh }
  refine ⟨out, _, _, h1, h2, ?_⟩
  intro p _ q _ a b t hp hq ha hab hb2 hz ht ht1 ht2 hth hco hr
  obtain ⟨va, eva, va0, _⟩ := bandVal_finite F hc hb ha (hab.trans hb2)
  obtain ⟨vb, evb, _, vb1⟩ := bandVal_finite F hc hb (ha.trans hab) hb2
  obtain ⟨vt, evt, vt0, _⟩ := bandVal_finite F hc hb ht1 ht2
  have hm := (bandVal_mono F hc hb true ha hab hb2).2
  rw [eva, evb] at hm
  exact px_mono F ei hi hi2 hz hth.symm hco.symm (by rw [hp]; exact eva) (by rw [hq]; exact evb)
    (by rw [hq]; rfl) va0 (lx_fin.1 hm) vb1 (by rw [ht]; exact evt) vt0 hr

/-- C123: the same with the look-up table of the object's own converter, for temperatures up to
500 K and any thermal temperature. -/
theorem C123_reflectance_never_decreases_with_table (F : FP) (s : Nir (RF F)) (nc : Int) (sc : Scene (RF F))
    (w r : List ℝ) (hc : FpLoaded s.conv w r) (hb : FpBand s.conv.wavespace w r) (hrsr : s.conv.rsr ≠ [])
    (hpx : sc.pixels ≠ []) (hsh : sc.shape ≠ []) (res : ℝ) (hres : 0.02 ≤ res ∧ res ≤ 10)
    (hr : s.conv.tb_resolution = RF.of res) (hs : s.conv.tb_scale = 1.0 / RF.of res) (lut : Lut (RF F))
    (hlut : s.conv.makeTb2radLut nc true = .ok lut) (hl : sc.lut.getD s.lut = some lut) :
    ∃ (out : NirOut (RF F)) (s' : Nir (RF F)) (v : Pixel (RF F) → RF F), reflectance nc sc s = (.ok out, s') ∧
      out.values = ⟨sc.shape, sc.pixels.map v⟩ ∧
      ∀ p ∈ sc.pixels, ∀ q ∈ sc.pixels, ∀ a b : ℝ, p.nir = RF.of a → q.nir = RF.of b → 0 ≤ a → a ≤ b → b ≤ 500 →
        p.zenith = q.zenith → q.therm = p.therm → q.co2 = p.co2 →
        v p ≠ XF.nan → RF.Le (v p) (v q) := by
  obtain ⟨lut', start, e, hg, hfin, hmono⟩ := table_fp F s.conv w r hc hb nc res hres hr hs
  rw [hlut] at e
  cases e
  obtain ⟨i, ei, hi, hi2⟩ := integral_le F hc hb
  obtain ⟨out, h1, h2⟩ := reflectance_run s nc sc (lutFn nc s.conv.tb_scale start lut.radiance)
    { rsr := hrsr
      pixels := hpx
      shape := hsh
      converts := by rw [hl]; exact converts_lut s.conv nc lut start hg
      flat := Or.inl (by rw [hl]; rfl) }
  refine ⟨out, _, _, h1, h2, ?_⟩
  intro p _ q _ a b hp hq ha hab hb2 hz hth hco hr
  have hv : ∀ t, ∃ v : ℝ, lutFn nc s.conv.tb_scale start lut.radiance t = RF.of v ∧ 0 ≤ v ∧ v ≤ 1e34 :=
    fun t => hfin _ (lutFn_mem nc s.conv.tb_scale start lut.radiance hg.rad t)
  obtain ⟨va, eva, va0, _⟩ := hv (RF.of a)
  obtain ⟨vb, evb, _, vb1⟩ := hv (RF.of b)
  obtain ⟨vt, evt, vt0, _⟩ := hv p.therm
  have hm := hmono a b ha hab hb2
  rw [eva, evb] at hm
  exact px_mono F ei hi hi2 hz hth.symm hco.symm (by rw [hp]; exact eva) (by rw [hq]; exact evb)
    (by rw [hq]; rfl) va0 (lx_fin.1 hm) vb1 evt vt0 hr

/-- an object with the converter of C118's example and a strong sun -/
noncomputable def exFpNir (lut : Option (Lut (RF Double.fp))) : Nir (RF Double.fp) :=
  { conv := { exFpConv with rsr := [("ch4", [])] }, bandname := "ch4", bandwavelength := RF.of 3.9, lutfile := "", lut := lut
    masking_limit := some (RF.of 88), solar_flux := RF.of 1e150, sunz_threshold := RF.of 85
    e3x := none, r3x := none, rad3x := none, rad3x_t11 := none, rad3x_correction := Arr.scalar 1.0, solar_radiance := none }

/-- two pixels, sun in the zenith -/
noncomputable def exFpScene : Scene (RF Double.fp) :=
  { shape := [2], pixels := [⟨RF.of 0, RF.of 290, RF.of 280, RF.of 250⟩, ⟨RF.of 0, RF.of 300, RF.of 280, RF.of 250⟩]
    kz := .numpy, kn := .numpy, kt := .numpy, kc := .numpy, useCo2 := false, lut := none }

/-- the sunlight of the example -/
theorem exFp_sun : ∃ S : ℝ, solarRadiancePoint (α := RF Double.fp) (RF.of 1e150) (RF.of 85) (RF.of 0) = RF.of S ∧
    1e149 ≤ S := by
  have hu := uu_small
  have hu0 := uu_pos
  norm_num at hu
  have hpi := Real.two_le_pi
  have hpi' := Real.pi_le_four
  have np : Near uu (PyNum.pi : RF Double.fp) Real.pi :=
    near_rnd Double.fp (le_trans (by norm_num) hpi) (hpi'.trans (by norm_num))
  have n180 : Near uu (PyNum.ofInt 180 : RF Double.fp) 180 := by
    have := near_rnd Double.fp (x := ((180 : ℤ) : ℝ)) (by norm_num) (by norm_num)
    rwa [Int.cast_ofNat] at this
  obtain ⟨k, ek, _⟩ := (near_div Double.fp np n180 (by linarith)
    (by rw [le_div_iff₀ (by norm_num)]; refine le_trans ?_ hpi; norm_num)
    (by rw [div_le_iff₀ (by norm_num)]; refine hpi'.trans ?_; norm_num)).pos
  have hclip : clip (α := RF Double.fp) (RF.of 0) 0 (RF.of 85) = RF.of 0 := by
    have e0 : (0 : RF Double.fp) = RF.of 0 := by
      show Double.fp.rnd ((0 : ℤ) : ℝ) = _
      rw [Int.cast_zero]; exact rnd_zero _
    rw [e0]
    unfold clip maximum minimum
    have i0 : ∀ x : ℝ, isNaN (RF.of x : RF Double.fp) = false := fun _ => rfl
    have l0 : lt (RF.of 0 : RF Double.fp) (RF.of 0) = false := decide_eq_false (lt_irrefl _)
    have l1 : lt (RF.of 85 : RF Double.fp) (RF.of 0) = false := decide_eq_false (by norm_num)
    simp only [i0, l0, l1, Bool.false_eq_true, if_false]
  have hdeg : deg2rad (RF.of 0 : RF Double.fp) = RF.of 0 := by
    show Double.fp.rd (XF.mul (fin 0) (Double.fp.rd (XF.div (PyNum.pi : RF Double.fp) (PyNum.ofInt 180 : RF Double.fp)))) = _
    rw [ek]
    show Double.fp.rnd (0 * k) = _
    rw [zero_mul]; exact rnd_zero _
  have hcos : PyNum.cos (RF.of 0 : RF Double.fp) = RF.of 1 := by
    show Double.rd (fin (Real.cos 0)) = _
    rw [Real.cos_zero]; exact rnd_one Double.fp
  have hflux := near_mul Double.fp (near_refl (x := 1e150) (by norm_num)) (near_refl (x := 1) (by norm_num))
    (by norm_num) (by norm_num) (by norm_num)
  have hS := near_div Double.fp hflux np (by linarith)
    (by rw [le_div_iff₀ Real.pi_pos]; refine le_trans (mul_le_mul_of_nonneg_left hpi' (by norm_num)) ?_; norm_num)
    (by rw [div_le_iff₀ Real.pi_pos]; refine le_trans ?_ (mul_le_mul_of_nonneg_left hpi (by norm_num)); norm_num)
  obtain ⟨_, S, eS, hS1, _⟩ := hS.mono (show _ ≤ (0.1 : ℝ) by norm_num; linarith)
  refine ⟨S, ?_, le_trans ?_ hS1⟩
  · unfold solarRadiancePoint
    rw [hclip, hdeg, hcos]
    exact eS
  · have h1 : (0.9 : ℝ) ≤ Real.exp (-0.1) := by
      have := Real.add_one_le_exp (-0.1 : ℝ); norm_num at this ⊢; linarith
    have h2 : (1e150 : ℝ) / 4 ≤ 1e150 * 1 / Real.pi := by
      rw [mul_one]; exact div_le_div_of_nonneg_left (by norm_num) Real.pi_pos hpi'
    refine le_trans ?_ (mul_le_mul h2 h1 (by norm_num) (le_trans (by norm_num) h2))
    norm_num

/-- the reflectance of the first pixel is a number, whatever converts temperatures to radiances -/
theorem exFp_number {I : RF Double.fp} {R : RF Double.fp → RF Double.fp} {i a v : ℝ} (p : Pixel (RF Double.fp))
    (hI : I = RF.of i) (hi : 0 < i) (hi2 : i ≤ 1e70) (hz : p.zenith = RF.of 0) {n : ℝ} (hn : p.nir = RF.of n)
    (hp : R p.nir = RF.of a) (h0 : 0 ≤ a) (h2 : a ≤ 1e34) (hv : R p.therm = RF.of v) (hv0 : 0 ≤ v) (hv2 : v ≤ 1e34) :
    pxValue (α := RF Double.fp) I (RF.of 1e150) (RF.of 85) (some (RF.of 88)) R false p ≠ XF.nan := by
  obtain ⟨S, eS, hS⟩ := exFp_sun
  have prod : ∀ x : ℝ, 0 ≤ x → x ≤ 1e34 → ∃ y, (RF.of x : RF Double.fp) * I = RF.of y ∧ 0 ≤ y ∧ y ≤ 1e105 := by
    intro x hx hx2
    rw [hI]
    obtain ⟨y, e, l1, l2⟩ := rnd_bound Double.fp (x := x * i) (b := 1e104) (mul_nonneg hx hi.le)
      (by have := mul_le_mul hx2 hi2 hi.le (by norm_num); exact this.trans (by norm_num)) (by norm_num) (by norm_num)
    exact ⟨y, e, l1, l2.trans (by norm_num)⟩
  obtain ⟨y, ey, y0, y1⟩ := prod a h0 h2
  obtain ⟨x, ex, x0, x1⟩ := prod v hv0 hv2
  have hX : ∃ X : ℝ, pxTherm I R false p = RF.of X ∧ 0 ≤ X ∧ X ≤ 1e106 := by
    obtain ⟨X, e, l1, l2⟩ := rnd_bound Double.fp (x := x * 1) (b := 1e105) (by rw [mul_one]; exact x0)
      (by rw [mul_one]; exact x1) (by norm_num) (by norm_num)
    refine ⟨X, ?_, l1, l2.trans (by norm_num)⟩
    unfold pxTherm pxCorr
    rw [hv, ex, if_neg (by simp), one_lit]
    exact e
  obtain ⟨X, eX, hX0, hX⟩ := hX
  have hd : Lx (fin 1) (pxDenom (α := RF Double.fp) I (RF.of 1e150) (RF.of 85) R false p) := by
    unfold pxDenom
    rw [hz, eS, eX]
    have := rd_mono Double.fp (a := fin 1) (b := XF.sub (fin S) (fin X)) (lx_fin.2 (by
      have : (1 : ℝ) + 1e106 ≤ 1e149 := by norm_num
      linarith))
    rwa [show Double.fp.rd (fin 1) = fin 1 from rnd_one _] at this
  unfold pxValue
  rw [hp, ey, eX]
  have z : pxZenith (some (RF.of 88)) p = false := by
    unfold pxZenith
    have e0 : (0.0 : RF Double.fp) = RF.of 0 := by
      show Double.fp.rnd (0.0 : ℝ) = _
      rw [show (0.0 : ℝ) = 0 by norm_num]; exact rnd_zero _
    have l0 : lt (RF.of 0 : RF Double.fp) (RF.of 0) = false := decide_eq_false (lt_irrefl _)
    have l1 : lt (RF.of 88 : RF Double.fp) (RF.of 0) = false := decide_eq_false (by norm_num)
    simp only [hz, e0, gt, l0, l1, Bool.or_self]
  have hnan : isNaN p.nir = false := by rw [hn]; rfl
  have he : Lx (NIR_EPSILON : RF Double.fp) (fin 1) := by
    have := rd_mono Double.fp (a := fin 0.005) (b := fin 1) (lx_fin.2 (by norm_num))
    rwa [show Double.fp.rd (fin 1) = fin 1 from rnd_one _] at this
  have hlt : lt (pxDenom (α := RF Double.fp) I (RF.of 1e150) (RF.of 85) R false p) NIR_EPSILON = false := by
    show ltb _ _ = false
    generalize pxDenom (α := RF Double.fp) I (RF.of 1e150) (RF.of 85) R false p = D at hd
    generalize (NIR_EPSILON : RF Double.fp) = E at he
    have := he.trans hd
    revert this
    unfold Lx
    cases D <;> cases E <;> simp [leb, ltb]
  rw [hlt, z, hnan]
  simp only [Bool.or_self, Bool.false_eq_true, if_false]
  show Double.fp.rd (XF.div (Double.fp.rnd (y + -X)) (pxDenom (α := RF Double.fp) I (RF.of 1e150) (RF.of 85) R false p)) ≠ _
  obtain ⟨m, em⟩ : ∃ m, Double.fp.rnd (y + -X) = fin m := by
    obtain ⟨b, eb, _⟩ := (near_rnd Double.fp (x := 1e106) (by norm_num) (by norm_num)).pos
    have u1 : Lx (Double.fp.rnd (-1e106)) (Double.fp.rnd (y + -X)) := Double.fp.rnd_mono _ _ (by linarith)
    have u2 : Lx (Double.fp.rnd (y + -X)) (Double.fp.rnd 1e106) :=
      Double.fp.rnd_mono _ _ (by have := y1.trans (show (1e105 : ℝ) ≤ 1e106 by norm_num); linarith)
    rw [Double.fp.rnd_neg, eb] at u1
    rw [eb] at u2
    obtain ⟨m, em, _⟩ := fin_of_le u1 u2
    exact ⟨m, em⟩
  rw [em]
  rcases nonneg_cases ((lx_fin.2 zero_le_one).trans hd) with e | ⟨d, e, _⟩
  · rw [e]; exact Double.fp.rnd_ne_nan _
  · rw [e] at hd ⊢
    have : d ≠ 0 := by have := lx_fin.1 hd; intro h; rw [h] at this; linarith
    show Double.fp.rd (if d = 0 then _ else _) ≠ _
    rw [if_neg this]
    exact Double.fp.rnd_ne_nan _

theorem exFpNir_loaded (lut) : FpLoaded (exFpNir lut).conv [10e-6, 11e-6, 12e-6] [0, 1, 0] :=
  ⟨rfl, rfl, trapezoid_val _ _ rfl⟩

/-- the warmer pixel of the example has no lower reflectance, directly -/
example : ∃ (out : NirOut (RF Double.fp)) (s' : Nir (RF Double.fp)) (x y : RF Double.fp),
    reflectance 0 exFpScene (exFpNir none) = (.ok out, s') ∧ out.values = ⟨[2], [x, y]⟩ ∧ RF.Le x y := by
  have hc := exFpNir_loaded none
  obtain ⟨out, s', v, h1, h2, h3⟩ := C123_reflectance_never_decreases Double.fp (exFpNir none) 0 exFpScene _ _
    hc exFpBand (by simp [exFpNir]) (by simp [exFpScene]) rfl rfl
  refine ⟨out, s', _, _, h1, h2, h3 _ (by simp [exFpScene]) _ (by simp [exFpScene]) 290 300 280
    rfl rfl (by norm_num) (by norm_num) (by norm_num) rfl rfl (by norm_num) (by norm_num) rfl rfl ?_⟩
  obtain ⟨out', h1', h2'⟩ := reflectance_run (exFpNir none) 0 exFpScene (bandVal (exFpNir none).conv true)
    { rsr := by simp [exFpNir]
      pixels := by simp [exFpScene]
      shape := by simp [exFpScene]
      converts := fun ts hts => ⟨_, tb2radiance_val (exFpNir none).conv (by rw [hc.wave]; simp) (by rw [hc.wave, hc.response]; simp) 0 ts hts true, rfl⟩
      flat := Or.inr rfl }
  rw [h1] at h1'
  have e : out = out' := Except.ok.inj (Prod.mk.inj h1').1
  rw [← e, h2] at h2'
  have e2 := (List.cons.inj (congrArg Arr.data h2')).1
  rw [e2]
  obtain ⟨i, ei, hi, hi2⟩ := integral_le Double.fp hc exFpBand
  obtain ⟨a, ea, a0, a1⟩ := bandVal_finite Double.fp hc exFpBand (t := 290) (by norm_num) (by norm_num)
  obtain ⟨b, eb, b0, b1⟩ := bandVal_finite Double.fp hc exFpBand (t := 280) (by norm_num) (by norm_num)
  exact exFp_number _ ei hi hi2 rfl rfl ea a0 a1 eb b0 b1

/-- and with the table -/
example : ∃ (lut : Lut (RF Double.fp)) (out : NirOut (RF Double.fp)) (s' : Nir (RF Double.fp)) (x y : RF Double.fp),
    reflectance 0 exFpScene (exFpNir (some lut)) = (.ok out, s') ∧ out.values = ⟨[2], [x, y]⟩ ∧ RF.Le x y := by
  have hc := exFpNir_loaded none
  obtain ⟨lut, start, e0, hg, hfin, hmono⟩ := table_fp Double.fp (exFpNir none).conv _ _ hc exFpBand 0 0.1 (by norm_num) rfl rfl
  obtain ⟨out, s', v, h1, h2, h3⟩ := C123_reflectance_never_decreases_with_table Double.fp (exFpNir (some lut)) 0 exFpScene _ _
    hc exFpBand (by simp [exFpNir]) (by simp [exFpScene]) (by simp [exFpScene]) 0.1 (by norm_num) rfl rfl lut e0 rfl
  refine ⟨lut, out, s', _, _, h1, h2, h3 _ (by simp [exFpScene]) _ (by simp [exFpScene]) 290 300
    rfl rfl (by norm_num) (by norm_num) (by norm_num) rfl rfl rfl ?_⟩
  obtain ⟨out', h1', h2'⟩ := reflectance_run (exFpNir (some lut)) 0 exFpScene
    (lutFn 0 (exFpNir none).conv.tb_scale start lut.radiance)
    { rsr := by simp [exFpNir]
      pixels := by simp [exFpScene]
      shape := by simp [exFpScene]
      converts := converts_lut (exFpNir none).conv 0 lut start hg
      flat := Or.inl rfl }
  rw [h1] at h1'
  have e : out = out' := Except.ok.inj (Prod.mk.inj h1').1
  rw [← e, h2] at h2'
  have e2 := (List.cons.inj (congrArg Arr.data h2')).1
  rw [e2]
  obtain ⟨i, ei, hi, hi2⟩ := integral_le Double.fp hc exFpBand
  obtain ⟨a, ea, a0, a1⟩ := hfin _ (lutFn_mem 0 (exFpNir none).conv.tb_scale start lut.radiance hg.rad (RF.of 290))
  obtain ⟨b, eb, b0, b1⟩ := hfin _ (lutFn_mem 0 (exFpNir none).conv.tb_scale start lut.radiance hg.rad (RF.of 280))
  exact exFp_number _ ei hi hi2 rfl rfl ea a0 a1 eb b0 b1

end Verif.Props
