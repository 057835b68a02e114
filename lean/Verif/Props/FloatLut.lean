import Verif.Props.FloatBand
import Verif.Props.RadTb
/-
Property C120: the Tb/radiance look-up table in floating point.
-/
namespace Verif.Props
open XF Model PyNum Lemmas Spec

section
variable (F : FP)

/-- rounding changes a number of ordinary size by less than a tenth -/
theorem rnd_tenth {x : ℝ} (h1 : 1e-10 ≤ x) (h2 : x ≤ 1e150) :
    ∃ y, F.rnd x = fin y ∧ x * 0.9 ≤ y ∧ y ≤ x * 1.1 := by
  obtain ⟨y, e, h⟩ := F.rnd_near x (le_trans (by norm_num) h1) (h2.trans (by norm_num))
  obtain ⟨h3, h4⟩ := abs_le.1 h
  have hx0 : 0 < x := lt_of_lt_of_le (by norm_num) h1
  have : x / 2 ^ 52 ≤ x * 0.1 := by
    rw [div_le_iff₀ (by positivity)]; norm_num; nlinarith
  refine ⟨y, e, ?_, ?_⟩ <;> norm_num at this ⊢ <;> linarith

/-- a rounded number between 0 and a bound -/
theorem rnd_bound {x b : ℝ} (h0 : 0 ≤ x) (h : x ≤ b) (hb : 1e-10 ≤ b) (hb' : b ≤ 1e150) :
    ∃ y, F.rnd x = fin y ∧ 0 ≤ y ∧ y ≤ b * 1.1 := by
  obtain ⟨z, e, _, hz⟩ := rnd_tenth F hb hb'
  have h1 : Lx (fin 0) (F.rnd x) := rd_nonneg F (lx_fin.2 h0)
  have h2 : Lx (F.rnd x) (F.rnd b) := F.rnd_mono _ _ h
  rw [e] at h2
  obtain ⟨y, e, h3, h4⟩ := fin_of_le h1 h2
  exact ⟨y, e, h3, h4.trans hz⟩

theorem rnd_le {x y a b : ℝ} (hx : F.rnd x = fin a) (hy : F.rnd y = fin b) (h : x ≤ y) : a ≤ b := by
  have : Lx (F.rnd x) (F.rnd y) := F.rnd_mono _ _ h
  rw [hx, hy] at this
  exact lx_fin.1 this

theorem rnd_nat (n : ℕ) (h : n ≤ 2 ^ 53) : F.rnd (n : ℝ) = fin n := by
  have := F.rnd_int (n : ℤ) (by
    rw [abs_of_nonneg (by positivity)]; exact_mod_cast h)
  simpa using this

/-- rounding of numbers of moderate size -/
theorem rnd_abs {x b y : ℝ} (h0 : 0 ≤ x) (h1 : x = 0 ∨ 0.01 ≤ x) (hb : x ≤ b) (hb' : b ≤ 1e10) (e : F.rnd x = fin y) :
    |y - x| ≤ b / 2 ^ 52 := by
  rcases h1 with rfl | h1
  · rw [rnd_zero] at e
    rw [← XF.fin.inj e]
    simp; positivity
  · obtain ⟨z, ez, hz⟩ := F.rnd_near x (le_trans (by norm_num) h1) (hb.trans (hb'.trans (by norm_num)))
    rw [e] at ez
    rw [XF.fin.inj ez]
    refine hz.trans ?_
    gcongr

/-- the temperatures of the table -/
theorem arange_acc {res : ℝ} (h1 : 0.02 ≤ res) (h2 : res ≤ 10) :
    ∃ (n : ℕ) (g : ℕ → ℝ), NP.arange (TB_MIN : RF F) TB_MAX (RF.of res) = .ok ((List.range (n + 1)).map fun i => RF.of (g i)) ∧
      g 0 = 150 ∧ (∀ i j, i ≤ j → j ≤ n → g i ≤ g j) ∧ (∀ i ≤ n, 150 ≤ g i ∧ g i ≤ 500) ∧
      (∀ i ≤ n, |g i - (150 + i * res)| ≤ 1e-12) ∧ 210 / res - 1e-11 ≤ n + 1 := by
  have hres : 0 < res := lt_of_lt_of_le (by norm_num) h1
  have eMin : (TB_MIN : RF F) = RF.of 150 := by
    show F.rnd (150.0 : ℝ) = _
    rw [show (150.0 : ℝ) = ((150 : ℕ) : ℝ) by norm_num, rnd_nat F 150 (by norm_num)]
    norm_num; rfl
  have eMax : (TB_MAX : RF F) = RF.of 360 := by
    show F.rnd (360.0 : ℝ) = _
    rw [show (360.0 : ℝ) = ((360 : ℕ) : ℝ) by norm_num, rnd_nat F 360 (by norm_num)]
    norm_num; rfl
  have eD : (TB_MAX : RF F) - TB_MIN = (RF.of 210 : RF F) := by
    rw [eMin, eMax]
    show F.rnd (360 + -150) = _
    rw [show (360 + -150 : ℝ) = ((210 : ℕ) : ℝ) by norm_num, rnd_nat F 210 (by norm_num)]
    norm_num; rfl
  have q1 : 21 ≤ 210 / res := by rw [le_div_iff₀ hres]; linarith
  have q2 : 210 / res ≤ 10500 := by rw [div_le_iff₀ hres]; norm_num at h1 ⊢; linarith
  obtain ⟨q, eq, hq1, hq2⟩ := rnd_tenth F (x := 210 / res) (le_trans (by norm_num) q1) (q2.trans (by norm_num))
  have eQ : ((TB_MAX : RF F) - TB_MIN) / (RF.of res : RF F) = (RF.of q : RF F) := by
    rw [eD]
    show F.rd (if res = 0 then _ else fin (210 / res)) = _
    rw [if_neg hres.ne']
    exact eq
  have hqpos : 18 ≤ q := by norm_num at hq1; linarith
  have hq3 : q ≤ 11550 := by norm_num at hq2; linarith
  have hqres : q * res ≤ 231 := by
    have : 210 / res * 1.1 * res = 231 := by field_simp; norm_num
    rw [← this]; exact mul_le_mul_of_nonneg_right hq2 hres.le
  -- the number of values
  have htr : truncR q = ⌊q⌋ := by unfold truncR; rw [if_pos (by linarith)]
  have hfl1 : 18 ≤ ⌊q⌋ := Int.le_floor.2 (by exact_mod_cast hqpos)
  have hfl2 : ⌊q⌋ ≤ 11550 := by
    have := Int.floor_le q
    exact_mod_cast this.trans hq3
  obtain ⟨m, hm, hmq, hmq'⟩ : ∃ m : ℕ, NP.ceilI (RF.of q : RF F) = some ((m + 1 : ℕ) : ℤ) ∧ (m : ℝ) ≤ q ∧ q ≤ m + 1 := by
    have e0 : NP.ceilI (RF.of q : RF F) =
        (if (PyNum.lt (PyNum.ofInt ⌊q⌋ : RF F) (RF.of q)) = true then some (⌊q⌋ + 1) else some ⌊q⌋) := by
      show (match some (truncR q) with
        | some i => if (PyNum.lt (PyNum.ofInt i : RF F) (RF.of q)) = true then some (i + 1) else some i
        | none => none) = _
      rw [htr]
    rw [e0]
    have hf := Int.floor_le q
    have hf' := Int.lt_floor_add_one q
    split
    · refine ⟨⌊q⌋.toNat, ?_, ?_, ?_⟩
      · congr 1; push_cast; rw [Int.toNat_of_nonneg (by omega)]
      · rw [show ((⌊q⌋.toNat : ℕ) : ℝ) = ((⌊q⌋.toNat : ℤ) : ℝ) by norm_cast, Int.toNat_of_nonneg (by omega)]
        exact hf
      · rw [show ((⌊q⌋.toNat : ℕ) : ℝ) = ((⌊q⌋.toNat : ℤ) : ℝ) by norm_cast, Int.toNat_of_nonneg (by omega)]
        exact hf'.le
    · rename_i hlt
      refine ⟨⌊q⌋.toNat - 1, ?_, ?_, ?_⟩
      · congr 1; omega
      · have : ((⌊q⌋.toNat - 1 : ℕ) : ℤ) ≤ ⌊q⌋ := by omega
        have h3 : (((⌊q⌋.toNat - 1 : ℕ) : ℤ) : ℝ) ≤ ⌊q⌋ := by exact_mod_cast this
        rw [Int.cast_natCast] at h3
        linarith
      · have eF : (PyNum.ofInt ⌊q⌋ : RF F) = RF.of (⌊q⌋ : ℝ) := F.rnd_int ⌊q⌋ (by rw [abs_le]; constructor <;> omega)
        rw [eF] at hlt
        have hle : q ≤ ⌊q⌋ := by
          by_contra hc
          apply hlt
          show (ltb (fin _) (fin _)) = true
          simpa [ltb] using hc
        have : ((⌊q⌋.toNat - 1 : ℕ) : ℤ) + 1 = ⌊q⌋ := by omega
        have h3 : (((⌊q⌋.toNat - 1 : ℕ) : ℤ) : ℝ) + 1 = ⌊q⌋ := by exact_mod_cast this
        rw [Int.cast_natCast] at h3
        linarith
  have hmN : m ≤ 11550 := by
    have : (m : ℝ) ≤ 11550 := hmq.trans hq3
    exact_mod_cast this
  -- the values
  have val : ∀ i : ℕ, i ≤ m → ∃ p v : ℝ, F.rnd (i * res) = fin p ∧ F.rnd (150 + p) = fin v ∧ 150 ≤ v ∧ v ≤ 500 ∧
      |v - (150 + i * res)| ≤ 1e-12 := by
    intro i hi
    have hi' : (i : ℝ) ≤ q := le_trans (by exact_mod_cast hi) hmq
    obtain ⟨p, ep, hp0, hp⟩ := rnd_bound F (x := i * res) (b := 231) (by positivity)
      (le_trans (mul_le_mul_of_nonneg_right hi' hres.le) hqres) (by norm_num) (by norm_num)
    norm_num at hp
    obtain ⟨v, ev, hv0, hv⟩ := rnd_bound F (x := 150 + p) (b := 410) (by linarith) (by linarith) (by norm_num) (by norm_num)
    have : (150 : ℝ) ≤ v := by
      have e150 := rnd_nat F 150 (by norm_num)
      have := rnd_le F e150 ev (by push_cast; linarith)
      exact_mod_cast this
    norm_num at hv
    refine ⟨p, v, ep, ev, this, by linarith, ?_⟩
    have k1 := rnd_abs F (x := i * res) (b := 231) (by positivity) (by
      rcases Nat.eq_zero_or_pos i with rfl | h
      · left; simp
      · right
        have h3 : (1 : ℝ) ≤ i := by exact_mod_cast h
        have := mul_le_mul h3 h1 (by norm_num) (by linarith)
        refine le_trans ?_ this; norm_num)
      (le_trans (mul_le_mul_of_nonneg_right hi' hres.le) hqres) (by norm_num) ep
    have k2 := rnd_abs F (x := 150 + p) (b := 410) (by linarith) (Or.inr (by norm_num; linarith)) (by linarith) (by norm_num) ev
    rw [abs_le] at k1 k2 ⊢
    norm_num at k1 k2 ⊢
    constructor <;> linarith [k1.1, k1.2, k2.1, k2.2]
  choose! p g hp hg hg1 hg2 hg3 using val
  refine ⟨m, g, ?_, ?_, ?_, ?_, hg3, ?_⟩
  · unfold NP.arange
    rw [eQ, hm]
    dsimp only
    congr 1
    rw [show ((m + 1 : ℕ) : ℤ).toNat = m + 1 from rfl]
    apply List.map_congr_left
    intro i hi
    have hi' : i ≤ m := by have := List.mem_range.1 hi; omega
    have e1 : (PyNum.ofInt (i : ℤ) : RF F) = RF.of i := by
      show F.rnd (((i : ℤ)) : ℝ) = _
      rw [Int.cast_natCast]; exact rnd_nat F i (by omega)
    rw [e1, eMin]
    show F.rd (XF.add (fin 150) (F.rnd (i * res))) = fin (g i)
    rw [hp i hi']
    exact hg i hi'
  · have h3 := hp 0 (Nat.zero_le _)
    have h4 := hg 0 (Nat.zero_le _)
    rw [Nat.cast_zero, zero_mul, rnd_zero] at h3
    have h3' := XF.fin.inj h3
    rw [← h3', add_zero] at h4
    have := rnd_nat F 150 (by norm_num)
    rw [show ((150 : ℕ) : ℝ) = 150 by norm_num, h4] at this
    exact XF.fin.inj this
  · intro i j hij hj
    have hi := hij.trans hj
    have h3 := rnd_le F (hp i hi) (hp j hj) (mul_le_mul_of_nonneg_right (by exact_mod_cast hij) hres.le)
    exact rnd_le F (hg i hi) (hg j hj) (by linarith)
  · exact fun i hi => ⟨hg1 i hi, hg2 i hi⟩
  · have k := rnd_abs F (x := 210 / res) (b := 10500) (by positivity) (Or.inr (le_trans (by norm_num) q1)) q2 (by norm_num) eq
    rw [abs_le] at k
    norm_num at k ⊢
    linarith [k.1, k.2]

theorem arange_fp {res : ℝ} (h1 : 0.02 ≤ res) (h2 : res ≤ 10) :
    ∃ (n : ℕ) (g : ℕ → ℝ), NP.arange (TB_MIN : RF F) TB_MAX (RF.of res) = .ok ((List.range (n + 1)).map fun i => RF.of (g i)) ∧
      g 0 = 150 ∧ (∀ i j, i ≤ j → j ≤ n → g i ≤ g j) ∧ ∀ i ≤ n, 150 ≤ g i ∧ g i ≤ 500 := by
  obtain ⟨n, g, h, h0, h3, h4, _, _⟩ := arange_acc F h1 h2
  exact ⟨n, g, h, h0, h3, h4⟩

theorem table_mono {β : Type} (R : β → β → Prop) (xs : List β) (hp : ∀ i j, i ≤ j → ∀ (hj : j < xs.length) (hi : i < xs.length),
    R xs[i] xs[j]) (hne : xs ≠ []) {a b : ℤ} (h : a ≤ b) :
    ∃ x y, NP.pyIndex xs (clipInt a 0 ((xs.length : ℤ) - 1)) = .ok x ∧
      NP.pyIndex xs (clipInt b 0 ((xs.length : ℤ) - 1)) = .ok y ∧ x ∈ xs ∧ R x y := by
  obtain ⟨l1, e1⟩ := pyIndex_clip xs hne a
  obtain ⟨l2, e2⟩ := pyIndex_clip xs hne b
  refine ⟨_, _, e1, e2, List.getElem_mem _, hp _ _ ?_ l2 l1⟩
  unfold clipInt; omega

end

/-! ### C120 -/

/-- C120: with a temperature step from 0.02 to 10 K the table made has radiances that never decrease,
and looking up temperatures from 0 to 500 K in it gives radiances that never decrease with temperature. -/
theorem C120_table_never_decreases (F : FP) (c : RadTb (RF F)) (w r : List ℝ) (hc : FpLoaded c w r)
    (hb : FpBand c.wavespace w r) (nc : Int) (norm : Bool) (res : ℝ) (hres : 0.02 ≤ res ∧ res ≤ 10)
    (hr : c.tb_resolution = RF.of res) (hs : c.tb_scale = 1.0 / RF.of res) :
    ∃ lut : Lut (RF F), c.makeTb2radLut nc norm = .ok lut ∧ lut.tb.length = lut.radiance.length ∧
      lut.radiance.Pairwise RF.Le ∧
      ∀ ts : List ℝ, 2 ≤ ts.length → (∀ t ∈ ts, 0 ≤ t ∧ t ≤ 500) →
        ∃ (b : ℝ → RF F) (out : RadResult (RF F)), c.tb2radiance nc (ts.map RF.of) (some lut) norm = .ok out ∧
          out.radiance = .arr (ts.map b) ∧
          ∀ t₁ ∈ ts, ∀ t₂ ∈ ts, t₁ ≤ t₂ → b t₁ ∈ lut.radiance ∧ RF.Le (b t₁) (b t₂) := by
  have hres0 : 0 < res := lt_of_lt_of_le (by norm_num) hres.1
  obtain ⟨n, g, hg, g0, gm, gr⟩ := arange_fp F hres.1 hres.2
  have hne : c.wave ≠ [] := by rw [hc.wave]; simpa using gaps_ne hb.integral
  have hl : c.wave.length = c.response.length := by rw [hc.wave, hc.response]; simp [hb.len]
  set tb : List (RF F) := (List.range (n + 1)).map fun i => RF.of (g i) with htb
  set rad : List (RF F) := tb.map (bandVal c norm) with hrad
  have hlen : rad.length = n + 1 := by simp [hrad, htb]
  have hradne : rad ≠ [] := by intro h; rw [h] at hlen; simp at hlen
  have hmake : c.makeTb2radLut nc norm = .ok ⟨tb, rad⟩ := by
    unfold RadTb.makeTb2radLut
    rw [hr, hg]
    simp only [bind, Except.bind]
    rw [tb2radiance_val c hne hl nc tb (by simp [htb]) norm]
    rfl
  have hget : ∀ i, i ≤ n → ∀ hi : i < rad.length, rad[i] = bandVal c norm (RF.of (g i)) := by
    intro i hi hi'
    simp [hrad, htb]
  have hmono : ∀ i j, i ≤ j → ∀ (hj : j < rad.length) (hi : i < rad.length), RF.Le rad[i] rad[j] := by
    intro i j hij hj hi
    rw [hget i (by omega) hi, hget j (by omega) hj]
    have h1 := gr i (by omega)
    have h2 := gr j (by omega)
    exact (bandVal_mono F hc hb norm (le_trans (by norm_num) h1.1) (gm i j hij (by omega))
      (h2.2.trans (by norm_num))).2
  refine ⟨⟨tb, rad⟩, hmake, by simp [hrad], ?_, ?_⟩
  · rw [List.pairwise_iff_getElem]
    intro i j hi hj hij
    exact hmono i j hij.le hj hi
  intro ts hts ht
  -- the scale
  have q1 : 0.1 ≤ 1 / res := by rw [le_div_iff₀ hres0]; have := hres.2; norm_num; linarith
  have q2 : 1 / res ≤ 50 := by rw [div_le_iff₀ hres0]; have := hres.1; norm_num at this ⊢; linarith
  obtain ⟨s, es, hs1, hs2⟩ := rnd_tenth F (x := 1 / res) (le_trans (by norm_num) q1) (q2.trans (by norm_num))
  have hsc : c.tb_scale = RF.of s := by
    rw [hs, one_lit]
    show F.rd (if res = 0 then _ else fin (1 / res)) = _
    rw [if_neg hres0.ne']; exact es
  norm_num at hs1 hs2 q1
  have s0 : 0 < s := by
    have : 0 < res⁻¹ := inv_pos.2 hres0
    linarith
  have s1 : s ≤ 55 := by rw [one_div] at q2; linarith
  -- scaled temperatures
  have val : ∀ t : ℝ, 0 ≤ t → t ≤ 500 → ∃ y, F.rnd (t * s) = fin y ∧ 0 ≤ y ∧ y ≤ 30250 := by
    intro t h0 h1
    obtain ⟨y, e, h2, h3⟩ := rnd_bound F (x := t * s) (b := 27500) (mul_nonneg h0 s0.le)
      (by have := mul_le_mul h1 s1 s0.le (by norm_num); norm_num at this; linarith) (by norm_num) (by norm_num)
    norm_num at h3
    exact ⟨y, e, h2, by linarith⟩
  choose! y hy hy0 hy1 using val
  have tr : ∀ t : ℝ, 0 ≤ t → t ≤ 500 → 0 ≤ truncR (y t) ∧ truncR (y t) ≤ 30250 := by
    intro t h0 h1
    unfold truncR
    rw [if_pos (hy0 t h0 h1)]
    refine ⟨Int.floor_nonneg.2 (hy0 t h0 h1), ?_⟩
    have := (Int.floor_le (y t)).trans (hy1 t h0 h1)
    exact_mod_cast this
  set start := truncR (y 150) with hstart
  have hst := tr 150 (by norm_num) (by norm_num)
  have hmul : ∀ t : ℝ, 0 ≤ t → t ≤ 500 → (RF.of t : RF F) * c.tb_scale = RF.of (y t) := by
    intro t h0 h1
    rw [hsc]; exact hy t h0 h1
  have ex : ∀ t : ℝ, ∃ v, NP.pyIndex rad (clipInt (truncR (y t) - start) 0 ((rad.length : ℤ) - 1)) = .ok v := fun t =>
    ⟨_, (pyIndex_clip rad hradne _).2⟩
  choose b hbx using ex
  have hlook : lutRadiance nc c.tb_scale ⟨tb, rad⟩ (ts.map RF.of) = .ok (.arr (ts.map b)) := by
    have e0 : NP.pyIndex tb 0 = .ok (RF.of 150 : RF F) := by
      rw [htb, List.range_succ_eq_map]
      simp [NP.pyIndex, g0]
    have e1 : pyInt ((RF.of 150 : RF F) * c.tb_scale) = .ok start := by
      rw [hmul 150 (by norm_num) (by norm_num)]; rfl
    have e2 : ((((ts.map RF.of).map fun t : RF F => NP.castInt16 nc (t * c.tb_scale)).map fun k =>
        clipInt (NP.wrap16 (k - start)) 0 ((rad.length : Int) - 1)).mapM fun i => NP.pyIndex rad i) = .ok (ts.map b) := by
      rw [List.map_map, List.map_map, List.mapM_map]
      refine mapM_ok _ _ _ ?_
      intro t htm
      obtain ⟨h0, h1⟩ := ht t htm
      have h2 := tr t h0 h1
      simp only [Function.comp]
      rw [hmul t h0 h1]
      have : NP.castInt16 nc (RF.of (y t) : RF F) = truncR (y t) := by
        show NP.wrap16 (truncR (y t)) = _
        exact wrap16_id (by omega) (by omega)
      rw [this, wrap16_id (by omega) (by omega)]
      exact hbx t
    unfold lutRadiance
    simp only [bind, Except.bind, e0, e1]
    rw [if_neg (by omega)]
    rw [e2]
    have h2 : 2 ≤ (ts.map b).length := by simpa using hts
    generalize ts.map b = l at h2
    rcases l with _ | ⟨a, _ | ⟨a', l⟩⟩
    · simp at h2
    · simp at h2
    · rfl
  refine ⟨b, ⟨.arr (ts.map b), radianceUnit c.wavespace norm, 1.0⟩, ?_, rfl, ?_⟩
  · unfold RadTb.tb2radiance
    simp only [bind, Except.bind, hlook]
    rfl
  · intro t₁ m1 t₂ m2 h
    obtain ⟨a0, a1⟩ := ht t₁ m1
    obtain ⟨b0, b1⟩ := ht t₂ m2
    have hle : truncR (y t₁) ≤ truncR (y t₂) :=
      truncR_mono (rnd_le F (hy t₁ a0 a1) (hy t₂ b0 b1) (mul_le_mul_of_nonneg_right h s0.le))
    obtain ⟨u, v, e1, e2, hu, huv⟩ := table_mono RF.Le rad hmono hradne (a := truncR (y t₁) - start)
      (b := truncR (y t₂) - start) (by omega)
    rw [hbx t₁] at e1
    rw [hbx t₂] at e2
    cases e1
    cases e2
    exact ⟨hu, huv⟩

example : ∃ lut : Lut (RF Double.fp), exFpConv.makeTb2radLut 0 true = .ok lut ∧ lut.tb.length = lut.radiance.length ∧
    lut.radiance.Pairwise RF.Le ∧
    ∀ ts : List ℝ, 2 ≤ ts.length → (∀ t ∈ ts, 0 ≤ t ∧ t ≤ 500) →
      ∃ (b : ℝ → RF Double.fp) (out : RadResult (RF Double.fp)),
        exFpConv.tb2radiance 0 (ts.map RF.of) (some lut) true = .ok out ∧ out.radiance = .arr (ts.map b) ∧
        ∀ t₁ ∈ ts, ∀ t₂ ∈ ts, t₁ ≤ t₂ → b t₁ ∈ lut.radiance ∧ RF.Le (b t₁) (b t₂) :=
  C120_table_never_decreases Double.fp exFpConv _ _ exFpConv_loaded exFpBand 0 true 0.1 (by norm_num) rfl rfl

end Verif.Props
