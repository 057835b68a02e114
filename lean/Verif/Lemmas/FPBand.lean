import Verif.Lemmas.FPPlanck
import Verif.Lemmas.RadTb
/-
The band radiance with rounded arithmetic: order and relative error of the trapezoid rule.
-/
namespace Verif.Lemmas
open XF Model PyNum Spec

/-! ### The conversion without table, for any numbers -/

section generic
variable {α : Type} [PyNum α]

/-- the trapezoid sum -/
def trapVal (y x : List α) : α :=
  NP.sum (List.zipWith (fun d s => d * s / 2.0) (NP.diff x) (NP.adj (· + ·) y))

theorem trapezoid_val (y x : List α) (h : y.length = x.length) : NP.trapezoid y x = .ok (trapVal y x) := by
  unfold NP.trapezoid
  rw [bcast2_eq_len _ _ _ (by simp [NP.diff, adj_length, h])]
  rfl

/-- the band radiance of one temperature -/
def bandVal (c : RadTb α) (norm : Bool) (t : α) : α :=
  let v := trapVal (List.zipWith (· * ·) (c.wave.map fun w => planckEntry (c.wavespace != WAVE_NUMBER) w t)
    c.response) c.wave
  if norm then v / c.rsr_integral else v

theorem blackbodyFunction_val (ws : String) (w ts : List α) (hw : w ≠ []) (ht : ts ≠ []) :
    blackbodyFunction ws w ts = .ok (ts.map fun t => w.map fun x => planckEntry (ws != WAVE_NUMBER) x t) := by
  unfold blackbodyFunction
  split
  · rename_i h
    rw [blackbody_wn, planck_entries _ _ _ hw ht]; simp [h]
  · rename_i h
    rw [blackbody, planck_entries _ _ _ hw ht, show (ws != WAVE_NUMBER) = true by simpa using h]

theorem tb2radiance_val (c : RadTb α) (hw : c.wave ≠ []) (hlen : c.wave.length = c.response.length) (nc : Int)
    (ts : List α) (hts : ts ≠ []) (norm : Bool) :
    c.tb2radiance nc ts none norm =
      .ok ⟨.arr (ts.map (bandVal c norm)), radianceUnit c.wavespace norm, 1.0⟩ := by
  have h1 := blackbodyFunction_val c.wavespace c.wave ts hw hts
  have h2 : (ts.map fun t => c.wave.map fun x => planckEntry (c.wavespace != WAVE_NUMBER) x t).mapM
      (fun row => NP.bcast2 (· * ·) row c.response) =
      .ok (ts.map fun t => List.zipWith (· * ·) (c.wave.map fun x => planckEntry (c.wavespace != WAVE_NUMBER) x t) c.response) := by
    rw [List.mapM_map]
    exact mapM_ok _ _ _ (fun t _ => bcast2_eq_len _ _ _ (by simp [hlen]))
  have h3 : (ts.map fun t => List.zipWith (· * ·) (c.wave.map fun x => planckEntry (c.wavespace != WAVE_NUMBER) x t) c.response).mapM
      (fun row => NP.trapezoid row c.wave) =
      .ok (ts.map fun t => trapVal (List.zipWith (· * ·) (c.wave.map fun w => planckEntry (c.wavespace != WAVE_NUMBER) w t)
      c.response) c.wave) := by
    rw [List.mapM_map]
    refine mapM_ok _ _ _ (fun t _ => ?_)
    exact trapezoid_val _ _ (by simp [hlen])
  simp only [RadTb.tb2radiance, h1, h2, h3, bind, Except.bind, pure, Except.pure]
  congr 3
  cases norm
  · rfl
  · simp only [if_true, List.map_map]
    rfl

end generic

/-! ### Order -/

section
variable (F : FP)

theorem add_mono_nonneg {a a' b b' : XF} (ha : Lx (fin 0) a) (hb : Lx (fin 0) b) (h : Lx a a') (h' : Lx b b') :
    Lx (fin 0) (XF.add a b) ∧ Lx (XF.add a b) (XF.add a' b') := by
  have ha' := ha.trans h
  have hb' := hb.trans h'
  rcases nonneg_cases ha with rfl | ⟨x, rfl, hx⟩ <;> rcases nonneg_cases ha' with rfl | ⟨x', rfl, hx'⟩ <;>
    rcases nonneg_cases hb with rfl | ⟨y, rfl, hy⟩ <;> rcases nonneg_cases hb' with rfl | ⟨y', rfl, hy'⟩ <;>
    simp_all [Lx, leb, XF.add] <;> first | linarith | (constructor <;> linarith)

theorem div_mono_right {c : ℝ} (hc : 0 < c) {a b : XF} (ha : Lx (fin 0) a) (h : Lx a b) :
    Lx (fin 0) (XF.div a (fin c)) ∧ Lx (XF.div a (fin c)) (XF.div b (fin c)) := by
  have hb := ha.trans h
  rcases nonneg_cases ha with rfl | ⟨x, rfl, hx⟩ <;> rcases nonneg_cases hb with rfl | ⟨y, rfl, hy⟩
  · have : XF.div pinf (fin c) = pinf := by simp [XF.div, not_lt.2 hc.le]
    rw [this]; simp [Lx, leb]
  · simp [Lx, leb] at h
  · have : XF.div pinf (fin c) = pinf := by simp [XF.div, not_lt.2 hc.le]
    rw [this]
    simp [Lx, leb, XF.div, hc.ne']
    exact div_nonneg hx hc.le
  · have := lx_fin.1 h
    simp [Lx, leb, XF.div, hc.ne']
    exact ⟨div_nonneg hx hc.le, div_le_div_of_nonneg_right this hc.le⟩

/-- elementwise order of numbers that are not negative -/
abbrev LeL {F : FP} (xs ys : List (RF F)) : Prop :=
  List.Forall₂ (fun a b : RF F => Lx (fin 0) a ∧ Lx a b) xs ys

theorem adj_leL {xs ys : List (RF F)} (h : LeL xs ys) : LeL (NP.adj (· + ·) xs) (NP.adj (· + ·) ys) := by
  induction h with
  | nil => exact .nil
  | cons h t ih =>
    cases t with
    | nil => exact .nil
    | cons h' t =>
      refine .cons ?_ ih
      have := add_mono_nonneg h'.1 h.1 h'.2 h.2
      exact ⟨rd_nonneg F this.1, rd_mono F this.2⟩

/-- gaps between neighbouring positions -/
def Gaps : List ℝ → Prop
  | a :: b :: l => (1e-20 ≤ b - a ∧ b - a ≤ 1e9) ∧ Gaps (b :: l)
  | _ => True

theorem diff_near {w : List ℝ} (h : Gaps w) :
    List.Forall₂ (fun (d : RF F) (x : ℝ) => (1e-20 ≤ x ∧ x ≤ 1e9) ∧ Near uu d x)
      (NP.diff (w.map (RF.of (F := F)))) (NP.adj (· - ·) w) := by
  induction w with
  | nil => exact .nil
  | cons a w ih =>
    cases w with
    | nil => exact .nil
    | cons b w =>
      refine .cons ⟨h.1, ?_⟩ (ih h.2)
      have := near_rnd F (x := b - a) (le_trans (by norm_num) h.1.1) (h.1.2.trans (by norm_num))
      show Near uu (F.rd (XF.sub (fin b) (fin a))) (b - a)
      rw [show XF.sub (fin b) (fin a) = fin (b - a) from by simp [XF.sub, XF.add, XF.neg, sub_eq_add_neg]]
      exact this

theorem terms_leL {ds : List (RF F)} {xs : List ℝ}
    (hd : List.Forall₂ (fun (d : RF F) (x : ℝ) => (1e-20 ≤ x ∧ x ≤ 1e9) ∧ Near uu d x) ds xs)
    {ss ss' : List (RF F)} (h : LeL ss ss') :
    LeL (List.zipWith (fun d s => d * s / 2.0) ds ss) (List.zipWith (fun d s => d * s / 2.0) ds ss') := by
  induction hd generalizing ss ss' with
  | nil => exact .nil
  | cons hd _ ih =>
    cases h with
    | nil => exact .nil
    | cons h t =>
      refine .cons ?_ (ih t)
      obtain ⟨d, rfl, hd'⟩ := hd.2.pos
      have h1 := mul_mono_left hd' h.1 h.2
      have h0 := mul_nonneg_left hd' h.1
      have e2 : (2.0 : RF F) = XF.fin 2 := by
        show F.rnd (2.0 : ℝ) = _
        rw [show (2.0 : ℝ) = ((2 : ℤ) : ℝ) by norm_num, F.rnd_int 2 (by norm_num)]
        norm_num
      have := div_mono_right (c := 2) two_pos (rd_nonneg F h0) (rd_mono F h1)
      show Lx (fin 0) (F.rd (XF.div _ (2.0 : RF F))) ∧ Lx (F.rd (XF.div _ (2.0 : RF F))) (F.rd (XF.div _ (2.0 : RF F)))
      rw [e2]
      exact ⟨rd_nonneg F this.1, rd_mono F this.2⟩

theorem trapVal_mono {w : List ℝ} (hw : Gaps w) {ys ys' : List (RF F)} (h : LeL ys ys') :
    Lx (fin 0) (trapVal (α := RF F) ys (w.map RF.of)) ∧
      Lx (trapVal (α := RF F) ys (w.map RF.of)) (trapVal (α := RF F) ys' (w.map RF.of)) :=
  F.sum_mono _ _ (terms_leL F (diff_near F hw) (adj_leL F h))

/-- below 1e5 K the computed radiance is finite -/
theorem core_finite {N A t : ℝ} (hN : 0 < N) (hN' : N ≤ 1e26) (hA : 0.9 ≤ A) (h1 : 0 < t) (h2 : t ≤ 1e5) :
    ∃ y, coreRad F N A t = fin y ∧ 0 ≤ y ∧ y ≤ 1e33 := by
  have hA0 : 0 < A := lt_of_lt_of_le (by norm_num) hA
  have hr : ∀ x : ℝ, 1e-10 ≤ x → x ≤ 1e100 → ∃ y, F.rnd x = fin y ∧ x * 0.9 ≤ y ∧ y ≤ x * 1.1 := by
    intro x hx1 hx2
    obtain ⟨y, e, h⟩ := F.rnd_near x (le_trans (by norm_num) hx1) (hx2.trans (by norm_num))
    obtain ⟨h1, h2⟩ := abs_le.1 h
    have hx0 : 0 < x := lt_of_lt_of_le (by norm_num) hx1
    have : x / 2 ^ 52 ≤ x * 0.1 := by
      rw [div_le_iff₀ (by positivity)]; norm_num; nlinarith
    refine ⟨y, e, ?_, ?_⟩ <;> norm_num at this ⊢ <;> linarith
  obtain ⟨nn, _⟩ := core_mono F hN hA0 h1 le_rfl
  -- 1/t
  have a1 : Lx (fin 0.000009) (F.rnd (1 / t)) := by
    obtain ⟨y, e, h, _⟩ := hr 1e-5 (by norm_num) (by norm_num)
    have : Lx (fin y) (F.rnd (1 / t)) := e ▸ F.rnd_mono _ _ (by
      rw [le_div_iff₀ h1]; norm_num at h2 ⊢; linarith)
    exact (lx_fin.2 (by norm_num at h ⊢; linarith)).trans this
  -- A * (1/t)
  have a2 : Lx (fin 0.000007) (F.rd (XF.mul (fin A) (F.rnd (1 / t)))) := by
    obtain ⟨y, e, h, _⟩ := hr 0.0000081 (by norm_num) (by norm_num)
    have h3 := mul_mono_left hA0 (lx_fin.2 (by norm_num)) a1
    have h4 : Lx (fin 0.0000081) (XF.mul (fin A) (fin 0.000009)) := by
      show Lx _ (fin (A * 0.000009))
      exact lx_fin.2 (by norm_num at hA ⊢; linarith)
    have := rd_mono F (h4.trans h3)
    rw [show F.rd (fin 0.0000081) = F.rnd 0.0000081 from rfl, e] at this
    exact (lx_fin.2 (by norm_num at h ⊢; linarith)).trans this
  -- exp
  have a3 : Lx (fin 1.000006) (F.exp (F.rd (XF.mul (fin A) (F.rnd (1 / t))))) := by
    obtain ⟨y, e, h⟩ := F.exp_near 0.000007 (by rw [abs_le]; norm_num)
    have := F.exp_mono _ _ a2
    rw [e] at this
    refine Lx.trans (lx_fin.2 ?_) this
    obtain ⟨h3, _⟩ := abs_le.1 h
    have h4 := Real.add_one_le_exp (0.000007 : ℝ)
    have : Real.exp 0.000007 / 2 ^ 50 ≤ Real.exp 0.000007 * 1e-14 := by
      rw [div_le_iff₀ (by positivity)]
      have := Real.exp_pos (0.000007 : ℝ)
      norm_num; nlinarith
    norm_num at *
    linarith
  -- minus one
  have a4 : Lx (fin 0.000005) (F.rd (XF.sub (F.exp (F.rd (XF.mul (fin A) (F.rnd (1 / t))))) (fin 1))) := by
    obtain ⟨y, e, h, _⟩ := hr 0.000006 (by norm_num) (by norm_num)
    have h3 := sub_mono 1 a3
    have h4 : Lx (fin 0.000006) (XF.sub (fin 1.000006) (fin 1)) := by
      show Lx _ (fin (1.000006 + -1))
      exact lx_fin.2 (by norm_num)
    have := rd_mono F (h4.trans h3)
    rw [show F.rd (fin 0.000006) = F.rnd 0.000006 from rfl, e] at this
    exact (lx_fin.2 (by norm_num at h ⊢; linarith)).trans this
  have a5 := div_anti hN (lx_fin.2 (by norm_num)) a4
  have a6 : XF.div (fin N) (fin 0.000005) = fin (N / 0.000005) := by
    show (if (0.000005 : ℝ) = 0 then _ else _) = _
    rw [if_neg (by norm_num)]
  rw [a6] at a5
  have a7 : Lx (fin (N / 0.000005)) (fin 5e32) := lx_fin.2 (by norm_num at hN' ⊢; linarith)
  have a8 := rd_mono F (a5.trans a7)
  obtain ⟨y, e, _, h⟩ := hr 5e32 (by norm_num) (by norm_num)
  rw [show F.rd (fin 5e32) = F.rnd 5e32 from rfl, e] at a8
  obtain ⟨z, e, h', h2⟩ := fin_of_le nn a8
  exact ⟨z, e, h', h2.trans (h.trans (by norm_num))⟩

/-! ### Relative error -/

/-- zero exactly, or positive with a relative error -/
def Near0 (δ : ℝ) (a : XF) (x : ℝ) : Prop := (x = 0 ∧ a = fin 0) ∨ Near δ a x

/-- zero or between two positive bounds -/
def In0 (l u x : ℝ) : Prop := x = 0 ∨ (l ≤ x ∧ x ≤ u)

theorem exp_le_three {δ : ℝ} (h : δ ≤ 1) : Real.exp δ ≤ 3 :=
  (Real.exp_le_exp.2 h).trans (lt_trans Real.exp_one_lt_d9 (by norm_num)).le

theorem exp_neg_ge {δ : ℝ} (h : δ ≤ 1) : 1 / 3 ≤ Real.exp (-δ) := by
  rw [Real.exp_neg, one_div]
  exact inv_anti₀ (Real.exp_pos _) (exp_le_three h)

theorem near0_add {δ : ℝ} {a b : XF} {x y : ℝ} (h0 : 0 ≤ δ) (hd : δ ≤ 1 / 2)
    (hx : In0 1e-170 1e50 x) (hy : In0 1e-170 1e50 y)
    (ha : Near0 δ a x) (hb : Near0 δ b y) :
    In0 1e-170 2e50 (x + y) ∧ Near0 (δ + uu) (F.rd (XF.add a b)) (x + y) := by
  have hu0 := uu_pos
  rcases ha with ⟨rfl, rfl⟩ | ha <;> rcases hb with ⟨rfl, rfl⟩ | hb
  · refine ⟨Or.inl (by ring), Or.inl ⟨by ring, ?_⟩⟩
    show F.rnd (0 + 0) = _
    rw [add_zero, rnd_zero]
  · have hy' : 1e-170 ≤ y ∧ y ≤ 1e50 := hy.resolve_left hb.1.ne'
    obtain ⟨_, q, rfl, h1, h2⟩ := id hb
    rw [zero_add]
    refine ⟨Or.inr ⟨hy'.1, hy'.2.trans (by norm_num)⟩, Or.inr ?_⟩
    show Near _ (F.rd (fin (0 + q))) y
    rw [zero_add]
    exact hb.rd F (by linarith) (le_trans (by norm_num) hy'.1) (hy'.2.trans (by norm_num))
  · have hx' : 1e-170 ≤ x ∧ x ≤ 1e50 := hx.resolve_left ha.1.ne'
    obtain ⟨_, q, rfl, h1, h2⟩ := id ha
    rw [add_zero]
    refine ⟨Or.inr ⟨hx'.1, hx'.2.trans (by norm_num)⟩, Or.inr ?_⟩
    show Near _ (F.rd (fin (q + 0))) x
    rw [add_zero]
    exact ha.rd F (by linarith) (le_trans (by norm_num) hx'.1) (hx'.2.trans (by norm_num))
  · have hx' : 1e-170 ≤ x ∧ x ≤ 1e50 := hx.resolve_left ha.1.ne'
    have hy' : 1e-170 ≤ y ∧ y ≤ 1e50 := hy.resolve_left hb.1.ne'
    have h5 : 1e-170 ≤ x + y := by have := hb.1; linarith
    have h6 : x + y ≤ 2e50 := by norm_num at hx' hy' ⊢; linarith
    refine ⟨Or.inr ⟨h5, h6⟩, Or.inr ?_⟩
    have : Near δ (XF.add a b) (x + y) := by
      obtain ⟨_, p, rfl, h1, h2⟩ := ha
      obtain ⟨_, q, rfl, h3, h4⟩ := hb
      exact ⟨by linarith [lt_of_lt_of_le (show (0:ℝ) < 1e-170 by norm_num) h5], p + q, rfl, by linarith, by linarith⟩
    exact this.rd F (by linarith) (le_trans (by norm_num) h5) (h6.trans (by norm_num))

theorem adj_near {δ : ℝ} (h0 : 0 ≤ δ) (hd : δ ≤ 1 / 2) {ys : List (RF F)} {vs : List ℝ}
    (h : List.Forall₂ (fun (a : RF F) (y : ℝ) => In0 1e-170 1e50 y ∧ Near0 δ a y) ys vs) :
    List.Forall₂ (fun (a : RF F) (y : ℝ) => In0 1e-170 2e50 y ∧ Near0 (δ + uu) a y)
      (NP.adj (· + ·) ys) (NP.adj (· + ·) vs) := by
  induction h with
  | nil => exact .nil
  | cons h t ih =>
    cases t with
    | nil => exact .nil
    | cons h' t => exact .cons (near0_add F h0 hd h'.1 h.1 h'.2 h.2) ih

theorem two_lit : (2.0 : RF F) = XF.fin 2 := by
  show F.rnd (2.0 : ℝ) = _
  rw [show (2.0 : ℝ) = ((2 : ℤ) : ℝ) by norm_num, F.rnd_int 2 (by norm_num)]
  norm_num

theorem terms_near {δ : ℝ} (h0 : 0 ≤ δ) (hd : δ ≤ 1 / 2) {ds : List (RF F)} {xs : List ℝ}
    (hds : List.Forall₂ (fun (d : RF F) (x : ℝ) => (1e-20 ≤ x ∧ x ≤ 1e9) ∧ Near uu d x) ds xs)
    {ss : List (RF F)} {vs : List ℝ}
    (h : List.Forall₂ (fun (a : RF F) (y : ℝ) => In0 1e-170 2e50 y ∧ Near0 δ a y) ss vs) :
    List.Forall₂ (fun (a : RF F) (y : ℝ) => In0 1e-191 1e60 y ∧ Near0 (δ + 3 * uu) a y)
      (List.zipWith (fun d s => d * s / 2.0) ds ss) (List.zipWith (fun d s => d * s / 2) xs vs) := by
  induction hds generalizing ss vs with
  | nil => exact .nil
  | @cons d x _ _ hx _ ih =>
    cases h with
    | nil => exact .nil
    | @cons q v _ _ h t =>
      refine .cons ?_ (ih t)
      obtain ⟨⟨hx1, hx2⟩, hn⟩ := hx
      obtain ⟨hr, hs⟩ := h
      have hu := uu_small
      have hu0 := uu_pos
      norm_num at hu
      show In0 _ _ _ ∧ Near0 _ (F.rd (XF.div (F.rd (XF.mul _ _)) (2.0 : RF F))) _
      rw [two_lit]
      rcases hs with ⟨rfl, rfl⟩ | hs
      · obtain ⟨d', rfl, _⟩ := hn.pos
        refine ⟨Or.inl (by simp), Or.inl ⟨by simp, ?_⟩⟩
        rw [show XF.mul (fin d') (fin 0) = fin 0 from congrArg fin (mul_zero d'),
          show F.rd (fin 0) = fin 0 from rnd_zero F,
          show XF.div (fin 0) (fin 2) = fin 0 by simp [XF.div], show F.rd (fin 0) = fin 0 from rnd_zero F]
      · have hr' := hr.resolve_left hs.1.ne'
        have hx0 := hn.1
        have hv0 := hs.1
        have l1 : 1e-190 ≤ x * v := by
          have := mul_le_mul hx1 hr'.1 (by norm_num) hx0.le
          refine le_trans ?_ this; norm_num
        have l2 : x * v ≤ 2e59 := by
          have := mul_le_mul hx2 hr'.2 hv0.le (by norm_num)
          refine this.trans ?_; norm_num
        have n1 := near_mul F hn hs (by linarith) (le_trans (by norm_num) l1) (l2.trans (by norm_num))
        have l3 : 1e-191 ≤ x * v / 2 := by rw [le_div_iff₀ two_pos]; refine le_trans ?_ l1; norm_num
        have l4 : x * v / 2 ≤ 1e60 := by rw [div_le_iff₀ two_pos]; refine l2.trans ?_; norm_num
        have n2 := near_div F n1 (near_refl (x := 2) two_pos) (by linarith) (le_trans (by norm_num) l3)
          (l4.trans (by norm_num))
        exact ⟨Or.inr ⟨l3, l4⟩, Or.inr (n2.mono (by linarith))⟩

theorem sum_near0 {δ : ℝ} (h0 : 0 ≤ δ) (hd : δ ≤ 1) {as : List (RF F)} {vs : List ℝ}
    (h : List.Forall₂ (fun (a : RF F) (y : ℝ) => In0 1e-191 1e60 y ∧ Near0 δ a y) as vs)
    (hl : vs.length ≤ 2 ^ 20) :
    Near0 (δ + 2 * vs.length * uu) (F.sum as) vs.sum ∧ In0 1e-191 (1e60 * vs.length) vs.sum := by
  have key : ∃ ys : List ℝ, as = ys.map fin ∧ (∀ y ∈ ys, y = 0 ∨ (1e-199 ≤ y ∧ y ≤ 1e150)) ∧
      ys.length = vs.length ∧ vs.sum * Real.exp (-δ) ≤ ys.sum ∧ ys.sum ≤ vs.sum * Real.exp δ ∧
      In0 1e-191 (1e60 * vs.length) vs.sum := by
    clear hl
    induction h with
    | nil => exact ⟨[], rfl, by simp, rfl, by simp, by simp, Or.inl rfl⟩
    | @cons a v as vs h _ ih =>
      obtain ⟨ys, rfl, h1, h2, h3, h4, h5⟩ := ih
      obtain ⟨hr, hn⟩ := h
      have key2 : ∃ y, a = fin y ∧ (y = 0 ∨ (1e-199 ≤ y ∧ y ≤ 1e150)) ∧
          v * Real.exp (-δ) ≤ y ∧ y ≤ v * Real.exp δ := by
        rcases hn with ⟨rfl, e⟩ | hn
        · exact ⟨0, e, Or.inl rfl, by simp, by simp⟩
        · have hr' := hr.resolve_left hn.1.ne'
          obtain ⟨hv, y, e, h6, h7⟩ := hn
          have e1 := exp_le_three hd
          have e2 := exp_neg_ge hd
          refine ⟨y, e, Or.inr ⟨?_, ?_⟩, h6, h7⟩
          · refine le_trans ?_ h6
            have := mul_le_mul hr'.1 e2 (by norm_num) hv.le
            refine le_trans ?_ this; norm_num
          · refine h7.trans ?_
            have := mul_le_mul hr'.2 e1 (Real.exp_pos _).le (by norm_num)
            refine this.trans ?_; norm_num
      obtain ⟨y, e, hy, h6, h7⟩ := key2
      refine ⟨y :: ys, ?_, ?_, by simp [h2], ?_, ?_, ?_⟩
      · exact congrArg (fun z : XF => z :: ys.map fin) e
      · intro z hz
        rcases List.mem_cons.1 hz with rfl | hz
        · exact hy
        · exact h1 z hz
      · simp only [List.sum_cons, add_mul]; linarith
      · simp only [List.sum_cons, add_mul]; linarith
      · simp only [List.sum_cons, List.length_cons, Nat.cast_succ]
        have hl0 : (0 : ℝ) ≤ vs.length := Nat.cast_nonneg _
        rcases hr with rfl | hr <;> rcases h5 with h5 | h5
        · exact Or.inl (by linarith)
        · refine Or.inr ⟨by linarith [h5.1], ?_⟩
          rw [zero_add]; refine h5.2.trans ?_; rw [mul_add]; linarith [show (0:ℝ) ≤ 1e60 * 1 by norm_num]
        · refine Or.inr ⟨by linarith [hr.1], ?_⟩
          rw [h5, add_zero]; refine hr.2.trans ?_; rw [mul_add]; nlinarith [show (0:ℝ) ≤ 1e60 by norm_num]
        · refine Or.inr ⟨by linarith [hr.1, h5.1, show (0:ℝ) ≤ 1e-191 by norm_num], ?_⟩
          rw [mul_add]; linarith [hr.2, h5.2]
  obtain ⟨ys, rfl, h1, h2, h3, h4, h5⟩ := key
  refine ⟨?_, h5⟩
  obtain ⟨S, e, hS⟩ := F.sum_near ys h1 (h2 ▸ hl)
  rcases h5 with h5 | h5
  · left
    refine ⟨h5, ?_⟩
    rw [h5] at h3 h4
    have : ys.sum = 0 := by linarith
    rw [this] at hS
    simp only [zero_mul, sub_zero] at hS
    have : S = 0 := abs_eq_zero.1 (le_antisymm hS (abs_nonneg _))
    exact e.trans (by rw [this])
  · right
    have hv : 0 < vs.sum := lt_of_lt_of_le (by norm_num) h5.1
    have hys : 0 < ys.sum := lt_of_lt_of_le (mul_pos hv (Real.exp_pos _)) h3
    have hl' : (vs.length : ℝ) ≤ 2 ^ 20 := by exact_mod_cast hl
    have n1 := near_of_abs (y := S) hys (u := ys.length / 2 ^ 51) (by positivity) (by
      rw [h2, div_le_div_iff₀ (by positivity) two_pos]
      have : (2 : ℝ) ^ 20 * 2 ≤ 1 * 2 ^ 51 := by norm_num
      linarith) hS
    have n2 : Near δ (fin ys.sum) vs.sum := ⟨hv, _, rfl, h3, h4⟩
    have := Near.comp n1 n2
    rw [show F.sum (ys.map fin) = fin S from e]
    refine this.mono (le_of_eq ?_)
    rw [h2]; unfold uu; ring

theorem trap_eq_sum (x y : List ℝ) :
    (List.zipWith (fun d s => d * s / 2) (NP.adj (· - ·) x) (NP.adj (· + ·) y)).sum = trap x y := by
  induction x generalizing y with
  | nil => simp [NP.adj, trap]
  | cons a x ih =>
    cases x with
    | nil => simp [NP.adj, trap]
    | cons b x =>
      match y with
      | [] => simp [NP.adj, trap]
      | [_] => simp [NP.adj, trap]
      | c :: d :: y =>
        have := ih (d :: y)
        simp only [NP.adj, List.zipWith_cons_cons, List.sum_cons, trap] at this ⊢
        rw [this]; ring

theorem trapVal_near {δ : ℝ} (h0 : 0 ≤ δ) (hd : δ ≤ 1 / 4) {w : List ℝ} (hw : Gaps w) {ys : List (RF F)}
    {vs : List ℝ}
    (h : List.Forall₂ (fun (a : RF F) (y : ℝ) => In0 1e-170 1e50 y ∧ Near0 δ a y) ys vs)
    (hl : w.length ≤ 2 ^ 20) :
    Near0 (δ + (4 + 2 * w.length) * uu) (trapVal (α := RF F) ys (w.map RF.of)) (trap w vs) ∧
      In0 1e-191 (1e60 * 2 ^ 20) (trap w vs) := by
  have hu := uu_small
  have hu0 := uu_pos
  norm_num at hu
  have h1 := terms_near F (δ := δ + uu) (by linarith) (by linarith) (diff_near F hw)
    (adj_near F h0 (by linarith) h)
  have hlen : (List.zipWith (fun d s => d * s / 2) (NP.adj (· - ·) w) (NP.adj (· + ·) vs)).length ≤ w.length := by
    simp only [List.length_zipWith, adj_length]; omega
  have h2 := sum_near0 F (δ := δ + uu + 3 * uu) (by linarith) (by linarith) h1 (hlen.trans hl)
  rw [trap_eq_sum] at h2
  have hlen' : ((List.zipWith (fun d s => d * s / 2) (NP.adj (· - ·) w) (NP.adj (· + ·) vs)).length : ℝ) ≤ w.length := by
    exact_mod_cast hlen
  have hl' : ((List.zipWith (fun d s => d * s / 2) (NP.adj (· - ·) w) (NP.adj (· + ·) vs)).length : ℝ) ≤ 2 ^ 20 := by
    exact_mod_cast hlen.trans hl
  refine ⟨?_, ?_⟩
  · rcases h2.1 with h3 | h3
    · exact Or.inl h3
    · refine Or.inr (h3.mono ?_)
      nlinarith
  · rcases h2.2 with h3 | h3
    · exact Or.inl h3
    · refine Or.inr ⟨h3.1, h3.2.trans ?_⟩
      exact mul_le_mul_of_nonneg_left hl' (by norm_num)

end
end Verif.Lemmas
