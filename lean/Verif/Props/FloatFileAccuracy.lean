import Verif.Props.FloatFile
import Verif.Props.FloatEmissiveTb
/-
C197: how far band radiances computed from a response file are from the radiances of the stored curve.
-/
namespace Verif.Props
open XF Model PyNum Lemmas Spec

/-! ### Errors of sums and integrals over slightly different positions -/

theorem nearR_mul {δ ε a b x y : ℝ} (h : Near δ (fin a) x) (h' : Near ε (fin b) y) : Near (δ + ε) (fin (a * b)) (x * y) :=
  near_mul' h h'

theorem nearR_div {δ ε a b x y : ℝ} (h : Near δ (fin a) x) (h' : Near ε (fin b) y) : Near (δ + ε) (fin (a / b)) (x / y) := by
  have := near_div' h h'
  obtain ⟨q, e, hq⟩ := h'.pos
  cases e
  rw [show XF.div (fin a) (fin b) = fin (a / b) from fin_div _ (ne_of_gt hq)] at this
  exact this

theorem nearR_add {δ a b x y : ℝ} (h : Near0 δ (fin a) x) (h' : Near0 δ (fin b) y) : Near0 δ (fin (a + b)) (x + y) := by
  rcases h with ⟨rfl, e⟩ | h
  · cases e
    rw [zero_add, zero_add]; exact h'
  rcases h' with ⟨rfl, e⟩ | h'
  · cases e
    rw [add_zero, add_zero]; exact .inr h
  obtain ⟨h0, y1, e, h1, h2⟩ := h
  cases e
  obtain ⟨h0', y2, e, h1', h2'⟩ := h'
  cases e
  refine .inr ⟨add_pos h0 h0', _, rfl, ?_, ?_⟩ <;> rw [add_mul] <;> linarith

theorem nearR_mul0 {δ ε a b x y : ℝ} (h : Near δ (fin a) x) (h' : Near0 ε (fin b) y) : Near0 (δ + ε) (fin (a * b)) (x * y) := by
  rcases h' with ⟨rfl, e⟩ | h'
  · cases e
    exact .inl ⟨mul_zero _, by rw [mul_zero]⟩
  · exact .inr (nearR_mul h h')

/-- the distance of two positions -/
theorem gap_near {η ρ a a' b b' : ℝ} (h0 : 0 ≤ η) (hρ : 0 < ρ) (hρ1 : ρ ≤ 1) (hη : 16 * η ≤ ρ)
    (ha : Near η (fin a') a) (hb : Near η (fin b') b) (hab : a * (1 + ρ) ≤ b) :
    Near (16 * η / ρ) (fin (b' - a')) (b - a) := by
  have hη1 : η ≤ 0.1 := by norm_num; linarith
  obtain ⟨x, e, h1⟩ := near_abs ha h0 hη1
  cases e
  obtain ⟨x, e, h2⟩ := near_abs hb h0 hη1
  cases e
  have a0 := ha.1
  have b0 := hb.1
  have hg : 0 < b - a := by nlinarith
  have hbg : ρ * b ≤ 2 * (b - a) := by nlinarith
  have hag : a ≤ b := by linarith
  have key : |b' - a' - (b - a)| ≤ (b - a) * (8 * η / ρ) := by
    rw [mul_div_assoc', le_div_iff₀ hρ]
    have h3 : |b' - a' - (b - a)| ≤ 4 * η * b := by
      rw [abs_le] at h1 h2 ⊢
      constructor <;> nlinarith
    have h4 : |b' - a' - (b - a)| * ρ ≤ 4 * η * b * ρ := mul_le_mul_of_nonneg_right h3 hρ.le
    nlinarith
  have := near_of_abs hg (by positivity) (by rw [div_le_iff₀ hρ]; linarith) key
  exact this.mono (le_of_eq (by ring))

theorem trap_shift {η ρ δ : ℝ} (h0 : 0 ≤ η) (hρ : 0 < ρ) (hρ1 : ρ ≤ 1) (hη : 16 * η ≤ ρ) {w' w : List ℝ}
    (hw : List.Forall₂ (fun a x => Near η (fin a) x) w' w) (hg : w.IsChain fun a b => a * (1 + ρ) ≤ b) {y' y : List ℝ}
    (hy : List.Forall₂ (fun a x => Near0 δ (fin a) x) y' y) :
    Near0 (16 * η / ρ + δ) (fin (trap w' y')) (trap w y) := by
  have zero : Near0 (16 * η / ρ + δ) (fin 0) 0 := .inl ⟨rfl, rfl⟩
  induction hw generalizing y' y with
  | nil => simpa [trap] using zero
  | @cons a x w' w ha hw ih =>
    cases hw with
    | nil => simpa [trap] using zero
    | @cons b z w' w hb hw =>
      cases hy with
      | nil => simpa [trap] using zero
      | @cons c u y' y hc hy =>
        cases hy with
        | nil => simpa [trap] using zero
        | @cons d v y' y hd hy =>
          obtain ⟨g1, g2⟩ := List.isChain_cons_cons.1 hg
          have half : Near0 (0 + δ) (fin (1 / 2 * (c + d))) (1 / 2 * (u + v)) := nearR_mul0 (near_refl (by norm_num)) (nearR_add hc hd)
          have t1 := nearR_mul0 (gap_near h0 hρ hρ1 hη ha hb g1) half
          have t2 := ih g2 (.cons hd hy)
          rw [zero_add] at t1
          have := nearR_add t1 t2
          show Near0 _ (fin ((b - a) * ((c + d) / 2) + trap (b :: w') (d :: y'))) ((z - x) * ((u + v) / 2) + trap (z :: w) (v :: y))
          rw [show (c + d) / 2 = 1 / 2 * (c + d) by ring, show (u + v) / 2 = 1 / 2 * (u + v) by ring]
          exact this

/-- Planck's law at a slightly different position -/
theorem planckOf_shift {ws : String} {l l' t η : ℝ} (ht : 0 < t) (h0 : 0 ≤ η) (h1 : η ≤ 1e-6) (h : Near η (fin l') l)
    (hx1 : 0.71 ≤ planckX ws l t) (hx2 : planckX ws l t ≤ 299) :
    (0.7 ≤ planckX ws l' t ∧ planckX ws l' t ≤ 1.001 * planckX ws l t) ∧
      Near ((5 + 8 * planckX ws l t) * η) (fin (planckOf ws l' t)) (planckOf ws l t) := by
  have c1 := c1R_pos
  have c2 := c2R_pos
  have core : ∀ {x x' N N' : ℝ}, 0.71 ≤ x → x ≤ 299 → Near η (fin x') x → Near (5 * η) (fin N') N →
      (0.7 ≤ x' ∧ x' ≤ 1.001 * x) ∧ Near ((5 + 8 * x) * η) (fin (N' / (Real.exp x' - 1))) (N / (Real.exp x - 1)) := by
    intro x x' N N' b1 b2 hx hN
    obtain ⟨z, e, hz⟩ := near_abs hx h0 (h1.trans (by norm_num))
    cases e
    have x0 : 0 < x := hx.1
    have hxη : x * (2 * η) ≤ x * 2e-6 := mul_le_mul_of_nonneg_left (by norm_num at h1 ⊢; linarith) x0.le
    rw [abs_le] at hz
    refine ⟨⟨by norm_num at b1 hxη ⊢; linarith, by norm_num at hxη ⊢; linarith⟩, ?_⟩
    have e1 := near_real_exp h0 (h1.trans (by norm_num)) hx
    have hE := exp_range (x := x) (by norm_num at b1 ⊢; linarith) (by linarith)
    have e2 : Near (4 * (2 * η * x)) (fin (Real.exp x' - 1)) (Real.exp x - 1) :=
      near_sub_one e1 hE.1 (by positivity) (by
        norm_num at hxη; linarith)
    exact (nearR_div hN e2).mono (le_of_eq (by ring))
  unfold planckX planckOf at *
  by_cases hws : ws = "wavenumber"
  · simp only [hws, if_true] at hx1 hx2 ⊢
    unfold planckWavenumber
    rw [arg_eq_wn] at hx1 hx2 ⊢
    rw [arg_eq_wn]
    have hx : Near η (fin (c1R * l' / t)) (c1R * l / t) :=
      (nearR_div (nearR_mul (near_refl c1) h) (near_refl ht)).mono (by linarith)
    have hN : Near (5 * η) (fin (2 * Spec.h * Spec.c ^ 2 * l' ^ 3)) (2 * Spec.h * Spec.c ^ 2 * l ^ 3) := by
      have := nearR_mul (near_refl c2) (nearR_mul (nearR_mul h h) h)
      rw [show l' * l' * l' = l' ^ 3 by ring, show l * l * l = l ^ 3 by ring] at this
      exact this.mono (by linarith)
    exact core hx1 hx2 hx hN
  · simp only [hws, if_false] at hx1 hx2 ⊢
    unfold planckWavelength
    rw [arg_eq_wl] at hx1 hx2 ⊢
    rw [arg_eq_wl]
    have hx : Near η (fin (c1R / l' / t)) (c1R / l / t) :=
      (nearR_div (nearR_div (near_refl c1) h) (near_refl ht)).mono (by linarith)
    have hN : Near (5 * η) (fin (2 * Spec.h * Spec.c ^ 2 / l' ^ 5)) (2 * Spec.h * Spec.c ^ 2 / l ^ 5) := by
      have := nearR_div (near_refl c2) (nearR_mul (nearR_mul (nearR_mul (nearR_mul h h) h) h) h)
      rw [show l' * l' * l' * l' * l' = l' ^ 5 by ring, show l * l * l * l * l = l ^ 5 by ring] at this
      exact this.mono (by linarith)
    exact core hx1 hx2 hx hN

/-- the band radiance of slightly different positions -/
theorem exactBand_shift {ws : String} {η ρ t X : ℝ} (ht : 0 < t) (h0 : 0 ≤ η) (h1 : η ≤ 1e-6) (hρ : 0 < ρ) (hρ1 : ρ ≤ 1)
    (hη : 16 * η ≤ ρ) (hX : X ≤ 299) {w' w r : List ℝ} (hw : List.Forall₂ (fun a x => Near η (fin a) x) w' w)
    (hg : w.IsChain fun a b => a * (1 + ρ) ≤ b) (hr : ∀ y ∈ r, 0 ≤ y)
    (hx : ∀ x ∈ w, 0.71 ≤ planckX ws x t ∧ planckX ws x t ≤ X) :
    (∀ x ∈ w', 0.7 ≤ planckX ws x t ∧ planckX ws x t ≤ 1.001 * X) ∧
      (0 < trap w' r → ∀ norm, 0 < exactBand ws w' r norm t →
        Near ((5 + 8 * X) * η + 32 * η / ρ) (fin (exactBand ws w' r norm t)) (exactBand ws w r norm t)) := by
  constructor
  · intro x' hx'
    obtain ⟨x, hm, hn⟩ := forall₂_mem hw hx'
    obtain ⟨⟨a, b⟩, -⟩ := planckOf_shift ht h0 h1 hn (hx x hm).1 ((hx x hm).2.trans hX)
    exact ⟨a, b.trans (mul_le_mul_of_nonneg_left (hx x hm).2 (by norm_num))⟩
  intro hT norm hpos
  have hq : 0 ≤ 16 * η / ρ := by positivity
  have resp : ∀ r : List ℝ, (∀ y ∈ r, 0 ≤ y) → List.Forall₂ (fun a x => Near0 0 (fin a) x) r r := by
    intro r hr
    rw [List.forall₂_same]
    intro y hy
    rcases (hr y hy).eq_or_lt with h | h
    · exact .inl ⟨h.symm, by rw [← h]⟩
    · exact .inr (near_refl h)
  have hz : ∀ r : List ℝ, (∀ y ∈ r, 0 ≤ y) → List.Forall₂ (fun a x => Near0 ((5 + 8 * X) * η) (fin a) x)
      (List.zipWith (fun x y => planckOf ws x t * y) w' r) (List.zipWith (fun x y => planckOf ws x t * y) w r) := by
    clear hT hpos hg
    induction hw with
    | nil => intro r _; exact .nil
    | @cons a x w' w ha hw ih =>
      intro r hr
      cases r with
      | nil => exact .nil
      | cons y r =>
        obtain ⟨b1, b2⟩ := hx x (by simp)
        obtain ⟨-, hn⟩ := planckOf_shift ht h0 h1 ha b1 (b2.trans hX)
        refine .cons ?_ (ih (fun x hm => hx x (by simp [hm])) r (fun y hy => hr y (by simp [hy])))
        have hn' := hn.mono (show _ ≤ (5 + 8 * X) * η from mul_le_mul_of_nonneg_right (by linarith) h0)
        rcases (hr y (by simp)).eq_or_lt with h | h
        · exact .inl ⟨by rw [← h]; exact mul_zero _, by rw [← h]; exact congrArg fin (mul_zero _)⟩
        · have := nearR_mul hn' (near_refl h)
          exact .inr (this.mono (by linarith))
  have T := trap_shift h0 hρ hρ1 hη hw hg (resp r hr)
  have V := trap_shift h0 hρ hρ1 hη hw hg (hz r hr)
  have T' := T.resolve_left (fun h => hT.ne' (XF.fin.inj h.2))
  unfold exactBand at hpos ⊢
  have hV : 0 < trap w' (List.zipWith (fun x y => planckOf ws x t * y) w' r) := by
    cases norm
    · exact hpos
    · simp only [if_true] at hpos
      exact (div_pos_iff_of_pos_right hT).1 hpos
  have V' := V.resolve_left (fun h => hV.ne' (XF.fin.inj h.2))
  cases norm
  · refine V'.mono ?_
    rw [show 32 * η / ρ = 16 * η / ρ + 16 * η / ρ by ring]
    linarith
  · refine (nearR_div V' T').mono (le_of_eq ?_)
    ring

/-! ### From the file -/

/-- the positions of a stored curve in metre or inverse metre, in ascending order -/
noncomputable def bandPositions (ws : String) (vals : List ℝ) (s : ℝ) : List ℝ :=
  if ws = "wavenumber" then (vals.map fun x => 1 / (x * s)).reverse else vals.map fun x => x * s

/-- its responses, in the same order -/
def bandResponses (ws : String) (r : List ℝ) : List ℝ := if ws = "wavenumber" then r.reverse else r

/-- what a converter holds that was made for the name of a band -/
theorem new_made_fields {F : FP} {s : Sensor (RF F)} (hs : FpSensor s) (p i q d ws : String) (res : RF F)
    (hws : ws = "wavelength" ∨ ws = "wavenumber") (hres : PyNum.eq res 0 = false) {b : BandRsr (RF F)} {det : DetRsr (RF F)}
    (hb : s.rsr.get? (bandNamed i q) = some b) (hd : b.get? d = some det) {w r : List (RF F)}
    (hw : det.get? "wavelength" = some (.arr w)) (hr : det.get? "response" = some (.arr r)) :
    ∃ c, RadTb.new (.ok s) p i (.name q) d ws res = .ok c ∧ c.wavespace = ws ∧
      NP.trapezoid c.response c.wave = .ok c.rsr_integral ∧
      c.wave = (if ws = "wavenumber" then (w.map fun x => 1.0 / (1e-4 * x)).reverse.map (· * (100.0 : RF F))
        else w.map (· * (1e-6 : RF F))) ∧
      c.response = if ws = "wavenumber" then r.reverse else r := by
  have hname : ∀ rsr : Rsr (RF F), converterBandname i rsr (.name q) = .ok (some (bandNamed i q)) := fun _ => rfl
  have hres' : ¬ PyNum.eq res 0 = true := by rw [hres]; decide
  obtain ⟨wl, rl, hw', hr', hno, hcv⟩ := hs.curve _ _ hb _ _ hd
  rw [hw] at hw'
  rw [hr] at hr'
  cases hw'
  cases hr'
  unfold RadTb.new
  rcases hws with rfl | rfl
  · rw [if_neg (by decide), if_neg hres']
    simp only [bind, Except.bind, pure, Except.pure]
    rw [if_neg (by decide)]
    simp only [hname]
    unfold converterLookup
    dsimp only
    rw [if_neg (by decide)]
    unfold rsrDictGetItem
    simp only [hb, Dict.getItem, hd, getArr, hw, hr, bind, Except.bind, pure, Except.pure]
    rw [trapezoid_val _ _ (by simp [hcv.len])]
    refine ⟨_, rfl, rfl, trapezoid_val _ _ (by simp [hcv.len]), ?_, ?_⟩
    · rw [if_neg (by decide), hs.scale]
    · rw [if_neg (by decide)]
  · rw [if_neg (by decide), if_neg hres']
    have dets : ∀ k B, s.rsr.get? k = some B → ∃ y, band2wavenumber B = .ok y := by
      intro k B hk
      rw [band2wavenumber_eq _ (hs.dets k B hk)]
      refine mapM_pair_ok convertDetector B ?_
      intro x hx
      obtain ⟨w, r, hw, hr, hno, -⟩ := hs.curve k B hk x.1 x.2 (get?_of_mem (hs.dets k B hk) hx)
      obtain ⟨out, ho, -⟩ := convertDetector_spec x.2 _ _ _ hno hw hr rfl
      exact ⟨out, ho⟩
    obtain ⟨rs, hrs⟩ := mapM_pair_ok band2wavenumber s.rsr fun x hx => dets x.1 x.2 (get?_of_mem hs.bands hx)
    have hc : convert2wavenumber s.rsr = .ok (rs, ⟨"cm-1", 100.0⟩) := by
      rw [convert2wavenumber_eq _ hs.bands, hrs]
      rfl
    obtain ⟨y, hy, hy'⟩ := (forall₂_get? (mapM_pair_spec band2wavenumber s.rsr _ hrs).2 _).1 _ hb
    rw [band2wavenumber_eq _ (hs.dets _ _ hb)] at hy
    obtain ⟨z, hz, hz'⟩ := (forall₂_get? (mapM_pair_spec convertDetector b _ hy).2 _).1 _ hd
    obtain ⟨out, ho, ho1, ho2, -⟩ := convertDetector_spec det _ _ _ hno hw hr rfl
    rw [hz] at ho
    cases ho
    simp only [bind, Except.bind, pure, Except.pure]
    rw [if_pos (by decide)]
    simp only [hc, hname]
    unfold converterLookup
    dsimp only
    rw [if_pos (by decide)]
    simp only [Dict.getItem, hy', hz', getArr, ho1, ho2, bind, Except.bind, pure, Except.pure]
    rw [trapezoid_val _ _ (by simp [hcv.len])]
    refine ⟨_, rfl, rfl, trapezoid_val _ _ (by simp [hcv.len]), ?_, ?_⟩
    · rw [if_pos trivial]
    · rw [if_pos trivial]

/-- the positions a converter computes, and how far they are from the stored ones -/
theorem positions_near (F : FP) {ws : String} {vals : List ℝ} {s : ℝ}
    (hr : ∀ x ∈ vals, 0 < x ∧ 2.1e-8 ≤ x * s ∧ x * s ≤ 4.9e-3) {w' : List ℝ}
    (e : (if ws = "wavenumber" then
        (((vals.map RF.of).map fun x => x * RF.of s * (1e6 : RF F)).map fun x => 1.0 / (1e-4 * x)).reverse.map (· * (100.0 : RF F))
        else ((vals.map RF.of).map fun x => x * RF.of s * (1e6 : RF F)).map (· * (1e-6 : RF F))) = w'.map RF.of) :
    List.Forall₂ (fun a x => Near (8 * uu) (fin a) x) w' (bandPositions ws vals s) := by
  have hu := uu_small
  have hu0 := uu_pos
  norm_num at hu
  have mic : ∀ x ∈ vals, Near (3 * uu) ((RF.of x : RF F) * RF.of s * (1e6 : RF F)) (x * s * 1e6) ∧ 0.02 ≤ x * s * 1e6 ∧
      x * s * 1e6 ≤ 5000 := by
    intro x hx
    obtain ⟨h0, h1, h2⟩ := hr x hx
    norm_num at h1 h2
    have hs : 0 < s := by
      by_contra h
      have := mul_nonpos_of_nonneg_of_nonpos h0.le (not_lt.1 h)
      linarith
    have n1 := near_mul F (near_refl h0) (near_refl hs) (by norm_num) (le_trans (by norm_num) h1) (h2.trans (by norm_num))
    have n2 := near_mul F n1 (near_lit F 1 false 6 (by norm_num) (by norm_num)) (by linarith)
      (le_trans (by norm_num) (mul_le_mul_of_nonneg_right h1 (by norm_num)))
      ((mul_le_mul_of_nonneg_right h2 (by norm_num)).trans (by norm_num))
    refine ⟨Near.mono n2 (by linarith), ?_, ?_⟩ <;> norm_num <;> linarith
  have lists : ∀ {g : ℝ → RF F} {k : ℝ → ℝ} {v w : List ℝ}, v.map g = w.map RF.of → (∀ x ∈ v, Near (8 * uu) (g x) (k x)) →
      List.Forall₂ (fun a x => Near (8 * uu) (fin a) x) w (v.map k) := by
    intro g k v
    induction v with
    | nil => intro w h _; cases w with
      | nil => exact .nil
      | cons a w => cases h
    | cons x v ih =>
      intro w h hk
      cases w with
      | nil => cases h
      | cons a w =>
        simp only [List.map_cons, List.cons.injEq] at h
        refine .cons ?_ (ih h.2 (fun x hx => hk x (by simp [hx])))
        have := hk x (by simp)
        rw [h.1] at this
        exact this
  unfold bandPositions
  by_cases hws : ws = "wavenumber"
  · simp only [hws, if_true] at e ⊢
    rw [List.map_reverse, List.map_map, List.map_map, List.map_map] at e
    have e' := congrArg List.reverse e
    rw [List.reverse_reverse, ← List.map_reverse] at e'
    rw [← List.forall₂_reverse_iff, List.reverse_reverse]
    refine lists e' ?_
    intro x hx
    obtain ⟨n, b1, b2⟩ := mic x hx
    obtain ⟨x0, -⟩ := hr x hx
    obtain ⟨y, hy⟩ : ∃ y, y = x * s * 1e6 := ⟨_, rfl⟩
    have ey : 1 / (x * s) = 1 / (1e-4 * y) * 100.0 := by
      rw [hy]
      have : x * s ≠ 0 := by
        intro h; rw [h] at b1; norm_num at b1
      field_simp
      norm_num
    rw [← hy] at n b1 b2
    rw [ey]
    have c1 : 1e-6 ≤ 1e-4 * y := by norm_num at b1 ⊢; linarith
    have c2 : 1e-4 * y ≤ 1 := by norm_num at b2 ⊢; linarith
    have c0 : 0 < 1e-4 * y := lt_of_lt_of_le (by norm_num) c1
    have n1 := near_mul F (near_lit F 1 true 4 (by norm_num) (by norm_num)) n (by linarith)
      (le_trans (by norm_num) c1) (c2.trans (by norm_num))
    have d1 : 1 ≤ 1 / (1e-4 * y) := by rw [le_div_iff₀ c0]; linarith
    have d2 : 1 / (1e-4 * y) ≤ 1e6 := by rw [div_le_iff₀ c0]; refine le_trans ?_ (mul_le_mul_of_nonneg_left c1 (by norm_num)); norm_num
    have n2 := near_div F (near_refl (x := 1) one_pos) n1 (by linarith) (le_trans (by norm_num) d1) (d2.trans (by norm_num))
    have n3 := near_mul F n2 (near_lit F 1000 true 1 (by norm_num) (by norm_num)) (by linarith)
      (by refine le_trans ?_ (mul_le_mul_of_nonneg_right d1 (by norm_num)); norm_num)
      (by refine (mul_le_mul_of_nonneg_right d2 (by norm_num)).trans ?_; norm_num)
    simp only [Function.comp_apply]
    rw [one_lit]
    exact n3.mono (by linarith)
  · simp only [hws, if_false] at e ⊢
    rw [List.map_map, List.map_map] at e
    refine lists e ?_
    intro x hx
    obtain ⟨n, b1, b2⟩ := mic x hx
    have n3 := near_mul F n (near_lit F 1 true 6 (by norm_num) (by norm_num)) (by linarith)
      (by refine le_trans ?_ (mul_le_mul_of_nonneg_right b1 (by norm_num)); norm_num)
      (by refine (mul_le_mul_of_nonneg_right b2 (by norm_num)).trans ?_; norm_num)
    rw [show x * s * (1e6 : ℝ) * (OfScientific.ofScientific 1 true 6 : ℝ) = x * s by norm_num; ring] at n3
    exact n3.mono (by linarith)

theorem positions_gaps {ws : String} {vals : List ℝ} {s ρ : ℝ} (hs : 0 < s) (hr : ∀ x ∈ vals, 0 < x)
    (hg : vals.IsChain fun x y => x * (1 + ρ) ≤ y) :
    (bandPositions ws vals s).IsChain fun a b => a * (1 + ρ) ≤ b := by
  unfold bandPositions
  split
  · rw [List.isChain_reverse, List.isChain_map]
    induction vals with
    | nil => exact .nil
    | cons a v ih =>
      cases v with
      | nil => exact .singleton a
      | cons b v =>
        have hab := (List.isChain_cons_cons.1 hg).1
        refine List.isChain_cons_cons.2 ⟨?_, ih (fun x hx => hr x (by simp [hx])) hg.tail⟩
        have ha := hr a (by simp)
        have hb := hr b (by simp)
        rw [one_div_mul_eq_div, div_le_div_iff₀ (by positivity) (by positivity)]
        nlinarith
  · rw [List.isChain_map]
    refine hg.imp ?_
    intro a b hab
    have := mul_le_mul_of_nonneg_right hab hs.le
    linarith

/-- C197: a converter is made for every listed band and detector and for either wave space. If the stored positions differ
by at least the fraction `ρ` and the exponent of Planck's law is between 0.71 and `X ≤ 299`, the band radiances it computes
(normalised or not) are those of the stored curve by the trapezoid rule, up to the fraction
`(89 + 177 X + 4 n + 256/ρ)/2^50`, `n` the number of samples. -/
theorem C197_file_radiance (F : FP) (env : Env) (h5open : Content → Option (H5File (RF F))) (platform instrument q : String)
    (w : World) (r : Reader (RF F)) (hr : Eff.result (readerNew env h5open (some platform) (some instrument) none) w = .ok r)
    (f : H5File (RF F)) (hf : ReaderFile env h5open platform instrument w f) (l : List String) (hl : ListsBands f l)
    (hfile : FpFile f) (hq : bandNamed instrument q ∈ l) (n : Nat) (hn : DetectorCount f (bandNamed instrument q) n)
    (i : Nat) (hi : i < n) (vals : List ℝ) (s : ℝ) (resp : List ℝ)
    (hst : FpStored f (bandNamed instrument q) (detName i) vals s resp) (ρ : ℝ) (hρ : 2e-10 ≤ ρ) (hρ1 : ρ ≤ 1)
    (hg : vals.IsChain fun x y => x * (1 + ρ) ≤ y) (ws : String) (hws : ws = "wavelength" ∨ ws = "wavenumber") (res : RF F)
    (hres : PyNum.eq res 0 = false) :
    ∃ c, Eff.result (converterNew env h5open platform instrument (.name q) (detName i) ws res) w = .ok c ∧
      ∀ (nc : Int) (norm : Bool) (ts : List ℝ) (X : ℝ), ts ≠ [] → 0 ≤ X → X ≤ 299 →
        (∀ t ∈ ts, 0 < t ∧ ∀ x ∈ bandPositions ws vals s, 0.71 ≤ planckX ws x t ∧ planckX ws x t ≤ X) →
        ∃ (out : RadResult (RF F)) (vs : List ℝ), c.tb2radiance nc (ts.map RF.of) none norm = .ok out ∧
          out.radiance = .arr (vs.map RF.of) ∧
          List.Forall₂ (fun v t => |v - exactBand ws (bandPositions ws vals s) (bandResponses ws resp) norm t| ≤
            exactBand ws (bandPositions ws vals s) (bandResponses ws resp) norm t *
              (89 + 177 * X + 4 * vals.length + 256 / ρ) / 2 ^ 50) vs ts := by
  have hu := uu_small
  have hu0 := uu_pos
  norm_num at hu
  have hρ0 : 0 < ρ := lt_of_lt_of_le (by norm_num) hρ
  have hsens := reader_fpSensor F env h5open platform instrument w r hr f hf l hl hfile
  obtain ⟨-, -, -, -, -, hb⟩ := reader_detector env h5open platform instrument w r hr f hf l hl
  obtain ⟨B, hB, m, hm, -, hall⟩ := hb _ hq
  obtain rfl : n = m := (detectorNames_spec f _).2.2 n m hn hm
  obtain ⟨r', wl, c', a1, a2, -, e⟩ := hall i hi
  obtain ⟨c, hc, k1, k2, k3, k4⟩ := new_made_fields hsens platform instrument q
    (detName i) ws res hws hres hB e (w := wl) (r := r') rfl rfl
  refine ⟨c, ?_, ?_⟩
  · unfold converterNew
    rw [if_neg (by rcases hws with rfl | rfl <;> decide), if_neg (by rw [hres]; decide)]
    unfold Eff.result at hr ⊢
    rcases hh : readerNew env h5open (some platform) (some instrument) none w with ⟨x, w', t⟩
    rw [hh] at hr
    cases hr
    rw [eff_bind_ok hh]
    exact hc
  obtain ⟨sv, q1, q2⟩ := hst.scaled
  have hW : HasWavelength f (bandNamed instrument q) (detName i) ((vals.map RF.of).map fun x => x * RF.of s * (1e6 : RF F)) :=
    ⟨_, sv, _, q1, q2, rfl⟩
  obtain ⟨mw, hmw, hcv⟩ := hst.curve F
  have e1 := hasWavelength_unique a2 hW
  have e2 := hasWavelength_unique hW hmw
  have e3 := hasResponse_unique a1 hst.response
  subst e1
  subst e3
  have hs : 0 < s := by
    cases hv : vals with
    | nil => have := hst.two; rw [hv] at this; simp at this
    | cons x t =>
      obtain ⟨x0, x1, -⟩ := hst.range x (by simp [hv])
      by_contra hn
      have := mul_nonpos_of_nonneg_of_nonpos x0.le (not_lt.1 hn)
      norm_num at x1
      linarith
  have hlen : mw.length = vals.length := by
    have := congrArg List.length e2
    simpa using this.symm
  obtain ⟨w', ew, hband⟩ : ∃ w' : List ℝ, c.wave = w'.map RF.of ∧ FpBand ws w' (bandResponses ws resp) := by
    rw [k3, e2]
    unfold bandResponses
    rcases hws with rfl | rfl
    · obtain ⟨w', e, h⟩ := curve_wavelength F hcv
      exact ⟨w', by rw [if_neg (by decide)]; exact e, by rw [if_neg (by decide)]; exact h⟩
    · obtain ⟨w', e, h⟩ := curve_wavenumber F hcv
      exact ⟨w', by rw [if_pos rfl]; exact e, by rw [if_pos rfl]; exact h⟩
  have hresp : c.response = (bandResponses ws resp).map RF.of := by
    rw [k4]; unfold bandResponses
    split
    · rw [List.map_reverse]
    · rfl
  have hload : FpLoaded c w' (bandResponses ws resp) := ⟨ew, hresp, k2⟩
  have hnear := positions_near F hst.range (k3.symm.trans ew)
  have hgaps := positions_gaps (ws := ws) hs (fun x hx => (hst.range x hx).1) hg
  have hpl : (bandPositions ws vals s).length = vals.length := by
    unfold bandPositions; split <;> simp
  have hl' : w'.length = vals.length := hnear.length_eq.trans hpl
  have nonneg : ∀ y ∈ bandResponses ws resp, 0 ≤ y := by
    intro y hy
    rcases hband.resp y hy with h | h
    · exact h.ge
    · exact le_trans (by norm_num) h.1
  intro nc norm ts X hts hX0 hX hx
  have one : ∀ t ∈ ts, ∃ v : ℝ, bandVal c norm (RF.of t) = RF.of v ∧
      |v - exactBand ws (bandPositions ws vals s) (bandResponses ws resp) norm t| ≤
            exactBand ws (bandPositions ws vals s) (bandResponses ws resp) norm t *
              (89 + 177 * X + 4 * vals.length + 256 / ρ) / 2 ^ 50 := by
    intro t ht
    obtain ⟨t0, hxt⟩ := hx t ht
    obtain ⟨hx', hsh⟩ := exactBand_shift (η := 8 * uu) t0 (by linarith) (by norm_num; linarith) hρ0 hρ1
      (by norm_num at hρ; linarith) hX hnear hgaps nonneg hxt
    have hn := bandVal_near F hload (k1.symm ▸ hband) norm t0 (X := 1.001 * X) (by norm_num; linarith) (by positivity)
      (by rw [k1]; exact hx')
    rw [k1] at hn
    have tot := hn.comp (hsh hband.integral norm hn.1)
    have hn0 : (0 : ℝ) ≤ vals.length := Nat.cast_nonneg _
    have hn1 : (vals.length : ℝ) ≤ 2 ^ 20 := by exact_mod_cast hst.size
    have hi0 : 0 ≤ 1 / ρ := by positivity
    have hi1 : 1 / ρ ≤ 5e9 := by rw [div_le_iff₀ hρ0]; norm_num at hρ ⊢; linarith
    have tot' : Near ((89 + 177 * X + 4 * vals.length + 256 * (1 / ρ)) * uu) (bandVal (α := RF F) c norm (RF.of t))
        (exactBand ws (bandPositions ws vals s) (bandResponses ws resp) norm t) := by
      refine tot.mono ?_
      rw [hl']
      have : (49 + 112 * (1.001 * X) + 4 * (vals.length : ℝ)) * uu + ((5 + 8 * X) * (8 * uu) + 32 * (8 * uu) / ρ) =
          (89 + (112 * 1.001 + 64) * X + 4 * vals.length + 256 * (1 / ρ)) * uu := by ring
      rw [this]
      refine mul_le_mul_of_nonneg_right ?_ hu0.le
      norm_num
      nlinarith
    obtain ⟨v, ev, hv⟩ := near_abs tot' (by positivity) (by
      have : 89 + 177 * X + 4 * (vals.length : ℝ) + 256 * (1 / ρ) ≤ 1e13 := by
        clear tot tot'
        generalize 1 / ρ = z at *
        rw [show (2 : ℝ) ^ 20 = 1048576 by norm_num] at hn1
        norm_num at hi1 ⊢
        linarith
      have := mul_le_mul this hu hu0.le (by norm_num)
      refine this.trans ?_; norm_num)
    refine ⟨v, ev, hv.trans (le_of_eq ?_)⟩
    unfold uu; ring
  have hval := tb2radiance_val c (by rw [ew]; simpa using gaps_ne hband.integral)
    (by rw [ew, hresp]; simp [hband.len]) nc (ts.map RF.of) (by simpa using hts) norm
  obtain ⟨vs, hv1, hv2⟩ : ∃ vs : List ℝ, (ts.map RF.of).map (bandVal c norm) = vs.map RF.of ∧
      List.Forall₂ (fun v t => |v - exactBand ws (bandPositions ws vals s) (bandResponses ws resp) norm t| ≤
            exactBand ws (bandPositions ws vals s) (bandResponses ws resp) norm t *
              (89 + 177 * X + 4 * vals.length + 256 / ρ) / 2 ^ 50) vs ts := by
    clear hval hx hts
    induction ts with
    | nil => exact ⟨[], rfl, .nil⟩
    | cons t ts ih =>
      obtain ⟨v, h1, h2⟩ := one t (by simp)
      obtain ⟨vs, h3, h4⟩ := ih (fun t ht => one t (by simp [ht]))
      refine ⟨v :: vs, ?_, .cons h2 h4⟩
      simp only [List.map_cons] at h3 ⊢
      rw [h1, h3]
  exact ⟨_, vs, hval, congrArg Rad.arr hv1, hv2⟩

/-- the band around 11 micron of the example file at 300 K, in both wave spaces -/
example (ws : String) (hws : ws = "wavelength" ∨ ws = "wavenumber") :
    ∃ c, Eff.result (converterNew exampleEnv (openOnly "H".toList exFpFile) "FY-3A" "virr" (.name "ch4") "det-1" ws (RF.of 0.1))
      (worldWith ("/rsr", "rsr_virr_FY-3A.h5") "H".toList) = .ok c ∧
      ∃ (out : RadResult (RF Double.fp)) (v E : ℝ), c.tb2radiance 0 [RF.of 300] none true = .ok out ∧
        out.radiance = .arr [RF.of v] ∧
        E = exactBand ws (bandPositions ws [10000, 11000, 12000] 1e-9) (bandResponses ws [0, 1, 0.5]) true 300 ∧
        |v - E| ≤ E * 1e-10 := by
  obtain ⟨info, hi⟩ := exFpFile_loads
  obtain ⟨⟨r, hr⟩, hf⟩ := reader_there exampleEnv (openOnly "H".toList exFpFile) "FY-3A" "virr" "virr" (by decide +kernel)
    (worldWith ("/rsr", "rsr_virr_FY-3A.h5") "H".toList)
    (.inl ⟨"v1.6.1".toList, by rfl, [], [], [], rfl, by simp, by simp, Or.inl rfl⟩) "H".toList exFpFile info (by rfl) (by rfl) hi
  have h01 : PyNum.eq (α := RF Double.fp) (RF.of 0.1) 0 = false := by
    rw [show (0 : RF Double.fp) = RF.of 0 from (show Double.fp.rnd ((0 : ℤ) : ℝ) = _ by rw [Int.cast_zero]; exact rnd_zero _)]
    rw [Bool.eq_false_iff]
    show ¬ PyNum.eq (α := XF) (fin 0.1) (fin 0) = true
    rw [eq_fin]
    norm_num
  obtain ⟨c, hc, h⟩ := C197_file_radiance Double.fp _ _ _ _ "ch4" _ r hr exFpFile hf _ exFpFile_lists exFpFile_good
    (by decide +kernel) 1 exFpFile_one 0 (by decide) _ _ _ exFpFile_stored 0.05 (by norm_num) (by norm_num)
    (.cons_cons (by norm_num) (.cons_cons (by norm_num) (.singleton _))) ws hws (RF.of 0.1) h01
  obtain ⟨out, vs, h1, h2, h3⟩ := h 0 true [300] 6 (by simp) (by norm_num) (by norm_num) (by
    intro t ht
    obtain rfl : t = 300 := by simpa using ht
    refine ⟨by norm_num, ?_⟩
    intro x hx
    unfold bandPositions planckX at *
    rcases hws with rfl | rfl
    · rw [if_neg (by decide)] at hx ⊢
      simp at hx
      rcases hx with rfl | rfl | rfl <;> norm_num [Spec.h, Spec.c, Spec.k]
    · rw [if_pos rfl] at hx ⊢
      simp at hx
      rcases hx with rfl | rfl | rfl <;> norm_num [Spec.h, Spec.c, Spec.k])
  rcases h3 with _ | ⟨h3, h4⟩
  cases h4
  refine ⟨c, hc, out, _, _, h1, h2, rfl, h3.trans ?_⟩
  rw [mul_div_assoc]
  refine mul_le_mul_of_nonneg_left ?_ ?_
  · simp only [List.length_cons, List.length_nil]
    norm_num
  · have := (abs_nonneg _).trans h3
    rw [mul_div_assoc] at this
    refine nonneg_of_mul_nonneg_left this ?_
    simp only [List.length_cons, List.length_nil]
    norm_num

end Verif.Props
