import Verif.Props.FloatFileAccuracy
import Verif.Props.FloatIntegral
import Verif.Props.Solar
/-
Properties C199 and C200: the solar constant in the two wave spaces, in exact and in floating point arithmetic.
-/
namespace Verif.Props
open XF Model PyNum Lemmas Spec

/-- the positions of a solar spectrum (wavelengths in micron) in a wave space -/
noncomputable def sunPositions (ws : String) (c : Curve) : List ℝ :=
  if ws = "wavenumber" then (c.map fun p => 1e4 / p.1).reverse else c.map Prod.fst

/-- and its irradiances there: mW/m2 per wavenumber, or W/m2 per micron -/
noncomputable def sunIrradiances (ws : String) (c : Curve) : List ℝ :=
  if ws = "wavenumber" then (c.map fun p => p.2 * p.1 ^ 2 / 10).reverse else c.map Prod.snd

theorem solar_constant_exact (c : Curve) (hpos : ∀ p ∈ c, 0 < p.1) (ws : String) (hws : ws = "wavelength" ∨ ws = "wavenumber")
    (dl : Option XF) :
    ∃ s, solarNew (.ok (finL (c.map Prod.fst), finL (c.map Prod.snd))) (some ws) dl = .ok s ∧
      s.solarConstant = .ok (fin (trap (sunPositions ws c) (sunIrradiances ws c))) := by
  unfold sunPositions sunIrradiances
  rcases hws with rfl | rfl
  · rw [if_neg (by decide), if_neg (by decide)]
    unfold solarNew
    simp only [bind, Except.bind, Option.getD_some]
    exact ⟨_, rfl, (C53_solar_constant _ (c.map Prod.fst) (c.map Prod.snd) (by simp) rfl).2.1 rfl rfl⟩
  · rw [if_pos rfl, if_pos rfl]
    obtain ⟨s, h1, hw, hi, _⟩ := C52_wavenumber_spectrum c hpos dl
    exact ⟨s, h1, (C53_solar_constant s _ _ (by simp) hi).1 hw⟩

/-- C199: the solar constant computed in wavenumber space (mW/m2) is 1000 times the one computed in wavelength space (W/m2),
up to the largest fraction by which a wavelength exceeds the one before it. -/
theorem C199_same_constant (c : Curve) (σ : ℝ) (hpos : ∀ p ∈ c, 0 < p.1 ∧ 0 ≤ p.2)
    (hg : (c.map Prod.fst).IsChain fun a b => a ≤ b ∧ b ≤ a * (1 + σ)) (d1 d2 : Option XF) :
    ∃ s1 s2 S1 S2, solarNew (.ok (finL (c.map Prod.fst), finL (c.map Prod.snd))) (some "wavelength") d1 = .ok s1 ∧
      solarNew (.ok (finL (c.map Prod.fst), finL (c.map Prod.snd))) (some "wavenumber") d2 = .ok s2 ∧
      s1.solarConstant = .ok (fin S1) ∧ s2.solarConstant = .ok (fin S2) ∧ |S2 - 1000 * S1| ≤ 1000 * S1 * σ := by
  obtain ⟨s1, h1, k1⟩ := solar_constant_exact c (fun p hp => (hpos p hp).1) _ (.inl rfl) d1
  obtain ⟨s2, h2, k2⟩ := solar_constant_exact c (fun p hp => (hpos p hp).1) _ (.inr rfl) d2
  refine ⟨s1, s2, _, _, h1, h2, k1, k2, ?_⟩
  unfold sunPositions sunIrradiances
  rw [if_pos rfl, if_pos rfl, if_neg (by decide), if_neg (by decide), trap_reverse _ _ (by simp)]
  clear h1 h2 k1 k2
  induction c with
  | nil => simp [trap]
  | cons p c ih =>
    cases c with
    | nil => simp [trap]
    | cons q c =>
      obtain ⟨⟨g1, g2⟩, g3⟩ := List.isChain_cons_cons.1 hg
      have := ih (fun p hp => hpos p (by simp [hp])) g3
      obtain ⟨a0, y0⟩ := hpos p (by simp)
      obtain ⟨b0, z0⟩ := hpos q (by simp)
      obtain ⟨a, y⟩ := p
      obtain ⟨b, z⟩ := q
      simp only [List.map_cons, trap] at this ⊢ a0 b0 y0 z0 g1 g2
      set T := trap (b :: c.map Prod.fst) (z :: c.map Prod.snd)
      set U := trap (1e4 / b :: c.map fun p => 1e4 / p.1) (z * b ^ 2 / 10 :: c.map fun p => p.2 * p.1 ^ 2 / 10)
      have e : -((1e4 / b - 1e4 / a) * ((y * a ^ 2 / 10 + z * b ^ 2 / 10) / 2)) = 500 * (b - a) * (y * (a / b) + z * (b / a)) := by
        field_simp
        norm_num
        ring
      have r1 : b / a ≤ 1 + σ := by rw [div_le_iff₀ a0]; linarith
      have r2 : 1 ≤ b / a := by rw [le_div_iff₀ a0]; linarith
      have r3 : a / b ≤ 1 := by rw [div_le_iff₀ b0]; linarith
      have σ0 : 0 ≤ σ := by linarith
      have r4 : 1 - σ ≤ a / b := by
        rw [le_div_iff₀ b0]
        nlinarith
      have u1 : y * (a / b) + z * (b / a) - (y + z) ≤ (y + z) * σ := by
        nlinarith [mul_le_mul_of_nonneg_left r3 y0, mul_le_mul_of_nonneg_left r1 z0, mul_nonneg y0 σ0]
      have u2 : -((y + z) * σ) ≤ y * (a / b) + z * (b / a) - (y + z) := by
        nlinarith [mul_le_mul_of_nonneg_left r4 y0, mul_le_mul_of_nonneg_left r2 z0, mul_nonneg z0 σ0]
      have gap : 0 ≤ 500 * (b - a) := by linarith
      have v1 := mul_le_mul_of_nonneg_left u1 gap
      have v2 := mul_le_mul_of_nonneg_left u2 gap
      rw [abs_le] at this ⊢
      constructor <;> linarith [this.1, this.2]

/-- a spectrum sampled every ten percent -/
noncomputable def exTenPercent : Curve := [(0.5, 1900), (0.55, 1850), (0.6, 1770)]

example : ∃ s1 s2 S1 S2, solarNew (.ok (finL [0.5, 0.55, 0.6], finL [1900, 1850, 1770])) (some "wavelength") none = .ok s1 ∧
      solarNew (.ok (finL [0.5, 0.55, 0.6], finL [1900, 1850, 1770])) (some "wavenumber") none = .ok s2 ∧
      s1.solarConstant = .ok (fin S1) ∧ s2.solarConstant = .ok (fin S2) ∧ |S2 - 1000 * S1| ≤ 1000 * S1 * 0.1 :=
  C199_same_constant exTenPercent 0.1 (by intro p hp; simp [exTenPercent] at hp; rcases hp with rfl | rfl | rfl <;> norm_num)
    (.cons_cons (by norm_num) (.cons_cons (by norm_num) (.singleton _))) none none

/-- numbers computed one by one from given ones -/
theorem computed_list {F : FP} {β : Type} {R : XF → ℝ → Prop} {g : β → RF F} {k : β → ℝ} (v : List β)
    (h : ∀ x ∈ v, ∃ a : ℝ, g x = RF.of a ∧ R (fin a) (k x)) :
    ∃ w : List ℝ, v.map g = w.map RF.of ∧ List.Forall₂ (fun a x => R (fin a) x) w (v.map k) := by
  induction v with
  | nil => exact ⟨[], rfl, .nil⟩
  | cons x v ih =>
    obtain ⟨a, h1, h2⟩ := h x (by simp)
    obtain ⟨w, h3, h4⟩ := ih (fun x hx => h x (by simp [hx]))
    exact ⟨a :: w, by simp only [List.map_cons]; rw [h1, h3], .cons h2 h4⟩

/-- the rounded trapezoid rule, for numbers that are themselves computed -/
theorem trapezoid_shifted {F : FP} {η ρ δ : ℝ} (h0 : 0 ≤ η) (hρ : 0 < ρ) (hρ1 : ρ ≤ 1) (hη : 16 * η ≤ ρ) (δ0 : 0 ≤ δ) {w' w : List ℝ}
    (hw : List.Forall₂ (fun a x => Near η (fin a) x) w' w) (hg : w.IsChain fun a b => a * (1 + ρ) ≤ b) {y' y : List ℝ}
    (hy : List.Forall₂ (fun a x => Near0 δ (fin a) x) y' y) (hl : w.length = y.length) (few : w.length ≤ 2 ^ 20)
    (gaps : Gaps w') (size : ∀ v ∈ y', v = 0 ∨ (1e-50 ≤ v ∧ v ≤ 1e20))
    (small : (4 + 2 * w.length) * uu + (16 * η / ρ + δ) ≤ 0.1) :
    ∃ v : ℝ, NP.trapezoid (y'.map fun p => (RF.of p : RF F)) (w'.map RF.of) = .ok (RF.of v) ∧
      |v - trap w y| ≤ trap w y * (2 * ((4 + 2 * w.length) * uu + (16 * η / ρ + δ))) := by
  have hu0 := uu_pos
  have f : List.Forall₂ (fun (x : RF F) (y : ℝ) => In0 1e-170 1e50 y ∧ Near0 0 x y) (y'.map RF.of) y' := by
    rw [List.forall₂_map_left_iff, List.forall₂_same]
    intro p hp
    rcases size p hp with e | ⟨e1, e2⟩
    · rw [e]; exact ⟨Or.inl rfl, Or.inl ⟨rfl, rfl⟩⟩
    · exact ⟨Or.inr ⟨le_trans (by norm_num) e1, le_trans e2 (by norm_num)⟩,
        Or.inr (near_refl (lt_of_lt_of_le (by norm_num) e1))⟩
  have hlw : w'.length = w.length := hw.length_eq
  obtain ⟨n, _⟩ := trapVal_near F le_rfl (by norm_num) gaps f (by rw [hlw]; exact few)
  rw [zero_add, hlw] at n
  have sh := trap_shift h0 hρ hρ1 hη hw hg hy
  have tot : Near0 ((4 + 2 * w.length) * uu + (16 * η / ρ + δ)) (trapVal (α := RF F) (y'.map RF.of) (w'.map RF.of)) (trap w y) := by
    rcases sh with ⟨e1, e2⟩ | sh
    · have e3 : trap w' y' = 0 := XF.fin.inj e2
      rw [e3] at n
      rcases n with ⟨-, n⟩ | n
      · exact .inl ⟨e1, n⟩
      · exact absurd n.1 (lt_irrefl _)
    · rcases n with ⟨e1, -⟩ | n
      · obtain ⟨z, e, hz⟩ := sh.pos
        cases e
        exact absurd e1 hz.ne'
      · exact .inr (n.comp sh)
  obtain ⟨v, ev, hv⟩ := near0_abs tot (by positivity) small
  refine ⟨v, ?_, hv⟩
  rw [trapezoid_val _ _ (by simp [hlw, hy.length_eq, hl])]
  exact congrArg Except.ok ev

/-- C200: in floating point the solar constant is, in either wave space, the trapezoid integral of the file's spectrum there,
up to the fraction `(8 + 2 n + 64/ρ)/2^50` (`n` samples whose wavelengths differ by at least the fraction `ρ`). -/
theorem C200_solar_constant (F : FP) (c : Curve) (ρ : ℝ) (hρ : 2e-10 ≤ ρ) (hρ1 : ρ ≤ 1)
    (hc : ∀ p ∈ c, 0.02 ≤ p.1 ∧ p.1 ≤ 5000 ∧ (p.2 = 0 ∨ (1e-40 ≤ p.2 ∧ p.2 ≤ 1e10)))
    (hg : (c.map Prod.fst).IsChain fun a b => a * (1 + ρ) ≤ b) (hn : c.length ≤ 2 ^ 20)
    (ws : String) (hws : ws = "wavelength" ∨ ws = "wavenumber") (dl : Option (RF F)) :
    ∃ s v, solarNew (.ok (c.map fun p => RF.of p.1, c.map fun p => RF.of p.2)) (some ws) dl = .ok s ∧
      s.solarConstant = .ok (RF.of v) ∧
      |v - trap (sunPositions ws c) (sunIrradiances ws c)| ≤
        trap (sunPositions ws c) (sunIrradiances ws c) * (8 + 2 * c.length + 64 / ρ) / 2 ^ 50 := by
  have hu := uu_small
  have hu0 := uu_pos
  norm_num at hu
  have hρ0 : 0 < ρ := lt_of_lt_of_le (by norm_num) hρ
  have hi0 : 0 ≤ 1 / ρ := by positivity
  have hi1 : 1 / ρ ≤ 5e9 := by rw [div_le_iff₀ hρ0]; norm_num at hρ ⊢; linarith
  have hn0 : (0 : ℝ) ≤ c.length := Nat.cast_nonneg _
  have hn1 : (c.length : ℝ) ≤ 1048576 := by exact_mod_cast hn
  have small : (4 + 2 * (c.length : ℝ)) * uu + (16 * (4 * uu) / ρ + 4 * uu) ≤ 0.1 := by
    have e : (4 + 2 * (c.length : ℝ)) * uu + (16 * (4 * uu) / ρ + 4 * uu) = (8 + 2 * c.length + 64 * (1 / ρ)) * uu := by ring
    rw [e]
    generalize 1 / ρ = z at *
    have : 8 + 2 * (c.length : ℝ) + 64 * z ≤ 1e12 := by norm_num at hi1 ⊢; linarith
    refine (mul_le_mul this hu hu0.le (by norm_num)).trans ?_
    norm_num
  have final : ∀ {v T : ℝ}, |v - T| ≤ T * (2 * ((4 + 2 * (c.length : ℝ)) * uu + (16 * (4 * uu) / ρ + 4 * uu))) →
      |v - T| ≤ T * (8 + 2 * c.length + 64 / ρ) / 2 ^ 50 := by
    intro v T h
    refine h.trans (le_of_eq ?_)
    unfold uu; ring
  have gapsOf : ∀ {w' w : List ℝ}, List.Forall₂ (fun a x => Near (4 * uu) (fin a) x) w' w →
      (w.IsChain fun a b => a * (1 + ρ) ≤ b) → (∀ x ∈ w, 0.02 ≤ x ∧ x ≤ 5e5) → Gaps w' := by
    intro w' w h
    induction h with
    | nil => intro _ _; trivial
    | @cons a x w' w ha hw ih =>
      intro hg hb
      cases hw with
      | nil => trivial
      | @cons b z w' w hb' hw =>
        obtain ⟨g1, g2⟩ := List.isChain_cons_cons.1 hg
        refine ⟨?_, ih g2 (fun x hx => hb x (by simp at hx ⊢; tauto))⟩
        have gn := gap_near (η := 4 * uu) (by linarith) hρ0 hρ1 (by norm_num at hρ; linarith) ha hb' g1
        have d1 : 16 * (4 * uu) / ρ ≤ 0.1 := by nlinarith [small, mul_nonneg (show (0:ℝ) ≤ 4 + 2 * c.length by linarith) hu0.le]
        obtain ⟨q, e, hq⟩ := near_abs gn (by positivity) d1
        cases e
        obtain ⟨x1, x2⟩ := hb x (by simp)
        obtain ⟨z1, z2⟩ := hb z (by simp)
        have f1 : 4e-12 ≤ z - x := by
          have := mul_le_mul x1 hρ (by norm_num) (by linarith)
          norm_num at this ⊢
          linarith
        have f2 : (z - x) * (2 * (16 * (4 * uu) / ρ)) ≤ (z - x) * 0.2 :=
          mul_le_mul_of_nonneg_left (by norm_num at d1 ⊢; linarith) (by norm_num at f1; linarith)
        rw [abs_le] at hq
        norm_num at f1 f2 x1 z2
        constructor <;> norm_num <;> linarith
  rcases hws with rfl | rfl
  · unfold sunPositions sunIrradiances
    rw [if_neg (by decide), if_neg (by decide)]
    have hw : List.Forall₂ (fun a x => Near (4 * uu) (fin a) x) (c.map Prod.fst) (c.map Prod.fst) := by
      rw [List.forall₂_same]
      intro x hx
      obtain ⟨p, hp, rfl⟩ := List.mem_map.1 hx
      exact (near_refl (lt_of_lt_of_le (by norm_num) (hc p hp).1)).mono (by linarith)
    have hy : List.Forall₂ (fun a x => Near0 (4 * uu) (fin a) x) (c.map Prod.snd) (c.map Prod.snd) := by
      rw [List.forall₂_same]
      intro x hx
      obtain ⟨p, hp, rfl⟩ := List.mem_map.1 hx
      rcases (hc p hp).2.2 with e | ⟨e, -⟩
      · exact .inl ⟨e, by rw [e]⟩
      · exact .inr ((near_refl (lt_of_lt_of_le (by norm_num) e)).mono (by linarith))
    obtain ⟨v, h1, h2⟩ := trapezoid_shifted (F := F) (η := 4 * uu) (by linarith) hρ0 hρ1 (by norm_num at hρ; linarith) (by linarith)
      hw hg hy (by simp) (by simpa using hn) (gapsOf hw hg (by
        intro x hx
        obtain ⟨p, hp, rfl⟩ := List.mem_map.1 hx
        exact ⟨(hc p hp).1, (hc p hp).2.1.trans (by norm_num)⟩)) (by
        intro x hx
        obtain ⟨p, hp, rfl⟩ := List.mem_map.1 hx
        refine (hc p hp).2.2.imp_right fun e => ⟨le_trans (by norm_num) e.1, e.2.trans (by norm_num)⟩) (by rw [List.length_map]; exact small)
    rw [List.length_map] at h2
    unfold solarNew
    simp only [bind, Except.bind, Option.getD_some]
    refine ⟨_, v, rfl, ?_, final h2⟩
    rw [List.map_map, List.map_map] at h1
    exact h1
  · unfold sunPositions sunIrradiances
    rw [if_pos rfl, if_pos rfl]
    have lits : Near uu (OfScientific.ofScientific 1 true 4 : RF F) (OfScientific.ofScientific 1 true 4 : ℝ) :=
      near_lit F 1 true 4 (by norm_num) (by norm_num)
    have lit1 : Near uu (OfScientific.ofScientific 1 true 1 : RF F) (OfScientific.ofScientific 1 true 1 : ℝ) :=
      near_lit F 1 true 1 (by norm_num) (by norm_num)
    obtain ⟨w', ew, hw⟩ := computed_list (F := F) (R := Near (4 * uu)) (g := fun p : ℝ × ℝ => (1.0 : RF F) / (1e-4 * RF.of p.1))
      (k := fun p => 1e4 / p.1) c.reverse (by
        intro p hp
        obtain ⟨b1, b2, -⟩ := hc p (by simpa using hp)
        have p0 : 0 < p.1 := lt_of_lt_of_le (by norm_num) b1
        have c1 : 1e-6 ≤ 1e-4 * p.1 := by norm_num at b1 ⊢; linarith
        have c2 : 1e-4 * p.1 ≤ 1 := by norm_num at b2 ⊢; linarith
        have c0 : 0 < 1e-4 * p.1 := lt_of_lt_of_le (by norm_num) c1
        have n1 := near_mul F lits (near_refl p0) (by linarith) (le_trans (by norm_num) c1) (c2.trans (by norm_num))
        have d1 : 1 ≤ 1 / (1e-4 * p.1) := by rw [le_div_iff₀ c0]; linarith
        have d2 : 1 / (1e-4 * p.1) ≤ 1e6 := by
          rw [div_le_iff₀ c0]; refine le_trans ?_ (mul_le_mul_of_nonneg_left c1 (by norm_num)); norm_num
        have n2 := near_div F (near_refl (x := 1) one_pos) n1 (by linarith) (le_trans (by norm_num) d1) (d2.trans (by norm_num))
        have ek : 1e4 / p.1 = 1 / (OfScientific.ofScientific 1 true 4 * p.1) := by norm_num; ring
        have n3 : Near (4 * uu) ((1.0 : RF F) / ((1e-4 : RF F) * RF.of p.1) : RF F) (1e4 / p.1) := by
          rw [one_lit, ek]; exact n2.mono (by linarith)
        obtain ⟨y, e, -⟩ := n3.2
        exact ⟨y, e, by rw [← e]; exact n3⟩)
    obtain ⟨y', ey, hy⟩ := computed_list (F := F) (R := fun a x => Near0 (4 * uu) a x ∧ In0 1e-49 1e19 x)
      (g := fun p : ℝ × ℝ => RF.of p.2 * RF.of p.1 * RF.of p.1 * (0.1 : RF F))
      (k := fun p => p.2 * p.1 ^ 2 / 10) c.reverse (by
        intro p hp
        obtain ⟨b1, b2, b3⟩ := hc p (by simpa using hp)
        have p0 : 0 < p.1 := lt_of_lt_of_le (by norm_num) b1
        rcases b3 with e | ⟨e1, e2⟩
        · have z : ∀ x : ℝ, (RF.of 0 : RF F) * RF.of x = RF.of 0 := by
            intro x
            show F.rd (XF.mul (fin 0) (fin x)) = fin 0
            rw [show XF.mul (fin 0) (fin x) = fin (0 * x) from rfl, zero_mul]
            exact rnd_zero F
          refine ⟨0, ?_, .inl ⟨by rw [e]; simp, rfl⟩, .inl (by rw [e]; simp)⟩
          rw [e, z, z]
          obtain ⟨t, et, -⟩ := lit1.2
          exact (congrArg (fun x : RF F => RF.of 0 * x) et).trans (z t)
        · have q0 : 0 < p.2 := lt_of_lt_of_le (by norm_num) e1
          have m1 : 1e-42 ≤ p.2 * p.1 := le_trans (by norm_num) (mul_le_mul e1 b1 (by norm_num) q0.le)
          have m2 : p.2 * p.1 ≤ 1e14 := (mul_le_mul e2 b2 p0.le (by norm_num)).trans (by norm_num)
          have m3 : 1e-44 ≤ p.2 * p.1 * p.1 := le_trans (by norm_num) (mul_le_mul m1 b1 (by norm_num) (by positivity))
          have m4 : p.2 * p.1 * p.1 ≤ 1e18 := (mul_le_mul m2 b2 p0.le (by norm_num)).trans (by norm_num)
          have m5 : 1e-49 ≤ p.2 * p.1 * p.1 * (OfScientific.ofScientific 1 true 1 : ℝ) :=
            le_trans (by norm_num) (mul_le_mul_of_nonneg_right m3 (by norm_num))
          have m6 : p.2 * p.1 * p.1 * (OfScientific.ofScientific 1 true 1 : ℝ) ≤ 1e19 :=
            (mul_le_mul_of_nonneg_right m4 (by norm_num)).trans (by norm_num)
          have n1 := near_mul F (near_refl q0) (near_refl p0) (by norm_num) (le_trans (by norm_num) m1) (m2.trans (by norm_num))
          have n2 := near_mul F n1 (near_refl p0) (by linarith) (le_trans (by norm_num) m3) (m4.trans (by norm_num))
          have n3 := near_mul F n2 lit1 (by linarith) (le_trans (by norm_num) m5) (m6.trans (by norm_num))
          have ek : p.2 * p.1 ^ 2 / 10 = p.2 * p.1 * p.1 * (OfScientific.ofScientific 1 true 1 : ℝ) := by norm_num; ring
          have n4 : Near (4 * uu) (RF.of p.2 * RF.of p.1 * RF.of p.1 * (0.1 : RF F) : RF F) (p.2 * p.1 ^ 2 / 10) := by
            rw [ek]; exact n3.mono (by linarith)
          obtain ⟨y, e, -⟩ := n4.2
          refine ⟨y, e, .inr (by rw [← e]; exact n4), .inr ?_⟩
          rw [ek]; exact ⟨m5, m6⟩)
    have hgr : ((c.map fun p => 1e4 / p.1).reverse).IsChain fun a b => a * (1 + ρ) ≤ b := by
      rw [List.isChain_reverse, List.isChain_map]
      rw [List.isChain_map] at hg
      clear ew hw ey hy small final hn hn0 hn1 gapsOf
      induction c with
      | nil => exact .nil
      | cons p c ih =>
        cases c with
        | nil => exact .singleton _
        | cons q c =>
          have hab := (List.isChain_cons_cons.1 hg).1
          refine List.isChain_cons_cons.2 ⟨?_, ih (fun x hx => hc x (by simp [hx])) hg.tail⟩
          have ha : 0 < p.1 := lt_of_lt_of_le (by norm_num) (hc p (by simp)).1
          have hb : 0 < q.1 := lt_of_lt_of_le (by norm_num) (hc q (by simp)).1
          rw [div_mul_eq_mul_div, div_le_div_iff₀ hb ha]
          nlinarith
    rw [List.map_reverse] at hw hy
    have hy1 : List.Forall₂ (fun a x => Near0 (4 * uu) (fin a) x) y' ((c.map fun p => p.2 * p.1 ^ 2 / 10).reverse) :=
      hy.imp fun _ _ h => h.1
    obtain ⟨v, h1, h2⟩ := trapezoid_shifted (F := F) (η := 4 * uu) (by linarith) hρ0 hρ1 (by norm_num at hρ; linarith) (by linarith)
      hw hgr hy1 (by simp) (by simpa using hn) (gapsOf hw hgr (by
        intro x hx
        rw [List.mem_reverse] at hx
        obtain ⟨p, hp, rfl⟩ := List.mem_map.1 hx
        obtain ⟨b1, b2, -⟩ := hc p hp
        have p0 : 0 < p.1 := lt_of_lt_of_le (by norm_num) b1
        rw [le_div_iff₀ p0, div_le_iff₀ p0]
        norm_num at b1 b2 ⊢
        constructor <;> linarith)) (by
        intro x hx
        obtain ⟨z, -, hz, hz'⟩ := forall₂_mem hy hx
        rcases hz with ⟨-, e⟩ | hz
        · exact .inl (XF.fin.inj e)
        rcases hz' with e | ⟨e1, e2⟩
        · exact absurd hz.1 (by rw [e]; exact lt_irrefl _)
        obtain ⟨q, e, hq⟩ := near_abs hz (by linarith) (by norm_num; linarith)
        cases e
        have : z * (2 * (4 * uu)) ≤ z * 0.5 := mul_le_mul_of_nonneg_left (by norm_num; linarith) hz.1.le
        rw [abs_le] at hq
        norm_num at this e1 e2
        right
        constructor <;> norm_num <;> linarith) (by simpa using small)
    rw [List.length_reverse, List.length_map] at h2
    have zip : ∀ (g k : ℝ × ℝ → RF F) (l : Curve), List.zipWith (· * ·) (l.map g) (l.map k) = l.map fun p => g p * k p := by
      intro g k l
      rw [List.zipWith_map, List.zipWith_self]
    unfold solarNew
    simp only [bind, Except.bind, Option.getD_some, if_true, Solar.convert2wavenumber, notNone]
    rw [← List.map_reverse, ← List.map_reverse, bcast2_eq_len _ _ _ (by simp), zip]
    simp only
    rw [bcast2_eq_len _ _ _ (by simp), zip]
    refine ⟨_, v, rfl, ?_, final h2⟩
    refine Eq.trans ?_ h1
    rw [← ew]
    show NP.trapezoid (List.map _ (List.map _ _)) (List.map _ (List.map _ _)) = NP.trapezoid (List.map RF.of y') _
    rw [← ey, List.map_map, List.map_map]
    rfl

example (ws : String) (hws : ws = "wavelength" ∨ ws = "wavenumber") :
    ∃ s v, solarNew (α := RF Double.fp) (.ok ([RF.of 0.5, RF.of 0.55, RF.of 0.6], [RF.of 1900, RF.of 1850, RF.of 1770])) (some ws) none = .ok s ∧
      s.solarConstant = .ok (RF.of v) ∧
      |v - trap (sunPositions ws exTenPercent) (sunIrradiances ws exTenPercent)| ≤
        trap (sunPositions ws exTenPercent) (sunIrradiances ws exTenPercent) * 1e-12 := by
  obtain ⟨s, v, h1, h2, h3⟩ := C200_solar_constant Double.fp exTenPercent 0.09 (by norm_num) (by norm_num)
    (by intro p hp; simp [exTenPercent] at hp; rcases hp with rfl | rfl | rfl <;> norm_num)
    (.cons_cons (by norm_num) (.cons_cons (by norm_num) (.singleton _))) (by decide) ws hws none
  refine ⟨s, v, h1, h2, h3.trans ?_⟩
  rw [mul_div_assoc] at h3 ⊢
  refine mul_le_mul_of_nonneg_left ?_ ?_
  · simp only [exTenPercent, List.length_cons, List.length_nil]
    norm_num
  · refine nonneg_of_mul_nonneg_left ((abs_nonneg _).trans h3) ?_
    simp only [exTenPercent, List.length_cons, List.length_nil]
    norm_num

end Verif.Props
