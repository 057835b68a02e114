import Verif.Lemmas.FPBand
import Verif.Lemmas.CentralWave
import Verif.Lemmas.Nir
import Verif.Props.FloatBand
import Verif.Props.FloatConstruct
import Verif.Model.Rayleigh
import Verif.Lemmas.Wavenumber
/-
Properties C163, C164: central wavelengths, effective wavelengths and wavenumbers as they are computed
in floating point.
-/
namespace Verif.Props
open XF Model PyNum Lemmas Spec

/-- Samples of a response curve in floating point, in any unit: positive positions with gaps from 1e-20
to 1e9, responses that are zero or from 1e-10 to 1e10, not all zero. -/
structure FpSamples (w r : List ℝ) : Prop where
  gaps : Gaps w
  range : ∀ x ∈ w, 1e-8 ≤ x ∧ x ≤ 1e8
  resp : ∀ y ∈ r, y = 0 ∨ (1e-10 ≤ y ∧ y ≤ 1e10)
  len : w.length = r.length
  size : w.length ≤ 2 ^ 20
  integral : 0 < trap w r

section
variable (F : FP)

theorem getCentralWave_val {α : Type} [PyNum α] {P : Type} (x y g : P → α) (l : List P) :
    getCentralWave (l.map x) (l.map y) (l.map g) =
      .ok (trapVal (l.map fun p => y p * x p * g p) (l.map x) / trapVal (l.map fun p => y p * g p) (l.map x)) := by
  unfold getCentralWave
  rw [bcast2_eq_len _ _ _ (by simp), Lemmas.zipWith_maps]
  simp only [bind, Except.bind]
  rw [bcast2_eq_len _ _ _ (by simp), Lemmas.zipWith_maps]
  simp only [trapezoid_val _ _ (show (l.map fun p => y p * x p * g p).length = (l.map x).length by simp)]
  rw [bcast2_eq_len _ _ _ (by simp), Lemmas.zipWith_maps]
  simp only [trapezoid_val _ _ (show (l.map fun p => y p * g p).length = (l.map x).length by simp)]
  rfl

/-- the default weight is a list of ones -/
theorem getCentralWave_one {α : Type} [PyNum α] {P : Type} (x y : P → α) (l : List P) (hl : l ≠ []) :
    getCentralWave (l.map x) (l.map y) = getCentralWave (l.map x) (l.map y) (l.map fun _ => 1.0) := by
  have key : ∀ f : P → α, NP.bcast2 (· * ·) (l.map f) [(1.0 : α)] = .ok (l.map fun p => f p * 1.0) := by
    intro f
    match l, hl with
    | [a], _ => rfl
    | a :: b :: l, _ => simp [NP.bcast2]
  rw [getCentralWave_val]
  unfold getCentralWave
  rw [bcast2_eq_len _ _ _ (by simp), Lemmas.zipWith_maps]
  simp only [bind, Except.bind, key]
  simp only [trapezoid_val _ _ (show (l.map fun p => y p * x p * 1.0).length = (l.map x).length by simp),
    trapezoid_val _ _ (show (l.map fun p => y p * 1.0).length = (l.map x).length by simp)]
  rfl

/-- the weighted mean position of a curve -/
noncomputable def meanWave (G : ℝ → ℝ) (w r : List ℝ) : ℝ :=
  trap w (List.zipWith (fun x y => y * x * G x) w r) / trap w (List.zipWith (fun x y => y * G x) w r)

theorem near_mul0 {δ ε l₁ u₁ l₂ u₂ : ℝ} {a b : XF} {x y : ℝ} (hx : In0 l₁ u₁ x) (hl₁ : 0 < l₁)
    (h : Near0 δ a x) (h' : Near ε b y) (hy : l₂ ≤ y ∧ y ≤ u₂)  (hl : 1e-199 ≤ l₁ * l₂) (hu : u₁ * u₂ ≤ 1e199)
    (hd : δ + ε ≤ 1) :
    In0 (l₁ * l₂) (u₁ * u₂) (x * y) ∧ Near0 (δ + ε + uu) (F.rd (XF.mul a b)) (x * y) := by
  rcases h with ⟨rfl, rfl⟩ | h
  · obtain ⟨z, rfl, _⟩ := h'.pos
    refine ⟨Or.inl (by simp), Or.inl ⟨by simp, ?_⟩⟩
    show F.rnd (0 * z) = _
    rw [zero_mul, rnd_zero]
  · have hx' := hx.resolve_left h.1.ne'
    have hl₂ : 0 < l₂ := by
      by_contra hc
      have := mul_nonpos_of_nonneg_of_nonpos hl₁.le (not_lt.1 hc)
      norm_num at hl; linarith
    have m1 : l₁ * l₂ ≤ x * y := mul_le_mul hx'.1 hy.1 hl₂.le h.1.le
    have m2 : x * y ≤ u₁ * u₂ := mul_le_mul hx'.2 hy.2 h'.1.le (h.1.le.trans hx'.2)
    exact ⟨Or.inr ⟨m1, m2⟩, Or.inr (near_mul F h h' hd (hl.trans m1) (m2.trans hu))⟩

theorem in0_mono {l u l' u' x : ℝ} (h : In0 l u x) (h1 : l' ≤ l) (h2 : u ≤ u') : In0 l' u' x :=
  h.imp_right fun h => ⟨h1.trans h.1, h.2.trans h2⟩

theorem near0_mono {δ ε : ℝ} {a : XF} {x : ℝ} (h : Near0 δ a x) (hd : δ ≤ ε) : Near0 ε a x :=
  h.imp_right fun h => h.mono hd

/-- the computed mean position, for a computed weight -/
theorem meanWave_near {w r : List ℝ} (h : FpSamples w r) {δ : ℝ} (h0 : 0 ≤ δ) (hd : δ ≤ 1e-3) (g : ℝ → RF F) (G : ℝ → ℝ)
    (hg : ∀ x ∈ w, Near δ (g x) (G x) ∧ 1e-33 ≤ G x ∧ G x ≤ 1e32) :
    ∃ v : RF F, getCentralWave ((w.zip r).map fun p => (RF.of p.1 : RF F)) ((w.zip r).map fun p => RF.of p.2)
        ((w.zip r).map fun p => g p.1) = .ok v ∧
      Near (2 * δ + (12 + 4 * w.length) * uu) v (meanWave G w r) ∧
      ∀ m M, (∀ x ∈ w, m ≤ x ∧ x ≤ M) → m ≤ meanWave G w r ∧ meanWave G w r ≤ M := by
  have hu := uu_small
  have hu0 := uu_pos
  norm_num at hu hd
  have hl : (w.length : ℝ) ≤ 2 ^ 20 := by exact_mod_cast h.size
  have hl0 : (0 : ℝ) ≤ w.length := Nat.cast_nonneg _
  have hlu : w.length * uu ≤ 1e-8 := by
    have := mul_le_mul hl hu hu0.le (by positivity)
    refine this.trans ?_; norm_num
  norm_num at hlu
  refine ⟨_, getCentralWave_val _ _ _ _, ?_⟩
  set l := w.zip r with hldef
  have e1 : l.map Prod.fst = w := zip_map_fst h.len
  have e2 : l.map Prod.snd = r := zip_map_snd h.len
  have ew : (l.map fun p => (RF.of p.1 : RF F)) = w.map RF.of := by
    conv_rhs => rw [← e1, List.map_map]
    rfl
  have hwm : ∀ p ∈ l, p.1 ∈ w := fun p hp => (List.of_mem_zip hp).1
  have hrm : ∀ p ∈ l, p.2 ∈ r := fun p hp => (List.of_mem_zip hp).2
  have rn : ∀ p ∈ l, Near0 0 (fin p.2) p.2 := by
    intro p hp
    rcases h.resp _ (hrm p hp) with h | h
    · exact Or.inl ⟨h, by rw [h]⟩
    · exact Or.inr (near_refl (lt_of_lt_of_le (by norm_num) h.1))
  have den : List.Forall₂ (fun (a : RF F) (y : ℝ) => In0 1e-170 1e50 y ∧ Near0 (δ + uu) a y)
      (l.map fun p => (RF.of p.2 : RF F) * g p.1) (l.map fun p => p.2 * G p.1) := by
    rw [List.forall₂_map_left_iff, List.forall₂_map_right_iff, List.forall₂_same]
    intro p hp
    obtain ⟨n, b⟩ := hg _ (hwm p hp)
    obtain ⟨k1, k2⟩ := near_mul0 F (h.resp _ (hrm p hp)) (by norm_num) (rn p hp) n b (by norm_num) (by norm_num) (by linarith)
    exact ⟨in0_mono k1 (by norm_num) (by norm_num), near0_mono k2 (by linarith)⟩
  have num : List.Forall₂ (fun (a : RF F) (y : ℝ) => In0 1e-170 1e50 y ∧ Near0 (δ + 2 * uu) a y)
      (l.map fun p => (RF.of p.2 : RF F) * RF.of p.1 * g p.1) (l.map fun p => p.2 * p.1 * G p.1) := by
    rw [List.forall₂_map_left_iff, List.forall₂_map_right_iff, List.forall₂_same]
    intro p hp
    obtain ⟨n, b⟩ := hg _ (hwm p hp)
    have hx := h.range _ (hwm p hp)
    obtain ⟨k1, k2⟩ := near_mul0 F (h.resp _ (hrm p hp)) (by norm_num) (rn p hp)
      (near_refl (lt_of_lt_of_le (by norm_num) hx.1)) hx (by norm_num) (by norm_num) (by norm_num)
    obtain ⟨k1, k2⟩ := near_mul0 F k1 (by norm_num) k2 n b (by norm_num) (by norm_num) (by linarith)
    exact ⟨in0_mono k1 (by norm_num) (by norm_num), near0_mono k2 (by linarith)⟩
  obtain ⟨D1, D2⟩ := trapVal_near F (by linarith) (by linarith) h.gaps den h.size
  obtain ⟨N1, N2⟩ := trapVal_near F (by linarith) (by linarith) h.gaps num h.size
  have eD : trap w (l.map fun p => p.2 * G p.1) = trap w (List.zipWith (fun x y => y * G x) w r) := by
    congr 1
    conv_rhs => rw [← e1, ← e2, Lemmas.zipWith_maps]
  have eN : trap w (l.map fun p => p.2 * p.1 * G p.1) = trap w (List.zipWith (fun x y => y * x * G x) w r) := by
    congr 1
    conv_rhs => rw [← e1, ← e2, Lemmas.zipWith_maps]
  have rnn : ∀ p ∈ l, 0 ≤ p.2 := by
    intro p hp
    rcases h.resp _ (hrm p hp) with h | h
    · exact h.ge
    · exact le_trans (by norm_num) h.1
  have meanD := trap_mean_bounds Prod.fst Prod.snd (fun p => G p.1) l (by rw [e1]; exact gaps_nonDec h.gaps) rnn
    1e-33 1e32 (fun p hp => (hg _ (hwm p hp)).2.1) (fun p hp => (hg _ (hwm p hp)).2.2)
  rw [e1, e2] at meanD
  have hT := h.integral
  have pD : 0 < trap w (l.map fun p => p.2 * G p.1) := lt_of_lt_of_le (mul_pos (by norm_num) hT) meanD.1
  have mean : ∀ m M, (∀ x ∈ w, m ≤ x ∧ x ≤ M) →
      m * trap w (l.map fun p => p.2 * G p.1) ≤ trap w (l.map fun p => p.2 * p.1 * G p.1) ∧
      trap w (l.map fun p => p.2 * p.1 * G p.1) ≤ M * trap w (l.map fun p => p.2 * G p.1) := by
    intro m M hm
    have := trap_mean_bounds Prod.fst (fun p : ℝ × ℝ => p.2 * G p.1) (fun p => p.1) l (by rw [e1]; exact gaps_nonDec h.gaps)
      (fun p hp => mul_nonneg (rnn p hp) (hg _ (hwm p hp)).1.1.le) m M
      (fun p hp => (hm _ (hwm p hp)).1) (fun p hp => (hm _ (hwm p hp)).2)
    rw [e1] at this
    have e : (l.map fun p => p.2 * p.1 * G p.1) = l.map fun p => p.2 * G p.1 * p.1 := by
      apply List.map_congr_left; intro p _; ring
    rw [e]; exact this
  have mn := mean _ _ h.range
  have pN : 0 < trap w (l.map fun p => p.2 * p.1 * G p.1) := lt_of_lt_of_le (mul_pos (by norm_num) pD) mn.1
  have D1' := D1.resolve_left (fun h => pD.ne' h.1)
  have N1' := N1.resolve_left (fun h => pN.ne' h.1)
  have := near_div F N1' D1' (by nlinarith)
    (by rw [le_div_iff₀ pD]; refine le_trans ?_ mn.1
        exact mul_le_mul_of_nonneg_right (by norm_num) pD.le)
    (by rw [div_le_iff₀ pD]; refine mn.2.trans ?_
        exact mul_le_mul_of_nonneg_right (by norm_num) pD.le)
  unfold meanWave
  rw [← eD, ← eN, ew]
  refine ⟨this.mono (by nlinarith), fun m M hm => ?_⟩
  rw [le_div_iff₀ pD, div_le_iff₀ pD]
  exact mean m M hm

end

/-- a bound in words of the number and of the band -/
theorem meanWave_bounds {w r : List ℝ} {G : ℝ → ℝ} {v ε : ℝ} (hpos : ∀ x ∈ w, 0 < x) (hne : w ≠ []) (h0 : 0 ≤ ε)
    (h : |v - meanWave G w r| ≤ meanWave G w r * ε)
    (hm : ∀ m M, (∀ x ∈ w, m ≤ x ∧ x ≤ M) → m ≤ meanWave G w r ∧ meanWave G w r ≤ M) (hε : ε ≤ 1) :
    ∀ m M, (∀ x ∈ w, m ≤ x ∧ x ≤ M) → m - M * ε ≤ v ∧ v ≤ M + M * ε := by
  intro m M hmM
  obtain ⟨h1, h2⟩ := hm m M hmM
  obtain ⟨h3, h4⟩ := abs_le.1 h
  have := mul_le_mul_of_nonneg_right h2 h0
  exact ⟨by linarith, by linarith⟩

theorem samples_ne {w r : List ℝ} (h : FpSamples w r) : w ≠ [] := by
  rintro rfl
  have := h.integral
  simp [trap] at this

/-! ### C163 -/

/-- C163: the computed central wave of a response curve differs from the exact response-weighted mean
(trapezoid rule) by less than the fraction `(12 + 4 n)/2^50` of it, `n` the number of samples; it is
outside of the band by at most this fraction of the band's upper end. -/
theorem C163_central_wave_accuracy (F : FP) (w r : List ℝ) (h : FpSamples w r) :
    ∃ v : ℝ, getCentralWave (w.map RF.of) (r.map RF.of : List (RF F)) = .ok (RF.of v) ∧
      |v - trap w (List.zipWith (· * ·) w r) / trap w r| ≤
        trap w (List.zipWith (· * ·) w r) / trap w r * (12 + 4 * w.length) / 2 ^ 50 ∧
      ∀ m M, (∀ x ∈ w, m ≤ x ∧ x ≤ M) →
        m - M * ((12 + 4 * w.length) / 2 ^ 50) ≤ v ∧ v ≤ M + M * ((12 + 4 * w.length) / 2 ^ 50) := by
  have e1 : (w.zip r).map Prod.fst = w := zip_map_fst h.len
  have e2 : (w.zip r).map Prod.snd = r := zip_map_snd h.len
  have ew : ((w.zip r).map fun p => (RF.of p.1 : RF F)) = w.map RF.of := by
    conv_rhs => rw [← e1, List.map_map]
    rfl
  have er : ((w.zip r).map fun p => (RF.of p.2 : RF F)) = r.map RF.of := by
    conv_rhs => rw [← e2, List.map_map]
    rfl
  have hne : w.zip r ≠ [] := by
    intro hc
    rw [hc] at e1
    exact samples_ne h e1.symm
  obtain ⟨v, hv, hn, hb⟩ := meanWave_near F h (δ := 0) (Nat.le_refl 0 |> fun _ => le_rfl) (by norm_num)
    (fun _ => 1.0) (fun _ => 1) (fun x _ => ⟨by rw [one_lit]; exact near_refl one_pos, by norm_num, by norm_num⟩)
  rw [← getCentralWave_one _ _ _ hne, ew, er] at hv
  have hu := uu_small
  have hu0 := uu_pos
  norm_num at hu
  have hl : (w.length : ℝ) ≤ 2 ^ 20 := by exact_mod_cast h.size
  have hl0 : (0 : ℝ) ≤ w.length := Nat.cast_nonneg _
  have hε : (12 + 4 * (w.length : ℝ)) * uu ≤ 1e-7 := by
    have := mul_le_mul (show 12 + 4 * (w.length : ℝ) ≤ 5e6 by rw [show (2 : ℝ) ^ 20 = 1048576 by norm_num] at hl; rw [show (5e6 : ℝ) = 5000000 by norm_num]; linarith) hu hu0.le (by norm_num)
    refine this.trans ?_; norm_num
  norm_num at hε
  obtain ⟨y, e, hy⟩ := near_abs hn (by nlinarith) (by norm_num; linarith)
  have em : meanWave (fun _ => 1) w r = trap w (List.zipWith (· * ·) w r) / trap w r := by
    unfold meanWave
    congr 2
    · simp only [mul_one, mul_comm]
    · simp only [mul_one]
      have := Lemmas.zipWith_maps (fun (_ : ℝ) y => y) Prod.fst Prod.snd (w.zip r)
      rw [e1, e2] at this
      rw [this]
  have ee : 2 * (2 * 0 + (12 + 4 * (w.length : ℝ)) * uu) = (12 + 4 * w.length) / 2 ^ 50 := by
    unfold uu; ring
  rw [ee] at hy
  have hp : 0 ≤ (12 + 4 * (w.length : ℝ)) / 2 ^ 50 := by positivity
  refine ⟨y, by rw [hv, e]; rfl, ?_, meanWave_bounds
    (fun x hx => lt_of_lt_of_le (by norm_num) (h.range x hx).1) (samples_ne h) hp hy hb (by rw [← ee]; linarith)⟩
  rw [← em]
  refine hy.trans (le_of_eq (by ring))

theorem exSamples : FpSamples [0.5, 0.55, 0.7] [0.1, 1, 0] where
  gaps := by simp [Gaps]; norm_num
  range := by intro x hx; simp at hx; rcases hx with rfl | rfl | rfl <;> norm_num
  resp := by intro x hx; simp at hx; rcases hx with rfl | rfl | rfl <;> norm_num
  len := rfl
  size := by simp
  integral := by simp [trap]; norm_num

example : ∃ v : ℝ, getCentralWave (([0.5, 0.55, 0.7] : List ℝ).map RF.of)
      (([0.1, 1, 0] : List ℝ).map RF.of : List (RF Double.fp)) = .ok (RF.of v) ∧
    0.499 ≤ v ∧ v ≤ 0.701 := by
  obtain ⟨v, h1, _, h2⟩ := C163_central_wave_accuracy Double.fp _ _ exSamples
  obtain ⟨h3, h4⟩ := h2 0.5 0.7 (by intro x hx; simp at hx; rcases hx with rfl | rfl | rfl <;> norm_num)
  refine ⟨v, h1, ?_, ?_⟩ <;> norm_num at h3 h4 ⊢ <;> linarith

/-- C163: the effective wavelength for the Rayleigh correction (weight `1/w^4`) computed from a loaded
response differs from the exact weighted mean by less than the fraction `(22 + 4 n)/2^50`. -/
theorem C163_effective_wavelength_accuracy (F : FP) (rd : Reader (RF F)) (name : String) (band : BandRsr (RF F))
    (det : DetRsr (RF F)) (w r : List ℝ) (h : FpSamples w r)
    (hb : rsrDictGetItem rd.instrument rd.rsr name = .ok band) (hd : band.get? "det-1" = some det)
    (hw : det.get? "wavelength" = some (.arr (w.map RF.of)))
    (hr : det.get? "response" = some (.arr (r.map RF.of))) :
    ∃ v : ℝ, effectiveOf rd name = .ok (RF.of v) ∧
      |v - meanWave (fun x => 1 / x ^ 4) w r| ≤ meanWave (fun x => 1 / x ^ 4) w r * (22 + 4 * w.length) / 2 ^ 50 ∧
      ∀ m M, (∀ x ∈ w, m ≤ x ∧ x ≤ M) →
        m - M * ((22 + 4 * w.length) / 2 ^ 50) ≤ v ∧ v ≤ M + M * ((22 + 4 * w.length) / 2 ^ 50) := by
  have e1 : (w.zip r).map Prod.fst = w := zip_map_fst h.len
  have e2 : (w.zip r).map Prod.snd = r := zip_map_snd h.len
  have ew : ((w.zip r).map fun p => (RF.of p.1 : RF F)) = w.map RF.of := by
    conv_rhs => rw [← e1, List.map_map]
    rfl
  have er : ((w.zip r).map fun p => (RF.of p.2 : RF F)) = r.map RF.of := by
    conv_rhs => rw [← e2, List.map_map]
    rfl
  have eg : ((w.zip r).map fun p => (1.0 / powNat (RF.of p.1) 4 : RF F)) =
      (w.map RF.of).map fun x => (1.0 / powNat x 4 : RF F) := by
    conv_rhs => rw [← e1, List.map_map, List.map_map]
    rfl
  have hu := uu_small
  have hu0 := uu_pos
  norm_num at hu
  obtain ⟨v, hv, hn, hbd⟩ := meanWave_near F h (δ := 5 * uu) (by linarith) (by norm_num; linarith)
    (fun x => 1.0 / powNat (RF.of x) 4) (fun x => 1 / x ^ 4) (by
      intro x hx
      obtain ⟨h1, h2⟩ := h.range x hx
      have hx0 : 0 < x := lt_of_lt_of_le (by norm_num) h1
      have p0 : 0 < x ^ 4 := by positivity
      have p1 : 1e-32 ≤ x ^ 4 := le_trans (by norm_num) (pow_le_pow_left₀ (by norm_num) h1 4)
      have p2 : x ^ 4 ≤ 1e32 := (pow_le_pow_left₀ hx0.le h2 4).trans (by norm_num)
      have q1 : 1e-33 ≤ 1 / x ^ 4 := by
        rw [le_div_iff₀ p0]
        refine (mul_le_mul_of_nonneg_left p2 (by norm_num)).trans ?_; norm_num
      have q2 : 1 / x ^ 4 ≤ 1e32 := by
        rw [div_le_iff₀ p0]
        refine le_trans ?_ (mul_le_mul_of_nonneg_left p1 (by norm_num)); norm_num
      have n1 := near_pow F 4 (near_refl hx0) (by norm_num) (le_trans (by norm_num) p1) (p2.trans (by norm_num))
      have n2 := near_div F (near_refl (x := 1) one_pos) n1 (by rw [ul_eq]; norm_num; linarith)
        (le_trans (by norm_num) q1) (q2.trans (by norm_num))
      refine ⟨?_, q1, q2⟩
      rw [one_lit]
      refine Near.mono n2 ?_
      rw [ul_eq]; norm_num; linarith)
  rw [ew, er, eg] at hv
  have hl : (w.length : ℝ) ≤ 2 ^ 20 := by exact_mod_cast h.size
  have hl0 : (0 : ℝ) ≤ w.length := Nat.cast_nonneg _
  have hε : (22 + 4 * (w.length : ℝ)) * uu ≤ 1e-7 := by
    have := mul_le_mul (show 22 + 4 * (w.length : ℝ) ≤ 5e6 by rw [show (2 : ℝ) ^ 20 = 1048576 by norm_num] at hl; rw [show (5e6 : ℝ) = 5000000 by norm_num]; linarith) hu hu0.le (by norm_num)
    refine this.trans ?_; norm_num
  norm_num at hε
  have e0 : 2 * (5 * uu) + (12 + 4 * (w.length : ℝ)) * uu = (22 + 4 * w.length) * uu := by ring
  rw [e0] at hn
  obtain ⟨y, e, hy⟩ := near_abs hn (by nlinarith) (by norm_num; linarith)
  have ee : 2 * ((22 + 4 * (w.length : ℝ)) * uu) = (22 + 4 * w.length) / 2 ^ 50 := by
    unfold uu; ring
  rw [ee] at hy
  have hp : 0 ≤ (22 + 4 * (w.length : ℝ)) / 2 ^ 50 := by positivity
  refine ⟨y, ?_, hy.trans (le_of_eq (by ring)), meanWave_bounds
    (fun x hx => lt_of_lt_of_le (by norm_num) (h.range x hx).1) (samples_ne h) hp hy hbd (by rw [← ee]; linarith)⟩
  unfold effectiveOf
  have g1 : band.getItem "det-1" = .ok det := by rw [getItem_ok_iff]; exact hd
  have g2 : getArr det "wavelength" = .ok (w.map RF.of) := by
    unfold getArr
    rw [show det.getItem "wavelength" = .ok _ from by rw [getItem_ok_iff]; exact hw]
    rfl
  have g3 : getArr det "response" = .ok (r.map RF.of) := by
    unfold getArr
    rw [show det.getItem "response" = .ok _ from by rw [getItem_ok_iff]; exact hr]
    rfl
  simp only [hb, g1, g2, g3, bind, Except.bind]
  rw [hv, e]; rfl

/-- a reader with one loaded band -/
noncomputable def exFpReader : Reader (RF Double.fp) :=
  ⟨("/rsr", "rsr_viirs_NOAA-20.h5"), some "NOAA-20", .str "viirs", "1e-6 m", RF.of 1e-6, "wavelength", "", ["M4"],
    [("M4", [("det-1", [("wavelength", .arr (([0.5, 0.55, 0.7] : List ℝ).map RF.of)),
      ("response", .arr (([0.1, 1, 0] : List ℝ).map RF.of))])])]⟩

example : ∃ v : ℝ, effectiveOf exFpReader "M4" = .ok (RF.of v) ∧ 0.499 ≤ v ∧ v ≤ 0.701 := by
  obtain ⟨v, h1, _, h2⟩ := C163_effective_wavelength_accuracy Double.fp exFpReader "M4" _ _ _ _ exSamples rfl rfl rfl rfl
  obtain ⟨h3, h4⟩ := h2 0.5 0.7 (by intro x hx; simp at hx; rcases hx with rfl | rfl | rfl <;> norm_num)
  refine ⟨v, h1, ?_, ?_⟩ <;> norm_num at h3 h4 ⊢ <;> linarith

/-! ### C164 -/

section
variable (F : FP)

/-- the computed wavenumber of a wavelength in micron -/
theorem wn_near {x : ℝ} (h : 1e-8 ≤ x ∧ x ≤ 1e8) :
    Near (3 * uu) ((1.0 : RF F) / ((1e-4 : RF F) * (RF.of x : RF F))) (1e4 / x) := by
  have hu := uu_small
  have hu0 := uu_pos
  norm_num at hu
  obtain ⟨h1, h2⟩ := h
  have hx0 : 0 < x := lt_of_lt_of_le (by norm_num) h1
  have b1 : 1e-12 ≤ 1e-4 * x := by norm_num at h1 ⊢; linarith
  have b2 : 1e-4 * x ≤ 1e4 := by norm_num at h2 ⊢; linarith
  have b0 : 0 < 1e-4 * x := lt_of_lt_of_le (by norm_num) b1
  have n1 := near_mul F (near_lit F 1 true 4 (by norm_num) (by norm_num)) (near_refl hx0) (by linarith)
    (le_trans (by norm_num) b1) (b2.trans (by norm_num))
  have d1 : 1e-4 ≤ 1 / (1e-4 * x) := by
    rw [le_div_iff₀ b0]; refine (mul_le_mul_of_nonneg_left b2 (by norm_num)).trans ?_; norm_num
  have d2 : 1 / (1e-4 * x) ≤ 1e12 := by
    rw [div_le_iff₀ b0]; refine le_trans ?_ (mul_le_mul_of_nonneg_left b1 (by norm_num)); norm_num
  have n2 := near_div F (near_refl (x := 1) one_pos) n1 (by linarith) (le_trans (by norm_num) d1) (d2.trans (by norm_num))
  rw [one_lit]
  have e : 1 / (1e-4 * x) = 1e4 / x := by
    field_simp; norm_num
  rw [e] at n2
  exact Near.mono n2 (by linarith)

theorem wn_anti {x y : ℝ} (hx : 0 < x) (h : x ≤ y) :
    Lx ((1.0 : RF F) / ((1e-4 : RF F) * (RF.of y : RF F))) ((1.0 : RF F) / ((1e-4 : RF F) * (RF.of x : RF F))) := by
  obtain ⟨q, eq, hq⟩ := (near_lit F 1 true 4 (by norm_num) (by norm_num)).pos
  have m := mul_mono_left hq (lx_fin.2 hx.le) (lx_fin.2 h)
  have a2 := rd_mono F m
  have n0 := rd_nonneg F (mul_nonneg_left hq (lx_fin.2 hx.le))
  have := rd_mono F (div_anti (c := 1) one_pos n0 a2)
  rw [one_lit]
  show Lx (F.rd (XF.div (fin 1) (F.rd (XF.mul (1e-4 : RF F) (fin y))))) (F.rd (XF.div (fin 1) (F.rd (XF.mul (1e-4 : RF F) (fin x)))))
  rw [show (1e-4 : RF F) = fin q from eq]
  exact this
end

/-- A response data set in floating point: dictionaries with distinct keys, no wavenumbers yet. -/
structure FpWavelengthData {F : FP} (rsr : Rsr (RF F)) : Prop where
  wf : rsr.WF
  bandWf : ∀ p ∈ rsr, p.2.WF
  det : ∀ p ∈ rsr, ∀ q ∈ p.2, q.2.get? "wavenumber" = none ∧
    ∃ w r : List (RF F), q.2.get? "wavelength" = some (.arr w) ∧ q.2.get? "response" = some (.arr r)

/-- C164: the computed wavenumbers (1/cm) of a data set differ from `1e4/w` by less than the fraction
`3/2^50`, wavelengths (micron) from 1e-8 to 1e8; they stand in reverse order with the responses; for
ascending wavelengths they do not descend, and they ascend strictly where the wavelengths differ by one
part in 1e14. -/
theorem C164_wavenumber_accuracy (F : FP) (rsr : Rsr (RF F)) (hd : FpWavelengthData rsr) :
    ∃ out info, convert2wavenumber rsr = .ok (out, info) ∧ info.unit = "cm-1" ∧ info.si_scale = RF.of 100 ∧
      out.keys = rsr.keys ∧
      ∀ ch b, rsr.get? ch = some b → ∃ b', out.get? ch = some b' ∧ b'.keys = b.keys ∧
        ∀ d det, b.get? d = some det → ∃ det', b'.get? d = some det' ∧
          ∀ (w : List ℝ) (r : List (RF F)), det.get? "wavelength" = some (.arr (w.map RF.of)) →
            det.get? "response" = some (.arr r) → (∀ x ∈ w, 1e-8 ≤ x ∧ x ≤ 1e8) →
            ∃ n : ℝ → ℝ, det'.get? "wavenumber" = some (.arr (w.map fun x => RF.of (n x)).reverse) ∧
              det'.get? "response" = some (.arr r.reverse) ∧
              (∀ x ∈ w, |n x - 1e4 / x| ≤ 1e4 / x * 3 / 2 ^ 50) ∧
              (∀ x ∈ w, ∀ y ∈ w, x ≤ y → n y ≤ n x) ∧
              (∀ x ∈ w, ∀ y ∈ w, x * (1 + 1e-14) ≤ y → n y < n x) := by
  have hdet : ∀ p ∈ rsr, ∀ q ∈ p.2, ∃ y, convertDetector q.2 = .ok y := by
    intro p hp q hq
    obtain ⟨h1, w, r, h2, h3⟩ := hd.det p hp q hq
    obtain ⟨o, ho, _⟩ := convertDetector_spec q.2 w (.arr r) _ h1 h2 h3 rfl
    exact ⟨o, ho⟩
  have hband : ∀ p ∈ rsr, ∃ y, band2wavenumber p.2 = .ok y := by
    intro p hp
    rw [band2wavenumber_eq _ (hd.bandWf p hp)]
    exact mapM_pair_ok _ _ (hdet p hp)
  obtain ⟨out, hout⟩ := mapM_pair_ok band2wavenumber rsr hband
  obtain ⟨hk, hf⟩ := mapM_pair_spec _ _ _ hout
  have hu := uu_small
  have hu0 := uu_pos
  norm_num at hu
  refine ⟨out, ⟨"cm-1", 100.0⟩, ?_, rfl, ?_, hk, ?_⟩
  · rw [convert2wavenumber_eq _ hd.wf, hout]; rfl
  · show F.rnd (100.0 : ℝ) = fin 100
    rw [show (100.0 : ℝ) = ((100 : ℤ) : ℝ) by norm_num, F.rnd_int 100 (by norm_num)]
    norm_num
  · intro ch b hb
    obtain ⟨b', hb', hget⟩ := (forall₂_get? hf ch).1 b hb
    have hm := get?_eq_some_mem hb
    rw [band2wavenumber_eq _ (hd.bandWf _ hm)] at hb'
    obtain ⟨hk', hf'⟩ := mapM_pair_spec _ _ _ hb'
    refine ⟨b', hget, hk', ?_⟩
    intro d det hdd
    obtain ⟨det', hdet', hget'⟩ := (forall₂_get? hf' d).1 det hdd
    refine ⟨det', hget', ?_⟩
    intro w r hw hr hrange
    have hno := (hd.det _ hm _ (get?_eq_some_mem hdd)).1
    obtain ⟨o, ho, e1, e2, _⟩ := convertDetector_spec det _ _ _ hno hw hr rfl
    rw [hdet'] at ho; cases ho
    have key : ∀ x : ℝ, ∃ v : ℝ, (1e-8 ≤ x ∧ x ≤ 1e8) →
        (1.0 : RF F) / ((1e-4 : RF F) * (RF.of x : RF F)) = RF.of v ∧ |v - 1e4 / x| ≤ 1e4 / x * (3 / 2 ^ 50) := by
      intro x
      by_cases hx : 1e-8 ≤ x ∧ x ≤ 1e8
      · obtain ⟨v, e, hv⟩ := near_abs (wn_near F hx) (by linarith) (by norm_num; linarith)
        refine ⟨v, fun _ => ⟨e, hv.trans (le_of_eq ?_)⟩⟩
        unfold uu; ring
      · exact ⟨0, fun h => absurd h hx⟩
    choose n hn using key
    refine ⟨n, ?_, e2, ?_, ?_, ?_⟩
    · rw [e1, List.map_map]
      congr 2
      refine congrArg List.reverse (List.map_congr_left ?_)
      intro x hx
      exact (hn x (hrange x hx)).1
    · intro x hx
      exact ((hn x (hrange x hx)).2).trans (le_of_eq (by ring))
    · intro x hx y hy hxy
      have hx0 : 0 < x := lt_of_lt_of_le (by norm_num) (hrange x hx).1
      have := wn_anti F hx0 hxy
      rw [(hn x (hrange x hx)).1, (hn y (hrange y hy)).1] at this
      exact lx_fin.1 this
    · intro x hx y hy hxy
      have hx0 : 0 < x := lt_of_lt_of_le (by norm_num) (hrange x hx).1
      have hy0 : 0 < y := lt_of_lt_of_le (by norm_num) (hrange y hy).1
      have a1 := (abs_le.1 (hn x (hrange x hx)).2).1
      have a2 := (abs_le.1 (hn y (hrange y hy)).2).2
      have p : 0 < 1e4 / y := by positivity
      have q : 1e4 / y * (1 + 1e-14) ≤ 1e4 / x := by
        rw [div_mul_eq_mul_div, div_le_div_iff₀ hy0 hx0]
        have := mul_le_mul_of_nonneg_left hxy (show (0:ℝ) ≤ 1e4 by norm_num)
        linarith
      generalize 1e4 / y = Q at *
      generalize 1e4 / x = P at *
      have q1 := mul_le_mul_of_nonneg_right q (show (0 : ℝ) ≤ 1 - 3 / 2 ^ 50 by norm_num)
      have q2 : Q * (1 + 3 / 2 ^ 50) < Q * (1 + 1e-14) * (1 - 3 / 2 ^ 50) := by
        rw [mul_assoc]
        exact mul_lt_mul_of_pos_left (by norm_num) p
      linarith

/-- two bands -/
noncomputable def exFpData : Rsr (RF Double.fp) :=
  [("ch1", [("det-1", [("wavelength", .arr (([0.5, 0.6] : List ℝ).map RF.of)), ("response", .arr (([1, 0.5] : List ℝ).map RF.of)),
      ("central_wavelength", .num (RF.of 0.55))])]),
   ("ch2", [("det-1", [("wavelength", .arr (([10, 11, 12] : List ℝ).map RF.of)), ("response", .arr (([0, 1, 0] : List ℝ).map RF.of))])])]

theorem exFpData_ok : FpWavelengthData exFpData := by
  refine ⟨by simp [Dict.WF, exFpData], ?_, ?_⟩
  · intro p hp; simp [exFpData] at hp; rcases hp with rfl | rfl <;> simp [Dict.WF]
  · intro p hp q hq; simp [exFpData] at hp
    rcases hp with rfl | rfl <;> simp at hq <;> subst hq
    · exact ⟨rfl, _, _, rfl, rfl⟩
    · exact ⟨rfl, _, _, rfl, rfl⟩

example : ∃ out info b det, convert2wavenumber exFpData = .ok (out, info) ∧ out.get? "ch2" = some b ∧
    b.get? "det-1" = some det ∧ ∃ n : ℝ → ℝ, det.get? "wavenumber" = some (.arr [RF.of (n 12), RF.of (n 11), RF.of (n 10)]) ∧
      n 12 < n 11 ∧ |n 10 - 1e4 / 10| ≤ 1e4 / 10 * 3 / 2 ^ 50 := by
  obtain ⟨out, info, h, _, _, _, h1⟩ := C164_wavenumber_accuracy Double.fp exFpData exFpData_ok
  obtain ⟨b, hb, _, h2⟩ := h1 "ch2" _ rfl
  obtain ⟨det, hdet, h3⟩ := h2 "det-1" _ rfl
  obtain ⟨n, hn, _, h4, _, h5⟩ := h3 [10, 11, 12] _ rfl rfl (by
    intro x hx; simp at hx; rcases hx with rfl | rfl | rfl <;> norm_num)
  exact ⟨out, info, b, det, h, hb, hdet, n, hn, h5 11 (by simp) 12 (by simp) (by norm_num), h4 10 (by simp)⟩

end Verif.Props
