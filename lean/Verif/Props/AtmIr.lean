import Verif.Lemmas.AtmIr
import Mathlib.Analysis.SpecialFunctions.Pow.Continuity
/-
C82-C87: limb correction of infrared window channels.
-/
namespace Verif.Props
open Verif Verif.AtmIr Verif.Lemmas Verif.XF

/-! ### Specification -/

/-- The documented correction of a temperature `t` (K) seen under zenith angle `z` (degrees). -/
noncomputable def limbCorrection (t z : ℝ) : ℝ :=
  if z = 0 then (10.85 : ℝ) ^ ((t - 210) / 110) - 1
  else if 0 < z ∧ z < 90 then ((t - 170) / 125) ^ 4 * ((7.2 : ℝ) ^ (z / 70) - 1)
  else 0

/-- A two-dimensional array: shape and data fit. -/
def Image {β : Type} (m n : Nat) (a : Arr β) : Prop := a.shape = [m, n] ∧ a.data.length = m * n

/-- `viewzen_corr` on the masked array `a` (any array object, among any others) returns the same
object, now with content `b`, and changes no other object. -/
def Corrects (v a b : Arr (Masked XF)) : Prop :=
  ∀ (h : Heap XF) (r : Nat), h.cell r = .masked a →
    ∃ h', viewzenCorr r v h = (.ok r, h') ∧ h'.cell r = .masked b ∧ ∀ q, q ≠ r → h'.cell q = h.cell q

/-- a pixel whose zenith angle is known and in [0, 90) -/
def InView (z : Masked XF) : Prop := z.mask = false ∧ ∃ x : ℝ, z.val = fin x ∧ 0 ≤ x ∧ x < 90

/-! ### Pixels -/

theorem isFinite_fin (x : ℝ) : isFinite (fin x) = true := by simp [isFinite]
theorem isFinite_iff (a : XF) : isFinite a = true ↔ ∃ x, a = fin x := by
  cases a with
  | fin x => simp [isFinite_fin]
  | nan => simp [isFinite]
  | pinf => exact ⟨fun h => absurd h (by unfold isFinite; exact fun h => by cases h), fun ⟨_, h⟩ => by cases h⟩
  | ninf => exact ⟨fun h => absurd h (by unfold isFinite; exact fun h => by cases h), fun ⟨_, h⟩ => by cases h⟩

theorem pow_pos_base {b : ℝ} (hb : 0 < b) (y : ℝ) : PyNum.pow (fin b) (fin y) = fin (b ^ y) := by
  show powx (fin b) (fin y) = _
  unfold powx
  by_cases h : y = 0
  · simp [h]
  · simp [h, hb]

section
open PyNum

theorem ratio_fin (t a b : ℝ) (h : b - a ≠ 0) : ratio (fin t) (fin a) (fin b) = fin ((t - a) / (b - a)) := by
  simp only [ratio, fin_sub]; rw [fin_div _ h]

theorem tau0_fin (t : ℝ) : tau0 (fin t) = fin ((10.85 : ℝ) ^ ((t - 210) / 110) - 1) := by
  unfold tau0
  rw [ofSci_eq, ofSci_eq, ofSci_eq, ofNat_one, ratio_fin _ _ _ (by norm_num), fin_add,
    pow_pos_base (by norm_num), fin_sub]
  norm_num

theorem tau_fin (t : ℝ) : tau (fin t) = fin (((t - 170) / 125) ^ 4) := by
  unfold tau
  rw [ofSci_eq, ofSci_eq, ofSci_eq, ratio_fin _ _ _ (by norm_num), powNat_fin, fin_mul]
  norm_num

theorem delta_fin (z : ℝ) : delta (fin z) = fin ((7.2 : ℝ) ^ (z / 70) - 1) := by
  unfold delta
  rw [ofSci_eq, ofSci_eq, ofSci_eq, ofNat_one, ratio_fin _ _ _ (by norm_num), fin_add,
    pow_pos_base (by norm_num), fin_sub]
  norm_num

theorem ratioM_fin (t a b : ℝ) (h : b - a ≠ 0) :
    ratioM ⟨fin t, false⟩ (fin a) (fin b) = ⟨ratio (fin t) (fin a) (fin b), false⟩ := by
  unfold ratioM Masked.sub Masked.div
  simp only [Bool.false_eq_true, if_false, fin_sub, ratio_fin _ _ _ h]
  rw [fin_div _ h]
  simp [isFinite_fin]

theorem ratioM_masked (x : XF) (a b : XF) : (ratioM ⟨x, true⟩ a b).mask = true := by
  simp [ratioM, Masked.sub, Masked.div]

theorem ratioM_notfin (x : XF) (hx : isFinite x = false) (a b : ℝ) (h : b - a ≠ 0) :
    (ratioM ⟨x, false⟩ (fin a) (fin b)).mask = true := by
  have : isFinite ((x - fin a) / (fin b - fin a)) = false := by
    rw [← Bool.not_eq_true, isFinite_iff] at hx ⊢
    rintro ⟨y, hy⟩
    rw [fin_sub] at hy
    cases x with
    | fin x => exact hx ⟨x, rfl⟩
    | nan => simp at hy
    | pinf =>
      have : (pinf - fin a : XF) / fin (b - a) = if b - a < 0 then ninf else pinf := rfl
      rw [this] at hy; split at hy <;> cases hy
    | ninf =>
      have : (ninf - fin a : XF) / fin (b - a) = if b - a < 0 then pinf else ninf := rfl
      rw [this] at hy; split at hy <;> cases hy
  simp only [ratioM, Masked.sub, Masked.div, Bool.false_eq_true, if_false, this]
  rfl

theorem tau0M_fin (t : ℝ) : tau0M ⟨fin t, false⟩ = ⟨tau0 (fin t), false⟩ := by
  have hb : (0 : ℝ) < 1 + 9.85 := by norm_num
  unfold tau0M tau0
  rw [ofSci_eq, ofSci_eq, ofSci_eq, ofNat_one, ratioM_fin _ _ _ (by norm_num), ratio_fin _ _ _ (by norm_num), fin_add]
  simp only [pow_pos_base hb, Masked.power, Masked.sub, isFinite_fin, Bool.not_true, Bool.false_or, Bool.false_eq_true,
    if_false, if_true]

theorem deltaM_fin (z : ℝ) : deltaM ⟨fin z, false⟩ = ⟨delta (fin z), false⟩ := by
  have hb : (0 : ℝ) < 1 + 6.2 := by norm_num
  unfold deltaM delta
  rw [ofSci_eq, ofSci_eq, ofSci_eq, ofNat_one, ratioM_fin _ _ _ (by norm_num), ratio_fin _ _ _ (by norm_num), fin_add]
  simp only [pow_pos_base hb, Masked.power, Masked.sub, isFinite_fin, Bool.not_true, Bool.false_or, Bool.false_eq_true,
    if_false, if_true]

theorem tauM_fin (t : ℝ) : tauM ⟨fin t, false⟩ = ⟨tau (fin t), false⟩ := by
  unfold tauM
  rw [ofSci_eq, ofSci_eq, ratioM_fin _ _ _ (by norm_num)]
  rw [ratio_fin _ _ _ (by norm_num)]
  unfold tau
  rw [ofSci_eq, ofSci_eq, ofSci_eq, ratio_fin _ _ _ (by norm_num), powNat_fin]
  simp [Masked.power, isFinite_fin]

theorem tau0M_mask (x : Masked XF) (h : x.mask = true ∨ isFinite x.val = false) : (tau0M x).mask = true := by
  have : (ratioM x (fin 210.0) (fin 320.0)).mask = true := by
    obtain ⟨v, m⟩ := x
    cases m with
    | true => exact ratioM_masked _ _ _
    | false => exact ratioM_notfin v (by simpa using h) _ _ (by norm_num)
  unfold tau0M
  rw [ofSci_eq, ofSci_eq]
  simp [Masked.power, Masked.sub, this]

theorem tauM_mask (x : Masked XF) (h : x.mask = true ∨ isFinite x.val = false) : (tauM x).mask = true := by
  have : (ratioM x (fin 170.0) (fin 295.0)).mask = true := by
    obtain ⟨v, m⟩ := x
    cases m with
    | true => exact ratioM_masked _ _ _
    | false => exact ratioM_notfin v (by simpa using h) _ _ (by norm_num)
  unfold tauM
  rw [ofSci_eq, ofSci_eq]
  simp [Masked.power, this]

/-- a masked pixel stays as it is -/
theorem pix_masked (x : XF) (z : Masked XF) :
    pixLimb (pixNadir ⟨x, true⟩ z) z = ⟨x, true⟩ := by
  have h1 : pixNadir ⟨x, true⟩ z = ⟨x, true⟩ := by
    unfold pixNadir
    split
    · simp only [Masked.iadd, Bool.true_or, if_true, ofNat_zero]
      congr 1
      cases x with
      | fin x => simp
      | _ => rfl
    · rfl
  rw [h1]
  simp [pixLimb]

/-- a pixel out of view stays as it is -/
theorem pix_outside (t z : Masked XF) (h : ¬ InView z) : pixLimb (pixNadir t z) z = t := by
  obtain ⟨z, m⟩ := z
  cases m with
  | true => simp [pixLimb, pixNadir, Masked.filled]
  | false =>
    cases z with
    | nan => simp [pixLimb, pixNadir, Masked.filled, show PyNum.eq XF.nan (fin 0) = false from rfl]
    | pinf =>
      simp [pixLimb, pixNadir, Masked.filled, show PyNum.eq (pinf : XF) (fin 0) = false from rfl,
        show PyNum.lt (pinf : XF) (fin 90) = false from rfl]
    | ninf =>
      simp [pixLimb, pixNadir, Masked.filled, show PyNum.eq (ninf : XF) (fin 0) = false from rfl,
        show PyNum.gt (ninf : XF) (fin 0) = false from rfl]
    | fin x =>
      have hx : ¬ (0 ≤ x ∧ x < 90) := fun hx => h ⟨rfl, x, rfl, hx⟩
      have h0 : x ≠ 0 := fun h0 => hx (by subst h0; norm_num)
      have h1 : 0 < x → ¬ x < 90 := fun h1 h2 => hx ⟨h1.le, h2⟩
      simp [pixLimb, pixNadir, Masked.filled, h0]
      intro a b; exact absurd b (h1 a)

/-- a finite pixel gets the correction -/
theorem pix_fin (t z : ℝ) :
    pixLimb (pixNadir ⟨fin t, false⟩ ⟨fin z, false⟩) ⟨fin z, false⟩ = ⟨fin (t + limbCorrection t z), false⟩ := by
  unfold limbCorrection
  by_cases h0 : z = 0
  · subst h0
    simp [pixLimb, pixNadir, Masked.filled, Masked.iadd, tau0M_fin, tau0_fin]
  · have h1 : pixNadir ⟨fin t, false⟩ ⟨fin z, false⟩ = ⟨fin t, false⟩ := by
      simp [pixNadir, Masked.filled, h0]
    rw [h1, if_neg h0]
    by_cases h2 : 0 < z ∧ z < 90
    · simp [pixLimb, Masked.filled, Masked.iadd, Masked.mul, tauM_fin, deltaM_fin, tau_fin, delta_fin, h2.1, h2.2]
    · rw [if_neg h2]
      have : (decide (0 < z) && decide (z < 90)) = false := by
        rw [← Bool.not_eq_true]; simpa using h2
      simp [pixLimb, Masked.filled, this]

/-- a non-finite pixel in view becomes masked -/
theorem pix_notfin (t : XF) (ht : isFinite t = false) (z : Masked XF) (h : InView z) :
    pixLimb (pixNadir ⟨t, false⟩ z) z = ⟨t, true⟩ := by
  obtain ⟨z, m⟩ := z
  obtain ⟨hm, x, hx, h1, h2⟩ := h
  simp only at hm hx
  subst hm hx
  have t0 : t + fin 0 = t := by
    cases t with
    | fin t => simp
    | _ => rfl
  by_cases h0 : x = 0
  · subst h0
    simp [pixLimb, pixNadir, Masked.filled, Masked.iadd, tau0M_mask ⟨t, false⟩ (Or.inr ht), t0]
  · have h3 : 0 < x := lt_of_le_of_ne h1 (Ne.symm h0)
    simp [pixLimb, pixNadir, Masked.filled, h0, h3, h2, Masked.iadd, Masked.mul, tauM_mask ⟨t, false⟩ (Or.inr ht), t0]

theorem dask_fin (t z : ℝ) : pixDask (fin t) (fin z) = fin (t + limbCorrection t z) := by
  unfold pixDask limbCorrection
  by_cases h0 : z = 0
  · subst h0; simp [tau0_fin]
  · by_cases h2 : 0 < z ∧ z < 90
    · simp [h0, h2.1, h2.2, tau_fin, delta_fin]
    · have : (decide (0 < z) && decide (z < 90)) = false := by
        rw [← Bool.not_eq_true]; simpa using h2
      simp [h0, h2, this]

theorem dask_outside (t z : XF) (h : ¬ InView ⟨z, false⟩) : pixDask t z = t := by
  cases z with
  | nan => simp [pixDask, show PyNum.eq XF.nan (fin 0) = false from rfl]
  | pinf =>
    simp [pixDask, show PyNum.eq (pinf : XF) (fin 0) = false from rfl, show PyNum.lt (pinf : XF) (fin 90) = false from rfl]
  | ninf =>
    simp [pixDask, show PyNum.eq (ninf : XF) (fin 0) = false from rfl, show PyNum.gt (ninf : XF) (fin 0) = false from rfl]
  | fin x =>
    have hx : ¬ (0 ≤ x ∧ x < 90) := fun hx => h ⟨rfl, x, rfl, hx⟩
    have h0 : x ≠ 0 := fun h0 => hx (by subst h0; norm_num)
    have h1 : 0 < x → ¬ x < 90 := fun h1 h2 => hx ⟨h1.le, h2⟩
    simp [pixDask, h0]
    intro a b; exact absurd b (h1 a)

/-- adding to a non-finite value never gives a finite one -/
theorem add_notfin (t x : XF) (ht : isFinite t = false) : isFinite (t + x) = false := by
  rw [← Bool.not_eq_true, isFinite_iff] at ht ⊢
  rintro ⟨y, hy⟩
  cases t with
  | fin t => exact ht ⟨t, rfl⟩
  | nan => simp at hy
  | pinf => cases x <;> cases hy
  | ninf => cases x <;> cases hy

theorem dask_notfin (t z : XF) (ht : isFinite t = false) : isFinite (pixDask t z) = false := by
  unfold pixDask
  split
  · exact add_notfin _ _ ht
  · split
    · exact add_notfin _ _ ht
    · exact ht

end

/-- every image gets corrected pixel by pixel -/
theorem corrects {m n : Nat} {a v : Arr (Masked XF)} (ha : Image m n a) (hv : Image m n v) :
    Corrects v a ⟨[m, n], List.zipWith (fun t z => pixLimb (pixNadir t z) z) a.data v.data⟩ := by
  intro h r hr
  obtain ⟨h', h1, _, h2, h3⟩ := viewzenCorr_masked ha.1 hv.1 ha.2 hv.2 r h hr
  exact ⟨h', h1, h3, h2⟩

theorem corrects_unique {v a b b' : Arr (Masked XF)} (h : Corrects v a b) (h' : Corrects v a b') : b = b' := by
  obtain ⟨h1, e1, e2, _⟩ := h ⟨fun _ => .masked a, 0⟩ 0 rfl
  obtain ⟨h2, e3, e4, _⟩ := h' ⟨fun _ => .masked a, 0⟩ 0 rfl
  rw [e1] at e3
  injection e3 with _ e3
  rw [e3, e4] at e2
  cases e2; rfl

theorem corrects_pixel {m n : Nat} {a v b : Arr (Masked XF)} (ha : Image m n a) (hv : Image m n v)
    (hb : Corrects v a b) {i : Nat} {t z : Masked XF} (ht : a.data[i]? = some t) (hz : v.data[i]? = some z) :
    b.data[i]? = some (pixLimb (pixNadir t z) z) := by
  rw [corrects_unique hb (corrects ha hv)]
  show (List.zipWith _ a.data v.data)[i]? = _
  rw [List.getElem?_zipWith, ht, hz]

/-! ### C82 -/

/-- C82: on images with the same pixels and angles the numpy masked-array code and the dask code
both work and give the same value at every pixel; where the input has no finite value neither
output has (masked resp. non-finite). -/
theorem C82_array_types_agree (m n : Nat) (d z : Arr XF) (hd : Image m n d) (hz : Image m n z) :
    ∃ b q, Corrects (z.map fun x => ⟨x, false⟩) (d.map fun x => ⟨x, false⟩) b ∧ viewzenCorrDask d z = .ok q ∧
      Image m n b ∧ Image m n q ∧
      ∀ (i : Nat) (t : XF), d.data[i]? = some t → ∃ (p : Masked XF) (y : XF), b.data[i]? = some p ∧ q.data[i]? = some y ∧
        ((p.mask = false ∧ p.val = y) ∨ (p.mask = true ∧ isFinite y = false ∧ isFinite t = false)) := by
  have hd' : Image m n (d.map fun x => (⟨x, false⟩ : Masked XF)) := ⟨hd.1, by simpa [Arr.map] using hd.2⟩
  have hz' : Image m n (z.map fun x => (⟨x, false⟩ : Masked XF)) := ⟨hz.1, by simpa [Arr.map] using hz.2⟩
  have hs : d.shape = z.shape := by rw [hd.1, hz.1]
  refine ⟨_, _, corrects hd' hz', viewzenCorrDask_eq hs (by rw [hd.2, hz.2]),
    ⟨rfl, by simp [hd'.2, hz'.2]⟩, ⟨hd.1, by simp [hd.2, hz.2]⟩, ?_⟩
  intro i t ht
  have hi : i < d.data.length := by
    by_contra hc
    rw [List.getElem?_eq_none (by omega)] at ht; cases ht
  have hi' : i < z.data.length := by rw [hz.2, ← hd.2]; exact hi
  obtain ⟨x, hx⟩ : ∃ x, z.data[i]? = some x := ⟨_, List.getElem?_eq_getElem hi'⟩
  refine ⟨pixLimb (pixNadir ⟨t, false⟩ ⟨x, false⟩) ⟨x, false⟩, pixDask t x,
    by simp [Arr.map, List.getElem?_zipWith, ht, hx], by simp [List.getElem?_zipWith, ht, hx], ?_⟩
  by_cases hv : InView ⟨x, false⟩
  · cases hf : isFinite t with
    | true =>
      obtain ⟨t', rfl⟩ := (isFinite_iff t).1 hf
      obtain ⟨_, x', hx', _⟩ := hv
      simp only at hx'
      subst hx'
      left
      rw [pix_fin, dask_fin]
      exact ⟨rfl, rfl⟩
    | false =>
      right
      rw [pix_notfin _ hf _ hv]
      exact ⟨rfl, dask_notfin _ _ hf, rfl⟩
  · left
    rw [pix_outside _ _ hv, dask_outside _ _ hv]
    exact ⟨rfl, rfl⟩

/-- an image: nadir, oblique, beyond the limb, and a missing value -/
noncomputable def exTemps : Arr XF := ⟨[2, 2], [fin 300, fin 280, fin 250, nan]⟩
noncomputable def exAngles : Arr XF := ⟨[2, 2], [fin 0, fin 60, fin 95, fin 30]⟩

example : ∃ q, viewzenCorrDask exTemps exAngles = .ok q ∧ q.data[2]? = some (fin 250) ∧
    ∃ y, q.data[0]? = some (fin y) ∧ 300 < y := by
  refine ⟨_, viewzenCorrDask_eq rfl rfl, ?_, ?_⟩
  · show some (pixDask (fin 250) (fin 95)) = _
    rw [dask_fin]; norm_num [limbCorrection]
  · refine ⟨300 + limbCorrection 300 0, ?_, ?_⟩
    · show some (pixDask (fin 300) (fin 0)) = _
      rw [dask_fin]
    · have : (1 : ℝ) < (10.85 : ℝ) ^ ((300 - 210 : ℝ) / 110) := Real.one_lt_rpow (by norm_num) (by norm_num)
      simp only [limbCorrection, if_true]; linarith

/-! ### C83 -/

/-- C83: pixels whose zenith is negative, 90 or more, NaN or unknown keep value and mask, and so do
masked pixels at any zenith. -/
theorem C83_untouched (m n : Nat) (a v : Arr (Masked XF)) (ha : Image m n a) (hv : Image m n v) :
    ∃ b, Corrects v a b ∧ Image m n b ∧ ∀ (i : Nat) (t z : Masked XF), a.data[i]? = some t → v.data[i]? = some z →
      (t.mask = true ∨ ¬ InView z) → b.data[i]? = some t := by
  refine ⟨_, corrects ha hv, ⟨rfl, by simp [ha.2, hv.2]⟩, ?_⟩
  intro i t z ht hz hor
  rw [corrects_pixel ha hv (corrects ha hv) ht hz]
  rcases hor with h | h
  · obtain ⟨x, k⟩ := t
    simp only at h
    subst h
    rw [pix_masked]
  · rw [pix_outside _ _ h]

/-- the pixel beyond the limb keeps its value -/
example : ∃ b, Corrects (exAngles.map fun x => ⟨x, false⟩) (exTemps.map fun x => ⟨x, false⟩) b ∧
    b.data[2]? = some ⟨fin 250, false⟩ := by
  obtain ⟨b, hb, -, h⟩ := C83_untouched 2 2 (exTemps.map fun x => ⟨x, false⟩) (exAngles.map fun x => ⟨x, false⟩)
    ⟨rfl, rfl⟩ ⟨rfl, rfl⟩
  refine ⟨b, hb, h 2 _ ⟨fin 95, false⟩ rfl rfl (Or.inr ?_)⟩
  rintro ⟨-, x, hx, -, h2⟩
  simp only [fin_inj] at hx
  linarith

theorem C83_untouched_dask (m n : Nat) (d z : Arr XF) (hd : Image m n d) (hz : Image m n z) :
    ∃ q, viewzenCorrDask d z = .ok q ∧ ∀ (i : Nat) (t x : XF), d.data[i]? = some t → z.data[i]? = some x →
      ¬ InView ⟨x, false⟩ → q.data[i]? = some t := by
  refine ⟨_, viewzenCorrDask_eq (by rw [hd.1, hz.1]) (by rw [hd.2, hz.2]), ?_⟩
  intro i t x ht hx h
  simp [List.getElem?_zipWith, ht, hx, dask_outside _ _ h]

example : ∃ q, viewzenCorrDask exTemps exAngles = .ok q ∧ q.data[2]? = some (fin 250) := by
  obtain ⟨q, hq, h⟩ := C83_untouched_dask 2 2 exTemps exAngles ⟨rfl, rfl⟩ ⟨rfl, rfl⟩
  refine ⟨q, hq, h 2 _ (fin 95) rfl rfl ?_⟩
  rintro ⟨-, x, hx, -, h2⟩
  simp only [fin_inj] at hx
  linarith

/-- C83: `get_correction` never changes the array it is given, nor any other existing one, whatever
the kinds and shapes of the arrays and whether it returns or raises. -/
theorem C83_input_kept {α : Type} [PyNum α] (z : Arr (Masked α)) (r : Nat) (h : Heap α) :
    ∀ q, q < h.next → (getCorrection z r h).2.cell q = h.cell q := by
  intro q hq
  have hne : q ≠ h.next := by omega
  unfold getCorrection
  rw [st_bind_ok (st_get h)]
  set h₁ : Heap α := { cell := fun x => if x = h.next then h.cell r else h.cell x, next := h.next + 1 } with hh
  rw [st_bind_ok (show Heap.alloc (h.cell r) h = (.ok h.next, h₁) from rfl)]
  have e1 : h₁.cell q = h.cell q := by simp [hh, hne]
  unfold viewzenCorr
  rw [st_bind_ok (st_get h₁)]
  cases e2 : nadirStep z (h₁.cell h.next) with
  | error e => rw [st_bind_error (st_lift_error rfl _)]; exact e1
  | ok a =>
    rw [st_bind_ok (st_lift_ok rfl _), st_bind_ok (st_modify _ _)]
    cases e3 : limbStep z a with
    | error e => rw [st_bind_error (st_lift_error rfl _)]; simpa [Heap.set, hne] using e1
    | ok a' =>
      rw [st_bind_ok (st_lift_ok rfl _), st_bind_ok (st_modify _ _)]
      simpa [Heap.set, hne, st_pure] using e1

/-- and returns the same values as `viewzen_corr` on a masked array, in a new array -/
theorem C83_same_values (m n : Nat) (a v b : Arr (Masked XF)) (ha : Image m n a) (hv : Image m n v)
    (hb : Corrects v a b) (h : Heap XF) (r : Nat) (hr : h.cell r = .masked a) :
    ∃ h' new, getCorrection v r h = (.ok new, h') ∧ ¬ new < h.next ∧ h'.cell new = .masked b := by
  obtain ⟨h', e1, e2, _⟩ := hb { cell := fun x => if x = h.next then h.cell r else h.cell x, next := h.next + 1 } h.next
    (by simp [hr])
  refine ⟨h', h.next, ?_, by omega, e2⟩
  unfold getCorrection
  rw [st_bind_ok (st_get h)]
  exact e1

example : ∃ b, Corrects (exAngles.map fun x => ⟨x, false⟩) (exTemps.map fun x => ⟨x, false⟩) b ∧
    ∀ (h : Heap XF) (r : Nat), h.cell r = .masked (exTemps.map fun x => ⟨x, false⟩) →
      ∃ h' new, getCorrection (exAngles.map fun x => ⟨x, false⟩) r h = (.ok new, h') ∧ h'.cell new = .masked b := by
  have ha : Image 2 2 (exTemps.map fun x => (⟨x, false⟩ : Masked XF)) := ⟨rfl, rfl⟩
  have hv : Image 2 2 (exAngles.map fun x => (⟨x, false⟩ : Masked XF)) := ⟨rfl, rfl⟩
  refine ⟨_, corrects ha hv, fun h r hr => ?_⟩
  obtain ⟨h', new, h1, -, h2⟩ := C83_same_values 2 2 _ _ _ ha hv (corrects ha hv) h r hr
  exact ⟨h', new, h1, h2⟩

/-! ### C84 -/

theorem limb_nonneg (t z : ℝ) (h0 : 0 < z) (h1 : z < 90) : 0 ≤ limbCorrection t z := by
  unfold limbCorrection
  rw [if_neg h0.ne', if_pos ⟨h0, h1⟩]
  have : (1 : ℝ) ≤ (7.2 : ℝ) ^ (z / 70) := Real.one_le_rpow (by norm_num) (by positivity)
  exact mul_nonneg (Even.pow_nonneg (by decide) _) (by linarith)

theorem limb_mono (t z z' : ℝ) (h0 : 0 < z) (h : z ≤ z') (h1 : z' < 90) : limbCorrection t z ≤ limbCorrection t z' := by
  unfold limbCorrection
  rw [if_neg h0.ne', if_pos ⟨h0, by linarith⟩, if_neg (show z' ≠ 0 by intro h2; linarith), if_pos ⟨by linarith, h1⟩]
  have : (7.2 : ℝ) ^ (z / 70) ≤ (7.2 : ℝ) ^ (z' / 70) :=
    Real.rpow_le_rpow_of_exponent_le (by norm_num) (by linarith)
  exact mul_le_mul_of_nonneg_left (by linarith) (Even.pow_nonneg (by decide) _)

/-- C84: an unmasked finite pixel `t` at zenith `z` in (0, 90) gets the documented correction, which is
not negative. -/
theorem C84_formula (m n : Nat) (a v : Arr (Masked XF)) (ha : Image m n a) (hv : Image m n v) :
    ∃ b, Corrects v a b ∧ ∀ (i : Nat) (t z : ℝ), a.data[i]? = some ⟨fin t, false⟩ → v.data[i]? = some ⟨fin z, false⟩ →
      0 < z → z < 90 →
      b.data[i]? = some ⟨fin (t + ((t - 170) / 125) ^ 4 * ((7.2 : ℝ) ^ (z / 70) - 1)), false⟩ ∧
      0 ≤ ((t - 170) / 125) ^ 4 * ((7.2 : ℝ) ^ (z / 70) - 1) := by
  refine ⟨_, corrects ha hv, ?_⟩
  intro i t z ht hz h0 h1
  have e : limbCorrection t z = ((t - 170) / 125) ^ 4 * ((7.2 : ℝ) ^ (z / 70) - 1) := by
    unfold limbCorrection; rw [if_neg h0.ne', if_pos ⟨h0, h1⟩]
  rw [corrects_pixel ha hv (corrects ha hv) ht hz, pix_fin, e]
  exact ⟨rfl, e ▸ limb_nonneg t z h0 h1⟩

example : ∃ b, Corrects (exAngles.map fun x => ⟨x, false⟩) (exTemps.map fun x => ⟨x, false⟩) b ∧
    b.data[1]? = some ⟨fin (280 + ((280 - 170) / 125) ^ 4 * ((7.2 : ℝ) ^ ((60 : ℝ) / 70) - 1)), false⟩ := by
  obtain ⟨b, hb, h⟩ := C84_formula 2 2 (exTemps.map fun x => ⟨x, false⟩) (exAngles.map fun x => ⟨x, false⟩)
    ⟨rfl, rfl⟩ ⟨rfl, rfl⟩
  exact ⟨b, hb, (h 1 280 60 rfl rfl (by norm_num) (by norm_num)).1⟩

/-- C84: of two images of the same pixels the one with the larger zenith is not colder. -/
theorem C84_grows (m n : Nat) (a v v' b b' : Arr (Masked XF)) (ha : Image m n a) (hv : Image m n v) (hv' : Image m n v')
    (hb : Corrects v a b) (hb' : Corrects v' a b') (i : Nat) (t z z' : ℝ)
    (ht : a.data[i]? = some ⟨fin t, false⟩) (hz : v.data[i]? = some ⟨fin z, false⟩)
    (hz' : v'.data[i]? = some ⟨fin z', false⟩) (h0 : 0 < z) (hle : z ≤ z') (h1 : z' < 90) :
    ∃ x x', b.data[i]? = some ⟨fin x, false⟩ ∧ b'.data[i]? = some ⟨fin x', false⟩ ∧ t ≤ x ∧ x ≤ x' := by
  refine ⟨t + limbCorrection t z, t + limbCorrection t z', ?_, ?_, ?_, ?_⟩
  · rw [corrects_pixel ha hv hb ht hz, pix_fin]
  · rw [corrects_pixel ha hv' hb' ht hz', pix_fin]
  · have := limb_nonneg t z h0 (by linarith); linarith
  · have := limb_mono t z z' h0 hle h1; linarith

example : ∃ b b' x x', Corrects ⟨[1, 1], [⟨fin 30, false⟩]⟩ ⟨[1, 1], [⟨fin 280, false⟩]⟩ b ∧
    Corrects ⟨[1, 1], [⟨fin 60, false⟩]⟩ ⟨[1, 1], [⟨fin 280, false⟩]⟩ b' ∧
    b.data[0]? = some ⟨fin x, false⟩ ∧ b'.data[0]? = some ⟨fin x', false⟩ ∧ 280 ≤ x ∧ x ≤ x' := by
  have h := corrects (m := 1) (n := 1) (a := ⟨[1, 1], [⟨fin 280, false⟩]⟩) (v := ⟨[1, 1], [⟨fin 30, false⟩]⟩)
    ⟨rfl, rfl⟩ ⟨rfl, rfl⟩
  have h' := corrects (m := 1) (n := 1) (a := ⟨[1, 1], [⟨fin 280, false⟩]⟩) (v := ⟨[1, 1], [⟨fin 60, false⟩]⟩)
    ⟨rfl, rfl⟩ ⟨rfl, rfl⟩
  obtain ⟨x, x', h1, h2, h3, h4⟩ := C84_grows 1 1 _ _ _ _ _ ⟨rfl, rfl⟩ ⟨rfl, rfl⟩ ⟨rfl, rfl⟩ h h' 0 280 30 60 rfl rfl rfl
    (by norm_num) (by norm_num) (by norm_num)
  exact ⟨_, _, x, x', h, h', h1, h2, h3, h4⟩

/-! ### C85 -/

/-- the correction of one pixel, as the code applies it to a 1 x 1 image: the result is `t + c` -/
def CorrectedBy (t z c : ℝ) : Prop :=
  Corrects ⟨[1, 1], [⟨fin z, false⟩]⟩ ⟨[1, 1], [⟨fin t, false⟩]⟩ ⟨[1, 1], [⟨fin (t + c), false⟩]⟩

theorem correctedBy (t z c : ℝ) : CorrectedBy t z c ↔ c = limbCorrection t z := by
  have h := corrects (a := ⟨[1, 1], [⟨fin t, false⟩]⟩) (v := ⟨[1, 1], [⟨fin z, false⟩]⟩) (m := 1) (n := 1)
    ⟨rfl, rfl⟩ ⟨rfl, rfl⟩
  simp only [List.zipWith_cons_cons, List.zipWith_nil_left, pix_fin] at h
  constructor
  · intro hc
    have := corrects_unique hc h
    simpa using this
  · rintro rfl; exact h

/-- C85 fails for every temperature above 210 K: some zenith gets less correction than nadir. -/
theorem C85_fails (t : ℝ) (ht : 210 < t) : ∃ z c₀ c, 0 < z ∧ z < 90 ∧ CorrectedBy t 0 c₀ ∧ CorrectedBy t z c ∧ c < c₀ := by
  have hc0 : 0 < limbCorrection t 0 := by
    have : (1 : ℝ) < (10.85 : ℝ) ^ ((t - 210) / 110) :=
      Real.one_lt_rpow (by norm_num) (div_pos (by linarith) (by norm_num))
    simp only [limbCorrection, if_true]; linarith
  have hcont : Filter.Tendsto (fun z : ℝ => ((t - 170) / 125) ^ 4 * ((7.2 : ℝ) ^ (z / 70) - 1)) (nhds 0)
      (nhds (((t - 170) / 125) ^ 4 * ((7.2 : ℝ) ^ ((0 : ℝ) / 70) - 1))) := by
    have : Continuous (fun z : ℝ => ((t - 170) / 125) ^ 4 * ((7.2 : ℝ) ^ (z / 70) - 1)) :=
      continuous_const.mul ((Continuous.rpow continuous_const (continuous_id.div_const _)
        (fun _ => Or.inl (by norm_num))).sub continuous_const)
    exact this.tendsto 0
  rw [show ((t - 170) / 125) ^ 4 * ((7.2 : ℝ) ^ ((0 : ℝ) / 70) - 1) = 0 by simp] at hcont
  have hev := hcont.eventually (gt_mem_nhds hc0)
  obtain ⟨ε, hε, hball⟩ := Metric.eventually_nhds_iff.1 hev
  refine ⟨min (ε / 2) 45, _, _, by positivity, ?_, (correctedBy ..).2 rfl, (correctedBy ..).2 rfl, ?_⟩
  · exact lt_of_le_of_lt (min_le_right _ _) (by norm_num)
  · have hz : 0 < min (ε / 2) 45 := by positivity
    have := hball (y := min (ε / 2) 45) (by
      rw [Real.dist_eq, sub_zero, abs_of_pos hz]
      exact lt_of_le_of_lt (min_le_left _ _) (by linarith))
    rw [limbCorrection, if_neg hz.ne', if_pos ⟨hz, lt_of_le_of_lt (min_le_right _ _) (by norm_num)⟩]
    exact this

example : ∃ z c₀ c, 0 < z ∧ z < 90 ∧ CorrectedBy 300 0 c₀ ∧ CorrectedBy 300 z c ∧ c < c₀ :=
  C85_fails 300 (by norm_num)

/-- C85 holds for temperatures up to 210 K (missing: all warmer ones, where it fails). -/
theorem C85_cold_partial (t z c₀ c : ℝ) (ht : t ≤ 210) (h0 : 0 < z) (h1 : z < 90)
    (hc₀ : CorrectedBy t 0 c₀) (hc : CorrectedBy t z c) : c₀ ≤ c := by
  rw [(correctedBy ..).1 hc₀, (correctedBy ..).1 hc]
  have : limbCorrection t 0 ≤ 0 := by
    have : (10.85 : ℝ) ^ ((t - 210) / 110) ≤ 1 :=
      Real.rpow_le_one_of_one_le_of_nonpos (by norm_num) (div_nonpos_of_nonpos_of_nonneg (by linarith) (by norm_num))
    simp only [limbCorrection, if_true]; linarith
  exact this.trans (limb_nonneg t z h0 h1)

example : ∃ c₀ c, CorrectedBy 200 0 c₀ ∧ CorrectedBy 200 60 c :=
  ⟨_, _, (correctedBy ..).2 rfl, (correctedBy ..).2 rfl⟩

/-! ### C86 -/

/-- C86 fails for every image in a plain array: AttributeError, and the pixels at nadir have already
been changed. -/
theorem C86_plain_array_fails (m n : Nat) (a : Arr XF) (v : Arr (Masked XF)) (ha : Image m n a) (hv : Image m n v)
    (h : Heap XF) (r : Nat) (hr : h.cell r = .plain a) :
    ∃ h' b, viewzenCorr r v h = (.error .attributeError, h') ∧ h'.cell r = .plain b ∧
      ∀ (i : Nat) (t : ℝ), a.data[i]? = some (fin t) →
        (v.data[i]? = some ⟨fin 0, false⟩ → b.data[i]? = some (fin (t + limbCorrection t 0))) ∧
        (∀ z : ℝ, z ≠ 0 → v.data[i]? = some ⟨fin z, false⟩ → b.data[i]? = some (fin t)) := by
  refine ⟨_, _, viewzenCorr_plain ha.1 hv.1 ha.2 hv.2 r h hr, by simp [Heap.set]; rfl, ?_⟩
  intro i t ht
  constructor
  · intro hz
    simp [List.getElem?_zipWith, ht, hz, pixPlain, Masked.filled, tau0_fin, limbCorrection]
  · intro z hz0 hz
    simp [List.getElem?_zipWith, ht, hz, pixPlain, Masked.filled, hz0]

/-- C86 fails through `get_correction` as well; there the caller's array is unharmed. -/
theorem C86_get_correction_fails (m n : Nat) (a : Arr XF) (v : Arr (Masked XF)) (ha : Image m n a) (hv : Image m n v)
    (h : Heap XF) (r : Nat) (hr : h.cell r = .plain a) :
    (getCorrection v r h).1 = .error .attributeError := by
  unfold getCorrection
  rw [st_bind_ok (st_get h)]
  rw [st_bind_ok (show Heap.alloc (h.cell r) h = (.ok h.next, _) from rfl)]
  rw [viewzenCorr_plain (a := a) ha.1 hv.1 ha.2 hv.2 h.next _ (by simp [hr])]

example : Image 2 2 exTemps ∧ Image 2 2 (exAngles.map fun x => (⟨x, false⟩ : Masked XF)) :=
  ⟨⟨rfl, rfl⟩, ⟨rfl, rfl⟩⟩

/-! ### C87 -/

/-- C87: AttributeError exactly for a true atmosphere value; else an object for the given platform and
sensor.  Other keywords have no influence. -/
theorem C87_atmosphere (p s : String) (kw : Dict String AtmArg) :
    AtmosphericalCorrection.new p s kw =
      match kw.get? "atmosphere" with
      | some a => if a.truthy then .error .attributeError else .ok ⟨p, s, none⟩
      | none => .ok ⟨p, s, none⟩ := by
  unfold AtmosphericalCorrection.new Dict.contains
  cases kw.get? "atmosphere" with
  | none => rfl
  | some a => rfl

/-- C87: every non-empty name is rejected. -/
theorem C87_name_rejected (p s name : String) (h : name ≠ "") (kw : Dict String AtmArg)
    (hk : kw.get? "atmosphere" = some (.str name)) : AtmosphericalCorrection.new p s kw = .error .attributeError := by
  rw [C87_atmosphere, hk]
  simp [AtmArg.truthy, h]

example : AtmosphericalCorrection.new "Suomi-NPP" "viirs" [("atmosphere", .str "tropical")] = .error .attributeError :=
  C87_name_rejected _ _ "tropical" (by decide) _ rfl
example : (AtmosphericalCorrection.new "Suomi-NPP" "viirs" [("atmosphere", .str "")]).isOk = true := by decide

end Verif.Props
