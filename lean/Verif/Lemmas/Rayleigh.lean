import Verif.Model.Rayleigh
import Verif.Spec.Rayleigh
import Verif.Lemmas.CentralWave
import Verif.Lemmas.Solar
/-
Lemmas about the Rayleigh correction.
-/
namespace Verif.Lemmas
open XF Model PyNum Spec

/-! ### Interpolation -/

theorem lerp_zero (x y : ℝ) : lerp 0 x y = x := by simp [lerp]
theorem lerp_one (x y : ℝ) : lerp 1 x y = y := by simp [lerp]

theorem lerp_ge {t x y m : ℝ} (h0 : 0 ≤ t) (h1 : t ≤ 1) (hx : m ≤ x) (hy : m ≤ y) : m ≤ lerp t x y := by
  unfold lerp
  nlinarith [mul_le_mul_of_nonneg_left hx (by linarith : (0:ℝ) ≤ 1 - t), mul_le_mul_of_nonneg_left hy h0]

theorem lerp_le {t x y m : ℝ} (h0 : 0 ≤ t) (h1 : t ≤ 1) (hx : x ≤ m) (hy : y ≤ m) : lerp t x y ≤ m := by
  unfold lerp
  nlinarith [mul_le_mul_of_nonneg_left hx (by linarith : (0:ℝ) ≤ 1 - t), mul_le_mul_of_nonneg_left hy h0]

theorem trilinear_ge {v : Nat → Nat → Nat → ℝ} {i j k : Nat} {a b c m : ℝ} (ha : 0 ≤ a ∧ a ≤ 1)
    (hb : 0 ≤ b ∧ b ≤ 1) (hc : 0 ≤ c ∧ c ≤ 1)
    (h : ∀ i' j' k', i' ≤ 1 → j' ≤ 1 → k' ≤ 1 → m ≤ v (i + i') (j + j') (k + k')) :
    m ≤ trilinear v i j k a b c := by
  have h' : ∀ i' j' k', i' ≤ 1 → j' ≤ 1 → k' ≤ 1 → m ≤ v (i + i') (j + j') (k + k') := h
  unfold trilinear
  refine lerp_ge ha.1 ha.2 (lerp_ge hb.1 hb.2 (lerp_ge hc.1 hc.2 (h 0 0 0 ?_ ?_ ?_) (h 0 0 1 ?_ ?_ ?_))
    (lerp_ge hc.1 hc.2 (h 0 1 0 ?_ ?_ ?_) (h 0 1 1 ?_ ?_ ?_)))
    (lerp_ge hb.1 hb.2 (lerp_ge hc.1 hc.2 (h 1 0 0 ?_ ?_ ?_) (h 1 0 1 ?_ ?_ ?_))
    (lerp_ge hc.1 hc.2 (h 1 1 0 ?_ ?_ ?_) (h 1 1 1 ?_ ?_ ?_))) <;> decide

theorem trilinear_le {v : Nat → Nat → Nat → ℝ} {i j k : Nat} {a b c m : ℝ} (ha : 0 ≤ a ∧ a ≤ 1)
    (hb : 0 ≤ b ∧ b ≤ 1) (hc : 0 ≤ c ∧ c ≤ 1)
    (h : ∀ i' j' k', i' ≤ 1 → j' ≤ 1 → k' ≤ 1 → v (i + i') (j + j') (k + k') ≤ m) :
    trilinear v i j k a b c ≤ m := by
  unfold trilinear
  refine lerp_le ha.1 ha.2 (lerp_le hb.1 hb.2 (lerp_le hc.1 hc.2 (h 0 0 0 ?_ ?_ ?_) (h 0 0 1 ?_ ?_ ?_))
    (lerp_le hc.1 hc.2 (h 0 1 0 ?_ ?_ ?_) (h 0 1 1 ?_ ?_ ?_)))
    (lerp_le hb.1 hb.2 (lerp_le hc.1 hc.2 (h 1 0 0 ?_ ?_ ?_) (h 1 0 1 ?_ ?_ ?_))
    (lerp_le hc.1 hc.2 (h 1 1 0 ?_ ?_ ?_) (h 1 1 1 ?_ ?_ ?_))) <;> decide

namespace Axis'
variable (A : Axis)

theorem step_pos : 0 < (A.hi - A.lo) / ((A.n : ℝ) - 1) := by
  have h1 : (2 : ℝ) ≤ A.n := by exact_mod_cast A.nodes
  have := A.increasing
  exact div_pos (by linarith) (by linarith)

/-- every point between the first and the last node lies in some cell -/
theorem locate {x : ℝ} (h0 : A.lo ≤ x) (h1 : x ≤ A.hi) :
    ∃ i a, i + 1 < A.n ∧ 0 ≤ a ∧ a ≤ 1 ∧ x = A.pt i a := by
  have hn : (2 : ℝ) ≤ A.n := by exact_mod_cast A.nodes
  have hs := step_pos A
  set h := (A.hi - A.lo) / ((A.n : ℝ) - 1) with hh
  have hx : x = A.lo + (x - A.lo) / h * h := by field_simp; ring
  have hq0 : 0 ≤ (x - A.lo) / h := div_nonneg (by linarith) hs.le
  have hq1 : (x - A.lo) / h ≤ (A.n : ℝ) - 1 := by
    rw [div_le_iff₀ hs, hh]
    have : (A.n : ℝ) - 1 ≠ 0 := by linarith
    field_simp; linarith
  set q := (x - A.lo) / h with hq
  rcases lt_or_ge q ((A.n : ℝ) - 1) with hlt | hge
  · refine ⟨⌊q⌋₊, q - ⌊q⌋₊, ?_, by linarith [Nat.floor_le hq0], by linarith [Nat.lt_floor_add_one q], ?_⟩
    · have : (⌊q⌋₊ : ℝ) + 1 < A.n := by linarith [Nat.floor_le hq0]
      exact_mod_cast this
    · unfold Axis.pt
      rw [← hh, hx]; ring
  · refine ⟨A.n - 2, 1, ?_, zero_le_one, le_refl _, ?_⟩
    · have := A.nodes; omega
    · have e : q = (A.n : ℝ) - 1 := le_antisymm hq1 hge
      unfold Axis.pt
      rw [Nat.cast_sub A.nodes, ← hh, hx, e]
      push_cast; ring

theorem pt_lo : A.pt 0 0 = A.lo := by simp [Axis.pt]

theorem pt_hi : A.pt (A.n - 1) 0 = A.hi := by
  have hn : (2 : ℝ) ≤ A.n := by exact_mod_cast A.nodes
  unfold Axis.pt
  rw [Nat.cast_sub (by have := A.nodes; omega)]
  have : (A.n : ℝ) - 1 ≠ 0 := by linarith
  push_cast; field_simp; ring

theorem list_length : A.list.length = A.n := by simp [Axis.list]

theorem list_get {i : Nat} (h : i < A.n) : A.list[i]? = some (A.pt i 0) := by
  simp [Axis.list, h]

theorem list_head : A.list.head? = some A.lo := by
  have h := list_get A (i := 0) (by have := A.nodes; omega)
  rw [← List.head?_eq_getElem?] at h
  rw [h, pt_lo]

theorem list_last : A.list.getLast? = some A.hi := by
  rw [List.getLast?_eq_getElem?, list_length, list_get A (by have := A.nodes; omega), pt_hi]

theorem list_le_hi : ∀ v ∈ A.list, v ≤ A.hi := by
  intro v hv
  obtain ⟨i, hi, rfl⟩ := List.mem_map.1 hv
  rw [List.mem_range] at hi
  rw [← pt_hi A]
  unfold Axis.pt
  have := step_pos A
  have hc : (i : ℝ) ≤ ((A.n - 1 : ℕ) : ℝ) := by exact_mod_cast (by omega)
  nlinarith

end Axis'

/-! ### Greatest element -/

theorem foldl_maximum_fin (l : List ℝ) : ∀ x, (finL l).foldl PyNum.maximum (fin x) = fin (l.foldl max x) := by
  induction l with
  | nil => intro x; rfl
  | cons a l ih => intro x; rw [finL_cons, List.foldl_cons, maximum_fin, ih]; rfl

theorem foldl_minimum_fin (l : List ℝ) : ∀ x, (finL l).foldl PyNum.minimum (fin x) = fin (l.foldl min x) := by
  induction l with
  | nil => intro x; rfl
  | cons a l ih => intro x; rw [finL_cons, List.foldl_cons, minimum_fin, ih]; rfl

theorem foldl_max_mem (l : List ℝ) : ∀ x, l.foldl max x ∈ x :: l ∧ ∀ v ∈ x :: l, v ≤ l.foldl max x := by
  induction l with
  | nil => intro x; simp
  | cons a l ih =>
    intro x
    obtain ⟨h1, h2⟩ := ih (max x a)
    rw [List.foldl_cons]
    constructor
    · rcases List.mem_cons.1 h1 with h | h
      · rw [h]; rcases max_choice x a with e | e <;> rw [e] <;> simp
      · simp [h]
    · intro v hv
      have hm := h2 (max x a) (by simp)
      simp only [List.mem_cons] at hv
      rcases hv with rfl | rfl | hv
      · exact (le_max_left _ _).trans hm
      · exact (le_max_right _ _).trans hm
      · exact h2 v (by simp [hv])

theorem foldl_min_mem (l : List ℝ) : ∀ x, l.foldl min x ∈ x :: l ∧ ∀ v ∈ x :: l, l.foldl min x ≤ v := by
  induction l with
  | nil => intro x; simp
  | cons a l ih =>
    intro x
    obtain ⟨h1, h2⟩ := ih (min x a)
    rw [List.foldl_cons]
    constructor
    · rcases List.mem_cons.1 h1 with h | h
      · rw [h]; rcases min_choice x a with e | e <;> rw [e] <;> simp
      · simp [h]
    · intro v hv
      have hm := h2 (min x a) (by simp)
      simp only [List.mem_cons] at hv
      rcases hv with rfl | rfl | hv
      · exact hm.trans (min_le_left _ _)
      · exact hm.trans (min_le_right _ _)
      · exact h2 v (by simp [hv])

theorem amax_eq {l : List ℝ} {M : ℝ} (hm : M ∈ l) (hle : ∀ v ∈ l, v ≤ M) : NP.amax (finL l) = .ok (fin M) := by
  cases l with
  | nil => simp at hm
  | cons a l =>
    rw [finL_cons, NP.amax, foldl_maximum_fin]
    obtain ⟨h1, h2⟩ := foldl_max_mem l a
    rw [le_antisymm (hle _ h1) (h2 _ hm)]

theorem amin_eq {l : List ℝ} {m : ℝ} (hm : m ∈ l) (hle : ∀ v ∈ l, m ≤ v) : NP.amin (finL l) = .ok (fin m) := by
  cases l with
  | nil => simp at hm
  | cons a l =>
    rw [finL_cons, NP.amin, foldl_minimum_fin]
    obtain ⟨h1, h2⟩ := foldl_min_mem l a
    rw [le_antisymm (h2 _ hm) (hle _ h1)]

/-! ### Angles -/

/-- the largest double -/
noncomputable def maxFloat : ℝ := 1.7976931348623157e308

theorem maxFloat_big : (180 : ℝ) < maxFloat := by unfold maxFloat; norm_num

theorem nanToNum_fin (x : ℝ) : nanToNum (fin x) = fin (min (max x (-maxFloat)) maxFloat) := by
  unfold nanToNum
  simp only [isNaN_fin, gt, ofSci_eq, fin_neg, lt_fin, decide_eq_true_eq]
  change (if false = true then _ else if maxFloat < x then fin maxFloat else if x < -maxFloat then fin (-maxFloat) else fin x) = _
  have := maxFloat_big
  rw [if_neg (by simp)]
  split
  · rename_i h; rw [min_eq_right]; exact le_max_of_le_left h.le
  · rename_i h
    split
    · rename_i h2; rw [max_eq_right h2.le, min_eq_left (by linarith)]
    · rename_i h2; rw [max_eq_left (by linarith), min_eq_left (by linarith)]

/-- the clipping angle in degrees -/
noncomputable def maxZenith (s : ℝ) : ℝ := Real.arccos (1 / s) * (180 / Real.pi)

theorem maxZenith_nonneg (s : ℝ) : 0 ≤ maxZenith s := mul_nonneg (Real.arccos_nonneg _) (by positivity)

theorem maxZenith_le (s : ℝ) : maxZenith s ≤ 180 := by
  unfold maxZenith
  have := Real.arccos_le_pi (1 / s)
  have hp := Real.pi_pos
  rw [mul_div_assoc', div_le_iff₀ hp]; nlinarith

theorem clipBound {s : ℝ} (h : 1 ≤ s) : nanToNum (rad2deg (PyNum.arccos ((1.0 : XF) / fin s))) = fin (maxZenith s) := by
  have h1 : (1.0 : XF) / fin s = fin (1 / s) := by
    rw [ofSci_eq, fin_div _ (by linarith)]; norm_num
  have hle : 1 / s ≤ 1 := by rw [div_le_one (by linarith)]; exact h
  have hge : -1 ≤ 1 / s := by have : 0 < 1 / s := by positivity
                              linarith
  have h2 : PyNum.arccos (fin (1 / s)) = fin (Real.arccos (1 / s)) := by
    show XF.arccosx _ = _
    show (if -1 ≤ 1 / s ∧ 1 / s ≤ 1 then _ else _) = _
    rw [if_pos ⟨hge, hle⟩]
  have h3 : rad2deg (fin (Real.arccos (1 / s))) = fin (maxZenith s) := by
    unfold rad2deg maxZenith
    rw [ofInt_eq, pi_eq, fin_div _ Real.pi_pos.ne', fin_mul]; norm_num
  rw [h1, h2, h3, nanToNum_fin]
  have := maxZenith_nonneg s
  have := maxZenith_le s
  have := maxFloat_big
  rw [max_eq_left (by linarith), min_eq_left (by linarith)]

/-- the finite value an angle is first replaced by -/
noncomputable def angleValue : XF → ℝ
  | .nan => 0
  | .pinf => maxFloat
  | .ninf => -maxFloat
  | .fin x => min (max x (-maxFloat)) maxFloat

theorem nanToNum_eq (z : XF) : nanToNum z = fin (angleValue z) := by
  cases z with
  | nan => unfold nanToNum; simp [angleValue]; norm_num
  | fin x => exact nanToNum_fin x
  | pinf =>
    unfold nanToNum
    simp only [isNaN_pinf, gt, ofSci_eq, fin_neg]
    rfl
  | ninf =>
    unfold nanToNum
    simp only [isNaN_ninf, gt, ofSci_eq, fin_neg]
    rfl

theorem clipAngle_eq {s : ℝ} (h : 1 ≤ s) (z : XF) :
    clipAngle (fin s) z = fin (min (max (angleValue z) 0) (maxZenith s)) := by
  unfold clipAngle
  rw [clipBound h, nanToNum_eq, ofNat_zero, clip_fin]

theorem secant_eq {c s : ℝ} (h : 1 ≤ s) (h0 : 0 ≤ c) (h1 : c ≤ maxZenith s) :
    secant (fin c) = fin (1 / Real.cos (c * (Real.pi / 180))) ∧
      1 ≤ 1 / Real.cos (c * (Real.pi / 180)) ∧ 1 / Real.cos (c * (Real.pi / 180)) ≤ s := by
  have hp := Real.pi_pos
  have hle : 1 / s ≤ 1 := by rw [div_le_one (by linarith)]; exact h
  have hpos : 0 < 1 / s := by positivity
  have hr : c * (Real.pi / 180) ≤ Real.arccos (1 / s) := by
    unfold maxZenith at h1
    have := mul_le_mul_of_nonneg_right h1 (by positivity : (0:ℝ) ≤ Real.pi / 180)
    have e : Real.arccos (1 / s) * (180 / Real.pi) * (Real.pi / 180) = Real.arccos (1 / s) := by field_simp
    linarith
  have hr0 : 0 ≤ c * (Real.pi / 180) := by positivity
  have hcos : 1 / s ≤ Real.cos (c * (Real.pi / 180)) := by
    have := Real.cos_le_cos_of_nonneg_of_le_pi hr0 (Real.arccos_le_pi _) hr
    rwa [Real.cos_arccos (by linarith) hle] at this
  have hcpos : 0 < Real.cos (c * (Real.pi / 180)) := by linarith
  refine ⟨?_, ?_, ?_⟩
  · unfold secant deg2rad
    rw [ofInt_eq, pi_eq, fin_div _ (by norm_num), fin_mul, cos_fin, ofSci_eq]
    have e : ((180 : ℤ) : ℝ) = 180 := by norm_num
    rw [e, fin_div _ hcpos.ne']; norm_num
  · rw [le_div_iff₀ hcpos]; linarith [Real.cos_le_one (c * (Real.pi / 180))]
  · rw [div_le_iff₀ hcpos]
    rw [div_le_iff₀ (by linarith)] at hcos; linarith

/-! ### Searching -/

theorem searchBetween_spec (w : List ℝ) (x : ℝ) (hinc : Increasing w) : ∀ (n lo hi : Nat), hi - lo = n → lo ≤ hi →
    hi ≤ w.length → (∀ i (h : i < w.length), i < lo → w[i] < x) → (∀ i (h : i < w.length), hi ≤ i → x ≤ w[i]) →
    (∀ i (h : i < w.length), i < searchBetween (finL w) (fin x) lo hi → w[i] < x) ∧
    (∀ i (h : i < w.length), searchBetween (finL w) (fin x) lo hi ≤ i → x ≤ w[i]) ∧
    searchBetween (finL w) (fin x) lo hi ≤ hi := by
  intro n
  induction n using Nat.strong_induction_on with
  | _ n ih =>
    intro lo hi hn hle hlen h1 h2
    unfold searchBetween
    by_cases hlt : lo < hi
    · rw [dif_pos hlt]
      have hm : lo + (hi - lo) / 2 < w.length := by omega
      have hg : (finL w)[lo + (hi - lo) / 2]? = some (fin w[lo + (hi - lo) / 2]) := by
        unfold finL; rw [List.getElem?_map, List.getElem?_eq_getElem hm]; rfl
      simp only [hg, lt_fin, decide_eq_true_eq]
      have hmono : ∀ i j (hi : i < w.length) (hj : j < w.length), i < j → w[i] < w[j] := by
        intro i j hi hj hij
        exact List.pairwise_iff_getElem.1 hinc i j hi hj hij
      split
      · rename_i hv
        refine ih _ ?_ (lo + (hi - lo) / 2 + 1) hi rfl (by omega) hlen ?_ h2
        · omega
        · intro i hi' hlt'
          rcases Nat.lt_or_ge i (lo + (hi - lo) / 2) with h | h
          · exact (hmono _ _ _ hm h).trans hv
          · have : i = lo + (hi - lo) / 2 := by omega
            subst this; exact hv
      · rename_i hv
        push Not at hv
        obtain ⟨a, b, c⟩ := ih _ (by omega) lo (lo + (hi - lo) / 2) rfl (by omega) (by omega) h1 (by
          intro i hi' hle'
          rcases Nat.lt_or_ge (lo + (hi - lo) / 2) i with h | h
          · exact hv.trans (hmono _ _ hm _ h).le
          · have : i = lo + (hi - lo) / 2 := by omega
            subst this; exact hv)
        exact ⟨a, b, by omega⟩
    · rw [dif_neg hlt]
      have : lo = hi := by omega
      subst this
      exact ⟨h1, h2, le_refl _⟩

/-- For increasing positions the search finds the first one that is not smaller. -/
theorem searchsorted_spec (w : List ℝ) (x : ℝ) (hinc : Increasing w) :
    (∀ i (h : i < w.length), i < searchsorted (finL w) (fin x) → w[i] < x) ∧
    (∀ i (h : i < w.length), searchsorted (finL w) (fin x) ≤ i → x ≤ w[i]) ∧
    searchsorted (finL w) (fin x) ≤ w.length := by
  have := searchBetween_spec w x hinc _ 0 w.length rfl (by omega) (le_refl _) (by intro i h h'; omega)
    (by intro i h h'; omega)
  unfold searchsorted
  rw [finL_length]
  exact this

theorem pyIndex_nat {β : Type} (l : List β) (i : Nat) (v : β) (h : l[i]? = some v) : NP.pyIndex l (i : Int) = .ok v := by
  unfold NP.pyIndex
  have h1 : ¬ ((i : Int) < 0) := by omega
  simp only [h1, if_false, Int.toNat_natCast, h]

end Verif.Lemmas
