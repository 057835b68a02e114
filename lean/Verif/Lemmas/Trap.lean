import Verif.Base.XF
import Verif.Spec.Curves
/-
Lemmas about the trapezoid rule: linearity, monotonicity, mean values, reversal,
Chebyshev's inequality; and that the model's `trapezoid` computes it.
-/
namespace Verif.Lemmas
open XF PyNum Spec

/-- weak monotonicity of positions -/
def NonDec (x : List ℝ) : Prop := x.Pairwise (· ≤ ·)

theorem Increasing.nonDec {x : List ℝ} (h : Increasing x) : NonDec x :=
  List.Pairwise.imp (fun h => le_of_lt h) h

section generic
variable {ι : Type} (X Y Z R F G : ι → ℝ)

theorem trap_map_cons (i j : ι) (l : List ι) :
    trap ((i :: j :: l).map X) ((i :: j :: l).map Y) =
      (X j - X i) * ((Y i + Y j) / 2) + trap ((j :: l).map X) ((j :: l).map Y) := rfl

theorem trap_add (l : List ι) :
    trap (l.map X) (l.map fun i => Y i + Z i) = trap (l.map X) (l.map Y) + trap (l.map X) (l.map Z) := by
  induction l with
  | nil => simp [trap]
  | cons i l ih =>
    cases l with
    | nil => simp [trap]
    | cons j l => rw [trap_map_cons, trap_map_cons, trap_map_cons, ih]; ring

theorem trap_smul (a : ℝ) (l : List ι) :
    trap (l.map X) (l.map fun i => a * Y i) = a * trap (l.map X) (l.map Y) := by
  induction l with
  | nil => simp [trap]
  | cons i l ih =>
    cases l with
    | nil => simp [trap]
    | cons j l => rw [trap_map_cons, trap_map_cons, ih]; ring

theorem trap_sub (l : List ι) :
    trap (l.map X) (l.map fun i => Y i - Z i) = trap (l.map X) (l.map Y) - trap (l.map X) (l.map Z) := by
  have h : (fun i => Y i - Z i) = fun i => Y i + (-1) * Z i := by funext i; ring
  rw [h, trap_add, trap_smul]; ring

theorem trap_zero (l : List ι) : trap (l.map X) (l.map fun _ => (0:ℝ)) = 0 := by
  have := trap_smul X (fun _ => (0:ℝ)) 0 l
  simpa using this

theorem trap_congr (l : List ι) (h : ∀ i ∈ l, Y i = Z i) :
    trap (l.map X) (l.map Y) = trap (l.map X) (l.map Z) := by
  rw [List.map_congr_left h]

theorem trap_mono (l : List ι) (hx : NonDec (l.map X)) (h : ∀ i ∈ l, Y i ≤ Z i) :
    trap (l.map X) (l.map Y) ≤ trap (l.map X) (l.map Z) := by
  induction l with
  | nil => simp [trap]
  | cons i l ih =>
    cases l with
    | nil => simp [trap]
    | cons j l =>
      rw [trap_map_cons, trap_map_cons]
      have hij : X i ≤ X j := by
        have := List.rel_of_pairwise_cons hx (a' := X j) (by simp); exact this
      have ht : NonDec ((j :: l).map X) := List.Pairwise.of_cons hx
      have h1 := ih ht (fun k hk => h k (List.mem_cons_of_mem _ hk))
      have h2 := h i (by simp)
      have h3 := h j (by simp)
      have : (X j - X i) * ((Y i + Y j) / 2) ≤ (X j - X i) * ((Z i + Z j) / 2) :=
        mul_le_mul_of_nonneg_left (by linarith) (by linarith)
      linarith

theorem trap_nonneg (l : List ι) (hx : NonDec (l.map X)) (h : ∀ i ∈ l, 0 ≤ Y i) :
    0 ≤ trap (l.map X) (l.map Y) := by
  have := trap_mono X (fun _ => 0) Y l hx h
  rwa [trap_zero] at this

theorem trap_mean_bounds (l : List ι) (hx : NonDec (l.map X)) (hR : ∀ i ∈ l, 0 ≤ R i)
    (m M : ℝ) (hm : ∀ i ∈ l, m ≤ F i) (hM : ∀ i ∈ l, F i ≤ M) :
    m * trap (l.map X) (l.map R) ≤ trap (l.map X) (l.map fun i => R i * F i) ∧
    trap (l.map X) (l.map fun i => R i * F i) ≤ M * trap (l.map X) (l.map R) := by
  rw [← trap_smul, ← trap_smul]
  constructor
  · apply trap_mono X _ _ l hx
    intro i hi
    have := mul_le_mul_of_nonneg_left (hm i hi) (hR i hi); linarith
  · apply trap_mono X _ _ l hx
    intro i hi
    have := mul_le_mul_of_nonneg_left (hM i hi) (hR i hi); linarith

theorem exists_gap (l : List ι) (h : ∀ i ∈ l, F i < G i) :
    ∃ d > 0, ∀ i ∈ l, d ≤ G i - F i := by
  induction l with
  | nil => exact ⟨1, one_pos, by simp⟩
  | cons i l ih =>
    obtain ⟨d, hd, h'⟩ := ih (fun k hk => h k (List.mem_cons_of_mem _ hk))
    refine ⟨min d (G i - F i), lt_min hd (sub_pos.2 (h i (by simp))), ?_⟩
    intro k hk
    rcases List.mem_cons.1 hk with rfl | hk
    · exact min_le_right _ _
    · exact (min_le_left _ _).trans (h' k hk)

theorem trap_strict_mono (l : List ι) (hx : NonDec (l.map X)) (hR : ∀ i ∈ l, 0 ≤ R i)
    (hpos : 0 < trap (l.map X) (l.map R)) (h : ∀ i ∈ l, F i < G i) :
    trap (l.map X) (l.map fun i => R i * F i) < trap (l.map X) (l.map fun i => R i * G i) := by
  obtain ⟨d, hd, h'⟩ := exists_gap F G l h
  have h1 := trap_mono X (fun i => d * R i) (fun i => R i * G i - R i * F i) l hx (by
    intro i hi
    have := mul_le_mul_of_nonneg_left (h' i hi) (hR i hi); linarith)
  rw [trap_smul, trap_sub] at h1
  have := mul_pos hd hpos
  linarith

theorem trap_const_mul_le_length (l : List ι) : ∀ (i j : ι),
    trap ((i :: (l ++ [j])).map X) ((i :: (l ++ [j])).map fun _ => (1:ℝ)) = X j - X i := by
  induction l with
  | nil => intro i j; simp [trap]
  | cons k l ih =>
    intro i j
    have := ih k j
    rw [List.cons_append, trap_map_cons, this]; ring

/-- Chebyshev: if `F` and `G` are oppositely ordered on the sample points, then
`∫R · ∫RFG ≤ ∫RF · ∫RG`. -/
theorem trap_chebyshev (l : List ι) (hx : NonDec (l.map X)) (hR : ∀ i ∈ l, 0 ≤ R i)
    (h : ∀ i ∈ l, ∀ j ∈ l, (F i - F j) * (G i - G j) ≤ 0) :
    trap (l.map X) (l.map R) * trap (l.map X) (l.map fun i => R i * (F i * G i)) ≤
      trap (l.map X) (l.map fun i => R i * F i) * trap (l.map X) (l.map fun i => R i * G i) := by
  set A := trap (l.map X) (l.map R)
  set B := trap (l.map X) (l.map fun i => R i * (F i * G i))
  set C := trap (l.map X) (l.map fun i => R i * F i) with hC
  set D := trap (l.map X) (l.map fun i => R i * G i) with hD
  have inner : ∀ j ∈ l, B - F j * D - G j * C + F j * G j * A ≤ 0 := by
    intro j hj
    have h1 := trap_mono X (fun i => R i * ((F i - F j) * (G i - G j))) (fun _ => 0) l hx
      (fun i hi => mul_nonpos_of_nonneg_of_nonpos (hR i hi) (h i hi j hj))
    rw [trap_zero] at h1
    have e : (fun i => R i * ((F i - F j) * (G i - G j))) =
        fun i => ((R i * (F i * G i) - F j * (R i * G i)) - G j * (R i * F i)) + (F j * G j) * R i := by
      funext i; ring
    rw [e, trap_add, trap_sub, trap_sub, trap_smul, trap_smul, trap_smul] at h1
    exact h1
  have h2 := trap_mono X (fun j => R j * (B - F j * D - G j * C + F j * G j * A)) (fun _ => 0) l hx
    (fun j hj => mul_nonpos_of_nonneg_of_nonpos (hR j hj) (inner j hj))
  rw [trap_zero] at h2
  have e : (fun j => R j * (B - F j * D - G j * C + F j * G j * A)) =
      fun j => ((B * R j - D * (R j * F j)) - C * (R j * G j)) + A * (R j * (F j * G j)) := by
    funext j; ring
  rw [e, trap_add, trap_sub, trap_sub, trap_smul, trap_smul, trap_smul, trap_smul] at h2
  have : trap (l.map X) (l.map R) = A := rfl
  nlinarith [h2]

end generic

theorem trap_append_two (x y : List ℝ) : ∀ (a b c d : ℝ), x.length = y.length →
    trap (x ++ [a, b]) (y ++ [c, d]) = trap (x ++ [a]) (y ++ [c]) + (b - a) * ((c + d) / 2) := by
  induction x generalizing y with
  | nil =>
    intro a b c d h
    have : y = [] := by simpa using h.symm
    subst this; simp [trap]
  | cons u x ih =>
    intro a b c d h
    cases y with
    | nil => simp at h
    | cons v y =>
      have h' : x.length = y.length := by simpa using h
      cases x with
      | nil =>
        have : y = [] := by simpa using h'.symm
        subst this; simp [trap]
      | cons u' x =>
        cases y with
        | nil => simp at h'
        | cons v' y =>
          have := ih (v' :: y) a b c d h'
          simp only [List.cons_append, trap] at this ⊢
          rw [this]; ring

theorem trap_reverse (x y : List ℝ) (h : x.length = y.length) :
    trap x.reverse y.reverse = - trap x y := by
  induction x generalizing y with
  | nil => simp [trap]
  | cons a x ih =>
    cases y with
    | nil => simp at h
    | cons c y =>
      have h' : x.length = y.length := by simpa using h
      cases x with
      | nil =>
        have : y = [] := by simpa using h'.symm
        subst this; simp [trap]
      | cons b x =>
        cases y with
        | nil => simp at h'
        | cons d y =>
          have hl : x.reverse.length = y.reverse.length := by simpa using h'
          have := ih (d :: y) h'
          simp only [List.reverse_cons] at this ⊢
          simp only [List.append_assoc, List.cons_append, List.nil_append]
          rw [trap_append_two _ _ b a d c hl, this]
          simp only [trap]; ring

/-! ### the model computes it -/

/-- real list as an array of finite floats -/
noncomputable def finL (xs : List ℝ) : List XF := xs.map fin

@[simp] theorem finL_length (xs : List ℝ) : (finL xs).length = xs.length := by simp [finL]
@[simp] theorem finL_nil : finL [] = [] := rfl
@[simp] theorem finL_cons (x : ℝ) (xs : List ℝ) : finL (x :: xs) = fin x :: finL xs := rfl
@[simp] theorem finL_reverse (xs : List ℝ) : finL xs.reverse = (finL xs).reverse := by
  simp [finL]

theorem bcast2_eq_len {α β γ : Type} (f : α → β → γ) (xs : List α) (ys : List β)
    (h : xs.length = ys.length) : NP.bcast2 f xs ys = .ok (List.zipWith f xs ys) := by
  simp [NP.bcast2, h]

theorem bcast2_one_right {α β γ : Type} (f : α → β → γ) (xs : List α) (y : β) :
    NP.bcast2 f xs [y] = .ok (xs.map (f · y)) := by
  by_cases h : xs.length = 1
  · match xs, h with
    | [x], _ => rfl
  · unfold NP.bcast2
    rw [if_neg (by simpa using h)]
    match xs, h with
    | [], _ => rfl
    | x :: x' :: xs, _ => rfl

theorem adj_length {α β : Type} (f : α → α → β) (xs : List α) :
    (NP.adj f xs).length = xs.length - 1 := by
  induction xs with
  | nil => rfl
  | cons a xs ih =>
    cases xs with
    | nil => rfl
    | cons b xs => simp only [NP.adj, List.length_cons, ih]; simp

theorem zip_diff_sum (x y : List ℝ) (h : x.length = y.length) :
    NP.sum (List.zipWith (fun d s => d * s / 2.0) (NP.diff (finL x)) (NP.adj (· + ·) (finL y)))
      = fin (trap x y) := by
  induction x generalizing y with
  | nil => simp [NP.diff, NP.adj, NP.sum, sum_eq, trap]
  | cons a x ih =>
    cases y with
    | nil => simp at h
    | cons c y =>
      have h' : x.length = y.length := by simpa using h
      cases x with
      | nil => simp [NP.diff, NP.adj, NP.sum, sum_eq, trap]
      | cons b x =>
        cases y with
        | nil => simp at h'
        | cons d y =>
          have := ih (d :: y) h'
          simp only [NP.diff, finL_cons, NP.adj, List.zipWith_cons_cons] at this ⊢
          simp only [NP.sum, sum_eq, List.foldr_cons] at this ⊢
          rw [this]
          have h2 : (2.0 : ℝ) ≠ 0 := by norm_num
          simp only [fin_sub, fin_add, fin_mul, ofSci_eq, fin_div _ h2, fin_inj, trap]
          norm_num
          ring

/-- The model's `trapezoid` on finite arrays of equal length is the trapezoid rule. -/
theorem trapezoid_fin (x y : List ℝ) (h : x.length = y.length) :
    NP.trapezoid (finL y) (finL x) = .ok (fin (trap x y)) := by
  have hl : (NP.diff (finL x)).length = (NP.adj (· + ·) (finL y)).length := by
    simp [NP.diff, adj_length, h]
  show (NP.bcast2 _ _ _).bind _ = _
  rw [bcast2_eq_len _ _ _ hl]
  show Except.ok (NP.sum _) = _
  rw [zip_diff_sum x y h]

theorem zipWith_fin_mul (x y : List ℝ) :
    List.zipWith (· * ·) (finL x) (finL y) = finL (List.zipWith (· * ·) x y) := by
  induction x generalizing y with
  | nil => simp
  | cons a x ih => cases y <;> simp_all

theorem bcast2_fin_mul (x y : List ℝ) (h : x.length = y.length) :
    NP.bcast2 (· * ·) (finL x) (finL y) = .ok (finL (List.zipWith (· * ·) x y)) := by
  rw [bcast2_eq_len _ _ _ (by simpa using h), zipWith_fin_mul]

theorem bcast2_fin_mul_one (x : List ℝ) (a : ℝ) :
    NP.bcast2 (· * ·) (finL x) [fin a] = .ok (finL (x.map (· * a))) := by
  rw [bcast2_one_right]
  congr 1
  simp [finL, Function.comp_def]

/-- splitting equal-length arrays into a curve -/
theorem zip_map_fst {x r : List ℝ} (h : x.length = r.length) : (x.zip r).map Prod.fst = x := by
  rw [List.map_fst_zip (by omega)]
theorem zip_map_snd {x r : List ℝ} (h : x.length = r.length) : (x.zip r).map Prod.snd = r := by
  rw [List.map_snd_zip (by omega)]

end Verif.Lemmas
