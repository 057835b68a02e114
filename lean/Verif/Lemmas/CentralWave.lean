import Verif.Lemmas.Trap
import Verif.Model.Rsr
/-
Lemmas about `get_central_wave`.
-/
namespace Verif.Lemmas
open XF PyNum Spec Model

/-- numerator and denominator of `get_central_wave` over a weighted curve of triples
(wave, response, weight) -/
noncomputable def cwNum (l : List (ℝ × ℝ × ℝ)) : ℝ :=
  trap (l.map fun p => p.1) (l.map fun p => p.2.1 * p.1 * p.2.2)
noncomputable def cwDen (l : List (ℝ × ℝ × ℝ)) : ℝ :=
  trap (l.map fun p => p.1) (l.map fun p => p.2.1 * p.2.2)

theorem zipWith_map_map {ι : Type} (f : ℝ → ℝ → ℝ) (l : List ι) (A B : ι → ℝ) :
    List.zipWith f (l.map A) (l.map B) = l.map fun i => f (A i) (B i) := by
  induction l with
  | nil => rfl
  | cons a l ih => simp [ih]

theorem getCentralWave_triples (l : List (ℝ × ℝ × ℝ)) :
    getCentralWave (finL (l.map fun p => p.1)) (finL (l.map fun p => p.2.1))
      (finL (l.map fun p => p.2.2)) = .ok (fin (cwNum l) / fin (cwDen l)) := by
  unfold getCentralWave
  rw [bcast2_fin_mul _ _ (by simp), zipWith_map_map]
  simp only [bind, Except.bind]
  rw [bcast2_fin_mul _ _ (by simp), zipWith_map_map]
  simp only
  rw [trapezoid_fin _ _ (by simp)]
  simp only
  rw [bcast2_fin_mul _ _ (by simp), zipWith_map_map]
  simp only
  rw [trapezoid_fin _ _ (by simp)]
  rfl

/-- with a scalar weight -/
theorem getCentralWave_scalar (l : List (ℝ × ℝ)) (g : ℝ) :
    getCentralWave (finL (l.map fun p => p.1)) (finL (l.map fun p => p.2)) [fin g] =
      .ok (fin (cwNum (l.map fun p => (p.1, p.2, g))) / fin (cwDen (l.map fun p => (p.1, p.2, g)))) := by
  unfold getCentralWave
  rw [bcast2_fin_mul _ _ (by simp), zipWith_map_map]
  simp only [bind, Except.bind]
  rw [bcast2_fin_mul_one]
  simp only
  rw [trapezoid_fin _ _ (by simp)]
  simp only
  rw [bcast2_fin_mul_one]
  simp only
  rw [trapezoid_fin _ _ (by simp)]
  simp only [cwNum, cwDen, List.map_map, Function.comp_def]
  rfl

/-- the default weight -/
theorem getCentralWave_default {w r : List ℝ} (h : w.length = r.length) :
    getCentralWave (finL w) (finL r) =
      .ok (fin (trap w (List.zipWith (· * ·) w r)) / fin (trap w r)) := by
  have hs := getCentralWave_scalar (w.zip r) 1
  have e0 : (w.zip r).map (fun p => p.1) = w := zip_map_fst h
  have e0' : (w.zip r).map (fun p => p.2) = r := zip_map_snd h
  rw [e0, e0'] at hs
  have hone : ([1.0] : List XF) = [fin 1] := by
    simp only [ofSci_eq, List.cons.injEq, fin_inj, and_true]; norm_num
  rw [hone, hs]
  have h1 : cwNum ((w.zip r).map fun p => (p.1, p.2, (1:ℝ))) = trap w (List.zipWith (· * ·) w r) := by
    unfold cwNum
    simp only [List.map_map, Function.comp_def, mul_one]
    have : (w.zip r).map (fun p => p.2 * p.1) = List.zipWith (· * ·) w r := by
      rw [← List.zipWith_comm_of_comm (f := (· * ·)) (fun a b => mul_comm a b), ← zipWith_map_map (· * ·) (w.zip r)]
      rw [e0, e0']
    rw [this, e0]
  have h2 : cwDen ((w.zip r).map fun p => (p.1, p.2, (1:ℝ))) = trap w r := by
    unfold cwDen
    simp only [List.map_map, Function.comp_def, mul_one]
    rw [e0, e0']
  rw [h1, h2]

/-- three lists of the same length as a list of triples -/
theorem triples {w r g : List ℝ} (h1 : w.length = r.length) (h2 : w.length = g.length) :
    (w.zip (r.zip g)).map (fun p => p.1) = w ∧ (w.zip (r.zip g)).map (fun p => p.2.1) = r ∧
    (w.zip (r.zip g)).map (fun p => p.2.2) = g := by
  have l2 : (r.zip g).length = w.length := by simp; omega
  have e : (w.zip (r.zip g)).map Prod.snd = r.zip g := by rw [List.map_snd_zip (by omega)]
  refine ⟨by rw [List.map_fst_zip (by omega)], ?_, ?_⟩
  · have : (w.zip (r.zip g)).map (fun p => p.2.1) = ((w.zip (r.zip g)).map Prod.snd).map Prod.fst := by
      rw [List.map_map]; rfl
    rw [this, e, List.map_fst_zip (by omega)]
  · have : (w.zip (r.zip g)).map (fun p => p.2.2) = ((w.zip (r.zip g)).map Prod.snd).map Prod.snd := by
      rw [List.map_map]; rfl
    rw [this, e, List.map_snd_zip (by omega)]

theorem cwNum_bounds (l : List (ℝ × ℝ × ℝ)) (hx : NonDec (l.map fun p => p.1))
    (hR : ∀ p ∈ l, 0 ≤ p.2.1 * p.2.2) (m M : ℝ) (hm : ∀ p ∈ l, m ≤ p.1 ∧ p.1 ≤ M) :
    m * cwDen l ≤ cwNum l ∧ cwNum l ≤ M * cwDen l := by
  have e : cwNum l = trap (l.map fun p => p.1) (l.map fun p => (p.2.1 * p.2.2) * p.1) := by
    unfold cwNum; apply trap_congr; intro p _; ring
  rw [e]
  exact trap_mean_bounds (fun p => p.1) (fun p => p.2.1 * p.2.2) (fun p => p.1) l hx hR m M
    (fun p hp => (hm p hp).1) (fun p hp => (hm p hp).2)

/-- ends of an increasing list bound its elements -/
theorem increasing_ends {w : List ℝ} (h : Increasing w) (a b : ℝ) (ha : w.head? = some a)
    (hb : w.getLast? = some b) : ∀ x ∈ w, a ≤ x ∧ x ≤ b := by
  intro x hx
  constructor
  · cases w with
    | nil => simp at hx
    | cons y w =>
      simp at ha; subst ha
      rcases List.mem_cons.1 hx with rfl | hx
      · exact le_refl _
      · exact (List.rel_of_pairwise_cons h hx).le
  · obtain ⟨ys, rfl⟩ := List.getLast?_eq_some_iff.1 hb
    rcases List.mem_append.1 hx with hx | hx
    · exact ((List.pairwise_append.1 h).2.2 x hx b (by simp)).le
    · simp at hx; exact hx.le

theorem trap_map_add_x {ι : Type} (X Y : ι → ℝ) (s : ℝ) (l : List ι) :
    trap (l.map fun i => X i + s) (l.map Y) = trap (l.map X) (l.map Y) := by
  induction l with
  | nil => simp [trap]
  | cons i l ih =>
    cases l with
    | nil => simp [trap]
    | cons j l => rw [trap_map_cons, trap_map_cons, ih]; ring

theorem trap_map_mul_x {ι : Type} (X Y : ι → ℝ) (a : ℝ) (l : List ι) :
    trap (l.map fun i => a * X i) (l.map Y) = a * trap (l.map X) (l.map Y) := by
  induction l with
  | nil => simp [trap]
  | cons i l ih =>
    cases l with
    | nil => simp [trap]
    | cons j l => rw [trap_map_cons, trap_map_cons, ih]; ring

end Verif.Lemmas
