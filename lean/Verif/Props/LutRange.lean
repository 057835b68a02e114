import Verif.Props.RadTb
/-
Property C14, completed: which entry of the table every temperature looks up, and up to which
temperature look-ups are monotone.
-/
namespace Verif.Props
open XF Model PyNum Lemmas Spec

theorem wrap16_sub (a b : ℤ) : NP.wrap16 (NP.wrap16 a - b) = NP.wrap16 (a - b) := by
  unfold NP.wrap16; omega

/-- The entry looked up for a temperature whose scaled distance to the start of the table is `d`. -/
theorem lutRadiance_entry (nc : Int) (s tb0 u : ℝ) (tbs : List XF) (rad : List ℝ) (hrad : rad ≠ [])
    (h0 : -32768 ≤ truncR (tb0 * s) ∧ truncR (tb0 * s) ≤ 32767) :
    ∃ h : (clipInt (NP.wrap16 (truncR (u * s) - truncR (tb0 * s))) 0 ((rad.length : ℤ) - 1)).toNat < rad.length,
      lutRadiance nc (fin s) ⟨fin tb0 :: tbs, finL rad⟩ [fin u] = .ok (.pyFloat (fin
        (rad[(clipInt (NP.wrap16 (truncR (u * s) - truncR (tb0 * s))) 0 ((rad.length : ℤ) - 1)).toNat]))) := by
  have hne : finL rad ≠ [] := by simpa [finL] using hrad
  have hn : ¬ (truncR (tb0 * s) < -32768 ∨ 32767 < truncR (tb0 * s)) := by omega
  obtain ⟨hlt, hidx⟩ := pyIndex_clip (finL rad) hne (NP.wrap16 (truncR (u * s) - truncR (tb0 * s)))
  refine ⟨by simpa using hlt, ?_⟩
  have e1 : NP.castInt16 nc (fin u * fin s) = NP.wrap16 (truncR (u * s)) := by simp [NP.castInt16]
  have e2 : NP.pyIndex (fin tb0 :: tbs) 0 = .ok (fin tb0) := rfl
  have e3 : pyInt (fin tb0 * fin s) = .ok (truncR (tb0 * s)) := by simp [pyInt]
  simp only [lutRadiance, List.map_cons, List.map_nil, e1, e2, e3, bind, Except.bind, hn, if_false,
    wrap16_sub, List.mapM_cons, List.mapM_nil, hidx, pure, Except.pure]
  simp [finL]

/-- C14, exactly: with `d` the distance of the scaled temperature from the start of the table,
a temperature up to 32767 steps above it looks up entry `d` (the first one below the table, the
last one above), and one between 32768 and 65535 steps above it looks up the FIRST entry. -/
theorem C14_exactly (nc : Int) (s tb0 u : ℝ) (tbs : List XF) (rad : List ℝ) (hrad : rad ≠ [])
    (h0 : -32768 ≤ truncR (tb0 * s) ∧ truncR (tb0 * s) ≤ 32767) (d : ℤ)
    (hd : truncR (u * s) = truncR (tb0 * s) + d) :
    ∃ (k : ℕ) (hk : k < rad.length),
      lutRadiance nc (fin s) ⟨fin tb0 :: tbs, finL rad⟩ [fin u] = .ok (.pyFloat (fin rad[k])) ∧
      (-32768 ≤ d → d ≤ 0 → k = 0) ∧ (0 ≤ d → d < rad.length → d ≤ 32767 → (k : ℤ) = d) ∧
      ((rad.length : ℤ) ≤ d → d ≤ 32767 → k + 1 = rad.length) ∧ (32768 ≤ d → d ≤ 65535 → k = 0) := by
  obtain ⟨h, e⟩ := lutRadiance_entry nc s tb0 u tbs rad hrad h0
  have hl : 0 < rad.length := List.length_pos_iff.2 hrad
  refine ⟨_, h, e, ?_⟩
  rw [show truncR (u * s) - truncR (tb0 * s) = d by omega]
  unfold clipInt NP.wrap16
  refine ⟨?_, ?_, ?_, ?_⟩ <;> intros <;> omega

/-- C14, the part that holds, with the best bound: two temperatures up to 32767 steps above the
start of the table look up radiances in their own order. -/
theorem C14_range_partial (nc : Int) (s t t' tb0 : ℝ) (tbs : List XF) (rad : List ℝ)
    (hs : 0 < s) (hrad : rad ≠ []) (hmono : rad.Pairwise (· ≤ ·)) (htt : t ≤ t')
    (h0 : -32768 ≤ truncR (tb0 * s) ∧ truncR (tb0 * s) ≤ 32767)
    (hlo : truncR (tb0 * s) - 32768 ≤ truncR (t * s)) (hhi : truncR (t' * s) ≤ truncR (tb0 * s) + 32767) :
    ∃ y y' : ℝ,
      lutRadiance nc (fin s) ⟨fin tb0 :: tbs, finL rad⟩ [fin t] = .ok (.pyFloat (fin y)) ∧
      lutRadiance nc (fin s) ⟨fin tb0 :: tbs, finL rad⟩ [fin t'] = .ok (.pyFloat (fin y')) ∧
      y ≤ y' := by
  have hle : truncR (t * s) ≤ truncR (t' * s) :=
    truncR_mono (mul_le_mul_of_nonneg_right htt hs.le)
  obtain ⟨b1, e1⟩ := lutRadiance_entry nc s tb0 t tbs rad hrad h0
  obtain ⟨b2, e2⟩ := lutRadiance_entry nc s tb0 t' tbs rad hrad h0
  refine ⟨_, _, e1, e2, ?_⟩
  have hij : (clipInt (NP.wrap16 (truncR (t * s) - truncR (tb0 * s))) 0 ((rad.length : ℤ) - 1)).toNat ≤
      (clipInt (NP.wrap16 (truncR (t' * s) - truncR (tb0 * s))) 0 ((rad.length : ℤ) - 1)).toNat := by
    unfold clipInt NP.wrap16; omega
  rcases hij.eq_or_lt with e | l
  · simp only [e]; exact le_refl _
  · exact List.pairwise_iff_getElem.1 hmono _ _ b1 b2 l

/-- C14 for the tables pyspectral makes (from 150 K, ten entries per kelvin): look-ups are in the
order of the temperatures from 0 K up to 3426.7 K; every temperature from 3426.8 K up to 6703.5 K
looks up the radiance of 150 K. -/
theorem C14_default_tables (nc : Int) (tbs : List XF) (rad : List ℝ) (hrad : rad ≠ [])
    (hmono : rad.Pairwise (· ≤ ·)) :
    (∀ t t' : ℝ, 0 ≤ t → t ≤ t' → t' < 3426.8 → ∃ y y' : ℝ,
      lutRadiance nc (fin 10) ⟨fin 150 :: tbs, finL rad⟩ [fin t] = .ok (.pyFloat (fin y)) ∧
      lutRadiance nc (fin 10) ⟨fin 150 :: tbs, finL rad⟩ [fin t'] = .ok (.pyFloat (fin y')) ∧ y ≤ y') ∧
    ∀ t : ℝ, 3426.8 ≤ t → t < 6703.6 →
      lutRadiance nc (fin 10) ⟨fin 150 :: tbs, finL rad⟩ [fin t] =
        lutRadiance nc (fin 10) ⟨fin 150 :: tbs, finL rad⟩ [fin 150] := by
  have hfl : ∀ t : ℝ, 0 ≤ t → truncR (t * 10) = ⌊t * 10⌋ := by
    intro t ht; unfold truncR; rw [if_pos (by linarith)]
  have h150 : truncR ((150 : ℝ) * 10) = 1500 := by
    rw [hfl _ (by norm_num), show (150 : ℝ) * 10 = ((1500 : ℤ) : ℝ) by norm_num, Int.floor_intCast]
  constructor
  · intro t t' ht htt ht'
    refine C14_range_partial nc 10 t t' 150 tbs rad (by norm_num) hrad hmono htt (by rw [h150]; omega) ?_ ?_
    · rw [h150, hfl t ht]
      have : (0 : ℤ) ≤ ⌊t * 10⌋ := Int.floor_nonneg.2 (by linarith)
      omega
    · rw [h150, hfl t' (ht.trans htt)]
      have : ⌊t' * 10⌋ < 34268 := Int.floor_lt.2 (by push_cast; linarith)
      omega
  · intro t h1 h2
    have ht : (0 : ℝ) ≤ t := by linarith
    have g1 : (34268 : ℤ) ≤ ⌊t * 10⌋ := Int.le_floor.2 (by push_cast; linarith)
    have g2 : ⌊t * 10⌋ < 67036 := Int.floor_lt.2 (by push_cast; linarith)
    obtain ⟨k, hk, e, -, -, -, hk0⟩ := C14_exactly nc 10 150 t tbs rad hrad (by rw [h150]; omega)
      (⌊t * 10⌋ - 1500) (by rw [h150, hfl t ht]; omega)
    obtain ⟨k', hk', e', hk0', -⟩ := C14_exactly nc 10 150 150 tbs rad hrad (by rw [h150]; omega)
      0 (by omega)
    rw [e, e']
    obtain rfl := hk0 (by omega) (by omega)
    obtain rfl := hk0' (by omega) le_rfl
    rfl

example (nc : Int) : lutRadiance nc (fin 10) ⟨[fin 150, fin 150.1], finL [1, 2]⟩ [fin 5000] =
    lutRadiance nc (fin 10) ⟨[fin 150, fin 150.1], finL [1, 2]⟩ [fin 150] :=
  (C14_default_tables nc [fin 150.1] [1, 2] (by simp) (by simp)).2 5000 (by norm_num) (by norm_num)

example (nc : Int) : ∃ y y' : ℝ,
    lutRadiance nc (fin 10) ⟨[fin 150, fin 150.1], finL [1, 2]⟩ [fin 280] = .ok (.pyFloat (fin y)) ∧
    lutRadiance nc (fin 10) ⟨[fin 150, fin 150.1], finL [1, 2]⟩ [fin 3400] = .ok (.pyFloat (fin y')) ∧ y ≤ y' :=
  (C14_default_tables nc [fin 150.1] [1, 2] (by simp) (by simp)).1 280 3400 (by norm_num) (by norm_num) (by norm_num)

end Verif.Props
