import Verif.Props.FloatRange
import Verif.Props.FloatRayleigh
import Verif.Lemmas.Rayleigh
/-
C196: the wavelengths of the integrated energy in floating point.
-/
namespace Verif.Props
open XF Model PyNum Lemmas Spec

/-! ### Running sums -/

/-- the running sum of numbers that are zero or not too small -/
theorem cumsumFrom_near (F : FP) (K : ℝ) (hK : K ≤ 1 / 4) (rs : List ℝ) :
    ∀ (a : RF F) (P δ : ℝ), 0 ≤ δ → δ + rs.length * uu ≤ K → Near0 δ a P → (P = 0 ∨ 1e-60 ≤ P) → P + rs.sum ≤ 1e50 →
      (∀ x ∈ rs, x = 0 ∨ 1e-60 ≤ x) →
      ∃ cs : List ℝ, NP.cumsumFrom (α := RF F) a (rs.map RF.of) = cs.map RF.of ∧ cs.length = rs.length ∧
        ∀ (i : Nat) (h : i < cs.length), Near0 K (fin cs[i]) (P + (rs.take (i + 1)).sum) := by
  induction rs with
  | nil => intro a P δ _ _ _ _ _ _; exact ⟨[], rfl, rfl, by simp⟩
  | cons x rs ih =>
    intro a P δ h0 hK' ha hP hsum hx
    have hu := uu_pos
    have nn : ∀ v : ℝ, (v = 0 ∨ 1e-60 ≤ v) → 0 ≤ v := by
      rintro v (rfl | h)
      · exact le_refl _
      · exact le_trans (by norm_num) h
    have hx0 := nn x (hx x (by simp))
    have hP0 := nn P hP
    have hr0 : 0 ≤ rs.sum := List.sum_nonneg fun v hv => nn v (hx v (by simp [hv]))
    rw [List.sum_cons] at hsum
    rw [List.length_cons] at hK'
    push_cast at hK'
    have hl0 : (0:ℝ) ≤ rs.length * uu := by positivity
    have in0 : ∀ v : ℝ, (v = 0 ∨ 1e-60 ≤ v) → v ≤ 1e50 → In0 1e-170 1e50 v := by
      rintro v (rfl | h) h'
      · exact Or.inl rfl
      · exact Or.inr ⟨le_trans (by norm_num) h, h'⟩
    have hxn : Near0 δ (fin x) x := by
      rcases hx x (by simp) with rfl | h
      · exact Or.inl ⟨rfl, rfl⟩
      · exact Or.inr ((near_refl (lt_of_lt_of_le (by norm_num) h)).mono h0)
    obtain ⟨-, hs⟩ := near0_add F h0 (by nlinarith) (in0 P hP (by linarith)) (in0 x (hx x (by simp)) (by linarith)) ha hxn
    have hs' : Near0 (δ + uu) ((a + RF.of x : RF F)) (P + x) := hs
    have hpx : P + x = 0 ∨ 1e-60 ≤ P + x := by
      rcases hP with rfl | h
      · rw [zero_add]; exact hx x (by simp)
      · exact Or.inr (by linarith)
    obtain ⟨cs, h1, h2, h3⟩ := ih (a + RF.of x : RF F) (P + x) (δ + uu) (by linarith) (by nlinarith) hs' hpx (by linarith)
      fun v hv => hx v (by simp [hv])
    obtain ⟨c, hc⟩ : ∃ c : ℝ, (a + RF.of x : RF F) = RF.of c := by
      rcases hs' with ⟨-, e⟩ | ⟨-, y, e, -⟩
      · exact ⟨0, e⟩
      · exact ⟨y, e⟩
    refine ⟨c :: cs, ?_, by simp [h2], ?_⟩
    · rw [List.map_cons, NP.cumsumFrom, h1, hc]; rfl
    · intro i hi
      cases i with
      | zero =>
        rw [hc] at hs'
        have : Near0 K (fin c) (P + x) := by
          rcases hs' with h | h
          · exact Or.inl h
          · exact Or.inr (Near.mono h (by nlinarith))
        simpa using this
      | succ i =>
        have := h3 i (by simpa using hi)
        simpa [add_assoc] using this

theorem cumsum_near (F : FP) (r : List ℝ) (hn : r.length ≤ 2 ^ 20) (hs : r.sum ≤ 1e50) (hr : ∀ x ∈ r, x = 0 ∨ 1e-60 ≤ x) :
    ∃ cs : List ℝ, NP.cumsum (α := RF F) (r.map RF.of) = cs.map RF.of ∧ cs.length = r.length ∧
      ∀ (i : Nat) (h : i < cs.length), Near0 (r.length * uu) (fin cs[i]) (r.take (i + 1)).sum := by
  have hu := uu_pos
  cases r with
  | nil => exact ⟨[], rfl, rfl, by simp⟩
  | cons x rs =>
    have hu' := uu_small
    have hn' : ((x :: rs).length : ℝ) ≤ 2 ^ 20 := by exact_mod_cast hn
    have hK : ((x :: rs).length : ℝ) * uu ≤ 1 / 4 := by
      have := mul_le_mul hn' hu' hu.le (by norm_num)
      refine this.trans (by norm_num)
    have hx : Near0 0 (RF.of (F := F) x) x := by
      rcases hr x (by simp) with rfl | h
      · exact Or.inl ⟨rfl, rfl⟩
      · exact Or.inr (near_refl (lt_of_lt_of_le (by norm_num) h))
    obtain ⟨cs, h1, h2, h3⟩ := cumsumFrom_near F _ hK rs (RF.of x) x 0 (le_refl _) (by rw [List.length_cons]; push_cast; nlinarith) hx
      (hr x (by simp)) (by simpa using hs) fun v hv => hr v (by simp [hv])
    refine ⟨x :: cs, ?_, by simp [h2], ?_⟩
    · rw [List.map_cons, NP.cumsum, h1]; rfl
    · intro i hi
      cases i with
      | zero =>
        have : Near0 ((x :: rs).length * uu) (fin x) x := by
          rcases hx with h | h
          · exact Or.inl h
          · exact Or.inr (Near.mono h (by positivity))
        simpa using this
      | succ i =>
        have := h3 i (by simpa using hi)
        simpa using this

theorem exists_max : ∀ l : List ℝ, l ≠ [] → ∃ M ∈ l, ∀ v ∈ l, v ≤ M := by
  intro l
  induction l with
  | nil => simp
  | cons a l ih =>
    intro _
    by_cases h : l = []
    · subst h; exact ⟨a, by simp, by simp⟩
    · obtain ⟨M, h1, h2⟩ := ih h
      rcases le_total a M with h | h
      · refine ⟨M, by simp [h1], fun v hv => ?_⟩
        rcases List.mem_cons.1 hv with rfl | hv
        · exact h
        · exact h2 v hv
      · refine ⟨a, by simp, fun v hv => ?_⟩
        rcases List.mem_cons.1 hv with rfl | hv
        · exact le_refl _
        · exact (h2 v hv).trans h

theorem hundred_lit (F : FP) : (100.0 : RF F) = RF.of 100 := by
  show F.rnd (OfScientific.ofScientific 1000 true 1) = _
  have : (OfScientific.ofScientific 1000 true 1 : ℝ) = ((100 : ℕ) : ℝ) := by norm_num
  rw [this]; exact rnd_nat F 100 (by norm_num)

/-- responses of a band: zero or not too small, at most 2^20 samples, not all zero -/
structure EnergySamples (r : List ℝ) : Prop where
  range : ∀ x ∈ r, x = 0 ∨ (1e-60 ≤ x ∧ x ≤ 1e40)
  few : r.length ≤ 2 ^ 20
  pos : 0 < r.sum

/-- percentage points by which a computed share may be wrong -/
noncomputable def shareErr (r : List ℝ) : ℝ := 200 * (r.length + 2) / 2 ^ 50

/-- the computed shares -/
theorem shares_near (F : FP) (r : List ℝ) (h : EnergySamples r) :
    ∃ (m : RF F) (s : Nat → ℝ), NP.amax (NP.cumsum (α := RF F) (r.map RF.of)) = .ok m ∧
      (NP.cumsum (α := RF F) (r.map RF.of)).map (fun c => c / m * (100.0 : RF F)) =
        (List.range r.length).map (fun i => RF.of (s i)) ∧
      ∀ i < r.length, |s i - share r i| ≤ 200 * (r.length + 1) / 2 ^ 50 := by
  have hu := uu_pos
  have hu' := uu_small
  have hne : r ≠ [] := by rintro rfl; simpa using h.pos
  have hpos : 0 < r.length := List.length_pos_of_ne_nil hne
  have nn : ∀ x ∈ r, 0 ≤ x := by
    intro x hx
    rcases h.range x hx with rfl | h'
    · exact le_refl _
    · exact le_trans (by norm_num) h'.1
  have hn' : (r.length : ℝ) ≤ 2 ^ 20 := by exact_mod_cast h.few
  have hsum : r.sum ≤ 1e50 := by
    have : r.sum ≤ r.length • (1e40 : ℝ) := List.sum_le_card_nsmul r _ fun x hx => by
      rcases h.range x hx with rfl | h'
      · norm_num
      · exact h'.2
    rw [nsmul_eq_mul] at this
    nlinarith
  obtain ⟨cs, h1, h2, h3⟩ := cumsum_near F r h.few hsum fun x hx => (h.range x hx).imp id And.left
  have hcs : cs ≠ [] := by rintro rfl; simp at h2; omega
  obtain ⟨M, hM1, hM2⟩ := exists_max cs hcs
  obtain ⟨K, hK⟩ : ∃ K : ℝ, K = r.length * uu := ⟨_, rfl⟩
  rw [← hK] at h3
  have K0 : 0 ≤ K := by rw [hK]; positivity
  have K1 : K ≤ 1e-8 := by
    rw [hK]
    exact (mul_le_mul hn' hu' hu.le (by norm_num)).trans (by norm_num)
  -- the greatest running sum is close to the total
  have hMn : Near K (fin M) r.sum := by
    obtain ⟨k, hk, rfl⟩ := List.getElem_of_mem hM1
    have hlast := h3 (r.length - 1) (by omega)
    rw [List.take_of_length_le (by omega)] at hlast
    rcases hlast with ⟨e, -⟩ | ⟨-, y, e, l1, l2⟩
    · exact absurd e h.pos.ne'
    refine ⟨h.pos, _, rfl, ?_, ?_⟩
    · have := hM2 _ (List.getElem_mem (show r.length - 1 < cs.length by omega))
      rw [XF.fin.inj e] at this
      linarith
    · have hle := take_sum_le r nn (k + 1)
      rcases h3 k hk with ⟨-, e⟩ | ⟨-, z, e, -, l3⟩
      · rw [XF.fin.inj e]; have := h.pos; positivity
      · rw [XF.fin.inj e]
        exact l3.trans (mul_le_mul_of_nonneg_right hle (Real.exp_pos _).le)
  have hamax : NP.amax (α := RF F) (cs.map RF.of) = .ok (RF.of M) := amax_eq hM1 hM2
  -- one share
  have one : ∀ i (hi : i < cs.length), ∃ s : ℝ, ((RF.of cs[i] : RF F) / RF.of M * (100.0 : RF F) : RF F) = RF.of s ∧
      |s - share r i| ≤ 200 * (r.length + 1) / 2 ^ 50 := by
    intro i hi
    rw [hundred_lit]
    rcases h3 i hi with ⟨e0, e⟩ | hn
    · rw [XF.fin.inj e]
      obtain ⟨M', e', M0⟩ := hMn.pos
      have := XF.fin.inj e'
      subst this
      refine ⟨0, ?_, ?_⟩
      · show F.rd (XF.mul (F.rd (XF.div (fin 0) (fin M))) (fin 100)) = fin 0
        rw [show XF.div (fin 0) (fin M) = fin 0 by simp [XF.div, M0.ne'], show F.rd (fin 0) = fin 0 from rnd_zero F,
          show XF.mul (fin 0) (fin 100) = fin 0 from congrArg fin (zero_mul _), show F.rd (fin 0) = fin 0 from rnd_zero F]
      · unfold share
        rw [e0]
        simp
        positivity
    · obtain ⟨P, hP⟩ : ∃ P : ℝ, P = (r.take (i + 1)).sum := ⟨_, rfl⟩
      have hle : P ≤ r.sum := hP ▸ take_sum_le r nn (i + 1)
      rw [← hP] at hn
      have P0 := hn.1
      have Pl : 1e-60 ≤ P := by
        by_contra hc
        have : (r.take (i + 1)).sum = 0 := by
          apply List.sum_eq_zero
          intro x hx
          rcases h.range x (List.mem_of_mem_take hx) with h' | h'
          · exact h'
          · exfalso
            have : x ≤ (r.take (i + 1)).sum := List.single_le_sum (fun v hv => nn v (List.mem_of_mem_take hv)) x hx
            rw [← hP] at this
            exact hc (h'.1.trans this)
        rw [hP, this] at P0
        exact lt_irrefl _ P0
      have q1 : 1e-111 ≤ P / r.sum := by
        rw [le_div_iff₀ h.pos]
        nlinarith
      have q2 : P / r.sum ≤ 1 := by rw [div_le_one h.pos]; exact hle
      have n1 := near_div F hn hMn (by linarith) (le_trans (by norm_num) q1) (q2.trans (by norm_num))
      have n2 := near_mul F n1 (near_refl (x := 100) (by norm_num)) (by norm_num at hu'; linarith) (by nlinarith) (by nlinarith)
      obtain ⟨hs0, s, es, l1, l2⟩ := n2
      refine ⟨s, es, ?_⟩
      have hsh : share r i = P / r.sum * 100 := by unfold share; rw [hP]
      rw [hsh]
      have hδ : K + K + uu + 0 + uu = (r.length + 1) / 2 ^ 50 := by rw [hK]; unfold uu; ring
      rw [hδ] at l1 l2
      obtain ⟨d, hd⟩ : ∃ d : ℝ, d = (r.length + 1) / 2 ^ 50 := ⟨_, rfl⟩
      rw [← hd] at l1 l2
      have d0 : 0 ≤ d := by rw [hd]; positivity
      have d1 : d ≤ 1 / 2 := by rw [hd, div_le_iff₀ (by positivity)]; linarith [hn']
      have e1 : Real.exp d ≤ 1 + 2 * d := by
        have := Real.abs_exp_sub_one_le (x := d) (by rw [abs_of_nonneg d0]; linarith)
        rw [abs_of_nonneg d0] at this
        linarith [le_abs_self (Real.exp d - 1)]
      have e2 : 1 - d ≤ Real.exp (-d) := by have := Real.add_one_le_exp (-d); linarith
      have S1 : P / r.sum * 100 ≤ 100 := by linarith
      rw [show 200 * ((r.length : ℝ) + 1) / 2 ^ 50 = 200 * d by rw [hd]; ring]
      rw [abs_le]
      constructor
      · have := mul_le_mul_of_nonneg_left e2 hs0.le
        nlinarith
      · have := mul_le_mul_of_nonneg_left e1 hs0.le
        nlinarith
  have ex : ∀ i, ∃ s : ℝ, ∀ hi : i < cs.length, ((RF.of cs[i] : RF F) / RF.of M * (100.0 : RF F) : RF F) = RF.of s ∧
      |s - share r i| ≤ 200 * (r.length + 1) / 2 ^ 50 := by
    intro i
    by_cases hi : i < cs.length
    · obtain ⟨s, hs⟩ := one i hi
      exact ⟨s, fun _ => hs⟩
    · exact ⟨0, fun h => absurd h hi⟩
  choose s hs using ex
  refine ⟨RF.of M, s, by rw [h1]; exact hamax, ?_, fun i hi => (hs i (by omega)).2⟩
  rw [h1, List.map_map]
  apply List.ext_getElem
  · simp [h2]
  · intro i hi1 hi2
    simp only [List.getElem_map, List.getElem_range, Function.comp_def]
    exact (hs i (by simpa using hi1)).1

theorem bounds_step {α : Type} [PyNum α] (r w : List α) (lim m d : α) (crs : List α) (hl : crs.length = w.length)
    (h1 : NP.amax (NP.cumsum r) = .ok m) (h2 : (NP.cumsum r).map (fun c => c / m * (100.0 : α)) = crs) :
    getBoundsIntegratedEnergy r w lim =
      match (NP.whereIdx (fun c => PyNum.ge c lim) crs).head?, (NP.whereIdx (fun c => PyNum.le c (100 - lim)) crs).getLast? with
      | some i, some j => .ok (w.getD i d, w.getD j d)
      | _, _ => .error .indexError := by
  have hb : ∀ (p : α → Bool), ∀ i ∈ NP.whereIdx p crs, i < w.length := by
    intro p i hi
    obtain ⟨v, hv, _⟩ := (mem_whereIdx _ _ _).1 hi
    have := (List.getElem?_eq_some_iff.1 hv).1
    omega
  unfold getBoundsIntegratedEnergy
  simp only [h1, bind, Except.bind]
  rw [h2, takeIdx_ok w d _ (hb _)]
  simp only
  rw [takeIdx_ok w d _ (hb _)]
  cases e1 : (NP.whereIdx (fun c => PyNum.ge c lim) crs).head? with
  | none => simp [e1]
  | some i =>
    cases e2 : (NP.whereIdx (fun c => PyNum.le c (100 - lim)) crs).getLast? with
    | none => simp [e1, e2, pure, Except.pure]
    | some j => simp [e1, e2, pure, Except.pure]

/-- the bounds from the computed shares `s` and the computed upper limit `u` -/
theorem bounds_fp (F : FP) (r w : List ℝ) (hl : r.length = w.length) (h : EnergySamples r) (lim : ℝ) (l0 : 0 ≤ lim) (l1 : lim ≤ 99) :
    ∃ (s : Nat → ℝ) (u : ℝ), (∀ i < r.length, |s i - share r i| ≤ 200 * (r.length + 1) / 2 ^ 50) ∧
      |u - (100 - lim)| ≤ 100 / 2 ^ 52 ∧
      getBoundsIntegratedEnergy (α := RF F) (r.map RF.of) (w.map RF.of) (RF.of lim) =
        match (NP.whereIdx (fun c => PyNum.ge c (fin lim)) ((List.range r.length).map fun i => fin (s i))).head?,
          (NP.whereIdx (fun c => PyNum.le c (fin u)) ((List.range r.length).map fun i => fin (s i))).getLast? with
        | some i, some j => .ok (RF.of (w.getD i 0), RF.of (w.getD j 0))
        | _, _ => .error .indexError := by
  obtain ⟨m, s, h1, h2, h3⟩ := shares_near F r h
  obtain ⟨u, hu, hu'⟩ := F.rnd_near (100 - lim) (by norm_num; linarith) (by norm_num; linarith)
  refine ⟨s, u, h3, hu'.trans (by gcongr; linarith), ?_⟩
  have hd : ((100 : RF F) - RF.of lim : RF F) = RF.of u := by rw [fp_100]; exact hu
  have := bounds_step (α := RF F) (r.map RF.of) (w.map RF.of) (RF.of lim) m (RF.of 0) _ (by simp [hl]) h1 h2
  rw [hd] at this
  refine this.trans ?_
  have g : ∀ i, (w.map (RF.of (F := F))).getD i (RF.of 0) = RF.of (w.getD i 0) := fun i => by
    simp only [List.getD, List.getElem?_map]
    cases w[i]? <;> rfl
  simp only [g]
  rfl

theorem share_at (s : Nat → ℝ) (n i : Nat) (v : XF) :
    ((List.range n).map fun i => fin (s i))[i]? = some v ↔ i < n ∧ v = fin (s i) := by
  rw [List.getElem?_map, Option.map_eq_some_iff]
  constructor
  · rintro ⟨k, hk, rfl⟩
    obtain ⟨h1, h2⟩ := List.getElem?_eq_some_iff.1 hk
    simp at h1 h2; subst h2; exact ⟨h1, rfl⟩
  · rintro ⟨h1, rfl⟩
    exact ⟨i, by simp [h1], rfl⟩

/-- C196: the bounds computed in floating point are samples `i` and `j` of the curve whose exact shares of the energy meet
the limits up to `200 (n + 2)/2^50` percentage points: the share at `i` reaches the limit and no earlier one does, the share
at `j` is at most 100 minus the limit and no later one is.  IndexError is raised only if every share exceeds 100 minus the
limit, up to the same error. -/
theorem C196_bounds (F : FP) (r w : List ℝ) (hl : r.length = w.length) (h : EnergySamples r) (lim : ℝ) (l0 : 0 ≤ lim)
    (l1 : lim ≤ 99) :
    (∃ i j, i < r.length ∧ j < r.length ∧
      getBoundsIntegratedEnergy (α := RF F) (r.map RF.of) (w.map RF.of) (RF.of lim) =
        .ok (RF.of (w.getD i 0), RF.of (w.getD j 0)) ∧
      lim - shareErr r ≤ share r i ∧ (∀ k < i, share r k < lim + shareErr r) ∧
      share r j ≤ 100 - lim + shareErr r ∧ (∀ k, j < k → k < r.length → 100 - lim - shareErr r < share r k)) ∨
    (getBoundsIntegratedEnergy (α := RF F) (r.map RF.of) (w.map RF.of) (RF.of lim) = .error .indexError ∧
      ∀ k < r.length, 100 - lim - shareErr r < share r k) := by
  obtain ⟨s, u, hs, hu, e⟩ := bounds_fp F r w hl h lim l0 l1
  have hE : 200 * ((r.length : ℝ) + 1) / 2 ^ 50 + 100 / 2 ^ 52 ≤ shareErr r := by
    unfold shareErr
    rw [show (200 * ((r.length : ℝ) + 2) / 2 ^ 50) = 200 * ((r.length : ℝ) + 1) / 2 ^ 50 + 200 / 2 ^ 50 by ring]
    have : (100 : ℝ) / 2 ^ 52 ≤ 200 / 2 ^ 50 := by norm_num
    linarith
  have hE0 : (0:ℝ) ≤ 100 / 2 ^ 52 := by positivity
  have hs' : ∀ i < r.length, share r i - (shareErr r - 100 / 2 ^ 52) ≤ s i ∧ s i ≤ share r i + (shareErr r - 100 / 2 ^ 52) := by
    intro i hi
    obtain ⟨a, b⟩ := abs_le.1 (hs i hi)
    constructor <;> linarith
  obtain ⟨u1, u2⟩ := abs_le.1 hu
  have hne : r ≠ [] := by rintro rfl; simpa using h.pos
  have hpos : 0 < r.length := List.length_pos_of_ne_nil hne
  rw [e]
  cases e1 : (NP.whereIdx (fun c => PyNum.ge c (fin lim)) ((List.range r.length).map fun i => fin (s i))).head? with
  | none =>
    exfalso
    rw [whereIdx_head_none] at e1
    have := e1 (fin (s (r.length - 1))) (by rw [List.mem_map]; exact ⟨r.length - 1, by simp; omega, rfl⟩)
    have h100 : share r (r.length - 1) = 100 := by
      unfold share
      rw [List.take_of_length_le (by omega), div_self h.pos.ne']; norm_num
    obtain ⟨a, -⟩ := abs_le.1 (hs (r.length - 1) (by omega))
    rw [h100] at a
    have hn' : (r.length : ℝ) ≤ 2 ^ 20 := by exact_mod_cast h.few
    have : s (r.length - 1) < lim := by simpa using this
    have : 200 * ((r.length : ℝ) + 1) / 2 ^ 50 ≤ 1 / 2 := by
      rw [div_le_iff₀ (by positivity)]; nlinarith
    linarith
  | some i =>
    obtain ⟨⟨v, hv, hv'⟩, hfirst⟩ := (whereIdx_head _ _ _).1 e1
    obtain ⟨hi, rfl⟩ := (share_at s r.length i v).1 hv
    have hvi : lim ≤ s i := by simpa using hv'
    cases e2 : (NP.whereIdx (fun c => PyNum.le c (fin u)) ((List.range r.length).map fun i => fin (s i))).getLast? with
    | none =>
      refine Or.inr ⟨rfl, fun k hk => ?_⟩
      rw [List.getLast?_eq_none_iff, ← List.head?_eq_none_iff, whereIdx_head_none] at e2
      have := e2 (fin (s k)) (by rw [List.mem_map]; exact ⟨k, by simpa using hk, rfl⟩)
      have : u < s k := by simpa only [le_fin, decide_eq_false_iff_not, not_le] using this
      linarith [(hs' k hk).2]
    | some j =>
      obtain ⟨⟨v, hw, hw'⟩, hlast⟩ := (whereIdx_last _ _ _).1 e2
      obtain ⟨hj, rfl⟩ := (share_at s r.length j v).1 hw
      have hvj : s j ≤ u := by simpa only [le_fin, decide_eq_true_eq] using hw'
      refine Or.inl ⟨i, j, hi, hj, rfl, by linarith [(hs' i hi).2], fun k hk => ?_, by linarith [(hs' j hj).1], fun k hk1 hk2 => ?_⟩
      · have hk' : k < r.length := by omega
        have : s k < lim := by
          by_contra hc
          have := hfirst k _ ((share_at s r.length k _).2 ⟨hk', rfl⟩) (by simpa using hc)
          omega
        linarith [(hs' k hk').1]
      · have : u < s k := by
          by_contra hc
          have := hlast k _ ((share_at s r.length k _).2 ⟨hk2, rfl⟩) (by simpa only [le_fin, decide_eq_true_eq, not_lt] using hc)
          omega
        linarith [(hs' k hk2).2]

/-- C196: unless a share lies within that error of one of the two limits, the result in floating point is exactly that of
exact arithmetic. -/
theorem C196_same (F : FP) (r w : List ℝ) (hl : r.length = w.length) (h : EnergySamples r) (lim : ℝ) (l0 : 0 ≤ lim)
    (l1 : lim ≤ 99) (clear : ∀ k < r.length, shareErr r < |share r k - lim| ∧ shareErr r < |share r k - (100 - lim)|) :
    getBoundsIntegratedEnergy (α := RF F) (r.map RF.of) (w.map RF.of) (RF.of lim) =
      getBoundsIntegratedEnergy (α := XF) (finL r) (finL w) (fin lim) := by
  have nn : ∀ x ∈ r, 0 ≤ x := by
    intro x hx
    rcases h.range x hx with rfl | h'
    · exact le_refl _
    · exact le_trans (by norm_num) h'.1
  obtain ⟨s, u, hs, hu, e⟩ := bounds_fp F r w hl h lim l0 l1
  have hE : 200 * ((r.length : ℝ) + 1) / 2 ^ 50 + 100 / 2 ^ 52 ≤ shareErr r := by
    unfold shareErr
    rw [show (200 * ((r.length : ℝ) + 2) / 2 ^ 50) = 200 * ((r.length : ℝ) + 1) / 2 ^ 50 + 200 / 2 ^ 50 by ring]
    have : (100 : ℝ) / 2 ^ 52 ≤ 200 / 2 ^ 50 := by norm_num
    linarith
  have hE0 : (0:ℝ) ≤ 100 / 2 ^ 52 := by positivity
  obtain ⟨u1, u2⟩ := abs_le.1 hu
  refine e.trans ((bounds_eval r w hl nn h.pos lim).trans ?_).symm
  have same : ∀ (p q : XF → Bool), (∀ k < r.length, p (fin (share r k)) = q (fin (s k))) →
      NP.whereIdx p ((List.range r.length).map fun i => fin (share r i)) =
        NP.whereIdx q ((List.range r.length).map fun i => fin (s i)) := by
    intro p q hpq
    have g : ∀ (l : List Nat) (n : Nat), (∀ k ∈ l, k < r.length) →
        NP.whereIdxFrom p n (l.map fun i => fin (share r i)) = NP.whereIdxFrom q n (l.map fun i => fin (s i)) := by
      intro l
      induction l with
      | nil => intro n _; rfl
      | cons a l ih =>
        intro n hk
        simp only [List.map_cons, NP.whereIdxFrom]
        rw [hpq a (hk a (by simp)), ih (n + 1) fun k hk' => hk k (by simp [hk'])]
    exact g _ 0 fun k hk => by simpa using hk
  have s1 := same (fun c => PyNum.ge c (fin lim)) (fun c => PyNum.ge c (fin lim)) (by
    intro k hk
    obtain ⟨a, b⟩ := abs_le.1 (hs k hk)
    have hc := (clear k hk).1
    have : lim ≤ share r k ↔ lim ≤ s k := by
      rcases lt_abs.1 hc with hc | hc <;> constructor <;> intro _ <;> linarith
    simpa using this)
  have s2 := same (fun c => PyNum.le c (fin (100 - lim))) (fun c => PyNum.le c (fin u)) (by
    intro k hk
    obtain ⟨a, b⟩ := abs_le.1 (hs k hk)
    have hc := (clear k hk).2
    have : share r k ≤ 100 - lim ↔ s k ≤ u := by
      rcases lt_abs.1 hc with hc | hc <;> constructor <;> intro _ <;> linarith
    simpa only [le_fin, decide_eq_decide] using this)
  rw [s1, s2]
  rfl

/-- C196: if some share lies between the limits by more than that error, the call succeeds in floating point with the lower
bound not above the upper one. -/
theorem C196_ordered (F : FP) (r w : List ℝ) (hl : r.length = w.length) (h : EnergySamples r) (hinc : Increasing w) (lim : ℝ)
    (l0 : 0 ≤ lim) (l1 : lim ≤ 99) (m : Nat) (hm : m < r.length) (hm1 : lim + shareErr r ≤ share r m)
    (hm2 : share r m ≤ 100 - lim - shareErr r) :
    ∃ lo up : ℝ, getBoundsIntegratedEnergy (α := RF F) (r.map RF.of) (w.map RF.of) (RF.of lim) = .ok (RF.of lo, RF.of up) ∧
      lo ∈ w ∧ up ∈ w ∧ lo ≤ up := by
  rcases C196_bounds F r w hl h lim l0 l1 with ⟨i, j, hi, hj, e, -, h1, -, h2⟩ | ⟨-, h1⟩
  · have him : i ≤ m := by
      by_contra hc
      linarith [h1 m (by omega)]
    have hmj : m ≤ j := by
      by_contra hc
      linarith [h2 m (by omega) hm]
    have hi' : i < w.length := by omega
    have hj' : j < w.length := by omega
    refine ⟨_, _, e, ?_, ?_, ?_⟩ <;> simp only [List.getD, hi', hj', List.getElem?_eq_getElem, Option.getD_some]
    · exact List.getElem_mem _
    · exact List.getElem_mem _
    · rcases Nat.lt_or_ge i j with hlt | hge
      · exact (List.pairwise_iff_getElem.1 hinc i j hi' hj' hlt).le
      · have : i = j := by omega
        subst this; exact le_refl _
  · linarith [h1 m hm]

theorem exEnergy : EnergySamples [1, 2, 1] :=
  ⟨by intro x hx; simp at hx; rcases hx with rfl | rfl | rfl <;> norm_num, by norm_num, by norm_num⟩

example (F : FP) : getBoundsIntegratedEnergy (α := RF F) ([1, 2, 1].map RF.of) ([5, 6, 7].map RF.of) (RF.of 1) =
    .ok (RF.of 5, RF.of 6) := by
  refine (C196_same F [1, 2, 1] [5, 6, 7] rfl exEnergy 1 (by norm_num) (by norm_num) ?_).trans ?_
  · intro k hk
    have : k = 0 ∨ k = 1 ∨ k = 2 := by simp at hk; omega
    rcases this with rfl | rfl | rfl <;> simp [share, shareErr] <;> norm_num
  · exact C28_bounds [1, 2, 1] [5, 6, 7] rfl
      (by intro x hx; simp at hx; rcases hx with rfl | rfl | rfl <;> norm_num) (by norm_num) 1 0 1 (by simp) (by simp)
      (by simp [share]; norm_num) (by omega) (by simp [share]; norm_num) (by
        intro k h1 h2
        obtain rfl : k = 2 := by simp at h2; omega
        simp [share]; norm_num)

example (F : FP) : ∃ lo up : ℝ, getBoundsIntegratedEnergy (α := RF F) ([1, 2, 1].map RF.of) ([5, 6, 7].map RF.of) (RF.of 1) =
    .ok (RF.of lo, RF.of up) ∧ lo ∈ [5, 6, 7] ∧ up ∈ [5, 6, 7] ∧ lo ≤ up :=
  C196_ordered F [1, 2, 1] [5, 6, 7] rfl exEnergy (by simp [Increasing]; norm_num) 1 (by norm_num) (by norm_num) 1 (by simp)
    (by simp [share, shareErr]; norm_num) (by simp [share, shareErr]; norm_num)

end Verif.Props
