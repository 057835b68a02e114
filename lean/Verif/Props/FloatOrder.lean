import Verif.Props.FloatRayleigh
import Verif.Props.BandLookup
import Verif.Props.Curves
/-
Decisions taken by comparing floating point numbers: the band at a wavelength, the order of samples and
the full width at half maximum.
-/
namespace Verif.Props
open Model Spec Lemmas PyNum XF
variable {F : FP}

/-- differences of numbers within a factor of two are exact -/
theorem fp_sub_exact {x y : ℝ} (hx : IsFloat F x) (hy : IsFloat F y) (h0 : 0 < y) (h1 : y / 2 ≤ x) (h2 : x ≤ 2 * y) :
    F.rnd (y - x) = fin (y - x) := by
  rcases le_total x y with h | h
  · exact F.rnd_sub y x hy hx (by linarith) h (by linarith)
  · have := F.rnd_sub x y hx hy h0 h h2
    rw [show y - x = -(x - y) by ring, F.rnd_neg, this]
    rfl

/-- a rounded difference is positive exactly if the difference is -/
theorem fp_sub_pos {x y : ℝ} (hx : IsFloat F x) (hy : IsFloat F y) : ltb (fin 0) (F.rnd (y - x)) = decide (x < y) := by
  by_cases h : x < y
  swap
  · have l := F.rnd_mono (y - x) 0 (by linarith)
    rw [rnd_zero F] at l
    rw [decide_eq_false h]
    cases e : F.rnd (y - x) with
    | nan => rfl
    | ninf => rfl
    | pinf => rw [e] at l; simp [leb] at l
    | fin d =>
      rw [e] at l
      simp only [leb, decide_eq_true_eq] at l
      simp [ltb, l]
  · have key : ∃ d : ℝ, 0 < d ∧ leb (fin d) (F.rnd (y - x)) = true := by
      rcases lt_trichotomy x 0 with hx0 | hx0 | hx0
      · rcases lt_trichotomy y 0 with hy0 | hy0 | hy0
        · rcases le_total (-x) (2 * -y) with h2 | h2
          · refine ⟨y - x, by linarith, ?_⟩
            have := F.rnd_sub (-x) (-y) (float_neg hx) (float_neg hy) (by linarith) (by linarith) h2
            rw [show y - x = -x - -y by ring, this]
            simp [leb]
          · have := F.rnd_mono (-y) (y - x) (by linarith)
            rw [float_neg hy] at this
            exact ⟨-y, by linarith, this⟩
        · refine ⟨-x, by linarith, ?_⟩
          have := F.rnd_mono (-x) (y - x) (by linarith)
          rwa [float_neg hx] at this
        · refine ⟨y, hy0, ?_⟩
          have := F.rnd_mono y (y - x) (by linarith)
          rwa [show F.rnd y = fin y from hy] at this
      · subst hx0
        refine ⟨y, h, ?_⟩
        rw [sub_zero, show F.rnd y = fin y from hy]
        simp [leb]
      · rcases le_total y (2 * x) with h2 | h2
        · refine ⟨y - x, by linarith, ?_⟩
          rw [F.rnd_sub y x hy hx hx0 h.le h2]
          simp [leb]
        · have := F.rnd_mono x (y - x) (by linarith)
          rw [show F.rnd x = fin x from hx] at this
          exact ⟨x, hx0, this⟩
    obtain ⟨d, hd, l⟩ := key
    rw [decide_eq_true h]
    cases e : F.rnd (y - x) with
    | nan => rw [e] at l; simp [leb] at l
    | ninf => rw [e] at l; simp [leb] at l
    | pinf => rfl
    | fin z =>
      rw [e] at l
      simp only [leb, decide_eq_true_eq] at l
      simp [ltb, lt_of_lt_of_le hd l]

/-! ### C187: the band at a wavelength -/

theorem absx_rnd (x : ℝ) : absx (F.rnd x) = F.rnd |x| := by
  have key : ∀ z : ℝ, 0 ≤ z → absx (F.rnd z) = F.rnd z := by
    intro z hz
    have l := F.rnd_mono 0 z hz
    rw [rnd_zero F] at l
    cases e : F.rnd z with
    | nan => exact absurd e (F.rnd_ne_nan z)
    | ninf => rw [e] at l; simp [leb] at l
    | pinf => rfl
    | fin y =>
      rw [e] at l
      simp only [leb, decide_eq_true_eq] at l
      simp [absx, abs_of_nonneg l]
  rcases le_total 0 x with h | h
  · rw [abs_of_nonneg h, key x h]
  · rw [abs_of_nonpos h, ← key (-x) (by linarith), F.rnd_neg]
    cases F.rnd x <;> simp [absx, neg]

/-- a distance compares with a number as its rounded value does, where it is exact if it is small -/
theorem fp_near {c x e : ℝ} (hc : IsFloat F c) (hx : IsFloat F x) (he : IsFloat F e) (h : 2 * e ≤ c) (h0 : 0 < c) :
    ltb (absx (F.rnd (c - x))) (fin e) = decide (|c - x| < e) := by
  by_cases hd : |c - x| < e
  · obtain ⟨d1, d2⟩ := abs_lt.1 hd
    rw [fp_sub_exact hx hc h0 (by linarith) (by linarith)]
    simp [absx, ltb]
  · rw [decide_eq_false hd, absx_rnd]
    have l := F.rnd_mono e |c - x| (not_lt.1 hd)
    rw [show F.rnd e = fin e from he] at l
    cases e' : F.rnd |c - x| with
    | nan => rfl
    | ninf => rw [e'] at l; simp [leb] at l
    | pinf => rfl
    | fin y =>
      rw [e'] at l
      simp only [leb, decide_eq_true_eq] at l
      simp [ltb, l]

theorem bandsNear_step {α : Type} [PyNum α] (sensor : InstVal) (w e : α) (lookup : String → Py (BandRsr α)) (c : String)
    (chs : List String) (b : BandRsr α) (det : DetRsr α) (v : α) (h1 : lookup c = .ok b) (h2 : Dict.getItem b "det-1" = .ok det)
    (h3 : getNum det "central_wavelength" = .ok v) :
    bandsNear sensor w e lookup (c :: chs) =
      if (PyNum.lt (PyNum.abs (v - w)) 2.0 && PyNum.lt (PyNum.abs (v - w)) e) = true then
        (bandTable sensor).bind fun table => (bandsNear sensor w e lookup chs).bind fun more =>
          .ok ((table.get? c).getD c :: more)
      else bandsNear sensor w e lookup chs := by
  conv_lhs => unfold bandsNear
  simp only [h1, h2, h3, bind, Except.bind, pure, Except.pure]

theorem fp_bandsNear (sensor : InstVal) (x e : ℝ) (hx : IsFloat F x) (he : IsFloat F e) (rsr : Rsr XF) (cw : String → ℝ)
    (h : CentralOf rsr cw) (hf : ∀ c ∈ rsr.keys, IsFloat F (cw c) ∧ 0 < cw c ∧ 2 * e ≤ cw c)
    (chs : List String) (hs : ∀ c ∈ chs, c ∈ rsr.keys) :
    bandsNear (α := RF F) sensor (fin x) (fin e) (Dict.getItem rsr ·) chs =
      bandsNear (α := XF) sensor (fin x) (fin e) (rsr.getItem ·) chs := by
  induction chs with
  | nil => rfl
  | cons c chs ih =>
    obtain ⟨b, det, h1, h2, h3⟩ := h c (hs c (by simp))
    obtain ⟨f1, f2, f3⟩ := hf c (hs c (by simp))
    have ih' := ih (fun c' hc' => hs c' (List.mem_cons_of_mem _ hc'))
    have e1 : rsr.getItem c = .ok b := getItem_ok_iff.2 h1
    have e2 : Dict.getItem b "det-1" = .ok det := getItem_ok_iff.2 h2
    have e3 : getNum (α := XF) det "central_wavelength" = .ok (fin (cw c)) := by
      simp [getNum, Dict.getItem, h3, bind, Except.bind, pure, Except.pure]
    have e3' : getNum (α := RF F) det "central_wavelength" = .ok (fin (cw c)) := e3
    have hlt := fp_near f1 hx he f3 f2
    have hcond : (PyNum.lt (α := RF F) (absx (F.rnd (cw c - x))) 2.0 && PyNum.lt (α := RF F) (absx (F.rnd (cw c - x))) (fin e)) =
        (PyNum.lt (α := XF) (fin |cw c - x|) 2.0 && PyNum.lt (fin |cw c - x|) (fin e)) := by
      have h2' : (2.0 : RF F) = fin 2 := by
        show F.rnd (OfScientific.ofScientific 20 true 1) = _
        have : (OfScientific.ofScientific 20 true 1 : ℝ) = ((2 : ℕ) : ℝ) := by norm_num
        rw [this]; exact rnd_nat F 2 (by norm_num)
      rw [show (2.0 : XF) = fin 2 by simp only [ofSci_eq]; norm_num, h2']
      show (ltb (absx (F.rnd (cw c - x))) (fin 2) && ltb (absx (F.rnd (cw c - x))) (fin e)) = _
      rw [hlt, lt_fin, lt_fin]
      by_cases hd : |cw c - x| < e
      · obtain ⟨d1, d2⟩ := abs_lt.1 hd
        rw [fp_sub_exact hx f1 f2 (by linarith) (by linarith)]
        simp [absx, ltb]
      · simp [hd]
    refine (bandsNear_step (α := RF F) sensor (fin x) (fin e) (Dict.getItem rsr ·) c chs b det (fin (cw c)) e1 e2 e3').trans
      (Eq.trans ?_ (bandsNear_step (α := XF) sensor (fin x) (fin e) (rsr.getItem ·) c chs b det (fin (cw c)) e1 e2 e3).symm)
    show (if (PyNum.lt (α := RF F) (absx (F.rnd (cw c - x))) 2.0 && PyNum.lt (α := RF F) (absx (F.rnd (cw c - x))) (fin e)) = true
      then _ else _) = (if (PyNum.lt (α := XF) (fin |cw c - x|) 2.0 && PyNum.lt (fin |cw c - x|) (fin e)) = true then _ else _)
    rw [hcond, ih']

/-- C187: in floating point the lookup by wavelength takes the same decision as in exact arithmetic on the
same numbers, for bands whose central wavelength is at least twice `epsilon`. -/
theorem C187_band_by_wavelength (F : FP) (sensor : InstVal) (x e : ℝ) (hx : IsFloat F x) (he : IsFloat F e) (rsr : Rsr XF)
    (cw : String → ℝ) (h : CentralOf rsr cw) (hf : ∀ c ∈ rsr.keys, IsFloat F (cw c) ∧ 0 < cw c ∧ 2 * e ≤ cw c) (m : Bool) :
    getBandnameFromWavelength (α := RF F) sensor (fin x) rsr (fin e) m =
      getBandnameFromWavelength (α := XF) sensor (fin x) rsr (fin e) m := by
  unfold getBandnameFromWavelength
  have := fp_bandsNear sensor x e hx he rsr cw h hf rsr.keys (fun c hc => hc)
  simp only [bind, Except.bind]
  erw [this]

/-- C187 with the default `epsilon`, which is 0.1 as a floating point number: the only band less than 0.1
micron away is found. -/
theorem C187_default (F : FP) (sensor : String) (x : ℝ) (hx : IsFloat F x) (rsr : Rsr XF) (cw : String → ℝ)
    (h : CentralOf rsr cw) (hf : ∀ c ∈ rsr.keys, IsFloat F (cw c) ∧ 0.21 ≤ cw c) (hnd : rsr.keys.Nodup)
    (b : String) (hb : b ∈ rsr.keys) (hin : |cw b - x| ≤ 0.1 - 1e-15)
    (hout : ∀ c ∈ rsr.keys, c ≠ b → 0.1 + 1e-15 ≤ |cw c - x|) (m : Bool) :
    getBandnameFromWavelength (α := RF F) (.str sensor) (RF.of x) rsr 0.1 m = .ok (.one (stdName sensor b)) := by
  obtain ⟨e, he, hd⟩ := F.rnd_near (0.1 : ℝ) (by norm_num) (by norm_num)
  obtain ⟨d1, d2⟩ := abs_le.1 hd
  have k1 : (0.1 : ℝ) - 1e-15 < e := by norm_num at d1 ⊢; linarith
  have k2 : e < (0.1 : ℝ) + 1e-15 := by norm_num at d2 ⊢; linarith
  have hdef : (0.1 : RF F) = fin e := he
  rw [hdef]
  refine (C187_band_by_wavelength F (.str sensor) x e hx (float_of_rnd he) rsr cw h (fun c hc => ?_) m).trans ?_
  · obtain ⟨f1, f2⟩ := hf c hc
    norm_num at f2 k2
    exact ⟨f1, by linarith, by linarith⟩
  · have hmin : min e 2 = e := min_eq_left (by norm_num at k2; linarith)
    refine (C23_band_by_wavelength sensor x e rsr cw h m [b] (List.singleton_sublist.2 hb) (fun c hc => ?_) hnd).2.1 b rfl
    rw [hmin, List.mem_singleton]
    constructor
    · rintro rfl
      linarith
    · intro hlt
      by_contra hne
      have := hout c hc hne
      linarith

/-- two thermal bands -/
def exThermal (u v : ℝ) : Rsr XF :=
  [("IR10.8", [("det-1", [("central_wavelength", .num (fin u))])]), ("IR12.0", [("det-1", [("central_wavelength", .num (fin v))])])]

example (u v x : ℝ) (hu : F.rnd 10.8 = fin u) (hv : F.rnd 12 = fin v) (hx : F.rnd 10.85 = fin x) :
    getBandnameFromWavelength (α := RF F) (.str "seviri") (RF.of x) (exThermal u v) 0.1 = .ok (.one "IR10.8") := by
  have near : ∀ a y : ℝ, 1 ≤ a → a ≤ 100 → F.rnd a = fin y → |y - a| ≤ 1e-13 := by
    intro a y h1 h2 hy
    obtain ⟨z, e, hz⟩ := F.rnd_near a (le_trans (by norm_num) h1) (le_trans h2 (by norm_num))
    rw [hy] at e
    cases e
    refine hz.trans ?_
    rw [div_le_iff₀ (by positivity)]
    norm_num
    linarith
  have n1 := abs_le.1 (near _ _ (by norm_num) (by norm_num) hu)
  have n2 := abs_le.1 (near _ _ (by norm_num) (by norm_num) hv)
  have n3 := abs_le.1 (near _ _ (by norm_num) (by norm_num) hx)
  norm_num at n1 n2 n3
  obtain ⟨n1, n1'⟩ := n1
  obtain ⟨n2, n2'⟩ := n2
  obtain ⟨n3, n3'⟩ := n3
  refine C187_default F "seviri" x (float_of_rnd hx) (exThermal u v) (fun s => if s = "IR10.8" then u else v) ?_ ?_
    (by simp [exThermal, Dict.keys]) "IR10.8" (by simp [exThermal, Dict.keys]) ?_ ?_ false
  · intro ch hch
    simp only [exThermal, Dict.keys, List.map_cons, List.map_nil, List.mem_cons, List.not_mem_nil, or_false] at hch
    rcases hch with rfl | rfl <;> exact ⟨_, _, rfl, rfl, rfl⟩
  · intro ch hch
    simp only [exThermal, Dict.keys, List.map_cons, List.map_nil, List.mem_cons, List.not_mem_nil, or_false] at hch
    rcases hch with rfl | rfl
    · exact ⟨float_of_rnd hu, by norm_num; linarith⟩
    · exact ⟨float_of_rnd hv, by rw [if_neg (by decide)]; norm_num; linarith⟩
  · rw [abs_le]
    norm_num
    constructor <;> linarith
  · intro ch hch hne
    simp only [exThermal, Dict.keys, List.map_cons, List.map_nil, List.mem_cons, List.not_mem_nil, or_false] at hch
    rcases hch with rfl | rfl
    · exact absurd rfl hne
    · rw [le_abs, if_neg (by decide)]
      norm_num
      left
      linarith

/-! ### C188: sorting and full width -/

theorem fp_diff_pos {a b : XF} (ha : ∀ v, a = fin v → IsFloat F v) (hb : ∀ v, b = fin v → IsFloat F v) :
    PyNum.gt (α := RF F) (F.rd (XF.sub b a)) 0 = PyNum.gt (α := XF) (b - a) 0 := by
  have z : (0 : RF F) = fin 0 := fp_zero
  rw [z]
  show ltb (fin 0) (F.rd (XF.sub b a)) = ltb (fin ((0 : ℤ) : ℝ)) (XF.sub b a)
  rw [Int.cast_zero]
  cases a with
  | fin x =>
    cases b with
    | fin y =>
      have e : XF.sub (fin y) (fin x) = fin (y - x) := by simp [XF.sub, XF.add, XF.neg, sub_eq_add_neg]
      rw [e]
      show ltb (fin 0) (F.rnd (y - x)) = _
      rw [fp_sub_pos (ha x rfl) (hb y rfl)]
      simp [ltb]
    | _ => rfl
  | _ => cases b <;> rfl

theorem adj_congr {β γ : Type} (f g : β → β → γ) (xs : List β) (h : ∀ a ∈ xs, ∀ b ∈ xs, f b a = g b a) :
    NP.adj f xs = NP.adj g xs := by
  induction xs with
  | nil => rfl
  | cons a xs ih =>
    cases xs with
    | nil => rfl
    | cons b xs =>
      simp only [NP.adj]
      rw [h a (by simp) b (by simp), ih fun c hc d hd => h c (List.mem_cons_of_mem _ hc) d (List.mem_cons_of_mem _ hd)]

theorem takeIdx_mem {β : Type} {xs ys : List β} {idxs : List Nat} (h : takeIdx xs idxs = .ok ys) : ∀ v ∈ ys, v ∈ xs := by
  unfold takeIdx at h
  induction idxs generalizing ys with
  | nil => cases h; simp
  | cons i idxs ih =>
    rw [List.mapM_cons] at h
    cases hi : xs[i]? with
    | none => simp [hi, bind, Except.bind] at h
    | some v =>
      simp only [hi, bind, Except.bind] at h
      split at h
      · cases h
      · rename_i zs hz
        cases h
        intro u hu
        rcases List.mem_cons.1 hu with rfl | hu
        · exact List.mem_of_getElem? hi
        · exact ih hz u hu

theorem sortData_step {α : Type} [PyNum α] (argsort : List α → List Nat) (x y xs : List α)
    (h : takeIdx x (argsort x) = .ok xs) :
    sortData argsort x y = (takeIdx y (argsort x)).bind fun ys =>
      (maskSelect xs (true :: NP.adj (fun b a => PyNum.gt (b - a) 0) xs)).bind fun x' =>
        (maskSelect ys (true :: NP.adj (fun b a => PyNum.gt (b - a) 0) xs)).bind fun y' => .ok (x', y') := by
  unfold sortData
  simp only [h, bind, Except.bind, pure, Except.pure]

/-- C188: `sort_data` in floating point does exactly what it does in exact arithmetic on the same numbers:
distinct samples are never taken for duplicates, however close they are. -/
theorem C188_sort_data (F : FP) (argsort : List XF → List Nat) (x y : List XF) (hf : ∀ v, fin v ∈ x → IsFloat F v) :
    sortData (α := RF F) argsort x y = sortData (α := XF) argsort x y := by
  cases h : takeIdx x (argsort x) with
  | error e =>
    have g : ∀ {α : Type} [PyNum α] (argsort : List α → List Nat) (x y : List α), takeIdx x (argsort x) = .error e →
        sortData argsort x y = .error e := by
      intro α _ argsort x y h
      unfold sortData
      simp only [h, bind, Except.bind]
    exact (g (α := RF F) argsort x y h).trans (g (α := XF) argsort x y h).symm
  | ok xs =>
    refine (sortData_step (α := RF F) argsort x y xs h).trans (Eq.trans ?_ (sortData_step (α := XF) argsort x y xs h).symm)
    have e : NP.adj (fun b a => PyNum.gt (α := RF F) (F.rd (XF.sub b a)) 0) xs =
        NP.adj (fun b a : XF => PyNum.gt (b - a) 0) xs :=
      adj_congr _ _ xs fun a ha b hb => fp_diff_pos (fun v hv => hf v (hv ▸ takeIdx_mem h a ha))
        (fun v hv => hf v (hv ▸ takeIdx_mem h b hb))
    show ((takeIdx y (argsort x)).bind fun ys =>
      (maskSelect xs (true :: NP.adj (fun b a => PyNum.gt (α := RF F) (F.rd (XF.sub b a)) 0) xs)).bind fun x' =>
        (maskSelect ys (true :: NP.adj (fun b a => PyNum.gt (α := RF F) (F.rd (XF.sub b a)) 0) xs)).bind fun y' => .ok (x', y')) = _
    rw [e]

/-- C188: so the result is strictly ascending, keeps every wavelength, and pairs each with a response it was
paired with. -/
theorem C188_sorted (F : FP) (argsort : List XF → List Nat) (ha : IsArgsort argsort) (x y : List ℝ)
    (hf : ∀ v ∈ x, IsFloat F v) (hl : x.length = y.length) (hne : x ≠ []) :
    ∃ x' y' : List XF, sortData (α := RF F) argsort (finL x) (finL y) = .ok (x', y') ∧ x'.length = y'.length ∧
      x'.Pairwise (fun a b => PyNum.lt a b = true) ∧ (∀ v, v ∈ x' ↔ v ∈ finL x) ∧
      ∀ p ∈ x'.zip y', p ∈ (finL x).zip (finL y) := by
  obtain ⟨x', y', h1, h2, h3, h4, h5, h6⟩ := C25_sort_data argsort ha (finL x) (finL y) (by simp [hl]) (by simpa [finL] using hne)
  refine ⟨x', y', ?_, h2, h3, ?_, h6⟩
  · refine (C188_sort_data F argsort (finL x) (finL y) fun v hv => ?_).trans h1
    simp only [finL, List.mem_map] at hv
    obtain ⟨u, hu, e⟩ := hv
    cases e
    exact hf _ hu
  · intro v
    by_cases hv : v = XF.nan
    · subst hv
      have hnot : XF.nan ∉ finL x := by simp [finL]
      constructor
      · intro h
        obtain ⟨a, l, rfl⟩ := List.exists_cons_of_ne_nil hne
        have := h5.1 h (fin a) (by simp [finL])
        cases this
      · intro h; exact absurd h hnot
    · exact h4 v hv

example : ∃ argsort, IsArgsort argsort ∧ ∃ x' y' : List XF, sortData (α := RF F) argsort (finL [3, 1, 2, 1]) (finL [0, 1, 2, 1]) =
    .ok (x', y') ∧ x'.Pairwise (fun a b => PyNum.lt a b = true) ∧ fin 2 ∈ x' := by
  obtain ⟨argsort, ha⟩ := exists_argsort
  obtain ⟨x', y', h1, -, h3, h4, -⟩ := C188_sorted F argsort ha [3, 1, 2, 1] [0, 1, 2, 1] (by
    intro v hv
    have h := fun n (hn : n ≤ 2 ^ 53) => float_nat (F := F) n hn
    simp at hv
    rcases hv with rfl | rfl | rfl | rfl
    · exact_mod_cast h 3 (by norm_num)
    · exact_mod_cast h 1 (by norm_num)
    · exact_mod_cast h 2 (by norm_num)
    · exact_mod_cast h 1 (by norm_num)) rfl (by simp)
  exact ⟨argsort, ha, x', y', h1, h3, (h4 _).2 (by simp [finL])⟩

theorem fwhm_step {α : Type} [PyNum α] (rsp wvl : List α) :
    getFullwidthHalfmax rsp wvl =
      match (NP.whereIdx (fun r => PyNum.ge r 0.5) rsp).head?, (NP.whereIdx (fun r => PyNum.ge r 0.5) rsp).getLast? with
      | some first, some last =>
        if (NP.whereIdx (fun r => PyNum.ge r 0.5) rsp).length < 2 then .error .valueError
        else (NP.getIdx wvl last).bind fun b => (NP.getIdx wvl first).bind fun a => .ok (b - a)
      | _, _ => .error .valueError := rfl

/-- C188: the full width at half maximum in floating point is the exact one, rounded. -/
theorem C188_full_width (F : FP) (rsp wvl : List XF) :
    getFullwidthHalfmax (α := RF F) rsp wvl = (getFullwidthHalfmax (α := XF) rsp wvl).map F.rd := by
  have half : (0.5 : RF F) = fin (1 / 2) := by
    show F.rnd (OfScientific.ofScientific 5 true 1) = _
    have : (OfScientific.ofScientific 5 true 1 : ℝ) = 1 / 2 := by norm_num
    rw [this]; exact F.rnd_half
  have half' : (0.5 : XF) = fin (1 / 2) := by simp only [ofSci_eq, fin_inj]; norm_num
  refine (fwhm_step (α := RF F) rsp wvl).trans ?_
  rw [fwhm_step (α := XF), half', half]
  show (match (NP.whereIdx (fun r => leb (fin (1 / 2)) r) rsp).head?, (NP.whereIdx (fun r => leb (fin (1 / 2)) r) rsp).getLast? with
      | some first, some last =>
        if (NP.whereIdx (fun r => leb (fin (1 / 2)) r) rsp).length < 2 then .error .valueError
        else (NP.getIdx wvl last).bind fun b => (NP.getIdx wvl first).bind fun a => .ok (F.rd (XF.sub b a))
      | _, _ => .error .valueError) = Except.map F.rd
    (match (NP.whereIdx (fun r => leb (fin (1 / 2)) r) rsp).head?, (NP.whereIdx (fun r => leb (fin (1 / 2)) r) rsp).getLast? with
      | some first, some last =>
        if (NP.whereIdx (fun r => leb (fin (1 / 2)) r) rsp).length < 2 then .error .valueError
        else (NP.getIdx wvl last).bind fun b => (NP.getIdx wvl first).bind fun a => .ok (XF.sub b a)
      | _, _ => .error .valueError)
  split
  · split
    · rfl
    · cases NP.getIdx wvl _ <;> [rfl; (cases NP.getIdx wvl _ <;> rfl)]
  · rfl

/-- C188: the full width of a band whose last wavelength is at most twice its first is exact. -/
theorem C188_full_width_exact (F : FP) (rsp : List XF) (w : List ℝ) (hf : ∀ v ∈ w, IsFloat F v) (a b : ℝ) (ha : 0 < a)
    (hw : ∀ v ∈ w, a ≤ v ∧ v ≤ b) (hab : b ≤ 2 * a) :
    getFullwidthHalfmax (α := RF F) rsp (finL w) = getFullwidthHalfmax (α := XF) rsp (finL w) := by
  refine (C188_full_width F rsp (finL w)).trans ?_
  have get : ∀ i v, NP.getIdx (finL w) i = .ok v → ∃ u ∈ w, v = fin u := by
    intro i v h
    unfold NP.getIdx at h
    split at h
    · rename_i z hz
      cases h
      have := List.mem_of_getElem? hz
      simp only [finL, List.mem_map] at this
      obtain ⟨u, hu, e⟩ := this
      exact ⟨u, hu, e.symm⟩
    · cases h
  rw [fwhm_step]
  split
  · split
    · rfl
    · rename_i first last _ _ _
      cases h1 : NP.getIdx (finL w) last with
      | error e => rfl
      | ok y =>
        cases h2 : NP.getIdx (finL w) first with
        | error e => rfl
        | ok x =>
          obtain ⟨y', hy, rfl⟩ := get _ _ h1
          obtain ⟨x', hx, rfl⟩ := get _ _ h2
          show Except.ok (F.rd (fin y' - fin x')) = Except.ok (fin y' - fin x')
          rw [fin_sub]
          show Except.ok (F.rnd (y' - x')) = _
          obtain ⟨p1, p2⟩ := hw _ hy
          obtain ⟨q1, q2⟩ := hw _ hx
          rw [fp_sub_exact (hf _ hx) (hf _ hy) (by linarith) (by linarith) (by linarith)]
  · rfl

example : getFullwidthHalfmax (α := RF F) (finL [0, 0.5, 1, 0.6, 0.1]) (finL [9, 10, 11, 12, 13]) =
    getFullwidthHalfmax (α := XF) (finL [0, 0.5, 1, 0.6, 0.1]) (finL [9, 10, 11, 12, 13]) :=
  C188_full_width_exact F _ _ (by
    intro v hv
    have h := fun n (hn : n ≤ 2 ^ 53) => float_nat (F := F) n hn
    simp at hv
    rcases hv with rfl | rfl | rfl | rfl | rfl
    · exact_mod_cast h 9 (by norm_num)
    · exact_mod_cast h 10 (by norm_num)
    · exact_mod_cast h 11 (by norm_num)
    · exact_mod_cast h 12 (by norm_num)
    · exact_mod_cast h 13 (by norm_num)) 9 13 (by norm_num) (by
    intro v hv
    simp at hv
    rcases hv with rfl | rfl | rfl | rfl | rfl <;> norm_num) (by norm_num)

end Verif.Props
