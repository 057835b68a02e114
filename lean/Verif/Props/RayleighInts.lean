import Verif.Props.RayleighEndToEnd
import Verif.Props.Integers
import Verif.Model.RayleighInts
/-
Property C210: the Rayleigh correction for integer arrays.
-/
namespace Verif.Props
open XF Model PyNum Lemmas Spec

/-! ### Floats -/

section
variable {α : Type} [PyNum α]

theorem castAxes_float (n : Int) (lut : LutFile α) : lut.castAxes n .float64 = lut := by
  simp [LutFile.castAxes, asType_float]

theorem mapM_pure {β γ : Type} (f : β → Py γ) (g : β → γ) (h : ∀ x, f x = .ok (g x)) (l : List β) : l.mapM f = .ok (l.map g) :=
  mapM_ok f g l fun x _ => h x

theorem interpTyped_float (n : Int) (interp : TypedInterp3 α) (F : Interp3 α)
    (hF : ∀ a b c V p, interp .float64 a b c V p = .ok (F a b c V p)) (lut : LutFile α) (sun sat azi table : List α) :
    interpByAnglesTyped n .float64 interp lut sun sat azi table = interpByAngles F lut sun sat azi table := by
  unfold interpByAnglesTyped interpByAngles
  simp only [castAxes_float, hF]
  simp only [bind, Except.bind, pure, Except.pure]
  repeat' split
  all_goals first
    | rfl
    | skip
  all_goals exact mapM_pure _ _ (fun _ => rfl) _

/-- C210, the part that holds: when the red band (or, if there is none, the array of sun zenith angles) has floating point numbers,
the element types of the others do not matter.  What is missing: integers there (see `C210_integers_no_correction`). -/
theorem C210_floats_partial (nanInt : Int) (dsun dred : Dtype) (da : Bool) (env : Env) (h5open : Content → Option (H5File α))
    (h5lut : Content → Option (LutFile α)) (interp : TypedInterp3 α) (F : Interp3 α)
    (hF : ∀ a b c V p, interp .float64 a b c V p = .ok (F a b c V p)) (r : RayleighObj) (sun sat azi : List α)
    (band : RayleighBand α) (red : Option (List α)) (hd : (red = none ∧ dsun = .float64) ∨ (red ≠ none ∧ dred = .float64)) :
    getReflectanceTyped nanInt dsun dred da env h5open h5lut interp r sun sat azi band red =
      getReflectance da env h5open h5lut F r sun sat azi band red := by
  have hd' : (if red.isNone then dsun else dred) = .float64 := by
    rcases hd with ⟨rfl, rfl⟩ | ⟨h, rfl⟩
    · rfl
    · cases red with
      | none => exact absurd rfl h
      | some _ => rfl
  have hu : ∀ x, uncorrectedTyped nanInt .float64 da h5lut interp r.reflectance_lut_filename x sun sat azi red =
      uncorrected da h5lut F r.reflectance_lut_filename x sun sat azi red := by
    intro x
    unfold uncorrectedTyped uncorrected
    simp only [asType_float, List.map_id, interpTyped_float nanInt interp F hF]
    funext w
    rcases adjustedTable h5lut r.reflectance_lut_filename x w with ⟨e | table, w', t⟩
    · cases e <;> rfl
    · rfl
  unfold getReflectanceTyped getReflectance
  simp only [hd', hu]

end

/-! ### Integers -/

/-- What is asked of an interpolator for integers: it refuses them, or a table of zeros has the value zero everywhere. -/
def ZeroFromZeros (interp : TypedInterp3 XF) : Prop :=
  ∀ a b c V p v, (∀ x ∈ V, x = fin 0) → interp .int64 a b c V p = .ok v → v = fin 0

theorem mapM_all {β γ : Type} (f : β → Py γ) (Q : γ → Prop) (hf : ∀ x y, f x = .ok y → Q y) (l : List β) (r : List γ)
    (h : l.mapM f = .ok r) : ∀ y ∈ r, Q y := by
  induction l generalizing r with
  | nil => cases h; simp
  | cons x l ih =>
    rw [List.mapM_cons] at h
    cases hx : f x with
    | error e => rw [hx] at h; cases h
    | ok y =>
      rw [hx] at h
      cases hl : l.mapM f with
      | error e => rw [hl] at h; cases h
      | ok ys =>
        rw [hl] at h
        cases h
        intro z hz
        rcases List.mem_cons.1 hz with rfl | hz
        · exact hf x _ hx
        · exact ih ys hl z hz

theorem bcast2_from {β γ δ : Type} (f : β → γ → δ) (xs : List β) (ys : List γ) (r : List δ) (h : NP.bcast2 f xs ys = .ok r) :
    ∀ z ∈ r, ∃ x ∈ xs, ∃ y ∈ ys, z = f x y := by
  unfold NP.bcast2 at h
  split at h
  · cases h
    intro z hz
    obtain ⟨i, hi, rfl⟩ := List.getElem_of_mem hz
    rw [List.getElem_zipWith]
    exact ⟨_, List.getElem_mem _, _, List.getElem_mem _, rfl⟩
  · split at h
    · cases h
      intro z hz
      obtain ⟨y, hy, rfl⟩ := List.mem_map.1 hz
      exact ⟨_, by simp, y, hy, rfl⟩
    · cases h
      intro z hz
      obtain ⟨x, hx, rfl⟩ := List.mem_map.1 hz
      exact ⟨x, hx, _, by simp, rfl⟩
    · cases h

theorem interpTyped_zero (n : Int) (interp : TypedInterp3 XF) (hz : ZeroFromZeros interp) (lut : LutFile XF)
    (sun sat azi table res : List XF) (ht : ∀ x ∈ table, x = fin 0)
    (h : interpByAnglesTyped n .int64 interp lut sun sat azi table = .ok res) : ∀ v ∈ res, v = fin 0 := by
  unfold interpByAnglesTyped at h
  simp only [bind, Except.bind, pure, Except.pure] at h
  repeat' split at h
  all_goals first
    | cases h
    | skip
  refine mapM_all _ _ ?_ _ _ h
  intro p y hy
  split at hy
  · cases hy
  · rename_i v hv
    cases hy
    rw [hz _ _ _ _ _ _ ht hv, ofNat_two, fin_mul, zero_mul]

/-- the values of the table at a wavelength, when all values in the file are between 0 and 1 -/
theorem tableAt_unit (lut : LutFile XF) (g : List ℝ) (tables : List (List ℝ)) (N : Nat) (hg : lut.wavelengths = finL g)
    (hinc : Increasing g) (ht : lut.reflectance = tables.map finL) (hlen : tables.length = g.length) (hN : ∀ T ∈ tables, T.length = N)
    (hu : ∀ T ∈ tables, ∀ v ∈ T, 0 < v ∧ v < 1) (k : Nat) (hk : k + 1 < g.length) (x : ℝ) (hx0 : g[k] < x) (hx1 : x ≤ g[k + 1])
    (hlast : x < g[g.length - 1]) : ∃ T : List ℝ, tableAt lut (fin x) = .ok (finL T) ∧ T.length = N ∧ ∀ v ∈ T, 0 < v ∧ v < 1 := by
  obtain ⟨T, hT, hTl, hv, -⟩ := C61_linear_between_neighbours lut g tables N hg hinc ht hlen hN k hk x hx0 hx1 hlast
  refine ⟨T, hT, hTl, fun v hvm => ?_⟩
  obtain ⟨i, hi, rfl⟩ := List.getElem_of_mem hvm
  have m1 := List.getElem_mem (show k < tables.length by omega)
  have m2 := List.getElem_mem (show k + 1 < tables.length by omega)
  have l1 := hN _ m1
  have l2 := hN _ m2
  obtain ⟨v, h1, -, h3, h4⟩ := hv i _ _ (List.getElem?_eq_getElem (by omega)) (List.getElem?_eq_getElem (by omega))
  rw [List.getElem?_eq_getElem hi] at h1
  cases h1
  obtain ⟨a1, a2⟩ := hu _ m1 _ (List.getElem_mem (show i < _ by omega))
  obtain ⟨b1, b2⟩ := hu _ m2 _ (List.getElem_mem (show i < _ by omega))
  exact ⟨lt_of_lt_of_le (lt_min a1 b1) h3, lt_of_le_of_lt h4 (max_lt a2 b2)⟩

theorem asType_int_unit (n : Int) {v : ℝ} (h : 0 < v ∧ v < 1) : asType n .int64 (fin v) = fin 0 := by
  simp only [asType, trunc_fin, truncR_small (abs_lt.2 ⟨by linarith, h.2⟩)]
  rw [if_pos (by norm_num)]
  rw [ofInt_eq]; simp

/-- C210 is false for integers: for every band within the table, and reflectances between 0 and 1 in the table, an integer red band
(or without one, integer sun zenith angles) makes the correction zero at every pixel, if a result is returned at all. -/
theorem C210_integers_no_correction (nanInt : Int) (dsun dred : Dtype) (da : Bool) (env : Env)
    (h5open : Content → Option (H5File XF)) (h5lut : Content → Option (LutFile XF)) (interp : TypedInterp3 XF)
    (hz : ZeroFromZeros interp) (r : RayleighObj) (sun sat azi : List XF) (band : RayleighBand XF) (red : Option (List ℝ))
    (hd : (red = none ∧ dsun = .int64) ∨ (red ≠ none ∧ dred = .int64)) (w w' : World) (t : List World) (x : ℝ)
    (he : effectiveWavelength env h5open r band w = (.ok (fin x), w', t)) (c : Content) (lut : LutFile XF)
    (hf : w'.files r.reflectance_lut_filename = some c) (hl : h5lut c = some lut)
    (g : List ℝ) (tables : List (List ℝ)) (N : Nat) (hg : lut.wavelengths = finL g) (hinc : Increasing g)
    (ht : lut.reflectance = tables.map finL) (hlen : tables.length = g.length) (hN : ∀ T ∈ tables, T.length = N)
    (hu : ∀ T ∈ tables, ∀ v ∈ T, 0 < v ∧ v < 1) (k : Nat) (hk : k + 1 < g.length) (hx0 : g[k] < x) (hx1 : x ≤ g[k + 1])
    (hlast : x < g[g.length - 1]) (out : List XF)
    (h : (getReflectanceTyped nanInt dsun dred da env h5open h5lut interp r sun sat azi band (red.map finL) w).1 = .ok out) :
    ∀ v ∈ out, v = fin 0 := by
  obtain ⟨T, hT, -, hTu⟩ := tableAt_unit lut g tables N hg hinc ht hlen hN hu k hk x hx0 hx1 hlast
  have hd' : (if (red.map finL).isNone then dsun else dred) = .int64 := by
    rcases hd with ⟨rfl, rfl⟩ | ⟨hn, rfl⟩
    · rfl
    · cases red with
      | none => exact absurd rfl hn
      | some _ => rfl
  have hzero : ∀ v ∈ (finL T).map (asType nanInt .int64), v = fin 0 := by
    intro v hv
    obtain ⟨a, ha, rfl⟩ := List.mem_map.1 hv
    obtain ⟨b, hb, rfl⟩ := List.mem_map.1 ha
    exact asType_int_unit nanInt (hTu b hb)
  unfold getReflectanceTyped at h
  rw [eff_bind_ok he] at h
  simp only [hd'] at h
  have hU : uncorrectedTyped nanInt .int64 da h5lut interp r.reflectance_lut_filename (fin x) sun sat azi (red.map finL) w' =
      (interpByAnglesTyped nanInt .int64 interp lut sun sat azi ((finL T).map (asType nanInt .int64)), w', []) := by
    unfold uncorrectedTyped
    rw [adjusted_run hf hl, hT]
    simp only [openLut_run hf hl]
  cases hi : interpByAnglesTyped nanInt .int64 interp lut sun sat azi ((finL T).map (asType nanInt .int64)) with
  | error e =>
    rw [hi] at hU
    rw [eff_bind_error hU] at h
    cases h
  | ok res =>
    rw [hi] at hU
    rw [eff_bind_ok hU] at h
    have hres := interpTyped_zero nanInt interp hz lut sun sat azi _ res hzero hi
    have h' : finish (red.map finL) res = .ok out := h
    have hclip : PyNum.clip (fin 0) 0 100 = fin 0 := by simp only [ofNat_zero, ofNat_two, clip_fin]; norm_num
    have hrelax : ∀ a : ℝ, relaxCloudy (fin a) (fin 0) = fin 0 := by intro a; rw [relax_fade, mul_zero]
    unfold finish at h'
    cases red with
    | none =>
      cases h'
      intro v hv
      obtain ⟨y, hy, rfl⟩ := List.mem_map.1 hv
      rw [hres y hy, hclip]
    | some l =>
      simp only [Option.map_some, bind, Except.bind, pure, Except.pure] at h'
      split at h'
      · cases h'
      rename_i res' hb
      cases h'
      have : ∀ y ∈ res', y = fin 0 := by
        intro y hy
        obtain ⟨a, ha, b, hb', rfl⟩ := bcast2_from _ _ _ _ hb y hy
        obtain ⟨a', -, rfl⟩ := List.mem_map.1 ha
        rw [hres b hb', hrelax]
      intro v hv
      obtain ⟨y, hy, rfl⟩ := List.mem_map.1 hv
      rw [this y hy, hclip]

theorem positive_bound (l : List ℝ) (h : ∀ v ∈ l, 0 < v) : ∃ q, 0 < q ∧ ∀ v ∈ l, q ≤ v := by
  induction l with
  | nil => exact ⟨1, one_pos, by simp⟩
  | cons a l ih =>
    obtain ⟨q, h1, h2⟩ := ih fun v hv => h v (by simp [hv])
    refine ⟨min a q, lt_min (h a (by simp)) h1, fun v hv => ?_⟩
    rcases List.mem_cons.1 hv with rfl | hv
    · exact min_le_left _ _
    · exact (min_le_right _ _).trans (h2 v hv)

theorem grid_index {a b c i j k : Nat} (hi : i < a) (hj : j < b) (hk : k < c) : (i * b + j) * c + k < a * b * c := by
  have h1 : i * b + j + 1 ≤ a * b := by nlinarith
  nlinarith

/-- C210: for comparison, with floating point numbers the correction is above zero at every pixel where the red reflectance is
below 100 %. -/
theorem C210_floats_positive (nanInt : Int) (dsun dred : Dtype) (da : Bool) (env : Env)
    (h5open : Content → Option (H5File XF)) (h5lut : Content → Option (LutFile XF)) (interp : TypedInterp3 XF) (F : Interp3 XF)
    (hF : ∀ a b c V p, interp .float64 a b c V p = .ok (F a b c V p)) (hi : IsMultilinear F) (r : RayleighObj) (sun sat : List XF)
    (azi : List ℝ) (hl1 : sun.length = azi.length) (hl2 : azi.length = sat.length) (band : RayleighBand XF) (red : Option (List ℝ))
    (hd : (red = none ∧ dsun = .float64) ∨ (red ≠ none ∧ dred = .float64))
    (hred : ∀ l, red = some l → l.length = azi.length ∧ ∀ v ∈ l, v < 100) (w w' : World) (t : List World) (x : ℝ)
    (he : effectiveWavelength env h5open r band w = (.ok (fin x), w', t)) (c : Content) (lut : LutFile XF)
    (hf : w'.files r.reflectance_lut_filename = some c) (hl : h5lut c = some lut) (A B C : Axis) (hreg : RegularLut lut A B C)
    (g : List ℝ) (tables : List (List ℝ)) (hg : lut.wavelengths = finL g) (hinc : Increasing g)
    (ht : lut.reflectance = tables.map finL) (hlen : tables.length = g.length) (hN : ∀ T ∈ tables, T.length = A.n * B.n * C.n)
    (hu : ∀ T ∈ tables, ∀ v ∈ T, 0 < v ∧ v < 1)
    (k : Nat) (hk : k + 1 < g.length) (hx0 : g[k] < x) (hx1 : x ≤ g[k + 1]) (hlast : x < g[g.length - 1])
    (hazi : ∀ d ∈ azi, B.lo ≤ 180 - d ∧ 180 - d ≤ B.hi) :
    ∃ out, getReflectanceTyped nanInt dsun dred da env h5open h5lut interp r sun sat (finL azi) band (red.map finL) w = (.ok out, w', t) ∧
      out.length = azi.length ∧ ∀ v ∈ out, ∃ y : ℝ, 0 < y ∧ v = fin y := by
  rw [C210_floats_partial nanInt dsun dred da env h5open h5lut interp F hF r sun sat (finL azi) band _ (by
    rcases hd with ⟨rfl, h⟩ | ⟨h, h'⟩
    · exact .inl ⟨rfl, h⟩
    · cases red with
      | none => exact absurd rfl h
      | some l => exact .inr ⟨by simp, h'⟩)]
  obtain ⟨out, h1, h2, h3⟩ := C148_pixels da env h5open h5lut F hi r sun sat azi hl1 hl2 band red (fun l h => (hred l h).1) w w' t x he
    c lut hf hl A B C hreg g tables hg hinc ht hlen hN k hk hx0 hx1 hlast hazi
  refine ⟨out, h1, h2, fun v hv => ?_⟩
  obtain ⟨p, hp, rfl⟩ := List.getElem_of_mem hv
  obtain ⟨v, ⟨i, j, l, a, b, e, ⟨hi1, hj1, hl1'⟩, ha, hb, hc, -, -, -, rfl⟩, h5⟩ := h3 p _ _ _
    (List.getElem?_eq_getElem (show p < sun.length by omega)) (List.getElem?_eq_getElem (show p < sat.length by omega))
    (List.getElem?_eq_getElem (show p < azi.length by omega))
  rw [List.getElem?_eq_getElem hp] at h5
  refine ⟨_, ?_, Option.some.inj h5⟩
  have key : 0 < trilinear (cell (List.zipWith (lerp ((x - g[k]) / (g[k + 1] - g[k]))) (tables[k]'(by omega)) (tables[k + 1]'(by omega)))
      B.n C.n) i j l a b e := by
    have m1 := List.getElem_mem (show k < tables.length by omega)
    have m2 := List.getElem_mem (show k + 1 < tables.length by omega)
    have l1 := hN _ m1
    have l2 := hN _ m2
    have hw : 0 < g[k + 1] - g[k] := by linarith
    have f0 : 0 ≤ (x - g[k]) / (g[k + 1] - g[k]) := div_nonneg (by linarith) hw.le
    have f1 : (x - g[k]) / (g[k + 1] - g[k]) ≤ 1 := (div_le_one hw).2 (by linarith)
    obtain ⟨q1, p1, b1⟩ := positive_bound _ fun v hv => (hu _ m1 v hv).1
    obtain ⟨q2, p2, b2⟩ := positive_bound _ fun v hv => (hu _ m2 v hv).1
    refine lt_of_lt_of_le (lt_min p1 p2) (trilinear_ge ha hb hc fun i' j' k' hi' hj' hk' => ?_)
    have hidx := grid_index (show i + i' < A.n by omega) (show j + j' < B.n by omega) (show l + k' < C.n by omega)
    unfold cell
    rw [List.getD_eq_getElem?_getD, List.getElem?_zipWith, List.getElem?_eq_getElem (by omega), List.getElem?_eq_getElem (by omega)]
    simp only [Option.getD_some]
    exact lerp_ge f0 f1 (le_trans (min_le_left _ _) (b1 _ (List.getElem_mem _))) (le_trans (min_le_right _ _) (b2 _ (List.getElem_mem _)))
  have hfade : 0 < fade (red.bind (·[p]?)) := by
    cases red with
    | none => simp [fade]
    | some m =>
      obtain ⟨q1, q2⟩ := hred m rfl
      have hpm : p < m.length := by omega
      rw [Option.bind_some, List.getElem?_eq_getElem hpm]
      have := q2 _ (List.getElem_mem hpm)
      simp only [fade]
      split <;> linarith
  exact lt_min (lt_max_of_lt_left (by positivity)) (by norm_num)

/-- a table of small reflectances at three wavelengths, with the coordinates of `exLut` -/
noncomputable def exSmallLut : LutFile XF :=
  { exLut with reflectance := [finL [0.1, 0.1, 0.2, 0.2, 0.3, 0.3, 0.4, 0.4], finL [0.1, 0.2, 0.3, 0.4, 0.5, 0.6, 0.7, 0.8],
      finL [0.1, 0.1, 0.1, 0.1, 0.1, 0.1, 0.1, 0.1]] }

theorem exSmall_unit : ∀ T ∈ ([[0.1, 0.1, 0.2, 0.2, 0.3, 0.3, 0.4, 0.4], [0.1, 0.2, 0.3, 0.4, 0.5, 0.6, 0.7, 0.8],
    [0.1, 0.1, 0.1, 0.1, 0.1, 0.1, 0.1, 0.1]] : List (List ℝ)), ∀ v ∈ T, 0 < v ∧ v < 1 := by
  simp
  norm_num

/-- an interpolator that refuses integers -/
noncomputable def exStrictInterp : TypedInterp3 XF
  | .float64 => fun a b c V p => .ok (exInterp a b c V p)
  | .int64 => fun _ _ _ _ _ => .error .typeError

/-- one for all element types that takes the value at the first node -/
def exFirstInterp : TypedInterp3 XF := fun _ _ _ _ V _ => .ok (V.headD (fin 0))

example : ZeroFromZeros exStrictInterp := by
  intro a b c V p v _ h
  cases h

theorem exFirst_zero : ZeroFromZeros exFirstInterp := by
  intro a b c V p v hV h
  cases h
  cases V with
  | nil => rfl
  | cons x V => exact hV x (by simp)

/-- two pixels, integer red band: a result is returned, and it is zero -/
example (env : Env) (h5open : Content → Option (H5File XF)) :
    ∃ out, (getReflectanceTyped 0 .float64 .int64 true env h5open (fun _ => some exSmallLut) exFirstInterp exRayleigh
      [fin 20, fin 30] [fin 10, fin 40] (finL [30, 90]) (.wavelength (fin 0.425)) ((some [10, 60] : Option (List ℝ)).map finL)
      exLutWorld).1 = .ok out ∧ out.length = 2 ∧ ∀ v ∈ out, v = fin 0 := by
  have key : ∃ out, (getReflectanceTyped 0 .float64 .int64 true env h5open (fun _ => some exSmallLut) exFirstInterp exRayleigh
      [fin 20, fin 30] [fin 10, fin 40] (finL [30, 90]) (.wavelength (fin 0.425)) ((some [10, 60] : Option (List ℝ)).map finL)
      exLutWorld).1 = .ok out ∧ out.length = 2 := by
    obtain ⟨T, hT, -, -⟩ := tableAt_unit exSmallLut [400, 500, 600] _ 8 rfl (by simp [Increasing]; norm_num) rfl rfl (by simp)
      exSmall_unit 0 (by simp) (0.425 * 1000) (by simp; norm_num) (by simp; norm_num) (by simp; norm_num)
    have hU : uncorrectedTyped 0 .int64 true (fun _ => some exSmallLut) exFirstInterp exRayleigh.reflectance_lut_filename
        (fin (0.425 * 1000)) [fin 20, fin 30] [fin 10, fin 40] (finL [30, 90]) ((some [10, 60] : Option (List ℝ)).map finL) exLutWorld =
        (interpByAnglesTyped 0 .int64 exFirstInterp exSmallLut [fin 20, fin 30] [fin 10, fin 40] (finL [30, 90])
          ((finL T).map (asType 0 .int64)), exLutWorld, []) := by
      unfold uncorrectedTyped
      rw [adjusted_run (c := ['x']) (lut := exSmallLut) rfl rfl, hT]
      simp only [openLut_run (w := exLutWorld) (p := exRayleigh.reflectance_lut_filename) (h5lut := fun _ => some exSmallLut)
        (c := ['x']) (lut := exSmallLut) rfl rfl]
    unfold getReflectanceTyped
    rw [eff_bind_ok ((C69_nanometer env h5open exRayleigh).1 0.425 exLutWorld)]
    simp only [Option.map_some, Option.isNone_some, Bool.false_eq_true, if_false] at hU ⊢
    rw [show interpByAnglesTyped 0 .int64 exFirstInterp exSmallLut [fin 20, fin 30] [fin 10, fin 40] (finL [30, 90])
      ((finL T).map (asType 0 .int64)) = .ok _ from rfl] at hU
    rw [eff_bind_ok hU]
    exact ⟨_, rfl, rfl⟩
  obtain ⟨out, h1, h2⟩ := key
  exact ⟨out, h1, h2, C210_integers_no_correction 0 .float64 .int64 true env h5open (fun _ => some exSmallLut) exFirstInterp exFirst_zero
    exRayleigh _ _ _ (.wavelength (fin 0.425)) (some [10, 60]) (.inr ⟨by simp, rfl⟩) exLutWorld exLutWorld [] _
    ((C69_nanometer env h5open exRayleigh).1 0.425 exLutWorld) ['x'] exSmallLut rfl rfl [400, 500, 600] _ 8 rfl
    (by simp [Increasing]; norm_num) rfl rfl (by simp) exSmall_unit 0 (by simp) (by simp; norm_num) (by simp; norm_num) (by simp; norm_num) out h1⟩

/-- the same with a red band of floats: above zero -/
example (env : Env) (h5open : Content → Option (H5File XF)) :
    ∃ out, getReflectanceTyped 0 .int64 .float64 true env h5open (fun _ => some exSmallLut) exStrictInterp exRayleigh
      [fin 20, fin 30] [fin 10, fin 40] (finL [30, 90]) (.wavelength (fin 0.425)) ((some [10, 60] : Option (List ℝ)).map finL)
      exLutWorld = (.ok out, exLutWorld, []) ∧ out.length = 2 ∧ ∀ v ∈ out, ∃ y : ℝ, 0 < y ∧ v = fin y :=
  C210_floats_positive 0 .int64 .float64 true env h5open (fun _ => some exSmallLut) exStrictInterp exInterp (fun _ _ _ _ _ => rfl)
    exInterp_multilinear exRayleigh _ _ [30, 90] rfl rfl (.wavelength (fin 0.425)) (some [10, 60]) (.inr ⟨by simp, rfl⟩)
    (by rintro l h; cases h; exact ⟨rfl, by simp; norm_num⟩) exLutWorld exLutWorld [] _
    ((C69_nanometer env h5open exRayleigh).1 0.425 exLutWorld) ['x'] exSmallLut rfl rfl exSun exAzi exSat
    ⟨exLut_regular.sun, exLut_regular.azi, exLut_regular.sat, exLut_regular.sunRange, exLut_regular.satRange⟩ [400, 500, 600] _ rfl
    (by simp [Increasing]; norm_num) rfl rfl (by simp [exSun, exAzi, exSat]) exSmall_unit 0 (by simp) (by simp; norm_num)
    (by simp; norm_num) (by simp; norm_num) (by simp [exAzi]; norm_num)

end Verif.Props
