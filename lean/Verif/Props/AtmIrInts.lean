import Verif.Props.AtmIr
import Verif.Model.AtmIrInts
/-
Property C209: the limb correction of integer temperatures.
-/
namespace Verif.Props
open Verif Verif.AtmIr Verif.Lemmas Verif.XF Verif.Model PyNum

variable {α : Type} [PyNum α]

/-! ### Dask arrays -/

omit [PyNum α] in
theorem resultType_float (d : Dtype) : resultType d .float64 = .float64 := by cases d <;> rfl
omit [PyNum α] in
theorem resultType_float' (d : Dtype) : resultType .float64 d = .float64 := by cases d <;> rfl

theorem bcast_float (n : Int) (f : α → α → α) (a b : TypedArr α) (h : resultType a.dtype b.dtype = .float64) :
    a.bcast n f b = (do return ⟨.float64, ← a.arr.bcast f b.arr⟩) := by
  unfold TypedArr.bcast
  rw [h]
  rfl

theorem whereThen_float (n : Int) (c : Arr Bool) (a b : TypedArr α) (h : resultType a.dtype b.dtype = .float64) :
    TypedArr.whereThen n c a b = (do
      let cx ← c.bcast (fun c p => (c, p)) a.arr
      return ⟨.float64, ← cx.bcast (fun c v => if c.1 then c.2 else v) b.arr⟩) := by
  unfold TypedArr.whereThen
  rw [h]
  rfl

/-- whatever the element types, the dask code computes with floats -/
theorem viewzenDask_types (n : Int) (d dz : Dtype) (a z : Arr α) :
    viewzenCorrDaskTyped n ⟨d, a⟩ ⟨dz, z⟩ = (do return ⟨.float64, ← viewzenCorrDask a z⟩) := by
  unfold viewzenCorrDaskTyped viewzenCorrDask
  rw [bcast_float _ _ _ _ (resultType_float _), bcast_float _ _ _ _ (resultType_float _)]
  simp only [TypedArr.mapFloat, bind, Except.bind, pure, Except.pure]
  cases h1 : a.bcast (· + ·) (a.map tau0) with
  | error e => rfl
  | ok r1 =>
    dsimp only
    cases h2 : (a.map tau).bcast (· * ·) (z.map delta) with
    | error e => rfl
    | ok r2 =>
      dsimp only
      rw [bcast_float _ _ _ _ (resultType_float _)]
      simp only [bind, Except.bind, pure, Except.pure]
      cases h3 : a.bcast (· + ·) r2 with
      | error e => rfl
      | ok r3 =>
        dsimp only
        rw [whereThen_float _ _ _ _ (resultType_float' _)]
        simp only [bind, Except.bind, pure, Except.pure]
        cases h4 : (z.map fun z => PyNum.gt z 0 && PyNum.lt z 90).bcast (fun c p => (c, p)) r3 with
        | error e => rfl
        | ok r4 =>
          dsimp only
          cases h5 : r4.bcast (fun c d => if c.1 then c.2 else d) a with
          | error e => rfl
          | ok r5 =>
            dsimp only
            rw [whereThen_float _ _ _ _ (resultType_float' _)]
            simp only [bind, Except.bind, pure, Except.pure]
            cases (z.map fun z => PyNum.eq z 0).bcast (fun c p => (c, p)) r1 <;> rfl

/-- C209, the part that holds: dask arrays.  Integer temperatures (K), under integer or fractional zenith angles, become floating
point numbers: each the temperature plus its documented correction.  What is missing: numpy arrays (see `C209_numpy_raises`). -/
theorem C209_dask_partial (nanInt : Int) (m n : Nat) (ts : List Int) (zs : List ℝ) (dz : Dtype) (ht : ts.length = m * n)
    (hz : zs.length = m * n) :
    viewzenCorrDaskTyped nanInt ⟨.int64, ⟨[m, n], ts.map fun t : Int => fin (t : ℝ)⟩⟩ ⟨dz, ⟨[m, n], zs.map fin⟩⟩ =
      .ok ⟨.float64, ⟨[m, n], List.zipWith (fun (t : Int) z => fin (t + limbCorrection t z)) ts zs⟩⟩ := by
  rw [viewzenDask_types, viewzenCorrDask_eq (a := ⟨[m, n], ts.map fun t : Int => fin (t : ℝ)⟩) (v := ⟨[m, n], zs.map fin⟩) rfl
    (by simp [ht, hz])]
  simp only [bind, Except.bind, pure, Except.pure, List.zipWith_map, dask_fin]

/-! ### Numpy arrays -/

/-- the steps for arrays of floats are those of `viewzen_corr` as used for C82-C86 -/
theorem viewzen_floats (r : Nat) (v : Arr (Masked α)) : viewzenCorrTyped .float64 r v = viewzenCorr r v := rfl

/-- an image of `m` times `n` numbers, masked or plain -/
def NdImage (m n : Nat) : NdArr α → Prop
  | .plain a => Image m n a
  | .masked a => Image m n a

/-- C209 is false for numpy arrays: whatever the image of integers, masked or plain, and whatever the zenith angles (even if no
pixel is to be corrected), `viewzen_corr` raises TypeError; the array is unchanged. -/
theorem C209_numpy_raises (m n : Nat) (v : Arr (Masked α)) (hv : Image m n v) (h : Heap α) (r : Nat) (hr : NdImage m n (h.cell r)) :
    viewzenCorrTyped .int64 r v h = (.error .typeError, h) := by
  have key : storeIn .int64 (nadirStep v (h.cell r)) = .error .typeError := by
    cases hc : h.cell r with
    | plain a =>
      rw [hc] at hr
      rw [nadirStep_plain hr.1 hv.1 hr.2 hv.2]
      rfl
    | masked a =>
      rw [hc] at hr
      rw [nadirStep_masked hr.1 hv.1 hr.2 hv.2]
      rfl
  unfold viewzenCorrTyped
  rw [st_bind_ok (st_get h)]
  exact st_bind_error (st_lift_error key h)

/-- C209 is false for numpy arrays through `get_correction`, too. -/
theorem C209_get_correction_raises (m n : Nat) (v : Arr (Masked α)) (hv : Image m n v) (h : Heap α) (r : Nat)
    (hr : NdImage m n (h.cell r)) : (getCorrectionTyped .int64 v r h).1 = .error .typeError := by
  unfold getCorrectionTyped
  rw [st_bind_ok (st_get h), st_bind_ok (show Heap.alloc (h.cell r) h = (.ok h.next, _) from rfl),
    C209_numpy_raises m n v hv _ _ (by simpa using hr)]

/-- integer temperatures at nadir, at 60 degrees and beyond the limb -/
example (nanInt : Int) : viewzenCorrDaskTyped nanInt ⟨.int64, ⟨[1, 3], [fin 300, fin 280, fin 250]⟩⟩
    ⟨.int64, ⟨[1, 3], [fin 0, fin 60, fin 95]⟩⟩ =
      .ok ⟨.float64, ⟨[1, 3], [fin (300 + limbCorrection 300 0), fin (280 + limbCorrection 280 60), fin 250]⟩⟩ := by
  have := C209_dask_partial nanInt 1 3 [300, 280, 250] [0, 60, 95] .int64 rfl rfl
  have h0 : limbCorrection 250 95 = 0 := by norm_num [limbCorrection]
  simpa [h0] using this

example : NdImage 2 2 (.masked (exTemps.map fun x => ⟨x, false⟩)) ∧ Image 2 2 (exAngles.map fun x => (⟨x, false⟩ : Masked XF)) :=
  ⟨⟨rfl, rfl⟩, ⟨rfl, rfl⟩⟩

end Verif.Props
