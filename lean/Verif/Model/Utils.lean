import Verif.Model.Rsr
/-
Model of the remaining pure functions of pyspectral/utils.py.
-/
namespace Verif.Model
open PyNum
variable {α : Type} [PyNum α]

/-! ### Curves -/

/-- `xs[idxs]` (fancy indexing). -/
def takeIdx {β : Type} (xs : List β) (idxs : List Nat) : Py (List β) :=
  idxs.mapM fun i => match xs[i]? with
    | some v => .ok v
    | none => .error .indexError

/-- `xs[mask]` (boolean indexing; the lengths must agree). -/
def maskSelect {β : Type} (xs : List β) (mask : List Bool) : Py (List β) :=
  if xs.length = mask.length then
    .ok ((xs.zip mask).filterMap fun p => if p.2 then some p.1 else none)
  else .error .indexError

/-- models pyspectral/utils.py:260-277 (`sort_data`).  `argsort` stands for `np.argsort`
(default introsort/SIMD sort: not stable), a parameter. -/
def sortData (argsort : List α → List Nat) (x_vals y_vals : List α) :
    Py (List α × List α) := do
  let idxs := argsort x_vals
  let x ← takeIdx x_vals idxs
  let y ← takeIdx y_vals idxs
  let mask := true :: NP.adj (fun b a => gt (b - a) 0) x
  let x' ← maskSelect x mask
  let y' ← maskSelect y mask
  return (x', y')

/-- models pyspectral/utils.py:519-531 (`get_fullwidth_halfmax`) -/
def getFullwidthHalfmax (rsp wvl : List α) : Py α :=
  let indices := NP.whereIdx (fun r => ge r 0.5) rsp
  match indices.head?, indices.getLast? with
  | some first, some last =>
    if indices.length < 2 then .error .valueError
    else do
      let b ← NP.getIdx wvl last
      let a ← NP.getIdx wvl first
      return b - a
  | _, _ => .error .valueError

/-- models pyspectral/utils.py:534-550 (`get_bounds_integrated_energy`) -/
def getBoundsIntegratedEnergy (rsp wvl : List α) (ener_perc_lim : α := 1) : Py (α × α) := do
  let crs := NP.cumsum rsp
  let m ← NP.amax crs
  let crs := crs.map fun c => c / m * 100.0
  let mini_ind := NP.whereIdx (fun c => ge c ener_perc_lim) crs
  let maxi_ind := NP.whereIdx (fun c => le c (100 - ener_perc_lim)) crs
  let a ← takeIdx wvl mini_ind
  let lo ← match a.head? with
    | some v => pure v
    | none => .error .indexError
  let b ← takeIdx wvl maxi_ind
  let hi ← match b.getLast? with
    | some v => pure v
    | none => .error .indexError
  return (lo, hi)

/-- models pyspectral/utils.py:553-572 (`get_wave_range`): `[min, central, max]` -/
def getWaveRange (in_chan : DetRsr α) (threshold : α := 0.15) : Py (List α) := do
  let wvls ← getArr in_chan "wavelength"
  let rsr ← getArr in_chan "response"
  let cwl ← getCentralWave wvls rsr
  let pts := NP.whereIdx (fun r => gt r threshold) rsr
  match pts.head?, pts.getLast? with
  | some first, some last =>
    let min_wvl ← NP.getIdx wvls first
    let max_wvl ← NP.getIdx wvls last
    return [min_wvl, cwl, max_wvl]
  | _, _ => .error .indexError

/-! ### Strings -/

/-- The dtype of a numpy array as far as `np2str` distinguishes it. -/
inductive DType where
  | str_ | bytes_ | object_ | other
  deriving DecidableEq, Repr

/-- Python values passed to the string decoding functions.  A `bytes` value is represented
by its UTF-8 decoding (`none` if invalid).  `numpy.str_`/`numpy.bytes_` scalars are
instances of `str`/`bytes`. -/
inductive PyVal where
  | str (s : String)
  | bytes (decoded : Option String)
  | array (dtype : DType) (elems : List PyVal)
  | other
  deriving Repr

/-- `value.decode()`: UnicodeDecodeError is a ValueError; non-bytes have no `decode`. -/
def PyVal.decode : PyVal → Py String
  | .bytes (some s) => .ok s
  | .bytes none => .error .valueError
  | _ => .error .attributeError

/-- models pyspectral/utils.py:615-619 (`bytes2string`) -/
def bytes2string : PyVal → Py PyVal
  | .bytes (some s) => .ok (.str s)
  | .bytes none => .error .valueError
  | v => .ok v

/-- models pyspectral/utils.py:586-612 (`np2str`) -/
def np2str : PyVal → Py String
  | .str s => .ok s
  | .array dtype elems =>
    if dtype ≠ .other ∧ elems.length = 1 then
      match elems with
      | [.str s] => .ok s
      | [v] => v.decode
      | _ => .error .valueError
    else .error .valueError
  | _ => .error .valueError

/-- models pyspectral/utils.py:575-583 (`convert2str`) -/
def convert2str (v : PyVal) : Py String := do np2str (← bytes2string v)

/-! ### Instrument names -/

/-- models pyspectral/utils.py:654-668 (`are_instruments_identical`) on strings -/
def areInstrumentsIdentical (name1 name2 : String) : Bool :=
  if name1 = name2 then true
  else if some name1 = INSTRUMENT_TRANSLATION_DASH2SLASH.get? name2 then true
  else false

/-- models pyspectral/utils.py:654-668 on arbitrary values: ValueError for non-strings -/
def areInstrumentsIdenticalVal (v1 v2 : PyVal) : Py Bool :=
  match v1, v2 with
  | .str a, .str b => .ok (areInstrumentsIdentical a b)
  | _, _ => .error .valueError

/-- models pyspectral/utils.py:622-627 (`_replace_inst_name`) -/
def replaceInstName : Inst → Py String
  | .many [] => .error .indexError
  | .many (a :: _) => .ok a
  | .one a => .ok a

/-- models pyspectral/utils.py:651: lower-case and drop slashes and dashes -/
def stripInstrument (s : String) : String := Str.removeChar '-' (Str.removeChar '/' (Str.lower s))

/-- models pyspectral/utils.py:638-644: is the given (lower-cased) instrument one of the
platform's? -/
def goodInstrument (instr : Inst) (lowered : String) : Bool :=
  match instr with
  | .many l => l.any fun inst => areInstrumentsIdentical inst lowered
  | .one inst => areInstrumentsIdentical inst lowered

/-- models pyspectral/utils.py:630-651 (`check_and_adjust_instrument_name`) -/
def checkAndAdjustInstrumentName (platform_name instrument : String) : Py String := do
  let lowered := Str.lower instrument
  let instr := (INSTRUMENTS.get? platform_name).getD (.one lowered)
  let chosen ← if goodInstrument instr lowered then pure instrument else replaceInstName instr
  return stripInstrument chosen

/-- models pyspectral/rayleigh.py:264-275 (`normalize_sensor`) -/
def normalizeSensor (platform_name sensor : String) : Py String := do
  let chosen ← match (INSTRUMENTS.get? platform_name).getD (.one sensor) with
    | .many l => if l.contains sensor then pure sensor else .error .valueError
    | .one s => pure s
  return Str.removeChar '/' chosen

end Verif.Model
