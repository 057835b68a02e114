import Verif.Base.NumPy
/-
Model of pyspectral/blackbody.py and of the `use_map_blocks_on` decorator
(pyspectral/utils.py:671-700) wrapped around its two inverse functions.
-/
namespace Verif.Model
open PyNum
variable {α : Type} [PyNum α]

/-- models pyspectral/blackbody.py:16 (H_PLANCK) -/
def H_PLANCK : α := 6.62606957 * 1e-34
/-- models pyspectral/blackbody.py:17 (K_BOLTZMANN) -/
def K_BOLTZMANN : α := 1.3806488 * 1e-23
/-- models pyspectral/blackbody.py:18 (C_SPEED) -/
def C_SPEED : α := 2.99792458 * 1e8
/-- models pyspectral/blackbody.py:20 (PLANCK_C1) -/
def PLANCK_C1 : α := H_PLANCK * C_SPEED / K_BOLTZMANN
/-- models pyspectral/blackbody.py:21 (PLANCK_C2) -/
def PLANCK_C2 : α := 2 * H_PLANCK * powNat C_SPEED 2
/-- models pyspectral/blackbody.py:23 (EPSILON) -/
def BB_EPSILON : α := 0.000001

/-- models pyspectral/blackbody.py:42: the value of `blackbody_rad2temp` for one
radiance.  (For floating point arrays lines 38-40 only choose the width; widths are not
modelled.  Integer arrays: `rad2tempInts`.) -/
def rad2tempPoint (wavelength radiance : α) : α :=
  PLANCK_C1 / (wavelength * log (PLANCK_C2 / (radiance * powNat wavelength 5) + 1.0))

/-- models pyspectral/blackbody.py:57-58: the value of `blackbody_wn_rad2temp` for one
radiance -/
def wnRad2tempPoint (wavenumber radiance : α) : α :=
  PLANCK_C1 * wavenumber / log ((PLANCK_C2 * powNat wavenumber 3) / radiance + 1.0)

/-- models pyspectral/blackbody.py:26-42 on the elements of an array (before decoration) -/
def blackbodyRad2temp (wavelength : α) (radiance : List α) : List α :=
  radiance.map (rad2tempPoint wavelength)

/-- models pyspectral/blackbody.py:45-58 on the elements of an array (before decoration) -/
def blackbodyWnRad2temp (wavenumber : α) (radiance : List α) : List α :=
  radiance.map (wnRad2tempPoint wavenumber)

/-- models pyspectral/blackbody.py:90-92: `arg2`, the reciprocal temperature or NaN -/
def planckArg2 (t : α) : α := if gt (abs t) BB_EPSILON then 1.0 / t else nan

/-- models pyspectral/blackbody.py:61-126.  `wave` and `temperature` are 1-D arrays (a
scalar is a one-element array); the result has one row per temperature.  The
`np.nanmax`/`.min()` calls of the log messages (lines 96-99, 110) raise ValueError on
empty numpy arrays, which is why empty inputs raise. -/
def planck (wave temperature : List α) (wavelength : Bool) : Py (List (List α)) :=
  let nom := wave.map fun w =>
    if wavelength then PLANCK_C2 / powNat w 5 else PLANCK_C2 * powNat w 3
  let arg1 := wave.map fun w => if wavelength then PLANCK_C1 / w else PLANCK_C1 * w
  let arg2 := temperature.map planckArg2
  if wave.isEmpty || temperature.isEmpty then .error .valueError
  else
    let exp_arg := arg2.map fun b => arg1.map fun a => a * b
    .ok (exp_arg.map fun row => List.zipWith (fun n e => n / (exp e - 1)) nom row)

/-- models pyspectral/blackbody.py:129-145 -/
def blackbody_wn (wavenumber temp : List α) : Py (List (List α)) := planck wavenumber temp false

/-- models pyspectral/blackbody.py:148-160 -/
def blackbody (wavel temp : List α) : Py (List (List α)) := planck wavel temp true

/-! ### The map-blocks decorator -/

/-- Values that can be passed to the decorated functions. -/
inductive Val (α : Type) where
  /-- a Python float (no `dtype`, no `chunks`) -/
  | pyFloat (x : α)
  /-- a numpy scalar -/
  | npScalar (x : α)
  /-- a numpy array (flattened) -/
  | nd (xs : List α)
  /-- a dask array: its blocks in order -/
  | dask (blocks : List (List α))
  /-- an xarray.DataArray: metadata (dims, coords, attrs) and numpy or dask data -/
  | xarr (metadata : String) (chunked : Bool) (blocks : List (List α))
  /-- any other object with a `chunks` attribute -/
  | chunkedDuck

/-- A call: positional arguments and keyword arguments. -/
structure Call (α : Type) where
  pos : List (Val α)
  kw : Dict String (Val α)

/-- Python's binding of a call to the parameter names of a function without defaults
(TypeError for too many, unknown, duplicate or missing arguments). -/
def bindArgs (params : List String) (c : Call α) : Py (List (Val α)) :=
  if params.length < c.pos.length then .error .typeError
  else if c.kw.any (fun p => !(params.drop c.pos.length).contains p.1) then .error .typeError
  else
    (params.drop c.pos.length).foldl
      (fun acc name => do
        let vs ← acc
        match c.kw.get? name with
        | some v => return vs ++ [v]
        | none => .error .typeError)
      (.ok c.pos)

/-- What a two-argument element-wise conversion `f wave radiance` does on values when
called undecorated: scalars and arrays element-wise; `needsDtype` marks functions that
read `radiance.dtype` (blackbody_rad2temp, pyspectral/blackbody.py:38), which a Python
float does not have (AttributeError).  dask/xarray operands keep their structure.
Only scalar waves are modelled (TypeError stands for every other wave). -/
def elementwiseCall (needsDtype : Bool) (f : α → α → α) : List (Val α) → Py (Val α)
  | [w, r] =>
    let go (w : α) : Py (Val α) :=
      match r with
      | .pyFloat x => if needsDtype then .error .attributeError else .ok (.npScalar (f w x))
      | .npScalar x => .ok (.npScalar (f w x))
      | .nd xs => .ok (.nd (xs.map (f w)))
      | .dask bs => .ok (.dask (bs.map (·.map (f w))))
      | .xarr m c bs => .ok (.xarr m c (bs.map (·.map (f w))))
      | .chunkedDuck => .error .typeError
    match w with
    | .pyFloat w => go w
    | .npScalar w => go w
    | _ => .error .typeError
  | _ => .error .typeError

/-- Evaluation of block number `i` by `da.map_blocks(f, *args)`: `f` is applied to the
block (as a numpy array, in place of argument `idx`), the result is stored at the block's
own position. -/
def mapBlocksStep (f : List (Val α) → Py (Val α)) (args : List (Val α)) (idx : Nat)
    (blocks : List (List α)) (acc : Py (List (List α))) (i : Nat) : Py (List (List α)) := do
  let out ← acc
  match blocks[i]? with
  | none => return out
  | some b =>
    match ← f (args.set idx (.nd b)) with
    | .nd ys => return out.set i ys
    | .npScalar y => return out.set i [y]
    | _ => .error .typeError

/-- `da.map_blocks(f, *args)` (dask; called at pyspectral/utils.py:690,695) where argument
`idx` is the dask array.  `order` is the order in which the scheduler evaluates the blocks
(a list of block numbers). -/
def mapBlocks (f : List (Val α) → Py (Val α)) (args : List (Val α)) (idx : Nat)
    (blocks : List (List α)) (order : List Nat) : Py (List (List α)) :=
  order.foldl (mapBlocksStep f args idx blocks) (.ok (blocks.map fun _ => []))

/-- models pyspectral/utils.py:671-700: the wrapper made by `use_map_blocks_on(argname)`
around a function with parameter names `params`.  `order` is the evaluation order of the
blocks when the result is computed. -/
def useMapBlocksOn (argname : String) (params : List String)
    (f : List (Val α) → Py (Val α)) (order : List Nat) (c : Call α) : Py (Val α) := do
  let argument_index := params.idxOf argname
  -- `array = args[argument_index]` on the tuple of positional arguments
  match c.pos[argument_index]? with
  | none => .error .indexError
  | some .chunkedDuck => .error .notImplemented
  | some array =>
    let args ← bindArgs params c
    match array with
    | .dask bs => return .dask (← mapBlocks f args argument_index bs order)
    | .xarr m true bs => return .xarr m true (← mapBlocks f args argument_index bs order)
    | _ => f args

/-- models the decorated pyspectral/blackbody.py:26-42 -/
def blackbodyRad2tempCall (order : List Nat) (c : Call α) : Py (Val α) :=
  useMapBlocksOn "radiance" ["wavelength", "radiance"] (elementwiseCall true rad2tempPoint) order c

/-- models the decorated pyspectral/blackbody.py:45-58 -/
def blackbodyWnRad2tempCall (order : List Nat) (c : Call α) : Py (Val α) :=
  useMapBlocksOn "radiance" ["wavenumber", "radiance"] (elementwiseCall false wnRad2tempPoint) order c

end Verif.Model
