import Verif.Model.Rayleigh
import Verif.Model.RadTb
import Verif.Model.Testing
/-
Model of the dask evaluation of the Rayleigh correction (pyspectral/rayleigh.py:34-41, 205-242)
and of the temperature table (pyspectral/radiance_tb_conversion.py:148-151, 182-196), and of the
table of the mocked Rayleigh files (pyspectral/testing.py:561-584).

Arrays of any shape are flat lists of pixels in C order; a block of a dask array is the list of
the numbers of its pixels, so that chunks along any axes are covered.  All dask arguments have the
same chunks (dask makes them so).  The blocks are computed in any order, each in the world as it
is at that moment.
-/
namespace Verif.Model
open PyNum
variable {α β : Type} [PyNum α]

/-- the pixels of one block -/
def gather (xs : List β) (b : List Nat) : List β := b.filterMap (xs[·]?)

/-- What the scheduler does when a dask array is computed: the order in which the blocks are
evaluated, and the world in which each is. -/
structure Schedule where
  order : List Nat
  seen : Nat → World

/-- dask's evaluation of `map_blocks` (called at pyspectral/rayleigh.py:41 and
pyspectral/radiance_tb_conversion.py:190): the pixels computed, with their values -/
def runBlocks (blocks : List (List Nat)) (f : Nat → List Nat → Py (List β)) : List Nat → Py (List (Nat × β))
  | [] => .ok []
  | k :: order => match blocks[k]? with
    | none => runBlocks blocks f order
    | some b => do
      let out ← f k b
      let rest ← runBlocks blocks f order
      return b.zip out ++ rest

/-- the computed blocks put together to an array of `n` pixels -/
def assemble (n : Nat) (parts : List (Nat × β)) : Py (List β) :=
  (List.range n).mapM fun i => match parts.lookup i with
    | some v => .ok v
    | none => .error .valueError

/-- `.compute()` of a dask array of `n` pixels -/
def computeBlocks (n : Nat) (blocks : List (List Nat)) (f : Nat → List Nat → Py (List β)) (order : List Nat) :
    Py (List β) := do
  let parts ← runBlocks blocks f order
  assemble n parts

/-! ### The Rayleigh correction -/

/-- one block of the correction, pyspectral/rayleigh.py:178-203, 232-239: the coordinates are
read from the table file when the block is computed -/
def blockCorrection (h5lut : Content → Option (LutFile α)) (interp : Interp3 α) (p : Path) (table : List α)
    (sun_zenith sat_zenith azidiff : List α) (redband : Option (List α)) (w : World) (b : List Nat) : Py (List α) := do
  let lut ← (openLut h5lut p w).1
  let res ← interpByAngles interp lut (gather sun_zenith b) (gather sat_zenith b) (gather azidiff b) table
  finish (redband.map (gather · b)) res

/-- one block of zeros, pyspectral/rayleigh.py:221-222, 232-239 -/
def blockZeros (sun_zenith : List α) (redband : Option (List α)) (b : List Nat) : Py (List α) :=
  finish (redband.map (gather · b)) ((gather (redband.getD sun_zenith) b).map fun _ => 0)

/-- models pyspectral/rayleigh.py:213-241 for dask arrays with the given blocks, calling
pyspectral/rayleigh.py:34-41 (`_map_blocks_or_direct_call`): the table is read at once, the rest
is done when the result is computed -/
def lazyCorrection (h5lut : Content → Option (LutFile α)) (interp : Interp3 α) (p : Path) (blocks : List (List Nat))
    (wvl : α) (sun_zenith sat_zenith azidiff : List α) (redband : Option (List α)) :
    Eff (Schedule → Py (List α)) := fun w =>
  match adjustedTable h5lut p wvl w with
  | (.error .valueError, w', t) =>
    (.ok fun s => computeBlocks (redband.getD sun_zenith).length blocks
      (fun _ b => blockZeros sun_zenith redband b) s.order, w', t)
  | (.error e, w', t) => (.error e, w', t)
  | (.ok table, w', t) =>
    (.ok fun s => computeBlocks azidiff.length blocks
      (fun k b => blockCorrection h5lut interp p table sun_zenith sat_zenith azidiff redband (s.seen k) b) s.order, w', t)

/-- models pyspectral/rayleigh.py:205-242 (`get_reflectance`) for dask arrays with the given
blocks; what is returned is the function computing the result -/
def getReflectanceDask (env : Env) (h5open : Content → Option (H5File α)) (h5lut : Content → Option (LutFile α))
    (interp : Interp3 α) (r : RayleighObj) (blocks : List (List Nat)) (sun_zenith sat_zenith azidiff : List α)
    (band : RayleighBand α) (redband : Option (List α) := none) : Eff (Schedule → Py (List α)) := do
  let wvl ← effectiveWavelength env h5open r band
  lazyCorrection h5lut interp r.reflectance_lut_filename blocks wvl sun_zenith sat_zenith azidiff redband

/-! ### The temperature table -/

/-- models pyspectral/radiance_tb_conversion.py:148-151 (`_getitem`) and 182-196 for a dask array
of temperatures: the array of radiances when it is computed -/
def lutRadianceDask (nanCast : Int) (tb_scale : α) (lut : Lut α) (blocks : List (List Nat)) (tb : List α)
    (order : List Nat) : Py (List α) := do
  let tb0 ← NP.pyIndex lut.tb 0
  let start ← pyInt (tb0 * tb_scale)
  if start < -32768 ∨ 32767 < start then .error .overflowError
  else
    let index := tb.map fun t =>
      clipInt (NP.wrap16 (NP.castInt16 nanCast (t * tb_scale) - start)) 0 ((lut.radiance.length : Int) - 1)
    computeBlocks tb.length blocks (fun _ b => (gather index b).mapM fun i => NP.pyIndex lut.radiance i) order

/-! ### The mocked table -/

/-- models pyspectral/testing.py:561-584 (`_default_rayleigh_lut_data`) -/
def defaultRayleighLut : LutFile α where
  reflectance := (NP.linspace 0.668 0.115 81).map fun x =>
    ((List.replicate 96 x).flatMap (List.replicate 19)).flatMap (List.replicate 9)
  wavelengths := NP.linspace 400 800 81
  azimuth_difference := NP.linspace 0.0 180.0 19
  satellite_zenith_secant := NP.linspace 1.0 3.0 9
  sun_zenith_secant := NP.linspace 1.0 24.75 96

end Verif.Model
