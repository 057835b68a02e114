import Verif.Model.Reader
import Verif.Model.Logging
/-
Model of the command line programs (bin/*.py, plot_some_band.py).  The arguments are those
`argparse` delivers.
-/
namespace Verif.Model
open PyNum
variable {α : Type} [PyNum α]

/-! ### Download programs -/

/-- models bin/download_rsr.py:27-30 and bin/download_atm_correction_luts.py:33-36 -/
def scriptLogging (verbose : Bool) (s : LogState) : LogState :=
  if verbose then loggingOn DEBUG s else loggingOff s

/-- models bin/download_rsr.py:23-35: the program after parsing (`if dest_dir:` is also false
for an empty path) -/
def downloadRsrScript (env : Env) (destination : Option String) (dry_run : Bool) : Eff Unit :=
  match destination with
  | some d => if d ≠ "" then checkAndDownloadRsr env (some d) dry_run else checkAndDownloadRsr env none dry_run
  | none => checkAndDownloadRsr env none dry_run

/-- models bin/download_atm_correction_luts.py:18-38: `none` stands for an absent
`--aerosol_types` (the default is every type) -/
def downloadLutsScript (env : Env) (aerosol_types : Option (List String)) (dry_run : Bool) : Eff Unit :=
  checkAndDownloadLuts env dry_run (some (aerosol_types.getD AEROSOL_TYPES))

/-! ### find_wavelengths_for_satpy -/

/-- models bin/find_wavelengths_for_satpy.py:44-47: what is printed (name and the three numbers,
before formatting), and whether the loop ends normally -/
def printRanges (r : Reader α) (det : String) (threshold : α) : List String → List (String × List α) × Py Unit
  | [] => ([], .ok ())
  | bname :: rest =>
    match (do let b ← rsrDictGetItem r.instrument r.rsr bname
              let d ← b.getItem det
              getWaveRange d threshold) with
    | .error e => ([], .error e)
    | .ok wvls =>
      let (out, res) := printRanges r det threshold rest
      ((bname, wvls) :: out, res)

/-- models bin/find_wavelengths_for_satpy.py:31-47 (`main`); `reader` is
`RelativeSpectralResponse(platform, sensor)`, the defaults are those of 18-28 -/
def findWavelengths (reader : Py (Reader α)) (bandname : Option String) (det : String := "det-1")
    (threshold : α := 0.15) : List (String × List α) × Py Unit :=
  match reader with
  | .error e => ([], .error e)
  | .ok r =>
    let bands := match bandname with
      | some b => if b ≠ "" then [b] else r.band_names
      | none => r.band_names
    printRanges r det threshold bands

/-! ### Plot programs -/

/-- One curve of a figure: the platform of the data, the band asked for, and the points drawn. -/
structure Curve (α : Type) where
  platform : Option String
  band : String
  points : List (α × α)

/-- `sorted(detectors)[0]` -/
def firstSorted : List String → Py String
  | [] => .error .indexError
  | k :: ks => .ok (ks.foldl (fun a b => if b < a then b else a) k)

/-- `np.ma.masked_less_equal(resp, minimum_response)` and the wavelengths with the same mask;
arrays of different length are a numpy MaskError (here a ValueError) -/
def drawn (minimum_response : α) (wvl resp : List α) : Py (List (α × α)) :=
  if wvl.length = resp.length then .ok ((wvl.zip resp).filter fun p => !(le p.2 minimum_response))
  else .error .valueError

/-- models bin/composite_rsr_plot.py:17-41 (`plot_band`) -/
def plotBand (minimum_response : α) (o : Reader α) (band_name : String) : Py (Curve α) := do
  let b ← rsrDictGetItem o.instrument o.rsr band_name
  let det ← firstSorted b.keys
  let d ← b.getItem det
  let resp ← getArr d "response"
  let wvl ← getArr d "wavelength"
  let points ← drawn minimum_response wvl resp
  return ⟨o.platform_name, band_name, points⟩

/-- What the composite plot program is asked for (bin/composite_rsr_plot.py:44-93, 103-124). -/
structure PlotArgs (α : Type) where
  platform_names : List String
  sensors : List String
  minimum_response : α
  wavel_res : α
  bandname : Option String
  wavelength : Option α
  range : α × α
  excluded : List String

/-- models bin/composite_rsr_plot.py:180-184: the bands found at one wavelength -/
def plotNew (minimum_response : α) (o : Reader α) (excluded : List String) :
    List String → List String → Py (List (Curve α) × List String)
  | prev, [] => .ok ([], prev)
  | prev, b :: bs => do
    let c ← if ¬ excluded.contains b ∧ ¬ prev.contains b then do
        let c ← plotBand minimum_response o b
        pure [c]
      else pure []
    let (more, prev) ← plotNew minimum_response o excluded (prev ++ [b]) bs
    return (c ++ more, prev)

/-- the result of `get_bandname_from_wavelength` as a list (bin/composite_rsr_plot.py:174-178) -/
def BandMatch.toList : BandMatch → List String
  | .none => []
  | .one b => [b]
  | .several l => l

/-- models bin/composite_rsr_plot.py:170-184: the scan of a wavelength range; `none` if the loop
has not ended after `fuel` rounds -/
def scanRange (a : PlotArgs α) (o : Reader α) : Nat → α → List String → Option (Py (List (Curve α)))
  | 0, _, _ => none
  | fuel + 1, wvlx, prev =>
    if lt wvlx a.range.2 then
      match o.bandnameFromWavelength wvlx a.wavel_res true with
      | .error e => some (.error e)
      | .ok bands =>
        match plotNew a.minimum_response o a.excluded prev bands.toList with
        | .error e => some (.error e)
        | .ok (cs, prev) =>
          match scanRange a o fuel (wvlx + a.wavel_res / 5.0) prev with
          | none => none
          | some (.error e) => some (.error e)
          | some (.ok more) => some (.ok (cs ++ more))
    else some (.ok [])

/-- models bin/composite_rsr_plot.py:116-124 and 154-184: the curves of one reader -/
def plotReader (a : PlotArgs α) (o : Reader α) (fuel : Nat) : Option (Py (List (Curve α))) :=
  let band := a.bandname.bind fun b => if b ≠ "" then some b else none
  let req_wvl := match band with
    | some _ => none
    | none => a.wavelength.bind fun x => if eq x 0 then none else some x
  match req_wvl, band with
  | some x, _ => some do
      let bands ← o.bandnameFromWavelength x 0.25 true
      bands.toList.mapM (plotBand a.minimum_response o)
  | none, some b => some do return [← plotBand a.minimum_response o b]
  | none, none => scanRange a o fuel a.range.1 []

/-- `sensor not in INSTRUMENTS.get(platform)`: for a table entry that is one name this asks for
a part of that name (bin/composite_rsr_plot.py:136) -/
def sensorOf (platform sensor : String) : Bool :=
  match INSTRUMENTS.get? platform with
  | none => true
  | some (.one name) => decide (sensor.toList <:+: name.toList)
  | some (.many names) => names.contains sensor

/-- exceptions caught by `except IOError` -/
def isIOError : PyErr → Bool
  | .ioError | .fileNotFound | .httpError => true
  | _ => false

/-- models bin/composite_rsr_plot.py:135-145: the loop over the sensors; the variable `rsr` is
unbound (`none`), None (`some none`) or a reader -/
def findReader (openReader : String → String → Py (Reader α)) (platform : String) :
    Option (Option (Reader α)) → List String → Py (Option (Option (Reader α)))
  | rsr, [] => .ok rsr
  | rsr, sensor :: rest =>
    if ¬ sensorOf platform sensor then findReader openReader platform rsr rest
    else match openReader platform sensor with
      | .ok o => .ok (some (some o))
      | .error e => if isIOError e then findReader openReader platform (some none) rest else .error e

/-- How the program ends: no figure, or one with these curves. -/
inductive PlotEnd (α : Type) where
  | nothing
  | figure (curves : List (Curve α))

/-- models bin/composite_rsr_plot.py:134-184: the loop over the platforms: the curves, and
whether any reader was found (`something2plot`) -/
def plotPlatforms (openReader : String → String → Py (Reader α)) (a : PlotArgs α) (fuel : Nat) :
    Option (Option (Reader α)) → List String → Option (Py (List (Curve α) × Bool))
  | _, [] => some (.ok ([], false))
  | rsr, platform :: rest =>
    match findReader openReader platform rsr a.sensors with
    | .error e => some (.error e)
    | .ok none => some (.error .nameError)
    | .ok (some none) => plotPlatforms openReader a fuel (some none) rest
    | .ok (some (some o)) =>
      match plotReader a o fuel with
      | none => none
      | some (.error e) => some (.error e)
      | some (.ok cs) =>
        match plotPlatforms openReader a fuel (some (some o)) rest with
        | none => none
        | some (.error e) => some (.error e)
        | some (.ok (more, _)) => some (.ok (cs ++ more, true))

/-- models bin/composite_rsr_plot.py:96-223: the whole program (axes and labels left out) -/
def compositePlot (openReader : String → String → Py (Reader α)) (a : PlotArgs α) (fuel : Nat) :
    Option (Py (PlotEnd α)) :=
  match plotPlatforms openReader a fuel none a.platform_names with
  | none => none
  | some (.error e) => some (.error e)
  | some (.ok (_, false)) => some (.ok .nothing)
  | some (.ok (cs, true)) => some (.ok (.figure cs))

/-- models bin/plot_rsr.py:51-67: the curves of every detector of one band -/
def plotRsr (reader : Py (Reader α)) (bandname : Option String) (wavelength : α) (minimum_response : α := 0.01) :
    Py (List (Curve α)) := do
  let o ← reader
  let band ← match bandname.bind (fun b => if b ≠ "" then some b else none) with
    | some b => pure b
    | none => match ← o.bandnameFromWavelength wavelength with
      | .one b => pure b
      | _ => .error .keyError
  let b ← rsrDictGetItem o.instrument o.rsr band
  b.keys.mapM fun det => do
    let d ← b.getItem det
    let resp ← getArr d "response"
    let wvl ← getArr d "wavelength"
    let points ← drawn minimum_response wvl resp
    return ⟨o.platform_name, band, points⟩

/-- models plot_some_band.py:11-14: the platforms and sensors plotted -/
def someBandPairs : List (String × String) :=
  [("Himawari-8", "ahi"), ("GOES-16", "abi"), ("Meteosat-10", "seviri"), ("EOS-Aqua", "modis"),
   ("Sentinel-3A", "olci"), ("Sentinel-3A", "slstr"), ("Suomi-NPP", "viirs"), ("NOAA-20", "viirs")]

/-- models plot_some_band.py:34-52: the loop; `detectors[0]` of a dictionary's keys is a
TypeError -/
def plotSomeBand (openReader : String → String → Py (Reader α)) (wavelength : α) :
    List (String × String) → Py (List (Curve α))
  | [] => .ok []
  | (platform, sensor) :: rest => do
    let o ← openReader platform sensor
    let found ← bandsNear (.str sensor) wavelength 0.1 (rsrDictGetItem o.instrument o.rsr ·) o.rsr.keys
    match ← bandMatchResult found false with
    | .none => plotSomeBand openReader wavelength rest
    | .one band => do
      let _ ← rsrDictGetItem o.instrument o.rsr band
      .error .typeError
    | .several _ => .error .typeError

end Verif.Model
