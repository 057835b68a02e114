import Verif.Model.Convert
import Verif.Model.BandNames
/-
Model of further conversion scripts (rsr_convert_scripts/): splitting the Metop-C file, tables
with gaps (EPIC, GOCI-2, old AVHRR), MSI, OLI/TIRS, METimage, FCI, and renaming MODIS files.
-/
namespace Verif.Model
open PyNum
variable {α : Type} [PyNum α]

/-! ### The Metop-C AVHRR file -/

/-- models rsr_convert_scripts/split_metop_avhrr_rsrfile.py:37: the channels in the order of the file -/
def METOP_CHANNELS : List String := ["ch1", "ch2", "ch3A", "ch3B", "ch4", "ch5"]

/-- models rsr_convert_scripts/split_metop_avhrr_rsrfile.py:38-41: the index of the next heading
(the number of lines if there is none) -/
def findHeading (lines : List String) (idx : Nat) : Nat :=
  idx + ((lines.drop idx).takeWhile fun line => !Str.startsWith line "AVHRR").length

/-- models rsr_convert_scripts/split_metop_avhrr_rsrfile.py:46-54: the samples up to the first line
that does not consist of two words; a word that is no number is a ValueError -/
def readSection (P : Parsers α) : List String → Py (List (α × α))
  | [] => .ok []
  | line :: rest =>
    match Str.words line with
    | [waven, resp] => do
      let x ← P.float waven
      let y ← P.float resp
      return (x, y) :: (← readSection P rest)
    | _ => .ok []

/-- `lines[i:-1]` -/
def fromUntilLast (lines : List String) (i : Nat) : List String := lines.dropLast.drop i

/-- models rsr_convert_scripts/split_metop_avhrr_rsrfile.py:56-60: wavelengths in micron, ascending
when the wavenumbers are -/
def metopCurve (samples : List (α × α)) : RawCurve α :=
  ⟨(samples.map fun s => 1.0 / s.1 * 10000.0).reverse, (samples.map Prod.snd).reverse⟩

/-- models rsr_convert_scripts/split_metop_avhrr_rsrfile.py:36-62: the loop over the channels.  The
state is the list of files written so far, here with the channel instead of its file name (line 24-29
gives every channel its own).  (Simplified: the rounding of the text format is left out.) -/
def splitMetop (P : Parsers α) (lines : List String) : List String → Nat → PySt (List (String × RawCurve α)) Unit
  | [], _ => pure ()
  | channel :: rest, idx => do
    let h := findHeading lines idx
    let samples ← PySt.lift (readSection P (fromUntilLast lines (h + 2)))
    PySt.modify fun out => out ++ [(channel, metopCurve samples)]
    splitMetop P lines rest (h + samples.length)

/-! ### Tables with gaps -/

/-- `np.nanmax`; ValueError when there is nothing -/
def nanmax (xs : List α) : Py α := NP.amax (xs.filter fun x => !isNaN x)

/-- models rsr_convert_scripts/goci2_rsr.py:73-84: the curve from the column of wavelengths (nm)
and the column of responses; missing entries are dropped from each column by itself.
(rsr_convert_scripts/epic_reader.py:75-85 is the same after the first row has been dropped.)
An empty column of responses is a ValueError. -/
def gappyColumns (wvl srf : List α) : Py (RawCurve α) := do
  let wvl_data := wvl.filter fun x => !isNaN x
  let srf_data := srf.filter fun x => !isNaN x
  let m ← nanmax srf_data
  return ⟨wvl_data.map (· / 1000), srf_data.map (· / m)⟩

/-- models rsr_convert_scripts/epic_reader.py:70-85; IndexError for an empty table -/
def epicColumns (wvl srf : List α) : Py (RawCurve α) :=
  match wvl with
  | [] => .error .indexError
  | _ => gappyColumns wvl.tail srf.tail

/-- models rsr_convert_scripts/convert_avhrr_old2star.py:28-42: the rows written for one channel;
`none` is a cell with a dash.  Columns of different length cannot be joined (ValueError). -/
def old2starRows (wvl resp : List (Option α)) : Py (List (α × α)) :=
  let w := wvl.filterMap id
  let r := (resp.filterMap id).map (· / 100.0)
  if w.length = r.length then .ok (w.zip r) else .error .valueError

/-! ### MSI and OLI/TIRS -/

/-- models rsr_convert_scripts/msi_reader.py:65-74: the samples no more than 2 nm outside the range
of the samples with a response above 0.00001.  (Without any such sample the limits are masked and
nothing is kept.) -/
def msiCut (wvl resp : List α) : RawCurve α :=
  let active := select (resp.map fun r => !le r 0.00001) wvl
  match NP.amin active, NP.amax active with
  | .ok lo, .ok hi =>
    let keep := wvl.map fun w => !(lt w (lo - 2) || gt w (hi + 2))
    ⟨(select keep wvl).map (· / 1000.0), select keep resp⟩
  | _, _ => ⟨[], []⟩

/-- models rsr_convert_scripts/oli_tirs_reader.py:75-99 on the two columns.  (Simplified: when exactly
one sample is kept, numpy's squeeze makes a 0-dimensional array of it.) -/
def oliCut (wvl resp : List α) : RawCurve α :=
  let m := resp.map fun r => gt r 0.002
  ⟨select m (wvl.map (· / 1000.0)), select m resp⟩

/-- models rsr_convert_scripts/oli_tirs_reader.py:28-36 -/
def OLI_BAND_NAMES : Dict String String :=
  [("B1", "CoastalAerosol"), ("B2", "Blue"), ("B3", "Green"), ("B4", "Red"), ("B5", "NIR"), ("B6", "Cirrus"),
   ("B7", "SWIR1"), ("B8", "SWIR2"), ("B9", "Pan")]
/-- models rsr_convert_scripts/oli_tirs_reader.py:38-39 -/
def TIRS_SHEETNAMES_L8 : Dict String String := [("B10", "TIRS BA RSR"), ("B11", "TIRS BA RSR")]
/-- models rsr_convert_scripts/oli_tirs_reader.py:40-41 -/
def TIRS_BAND_NAMES_L8 : Dict String String :=
  [("B10", "TIRS1 10.8um band average"), ("B11", "TIRS2 12.0um band average")]
/-- models rsr_convert_scripts/oli_tirs_reader.py:43-44 -/
def TIRS_SHEETNAMES_L9 : Dict String String := [("B10", "TIRS Band 10 BA RSR"), ("B11", "TIRS Band 11 BA RSR")]
/-- models rsr_convert_scripts/oli_tirs_reader.py:45-46 -/
def TIRS_BAND_NAMES_L9 : Dict String String :=
  [("B10", "Band 10 Band=Average RSR"), ("B11", "Band 11 Band-Average RSR")]

/-- models rsr_convert_scripts/oli_tirs_reader.py:59-64 and 75-91: which file ("oli" or "tirs"),
sheet, wavelength column and response column hold a band.  (The platform is only looked at in
`_load`, after the file has been found; here both steps are one.) -/
def oliSource (platform_name band : String) : Py (String × String × String × String) :=
  if OLI_BAND_NAMES.contains band then do
    return ("oli", ← OLI_BAND_NAMES.getItem band, "Wavelength", "BA RSR [watts]")
  else if TIRS_BAND_NAMES_L8.contains band then
    if platform_name = "Landsat-8" then do
      return ("tirs", ← TIRS_SHEETNAMES_L8.getItem band, "wavelength [um]", ← TIRS_BAND_NAMES_L8.getItem band)
    else if platform_name = "Landsat-9" then do
      return ("tirs", ← TIRS_SHEETNAMES_L9.getItem band, "wavelength [um]", ← TIRS_BAND_NAMES_L9.getItem band)
    else .error .valueError
  else .error .valueError

/-! ### METimage -/

/-- models rsr_convert_scripts/metimage_rsr.py:26: the original name of every band -/
def METIMAGE_BAND_NAMES_DICT : Dict String String := bn_vii.map fun p => (p.2, p.1)

/-- `int(s)` for a string of decimal digits; anything else is a ValueError (simplified: signs,
white space and underscores are not accepted) -/
def intOfDigits (cs : List Char) : Py Nat :=
  if cs ≠ [] ∧ ∀ c ∈ cs, '0' ≤ c ∧ c ≤ '9' then .ok (cs.foldl (fun n c => 10 * n + (c.toNat - 48)) 0)
  else .error .valueError

/-- models rsr_convert_scripts/metimage_rsr.py:30-40 (`get_groupname_from_bandname`) -/
def metimageGroup (band : String) : Py String := do
  let wv ← intOfDigits ((Str.splitL '_' band.toList).getLast?.getD [])
  return if wv > 6000 then "LVWIR" else if wv > 1000 then "SMWIR" else "VISNIR"

/-- `s.replace(old, new)`; `skip` characters belong to an occurrence already replaced -/
def replaceL (old new : List Char) : Nat → List Char → List Char
  | _, [] => []
  | skip + 1, _ :: cs => replaceL old new skip cs
  | 0, c :: cs => if old.isPrefixOf (c :: cs) then new ++ replaceL old new (old.length - 1) cs
    else c :: replaceL old new 0 cs

/-- models rsr_convert_scripts/metimage_rsr.py:57-58: the group and the variable with the responses
of a band; KeyError for an unknown band -/
def metimageSource (bandname : String) : Py (String × String) := do
  let orig ← METIMAGE_BAND_NAMES_DICT.getItem bandname
  return (← metimageGroup orig, String.ofList (replaceL "vii".toList "ISRF_cw".toList 0 orig.toList))

/-- python's own `max` of an array: the first entry no later one is greater than -/
def pyMax : List α → Py α
  | [] => .error .valueError
  | x :: xs => .ok (xs.foldl (fun m y => if gt y m then y else m) x)

/-- `np.unique` on the first components, keeping the first pair of each: one pair added -/
def insertUnique (p : α × α) : List (α × α) → List (α × α)
  | [] => [p]
  | q :: r =>
    if lt p.1 q.1 then p :: q :: r
    else if eq p.1 q.1 then q :: r
    else q :: insertUnique p r

/-- `np.unique(xs, return_index=True)` with the values taken along (no NaN among the xs) -/
def uniquePairs (l : List (α × α)) : List (α × α) := l.foldl (fun acc p => insertUnique p acc) []

/-- `np.unique(xs)`: NaN is kept once, at the end -/
def uniqueValues (xs : List α) : List α :=
  ((uniquePairs ((xs.filter fun x => !isNaN x).map fun x => (x, x))).map Prod.fst) ++
    ((xs.filter isNaN).take 1)

/-- models rsr_convert_scripts/metimage_rsr.py:70-83 (`_load`): the curve of the only detector -/
def metimageLoad (wvl resp : List α) : Py (RawCurve α) := do
  let m ← pyMax resp
  return ⟨wvl.map (· * 1.0), resp.map (· / m)⟩

/-- models rsr_convert_scripts/metimage_rsr.py:103-148: the group of one band with its only
detector det-1 -/
def metimageBand (f32 : α → α) (c : RawCurve α) : Py (H5Band α) := do
  let wvl ← withoutNaN c.wavelength c.wavelength
  let rsp ← withoutNaN c.wavelength c.response
  let u := uniquePairs (wvl.zip rsp)
  let cw ← getCentralWave (u.map Prod.fst) (u.map Prod.snd)
  return { attrs := [("number_of_detectors", .int 1)],
           datasets := [wavelengthSet f32 (uniqueValues c.wavelength)],
           dets := [("det-1", { attrs := [("central_wavelength", .num cw "")],
                                datasets := [("response", stored f32 (u.map Prod.snd) [])] })] }

/-! ### FCI -/

/-- models rsr_convert_scripts/fci_rsr.py:39-45: the table has one column per channel; the last
column with the name is taken, nothing when there is none -/
def fciLoad (channels : List (String × RawCurve α)) (bandname : String) (scale : α := 1000000.0) : Option (RawCurve α) :=
  channels.foldl (fun rsr ch =>
    if ch.1 = bandname then some ⟨ch.2.wavelength.map (· * scale), ch.2.response⟩ else rsr) none

/-! ### Renaming MODIS files -/

/-- models rsr_convert_scripts/modis_old2new_rsr.py:61-69: the attributes of the copy -/
def modisNewAttrs (satname : String) (attrs : Attrs α) : Attrs α :=
  (((attrs.erase "platform").erase "sat_number").set "sensor" (.text (.str "modis") "modis")).set
    "platform_name" (.text (.str satname) satname)

/-- models rsr_convert_scripts/modis_old2new_rsr.py:50-69: one platform; FileNotFoundError without
the old file -/
def modisRename (basedir satname : String) : PySt (Path → Option (H5File α)) Unit := do
  let fs ← PySt.get
  match fs (basedir, "rsr_modis_EOS-" ++ satname ++ ".h5") with
  | none => PySt.raise .fileNotFound
  | some f =>
    let p : Path := (basedir, "rsr_modis_" ++ satname ++ ".h5")
    PySt.modify fun fs q => if q = p then some f else fs q
    PySt.modify fun fs q => if q = p then some { f with attrs := modisNewAttrs satname f.attrs } else fs q

/-- models rsr_convert_scripts/modis_old2new_rsr.py:45-69 -/
def modisOld2new (basedir : String) : PySt (Path → Option (H5File α)) Unit :=
  PySt.forEach (modisRename basedir) ["Aqua", "Terra"]

end Verif.Model
