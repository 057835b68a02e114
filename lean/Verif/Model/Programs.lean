import Verif.Model.WriterSteps
import Verif.Model.TextConvert
import Verif.Model.SheetConvert
import Verif.Model.OtherConvert
/-
The programs that convert original responses: every script calls `convert2hdf5` (imported as
`tohdf5`) for its platforms one after the other.
(Simplified: the original files do not change while a program runs.)
-/
namespace Verif.Model
open PyNum
variable {α : Type} [PyNum α]

/-- the arguments of one call of `convert2hdf5` -/
structure ConvJob (α : Type) where
  ClassIn : String → String → Py (RawSensor α)
  platform : String
  names : List String
  detectors : Option (List String) := none

/-- one call of `convert2hdf5` (pyspectral/utils.py:280-297) -/
def ConvJob.run (f32 : α → α) (j : ConvJob α) : PySt (H5Files α) Unit :=
  convertSteps f32 j.ClassIn j.platform j.names 1e-6 j.detectors

/-- `for ...: tohdf5(...)`: an exception ends the program -/
def runJobs (f32 : α → α) : List (ConvJob α) → PySt (H5Files α) Unit
  | [] => pure ()
  | j :: js => do j.run f32; runJobs f32 js

/-- the calls for several platforms with the same class and bands -/
def jobsFor (C : String → String → Py (RawSensor α)) (platforms : List String) (names : List String)
    (detectors : Option (List String) := none) : List (ConvJob α) :=
  platforms.map fun p => ⟨C, p, names, detectors⟩

/-- what the programs read: the configuration and the original files of every kind -/
structure Originals (α : Type) where
  options : List (String × Conf)
  text : String → Option (List (List α))
  workbook : String → Option (List TextSheet)
  sheets : String → Option (String → Option (List (List α)))
  ncf2 : String → Option (NetCdf2 α)
  ncf : String → Option (Dict String (List α))
  frame : String → Option (Frame α)
  frames : String → Option (String → Option (Frame α))
  channels : String → Option (List (String × RawCurve α))
  parsers : Parsers α

variable (o : Originals α) (f32 : α → α)

/-- models rsr_convert_scripts/aatsr_reader.py:16 and 59-60 -/
def aatsrProgram : List (ConvJob α) :=
  jobsFor (AatsrRSR o.parsers f32 o.options o.workbook) ["Envisat"] ["ir12", "ir11", "ir37", "v16", "v870", "v659", "v555"]
/-- models rsr_convert_scripts/abi_rsr.py:62-69 -/
def abiProgram : List (ConvJob α) :=
  jobsFor (AbiRSR o.options o.text) ["GOES-16", "GOES-17", "GOES-18", "GOES-19"] (chNames 16)
/-- models rsr_convert_scripts/agri_rsr.py:108-121 -/
def agriProgram : List (ConvJob α) := jobsFor (AgriRSR o.options o.text) ["FY-4B"] AGRI_BAND_NAMES
/-- models rsr_convert_scripts/ami_reader.py:87-88 -/
def amiProgram : List (ConvJob α) := jobsFor (AmiRSR o.options o.text) ["GEO-KOMPSAT-2A"] (chNames 16)
/-- models rsr_convert_scripts/avhrr_rsr.py:66-70 -/
def avhrrProgram : List (ConvJob α) :=
  jobsFor (AvhrrRSR o.options o.text) ["Metop-C"] ["ch1", "ch2", "ch3a", "ch3b", "ch4", "ch5"]
/-- models rsr_convert_scripts/cocts_rsr.py:63-65 -/
def coctsProgram : List (ConvJob α) := jobsFor (CoctsRSR o.options o.text) ["HY-1C"] (chNames 8)
/-- models rsr_convert_scripts/epic_reader.py:100-101 -/
def epicProgram : List (ConvJob α) := jobsFor (EpicRSR o.options o.frame) ["DSCOVR"] EPIC_BAND_NAMES.keys
/-- models rsr_convert_scripts/fci_rsr.py:17 and 48-55 -/
def fciProgram : List (ConvJob α) :=
  jobsFor (FciRSR o.options o.channels) ["Meteosat-12", "MTG-I1"] (bn_fci.map Prod.snd)
/-- models rsr_convert_scripts/ghi_rsr.py:83-93 -/
def ghiProgram : List (ConvJob α) := jobsFor (GhiRSR o.options o.text) ["FY-4B"] (chNames 7)
/-- models rsr_convert_scripts/goci2_rsr.py:99-100 -/
def goci2Program : List (ConvJob α) := jobsFor (Goci2RSR o.options o.frame) ["GK-2B"] GOCI2_BAND_NAMES.keys
/-- models rsr_convert_scripts/mersi1_rsr.py:97-100 -/
def mersi1Program : List (ConvJob α) :=
  ["FY-3A", "FY-3B", "FY-3C"].map fun p => ⟨Mersi1RSR o.options o.text, p, mersi1Names p, none⟩
/-- models rsr_convert_scripts/mersi2_rsr.py:65-67 -/
def mersi2Program : List (ConvJob α) := jobsFor (Mersi2RSR o.options o.text) ["FY-3D"] (chNames 25)
/-- models rsr_convert_scripts/mersi3_rsr.py:64-66 -/
def mersi3Program : List (ConvJob α) := jobsFor (Mersi3RSR o.options o.text) ["FY-3F"] (chNames 25)
/-- models rsr_convert_scripts/mersirm_rsr.py:57-67 -/
def mersirmProgram : List (ConvJob α) := jobsFor (MersiRMRSR o.options o.text) ["FY-3G"] (chNames 8)
/-- models rsr_convert_scripts/msi_reader.py:77-80: the bands sorted -/
def msiProgram : List (ConvJob α) :=
  jobsFor (MsiRSR o.options o.frames) ["Sentinel-2A", "Sentinel-2B", "Sentinel-2C"]
    ["B01", "B02", "B03", "B04", "B05", "B06", "B07", "B08", "B09", "B10", "B11", "B12", "B8A"]
/-- models rsr_convert_scripts/msu_gs_reader.py:71-90 -/
def msugsProgram : List (ConvJob α) := jobsFor (MsugsRSR o.options o.text) ["Electro-L-N2"] (chNames 10)
/-- models rsr_convert_scripts/msu_gsa_reader.py:85-86 -/
def msugsaProgram : List (ConvJob α) :=
  jobsFor (MsugsaRSR o.options o.sheets) ["Arctica-M-N1"] MSUGSA_BAND_NAMES (some ["det-1", "det-2"])
/-- models rsr_convert_scripts/olci_rsr.py:101-103 -/
def olciProgram : List (ConvJob α) := jobsFor (OlciRSR o.options o.ncf2) ["Sentinel-3B"] OLCI_BAND_NAMES
/-- models rsr_convert_scripts/oli_tirs_reader.py:102-105: the bands of each instrument sorted -/
def oliProgram : List (ConvJob α) :=
  jobsFor (OliRSR o.options o.frames) ["Landsat-8", "Landsat-9"]
    ["B1", "B2", "B3", "B4", "B5", "B6", "B7", "B8", "B9", "B10", "B11"]
/-- models rsr_convert_scripts/slstr_rsr.py:56-58 -/
def slstrProgram : List (ConvJob α) := jobsFor (SlstrRSR o.options o.ncf) ["Sentinel-3B"] (chNames 9)
/-- models rsr_convert_scripts/slstr_rsr_txt.py:64-66 -/
def slstrTxtProgram : List (ConvJob α) :=
  jobsFor (SlstrTxtRSR o.options o.text) ["Sentinel-3A", "Sentinel-3B", "Sentinel-3C", "Sentinel-3D"] (chNames 9)
/-- models rsr_convert_scripts/virr_rsr.py:63-65 -/
def virrProgram : List (ConvJob α) :=
  VIRR_BAND_NAMES.map fun p => ⟨VirrRSR o.options o.text, p.1, p.2, none⟩

/-- the programs of rsr_convert_scripts/abi_rsr.py:62-69 and of the other scripts above -/
def convertPrograms : List (List (ConvJob α)) :=
  [aatsrProgram o f32, abiProgram o, agriProgram o, amiProgram o, avhrrProgram o, coctsProgram o, epicProgram o, fciProgram o,
   ghiProgram o, goci2Program o, mersi1Program o, mersi2Program o, mersi3Program o, mersirmProgram o, msiProgram o, msugsProgram o,
   msugsaProgram o, olciProgram o, oliProgram o, slstrProgram o, slstrTxtProgram o, virrProgram o]

end Verif.Model
