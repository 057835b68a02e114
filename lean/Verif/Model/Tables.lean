import Verif.Base.Py
/-
Literal tables of pyspectral/utils.py, transcribed by tools/gen_tables.py
(the Python file is parsed, not executed).
-/
namespace Verif.Model

/-- A value of the INSTRUMENTS table: one instrument name or a list of names. -/
inductive Inst where
  | one (name : String)
  | many (names : List String)
  deriving DecidableEq, Repr

/-- models pyspectral/utils.py:33-91 -/
def INSTRUMENTS : Dict String Inst := [
  ("Envisat", .one "aatsr"),
  ("GOES-16", .one "abi"),
  ("GOES-17", .one "abi"),
  ("GOES-18", .one "abi"),
  ("GOES-19", .one "abi"),
  ("FY-4A", .one "agri"),
  ("FY-4B", .many ["agri", "ghi"]),
  ("Himawari-8", .one "ahi"),
  ("Himawari-9", .one "ahi"),
  ("GEO-KOMPSAT-2A", .one "ami"),
  ("GEO-KOMPSAT-2B", .one "goci-2"),
  ("NOAA-10", .one "avhrr/1"),
  ("NOAA-6", .one "avhrr/1"),
  ("NOAA-8", .one "avhrr/1"),
  ("TIROS-N", .one "avhrr/1"),
  ("NOAA-11", .one "avhrr/2"),
  ("NOAA-12", .one "avhrr/2"),
  ("NOAA-14", .one "avhrr/2"),
  ("NOAA-7", .one "avhrr/2"),
  ("NOAA-9", .one "avhrr/2"),
  ("Metop-A", .one "avhrr/3"),
  ("Metop-B", .one "avhrr/3"),
  ("Metop-C", .one "avhrr/3"),
  ("NOAA-15", .one "avhrr/3"),
  ("NOAA-16", .one "avhrr/3"),
  ("NOAA-17", .one "avhrr/3"),
  ("NOAA-18", .one "avhrr/3"),
  ("NOAA-19", .one "avhrr/3"),
  ("HY-1C", .one "cocts"),
  ("Meteosat-12", .one "fci"),
  ("MTG-I1", .one "fci"),
  ("Metop-SG-A1", .one "metimage"),
  ("EOS-Aqua", .one "modis"),
  ("EOS-Terra", .one "modis"),
  ("Aqua", .one "modis"),
  ("Terra", .one "modis"),
  ("Sentinel-2A", .one "msi"),
  ("Sentinel-2B", .one "msi"),
  ("Sentinel-2C", .one "msi"),
  ("Arctica-M-N1", .one "msu-gsa"),
  ("Electro-L-N2", .one "msu-gs"),
  ("Sentinel-3A", .many ["olci", "slstr"]),
  ("Sentinel-3B", .many ["olci", "slstr"]),
  ("Landsat-8", .one "oli_tirs"),
  ("Landsat-9", .one "oli_tirs"),
  ("Meteosat-10", .one "seviri"),
  ("Meteosat-11", .one "seviri"),
  ("Meteosat-8", .one "seviri"),
  ("Meteosat-9", .one "seviri"),
  ("NOAA-20", .one "viirs"),
  ("NOAA-21", .one "viirs"),
  ("Suomi-NPP", .one "viirs"),
  ("FY-3A", .many ["virr", "mersi-1"]),
  ("FY-3B", .many ["virr", "mersi-1"]),
  ("FY-3C", .many ["virr", "mersi-1"]),
  ("FY-3D", .one "mersi-2"),
  ("FY-3F", .one "mersi-3"),
  ("FY-3G", .one "mersi-rm"),
  ("DSCOVR", .one "epic")]

/-- models pyspectral/utils.py:94-96 -/
def INSTRUMENT_TRANSLATION_DASH2SLASH : Dict String String := [
  ("avhrr-1", "avhrr/1"),
  ("avhrr-2", "avhrr/2"),
  ("avhrr-3", "avhrr/3")]

/-- models pyspectral/utils.py:30-30 -/
def WAVE_LENGTH : String := "wavelength"

/-- models pyspectral/utils.py:31-31 -/
def WAVE_NUMBER : String := "wavenumber"

/-- models pyspectral/utils.py:98-98 -/
def HTTP_PYSPECTRAL_RSR : String := "https://zenodo.org/records/19373017/files/pyspectral_rsr_data.tgz"

/-- models pyspectral/utils.py:99-99 -/
def RSR_DATA_VERSION_FILENAME : String := "PYSPECTRAL_RSR_VERSION"

/-- models pyspectral/utils.py:100-100 -/
def RSR_DATA_VERSION : String := "v1.6.1"

/-- models pyspectral/utils.py:139-139 -/
def LUT_URL_PREFIX : String := "https://zenodo.org/record/1288441/files/pyspectral_atm_correction_luts"

/-- models pyspectral/utils.py:103-125: aerosol type ↦ (version, version file name) -/
def ATM_CORRECTION_LUT_VERSION : Dict String (String × String) := [
  ("antarctic_aerosol", ("v1.0.1", "PYSPECTRAL_ATM_CORR_LUT_AA")),
  ("continental_average_aerosol", ("v1.0.1", "PYSPECTRAL_ATM_CORR_LUT_CAA")),
  ("continental_clean_aerosol", ("v1.0.1", "PYSPECTRAL_ATM_CORR_LUT_CCA")),
  ("continental_polluted_aerosol", ("v1.0.1", "PYSPECTRAL_ATM_CORR_LUT_CPA")),
  ("desert_aerosol", ("v1.0.1", "PYSPECTRAL_ATM_CORR_LUT_DA")),
  ("marine_clean_aerosol", ("v1.0.1", "PYSPECTRAL_ATM_CORR_LUT_MCA")),
  ("marine_polluted_aerosol", ("v1.0.1", "PYSPECTRAL_ATM_CORR_LUT_MPA")),
  ("marine_tropical_aerosol", ("v1.0.1", "PYSPECTRAL_ATM_CORR_LUT_MTA")),
  ("rural_aerosol", ("v1.0.1", "PYSPECTRAL_ATM_CORR_LUT_RA")),
  ("urban_aerosol", ("v1.0.1", "PYSPECTRAL_ATM_CORR_LUT_UA")),
  ("rayleigh_only", ("v1.0.1", "PYSPECTRAL_ATM_CORR_LUT_RO"))]

/-- models pyspectral/utils.py:128-132 -/
def AEROSOL_TYPES : List String := [
  "antarctic_aerosol",
  "continental_average_aerosol",
  "continental_clean_aerosol",
  "continental_polluted_aerosol",
  "desert_aerosol",
  "marine_clean_aerosol",
  "marine_polluted_aerosol",
  "marine_tropical_aerosol",
  "rayleigh_only",
  "rural_aerosol",
  "urban_aerosol"]

/-- models pyspectral/utils.py:134-136 -/
def ATMOSPHERES : Dict String Nat := [
  ("subarctic summer", 4),
  ("subarctic winter", 5),
  ("midlatitude summer", 6),
  ("midlatitude winter", 7),
  ("tropical", 8),
  ("us-standard", 9)]

/-- models pyspectral/rsr_reader.py:31-35 -/
def OSCAR_PLATFORM_NAMES : Dict String String := [
  ("eos-2", "EOS-Aqua"),
  ("meteosat-11", "Meteosat-11"),
  ("meteosat-10", "Meteosat-10"),
  ("meteosat-9", "Meteosat-9"),
  ("meteosat-8", "Meteosat-8")]

/-- models pyspectral/utils.py:140-143: the URL of one aerosol type -/
def rayleighLutUrl (atype : String) : String :=
  let name := ((Dict.get? [("rayleigh_only", "no_aerosol")] atype).getD atype)
  LUT_URL_PREFIX ++ "_" ++ name ++ ".tgz"

/-- models pyspectral/utils.py:138-143 -/
def HTTPS_RAYLEIGH_LUTS : Dict String String := AEROSOL_TYPES.map fun a => (a, rayleighLutUrl a)

end Verif.Model
