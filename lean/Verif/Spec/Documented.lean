/-
Specification: the table of supported satellite sensors in the documentation.
-/
namespace Verif.Spec

/-- Platform, sensor and name of the response file, as documented in
doc/platforms_supported.rst:13-123 (the row for TIROS-N to NOAA-19 with its example NOAA-19). -/
def documentedFiles : List (String × String × String) := [
  ("Meteosat-8", "seviri", "rsr_seviri_Meteosat-8.h5"),
  ("Meteosat-9", "seviri", "rsr_seviri_Meteosat-9.h5"),
  ("Meteosat-10", "seviri", "rsr_seviri_Meteosat-10.h5"),
  ("Meteosat-11", "seviri", "rsr_seviri_Meteosat-11.h5"),
  ("GOES-16", "abi", "rsr_abi_GOES-16.h5"),
  ("GOES-17", "abi", "rsr_abi_GOES-17.h5"),
  ("GOES-18", "abi", "rsr_abi_GOES-18.h5"),
  ("GOES-19", "abi", "rsr_abi_GOES-19.h5"),
  ("Himawari-8", "ahi", "rsr_ahi_Himawari-8.h5"),
  ("Himawari-9", "ahi", "rsr_ahi_Himawari-9.h5"),
  ("GEO-KOMPSAT-2A", "ami", "rsr_ami_GEO-KOMPSAT-2A.h5"),
  ("FY-4A", "agri", "rsr_agri_FY-4A.h5"),
  ("Envisat", "aatsr", "rsr_aatsr_Envisat.h5"),
  ("NOAA-19", "avhrr", "rsr_avhrr3_NOAA-19.h5"),
  ("Metop-A", "avhrr/3", "rsr_avhrr3_Metop-A.h5"),
  ("Metop-B", "avhrr/3", "rsr_avhrr3_Metop-B.h5"),
  ("Metop-C", "avhrr", "rsr_avhrr3_Metop-C.h5"),
  ("EOS-Terra", "modis", "rsr_modis_EOS-Terra.h5"),
  ("EOS-Aqua", "modis", "rsr_modis_EOS-Aqua.h5"),
  ("Sentinel-3A", "slstr", "rsr_slstr_Sentinel-3A.h5"),
  ("Sentinel-3B", "slstr", "rsr_slstr_Sentinel-3B.h5"),
  ("Sentinel-3A", "olci", "rsr_olci_Sentinel-3A.h5"),
  ("Sentinel-3B", "olci", "rsr_olci_Sentinel-3B.h5"),
  ("Sentinel-2A", "msi", "rsr_msi_Sentinel-2A.h5"),
  ("Sentinel-2B", "msi", "rsr_msi_Sentinel-2B.h5"),
  ("Sentinel-2C", "msi", "rsr_msi_Sentinel-2C.h5"),
  ("NOAA-20", "viirs", "rsr_viirs_NOAA-20.h5"),
  ("Suomi-NPP", "viirs", "rsr_viirs_Suomi-NPP.h5"),
  ("Landsat-8", "oli", "rsr_oli_tirs_Landsat-8.h5"),
  ("Landsat-8", "tirs", "rsr_oli_tirs_Landsat-8.h5"),
  ("Landsat-9", "oli-2", "rsr_oli_tirs_Landsat-9.h5"),
  ("Landsat-9", "tirs-2", "rsr_oli_tirs_Landsat-9.h5"),
  ("FY-3D", "mersi-2", "rsr_mersi-2_FY-3D.h5"),
  ("HY-1C", "cocts", "rsr_cocts_HY-1C.h5"),
  ("Metop-SG-A1", "MetImage", "rsr_metimage_Metop-SG-A1.h5"),
  ("Meteosat-12", "fci", "rsr_fci_Meteosat-12.h5"),
  ("MTG-I1", "fci", "rsr_fci_MTG-I1.h5")]

end Verif.Spec
