import Verif.Base.Py
/-
Literal tables of pyspectral/bandnames.py, transcribed by tools/gen_tables.py
(the Python file is parsed, not executed).
-/
namespace Verif.Model

/-- models pyspectral/bandnames.py:4-46 and lines 48-49 (channel numbers 1..36): BANDNAMES['generic'] -/
def bn_generic : Dict String String := [
  ("VIS006", "VIS0.6"), ("VIS008", "VIS0.8"), ("IR_016", "NIR1.6"), ("IR_039", "IR3.9"),
  ("WV_062", "IR6.2"), ("WV_073", "IR7.3"), ("IR_087", "IR8.7"), ("IR_097", "IR9.7"),
  ("IR_108", "IR10.8"), ("IR_120", "IR12.0"), ("IR_134", "IR13.4"), ("HRV", "HRV"),
  ("I01", "I1"), ("I02", "I2"), ("I03", "I3"), ("I04", "I4"),
  ("I05", "I5"), ("M01", "M1"), ("M02", "M2"), ("M03", "M3"),
  ("M04", "M4"), ("M05", "M5"), ("M06", "M6"), ("M07", "M7"),
  ("M08", "M8"), ("M09", "M9"), ("C01", "ch1"), ("C02", "ch2"),
  ("C03", "ch3"), ("C04", "ch4"), ("C05", "ch5"), ("C06", "ch6"),
  ("C07", "ch7"), ("C08", "ch8"), ("C09", "ch9"), ("C10", "ch10"),
  ("C11", "ch11"), ("C12", "ch12"), ("C13", "ch13"), ("C14", "ch14"),
  ("C15", "ch15"), ("C16", "ch16"), ("1", "ch1"), ("2", "ch2"),
  ("3", "ch3"), ("4", "ch4"), ("5", "ch5"), ("6", "ch6"),
  ("7", "ch7"), ("8", "ch8"), ("9", "ch9"), ("10", "ch10"),
  ("11", "ch11"), ("12", "ch12"), ("13", "ch13"), ("14", "ch14"),
  ("15", "ch15"), ("16", "ch16"), ("17", "ch17"), ("18", "ch18"),
  ("19", "ch19"), ("20", "ch20"), ("21", "ch21"), ("22", "ch22"),
  ("23", "ch23"), ("24", "ch24"), ("25", "ch25"), ("26", "ch26"),
  ("27", "ch27"), ("28", "ch28"), ("29", "ch29"), ("30", "ch30"),
  ("31", "ch31"), ("32", "ch32"), ("33", "ch33"), ("34", "ch34"),
  ("35", "ch35"), ("36", "ch36")]

/-- models pyspectral/bandnames.py:52-52: BANDNAMES['modis'] -/
def bn_modis : Dict String String := [
  ("1", "1"), ("2", "2"), ("3", "3"), ("4", "4"),
  ("5", "5"), ("6", "6"), ("7", "7"), ("8", "8"),
  ("9", "9"), ("10", "10"), ("11", "11"), ("12", "12"),
  ("13", "13"), ("14", "14"), ("15", "15"), ("16", "16"),
  ("17", "17"), ("18", "18"), ("19", "19"), ("20", "20"),
  ("21", "21"), ("22", "22"), ("23", "23"), ("24", "24"),
  ("25", "25"), ("26", "26"), ("27", "27"), ("28", "28"),
  ("29", "29"), ("30", "30"), ("31", "31"), ("32", "32"),
  ("33", "33"), ("34", "34"), ("35", "35"), ("36", "36")]

/-- models pyspectral/bandnames.py:54-65: BANDNAMES['seviri'] -/
def bn_seviri : Dict String String := [
  ("VIS006", "VIS0.6"), ("VIS008", "VIS0.8"), ("IR_016", "NIR1.6"), ("IR_039", "IR3.9"),
  ("WV_062", "IR6.2"), ("WV_073", "IR7.3"), ("IR_087", "IR8.7"), ("IR_097", "IR9.7"),
  ("IR_108", "IR10.8"), ("IR_120", "IR12.0"), ("IR_134", "IR13.4"), ("HRV", "HRV")]

/-- models pyspectral/bandnames.py:67-81: BANDNAMES['viirs'] -/
def bn_viirs : Dict String String := [
  ("I01", "I1"), ("I02", "I2"), ("I03", "I3"), ("I04", "I4"),
  ("I05", "I5"), ("M01", "M1"), ("M02", "M2"), ("M03", "M3"),
  ("M04", "M4"), ("M05", "M5"), ("M06", "M6"), ("M07", "M7"),
  ("M08", "M8"), ("M09", "M9")]

/-- models pyspectral/bandnames.py:83-88: BANDNAMES['avhrr-3'] -/
def bn_avhrr3 : Dict String String := [
  ("1", "ch1"), ("2", "ch2"), ("3b", "ch3b"), ("3a", "ch3a"),
  ("4", "ch4"), ("5", "ch5")]

/-- models pyspectral/bandnames.py:90-106: BANDNAMES['abi'] -/
def bn_abi : Dict String String := [
  ("C01", "ch1"), ("C02", "ch2"), ("C03", "ch3"), ("C04", "ch4"),
  ("C05", "ch5"), ("C06", "ch6"), ("C07", "ch7"), ("C08", "ch8"),
  ("C09", "ch9"), ("C10", "ch10"), ("C11", "ch11"), ("C12", "ch12"),
  ("C13", "ch13"), ("C14", "ch14"), ("C15", "ch15"), ("C16", "ch16")]

/-- models pyspectral/bandnames.py:108-122: BANDNAMES['agri'] -/
def bn_agri : Dict String String := [
  ("C01", "ch1"), ("C02", "ch2"), ("C03", "ch3"), ("C04", "ch4"),
  ("C05", "ch5"), ("C06", "ch6"), ("C07", "ch7"), ("C08", "ch8"),
  ("C09", "ch9"), ("C10", "ch10"), ("C11", "ch11"), ("C12", "ch12"),
  ("C13", "ch13"), ("C14", "ch14")]

/-- models pyspectral/bandnames.py:124-140: BANDNAMES['ahi'] -/
def bn_ahi : Dict String String := [
  ("B01", "ch1"), ("B02", "ch2"), ("B03", "ch3"), ("B04", "ch4"),
  ("B05", "ch5"), ("B06", "ch6"), ("B07", "ch7"), ("B08", "ch8"),
  ("B09", "ch9"), ("B10", "ch10"), ("B11", "ch11"), ("B12", "ch12"),
  ("B13", "ch13"), ("B14", "ch14"), ("B15", "ch15"), ("B16", "ch16")]

/-- models pyspectral/bandnames.py:142-158: BANDNAMES['ami'] -/
def bn_ami : Dict String String := [
  ("VI004", "ch1"), ("VI005", "ch2"), ("VI006", "ch3"), ("VI008", "ch4"),
  ("NR013", "ch5"), ("NR016", "ch6"), ("SW038", "ch7"), ("WV063", "ch8"),
  ("WV069", "ch9"), ("WV073", "ch10"), ("IR087", "ch11"), ("IR096", "ch12"),
  ("IR105", "ch13"), ("IR112", "ch14"), ("IR123", "ch15"), ("IR133", "ch16")]

/-- models pyspectral/bandnames.py:160-176: BANDNAMES['fci'] -/
def bn_fci : Dict String String := [
  ("vis_04", "VIS0.4"), ("vis_05", "VIS0.5"), ("vis_06", "VIS0.6_HR"), ("vis_08", "VIS0.8"),
  ("vis_09", "VIS0.9"), ("nir_13", "NIR1.3"), ("nir_16", "NIR1.6"), ("nir_22", "NIR2.2_HR"),
  ("ir_38", "IR3.8_HR"), ("wv_63", "WV6.3"), ("wv_73", "WV7.3"), ("ir_87", "IR8.7"),
  ("ir_97", "IR9.7"), ("ir_105", "IR10.5_HR"), ("ir_123", "IR12.3"), ("ir_133", "IR13.3")]

/-- models pyspectral/bandnames.py:178-189: BANDNAMES['slstr'] -/
def bn_slstr : Dict String String := [
  ("S1", "ch1"), ("S2", "ch2"), ("S3", "ch3"), ("S4", "ch4"),
  ("S5", "ch5"), ("S6", "ch6"), ("S7", "ch7"), ("S8", "ch8"),
  ("S9", "ch9"), ("F1", "ch7"), ("F2", "ch8")]

/-- models pyspectral/bandnames.py:191-211: BANDNAMES['VII'] -/
def bn_vii : Dict String String := [
  ("vii_443", "vii-4"), ("vii_555", "vii-8"), ("vii_668", "vii-12"), ("vii_752", "vii-15"),
  ("vii_763", "vii-16"), ("vii_865", "vii-17"), ("vii_914", "vii-20"), ("vii_1240", "vii-22"),
  ("vii_1375", "vii-23"), ("vii_1630", "vii-24"), ("vii_2250", "vii-25"), ("vii_3740", "vii-26"),
  ("vii_3959", "vii-28"), ("vii_4050", "vii-30"), ("vii_6725", "vii-33"), ("vii_7325", "vii-34"),
  ("vii_8540", "vii-35"), ("vii_10690", "vii-37"), ("vii_12020", "vii-39"), ("vii_13345", "vii-40")]

/-- models pyspectral/bandnames.py:3-211: the BANDNAMES dictionary -/
def BANDNAMES : Dict String (Dict String String) := [
  ("generic", bn_generic),
  ("modis", bn_modis),
  ("seviri", bn_seviri),
  ("viirs", bn_viirs),
  ("avhrr-3", bn_avhrr3),
  ("abi", bn_abi),
  ("agri", bn_agri),
  ("ahi", bn_ahi),
  ("ami", bn_ami),
  ("fci", bn_fci),
  ("slstr", bn_slstr),
  ("VII", bn_vii)]

end Verif.Model
