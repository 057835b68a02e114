import Verif.Model.Reader
import Verif.Model.RadTb
import Verif.Model.Nir
/-
Objects that make a reader themselves, on a file system.
-/
namespace Verif.Model
open PyNum
variable {α : Type} [PyNum α]

/-- what `RadTbConverter._get_rsr` uses of a reader (pyspectral/radiance_tb_conversion.py:116-126) -/
def Reader.sensor (r : Reader α) : Sensor α := ⟨r.rsr, r.instrument, r.unit, r.si_scale⟩

/-- models pyspectral/radiance_tb_conversion.py:74-138 with the reader made at line 116: the wave space
is checked first, then `1. / tb_resolution` computed (line 102), then the reader is made (with its update of the data), then the band is chosen -/
def converterNew (env : Env) (h5open : Content → Option (H5File α)) (platform_name instrument : String)
    (band : BandArg α) (detector : String := "det-1") (wavespace : String := WAVE_LENGTH) (tb_resolution : α := 0.1) :
    Eff (RadTb α) :=
  if wavespace ≠ WAVE_LENGTH ∧ wavespace ≠ WAVE_NUMBER then Eff.raise .attributeError
  else if eq tb_resolution 0 then Eff.raise .zeroDivision
  else do
    let reader ← readerNew env h5open (some platform_name) (some instrument) none
    Eff.lift (RadTb.new (.ok reader.sensor) platform_name instrument band detector wavespace tb_resolution)

/-- models pyspectral/near_infrared_reflectance.py:45-72 with the reader its base class makes: the wave
space is checked, then the reader is made, then the rest of the construction -/
def calculatorNew (ne : NirEnv α) (h5open : Content → Option (H5File α)) (platform_name instrument : String)
    (band : BandArg α) (detector : String := "det-1") (wavespace : String := WAVE_LENGTH) (solar_flux : Option α := none)
    (sunz_threshold : α := TERMINATOR_LIMIT) (masking_limit : Option α := some TERMINATOR_LIMIT) : Eff (Nir α) :=
  if wavespace ≠ WAVE_LENGTH ∧ wavespace ≠ WAVE_NUMBER then Eff.raise .attributeError
  else do
    let reader ← readerNew ne.env h5open (some platform_name) (some instrument) none
    Nir.new ne (.ok reader.sensor) platform_name instrument band detector wavespace solar_flux sunz_threshold masking_limit

end Verif.Model
