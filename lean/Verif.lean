import Verif.Props.Blackbody
import Verif.Props.RadTb
import Verif.Props.Converters
import Verif.Props.Rsr
import Verif.Props.BandLookup
import Verif.Props.Curves
import Verif.Props.Names
import Verif.Props.Logging
import Verif.Props.Download
import Verif.Props.LutDownload
import Verif.Props.ReadFile
import Verif.Props.Reader
import Verif.Props.ReaderOps
import Verif.Props.Writer
import Verif.Props.Solar
import Verif.Props.Rayleigh
import Verif.Props.NirRetrieval
import Verif.Props.Nir
import Verif.Props.AtmIr
import Verif.Props.Config
import Verif.Props.Testing
import Verif.Props.TestData
import Verif.Props.LogOutput
import Verif.Props.Modis
import Verif.Props.OriginalData
import Verif.Props.SeviriData
import Verif.Base.FP
import Verif.Base.Double
import Verif.Lemmas.FP
import Verif.Lemmas.FPPlanck
import Verif.Props.FloatingPoint
import Verif.Lemmas.FPBand
import Verif.Props.FloatBand
import Verif.Props.FloatLut
import Verif.Lemmas.FPSeviri
import Verif.Props.FloatSeviri
import Verif.Props.FloatNir
import Verif.Props.FloatConstruct
import Verif.Props.Scripts
import Verif.Model.WriterSteps
import Verif.Lemmas.WriterSteps
import Verif.Props.WriterSteps
import Verif.Props.MoreConvert
import Verif.Props.Chunks
import Verif.Props.MockTable
import Verif.Props.LogExact
import Verif.Props.Exact
import Verif.Props.LutRange
import Verif.Props.TextConvert
import Verif.Props.ConvertedName
import Verif.Model.EndToEnd
import Verif.Props.EndToEnd
import Verif.Props.NirEndToEnd
import Verif.Props.RayleighEndToEnd
import Verif.Props.ViirsConvert
import Verif.Model.SheetConvert
import Verif.Props.SheetConvert
import Verif.Base.Conc
import Verif.Lemmas.Conc
import Verif.Model.Concurrent
import Verif.Props.Concurrent
import Verif.Lemmas.Shared
import Verif.Model.ConcurrentDownload
import Verif.Props.ConcurrentDownload
import Verif.Model.ConcurrentLogging
import Verif.Props.ConcurrentLogging
import Verif.Model.ConcurrentTesting
import Verif.Props.ConcurrentTesting
import Verif.Props.NirSolar
import Verif.Lemmas.Owns
import Verif.Model.ConcurrentRayleigh
import Verif.Props.ConcurrentRayleigh
import Verif.Props.Aliases
import Verif.Model.Avhrr1Convert
import Verif.Props.Avhrr1
import Verif.Model.OtherConvert
import Verif.Props.OtherConvert
import Verif.Props.FloatWave
import Verif.Props.FloatLutAccuracy
import Verif.Props.FloatNirAccuracy
import Verif.Props.FloatReflectance
import Verif.Props.SeviriSheets
import Verif.Model.Programs
import Verif.Props.Programs
import Verif.Props.OliProgram
import Verif.Props.FloatRayleigh
import Verif.Props.FloatGrid
import Verif.Props.FloatSolar
import Verif.Props.Exactly
import Verif.Props.ExactlyTwo
import Verif.Props.FloatTableReflectance
import Verif.Model.Integers
import Verif.Props.Integers
import Verif.Props.FloatAtmIr
import Verif.Props.FloatIntegral
import Verif.Props.LutFailure
import Verif.Props.NirShapes
import Verif.Props.FloatEmissive
import Verif.Props.Units
import Verif.Props.SolarConversion
import Verif.Props.RayleighKeywords
import Verif.Props.WaveSpaces
import Verif.Props.CentralWavenumber
import Verif.Props.BandRoundTrip
import Verif.Props.FloatOrder
import Verif.Props.SolarPlot
import Verif.Props.FloatFile
import Verif.Props.GivenFlux
import Verif.Spec.Documented
import Verif.Props.Documented
import Verif.Props.RayleighAnyName
import Verif.Props.FloatRange
import Verif.Props.FloatEmissiveTb
import Verif.Props.FloatBounds
import Verif.Props.FloatFileAccuracy
import Verif.Props.Defaults
import Verif.Props.OmittedArguments
import Verif.Props.SolarConstant
import Verif.Props.ProgramFiles
import Verif.Props.LandsatNumbers
import Verif.Model.MetimageConvert
import Verif.Props.MetimageProgram
import Verif.Props.ProgramsApart
import Verif.Model.ModisProgram
import Verif.Props.ModisProgram
import Verif.Model.SeviriProgram
import Verif.Props.SeviriProgram
import Verif.Model.AtmIrInts
import Verif.Props.AtmIrInts
import Verif.Model.RayleighInts
import Verif.Props.RayleighInts
import Verif.Props.AtmIrNadir
import Verif.Props.RadTbBack
import Verif.Props.SeviriNames
import Verif.Props.ConcurrentApart
import Verif.Props.NirFailures
import Verif.Check.Numbers
