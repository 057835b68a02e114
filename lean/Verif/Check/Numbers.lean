import Verif.Check.Data
import Verif.Model.Blackbody
import Verif.Model.RadTb
import Verif.Model.Utils
import Verif.Model.AtmIr
import Verif.Model.Solar
import Verif.Model.Rayleigh
import Verif.Model.Nir
/-
The model, evaluated with IEEE doubles, against the numbers expected by the test-suite of
pyspectral.  These comparisons are tests of the model (does it compute what the code
computes?), not proofs: no theorem depends on them, and the claims are the theorems in
`Verif.Props`.
-/
namespace Verif.Check
open Verif.Model Verif.AtmIr

/-- relative or absolute closeness -/
def near (a b : Float) (rtol : Float := 1e-7) (atol : Float := 0) : Bool :=
  (a - b).abs ≤ atol + rtol * b.abs

def nearAll (a b : List Float) (rtol : Float := 1e-7) (atol : Float := 0) : Bool :=
  a.length == b.length && (a.zip b).all fun p => near p.1 p.2 rtol atol

def okAnd {β : Type} (x : Py β) (p : β → Bool) : Bool := match x with
  | .ok v => p v
  | .error _ => false

def fails {β : Type} (x : Py β) (e : PyErr) : Bool := match x with
  | .ok _ => false
  | .error e' => e' = e

/-! ### tests/test_blackbody.py -/

-- lines 24-38
#guard okAnd (blackbody [11.0 * 1e-6] [300.0]) fun r => nearAll r.flatten [9573176.935507433]
#guard okAnd (blackbody [11.0 * 1e-6] [301.0]) fun r => nearAll r.flatten [9714686.576498277]
#guard okAnd (blackbody [11.0 * 1e-6] [300.0]) fun r =>
  nearAll (blackbodyRad2temp (11.0 * 1e-6) r.flatten) [300.0]
-- lines 60-83
#guard okAnd (blackbody_wn [90909.1] [300.0]) fun r => nearAll r.flatten [0.00115835441353] 1e-6
#guard okAnd (blackbody_wn [90909.1] [301.0]) fun r => nearAll r.flatten [0.00117547716523] 1e-6
#guard nearAll (blackbodyWnRad2temp 90909.1 [0.001, 0.0009, 0.0012, 0.0018])
  [290.3276916, 283.76115441, 302.4181330, 333.1414164]

/-! ### tests/test_rad_tb_conversions.py -/

def modisRsr (cw : Float) : Rsr Float :=
  [("20", [("det-1", [("wavelength", .arr modisWave), ("response", .arr modisResp),
    ("central_wavelength", .num cw)])])]

def modisSensor : Py (Sensor Float) := do
  let cw ← getCentralWave modisWave modisResp
  return ⟨modisRsr cw, .none, "1e-6 m", 1e-6⟩

def sevSensor : Py (Sensor Float) := .ok
  ⟨[("IR3.9", [("det-1", [("wavenumber", .arr sevWavn), ("response", .arr sevResp)])])], .none, "cm-1", 100.0⟩

def radiances (sensor : Py (Sensor Float)) (platform inst : String) (band : BandArg Float)
    (ws : String) (tb : List Float) (normalized : Bool := true) : Py (List Float) := do
  let c ← RadTb.new sensor platform inst band (wavespace := ws)
  let r ← c.tb2radiance 0 tb none normalized
  match r.radiance with
  | .arr xs => return xs
  | .pyFloat x => return [x]

-- lines 298-330 (MODIS band 20, by name and by wavelength)
#guard okAnd (radiances modisSensor "EOS-Aqua" "modis" (.name "20") "wavelength" testTbs)
  fun r => nearAll r trueRads 1e-5 1e-8
#guard okAnd (radiances modisSensor "EOS-Aqua" "modis" (.number 3.75) "wavelength" testTbs)
  fun r => nearAll r trueRads 1e-5 1e-8
#guard okAnd (radiances modisSensor "EOS-Aqua" "modis" (.name "20") "wavelength" [237.0, 277.0, 200.1])
  fun r => nearAll r [16570.579551068, 167544.39368663222, 865.09759706] 1e-6
#guard okAnd (radiances modisSensor "EOS-Aqua" "modis" (.name "20") "wavelength" [1.1, 11.1, 100.1])
  fun r => nearAll r [0.0, 0.0, 5.3940515573e-06] 0 1e-7
#guard okAnd (do
    let c ← RadTb.new modisSensor "EOS-Aqua" "modis" (.name "20")
    let r ← radiances modisSensor "EOS-Aqua" "modis" (.name "20") "wavelength" testTbs false
    return (c.rsr_integral, r)) fun r => nearAll r.2 (trueRads.map (· * r.1)) 1e-5 1e-8
-- the brightness temperatures come back within 0.25 K, lines 308-310
#guard okAnd (do
    let c ← RadTb.new modisSensor "EOS-Aqua" "modis" (.name "20")
    let r ← radiances modisSensor "EOS-Aqua" "modis" (.name "20") "wavelength" testTbs
    match ← c.radiance2tb [0] (.nd r) with
    | .nd xs => return xs
    | _ => return []) fun r => nearAll r testTbs 0 0.25
-- lines 228-232 (SEVIRI IR3.9 in wavenumber space)
#guard okAnd (radiances sevSensor "Meteosat-9" "seviri" (.name "IR3.9") "wavenumber" testTbs)
  fun r => nearAll r trueRadsSeviri 1e-6 1e-8
-- lines 235-274 (SEVIRI, non-linear approximation: there and back, and against the first method)
#guard okAnd (do
    let s ← SeviriConv.new (α := Float) "Meteosat-9" (.name "IR3.9")
    let r ← s.tb2radiance testTbs
    match r.radiance with
    | .arr xs => return (xs, ← s.radiance2tb xs)
    | _ => return ([], []))
  fun r => nearAll r.2 testTbs 1e-6 && nearAll r.1 trueRadsSeviri 0 1e-8

/-! ### tests/test_utils.py -/

-- lines 125-134
#guard okAnd (convert2wavenumber (modisRsr 3.75)) fun r =>
  r.2.unit == "cm-1" && okAnd (do
    let b ← r.1.getItem "20"
    let d ← b.getItem "det-1"
    return (d.contains "wavelength", ← getArr d "wavenumber"))
    fun x => x.1 == false && nearAll x.2 resultWavn 1e-5

def ch3Wave : List Float := [0.55518544, 0.56779468, 0.58099002, 0.59481323, 0.60931027, 0.62453163,
  0.64053291, 0.65737575, 0.67512828, 0.69386619, 0.71367401]
def ch3Resp : List Float := [2.61000005e-05, 1.07899999e-04, 3.26119992e-03, 2.90650606e-01,
  9.02460396e-01, 9.60878074e-01, 9.97266889e-01, 9.94823873e-01, 7.18220174e-01, 8.31819978e-03,
  9.34999989e-05]

/-- the response data of pyspectral/tests/test_utils.py:88-118 -/
def abiRsr : Rsr Float :=
  [("ch12", 9.6372744012936646), ("ch13", 10.407492196078628), ("ch10", 7.3468642293967275),
   ("ch11", 8.5926867614178715), ("ch16", 13.280724258676756), ("ch14", 11.239642285822033),
   ("ch15", 12.380741429961382), ("ch1", 0.47063607733748003), ("ch2", 0.5099976405799187),
   ("ch3", 0.63914891611559055), ("ch4", 0.85668832355426627), ("ch5", 1.6100814361999056),
   ("ch6", 2.2568056299864101), ("ch7", 3.8853663735353847), ("ch8", 6.2428987228916233),
   ("ch9", 6.9411756334211789)].map fun p =>
    (p.1, [("det-1", ("central_wavelength", .num p.2) ::
      (if p.1 == "ch3" then [("wavelength", .arr ch3Wave), ("response", .arr ch3Resp)] else []))])

def foundOne (x : Py BandMatch) (s : String) : Bool := okAnd x fun
  | .one b => b == s
  | _ => false

def foundMany (x : Py BandMatch) (l : List String) : Bool := okAnd x fun
  | .several b => b == l
  | _ => false

def foundNone (x : Py BandMatch) : Bool := okAnd x fun
  | .none => true
  | _ => false

-- lines 158-186
#guard foundOne (getBandnameFromWavelength (.str "abi") 0.4 abiRsr) "ch1"
#guard fails (getBandnameFromWavelength (.str "abi") 0.5 abiRsr) .attributeError
#guard foundOne (getBandnameFromWavelength (.str "abi") 0.6 abiRsr (epsilon := 0.05)) "ch3"
#guard foundOne (getBandnameFromWavelength (.str "abi") 0.7 abiRsr) "ch3"
#guard foundOne (getBandnameFromWavelength (.str "abi") 0.8 abiRsr) "ch4"
#guard foundNone (getBandnameFromWavelength (.str "abi") 1.0 abiRsr)
#guard foundMany (getBandnameFromWavelength (.str "abi") 11.1 abiRsr (epsilon := 1.0) (multiple_bands := true))
  ["ch13", "ch14"]
#guard foundOne (getBandnameFromWavelength (.str "ufo") 3.7 (modisRsr 3.75)) "ch20"
#guard foundNone (getBandnameFromWavelength (.str "ufo") 3.0 (modisRsr 3.75))

/-- a stable `np.argsort` -/
def argsortF (xs : List Float) : List Nat :=
  ((xs.zipIdx).mergeSort fun a b => a.1 ≤ b.1).map Prod.snd

-- lines 189-202
#guard okAnd (sortData argsortF [1.0, 5.6, 30.0, 2.1, 108.2, 57.8, 1e9, 2.1]
    [45.0, 92.0, 20.0, 10.0, 15.0, 67.0, 108.0, 15.0]) fun r =>
  r.1 == [1.0, 2.1, 5.6, 30.0, 57.8, 108.2, 1e9] && r.2 == [45.0, 10.0, 92.0, 20.0, 67.0, 15.0, 108.0]

def ch3 : DetRsr Float := [("wavelength", .arr ch3Wave), ("response", .arr ch3Resp)]

-- lines 204-212
#guard okAnd (getWaveRange ch3 0.15) fun r => nearAll r [0.59481323, 0.6393011276027835, 0.67512828]
#guard okAnd (getWaveRange ch3 0.5) fun r => nearAll r [0.60931027, 0.6393011276027835, 0.67512828]
-- lines 215-240; the test passes the wavelengths as response and the response as wavelengths
#guard okAnd (getFullwidthHalfmax ch3Wave ch3Resp) fun r => near r 6.73999984e-05
#guard okAnd (getBoundsIntegratedEnergy ch3Wave ch3Resp 1) fun r =>
  nearAll [r.1, r.2] [2.61000005e-05, 0.00831819978]
#guard okAnd (getBoundsIntegratedEnergy ch3Wave ch3Resp 10) fun r =>
  nearAll [r.1, r.2] [0.000107899999, 0.00831819978]

/-! ### tests/test_atm_correction_ir.py (lines 105-115, lazy and plain arrays) -/

#guard okAnd (getCorrectionDask ⟨[10, 10], satz⟩ ⟨[10, 10], atmTbs⟩) fun r => nearAll r.data atmRes 0 1.5e-7
#guard
  let m : Arr (Masked Float) := ⟨[10, 10], atmTbs.map fun t => ⟨t, false⟩⟩
  let h : Heap Float := ⟨fun _ => .masked m, 1⟩
  let r := getCorrection ⟨[10, 10], satz.map fun z => ⟨z, false⟩⟩ 0 h
  okAnd r.1 fun ref => match r.2.cell ref with
    | .masked a => nearAll (a.data.map (·.val)) atmRes 0 1.5e-7
    | .plain a => nearAll a.data atmRes 0 1.5e-7

/-! ### tests/test_rayleigh.py -/

/-- position of a coordinate in a regular grid of `n` nodes: cell and fraction -/
def cell (lo hi : Float) (n : Nat) (x : Float) : Nat × Float :=
  let s := (x - lo) / (hi - lo) * (n - 1).toFloat
  let k := min (if s < 0 then 0 else s.floor.toUInt64.toNat) (n - 2)
  (k, s - k.toFloat)

/-- trilinear interpolation on a regular grid -/
def trilinear : Interp3 Float := fun lo hi n values p =>
  let (i, a) := cell lo.1 hi.1 n.1 p.1
  let (j, b) := cell lo.2.1 hi.2.1 n.2.1 p.2.1
  let (k, c) := cell lo.2.2 hi.2.2 n.2.2 p.2.2
  let arr := values.toArray
  let v := fun di dj dk => arr[((i + di) * n.2.1 + (j + dj)) * n.2.2 + (k + dk)]!
  let w := fun (t : Float) (d : Nat) => if d == 0 then 1 - t else t
  ([0, 1].flatMap fun di => [0, 1].flatMap fun dj => [0, 1].map fun dk =>
    w a di * w b dj * w c dk * v di dj dk).foldl (· + ·) 0

def rayLutFile : LutFile Float :=
  ⟨[rayLut.take 336, rayLut.drop 336], rayWvl, rayAzid, raySatz, raySunz⟩

#guard rayLut.length == 672

def rayTest (wvl : Float) (sunz satz azi red : List Float) : Py (List Float) := do
  let t ← tableAt rayLutFile wvl
  let r ← interpByAngles trilinear rayLutFile sunz satz azi t
  finish (some red) r

/-- wavelength of `ch3` (in nm), weighted as in pyspectral/rayleigh.py:288-291 -/
def ch3Nm : Py Float := do
  let c ← getCentralWave ch3Wave ch3Resp (ch3Wave.map fun w => 1.0 / PyNum.powNat w 4)
  return c * 1000.0

-- lines 26-27 and 311-316
#guard nearAll ([79.0, 69.0, 32.0, 0.0 / 0.0].map (clipAngle 2.75)) [68.67631374, 68.67631374, 32.0, 0.0]
-- lines 318-331
#guard ([70.0, 65.0, 60.0].map fun z => reduceHighzenith 70.0 90.0 1 z 50) == [50.0, 50.0, 50.0]
#guard nearAll ([70.0, 65.0, 60.0].map fun z => reduceHighzenith 30.0 90.0 1 z 50)
  [16.66666667, 20.83333333, 25.0]
#guard nearAll ([70.0, 65.0, 60.0].map fun z => reduceHighzenith 30.0 90.0 1.5 z 50) [0.0, 6.25, 12.5]
-- lines 160-190 and 380-405
#guard okAnd (do rayTest (← ch3Nm) [67.0, 32.0] [45.0, 18.0] [150.0, 110.0] [14.0, 5.0])
  fun r => nearAll r [10.339923, 8.64748] 1e-6 4e-6
#guard okAnd (do rayTest (← ch3Nm) [60.0, 20.0] [49.0, 26.0] [140.0, 130.0] [12.0, 8.0])
  fun r => nearAll r [9.653559, 8.464997] 1e-6 4e-6
#guard okAnd (do rayTest (← ch3Nm) [60.0, 20.0] [49.0, 26.0] [140.0, 130.0] [12.0, 0.0 / 0.0])
  fun r => nearAll (r.take 1) [9.653559] 1e-6 4e-6 && (r.drop 1).all Float.isNaN
#guard okAnd (do rayTest (← ch3Nm) [67.0, 32.0] [45.0, 18.0] [150.0, 110.0] [100.0, 20.0])
  fun r => nearAll r [0.0, 8.64748] 1e-6 4e-6
#guard okAnd (do rayTest (← ch3Nm) [67.0, 32.0] [45.0, 18.0] [150.0, 110.0] [108.0, -0.5])
  fun r => nearAll r [0.0, 8.64748] 1e-6 4e-6
-- a wavelength instead of a band, lines 421-437 and 439-455
#guard okAnd (rayTest 634.0 [50.0, 10.0] [39.0, 16.0] [170.0, 110.0] [29.0, 12.0])
  fun r => nearAll r [5.488729, 8.533125] 1e-6
#guard fails (tableAt rayLutFile 1200.0) .valueError

/-! ### tests/test_solarflux.py -/

/-- second derivatives of the cubic spline through the points with not-a-knot ends, as
scipy's `InterpolatedUnivariateSpline` of degree 3 -/
def splineM (x y : Array Float) : Array Float := Id.run do
  let n := x.size
  let h : Nat → Float := fun i => x[i + 1]! - x[i]!
  let mut d := Array.replicate n 0.0
  let mut u := Array.replicate n 0.0
  let mut r := Array.replicate n 0.0
  for i in [1:n - 1] do
    let hl := h (i - 1)
    let hr := h i
    let mut lo : Float := hl
    let mut di : Float := 2.0 * (hl + hr)
    let mut up := hr
    let rhs := 6 * ((y[i + 1]! - y[i]!) / hr - (y[i]! - y[i - 1]!) / hl)
    if i == 1 then
      di := di + hl * (1.0 + hl / hr)
      up := up - hl * hl / hr
      lo := 0
    if i == n - 2 then
      di := di + hr * (1.0 + hr / hl)
      lo := lo - hr * hr / hl
      up := 0
    let w := if i == 1 then 0 else lo / d[i - 1]!
    d := d.set! i (di - w * u[i - 1]!)
    u := u.set! i up
    r := r.set! i (rhs - w * r[i - 1]!)
  let mut m := Array.replicate n 0.0
  for k in [1:n - 1] do
    let i := n - 1 - k
    m := m.set! i ((r[i]! - u[i]! * m[i + 1]!) / d[i]!)
  let h0 := h 0
  let h1 := h 1
  m := m.set! 0 (m[1]! * (1.0 + h0 / h1) - m[2]! * (h0 / h1))
  let a := h (n - 2)
  let b := h (n - 3)
  m := m.set! (n - 1) (m[n - 2]! * (1.0 + a / b) - m[n - 3]! * (a / b))
  return m

def splineAt (x y m : Array Float) (t : Float) : Float := Id.run do
  let n := x.size
  let mut lo := 0
  let mut hi := n - 1
  for _ in [0:64] do
    if hi - lo > 1 then
      let mid := (lo + hi) / 2
      if x[mid]! ≤ t then lo := mid else hi := mid
  let h := x[lo + 1]! - x[lo]!
  let a := (x[lo + 1]! - t) / h
  let b := (t - x[lo]!) / h
  return a * y[lo]! + b * y[lo + 1]! +
    ((a * a * a - a) * m[lo]! + (b * b * b - b) * m[lo + 1]!) * h * h / 6

def splineF : Spline Float := fun x y =>
  let xa := x.toArray
  let ya := y.toArray
  let m := splineM xa ya
  .ok (splineAt xa ya m)

def solarSpectrum (dlambda : Float) : Py (Solar Float) :=
  solarNew (.ok (solarWave, solarIrr)) none (some dlambda)

def solarFluxOf (dlambda : Float) : Py Float := do
  let s ← solarSpectrum dlambda
  (Solar.inbandSolarflux splineF (.dets [("det-1", [("wavelength", .arr modisWave), ("response", .arr modisResp)])])
    1.0 1 s).1

-- lines 53-57
#guard solarWave.length == 1697 && solarIrr.length == 1697
-- lines 59-64 (assertAlmostEqual: seven places)
#guard okAnd (solarFluxOf 0.005) fun f => near f 2.002927627 0 5e-8
-- lines 67-70
#guard okAnd (do
    let s ← solarSpectrum 0.005
    let r := Solar.interpolate splineF (some 0.001) (some (0.2, 0.24)) s
    r.1
    return r.2.ipol_wavelength)
  fun w => nearAll w ((List.range 41).map fun i => 0.2 + 0.001 * i.toFloat)

/-! ### tests/test_reflectance.py -/

-- lines 79-92
#guard okAnd (RadTb.new (modisSensor) "EOS-Aqua" "modis" (.name "20")) fun c => near c.rsr_integral 1.8563451e-07

/-- the calculator of lines 155-168, its table kept in memory -/
def nirObject : Py (Nir Float) := do
  let c ← RadTb.new (.ok ⟨modisRsr 3.780281935, .str "modis", "1e-6 m", 1e-6⟩) "EOS-Aqua" "modis" (.name "20")
  let nw ← nirBand c (.name "20")
  let flux ← solarFluxOf 0.0005
  let lut ← c.makeTb2radLut 0
  return {
    conv := { c with bandname := some nw.1 }, bandname := nw.1, bandwavelength := nw.2, lutfile := "", lut := some lut
    masking_limit := some TERMINATOR_LIMIT, solar_flux := flux, sunz_threshold := TERMINATOR_LIMIT, e3x := none
    r3x := none, rad3x := none, rad3x_t11 := none, rad3x_correction := Arr.scalar 1.0, solar_radiance := none }

/-- reflectance and the temperature of the emissive part -/
def nirRun (sunz tb3 tb4 : Float) : Py (List Float × List Float) := do
  let n ← nirObject
  let r := Nir.reflectanceFromTbs 0 (.scalar sunz) (.scalar tb3) (.scalar tb4) none none n
  let v ← r.1
  let e ← (Nir.emissivePart3x true r.2).1
  return (v.values.data, (e.map (·.data)).getD [])

-- lines 170-207, 218-223; the comparison with the last number (float32) is tight in the test-suite,
-- the others there have a relative tolerance of 6
#guard okAnd (nirRun 80 295 282) fun r => nearAll r.1 [0.45249779] 1e-6
#guard okAnd (nirRun 80 290 282) fun r => nearAll r.1 [0.251245010648] 1e-2
#guard okAnd (nirRun 85 290 282) fun r => nearAll r.1 [1.12236884] 1e-2
#guard okAnd (nirRun 85.1 290 282) fun r => r.1.all Float.isNaN
#guard okAnd (nirRun 50 300 285) fun r => nearAll r.1 [0.1189217] 1e-2
#guard okAnd (nirRun 80 295 282) fun r => nearAll r.2 [270.077268] 1e-2
#guard okAnd (nirRun 50 300 285) fun r => nearAll r.2 [282.455426] 1e-2

end Verif.Check
