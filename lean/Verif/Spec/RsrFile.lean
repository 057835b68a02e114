import Verif.Model.Reader
import Verif.Spec.Names
import Mathlib.Data.List.Forall2
/-
Independent specification of the internal HDF5 format of relative spectral responses: which
items a file must hold and what they mean.
-/
namespace Verif.Spec
open Model PyNum
variable {α : Type} [PyNum α]

/-- The attribute carries this text. -/
def AttrText (v : AttrVal α) (s : String) : Prop := ∃ pv shown, v = .text pv shown ∧ TextOf pv s

/-- The attribute is this number. -/
def AttrIs (v : AttrVal α) (x : α) : Prop := (∃ n, v = .int n ∧ x = PyNum.ofInt n) ∨ ∃ shown, v = .num x shown

/-- The file lists these band names. -/
def ListsBands (f : H5File α) (names : List String) : Prop :=
  ∃ dt es shown, f.attrs.get? "band_names" = some (.text (.array dt es) shown) ∧ List.Forall₂ TextOf es names

/-- The i-th detector (from 0) is called det-(i+1). -/
def detName (i : Nat) : String := "det-" ++ toString (i + 1)

/-- The band has `n` detectors: the stored count, 1 if there is none. -/
def DetectorCount (f : H5File α) (band : String) (n : Nat) : Prop :=
  (∃ B m, f.bands.get? band = some B ∧ B.attrs.get? "number_of_detectors" = some (.int m) ∧ n = m.toNat) ∨
  ((∀ B, f.bands.get? band = some B → B.attrs.get? "number_of_detectors" = none) ∧ n = 1)

/-- An item looked up for a detector: the detector's own if it has one, else the band's. -/
def Item {β : Type} (f : H5File α) (band det : String) (own : H5Det α → Option β) (common : H5Band α → Option β)
    (v : β) : Prop :=
  ∃ B, f.bands.get? band = some B ∧
    ((∃ D, B.dets.get? det = some D ∧ own D = some v) ∨
     ((∀ D, B.dets.get? det = some D → own D = none) ∧ common B = some v))

/-- a wavelength data set together with its scale attribute -/
def scaledData (ds : Dict String (H5Data α)) : Option (List α × AttrVal α) :=
  (ds.get? "wavelength").bind fun d => (d.attrs.get? "scale").map fun s => (d.values, s)

/-- The response stored for a detector. -/
def HasResponse (f : H5File α) (band det : String) (r : List α) : Prop :=
  Item f band det (fun D => (D.datasets.get? "response").map H5Data.values)
    (fun B => (B.datasets.get? "response").map H5Data.values) r

/-- The wavelengths stored for a detector, in micron: value times scale (to metre) times 1e6. -/
def HasWavelength (f : H5File α) (band det : String) (w : List α) : Prop :=
  ∃ vals sv s, Item f band det (fun D => scaledData D.datasets) (fun B => scaledData B.datasets) (vals, sv) ∧
    AttrIs sv s ∧ w = vals.map fun x => x * s * 1e6

/-- The central wavelength stored for a detector. -/
def HasCentral (f : H5File α) (band det : String) (c : α) : Prop :=
  ∃ v, Item f band det (fun D => D.attrs.get? "central_wavelength")
    (fun B => B.attrs.get? "central_wavelength") v ∧ AttrIs v c

/-- What is stored has the right type (nothing need be stored). -/
structure Typed (f : H5File α) : Prop where
  names : ∀ v, f.attrs.get? "band_names" = some v → ∃ l, ListsBands f l
  text : ∀ k ∈ ["description", "platform_name", "platform", "sensor"], ∀ v, f.attrs.get? k = some v →
    ∃ s, AttrText v s
  counts : ∀ b B v, f.bands.get? b = some B → B.attrs.get? "number_of_detectors" = some v → ∃ n, v = .int n
  scales : ∀ b d p, Item f b d (fun D => scaledData D.datasets) (fun B => scaledData B.datasets) p →
    ∃ s, AttrIs p.2 s
  centrals : ∀ b d v, Item f b d (fun D => D.attrs.get? "central_wavelength")
    (fun B => B.attrs.get? "central_wavelength") v → ∃ x, AttrIs v x

/-- Everything the format requires is there. -/
structure Complete (f : H5File α) : Prop where
  names : ∃ v, f.attrs.get? "band_names" = some v
  description : ∃ v, f.attrs.get? "description" = some v
  items : ∀ l, ListsBands f l → ∀ b ∈ l, ∀ n, DetectorCount f b n → ∀ i < n,
    (∃ r, HasResponse f b (detName i) r) ∧
    (∃ p, Item f b (detName i) (fun D => scaledData D.datasets) (fun B => scaledData B.datasets) p) ∧
    (∃ v, Item f b (detName i) (fun D => D.attrs.get? "central_wavelength")
      (fun B => B.attrs.get? "central_wavelength") v)

/-! ### Names -/

/-- The WMO OSCAR name of a platform that old files call otherwise. -/
def oscarName (s : String) : String :=
  if s = "eos-2" then "EOS-Aqua"
  else if s = "meteosat-8" then "Meteosat-8"
  else if s = "meteosat-9" then "Meteosat-9"
  else if s = "meteosat-10" then "Meteosat-10"
  else if s = "meteosat-11" then "Meteosat-11"
  else s

/-- The platform a file is for. -/
inductive PlatformIs (f : H5File α) : Option String → Prop
  | named (v : AttrVal α) (s : String) (h : f.attrs.get? "platform_name" = some v) (hs : AttrText v s) :
      PlatformIs f (some (oscarName s))
  | numbered (h : f.attrs.get? "platform_name" = none) (v n : AttrVal α) (s : String)
      (hv : f.attrs.get? "platform" = some v) (hs : AttrText v s) (hn : f.attrs.get? "sat_number" = some n) :
      PlatformIs f (some (oscarName (s ++ "-" ++ n.shownAs)))
  | unknown (h : f.attrs.get? "platform_name" = none)
      (hn : f.attrs.get? "platform" = none ∨ f.attrs.get? "sat_number" = none) : PlatformIs f none

/-- The instrument a file is for: its sensor attribute, else what is configured for the
platform. -/
inductive InstrumentIs (f : H5File α) (configured : String → Option Inst) (platform : Option String) : InstVal → Prop
  | sensor (v : AttrVal α) (s : String) (h : f.attrs.get? "sensor" = some v) (hs : AttrText v s) :
      InstrumentIs f configured platform (.str s)
  | single (h : f.attrs.get? "sensor" = none) (p i : String) (hp : platform = some p)
      (hi : configured p = some (.one i)) : InstrumentIs f configured platform (.str i)
  | several (h : f.attrs.get? "sensor" = none) (p : String) (l : List String) (hp : platform = some p)
      (hi : configured p = some (.many l)) : InstrumentIs f configured platform (.list l)
  | unknown (h : f.attrs.get? "sensor" = none) (hp : ∀ p, platform = some p → configured p = none) :
      InstrumentIs f configured platform .none

end Verif.Spec
