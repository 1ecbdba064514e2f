import Verif.Eustace.RawBinary.Model
import Verif.Float32
import Verif.Calendar
import Mathlib.Data.List.GetD

/-!
Model of measurements by ships: `/repo/src/eustace/preprocess/fileio/insitu_ocean.py` and
`/repo/src/eustace/analysis/preparedailymobile.py`.

float32 is modelled by rounding of rationals.  Simplified: coordinates, which NumPy computes in float64, are not rounded; numbers of
four bytes do not overflow; the compressed file can be read.
-/

namespace Verif.Eustace.Insitu.Ocean

open Verif Verif.Eustace.RawBinary Verif.Float32

/-- `HadNMAT2Format.FIELDS` (insitu_ocean.py 22-32). -/
def fields : List String := ["ID", "Lat", "Lon", "year", "month", "day", "hour", "Air"]

/-- `titles.index(field)` (insitu_ocean.py 54). -/
def titleIndex (titles : List String) (field : String) : Except PyErr Nat :=
  if field ∈ titles then .ok (titles.idxOf field) else .error .valueError

/-- `usecols` (insitu_ocean.py 54). -/
def useColumns (titles : List String) : List String → Except PyErr (List Nat)
  | [] => .ok []
  | field :: rest =>
    match titleIndex titles field with
    | .error e => .error e
    | .ok i =>
      match useColumns titles rest with
      | .error e => .error e
      | .ok is => .ok (i :: is)

/-- `FIELDWIDTH` (insitu_ocean.py 38). -/
def width : Nat := 8

/-- A line in pieces of fixed width: `LineSplitter` of `numpy.genfromtxt` (insitu_ocean.py 79). -/
def splitFixed (line : List Char) : List (List Char) :=
  (List.range ((line.length + width - 1) / width)).map fun i => (line.drop (width * i)).take width

/-- `values = [values[_] for _ in usecols]` in `numpy.genfromtxt`: `none` for a line with too few columns. -/
def pickColumns (values : List (List Char)) : List Nat → Option (List (List Char))
  | [] => some []
  | i :: rest =>
    match values[i]? with
    | none => none
    | some v =>
      match pickColumns values rest with
      | none => none
      | some vs => some (v :: vs)

/-- `numpy.genfromtxt` (insitu_ocean.py 79): columns of all lines which are not empty; `ValueError` if a line has too few. -/
def genfromtxt (usecols : List Nat) : List (List Char) → Except PyErr (List (List (List Char)))
  | [] => .ok []
  | line :: rest =>
    if line = [] then genfromtxt usecols rest
    else
      match pickColumns (splitFixed line) usecols, genfromtxt usecols rest with
      | some values, .ok others => .ok (values :: others)
      | _, _ => .error .valueError

/-- Digits only. -/
def digitsOf (s : List Char) : Option Nat := if s ≠ [] ∧ s.all Char.isDigit then some (Nat.ofDigitChars 10 s 0) else none

/-- `strip()`. -/
def strip (s : List Char) : List Char := ((s.dropWhile Char.isWhitespace).reverse.dropWhile Char.isWhitespace).reverse

/-- A sign and digits. -/
def signed : List Char → Option Int
  | '-' :: ds => (digitsOf ds).map fun n : Nat => -(n : Int)
  | '+' :: ds => (digitsOf ds).map fun n : Nat => (n : Int)
  | ds => (digitsOf ds).map fun n : Nat => (n : Int)

/-- `int(text)` (Python library): `none` for a `ValueError`. -/
def intOf (text : List Char) : Option Int := signed (strip text)

/-- The converter of `numpy.genfromtxt` for integers: -1 for what is no number. -/
def convert (text : List Char) : Int := (intOf text).getD (-1)

/-- One record, by the order of `fields`: the parts which are used (insitu_ocean.py 82-93). -/
structure Record where
  lat : Int
  lon : Int
  year : Int
  month : Int
  day : Int
  airt : Int
  deriving DecidableEq

/-- The record from the texts of a line (insitu_ocean.py 79, 82-93). -/
def recordOf (values : List (List Char)) : Record where
  lat := convert (values.getD 1 [])
  lon := convert (values.getD 2 [])
  year := convert (values.getD 3 [])
  month := convert (values.getD 4 [])
  day := convert (values.getD 5 [])
  airt := convert (values.getD 7 [])

/-- `days_since_epoch(datetime(year, month, day))` (insitu_ocean.py 90, epoch.py 10-18).  Whole days of these years are exact in
float32. -/
def daysSinceEpoch (year month day : Int) : Except PyErr Int :=
  if 1 ≤ year ∧ year ≤ 9999 ∧ 1 ≤ month ∧ month ≤ 12 ∧ 1 ≤ day ∧ day ≤ Calendar.daysInMonth year.toNat month.toNat then
    .ok ((Calendar.Date.number ⟨year.toNat, month.toNat, day.toNat⟩ : Int) - (Calendar.Date.number ⟨1850, 1, 1⟩ : Int))
  else .error .valueError

/-- The list of times (insitu_ocean.py 90). -/
def timesOf : List Record → Except PyErr (List ℚ)
  | [] => .ok []
  | r :: rest =>
    match daysSinceEpoch r.year r.month r.day with
    | .error e => .error e
    | .ok d =>
      match timesOf rest with
      | .error e => .error e
      | .ok ds => .ok ((d : ℚ) :: ds)

/-- `LOCATION_SCALE` (insitu_ocean.py 45). -/
def locationScale : ℚ := f32 (1 / 10)

/-- `TEMPERATURE_SCALE` (insitu_ocean.py 41). -/
def temperatureScale : ℚ := f32 (1 / 100)

/-- `TEMPERATURE_OFFSET` (insitu_ocean.py 42). -/
def temperatureOffset : ℚ := f32 (27315 / 100)

/-- Temperature in kelvin in float32 (insitu_ocean.py 93). -/
def kelvin (airt : Int) : ℚ := f32 (f32 (f32 airt * temperatureScale) + temperatureOffset)

/-- What `ObservationSourceInsituOceanHadNMAT2` holds (insitu_ocean.py 82-93). -/
structure Source where
  coords : List (ℚ × ℚ)
  time : List ℚ
  tmean : List ℚ

/-- `ObservationSourceInsituOceanHadNMAT2.__init__` (insitu_ocean.py 47-93), with the words of the line of titles and the lines of the
file.  `numpy.genfromtxt` gives no array but a single record for one line, which has no `shape[0]`. -/
def source (titles : List String) (lines : List (List Char)) : Except PyErr Source :=
  match useColumns titles fields with
  | .error e => .error e
  | .ok usecols =>
    match genfromtxt usecols lines with
    | .error e => .error e
    | .ok rows =>
      if rows.length = 1 then .error .indexError
      else
        match timesOf (rows.map recordOf) with
        | .error e => .error e
        | .ok time => .ok {
            coords := (rows.map recordOf).map fun r => (r.lat * locationScale, r.lon * locationScale)
            time := time
            tmean := (rows.map recordOf).map fun r => kelvin r.airt }

/-- `observations` (insitu_ocean.py 108-121): `None` for anything but the mean. -/
def observations (s : Source) (observable : String) : Option (Observations ℚ) :=
  if observable = "Tmean" then
    some ⟨s.tmean.map fun _ => false, .array s.time, (List.range s.tmean.length).map UInt64.ofNat, s.tmean,
      s.tmean.map fun _ => f32 (11 / 10), []⟩
  else none

/-! ### Files of single days -/

/-- The header of a file of observations (observationsource_rawbinary.py 235-237). -/
def header (uuid : Bytes) : Bytes := formatObservation ++ codeId ++ uuid

/-- `run_day` (preparedailymobile.py 18-37): both files afterwards, if they were made, and whether an exception was raised.  `bits` gives
the 64 bits of a number.  Without observations `write_day` fails after it has written the header. -/
def runDay (bits : ℚ → UInt64) (uuid : Bytes) (titles : List String) (lines : List (List Char)) (day : Int) (observable : String) :
    Option Bytes × Option Bytes × Except PyErr Unit :=
  match source titles lines with
  | .error e => (none, none, .error e)
  | .ok s =>
    match observations s observable with
    | none => (some (header uuid), none, .error .attributeError)
    | some obs =>
      match writeDay uuid ⟨obs.mask, obs.time, obs.location, obs.measurement.map bits, obs.uncorrelated.map bits,
          obs.correlated.map fun l => l.map bits⟩ day with
      | .error e => (some (header uuid), none, .error e)
      | .ok file => (some file, some (writeLookup uuid (s.coords.map fun p => (bits p.1, bits p.2))), .ok ())

end Verif.Eustace.Insitu.Ocean
