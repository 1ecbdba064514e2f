import Verif.Float32
import Verif.Py
import Mathlib.Data.Rat.Floor
import Mathlib.Logic.Function.Basic
import Mathlib.Data.List.Sort

/-! Model of station data before they are written (src/eustace/outputformats/stationdata.py) and of the names of stations in
files (src/eustace/outputformats/stations.py).  Times and values are rational numbers; values become single precision
(`f32`). -/
namespace Verif.Eustace.Stations
open Verif Verif.Float32

/-- One item of the dictionary comprehension of stationdata.py 31-32. -/
def indexStep (d : String → Option ℕ) (p : String × ℕ) : String → Option ℕ := Function.update d p.1 (some p.2)

/-- `StationDescriptionArray.__init__`, stationdata.py 31-32: the dictionary from names to indices; a later station replaces
an earlier one of the same name.  Places and elevations of stations are left out (nothing uses them). -/
def stationIndex (names : List String) : String → Option ℕ :=
  names.zipIdx.foldl indexStep (fun _ => none)

/-- `StationTemperatureSample`, stationdata.py 47-61. -/
structure Sample where
  station : String
  time : ℚ
  tasmin : ℚ
  tasminQc : ℚ
  tasmax : ℚ
  tasmaxQc : ℚ

/-- `sample.__dict__[variable.name]`, stationdata.py 169, for numbers. -/
def Sample.get (s : Sample) (name : String) : Option ℚ :=
  if name = "tasmin" then some s.tasmin
  else if name = "tasmin_qc" then some s.tasminQc
  else if name = "tasmax" then some s.tasmax
  else if name = "tasmax_qc" then some s.tasmaxQc
  else if name = "time" then some s.time
  else none

/-- `MeasurementTime.RESOLUTION`, stationdata.py 96. -/
def tolerance : ℚ := 5 / 10000

/-- `int(time)` (Python library): towards zero. -/
def pyInt (t : ℚ) : ℤ := if 0 ≤ t then ⌊t⌋ else ⌈t⌉

/-- `MeasurementTime.__hash__`, stationdata.py 103-106; Python replaces the hash -1 by -2. -/
def timeHash (t : ℚ) : ℤ := if pyInt t = -1 then -2 else pyInt t

/-- `MeasurementTime.__eq__`, stationdata.py 108-111. -/
def sameTime (a b : ℚ) : Bool := decide (|b - a| < tolerance)

/-- Insertion into a set (Python library): an element is left out if one with the same hash which is equal to it is in the
set already. -/
def insertTime (kept : List ℚ) (t : ℚ) : List ℚ :=
  if kept.any (fun m => decide (timeHash m = timeHash t) && sameTime m t) then kept else kept ++ [t]

/-- `get_unique_temperature_sample_times`, stationdata.py 139-145.  The order of iteration over the set does not matter, as
the times are sorted. -/
def uniqueTimes (samples : List Sample) : List ℚ :=
  ((samples.map Sample.time).foldl insertTime []).insertionSort (· ≤ ·)

/-- `measurement_times.index(MeasurementTime(sample.time))`, stationdata.py 162 and 168. -/
def timeIndex (axis : List ℚ) (t : ℚ) : Option ℕ := axis.findIdx? (fun a => sameTime a t)

/-- `data[time_index][station_index] = value` with the mask, stationdata.py 170-171, on one row.  For a station which is not
known the index is `None`, and numpy sets the whole row. -/
def setCell (row : List (Option ℚ)) (station : Option ℕ) (x : ℚ) : List (Option ℚ) :=
  match station with
  | some j => row.set j (some x)
  | none => row.map (fun _ => some x)

/-- The loop of `get_temperature_samples`, stationdata.py 165-171. -/
def fillSamples (names : List String) (axis : List ℚ) (name : String) :
    List (List (Option ℚ)) → List Sample → Except PyErr (List (List (Option ℚ)))
  | m, [] => .ok m
  | m, s :: t =>
    match timeIndex axis s.time with
    | none => .error .valueError
    | some i =>
      match s.get name with
      | none => .error .keyError
      | some x => fillSamples names axis name (m.modify i (fun row => setCell row (stationIndex names s.station) (f32 x))) t

/-- `get_temperature_samples`, stationdata.py 147-174: rows are times, columns are stations, and `none` is masked. -/
def temperatureSamples (names : List String) (samples : List Sample) (axis : List ℚ) (name : String) :
    Except PyErr (List (List (Option ℚ))) :=
  fillSamples names axis name (List.replicate axis.length (List.replicate names.length none)) samples

/-- `StationBreak`, stationdata.py 77-84. -/
structure Break where
  station : String
  amplitude : ℚ
  bounds : List ℚ
  affected : List ℚ

/-- The breaks of `StationData`, stationdata.py 121-122. -/
structure Breaks where
  tasmin : List Break
  tasmax : List Break

/-- `self.breaks[name]`, stationdata.py 137 and 196. -/
def Breaks.get (b : Breaks) (name : String) : Except PyErr (List Break) :=
  if name = "tasmin" then .ok b.tasmin else if name = "tasmax" then .ok b.tasmax else .error .keyError

/-- `add_break`, stationdata.py 134-137. -/
def addBreak (b : Breaks) (name : String) (x : Break) : Except PyErr Breaks :=
  if name = "tasmin" then .ok { b with tasmin := b.tasmin ++ [x] }
  else if name = "tasmax" then .ok { b with tasmax := b.tasmax ++ [x] }
  else .error .keyError

/-- Calls of `add_break` one after another. -/
def addBreaks : Breaks → List (String × Break) → Except PyErr Breaks
  | b, [] => .ok b
  | b, (name, x) :: t =>
    match addBreak b name x with
    | .error e => .error e
    | .ok b' => addBreaks b' t

/-- The indices of stationdata.py 199-204; an index `None` cannot become an integer. -/
def indices (names : List String) : List Break → Except PyErr (List ℤ)
  | [] => .ok []
  | b :: t =>
    match stationIndex names b.station with
    | none => .error .typeError
    | some i =>
      match indices names t with
      | .error e => .error e
      | .ok l => .ok ((i : ℤ) :: l)

/-- `get_break_variable` for stations, stationdata.py 182-204.  Simplified: the name of the variable has been split into the
name of the quantity and that of the aspect. -/
def breakStations (names : List String) (b : Breaks) (name : String) : Except PyErr (List ℤ) :=
  match b.get name with
  | .error e => .error e
  | .ok l => indices names l

/-- `get_break_variable` for amplitudes, stationdata.py 182-204. -/
def breakAmplitudes (b : Breaks) (name : String) : Except PyErr (List ℚ) :=
  match b.get name with
  | .error e => .error e
  | .ok l => .ok (l.map (fun x => f32 x.amplitude))

/-- `STATIONS_NAME_STRLEN`, definitions.py 32. -/
def nameLength : ℕ := 32

/-- One row of the array of names, stations.py 65-69: `resize` cuts off or fills up with zeros.  Names are bytes. -/
def storeName (name : List UInt8) : List UInt8 := (name ++ List.replicate (nameLength - name.length) 0).take nameLength

/-- A name which is read back: zeros at the end are not part of it (the fill value of `STATION_NAME` is zero,
definitions.py 413-418). -/
def readName (stored : List UInt8) : List UInt8 := (stored.reverse.dropWhile (· = 0)).reverse

end Verif.Eustace.Stations
