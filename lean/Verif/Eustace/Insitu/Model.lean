import Verif.Eustace.Geography.Model
import Verif.Eustace.RawBinary.Model
import Mathlib.Analysis.SpecialFunctions.Sqrt

/-!
Model of in-situ measurements over land and of the files of single days:
`/repo/src/eustace/preprocess/fileio/insitu_land.py`, `/repo/src/eustace/preprocess/fileio/height_adjustment.py` and
`/repo/src/eustace/analysis/preparedailyfixed.py`.

Simplified: floating point numbers are real numbers; the variables of the files exist and have the dimensions (time, station);
measurements are read as masked arrays with a full mask.
-/

namespace Verif.Eustace.Insitu

open Verif Verif.Eustace.RawBinary

/-- An array with two dimensions. -/
structure Grid (α : Type) where
  rows : Nat
  cols : Nat
  at_ : Nat → Nat → α

/-- `ravel()`: row after row. -/
def Grid.ravel {α : Type} (g : Grid α) : List α := (List.range (g.rows * g.cols)).map fun k => g.at_ (k / g.cols) (k % g.cols)

/-- Where NumPy takes element `i` along a dimension of `n` elements: one element is used for all. -/
def broadcastIndex (n i : Nat) : Nat := if n = 1 then 0 else i

/-- The number of elements after broadcasting, if there is one. -/
def broadcastDim (m n : Nat) : Option Nat :=
  if m = n then some m else if m = 1 then some n else if n = 1 then some m else none

/-- `numpy.logical_or` of two arrays with broadcasting (insitu_land.py 138, 146, 152, 176).  A masked array as an argument
counts with its data: a flag of quality is true if it is not zero. -/
def logicalOr (a b : Grid Bool) : Except PyErr (Grid Bool) :=
  match broadcastDim a.rows b.rows, broadcastDim a.cols b.cols with
  | some r, some c => .ok ⟨r, c, fun i j =>
      a.at_ (broadcastIndex a.rows i) (broadcastIndex a.cols j) || b.at_ (broadcastIndex b.rows i) (broadcastIndex b.cols j)⟩
  | _, _ => .error .valueError

/-- `measurement.mask = new` (insitu_land.py 138, 146, 152, 176): NumPy does `current_mask.flat = new`, which fills the present
shape from the elements of `new` in turn, starts again if there are too few and ignores what is left over. -/
def assignMask (current new : Grid Bool) : Grid Bool where
  rows := current.rows
  cols := current.cols
  at_ := fun i j =>
    let k := (i * current.cols + j) % (new.rows * new.cols)
    new.at_ (k / new.cols) (k % new.cols)

/-- A file of stations. -/
structure StationFile where
  /-- Variable `time`. -/
  times : List ℚ
  /-- Dimension `station`. -/
  stations : Nat
  /-- Variable `station_code`: bytes of fixed length. -/
  code : Nat → List UInt8
  latitude : Nat → ℝ
  longitude : Nat → ℝ
  /-- Variable `elevation` in metres, and whether it is missing. -/
  elevation : Nat → ℝ
  noElevation : Nat → Bool
  /-- Variables with the dimensions (time, station), by name: their values, whether they are missing, and flags. -/
  value : String → Nat → Nat → ℝ
  missing : String → Nat → Nat → Bool
  flag : String → Nat → Nat → Int

/-- A file of stations which are held out: `station_code`. -/
structure HoldOut where
  count : Nat
  code : Nat → List UInt8

/-- `OBSERVATIONMAPS[observable].name` (insitu_land.py 22, definitions.py 183-184, observationsource.py 172-174). -/
def variableName (observable : String) : Except PyErr String :=
  if observable = "Tmin" then .ok "tasmin" else if observable = "Tmax" then .ok "tasmax" else .error .keyError

/-- `QCOBSERVATIONMAPS[observable].name` (insitu_land.py 23). -/
def flagName (observable : String) : Except PyErr String :=
  if observable = "Tmin" then .ok "tasmin_qc" else if observable = "Tmax" then .ok "tasmax_qc" else .error .keyError

/-- Text of type `|S`: zeros at the end do not count (insitu_land.py 46-51). -/
def stripZeros (s : List UInt8) : List UInt8 := (s.reverse.dropWhile fun b => b == 0).reverse

/-- `identify_validation_stations` (insitu_land.py 40-55): one row. -/
def validationStations (file : StationFile) (hold : HoldOut) : Grid Bool where
  rows := 1
  cols := file.stations
  at_ := fun _ j => (List.range hold.count).any fun k => stripZeros (file.code j) == stripZeros (hold.code k)

/-- One place of `longitude[wrapped_longitudes] -= 360.0` (insitu_land.py 94-95). -/
noncomputable def wrapLongitude (x : ℝ) : ℝ := if 180 ≤ x then x - 360 else x

/-- `observation_location_lookup` (insitu_land.py 86-100): latitude and longitude of each station. -/
noncomputable def locationLookup (file : StationFile) : List (ℝ × ℝ) :=
  (List.range file.stations).map fun j => (file.latitude j, wrapLongitude (file.longitude j))

/-- The reference map of an `AltitudeAdjustment` (height_adjustment.py 15-30). -/
structure Adjustment where
  R : Nat
  C : Nat
  latitude : Geography.Field R C
  longitude : Geography.Field R C
  covariate : Nat → Nat → ℝ
  rescale : ℝ

/-- `reference_altitudes` for one location (height_adjustment.py 32-34). -/
noncomputable def referenceAltitude (a : Adjustment) (location : ℝ × ℝ) : Except PyErr ℝ :=
  Geography.compute a.covariate a.latitude a.longitude a.rescale ![location.1, location.2]

/-- `LAPSE_RATE` (height_adjustment.py 9). -/
noncomputable def lapseRate : ℝ := -6.5

/-- `LAPSE_RATE_UNCERTAINTY` (height_adjustment.py 10). -/
noncomputable def lapseRateUncertainty : ℝ := 1.1

/-- `adjustment` for one location (height_adjustment.py 36-38). -/
noncomputable def adjustmentOf (altitude reference : ℝ) : ℝ := -lapseRate * (altitude - reference)

/-- `adjustment_uncertainty` for one location (height_adjustment.py 40-42). -/
noncomputable def adjustmentUncertainty (altitude reference : ℝ) : ℝ := lapseRateUncertainty * |altitude - reference|

/-- Values of a list, or the first error. -/
def collect {α : Type} : List (Except PyErr α) → Except PyErr (List α)
  | [] => .ok []
  | .error e :: _ => .error e
  | .ok x :: rest =>
    match collect rest with
    | .error e => .error e
    | .ok xs => .ok (x :: xs)

/-- Reference altitudes of all stations (insitu_land.py 165-170).  Simplified: the code computes all at once, which fails if and
only if one fails. -/
noncomputable def referenceAltitudes (file : StationFile) (a : Adjustment) : Except PyErr (List ℝ) :=
  collect ((locationLookup file).map (referenceAltitude a))

/-- `elevations` in kilometres (insitu_land.py 15, 166). -/
noncomputable def kilometres (file : StationFile) (j : Nat) : ℝ := file.elevation j * 0.001

/-- Measurements and errors before and after the adjustment. -/
structure Measured where
  mask : Grid Bool
  value : Nat → Nat → ℝ
  error : Nat → Nat → ℝ

/-- The adjustment for altitude (insitu_land.py 162-176): values which are not masked are changed; after that stations without
elevation are masked.  Simplified: a value whose elevation is missing stays what it was (NumPy overwrites it when it masks it). -/
noncomputable def adjustAltitude (file : StationFile) (m : Measured) : Option Adjustment → Except PyErr Measured
  | none => .ok m
  | some a =>
    match referenceAltitudes file a with
    | .error e => .error e
    | .ok references =>
      match logicalOr m.mask ⟨1, file.stations, fun _ j => file.noElevation j⟩ with
      | .error e => .error e
      | .ok mask => .ok {
          mask := assignMask m.mask mask
          value := fun i j =>
            if m.mask.at_ i j || file.noElevation j then m.value i j
            else adjustmentOf (kilometres file j) (references.getD j 0) + m.value i j
          error := fun i j =>
            if m.mask.at_ i j || file.noElevation j then m.error i j
            else Real.sqrt (adjustmentUncertainty (kilometres file j) (references.getD j 0) ^ 2 + m.error i j ^ 2) }

/-- `numpy.argwhere(time == self.daynumber)` (insitu_land.py 121). -/
def dayIndices (times : List ℚ) (day : Int) : List Nat :=
  (List.range times.length).filter fun i => times[i]? == some (day : ℚ)

/-- The rows which are read, the mask of missing values and of flags for them (insitu_land.py 115-142): `none` unless there is
exactly one row for a day. -/
def selectRows (file : StationFile) (variable_ flags : String) (qcMask : Bool) :
    Option Int → Except PyErr (Option (List Nat × Grid Bool))
  | none => .ok (some (List.range file.times.length,
      ⟨file.times.length, file.stations, fun i j => file.missing variable_ i j⟩))
  | some day =>
    match dayIndices file.times day with
    | [t] =>
      let mask : Grid Bool := ⟨1, file.stations, fun _ j => file.missing variable_ t j⟩
      if qcMask then
        match logicalOr mask ⟨1, file.stations, fun _ j => decide (file.flag flags t j ≠ 0)⟩ with
        | .error e => .error e
        | .ok new => .ok (some ([t], assignMask mask new))
      else .ok (some ([t], mask))
    | _ => .ok none

/-- Stations which are held out, and flags again (insitu_land.py 144-153): here the whole variable of flags is used. -/
def maskHoldOut (file : StationFile) (flags : String) (qcMask : Bool) (mask : Grid Bool) :
    Option HoldOut → Except PyErr (Grid Bool)
  | none => .ok mask
  | some hold =>
    match logicalOr mask (validationStations file hold) with
    | .error e => .error e
    | .ok new =>
      let mask' := assignMask mask new
      if qcMask then
        match logicalOr mask' ⟨file.times.length, file.stations, fun i j => decide (file.flag flags i j ≠ 0)⟩ with
        | .error e => .error e
        | .ok new' => .ok (assignMask mask' new')
      else .ok mask'

/-- The `Observations` from rows, masks and values (insitu_land.py 156-160, 179-185). -/
noncomputable def formulate (file : StationFile) (rows : List Nat) (m : Measured) : Observations ℝ where
  mask := m.mask.ravel
  time := .array (Grid.ravel ⟨rows.length, file.stations, fun i _ => file.times.getD (rows.getD i 0) 0⟩)
  location := Grid.ravel ⟨rows.length, file.stations, fun _ j => UInt64.ofNat j⟩
  measurement := Grid.ravel ⟨rows.length, file.stations, m.value⟩
  uncorrelated := Grid.ravel ⟨rows.length, file.stations, m.error⟩
  correlated := []

/-- `observations` (insitu_land.py 102-185): `none` if the day is not in the file exactly once. -/
noncomputable def observations (file : StationFile) (day : Option Int) (hold : Option HoldOut) (adjustment : Option Adjustment)
    (observable : String) (qcMask : Bool) : Except PyErr (Option (Observations ℝ)) :=
  match variableName observable, flagName observable with
  | .ok variable_, .ok flags =>
    match selectRows file variable_ flags qcMask day with
    | .error e => .error e
    | .ok none => .ok none
    | .ok (some (rows, mask)) =>
      match maskHoldOut file flags qcMask mask hold with
      | .error e => .error e
      | .ok mask' =>
        match adjustAltitude file ⟨mask', fun i j => file.value variable_ (rows.getD i 0) j, fun _ _ => 0.3⟩ adjustment with
        | .error e => .error e
        | .ok m => .ok (some (formulate file rows m))
  | _, _ => .error .keyError

/-- `number_of_observations` (insitu_land.py 76-84). -/
def numberOfObservations (file : StationFile) (day : Option Int) : Nat :=
  match day with
  | none => file.times.length * file.stations
  | some _ => file.stations

/-! ### Files of single days -/

/-- What is given as the third or fourth argument of `ObservationSourceInsituLand`: the name of a file which can be opened, or an
object. -/
inductive Argument where
  | file (hold : HoldOut)
  | object (adjustment : Adjustment)

/-- `netCDF4.Dataset(hold_out_filename, 'r')` unless the argument is `None` (insitu_land.py 35-38): an object is not the name of
a file. -/
def openHoldOut : Option Argument → Except PyErr (Option HoldOut)
  | none => .ok none
  | some (.file hold) => .ok (some hold)
  | some (.object _) => .error .typeError

/-- The source for land with the observations of a day (preparedailyfixed.py 36-45): without a list of stations to hold out the
adjustment is the third argument of the constructor, which is the name of that list. -/
noncomputable def landDay (file : StationFile) (day : Int) (observable : String) (holdOutList : Option HoldOut)
    (qcMask : Bool) (adjustment : Option Adjustment) : Except PyErr (Option (Observations ℝ)) :=
  match holdOutList with
  | none =>
    match openHoldOut (adjustment.map .object) with
    | .error e => .error e
    | .ok hold => observations file (some day) hold none observable qcMask
  | some list =>
    match openHoldOut (some (.file list)) with
    | .error e => .error e
    | .ok hold => observations file (some day) hold adjustment observable qcMask

/-- `table[:, location]` (preparedailyfixed.py 54). -/
def pick (table : List (ℝ × ℝ)) (location : List UInt64) : Except PyErr (List (ℝ × ℝ)) :=
  collect (location.map fun l => match table[l.toNat]? with
    | none => .error .indexError
    | some x => .ok x)

/-- `max(abs(location_difference.ravel())) > 0.0001` (preparedailyfixed.py 54-55): `ValueError` for no locations. -/
noncomputable def mismatch (expected got : List (ℝ × ℝ)) : Except PyErr Bool :=
  if expected = [] then .error .valueError
  else .ok ((expected.zip got).any fun p => decide (0.0001 < |p.1.1 - p.2.1|) || decide (0.0001 < |p.1.2 - p.2.2|))

/-- Verification of locations and writing (preparedailyfixed.py 52-60): the contents of the new file.  `bits` gives the 64 bits of
a number. -/
noncomputable def storeDay (bits : ℝ → UInt64) (uuid : Bytes) (reference mine : List (ℝ × ℝ)) (daynumber : Int) :
    Option (Observations ℝ) → Except PyErr Bytes
  | none => .error .attributeError
  | some obs =>
    match pick reference obs.location, pick mine obs.location with
    | .ok expected, .ok got =>
      match mismatch expected got with
      | .error e => .error e
      | .ok true => .error .valueError
      | .ok false => writeDay uuid ⟨obs.mask, obs.time, obs.location, obs.measurement.map bits, obs.uncorrelated.map bits,
          obs.correlated.map fun l => l.map bits⟩ daynumber
    | .error e, _ => .error e
    | _, .error e => .error e

/-- `run_day` for stations over land (preparedailyfixed.py 27-60), with the reference table and its identifier. -/
noncomputable def runDayLand (bits : ℝ → UInt64) (uuid : Bytes) (reference : List (ℝ × ℝ)) (file : StationFile) (day : Int)
    (observable : String) (holdOutList : Option HoldOut) (qcMask : Bool) (adjustment : Option Adjustment) : Except PyErr Bytes :=
  match landDay file day observable holdOutList qcMask adjustment with
  | .error e => .error e
  | .ok data => storeDay bits uuid reference (locationLookup file) day data

end Verif.Eustace.Insitu
