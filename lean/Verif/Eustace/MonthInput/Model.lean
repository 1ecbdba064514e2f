import Verif.Eustace.ObsSource.Connector
import Verif.Eustace.Components.Storage

/-!
C151, C152: from the files of a month to the measurement which the analysis stores:
`src/eustace/analysis/advanced_standard/examples/moving_climatology.py` (process_inputs, process_inputs_batch) and
`examples/inputloader_rawbinary.py`.

Readers of files are those of `RawBinary`, the mean of minimum and maximum and the connector to the analysis those of `ObsSource`, and
the analysis is that of `Components`.

Simplifications: prints are left out; float64 values are real numbers, given by a function `value` of the 64 bits; all files are read
before the analysis begins (the code reads the observations of a source when it comes to it).
-/

namespace Verif.Eustace.MonthInput

open Verif Verif.Eustace.RawBinary Verif.Eustace.ObsSource Verif.Eustace.Components

/-- Contents of the files which exist. -/
abbrev Disk := String → Option Bytes

/-- `open(pathname, 'rb')`: TypeError for `None`, IOError if there is no such file. -/
def openFile (disk : Disk) : Option String → Except PyErr Bytes
  | none => .error .typeError
  | some name =>
    match disk name with
    | none => .error .other
    | some bytes => .ok bytes

/-- `l[i]`. -/
def itemAt {α : Type} (l : List α) (i : Nat) : Except PyErr α :=
  match l[i]? with
  | none => .error .indexError
  | some x => .ok x

/-! ### One day of the inputs of a month -/

/-- An element of `inputsources` of an operation for a month: a dictionary of observables for each parameter, with one name for each
day (`None` for a day without a file).  The parameter of locations is `fixed` or `mobile`. -/
structure MonthSource where
  ranges : List (String × List (Option String))
  observables : List (String × List (Option String))
  fixed : Option (List (Option String))
  mobile : Option (List (String × List (Option String)))

/-- The keyword parameters for one day (inputloader_rawbinary.py 107-113): a parameter left out is `None`. -/
structure DaySource where
  ranges : List (String × Option String)
  observables : List (String × Option String)
  fixed : Option String
  mobile : Option (List (String × Option String))

/-- The loop over observables (moving_climatology.py 130-133). -/
def sliceDict (d : List (String × List (Option String))) (i : Nat) : Except PyErr (List (String × Option String)) :=
  d.mapM fun p => (itemAt p.2 i).bind fun x => .ok (p.1, x)

/-- The fixed location lookup of a day (moving_climatology.py 127-129). -/
def sliceFixed (f : Option (List (Option String))) (i : Nat) : Except PyErr (Option String) :=
  match f with
  | none => .ok none
  | some l => itemAt l i

/-- The mobile location lookup of a day (moving_climatology.py 130-133). -/
def sliceMobile (f : Option (List (String × List (Option String)))) (i : Nat) : Except PyErr (Option (List (String × Option String))) :=
  match f with
  | none => .ok none
  | some d => (sliceDict d i).bind fun x => .ok (some x)

/-- `substep_source` (moving_climatology.py 120-135). -/
def slice (s : MonthSource) (i : Nat) : Except PyErr DaySource :=
  (sliceDict s.ranges i).bind fun ranges =>
  (sliceDict s.observables i).bind fun observables =>
  (sliceFixed s.fixed i).bind fun fixed =>
  (sliceMobile s.mobile i).bind fun mobile =>
  .ok ⟨ranges, observables, fixed, mobile⟩

/-! ### Loaders -/

/-- A location lookup with its identifier. -/
abbrev Lookup := Bytes × List (UInt64 × UInt64)

/-- `AnalysisSystemInputLoaderRawBinary_OneDay` (inputloader_rawbinary.py 104-129); `mobile` is the name of the only day. -/
structure DayLoader where
  ranges : List (String × List UInt64)
  observables : List (String × Option String)
  fixed : Option Lookup
  mobile : Option String

/-- The fixed location lookup (inputloader_rawbinary.py 117-120). -/
def readFixed (disk : Disk) : Option String → Except PyErr (Option Lookup)
  | none => .ok none
  | some name => (openFile disk (some name)).bind fun bytes => (readLookup bytes).bind fun l => .ok (some l)

/-- `mobile_location_lookup_filenames.values()[0]` (inputloader_rawbinary.py 128); no dictionary or an empty one is no file. -/
def firstMobile : Option (List (String × Option String)) → Option String
  | some (p :: _) => p.2
  | _ => none

/-- `__init__` (inputloader_rawbinary.py 107-126). -/
def oneDay (disk : Disk) (s : DaySource) : Except PyErr DayLoader :=
  (s.ranges.mapM fun p => (openFile disk p.2).bind fun bytes => (readRanges bytes).bind fun r => .ok (p.1, r)).bind fun ranges =>
  (readFixed disk s.fixed).bind fun fixed =>
  .ok ⟨ranges, s.observables, fixed, firstMobile s.mobile⟩

/-- The location lookup (inputloader_rawbinary.py 78-88). -/
def locationLookup (disk : Disk) (l : DayLoader) : Except PyErr (Option Lookup) :=
  match l.fixed with
  | some t => .ok (some t)
  | none =>
    match l.mobile with
    | none => .ok none
    | some name => (openFile disk (some name)).bind fun bytes => (readLookup bytes).bind fun t => .ok (some t)

/-- `filespecs` (inputloader_rawbinary.py 91-95): KeyError if there are no correlation ranges for an observable. -/
def filespecs (l : DayLoader) : Except PyErr (List (String × Option String × List UInt64)) :=
  l.observables.mapM fun p =>
    match l.ranges.lookup p.1 with
    | none => .error .keyError
    | some r => .ok (p.1, p.2, r)

/-- Values of bit patterns. -/
def decode (value : UInt64 → ℝ) (obs : Observations UInt64) : Observations ℝ where
  mask := obs.mask
  time := obs.time
  location := obs.location
  measurement := obs.measurement.map value
  uncorrelated := obs.uncorrelated.map value
  correlated := obs.correlated.map fun c => c.map value

/-- `ObservationSourceSingleDayRawBinary.observations` (observationsource_rawbinary.py 471-478). -/
def readObservable (value : UInt64 → ℝ) (disk : Disk) (lookup : Option Lookup) (day : Int) (spec : Option String × List UInt64) :
    Except PyErr (Observations ℝ) :=
  match spec.1, lookup with
  | some name, some t =>
    (openFile disk (some name)).bind fun bytes =>
    (sourceObservations spec.2.length (some bytes) (some t.1) day).bind fun obs => .ok (decode value obs)
  | _, _ => (sourceObservations spec.2.length none none day).bind fun obs => .ok (decode value obs)

/-- `ObservationSourceSingleDayRawBinary_ComputedMean.observations` for the daily mean (inputloader_rawbinary.py 27-46). -/
noncomputable def dailyMean (value : UInt64 → ℝ) (disk : Disk) (lookup : Option Lookup) (day : Int)
    (specs : List (String × Option String × List UInt64)) : Except PyErr (Observations ℝ) :=
  match specs.lookup "Tmean" with
  | some spec => readObservable value disk lookup day spec
  | none =>
    match specs.lookup "Tmin", specs.lookup "Tmax" with
    | some a, some b =>
      (readObservable value disk lookup day a).bind fun tmin =>
      (readObservable value disk lookup day b).bind fun tmax =>
      mean tmin tmax
    | _, _ => .error .runtimeError

/-- `ObservationStructureSourceConnector` as the analysis uses it (observation_structure_source_connector.py 19-76). -/
noncomputable def structureOf (table : List (ℝ × ℝ)) (obs : Observations ℝ) (day : Int) : Except PyErr Obs :=
  (observationVector obs).bind fun y =>
  (observationPrecision obs).bind fun p =>
  (polarCoordinates table obs).bind fun places =>
  .ok { time := day, m := observationCount obs, loc := fun k => places.getD k (0, 0), y := fun k => y.getD k 0,
        R := Matrix.diagonal fun k => p.getD k 0 }

/-- The table of a location lookup as real numbers. -/
def tableOf (value : UInt64 → ℝ) : Option Lookup → List (ℝ × ℝ)
  | none => []
  | some t => t.2.map fun p => (value p.1, value p.2)

/-- `load_observation_structure` for the daily mean (inputloader_rawbinary.py 75-103). -/
noncomputable def loadDay (value : UInt64 → ℝ) (disk : Disk) (day : Int) (l : DayLoader) : Except PyErr Obs :=
  (locationLookup disk l).bind fun lookup =>
  (filespecs l).bind fun specs =>
  (dailyMean value disk lookup day specs).bind fun obs =>
  structureOf (tableOf value lookup) obs day

/-! ### Operations -/

/-- The loaders of the days of a month (moving_climatology.py 115-137). -/
def monthLoaders (disk : Disk) (sources : List MonthSource) (days : Nat) : Except PyErr (List (List DayLoader)) :=
  (List.range days).mapM fun i => (sources.mapM fun s => slice s i).bind fun day => day.mapM (oneDay disk)

/-- The observations of the days of a month, as `update_component_times` loads them (analysissystem.py 130-147). -/
noncomputable def loadMonth (value : UInt64 → ℝ) (disk : Disk) (days : List Int) (loaders : List (List DayLoader)) :
    Except PyErr (List (Int × List Loader)) :=
  (days.zip loaders).mapM fun p => (p.2.mapM (loadDay value disk p.1)).bind fun obs => .ok (p.1, obs.map fun o => fun _ => o)

/-- `process_inputs_batch` (moving_climatology.py 89-140). -/
noncomputable def processInputsBatch (value : UInt64 → ℝ) (disk : Disk) (A : Analysis) (sources : List MonthSource) (days : List Int)
    (k : Fin A.K) (S : Store A) : Except PyErr (Store A) :=
  (monthLoaders disk sources days.length).bind fun loaders =>
  (loadMonth value disk days loaders).bind fun input =>
  updateComponentTimes A k input S

/-- `process_inputs` (moving_climatology.py 69-87). -/
noncomputable def processInputs (value : UInt64 → ℝ) (disk : Disk) (A : Analysis) (sources : List DaySource) (day : Int)
    (k : Fin A.K) (S : Store A) : Except PyErr (Store A) :=
  (sources.mapM (oneDay disk)).bind fun loaders =>
  (loaders.mapM (loadDay value disk day)).bind fun obs =>
  updateComponentTime A (obs.map fun o => fun _ => o) k day S

end Verif.Eustace.MonthInput
