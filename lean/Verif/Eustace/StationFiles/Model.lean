import Verif.Eustace.Format.Model
import Verif.Eustace.Stations.Model
import Verif.Eumopps.Names.Model

/-!
Model of the files of station data: `FileBuilderStationData` (src/eustace/outputformats/stations.py), the definitions of
its variables (definitions.py 174-180, 413-520 and 558-634), the specifications it is verified against
(verify/specification_stations.py) and their verification (verify/verify_stations.py with verify/verify.py).

Simplified as in `Format.Model`; files on disk are a function from paths to files, and what is logged is kept without
descriptions.
-/
namespace Verif.Eustace.StationFiles
open Verif Verif.Float32 Verif.Eustace.Format

abbrev Text := List Char

/-! ### Definitions -/

/-- `STATION_NAME`, definitions.py 413-418. -/
def stationNameVar : OutVar :=
  ⟨"station_name", .char, some 0, some "Station name".toList, none, Keywords.get [("cf_role", some (.text "timeseries_id"))]⟩

/-- `ELEVATION`, definitions.py 174-180. -/
def elevationVar : OutVar :=
  ⟨"elevation", .float32, some (-9999 / 10), some "Height above the geoid (m)".toList, none,
    Keywords.get [("standard_name", some (.text "surface_altitude")), ("units", some (.text "m"))]⟩

/-- `TASMIN_QC` and `TASMAX_QC`, definitions.py 420-438. -/
def qcVar (name : String) : OutVar :=
  ⟨name, .uint8, some 255, some "Quality control flags".toList, none,
    Keywords.get [("standard_name", some (.text "air_temperature status_flag")), ("valid_range", some (.numbers [0, 0])),
      ("flag_masks", some (.numbers [])), ("flag_meanings", some (.text ""))]⟩

/-- `DETECTION_TIME`, definitions.py 440-446. -/
def detectionTimeVar : OutVar :=
  ⟨"detection_time", .float32, some (defaultFill .float32),
    some "Start time of period for break detection status report (days)".toList, none,
    Keywords.get [("standard_name", some (.text "time")), ("units", some (.text "days since 1850-01-01T00:00:00Z"))]⟩

/-- `TASMIN_DETECTION_QC` and `TASMAX_DETECTION_QC`, definitions.py 448-466. -/
def detectionQcVar (name : String) : OutVar :=
  ⟨name, .uint8, some 255, some "Quality control flags for break detection".toList, none,
    Keywords.get [("standard_name", some (.text "air_temperature status_flag")), ("valid_range", some (.numbers [0, 2])),
      ("flag_values", some (.numbers [0, 1, 2])),
      ("flag_meanings", some (.text "not_possible possible_but_unreliable reliable"))]⟩

/-- `TASMIN_BREAK_STATION` and `TASMAX_BREAK_STATION`, definitions.py 558-562 and 630-634 (which replace 468-478). -/
def breakStationVar (name : String) : OutVar :=
  ⟨name, .int32, some (defaultFill .int32), some "Index of station at which break was detected".toList, none,
    Keywords.get []⟩

/-- `TASMIN_BREAK_AMPLITUDE` and `TASMAX_BREAK_AMPLITUDE`, definitions.py 480-492. -/
def breakAmplitudeVar (name quantity : String) : OutVar :=
  ⟨name, .float32, some (defaultFill .float32), some ("Inhomogeneity in " ++ quantity ++ " surface air temperature").toList,
    none, Keywords.get [("units", some (.text "K"))]⟩

/-- `TASMIN_BREAK_TIME_BOUNDS` and `TASMAX_BREAK_TIME_BOUNDS`, definitions.py 494-506. -/
def breakTimeBoundsVar (name : String) : OutVar :=
  ⟨name, .float32, some (defaultFill .float32), some "Relative time bounds of break evaluation period (days)".toList, none,
    Keywords.get [("units", some (.text "days"))]⟩

/-- `TASMIN_BREAK_TIME_AFFECTED_BOUNDS` and `TASMAX_BREAK_TIME_AFFECTED_BOUNDS`, definitions.py 508-520. -/
def breakAffectedBoundsVar (name : String) : OutVar :=
  ⟨name, .float32, some (defaultFill .float32), some "Relative time bounds of period affected by break (days)".toList, none,
    Keywords.get [("units", some (.text "days since 1850-01-01T00:00:00Z"))]⟩

/-- The variables of definitions.py for files of temperatures, but for `TASMIN` and `TASMAX` which come from a
template. -/
def temperatureDefinitions : List OutVar :=
  [timeVar, timeBoundsVar, latitudeVar, longitudeVar, elevationVar, stationNameVar, qcVar "tasmin_qc", qcVar "tasmax_qc"]

/-- The variables of definitions.py for status files. -/
def statusDefinitions : List OutVar :=
  [detectionTimeVar, detectionQcVar "tasmin_detection_qc", detectionQcVar "tasmax_detection_qc",
   breakStationVar "tasmin_break_station", breakStationVar "tasmax_break_station",
   breakAmplitudeVar "tasmin_break_amplitude" "minimum", breakAmplitudeVar "tasmax_break_amplitude" "maximum",
   breakTimeBoundsVar "tasmin_break_time_bounds", breakTimeBoundsVar "tasmax_break_time_bounds",
   breakAffectedBoundsVar "tasmin_break_time_affected_bounds", breakAffectedBoundsVar "tasmax_break_time_affected_bounds"]

/-! ### Building -/

/-- `StationDescription`, stationdata.py 12-19. -/
structure Station where
  name : List UInt8
  latitude : ℚ
  longitude : ℚ
  elevation : ℚ

/-- The two files of `FileBuilderStationData`, stations.py 26-46. -/
structure Builder where
  temperature : File
  status : File

/-- The constructor, stations.py 26-46 with 16-24 (paths are `temperaturePath` and `statusPath`). -/
def newStationData (institution comment history source : String) : Except PyErr Builder :=
  let temperature := create "EUSTACE Surface Air Temperature Estimates at Stations" institution comment history source
  let status := create "EUSTACE Surface Air Temperature Estimates Station Status" institution comment history source
  match createDimension status "bounds" (some 2) with
  | .error e => .error e
  | .ok status =>
    .ok ⟨{ temperature with attrs := Function.update temperature.attrs "featureType" (some (.text "timeSeries")) }, status⟩

/-- The characters of station names as an array, stations.py 60-68: each name is cut or filled with zeros
(`Stations.storeName`). -/
def nameValues (stations : List Station) : Values :=
  ⟨[stations.length, 32],
   stations.flatMap fun s => (Stations.storeName s.name).map fun b => some (b.toNat : ℚ)⟩

/-- The bounds of days, stations.py 82-83; the sum is in single precision. -/
def boundsValues (times : List ℚ) : Values :=
  ⟨[times.length, 2], times.flatMap fun t => [some t, some (f32 (t + 1))]⟩

/-- `set_temperature_dimensions`, stations.py 48-83. -/
def setTemperatureDimensions (f : File) (stations : List Station) (times : List ℚ) : Except PyErr File :=
  match createDimension f "station" (some stations.length) with
  | .error e => .error e
  | .ok f => match createDimension f "name_strlen" (some 32) with
    | .error e => .error e
    | .ok f => match addVariable f stationNameVar ["station", "name_strlen"] (nameValues stations) with
      | .error e => .error e
      | .ok f => match addAxis f "time" timeVar times true with
        | .error e => .error e
        | .ok f => match createDimension f "bounds" (some 2) with
          | .error e => .error e
          | .ok f => addVariable f timeBoundsVar ["time", "bounds"] (boundsValues times)

/-- The calls of a user of the builder. -/
inductive Step where
  | dimensions (stations : List Station) (times : List ℚ)
  | temperature (v : OutVar) (values : Values)
  | statusDimension (name : String) (size : Option ℕ)
  | statusVariable (dim : String) (v : OutVar) (values : Values) (bounds : Bool)

/-- One call: `set_temperature_dimensions`, `add_temperature_variable`, `add_status_dimension` or `add_status_variable`,
stations.py 48-108.  Simplified as `addVariable` is: an array must have as many dimensions as its variable, so empty lists of
breaks (whose bounds make an array of one dimension) are left out. -/
def step (b : Builder) : Step → Except PyErr Builder
  | .dimensions stations times => match setTemperatureDimensions b.temperature stations times with
    | .error e => .error e
    | .ok f => .ok { b with temperature := f }
  | .temperature v values => match addVariable b.temperature v ["time", "station"] values with
    | .error e => .error e
    | .ok f => .ok { b with temperature := f }
  | .statusDimension name size => match createDimension b.status name size with
    | .error e => .error e
    | .ok f => .ok { b with status := f }
  | .statusVariable dim v values bounds =>
    match addVariable b.status v (if bounds then [dim, "bounds"] else [dim]) values with
    | .error e => .error e
    | .ok f => .ok { b with status := f }

/-- Calls one after the other. -/
def steps : Builder → List Step → Except PyErr Builder
  | b, [] => .ok b
  | b, s :: t => match step b s with
    | .error e => .error e
    | .ok b => steps b t

/-- The path of a component, stations.py 19-20 with definitions.py 28-29; `region.lower()` changes the letters of ASCII. -/
def componentPath (directory region version suffix : Text) : Text :=
  Eumopps.Names.join2 directory
    ("eustace_stations_".toList ++ region.map Char.toLower ++ ['_'] ++ version ++ suffix)

/-- `_temperature.nc`. -/
def temperatureSuffix : Text := "_temperature.nc".toList

/-- `_status.nc`. -/
def statusSuffix : Text := "_status.nc".toList

/-- Files on disk. -/
abbrev Disk := Text → Option File

/-- `save_and_close`, stations.py 110-114: both files are on disk. -/
def save (disk : Disk) (directory region version : Text) (b : Builder) : Disk :=
  Function.update (Function.update disk (componentPath directory region version temperatureSuffix) (some b.temperature))
    (componentPath directory region version statusSuffix) (some b.status)

/-! ### Verification -/

/-- `SpecificationStationTemperature`, specification_stations.py 8-79. -/
def specTemperatureFile : FileSpec :=
  ⟨specAttributes, [("time", none)],
   [⟨"time", some .float32, [("standard_name", some (.text "time")), ("long_name", some (.text "Time at zero longitude")),
      ("units", some (.text "days since 1850-01-01T00:00:00Z")), ("calendar", some (.text "gregorian"))]⟩,
    ⟨"latitude", some .float32, [("standard_name", some (.text "latitude")), ("long_name", some (.text "Latitude (deg)")),
      ("units", some (.text "degrees_north"))]⟩,
    ⟨"longitude", some .float32, [("standard_name", some (.text "longitude")), ("long_name", some (.text "Longitude (deg)")),
      ("units", some (.text "degrees_east"))]⟩,
    specTemperature "tasmin" "Minimum daily surface air temperature" "time: minimum",
    specTemperature "tasmax" "Maximum daily surface air temperature" "time: maximum",
    ⟨"station_name", some .char, [("long_name", some (.text "Station name")), ("cf_role", some (.text "timeseries_id"))]⟩,
    ⟨"elevation", some .float32, [("long_name", some (.text "Height above the geoid (m)")),
      ("standard_name", some (.text "surface_altitude")), ("units", some (.text "m"))]⟩,
    ⟨"tasmin_qc", some .uint8, [("long_name", some (.text "Quality control flags")),
      ("standard_name", some (.text "air_temperature status_flag")), ("valid_range", none), ("flag_masks", none),
      ("flag_meanings", none)]⟩,
    ⟨"tasmax_qc", some .uint8, [("long_name", some (.text "Quality control flags")),
      ("standard_name", some (.text "air_temperature status_flag")), ("valid_range", none), ("flag_masks", none),
      ("flag_meanings", none)]⟩]⟩

/-- The specification of flags of detection, specification_stations.py 103-117. -/
def specDetectionQc (name : String) : VarSpec :=
  ⟨name, some .uint8, [("long_name", some (.text "Quality control flags for break detection")),
    ("standard_name", some (.text "air_temperature status_flag")), ("valid_range", some (.numbers [0, 2])),
    ("flag_values", some (.numbers [0, 1, 2])),
    ("flag_meanings", some (.text "not_possible possible_but_unreliable reliable"))]⟩

/-- `SpecificationStationStatus`, specification_stations.py 82-157. -/
def specStatusFile : FileSpec :=
  ⟨specAttributes, [("detection_time", none), ("tasmin_break", none), ("tasmax_break", none), ("bounds", some 2)],
   [⟨"detection_time", some .float32, [("standard_name", some (.text "time")),
      ("long_name", some (.text "Start time of period for break detection status report (days)")),
      ("units", some (.text "days since 1850-01-01T00:00:00Z"))]⟩,
    specDetectionQc "tasmin_detection_qc",
    specDetectionQc "tasmax_detection_qc",
    ⟨"tasmin_break_station", some .int32, [("long_name", some (.text "Index of station at which break was detected"))]⟩,
    ⟨"tasmax_break_station", some .int32, [("long_name", some (.text "Index of station at which break was detected"))]⟩,
    ⟨"tasmin_break_amplitude", some .float32,
      [("long_name", some (.text "Inhomogeneity in minimum surface air temperature")), ("units", some (.text "K"))]⟩,
    ⟨"tasmax_break_amplitude", some .float32,
      [("long_name", some (.text "Inhomogeneity in maximum surface air temperature")), ("units", some (.text "K"))]⟩,
    ⟨"tasmin_break_time_bounds", some .float32,
      [("long_name", some (.text "Relative time bounds of break evaluation period (days)")), ("units", some (.text "days"))]⟩,
    ⟨"tasmax_break_time_bounds", some .float32,
      [("long_name", some (.text "Relative time bounds of break evaluation period (days)")), ("units", some (.text "days"))]⟩,
    ⟨"tasmin_break_time_affected_bounds", some .float32,
      [("long_name", some (.text "Relative time bounds of period affected by break (days)")),
       ("units", some (.text "days since 1850-01-01T00:00:00Z"))]⟩,
    ⟨"tasmax_break_time_affected_bounds", some .float32,
      [("long_name", some (.text "Relative time bounds of period affected by break (days)")),
       ("units", some (.text "days since 1850-01-01T00:00:00Z"))]⟩]⟩

/-- The pairs of elements which numpy compares in `list == array`, or `none` where the shapes do not fit together. -/
def pairs (expected found : List ℚ) : Option (List (ℚ × ℚ)) :=
  if expected.length = found.length then some (expected.zip found)
  else match expected, found with
    | _, [q] => some (expected.map fun x => (x, q))
    | [x], _ => some (found.map fun q => (x, q))
    | _, _ => none

/-- `all(meta_value == test_value)` for an expected list, verify.py 99-100: where the shapes do not fit, or text is found, the
comparison gives `False` and `all(False)` raises `TypeError`. -/
def compareList (expected : List ℚ) : AttrValue → Except PyErr Bool
  | .text _ => .error .typeError
  | .number q => .ok (expected.all fun x => decide (x = q))
  | .numbers found => match pairs expected found with
    | none => .error .typeError
    | some l => .ok (l.all fun p => decide (p.1 = p.2))

/-- The outcome of comparing one item of metadata, verify.py 96-102. -/
def compare (found : Option AttrValue) (expected : AttrValue) : Except PyErr Bool :=
  match found with
  | none => .ok false
  | some a => match expected with
    | .numbers l => compareList l a
    | e => .ok (decide (a = e))

/-- The checks of one item of metadata, verify.py 94-103. -/
def checkMetadata (v : NcVar) (key : String) (expected : Option AttrValue) : Except PyErr (List Bool) :=
  match expected with
  | none => .ok [(v.attrs key).isSome]
  | some e => match compare (v.attrs key) e with
    | .error e => .error e
    | .ok b => .ok [(v.attrs key).isSome, b]

/-- The checks of all metadata of a variable, verify.py 93-103. -/
def checkAllMetadata (v : NcVar) : List (String × Option AttrValue) → Except PyErr (List Bool)
  | [] => .ok []
  | m :: t => match checkMetadata v m.1 m.2 with
    | .error e => .error e
    | .ok l => match checkAllMetadata v t with
      | .error e => .error e
      | .ok r => .ok (l ++ r)

/-- The checks of one variable, verify.py 89-103. -/
def checkVariable (f : File) (s : VarSpec) : Except PyErr (List Bool) :=
  match f.vars s.name with
  | none => .ok []
  | some v => match checkAllMetadata v s.metadata with
    | .error e => .error e
    | .ok l => .ok ((match s.dtype with
        | none => []
        | some t => [decide (v.dtype = t)]) ++ l)

/-- The checks of recognised variables, verify.py 88-103. -/
def checkEach (f : File) : List VarSpec → Except PyErr (List Bool)
  | [] => .ok []
  | s :: t => match checkVariable f s with
    | .error e => .error e
    | .ok l => match checkEach f t with
      | .error e => .error e
      | .ok r => .ok (l ++ r)

/-- `check_file`, verify.py 118-125, with `check_open` (43-59), `check_variables` (81-103) and what is logged already. -/
def checkFile (logged : List Bool) (file : Option File) (spec : FileSpec) : Except PyErr (List Bool) :=
  match file with
  | none => .ok (logged ++ [false])
  | some f => match checkEach f spec.vars with
    | .error e => .error e
    | .ok l =>
      .ok (logged ++ [true] ++ spec.attributes.flatMap (fun a => checkAttribute f a.1 a.2) ++
        spec.vars.any (fun s => (f.vars s.name).isSome) :: l ++ spec.dimensions.map (fun d => checkDimension f d.1 d.2))

/-- The file at a prefix and suffix, verify_stations.py 20 and 23: there is none for an empty prefix. -/
def openFile (disk : Disk) (namePrefix suffix : Text) : Option File :=
  if namePrefix = [] then none else disk (namePrefix ++ suffix)

/-- `VerifyStationData().run(...)`, verify.py 131-135 with verify_stations.py 13-24: whether all outcomes passed. -/
def verifyStations (disk : Disk) (namePrefix : Text) : Except PyErr Bool :=
  match checkFile [] (openFile disk namePrefix temperatureSuffix) specTemperatureFile with
  | .error e => .error e
  | .ok logged => match checkFile logged (openFile disk namePrefix statusSuffix) specStatusFile with
    | .error e => .error e
    | .ok logged => .ok (hasPassed logged)

/-- The exit status of the program, verify_stations.py 27-39 (an exception ends Python with status 1). -/
def exitStatus (disk : Disk) (namePrefix : Text) : ℕ :=
  match verifyStations disk namePrefix with
  | .ok true => 0
  | _ => 1

end Verif.Eustace.StationFiles
