import Verif.Py
import Mathlib.Analysis.SpecialFunctions.Pow.Real

/-!
Air temperatures over land, ocean and lakes: reading of the intermediate files (src/eustace/surfaceairmodel/fileio/remap.py, land.py,
ocean.py, lake.py), post-processing (post_processing.py), writing (consistent.py), and runs of one or several days (run_land.py,
run_ocean.py, model_land.py, model_ocean.py).

Simplified: floating point values are reals, so that packing to integers in files is left out here (see `Verif.Eustace.Format`); an array
has its shape and a flat list of cells, none where it is masked; not-a-number does not occur. The programs in IDL which are run as other
processes are a parameter: a function from the entry of one day in the configuration file to the file it writes. It is trusted that they
treat the days one by one and fail if one day fails.
-/

namespace Verif.Eustace.SurfaceAir

open Verif

noncomputable section

/-- An array read by the netCDF4 library. `plain` says that it is an array without mask: the library before 1.4 gives one if no cell is
missing. Then the array has no members `mask`, `fill_value` and `filled`. -/
structure Arr where
  shape : List ℕ
  cells : List (Option ℝ)
  plain : Bool

/-- An intermediate file: the time of its first entry in days since the epoch, and its variables. -/
structure Nc where
  time : ℝ
  vars : String → Option Arr

/-- The dictionary of results: the entry `daynumber` and the fields. -/
structure Results where
  day : Option ℤ
  fields : String → Option Arr

/-- Python's `int` of a number: towards zero. -/
def truncate (v : ℝ) : ℤ := if 0 ≤ v then ⌊v⌋ else ⌈v⌉

/-- `GLOBAL_FIELD_SHAPE[1:]`, definitions.py 23. -/
def globalShape : List ℕ := [720, 1440]

/-! ### Reading and renaming -/

/-- The specifications for renaming, remap.py 22-30, 32-56, 58-89. -/
inductive Remap
  | dayNumber
  | copy (output input : String) (offset : Option ℝ)
  | total (output : String) (components : List String)

/-- `netcdf.variables[name][:]`, remap.py 46, 77. -/
def readVar (nc : Nc) (name : String) : Except PyErr Arr :=
  match nc.vars name with
  | none => .error .keyError
  | some a => .ok a

/-- `numpy.squeeze`, remap.py 53, 80: dimensions of size one are taken out. -/
def squeeze (a : Arr) : Arr := { a with shape := a.shape.filter fun n => decide (n ≠ 1) }

/-- `field += offset`, remap.py 49-50. -/
def shift (offset : Option ℝ) (a : Arr) : Arr :=
  match offset with
  | none => a
  | some d => { a with cells := a.cells.map fun c => c.map fun v => v + d }

/-- `sum_squares += numpy.square(field)` for one cell, remap.py 83: masked where either is. -/
def addSquare : Option ℝ → Option ℝ → Option ℝ
  | some s, some v => some (s + v ^ 2)
  | _, _ => none

/-- The loop over the components, remap.py 74-83. Arrays of other shapes, some of which numpy would repeat, are an error here. -/
def sumSquares (nc : Nc) : List String → List (Option ℝ) → Except PyErr (List (Option ℝ))
  | [], acc => .ok acc
  | name :: rest, acc =>
    match readVar nc name with
    | .error e => .error e
    | .ok a =>
      if (squeeze a).shape ≠ globalShape ∨ (squeeze a).cells.length ≠ acc.length then .error .valueError
      else sumSquares nc rest (List.zipWith addSquare acc (squeeze a).cells)

/-- `RemapNetCDFSpecTotalUncertainty.operate`, remap.py 67-89: `numpy.ma.zeros` makes a masked array, and so is the result. -/
def totalField (nc : Nc) (components : List String) : Except PyErr Arr :=
  match sumSquares nc components (List.replicate (720 * 1440) (some 0)) with
  | .error e => .error e
  | .ok cells => .ok ⟨globalShape, cells.map fun c => c.map Real.sqrt, false⟩

/-- `operate`, remap.py 25-30, 42-56, 67-89. -/
def operate (nc : Nc) (r : Results) : Remap → Except PyErr Results
  | .dayNumber => .ok { r with day := some (truncate nc.time) }
  | .copy output input offset =>
    match readVar nc input with
    | .error e => .error e
    | .ok a => .ok { r with fields := Function.update r.fields output (some (squeeze (shift offset a))) }
  | .total output components =>
    match totalField nc components with
    | .error e => .error e
    | .ok a => .ok { r with fields := Function.update r.fields output (some a) }

/-- The loop of `read_fields`, remap.py 111-113. -/
def readLoop (nc : Nc) : List Remap → Results → Except PyErr Results
  | [], r => .ok r
  | m :: rest, r =>
    match operate nc r m with
    | .error e => .error e
    | .ok r => readLoop nc rest r

/-- `RemapNetCDF.read_fields`, remap.py 100-116. -/
def readFields (mapping : List Remap) (nc : Nc) : Except PyErr Results := readLoop nc mapping ⟨none, fun _ => none⟩

/-- `OLD_LAND_ANCILLARY_NAMES`, definitions.py 274-275. -/
def oldLand : List String :=
  ["unc_rand_tasmin", "unc_corr_atm_tasmin", "unc_corr_sfc_tasmin", "unc_sys_tasmin",
    "unc_rand_tasmax", "unc_corr_atm_tasmax", "unc_corr_sfc_tasmax", "unc_sys_tasmax"]

/-- The names of `VARIABLES_ANCILLARY`, land.py 93-103 with definitions.py 210-271. -/
def landAncillary : List String :=
  ["tasmin_unc_rand", "tasmin_unc_corr_atm", "tasmin_unc_corr_sfc", "tasmin_unc_sys",
    "tasmax_unc_rand", "tasmax_unc_corr_atm", "tasmax_unc_corr_sfc", "tasmax_unc_sys",
    "tasmin_model_number", "tasmax_model_number"]

/-- The mapping for land, land.py 105-129. -/
def landMapping : List Remap :=
  [.dayNumber, .copy "tasmin" "tasmin" none, .total "tasminuncertainty" (oldLand.take (oldLand.length / 2)),
    .copy "tasmax" "tasmax" none, .total "tasmaxuncertainty" (oldLand.drop (oldLand.length / 2))]
  ++ (landAncillary.zip (oldLand ++ ["tasmin_model_number", "tasmax_model_number"])).map fun p => .copy p.1 p.2 none

/-- `OLD_OCEAN_ANCILLARY_NAMES`, definitions.py 410-411. -/
def oldOcean : List String :=
  ["unc_rand_tas", "unc_corr_tas", "unc_syst_tas", "unc_corr2_tas", "unc_syst2_tas",
    "unc_parameter_0_tas", "unc_parameter_1_tas", "unc_parameter_2_tas", "unc_parameter_3_tas", "unc_parameter_4_tas"]

/-- The names of `ANCILLARY_VARIABLES`, ocean.py 71-82 with definitions.py 360-408. -/
def oceanAncillary : List String :=
  ["tas_unc_rand", "tas_unc_corr_sat", "tas_unc_sys", "tas_unc_corr_mod", "tas_unc_sys_mod",
    "tas_unc_parameter_0", "tas_unc_parameter_1", "tas_unc_parameter_2", "tas_unc_parameter_3", "tas_unc_parameter_4"]

/-- The mapping for the ocean, ocean.py 84-98. -/
def oceanMapping : List Remap :=
  [.dayNumber, .copy "tas" "tas" (some 273.15), .total "tasuncertainty" oldOcean]
  ++ (oceanAncillary.zip oldOcean).map fun p => .copy p.1 p.2 none

/-! ### Correlation ranges -/

/-- `length_time_scales_dictionary`, correlation_ranges.py 25-27: the last entry of a key counts. The values are numbers or the word
`unknown`, here strings. -/
def scales (keys lengths times : List String) (key : String) : Option (String × String) :=
  ((keys.zip (lengths.zip times)).reverse.find? fun e => e.1 = key).map fun e => e.2

/-- `update_correlated_uncertainty_ranges`, correlation_ranges.py 16-23: length scale, its units, time scale, its units. -/
def updateRanges (keys units lengths times : List String) (key : String) : Except PyErr (String × String × String × String) :=
  match scales keys lengths times key with
  | none => .error .keyError
  | some (l, t) =>
    match units with
    | u :: v :: _ => .ok (l, u, t, v)
    | _ => .error .indexError

/-- `LAND_CORRELATED_UNCERTAINTIES`, land.py 31-34. -/
def landKeys : List String :=
  ["tasmin", "tasmax"].flatMap fun label => ["_unc_corr_sfc", "_unc_corr_atm"].map fun suffix => label ++ suffix

/-- `LAND_CORRELATED_UNCERTAINTIES_LENGTHS`, land.py 35. -/
def landLengths : List String := (List.replicate 2 ["unknown", "unknown"]).flatten

/-- `LAND_CORRELATED_UNCERTAINTIES_TIMES`, land.py 36. -/
def landTimes : List String := (List.replicate 2 ["30.", "unknown"]).flatten

/-- `OCEAN_CORRELATED_UNCERTAINTIES`, ocean.py 35. -/
def oceanKeys : List String := ["tas_unc_corr_sat", "tas_unc_corr_mod"]

/-- `OCEAN_CORRELATED_UNCERTAINTIES_LENGTHS`, ocean.py 36. -/
def oceanLengths : List String := ["100.", "1000."]

/-- `OCEAN_CORRELATED_UNCERTAINTIES_TIMES`, ocean.py 37. -/
def oceanTimes : List String := ["1.", "3."]

/-- `UNITS`, land.py 33, ocean.py 38. -/
def units : List String := ["km", "day"]

/-! ### Post-processing -/

/-- One cell of `update_mask`, post_processing.py 12: both are there, and the minimum is above the maximum. -/
def problem : Option ℝ → Option ℝ → Bool
  | some a, some b => decide (a > b)
  | _, _ => false

/-- `results[name][:].mask = ...` and `.data[:] = ...filled()`, post_processing.py 16-17. The slice shares an array of masks with the
field, but if the field has no array of masks (no cell is missing, `nomask`) then only the slice gets one, and it is thrown away. -/
def setMask (update : List Bool) (a : Arr) : Except PyErr Arr :=
  if a.plain then .error .attributeError
  else if a.cells.any Option.isNone then
    if a.cells.length ≠ update.length then .error .valueError
    else .ok { a with cells := List.zipWith (fun c m => if m then none else c) a.cells update }
  else .ok a

/-- `results[name]`. -/
def entry (r : Results) (name : String) : Except PyErr Arr :=
  match r.fields name with
  | none => .error .keyError
  | some a => .ok a

/-- The loop over the variables, post_processing.py 15-17. -/
def maskLoop (update : List Bool) : List String → Results → Except PyErr Results
  | [], r => .ok r
  | name :: rest, r =>
    match entry r name with
    | .error e => .error e
    | .ok a =>
      match setMask update a with
      | .error e => .error e
      | .ok a => maskLoop update rest { r with fields := Function.update r.fields name (some a) }

/-- `apply_land_post_processing`, post_processing.py 7-17: the results and `problematic_pixels_count`. -/
def postProcess (ancillary : List String) (r : Results) : Except PyErr (Results × ℕ) :=
  match entry r "tasmin" with
  | .error e => .error e
  | .ok tmin =>
    match entry r "tasmax" with
    | .error e => .error e
    | .ok tmax =>
      if tmin.plain ∨ tmax.plain then .error .attributeError
      else if tmin.shape ≠ tmax.shape ∨ tmin.cells.length ≠ tmax.cells.length then .error .valueError
      else
        let update := List.zipWith problem tmin.cells tmax.cells
        match maskLoop update (["tasmin", "tasminuncertainty", "tasmax", "tasmaxuncertainty"] ++ ancillary) r with
        | .error e => .error e
        | .ok r => .ok (r, update.countP fun m => m)

/-! ### Writing -/

abbrev Path := List Char

/-- A file of output as far as is looked at here. -/
structure File where
  day : ℤ
  vars : String → Option (List (Option ℝ))
  comment : String
  institution : String
  catalogue : String

/-- The files. -/
abbrev Disc := Path → Option File

/-- `DatasetAttributesConsistentModelOutput`, consistent.py 20-40, as far as they differ from run to run. -/
structure Attributes where
  institution : String
  catalogue : String
  comment : String

/-- `PRIMARY_VARIABLES`, consistent.py 45. -/
def primaryVariables : List String :=
  ["tas", "tasmin", "tasmax", "tasuncertainty", "tasminuncertainty", "tasmaxuncertainty"]

/-- Can a field be written? A plain array has no member `mask` (consistent.py 70); other shapes do not fit the file. -/
def writable (a : Arr) : Except PyErr Unit :=
  if a.plain then .error .attributeError
  else if a.shape ≠ globalShape then .error .valueError
  else .ok ()

/-- The loop over the variables, consistent.py 61-73: the fields written, and an error which stops it. -/
def writeLoop (r : Results) : List String → (String → Option (List (Option ℝ))) →
    (String → Option (List (Option ℝ))) × Except PyErr Unit
  | [], vars => (vars, .ok ())
  | name :: rest, vars =>
    match r.fields name with
    | none => writeLoop r rest vars
    | some a =>
      match writable a with
      | .error e => (vars, .error e)
      | .ok () => writeLoop r rest (Function.update vars name (some a.cells))

/-- `write_element`, consistent.py 54-76. The lists of names have no duplicates. -/
def writeElement (at' : Attributes) (disc : Disc) (path : Path) (r : Results) (names : List String) : Disc × Except PyErr Unit :=
  match r.day with
  | none => (disc, .error .keyError)
  | some day =>
    let w := writeLoop r names fun _ => none
    (Function.update disc path (some ⟨day, w.1, at'.comment, at'.institution, at'.catalogue⟩), w.2)

/-- `write_primary` and `write_ancillary` one after the other, run_land.py 62-63, 146-148; run_ocean.py 43-44, 101-103. -/
def writeBoth (at' : Attributes) (ancillary : List String) (disc : Disc) (main anc : Path) (r : Results) : Disc × Except PyErr Unit :=
  match writeElement at' disc main r primaryVariables with
  | (disc, .error e) => (disc, .error e)
  | (disc, .ok ()) => writeElement at' disc anc r ancillary

/-! ### Dates in file names -/

/-- `[0-9]`. -/
def isDigit (c : Char) : Bool := decide ('0' ≤ c) && decide (c ≤ '9')

/-- Does `.[0-9]{8}.nc` match here? (A dot matches all but a line feed.) model_land.py 28. -/
def matchesHere (s : List Char) : Bool :=
  match s with
  | c :: rest =>
    decide (c ≠ '\n') && decide ((rest.take 8).length = 8) && (rest.take 8).all isDigit &&
      (match rest.drop 8 with
        | d :: 'n' :: 'c' :: _ => decide (d ≠ '\n')
        | _ => false)
  | [] => false

/-- `re.search('(.[0-9]{4}[0-9]{2}[0-9]{2}.nc)', filename).group(0)`, model_land.py 28: the leftmost match; None has no `group`. -/
def searchPattern : List Char → Except PyErr (List Char)
  | [] => .error .attributeError
  | c :: rest => if matchesHere (c :: rest) then .ok ((c :: rest).take 12) else searchPattern rest

/-- `re.search('([0-9]{4}[0-9]{2}[0-9]{2})', pattern).group(0)`, model_land.py 29. -/
def searchDigits : List Char → Except PyErr (List Char)
  | [] => .error .attributeError
  | c :: rest =>
    if ((c :: rest).take 8).length = 8 ∧ ((c :: rest).take 8).all isDigit then .ok ((c :: rest).take 8) else searchDigits rest

/-- The value of a decimal digit. -/
def digit (c : Char) : ℕ := c.toNat - '0'.toNat

/-- The number written by decimal digits. -/
def number (s : List Char) : ℕ := s.foldl (fun n c => 10 * n + digit c) 0

/-- Days of a month (Python library). -/
def daysIn (year month : ℕ) : ℕ :=
  if month = 2 then if year % 4 = 0 ∧ (year % 100 ≠ 0 ∨ year % 400 = 0) then 29 else 28
  else if month = 4 ∨ month = 6 ∨ month = 9 ∨ month = 11 then 30 else 31

/-- `datetime.strptime(date_string, '%Y%m%d')` for eight digits, model_land.py 30: numbers of one digit cannot use up all eight. -/
def parseDate (s : List Char) : Except PyErr (ℕ × ℕ × ℕ) :=
  let y := number (s.take 4)
  let m := number ((s.drop 4).take 2)
  let d := number ((s.drop 6).take 2)
  if 1 ≤ y ∧ 1 ≤ m ∧ m ≤ 12 ∧ 1 ≤ d ∧ d ≤ daysIn y m then .ok (y, m, d) else .error .valueError

/-- `read_input_file_time`, model_land.py 24-31. -/
def fileDate (name : Path) : Except PyErr (ℕ × ℕ × ℕ) :=
  match searchPattern name with
  | .error e => .error e
  | .ok p =>
    match searchDigits p with
    | .error e => .error e
    | .ok s => parseDate s

/-! ### Runs over land -/

/-- What is given to `run_day` and `return_daily_inputs`, run_land.py 20-31, 65-88. -/
structure LandDay where
  catalogue : String
  institution : String
  main : Path
  ancillary : Path
  parameters : List Path
  day : Path
  night : Path
  snow : Option Path
  mask : Path × Path
  dem : Path
  fvc : Path
  fraction : ℝ
  sampling : ℝ

/-- The part `model` of the configuration, model_land.py 37-40. -/
structure LandModel where
  parameters : List Path
  fraction : ℝ
  sampling : ℝ

/-- An entry of the part `data`, model_land.py 64-71, without the temporary file for output. -/
structure LandEntry where
  date : ℕ × ℕ × ℕ
  fvc : Path
  dem : Path
  mask : Path × Path
  snow : Option Path
  day : Path
  night : Path

/-- An entry of the part `data`, model_land.py 44-73. -/
def landEntry (fvc dem : Path) (mask : Path × Path) (snow : Option Path) (day night : Path) : Except PyErr LandEntry :=
  match fileDate day with
  | .error e => .error e
  | .ok date =>
    match fileDate night with
    | .error e => .error e
    | .ok check => if date ≠ check then .error .valueError else .ok ⟨date, fvc, dem, mask, snow, day, night⟩

/-- Run over a list and stop at the first error. -/
def mapAll {α β : Type} (f : α → Except PyErr β) : List α → Except PyErr (List β)
  | [] => .ok []
  | a :: rest =>
    match f a with
    | .error e => .error e
    | .ok b =>
      match mapAll f rest with
      | .error e => .error e
      | .ok bs => .ok (b :: bs)

/-- The program in IDL for one day: none if it fails, model_land.py 102-128, model_ocean.py 84-110. -/
def runIdl {M E : Type} (idl : M → E → Option Nc) (m : M) (e : E) : Except PyErr Nc :=
  match idl m e with
  | none => .error .valueError
  | some nc => .ok nc

/-- Reading, post-processing and writing of one day, run_land.py 54-63, 138-148; `text` makes the comment from the count. -/
def finishLand (at' : Attributes) (text : ℕ → String) (disc : Disc) (main anc : Path) (nc : Nc) : Disc × Except PyErr Unit :=
  match readFields landMapping nc with
  | .error e => (disc, .error e)
  | .ok r =>
    match postProcess landAncillary r with
    | .error e => (disc, .error e)
    | .ok (r, n) => writeBoth { at' with comment := text n } landAncillary disc main anc r

/-- The comment written by `run_day`, run_land.py 59. -/
def dayComment (n : ℕ) : String := "Percentage of (removed) Tmin > Tmax pixels: " ++ toString n ++ "%"

/-- The comment written by `run_multiple_days`, run_land.py 143. -/
def daysComment (n : ℕ) : String := "Number of (removed) Tmin > Tmax pixels: " ++ toString n

/-- `run_day`, run_land.py 20-63. -/
def runLandDay (idl : LandModel → LandEntry → Option Nc) (disc : Disc) (x : LandDay) : Disc × Except PyErr Unit :=
  match landEntry x.fvc x.dem x.mask x.snow x.day x.night with
  | .error e => (disc, .error e)
  | .ok e =>
    match runIdl idl ⟨x.parameters, x.fraction, x.sampling⟩ e with
    | .error e => (disc, .error e)
    | .ok nc => finishLand ⟨x.institution, x.catalogue, ""⟩ dayComment disc x.main x.ancillary nc

/-- The last loop of a run over several days, run_land.py 136-148, run_ocean.py 95-103. -/
def finishAll {D : Type} (finish : Disc → D → Nc → Disc × Except PyErr Unit) : Disc → List (D × Nc) → Disc × Except PyErr Unit
  | disc, [] => (disc, .ok ())
  | disc, (x, nc) :: rest =>
    match finish disc x nc with
    | (disc, .error e) => (disc, .error e)
    | (disc, .ok ()) => finishAll finish disc rest

/-- `run_multiple_days`, run_land.py 90-148: parameters, mask and so on are those of the first day. -/
def runLandDays (idl : LandModel → LandEntry → Option Nc) (disc : Disc) (days : List LandDay) : Disc × Except PyErr Unit :=
  match days with
  | [] => (disc, .error .indexError)
  | first :: _ =>
    match mapAll (fun x => landEntry first.fvc first.dem first.mask (some (x.snow.getD "MISSING".toList)) x.day x.night) days with
    | .error e => (disc, .error e)
    | .ok entries =>
      match mapAll (runIdl idl ⟨first.parameters, first.fraction, first.sampling⟩) entries with
      | .error e => (disc, .error e)
      | .ok ncs =>
        finishAll (fun disc x nc => finishLand ⟨first.institution, first.catalogue, ""⟩ daysComment disc x.main x.ancillary nc) disc
          (days.zip ncs)

/-! ### Runs over the ocean -/

/-- What is given to `run_day` and `return_daily_inputs`, run_ocean.py 20, 46-57. -/
structure OceanDay where
  catalogue : String
  institution : String
  main : Path
  ancillary : Path
  parameters : Path
  uncertainty : Path
  stdev : Path
  satellite : Path

/-- The part `model` of the configuration, model_ocean.py 35-37: parameters, uncertainty, standard deviation. -/
abbrev OceanModel := Path × Path × Path

/-- An entry of the part `data`, model_ocean.py 50-52: the date and the file. -/
abbrev OceanEntry := (ℕ × ℕ × ℕ) × Path

/-- An entry of the part `data`, model_ocean.py 41-55; `date` gives the date in a file, none if it cannot be read
(`read_netcdf_time`, model_ocean.py 23-29). -/
def oceanEntry (date : Path → Option (ℕ × ℕ × ℕ)) (satellite : Path) : Except PyErr OceanEntry :=
  match date satellite with
  | none => .error .runtimeError
  | some d => .ok (d, satellite)

/-- Reading and writing of one day, run_ocean.py 39-44, 97-103. -/
def finishOcean (at' : Attributes) (disc : Disc) (main anc : Path) (nc : Nc) : Disc × Except PyErr Unit :=
  match readFields oceanMapping nc with
  | .error e => (disc, .error e)
  | .ok r => writeBoth at' oceanAncillary disc main anc r

/-- `run_day`, run_ocean.py 20-44. -/
def runOceanDay (date : Path → Option (ℕ × ℕ × ℕ)) (idl : OceanModel → OceanEntry → Option Nc) (disc : Disc) (x : OceanDay) :
    Disc × Except PyErr Unit :=
  match oceanEntry date x.satellite with
  | .error e => (disc, .error e)
  | .ok e =>
    match runIdl idl (x.parameters, x.uncertainty, x.stdev) e with
    | .error e => (disc, .error e)
    | .ok nc => finishOcean ⟨x.institution, x.catalogue, ""⟩ disc x.main x.ancillary nc

/-- `run_multiple_days`, run_ocean.py 59-103: the parameters are those of the first day. -/
def runOceanDays (date : Path → Option (ℕ × ℕ × ℕ)) (idl : OceanModel → OceanEntry → Option Nc) (disc : Disc)
    (days : List OceanDay) : Disc × Except PyErr Unit :=
  match days with
  | [] => (disc, .error .indexError)
  | first :: _ =>
    match mapAll (fun x => oceanEntry date x.satellite) days with
    | .error e => (disc, .error e)
    | .ok entries =>
      match mapAll (runIdl idl (first.parameters, first.uncertainty, first.stdev)) entries with
      | .error e => (disc, .error e)
      | .ok ncs =>
        finishAll (fun disc x nc => finishOcean ⟨first.institution, first.catalogue, ""⟩ disc x.main x.ancillary nc) disc
          (days.zip ncs)

/-! ### Lakes -/

/-- A line of a file of lake temperatures, lake.py 22-26, 44. -/
structure Reading where
  time : ℝ
  latitude : ℝ
  longitude : ℝ
  celsius : ℝ

/-- `location_signature`, lake.py 47-49. -/
def signature (x : Reading) : ℤ := truncate (360 * 1000000 * x.latitude) + truncate (1000000 * x.longitude)

/-- Put a number into a sorted list without duplicates. -/
def insertSorted (v : ℤ) : List ℤ → List ℤ
  | [] => [v]
  | w :: rest => if v < w then v :: w :: rest else if v = w then w :: rest else w :: insertSorted v rest

/-- `numpy.unique` (numpy library): the values in order, once each. -/
def unique (values : List ℤ) : List ℤ := values.foldr insertSorted []

/-- What `ObservationSourceLakeReading` holds, lake.py 52-63. -/
structure Lakes where
  ids : List ℕ
  lookup : List (ℝ × ℝ)
  times : List ℝ
  kelvin : List ℝ

/-- `ObservationSourceLakeReading.__init__`, lake.py 38-63: `return_index` gives the first place of each value, `return_inverse` the
number of the value at each place. -/
def loadLakes (readings : List Reading) : Lakes :=
  let s := readings.map signature
  let u := unique s
  ⟨s.map fun v => u.idxOf v,
    u.filterMap fun v => (readings[s.idxOf v]?).map fun x => (x.latitude, x.longitude),
    readings.map fun x => x.time,
    readings.map fun x => x.celsius + 273.15⟩

end

end Verif.Eustace.SurfaceAir
