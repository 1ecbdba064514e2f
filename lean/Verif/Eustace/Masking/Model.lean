import Verif.Eustace.Flags.Model
import Verif.Eustace.Smooth.Model
import Verif.Eustace.Percentiles.Model
import Verif.Eustace.Dates.Model
import Verif.Eustace.Insitu.Ocean
import Mathlib.Analysis.Real.Pi.Bounds
import Mathlib.Data.List.Sort

/-! Model of the quality control of the analysis as a whole: src/eustace/postprocess/threshold_check.py, outlier_check.py,
cell_percentile_calculation.py, cell_percentile_threshold.py and apply_mask.py, and the order in which the scripts in
src/eustace/postprocess/lsf run them and the scripts modelled in `Flags`.

A field of the global grid is a function of row and column; only indices below 720 and 1440 matter. Floating point numbers are
rational numbers, and the analysis has no missing values. The directory of each step is a function of the date. Attributes of
the files and messages are not modelled. -/
namespace Verif.Eustace.Masking
open Verif Verif.Calendar Verif.Eustace.Flags

/-- `GLOBAL_FIELD_SHAPE[1]`, definitions.py. -/
def rows : ℕ := 720

/-- `GLOBAL_FIELD_SHAPE[2]`, definitions.py. -/
def columns : ℕ := 1440

/-- A cell of the global grid. -/
abbrev Cell := ℕ × ℕ

/-- A field of the global grid. -/
abbrev Grid := Smooth.Field ℚ

/-- A field of flags. -/
abbrev FlagField := Flags.Field Cell

/-- A cube of Iris: the result of `name()` (standard name or else long name or else name of the variable), the name of the
variable and the data. -/
structure Cube where
  name : String
  varName : String
  data : Grid

/-- The files of the analysis for one day: whole analysis and components; `none` for a file which does not exist. -/
structure DayFiles where
  analysis : Option (List Cube)
  climatology : Option (List Cube)
  largeScale : Option (List Cube)
  localScale : Option (List Cube)

/-! ### Reading, apply_mask.py 155-236 -/

/-- The variables of the loops in `load_analysis` and the other functions which load products; `none` while unbound. -/
structure Loading where
  analysis : Option Grid
  uncertainty : Option Grid
  influence : Option Grid
  ensemble : List Cube

/-- What the functions return. -/
structure Product where
  analysis : Grid
  uncertainty : Grid
  influence : Grid
  ensemble : List Cube

/-- One cube in the loop of `load_analysis`, apply_mask.py 163-174. -/
def loadStep (s : Loading) (c : Cube) : Loading :=
  if c.name = "air_temperature" then { s with analysis := some c.data }
  else if c.name = "Total uncertainty in average daily surface air temperature" then { s with uncertainty := some c.data }
  else if c.name = "Observation influence for average daily surface air temperature" then { s with influence := some c.data }
  else if c.name = "Average daily surface air temperature ensemble" then { s with ensemble := s.ensemble ++ [c] }
  else s

/-- `load_analysis`, apply_mask.py 155-176; a name which is not in the file leaves a variable unbound. -/
def loadAnalysis (file : Option (List Cube)) : Except PyErr Product :=
  match file with
  | none => .error .other
  | some cubes =>
    let s := cubes.foldl loadStep ⟨none, none, none, []⟩
    match s.analysis, s.uncertainty, s.influence with
    | some a, some u, some i => .ok ⟨a, u, i, s.ensemble⟩
    | _, _, _ => .error .nameError

/-- `load_climatology`, `load_large_scale` and `load_local`, apply_mask.py 178-236: as `load_analysis`, without the members of
the ensemble. -/
def loadComponent (file : Option (List Cube)) : Except PyErr Product :=
  match loadAnalysis file with
  | .error e => .error e
  | .ok p => .ok { p with ensemble := [] }

/-! ### Coast, threshold_check.py 83-102 and apply_mask.py 84-109 -/

/-- `coastal_influence[0,:] = LAND_VALUE`, threshold_check.py 92. -/
def setFirstRow (v : ℚ) (g : Grid) : Grid := fun i j => if i = 0 then v else g i j

/-- `coastal_influence[-1,:] = SEA_VALUE`, threshold_check.py 93. -/
def setLastRow (v : ℚ) (g : Grid) : Grid := fun i j => if i = rows - 1 then v else g i j

/-- `coastal_influence[:,0] = coastal_influence[:,1]`, threshold_check.py 94. -/
def copyFirstColumn (g : Grid) : Grid := fun i j => if j = 0 then g i 1 else g i j

/-- `coastal_influence[:,-1] = coastal_influence[:,-2]`, threshold_check.py 95. -/
def copyLastColumn (g : Grid) : Grid := fun i j => if j = columns - 1 then g i (columns - 2) else g i j

/-- The map of water with its border replaced, threshold_check.py 85-95 and apply_mask.py 91-101. -/
def coastMap (coast : Grid) : Grid := copyLastColumn (copyFirstColumn (setLastRow 100 (setFirstRow 0 coast)))

/-- `get_marine_flag`, threshold_check.py 83-102: all water. -/
def marineFlag (coast : Grid) : FlagField :=
  setFlag MISSING_MARINE (fun c => coastMap coast c.1 c.2 == 100) fun _ => NULL

/-- `marine_locations` of `reset_marine_flag`, apply_mask.py 105: more than 95 percent water. -/
def isMarine (coast : Grid) (c : Cell) : Bool := coastMap coast c.1 c.2 > 95

/-! ### Thresholds, threshold_check.py 111-229 -/

/-- `CLIMATOLOGY_UNC_SMOOTH_WINDOW`, threshold_check.py 71. -/
def climatologyWindow : ℕ := 13

/-- `LARGE_SCALE_UNC_SMOOTH_WINDOW`, threshold_check.py 72. -/
def largeScaleWindow : ℕ := 17

/-- `LOCAL_INFLUENCE_SMOOTH_WINDOW`, threshold_check.py 73. -/
def localWindow : ℕ := 5

/-- `compute_window_mean(field, window, window)`, outlier_check.py 161-203, on the global grid. -/
def smooth (window : ℕ) (g : Grid) : Grid := Smooth.windowMean rows columns (window / 2) (window / 2) g

/-- `climatology_uncertainty_checks`, threshold_check.py 111-136. A file which cannot be loaded is reported, and then
`uncertainty` is unbound. -/
def climatologyFlags (f : DayFiles) (limit : ℚ) : Except PyErr FlagField :=
  match loadComponent f.climatology with
  | .error _ => .error .nameError
  | .ok p => .ok (setFlag CLIMATOLOGY_UNC (fun c => smooth climatologyWindow p.uncertainty c.1 c.2 > limit) fun _ => NULL)

/-- `large_scale_uncertainty_checks`, threshold_check.py 138-163. -/
def largeScaleFlags (f : DayFiles) (limit : ℚ) : Except PyErr FlagField :=
  match loadComponent f.largeScale with
  | .error _ => .error .nameError
  | .ok p => .ok (setFlag LARGE_SCALE_UNC (fun c => smooth largeScaleWindow p.uncertainty c.1 c.2 > limit) fun _ => NULL)

/-- `local_influence_checks`, threshold_check.py 165-190: the influence of the whole analysis. -/
def localFlags (f : DayFiles) (limit : ℚ) : Except PyErr FlagField :=
  match loadAnalysis f.analysis with
  | .error _ => .error .nameError
  | .ok p => .ok (setFlag DAY (fun c => smooth localWindow p.influence c.1 c.2 < limit) fun _ => NULL)

/-- The flags of one day, `flagging_operation` in threshold_check.py 218-225. -/
def thresholdFlags (coast : Grid) (climatologyLimit largeScaleLimit constraintLimit : ℚ) (f : DayFiles) :
    Except PyErr FlagField :=
  match climatologyFlags f climatologyLimit with
  | .error e => .error e
  | .ok a =>
    match largeScaleFlags f largeScaleLimit with
    | .error e => .error e
    | .ok b =>
      match localFlags f constraintLimit with
      | .error e => .error e
      | .ok l => .ok fun c => a c ||| b c ||| l c ||| marineFlag coast c

/-! ### Outliers, outlier_check.py 59-391 -/

/-- One of `numpy.percentile(values, [25, 50, 75])`: linear interpolation between the values in order (numpy). -/
def percentile (p : ℚ) (values : List ℚ) : ℚ :=
  let s := values.insertionSort (· ≤ ·)
  let x := p / 100 * ((s.length : ℚ) - 1)
  let k := x.floor.toNat
  let f := x - k
  s.getD k 0 * (1 - f) + s.getD (k + 1) 0 * f

/-- Lower quartile, median and upper quartile, outlier_check.py 152. -/
structure Quartiles where
  lower : ℚ
  median : ℚ
  upper : ℚ

/-- `numpy.percentile(values, [25, 50, 75])`, outlier_check.py 152 and cell_percentile_calculation.py 39. -/
def quartiles (values : List ℚ) : Quartiles := ⟨percentile 25 values, percentile 50 values, percentile 75 values⟩

/-- `latitude_delta`, outlier_check.py 98-100: degrees of an arc to the north. -/
noncomputable def latitudeDelta (km : ℝ) : ℝ := km / 6371 * 180 / Real.pi

/-- `longitude_delta`, outlier_check.py 102-104: degrees of an arc to the east. -/
noncomputable def longitudeDelta (km latitude : ℝ) : ℝ :=
  km / (6371 * Real.sin (Real.pi / 2 - latitude * Real.pi / 180)) * 180 / Real.pi

/-- `SEARCH_RANGE_KM`, outlier_check.py 67. -/
noncomputable def searchRange : ℝ := 750

/-- `MAX_LATITUDE_SEARCH_RANGE_GRID_CELLS` and `MAX_LONGITUDE_SEARCH_RANGE_GRID_CELLS`, outlier_check.py 68-69. -/
def maxRange : ℕ := 50

/-- `LATITUDE_BLOCK_SIZE`, outlier_check.py 70. -/
def latitudeBlock : ℕ := 20

/-- `centre_latitude`, outlier_check.py 233: the mean of the latitudes of the rows of a block; row `k` has latitude
-90 + (k + 1/2) / 4. -/
noncomputable def centreLatitude (block : ℕ) : ℝ := -90 + ((latitudeBlock : ℝ) * block + latitudeBlock / 2) / 4

/-- `latitude_range_grid`, outlier_check.py 236-237. The distance between rows is a quarter of a degree. -/
noncomputable def latitudeRange : ℕ := min ⌈latitudeDelta searchRange / (1 / 4)⌉.toNat maxRange

/-- `longitude_range_grid`, outlier_check.py 240-241. -/
noncomputable def longitudeRange (block : ℕ) : ℕ :=
  min ⌈longitudeDelta searchRange (centreLatitude block) / (1 / 4)⌉.toNat maxRange

/-- `altitude_adjustment`, outlier_check.py 277-284, for altitudes in metres. -/
def altitudeAdjusted (altitude analysis : Grid) : Grid := fun i j => analysis i j - (-(45 / 10)) * (altitude i j * (1 / 1000))

/-- `QUARTILE_LIMIT`, outlier_check.py 81. -/
def quartileLimit : ℚ := 4

/-- `OUTLIER_MASK_WINDOW`, outlier_check.py 86. -/
def outlierWindow : ℕ := 5

/-- `EXTREME_LOWER_LIMIT`, outlier_check.py 82. -/
def extremeLow : ℚ := 19315 / 100

/-- `EXTREME_UPPER_LIMIT`, outlier_check.py 83. -/
def extremeHigh : ℚ := 33315 / 100

/-- `numpy.int64(1.0 - compute_window_mean(flagged, window, window)) == 0`, outlier_check.py 306-307, on the global grid. -/
def extended (flagged : Smooth.Field Bool) (c : Cell) : Bool :=
  Smooth.extend rows columns (outlierWindow / 2) (outlierWindow / 2) flagged c.1 c.2

/-- `block_iqr_by_range` for the global grid, outlier_check.py 205-269. -/
noncomputable def arealQuartiles (g : Grid) : Smooth.Field (Option Quartiles) :=
  Smooth.blockStatistics quartiles ⟨0, 0, 0⟩ rows columns latitudeBlock latitudeRange longitudeRange g

/-- `areal_low_value_exceedance`, outlier_check.py 348 and 352; comparison with NaN is false. -/
def arealLow (q : Option Quartiles) (x : ℚ) : Bool :=
  match q with
  | none => false
  | some q => x < q.lower - quartileLimit * (q.median - q.lower)

/-- `areal_high_value_exceedance`, outlier_check.py 349 and 353. -/
def arealHigh (q : Option Quartiles) (x : ℚ) : Bool :=
  match q with
  | none => false
  | some q => x > q.upper + quartileLimit * (q.upper - q.median)

/-- `areal_checks`, outlier_check.py 317-365. -/
noncomputable def arealFlags (altitude : Grid) (f : DayFiles) : Except PyErr FlagField :=
  match loadAnalysis f.analysis with
  | .error _ => .error .nameError
  | .ok p =>
    let g := altitudeAdjusted altitude p.analysis
    let q := arealQuartiles g
    .ok (setFlag AREAL_HIGH (extended fun i j => arealHigh (q i j) (g i j))
      (setFlag AREAL_LOW (extended fun i j => arealLow (q i j) (g i j)) fun _ => NULL))

/-- `extremes_checks`, outlier_check.py 286-315. -/
def extremeFlags (f : DayFiles) : Except PyErr FlagField :=
  match loadAnalysis f.analysis with
  | .error _ => .error .nameError
  | .ok p => .ok (setFlag EXTREME_HIGH (extended fun i j => p.analysis i j > extremeHigh)
      (setFlag EXTREME_LOW (extended fun i j => p.analysis i j < extremeLow) fun _ => NULL))

/-- The flags of one day, `flagging_operation` in outlier_check.py 385-389. -/
noncomputable def outlierFlags (altitude : Grid) (f : DayFiles) : Except PyErr FlagField :=
  match arealFlags altitude f with
  | .error e => .error e
  | .ok a =>
    match extremeFlags f with
    | .error e => .error e
    | .ok b => .ok fun c => a c ||| b c

/-! ### Percentiles of cells, cell_percentile_calculation.py 20-44 and cell_percentile_threshold.py 84-114 -/

/-- Quartiles of each cell. -/
abbrev QuartileGrid := Smooth.Field Quartiles

/-- `iris.load(files_to_load, u'air_temperature')`, cell_percentile_calculation.py 35: `none` if a file does not exist. Each
file has its own time as a dimension, so that Iris does not merge cubes; their order does not matter for percentiles. -/
def loadTemperatures (files : Date → DayFiles) : List Date → Option (List Grid)
  | [] => some []
  | d :: ds =>
    match (files d).analysis, loadTemperatures files ds with
    | some cubes, some rest => some ((cubes.filter (·.name = "air_temperature")).map (·.data) ++ rest)
    | _, _ => none

/-- `cell_percentile_calculation`, cell_percentile_calculation.py 20-44; there must be something to stack. -/
def cellPercentiles (files : Date → DayFiles) (startYear endYear calendarDay : ℕ) : Except PyErr QuartileGrid :=
  match loadTemperatures files (Percentiles.datesToLoad startYear endYear calendarDay) with
  | none => .error .other
  | some [] => .error .valueError
  | some grids => .ok fun i j => quartiles (grids.map fun g => g i j)

/-- `QUARTILE_LIMIT`, cell_percentile_threshold.py 75. -/
def locationLimit : ℚ := 8

/-- `location_threshold_checks`, cell_percentile_threshold.py 84-114. -/
def locationFlags (percentiles : ℕ × ℕ → Option QuartileGrid) (f : DayFiles) (d : Date) : Except PyErr FlagField :=
  match loadAnalysis f.analysis with
  | .error _ => .error .nameError
  | .ok p =>
    match percentiles (Percentiles.inputKey d) with
    | none => .error .other
    | some q =>
      .ok (setFlag LOCATION_HIGH (fun c => p.analysis c.1 c.2 >
          (q c.1 c.2).median + locationLimit * ((q c.1 c.2).upper - (q c.1 c.2).median))
        (setFlag LOCATION_LOW (fun c => p.analysis c.1 c.2 <
          (q c.1 c.2).median - locationLimit * ((q c.1 c.2).median - (q c.1 c.2).lower)) fun _ => NULL))

/-! ### Running a step for all months -/

/-- The loop over the days of an operation, for example threshold_check.py 212-229: an error stops it, and the files written
before are kept. -/
def processed {α β : Type} (step : α → Except PyErr β) : List α → List (α × β)
  | [] => []
  | d :: ds =>
    match step d with
    | .error _ => []
    | .ok v => (d, v) :: processed step ds

/-- The operations of a job array, src/eustace/postprocess/lsf/submit_threshold_flags.sh 43-61 and
flagging_job_thresholds.sh 12: the index of an operation is that of the job minus one. -/
def jobs (startYear endYear : ℕ) : List (List Date) :=
  (List.range (Dates.operationCount startYear endYear).toNat).map fun i : ℕ => Dates.operationDates ⟨startYear, 1, 1⟩ i

/-- The directory written by a job array, for an empty directory before. The operations do not share days. -/
def stage {α β : Type} [DecidableEq α] (step : α → Except PyErr β) (operations : List (List α)) (d : α) : Option β :=
  ((operations.flatMap (processed step)).find? (·.1 = d)).map (·.2)

/-- The files of percentiles, cell_percentile_calculation.py 47-58 for each of the twelve months
(submit_cell_percentile_calculation.sh 48-49). -/
def percentileFiles (files : Date → DayFiles) (startYear endYear : ℕ) (key : ℕ × ℕ) : Option QuartileGrid :=
  (((List.range' 1 12).flatMap fun month =>
    processed (cellPercentiles files startYear endYear) (Percentiles.calendarDays month)).find?
      fun e => Percentiles.outputKey e.1 = key).map (·.2)

/-- What the scripts set: limits, windows and years. -/
structure Settings where
  climatologyLimit : ℚ
  largeScaleLimit : ℚ
  constraintLimit : ℚ
  windowRange : ℕ
  windowCount : ℕ
  outlierRange : ℕ
  outlierCount : ℕ
  /-- `START_YEAR` and `END_YEAR`, the arguments of all scripts -/
  startYear : ℕ
  endYear : ℕ
  /-- `SEARCH_START_YEAR` and `SEARCH_END_YEAR` -/
  searchStart : ℕ
  searchEnd : ℕ
  /-- `START_YEAR` and `END_YEAR` in submit_cell_percentile_calculation.sh -/
  percentileStart : ℕ
  percentileEnd : ℕ

/-- The settings in the scripts for the analysis since 1880: submit_threshold_flags.sh 24-26, submit_masking_window.sh 28-29,
submit_masking_calendar.sh 22-23, submit_outlier_window.sh 24-25, submit_cell_percentile_calculation.sh 11-12. -/
def settings1880 : Settings := ⟨7 / 10, 7 / 10, 6 / 10, 10, 5, 10, 10, 1880, 2015, 1880, 2015, 1981, 2010⟩

/-- Everything which is read: products, water and altitudes. -/
structure Inputs where
  files : Date → DayFiles
  coast : Grid
  altitude : Grid

/-- submit_threshold_flags.sh. -/
def thresholdFiles (x : Inputs) (s : Settings) : Files Cell :=
  stage (fun d => thresholdFlags x.coast s.climatologyLimit s.largeScaleLimit s.constraintLimit (x.files d))
    (jobs s.startYear s.endYear)

/-- submit_masking_window.sh; the flag of the day is the target, window_check.py 192. -/
def windowFiles (x : Inputs) (s : Settings) : Files Cell :=
  stage (fun d => windowCheck (thresholdFiles x s) d s.windowRange s.windowCount DAY) (jobs s.startYear s.endYear)

/-- submit_masking_calendar.sh; target as in calendar_check.py 165. -/
def calendarFiles (x : Inputs) (s : Settings) : Files Cell :=
  stage (fun d => calendarCheck (windowFiles x s) d s.searchStart s.searchEnd CALENDAR_DAY) (jobs s.startYear s.endYear)

/-- submit_outlier_flagging.sh. -/
noncomputable def outlierFiles (x : Inputs) (s : Settings) : Files Cell :=
  stage (fun d => outlierFlags x.altitude (x.files d)) (jobs s.startYear s.endYear)

/-- submit_outlier_window.sh. -/
noncomputable def persistentFiles (x : Inputs) (s : Settings) : Files Cell :=
  stage (fun d => outlierCheck (outlierFiles x s) d s.outlierRange s.outlierCount) (jobs s.startYear s.endYear)

/-- `merged_flags` with its two directories, merge_flag_files.py 28-48: a file which is missing is an error. -/
def mergeStep (first second : Files Cell) (d : Date) : Except PyErr FlagField :=
  match first d, second d with
  | some a, some b => .ok (merged a b)
  | _, _ => .error .other

/-- submit_merge_flag_files.sh: outliers are the first directory and constraints the second. -/
noncomputable def mergedFiles (x : Inputs) (s : Settings) : Files Cell :=
  stage (mergeStep (persistentFiles x s) (calendarFiles x s)) (jobs s.startYear s.endYear)

/-- submit_location_flags.sh. -/
def locationFiles (x : Inputs) (s : Settings) : Files Cell :=
  stage (fun d => locationFlags (percentileFiles x.files s.percentileStart s.percentileEnd) (x.files d) d)
    (jobs s.startYear s.endYear)

/-! ### Applying the mask, apply_mask.py 274-438 -/

/-- A field in a file, with `none` for missing. -/
structure MaskedField where
  name : String
  values : Smooth.Field (Option ℚ)

/-- Which file is written. -/
inductive Kind where
  | analysis
  | climatology
  | largeScale
  | localScale
  deriving DecidableEq

/-- `numpy.ma.masked_where(mask, data)`, apply_mask.py 321. -/
def maskedWhere (mask : Cell → Bool) (g : Grid) : Smooth.Field (Option ℚ) := fun i j => if mask (i, j) then none else some (g i j)

/-- `int(item.var_name.split('_')[-1])`, apply_mask.py 326. -/
def memberIndex (varName : String) : Option ℤ :=
  Insitu.Ocean.intOf ((varName.toList.reverse.takeWhile (· ≠ '_')).reverse)

/-- The keys for sorting, `none` if one is not a number. -/
def memberIndices : List Cube → Option (List (ℤ × Cube))
  | [] => some []
  | c :: cs =>
    match memberIndex c.varName, memberIndices cs with
    | some k, some rest => some ((k, c) :: rest)
    | _, _ => none

/-- `sorted(ensemble_members, key=...)`, apply_mask.py 326. -/
def sortedMembers (members : List Cube) : Option (List Cube) :=
  (memberIndices members).map fun l => (l.insertionSort fun a b => a.1 ≤ b.1).map (·.2)

/-- `name + '_' + str(index)`, apply_mask.py 330. -/
def memberName (index : ℕ) : String := String.ofList ("tasensemble_".toList ++ Nat.toDigits 10 index)

/-- The loop over members, apply_mask.py 328-331. -/
def memberFields (mask : Cell → Bool) (members : List Cube) : List MaskedField :=
  (List.range members.length).zipWith (fun k c => ⟨memberName k, maskedWhere mask c.data⟩) members

/-- Temperature, uncertainty and influence, apply_mask.py 321-323 (and 353-355, 376-378, 399-401). -/
def mainFields (name : String) (mask : Cell → Bool) (p : Product) : List MaskedField :=
  [⟨name, maskedWhere mask p.analysis⟩, ⟨"tasuncertainty", maskedWhere mask p.uncertainty⟩,
   ⟨"tasobservationinfluence", maskedWhere mask p.influence⟩]

/-- `apply_mask` once the mask is computed, apply_mask.py 290-404: the files which are written and the error which stops it. A
file which is not complete is closed by Python. -/
def applyMask (iteration : ℕ) (f : DayFiles) (mask : Cell → Bool) : List (Kind × List MaskedField) × Option PyErr :=
  match loadAnalysis f.analysis with
  | .error e => ([], some e)
  | .ok p =>
    if iteration = 4 ∨ iteration = 9 then
      match sortedMembers p.ensemble with
      | none => ([(.analysis, mainFields "tas" mask p)], some .valueError)
      | some members =>
        let out := [(Kind.analysis, mainFields "tas" mask p ++ memberFields mask members)]
        match loadComponent f.climatology with
        | .error e => (out, some e)
        | .ok c =>
          let out := out ++ [(.climatology, mainFields "tas" mask c)]
          match loadComponent f.largeScale with
          | .error e => (out, some e)
          | .ok l =>
            let out := out ++ [(.largeScale, mainFields "tas_perturbation" mask l)]
            match loadComponent f.localScale with
            | .error e => (out, some e)
            | .ok s => (out ++ [(.localScale, mainFields "tas_perturbation" mask s)], none)
    else ([], some .nameError)

/-- `apply_mask` and the choice of rules in `masking_operation`, apply_mask.py 274-288 and 433-438. -/
def maskDay (x : Inputs) (iteration : ℕ) (flags location : Files Cell) (d : Date) : List (Kind × List MaskedField) × Option PyErr :=
  match flags d, location d with
  | some a, some b => applyMask iteration (x.files d) (combinedMask (isMarine x.coast) (rulesForYear d.year) a (some b))
  | _, _ => ([], some .other)

/-- The loop of `masking_operation`, apply_mask.py 425-438. -/
def maskMonth (step : Date → List (Kind × List MaskedField) × Option PyErr) : List Date → List (Date × Kind × List MaskedField)
  | [] => []
  | d :: ds =>
    let out := (step d).1.map fun o => (d, o.1, o.2)
    match (step d).2 with
    | some _ => out
    | none => out ++ maskMonth step ds

/-- submit_mask_apply.sh: everything which is published. -/
noncomputable def published (x : Inputs) (s : Settings) (iteration : ℕ) : List (Date × Kind × List MaskedField) :=
  (jobs s.startYear s.endYear).flatMap (maskMonth (maskDay x iteration (mergedFiles x s) (locationFiles x s)))

end Verif.Eustace.Masking
