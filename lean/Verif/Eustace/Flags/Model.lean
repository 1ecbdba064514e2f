import Verif.Months
import Verif.Py

/-! Model of the quality flags: src/eustace/postprocess/flags.py, apply_mask.py, window_check.py, calendar_check.py,
outlier_window_check.py and merge_flag_files.py.

A flag word is an unsigned 16 bit word. A field of flag words is a function of the grid cell; the shape of the grid is left
open. Reading a file is a function of the date, `none` when reading raises (the code skips such dates). Masked array data is
not modelled, nor are the file names and attributes. -/
namespace Verif.Eustace.Flags
open Verif Verif.Calendar

/-- `FLAG_TYPE`, flags.py 15. The constants are computed as wider integers by numpy, but hold the same bits. -/
abbrev Word := BitVec 16

/-- One bit: `FLAG_TYPE(1) << n`, flags.py 23-52. -/
def bit (n : Nat) : Word := 1#16 <<< n

/-- flags.py 19. -/
def NULL : Word := 0#16
/-- flags.py 23. -/
def DAY : Word := bit 0
/-- flags.py 24. -/
def PRIOR_WINDOW : Word := bit 1
/-- flags.py 25. -/
def POST_WINDOW : Word := bit 2
/-- flags.py 27. -/
def PRIOR_CALENDAR : Word := bit 3
/-- flags.py 28. -/
def POST_CALENDAR : Word := bit 4
/-- flags.py 30. -/
def CLIMATOLOGY_UNC : Word := bit 5
/-- flags.py 31. -/
def LARGE_SCALE_UNC : Word := bit 6
/-- flags.py 33. -/
def AREAL_LOW : Word := bit 7
/-- flags.py 34. -/
def AREAL_HIGH : Word := bit 8
/-- flags.py 35. -/
def EXTREME_LOW : Word := bit 9
/-- flags.py 36. -/
def EXTREME_HIGH : Word := bit 10
/-- flags.py 37. -/
def PERSISTANT_OUTLIER : Word := bit 11
/-- flags.py 40. -/
def MISSING_MARINE : Word := bit 12
/-- flags.py 46. -/
def LOCATION_LOW : Word := bit 13
/-- flags.py 47. -/
def LOCATION_HIGH : Word := bit 14
/-- `MISSING_FLAG_FLAG`, flags.py 50. -/
def MISSING_FLAG : Word := bit 15
/-- flags.py 53. -/
def CALENDAR_DAY : Word := DAY ||| PRIOR_WINDOW ||| POST_WINDOW
/-- flags.py 18. -/
def FLAG_MAX_USED : Nat := 13

/-- `FLAG_MEANINGS`, flags.py 55-70. -/
def FLAG_MEANINGS : List String :=
  ["day_constraint", "prior_window_constraint", "post_window_constraint", "prior_calendar_constraint",
   "post_calendar_constraint", "climatology_uncertainty_qc", "large_scale_uncertainty_qc", "areal_low_value_qc",
   "areal_high_value_qc", "extreme_low_value_qc", "extreme_high_value_qc", "marine_location_flag", "location_low_value_qc",
   "location_high_value_qc", "unconstrained_calendar_day_qc"]

/-- The constants of flags.py 23-50 with the name each would carry in `flag_meanings`, in the order they are defined; the
persistent outlier flag has no entry in `FLAG_MEANINGS`. Not in the code: the names are matched to the constants by hand. -/
def definedFlags : List (Word × String) :=
  [(DAY, "day_constraint"), (PRIOR_WINDOW, "prior_window_constraint"), (POST_WINDOW, "post_window_constraint"),
   (PRIOR_CALENDAR, "prior_calendar_constraint"), (POST_CALENDAR, "post_calendar_constraint"),
   (CLIMATOLOGY_UNC, "climatology_uncertainty_qc"), (LARGE_SCALE_UNC, "large_scale_uncertainty_qc"),
   (AREAL_LOW, "areal_low_value_qc"), (AREAL_HIGH, "areal_high_value_qc"), (EXTREME_LOW, "extreme_low_value_qc"),
   (EXTREME_HIGH, "extreme_high_value_qc"), (PERSISTANT_OUTLIER, "persistant_outlier_qc"),
   (MISSING_MARINE, "marine_location_flag"), (LOCATION_LOW, "location_low_value_qc"),
   (LOCATION_HIGH, "location_high_value_qc"), (MISSING_FLAG, "unconstrained_calendar_day_qc")]

/-- The attribute `flag_masks` written by `save_flag_file`, apply_mask.py 144. -/
def flagMasks : List Word := (List.range FLAG_MAX_USED).map bit

/-- Fields of flag words. -/
abbrev Field (Cell : Type) := Cell → Word

variable {Cell : Type}

/-- `numpy.bitwise_and(flags, f) == f` for one cell. -/
def has (w f : Word) : Bool := w &&& f == f

/-- `FLAGS_TO_MASK`, apply_mask.py 69-79. -/
def FLAGS_TO_MASK : List (Word × Word) :=
  [(MISSING_FLAG, MISSING_MARINE), (LARGE_SCALE_UNC, NULL), (CLIMATOLOGY_UNC, NULL), (AREAL_LOW, NULL), (AREAL_HIGH, NULL),
   (EXTREME_LOW, NULL), (EXTREME_HIGH, NULL), (LOCATION_LOW, NULL), (LOCATION_HIGH, NULL)]

/-- `compute_mask`, apply_mask.py 267-272. -/
def computeMask (rules : List (Word × Word)) (qc : Field Cell) (c : Cell) : Bool :=
  rules.any fun r => qc c &&& (r.1 ||| r.2) == r.1

/-- `reset_marine_flag`, apply_mask.py 84-109: the bit is cleared everywhere and set where the coastal influence exceeds 95.
The influence (read from a file, with its border rows and columns replaced) is modelled by the predicate `marine`. -/
def resetMarine (marine : Cell → Bool) (qc : Field Cell) : Field Cell := fun c =>
  let cleared := qc c &&& ~~~MISSING_MARINE
  if marine c then cleared ||| MISSING_MARINE else cleared

/-- The mask computed by `apply_mask`, apply_mask.py 274-290. -/
def combinedMask (marine : Cell → Bool) (rules : List (Word × Word)) (qc1 : Field Cell) (qc2 : Option (Field Cell)) : Cell → Bool :=
  let qc : Field Cell := match qc2 with
    | none => qc1
    | some q => fun c => qc1 c ||| q c
  computeMask rules (resetMarine marine qc)

/-- The rules used for a year, `masking_operation` in apply_mask.py: marine cells are masked after 2012. -/
def rulesForYear (year : Nat) : List (Word × Word) :=
  if 2012 < year then FLAGS_TO_MASK ++ [(MISSING_MARINE, NULL)] else FLAGS_TO_MASK

/-- `merged_flags`, merge_flag_files.py 28-48. -/
def merged (flags1 flags2 : Field Cell) : Field Cell := fun c =>
  let w := flags2 c
  let corrected := if has w AREAL_LOW then w ||| MISSING_MARINE else w
  flags1 c ||| (corrected &&& ~~~AREAL_LOW)

/-- Flag files: the field stored for a date, `none` when it cannot be loaded. -/
abbrev Files (Cell : Type) := Date → Option (Field Cell)

/-- `count[where] += 1`. -/
def bump (count : Cell → Nat) (wh : Cell → Bool) : Cell → Nat := fun c => if wh c then count c + 1 else count c

/-- `if count is None: count = numpy.zeros(...)`. -/
def zeroed (count : Option (Cell → Nat)) : Cell → Nat := count.getD fun _ => 0

/-- `count < threshold`: for `None` Python 2 gives `True`, and indexing with it addresses every cell. -/
def below (count : Option (Cell → Nat)) (threshold : Nat) (c : Cell) : Bool :=
  match count with
  | none => true
  | some n => n c < threshold

/-- `flag_values[where] = flag_values[where] | flag`. -/
def setFlag (f : Word) (wh : Cell → Bool) (values : Field Cell) : Field Cell := fun c =>
  if wh c then values c ||| f else values c

/-- `isconstrained`, window_check.py 99 and calendar_check.py 100. -/
def isConstrained (target : Word) (values : Field Cell) (c : Cell) : Bool := !(has (values c) target)

/-- The variables of the loops in window_check.py and calendar_check.py. -/
structure Counts (Cell : Type) where
  /-- `prior_constraint_count` -/
  prior : Option (Cell → Nat)
  /-- `post_constraint_count` -/
  post : Option (Cell → Nat)
  /-- `total_constraint_count`, calendar_check.py only -/
  total : Option (Cell → Nat)
  /-- `flag_values`; `none` while unbound -/
  centre : Option (Field Cell)

/-- The variables before the loop. -/
def Counts.init : Counts Cell := ⟨none, none, none, none⟩

/-- One day of the loop in `local_window_constraint_checks`, window_check.py 76-113. -/
def windowStep (files : Files Cell) (reference : Date) (target : Word) (s : Counts Cell) (dayshift : Int) : Counts Cell :=
  match files (addDays reference dayshift) with
  | none => s
  | some values =>
    if dayshift = 0 then { s with centre := some values }
    else
      let wh := isConstrained target values
      let prior := zeroed s.prior
      let post := zeroed s.post
      { s with
        prior := some (if dayshift < 0 then bump prior wh else prior)
        post := some (if 0 < dayshift then bump post wh else post) }

/-- `range(a, b)` on integers. -/
def rangeInt (a b : Int) : List Int := (List.range (b - a).toNat).map fun i : Nat => a + i

/-- `local_window_constraint_checks`, window_check.py 66-122. A centre day that cannot be loaded leaves `flag_values` unbound. -/
def windowCheck (files : Files Cell) (reference : Date) (windowRange countThreshold : Nat) (target : Word) :
    Except PyErr (Field Cell) :=
  let s := (rangeInt (-windowRange) (windowRange + 1)).foldl (windowStep files reference target) Counts.init
  match s.centre with
  | none => .error .nameError
  | some values =>
    .ok (setFlag POST_WINDOW (below s.post countThreshold) (setFlag PRIOR_WINDOW (below s.prior countThreshold) values))

/-- calendar_check.py 66. -/
def COUNT_THRESHOLD : Nat := 1
/-- calendar_check.py 67. -/
def TOTAL_COUNT_THRESHOLD : Nat := 3

/-- One year of the loop in `calendar_constraint_checks`, calendar_check.py 82-119. -/
def calendarStep (files : Files Cell) (reference : Date) (target : Word) (s : Counts Cell) (yearshift : Int) : Counts Cell :=
  let day := addYears reference yearshift
  match files day with
  | none => s
  | some values =>
    let wh := isConstrained target values
    let s := { s with total := some (bump (zeroed s.total) wh) }
    if day.year = reference.year then { s with centre := some values }
    else
      let prior := zeroed s.prior
      let post := zeroed s.post
      { s with
        prior := some (if day.year < reference.year then bump prior wh else prior)
        post := some (if reference.year < day.year then bump post wh else post) }

/-- `calendar_constraint_checks`, calendar_check.py 73-132. -/
def calendarCheck (files : Files Cell) (reference : Date) (startYear endYear : Nat) (target : Word) :
    Except PyErr (Field Cell) :=
  let s := (rangeInt ((startYear : Int) - reference.year) ((endYear : Int) - reference.year + 1)).foldl
    (calendarStep files reference target) Counts.init
  match s.centre with
  | none => .error .nameError
  | some values =>
    .ok (setFlag MISSING_FLAG (below s.total TOTAL_COUNT_THRESHOLD)
      (setFlag POST_CALENDAR (below s.post COUNT_THRESHOLD) (setFlag PRIOR_CALENDAR (below s.prior COUNT_THRESHOLD) values)))

/-- `OUTLIER_FLAGS`, outlier_window_check.py 62. -/
def OUTLIER_FLAGS : List Word := [AREAL_LOW, AREAL_HIGH, EXTREME_LOW, EXTREME_HIGH]

/-- `flagged_outlier`, outlier_window_check.py 96. -/
def flaggedOutlier (values : Field Cell) (c : Cell) : Bool := OUTLIER_FLAGS.any fun f => has (values c) f

/-- One day of the loop in `persistant_outlier_check`, outlier_window_check.py 78-103. -/
def outlierStep (files : Files Cell) (reference : Date) (s : Counts Cell) (dayshift : Int) : Counts Cell :=
  match files (addDays reference dayshift) with
  | none => s
  | some values =>
    let s := if dayshift = 0 then { s with centre := some values } else s
    { s with total := some (bump (zeroed s.total) (flaggedOutlier values)) }

/-- `count >= threshold`: for `None` Python 2 gives `False` for any number. -/
def atLeast (count : Option (Cell → Nat)) (threshold : Nat) (c : Cell) : Bool :=
  match count with
  | none => false
  | some n => threshold ≤ n c

/-- `persistant_outlier_check`, outlier_window_check.py 70-111. -/
def outlierCheck (files : Files Cell) (reference : Date) (windowRange countThreshold : Nat) : Except PyErr (Field Cell) :=
  let s := (rangeInt (-windowRange) (windowRange + 1)).foldl (outlierStep files reference) Counts.init
  match s.centre with
  | none => .error .nameError
  | some values => .ok (setFlag PERSISTANT_OUTLIER (atLeast s.total countThreshold) values)

/-- `flagging_operation` in window_check.py 130-163, calendar_check.py and outlier_window_check.py when the output directory is
the input directory (the default of window_check.py): every date's result replaces its file before the next date is
processed. An error stops the run. -/
def runInPlace (check : Files Cell → Date → Except PyErr (Field Cell)) : List Date → Files Cell → Except PyErr (Files Cell)
  | [], files => .ok files
  | d :: ds, files =>
    match check files d with
    | .error e => .error e
    | .ok values => runInPlace check ds fun d' => if d' = d then some values else files d'

end Verif.Eustace.Flags
