import Verif.Eumopps.Placeholder.Model
import Verif.Eumopps.Periods.Model
import Verif.Eumopps.Names.Model

/-!
C63, C100: the placeholders for batches of a year (`src/eustace/analysis/advanced_standard/examples/placeholder.py`).

The step is always a `StepAnnual`.  Prints are left out.  64-bit floating point is idealised to rationals.
-/

namespace Verif.Eustace.AnnualBatch

open Verif Verif.Py Verif.Eumopps.Catalogue Verif.Eumopps.Placeholder Verif.Eumopps.Periods Verif.Eumopps.Time Verif.Eumopps.Names

/-- `EPOCH` (timeutils/epoch.py 10). -/
@[irreducible] def epoch : Int := midnight ⟨1850, 1, 1⟩

/-- `days_since_epoch` (timeutils/epoch.py 16-18). -/
def daysSince (t : Int) : ℚ := daysToNumber epoch t

/-- `range(a, b)` (Python library). -/
def range2 (a b : Int) : List Int := (List.range (b - a).toNat).map fun k : Nat => a + k

/-- `day_numbers_in_year` (placeholder.py 17-22). -/
def dayNumbersInYear (start : Int) (index : Int) : Except PyErr (List Int) :=
  (annualTime start index).bind fun t1 =>
  (annualTime start (index + 1)).bind fun t2 =>
  .ok (range2 (intOf (daysSince t1)) (intOf (daysSince t2)))

/-- The days of a year within limits (placeholder.py 50, 68, 168, 226, 236, 369-370). -/
def available (start : Int) (lo hi : ℚ) (index : Int) : Except PyErr (List Int) :=
  (dayNumbersInYear start index).bind fun days =>
  .ok (days.filter fun d => decide (lo ≤ (d : ℚ)) && decide ((d : ℚ) ≤ hi))

/-- A list comprehension over `range(step.count())` whose body may raise. -/
def overSteps {α : Type} (start stop : Int) (f : Nat → Except PyErr α) : Except PyErr (List α) :=
  (annualCount start stop).bind fun count => (List.range count.toNat).mapM f

/-- `AnalysisAnnualBatchDayIndices.operation_input_resolve` (placeholder.py 39-53). -/
def dayIndices (start stop : Int) : Except PyErr (List (List Int)) :=
  overSteps start stop fun i => available start ⌊daysSince start⌋ ⌊daysSince stop⌋ i

/-- `AnalysisAnnualBatchDayTimes.operation_input_resolve` (placeholder.py 55-74). -/
def dayTimes (start stop : Int) : Except PyErr (List (List Int)) :=
  overSteps start stop fun i =>
    (available start ⌊daysSince start⌋ ⌊daysSince stop⌋ i).bind fun days => .ok (days.map fun d : Int => numberToDays epoch (d : ℚ))

/-- `AnalysisStepIndex.operation_input_resolve` (placeholder.py 24-37; a list of integers for the int32 array), for any step with a start and an end. -/
def stepIndices (start stop : Int) : List Int := range2 (intOf (daysSince start)) (intOf (daysSince stop + 1))

/-! ### Inputs -/

/-- `matches_this_year[day] = file_ind` for each pair in turn (placeholder.py 180-183). -/
def place : List Int → List (Nat × Nat) → Except PyErr (List Int)
  | slots, [] => .ok slots
  | slots, (day, file) :: rest => if day < slots.length then place (slots.set day (file : Int)) rest else .error .indexError

/-- `numpy.searchsorted` of one value in a sorted list (NumPy library). -/
def searchsorted (days : List Int) (d : Int) : Nat := (days.filter fun x => decide (x < d)).length

/-- The slots of one group of matches with their day numbers (placeholder.py 158-185). -/
def yearSlots (start : Int) (lo hi : ℚ) (index : Int) (group : List (Nat × Int)) : Except PyErr (List Int) :=
  (available start lo hi index).bind fun days =>
    place (List.replicate days.length (-1))
      ((group.filter fun m => decide (lo ≤ (m.2 : ℚ)) && decide ((m.2 : ℚ) ≤ hi)).map fun m => (searchsorted days m.2, m.1))

/-- Index, step and day number of a match (placeholder.py 130). -/
def matchWithStep (start : Int) (m : FileEntry × Nat) : Except PyErr (Nat × Int × Int) :=
  match m.1.time with
  | none => .error .attributeError
  | some t => (annualIndex start t).bind fun i => .ok (m.2, i, ⌊daysSince t⌋)

/-- The lookup by time (placeholder.py 130-185). -/
def byTime (start : Int) (lo hi : ℚ) (entries : List FileEntry) : Except PyErr (List (Int × List Int)) :=
  (entries.zipIdx.mapM (matchWithStep start)).bind fun found =>
    (groupby (fun m => m.2.1) (sortedBy (fun m => m.2.1) found)).mapM fun g =>
      (yearSlots start lo hi g.1 (g.2.map fun m => (m.1, m.2.2))).bind fun slots => .ok (g.1, slots)

/-- The date and time of an instant without microseconds (Python library). -/
def dateTimeOf (t : Int) : DateTime :=
  ⟨dateOf t, (t % dayUs / (3600 * secUs)).toNat, (t % (3600 * secUs) / (60 * secUs)).toNat, (t % (60 * secUs) / secUs).toNat⟩

/-- `StepAnnual.create_output_entry(...).name` (examples/step.py 54-68). -/
def yearName (start : Int) (patterns : List String) (i : Nat) : Except PyErr (List Char) :=
  (annualTime start i).bind fun t => filename (patterns.map String.toList) (dateTimeOf t)

/-- `matchname_to_index` (placeholder.py 211). -/
def nameToIndex (entries : List FileEntry) : List (String × Nat) := entries.zipIdx.map fun m => (m.1.name, m.2)

/-- The lookup by name (placeholder.py 211-229): one step of both loops. -/
def byNameAt (start : Int) (lo hi : ℚ) (patterns : List String) (entries : List FileEntry) (i : Nat) :
    Except PyErr (Option (Int × List Int)) :=
  (yearName start patterns i).bind fun name =>
    match dictGet (nameToIndex entries) (String.ofList name) with
    | none => .ok none
    | some j => (available start lo hi i).bind fun days => .ok (some ((i : Int), days.map fun _ => (j : Int)))

/-- The lookup by name (placeholder.py 211-229). -/
def byName (start stop : Int) (lo hi : ℚ) (patterns : List String) (entries : List FileEntry) : Except PyErr (List (Int × List Int)) :=
  (overSteps start stop (byNameAt start lo hi patterns entries)).bind fun found => .ok (found.filterMap id)

/-- `StepAnnual.is_uniquely_defined_by` (examples/step.py 70-74). -/
def yearUnique (patterns : List String) : Bool := hasSub ['%', 'Y'] (patterns.map String.toList).flatten

/-- The limits of days in either branch (placeholder.py 150-151, 218-219).  The limits are rounded in the first only. -/
def limits (start stop : Int) (patterns : List String) : ℚ × ℚ :=
  if yearUnique patterns then (⌊daysSince start⌋, ⌊daysSince stop⌋) else (daysSince start, daysSince stop)

/-- The lookup from step to slots (placeholder.py 107-229). -/
def slotGroups (start stop : Int) (patterns : List String) (entries : List FileEntry) : Except PyErr (List (Int × List Int)) :=
  let l := limits start stop patterns
  if yearUnique patterns then byTime start l.1 l.2 entries else byName start stop l.1 l.2 patterns entries

/-- The references of one step (placeholder.py 232-243). -/
def stepSlots (inp : InputFileList) (d : Int) (start stop : Int) (patterns : List String) (groups : List (Int × List Int)) (i : Nat) :
    Except PyErr (List Int) :=
  let references := fun slots : List Int => slots.flatMap fun e => [d, inp.subsetindex, e]
  let l := limits start stop patterns
  if inp.missingData = .allowed then
    (available start l.1 l.2 i).bind fun days => .ok (references ((dictGet groups (i : Int)).getD (List.replicate days.length (-1))))
  else .ok (references ((dictGet groups (i : Int)).getD []))

/-- The policy for missing data (placeholder.py 245-267).  `OperationException` is not imported: NameError. -/
def policy (inp : InputFileList) (skip : List Bool) (refs : List (List Int)) : Except PyErr (List (List Int) × List Bool) :=
  match finish inp skip refs with
  | .error .operationError => .error .nameError
  | r => r

/-- `AnnualBatchDays.find_references` (placeholder.py 83-269).  `OperationException` is not imported: NameError. -/
def findReferences (inp : InputFileList) (skip : List Bool) (cat : Catalogue) (start stop : Int) :
    Except PyErr (List (List Int) × List Bool) :=
  match cat.datasubset inp.datasetname inp.subsetindex, cat.datasetindex inp.datasetname with
  | none, _ => .error .nameError
  | some _, none => .error .typeError
  | some s, some d =>
    match s.patterns with
    | none => .error .nameError
    | some p =>
      (slotGroups start stop p s.entries).bind fun groups =>
      (overSteps start stop (stepSlots inp d start stop p groups)).bind fun refs =>
      policy inp skip refs

/-! ### Outputs -/

/-- `AnnualBatchDaysOutput.create_output_entries` (placeholder.py 358-394). -/
def outputEntries (start stop : Int) (patterns : List String) (i : Nat) : Except PyErr (List FileEntry) :=
  if dailyUnique (patterns.map String.toList) then
    (available start ⌊daysSince start⌋ ⌊daysSince stop⌋ i).bind fun days =>
      days.mapM fun d : Int =>
        (filename (patterns.map String.toList) (dateTimeOf (numberToDays epoch (d : ℚ)))).bind fun name =>
        .ok ⟨String.ofList name, some (numberToDays epoch (d : ℚ))⟩
  else .error .runtimeError

/-- State of the loops of `operation_output_resolve` (placeholder.py 310-341): entries, dictionary of names. -/
structure OutState where
  entries : List FileEntry
  names : List (String × Nat)

/-- One new entry (placeholder.py 327-336): the state and the index of the entry. -/
def addEntry (st : OutState) (e : FileEntry) : OutState × Nat :=
  match dictGet st.names e.name with
  | some j => (st, j)
  | none => (⟨st.entries ++ [e], st.names ++ [(e.name, st.entries.length)]⟩, st.entries.length)

/-- The inner loop (placeholder.py 326-339). -/
def addEntries : OutState → List FileEntry → OutState × List Nat
  | st, [] => (st, [])
  | st, e :: rest => ((addEntries (addEntry st e).1 rest).1, (addEntry st e).2 :: (addEntries (addEntry st e).1 rest).2)

/-- The outer loop (placeholder.py 320-341). -/
def outputLoop (start stop : Int) (patterns : List String) (d si : Int) :
    OutState → List Nat → Except PyErr (OutState × List (List Int))
  | st, [] => .ok (st, [])
  | st, i :: rest =>
    (outputEntries start stop patterns i).bind fun new =>
    (outputLoop start stop patterns d si (addEntries st new).1 rest).bind fun r =>
    .ok (r.1, ((addEntries st new).2.flatMap fun j : Nat => [d, si, (j : Int)]) :: r.2)

/-- `OutputFileList.operation_output_resolve` (placeholder.py 292-344). -/
def resolveOutput (name : String) (si : Int) (cat : Catalogue) (start stop : Int) (ops : List Nat) :
    Except PyErr (List (List Int) × Catalogue) :=
  match cat.datasubset name si, cat.datasetindex name with
  | none, _ => .error .nameError
  | some _, none => .error .typeError
  | some s, some d =>
    if s.entries.length > 0 then .error .nameError
    else
      match s.patterns with
      | none => .error .nameError
      | some p =>
        (outputLoop start stop p d si ⟨[], []⟩ ops).bind fun r => .ok (r.2, cat.setEntries name si r.1.entries)

end Verif.Eustace.AnnualBatch
