import Verif.Months
import Verif.Py

/-! Model of src/eustace/postprocess/operation_count.py and of
src/eustace/analysis/advanced_standard/examples/stepmidmonth.py. -/
namespace Verif.Eustace.Dates
open Verif Verif.Calendar

/-- `operation_dates`, operation_count.py 5-13. The reference time is modelled by its date; its time of day is carried along
unchanged to every date. -/
def operationDates (reference : Date) (operationIndex : Int) : List Date :=
  let first := addMonths reference operationIndex
  let last := addDays (addMonths first 1) (-1)
  (List.range ((last.number : Int) - first.number + 1).toNat).map fun dayindex : Nat => addDays first dayindex

/-- `operation_count`, operation_count.py 15-25. -/
def operationCount (startYear endYear : Nat) : Int :=
  let first : Date := ⟨startYear, 1, 1⟩
  let last : Date := ⟨endYear, 12, 31⟩
  let td := monthDifference (addDays last 1) first
  td.1 * 12 + td.2

/-- `StepMidMonth.time_at_index`, stepmidmonth.py 23-32: first day of the month and half its length in hours (the code adds
`(t1 - t0) / 2`). Only the year of the epoch is used. -/
def midMonthTime (epoch : Date) (i : Nat) : Date × Nat :=
  let total := 12 * epoch.year + i
  let t0 : Date := ⟨total / 12, 1 + total % 12, 1⟩
  let t1 : Date := ⟨(total + 1) / 12, 1 + (total + 1) % 12, 1⟩
  (t0, (t1.number - t0.number) * 24 / 2)

/-- Date part of `t0 + halfmonth`, stepmidmonth.py 32. -/
def midMonthDate (epoch : Date) (i : Nat) : Date :=
  addDays (midMonthTime epoch i).1 ((midMonthTime epoch i).2 / 24 : Nat)

/-- `StepMidMonth.operation_indices_for_input_entry`, stepmidmonth.py 34-45. -/
def midMonthIndices (epoch : Date) (stepcount : Nat) (time : Option Date) : List Int :=
  match time with
  | some t => [12 * ((t.year : Int) - epoch.year) + ((t.month : Int) - epoch.month)]
  | none => (List.range stepcount).map Int.ofNat

end Verif.Eustace.Dates
