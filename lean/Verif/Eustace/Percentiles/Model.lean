import Verif.Months

/-! Model of the dates in src/eustace/postprocess/cell_percentile_calculation.py and of the file lookup in
cell_percentile_threshold.py. -/
namespace Verif.Eustace.Percentiles
open Verif Verif.Calendar

/-- `refererence_leap_year`, cell_percentile_calculation.py 23. -/
def referenceYear : Nat := 2000

/-- `reference_time` of `cell_percentile_calculation`, cell_percentile_calculation.py 26. -/
def referenceTime (calendarDay : Nat) : Date := addDays ⟨referenceYear, 1, 1⟩ calendarDay

/-- `dates_to_load`, cell_percentile_calculation.py 24-28. -/
def datesToLoad (startYear endYear calendarDay : Nat) : List Date :=
  (List.range ((endYear : Int) - referenceYear + 1 - ((startYear : Int) - referenceYear)).toNat).map fun i : Nat =>
    addYears (referenceTime calendarDay) ((startYear : Int) - referenceYear + i)

/-- Month and day in the name of the output file, cell_percentile_calculation.py 33. -/
def outputKey (calendarDay : Nat) : Nat × Nat := ((referenceTime calendarDay).month, (referenceTime calendarDay).day)

/-- The calendar days of `cell_percentile_calculation_month`, cell_percentile_calculation.py 47-57. -/
def calendarDays (monthNumber : Nat) : List Nat :=
  let reference : Date := ⟨referenceYear, 1, 1⟩
  let start : Date := ⟨referenceYear, monthNumber, 1⟩
  let last : Date := addDays (if monthNumber ≠ 12 then ⟨referenceYear, monthNumber + 1, 1⟩ else ⟨referenceYear + 1, 1, 1⟩) (-1)
  List.range' (start.number - reference.number) (last.number - reference.number + 1 - (start.number - reference.number))

/-- Month and day of the percentile file read for a date, cell_percentile_threshold.py 100. -/
def inputKey (processdate : Date) : Nat × Nat := (processdate.month, processdate.day)

end Verif.Eustace.Percentiles
