import Verif.Eustace.Masking.Model
import Mathlib.Algebra.BigOperators.Intervals
import Mathlib.Data.Multiset.Sort
import Mathlib.Order.Interval.Finset.Nat
import Mathlib.Data.Int.Interval

/-! What quality control should do, in terms of the contents of the files of each day. -/
namespace Verif.Eustace.Masking.Spec
open Verif Verif.Calendar Finset

/-- The row reached across a pole: rows are mirrored at the first and the last. -/
def mirror (k : ℤ) : ℕ := if k < 0 then (-k).toNat else if k < 720 then k.toNat else (1438 - k).toNat

/-- The column reached around the globe. -/
def around (k : ℤ) : ℕ := (k % 1440).toNat

/-- The mean over the rows and columns up to a distance. -/
noncomputable def areaMean (distance : ℕ) (g : ℕ → ℕ → ℚ) (i j : ℕ) : ℚ :=
  (∑ a ∈ Icc (-(distance : ℤ)) distance, ∑ b ∈ Icc (-(distance : ℤ)) distance, g (mirror (i + a)) (around (j + b))) /
    ((2 * distance + 1) ^ 2 : ℕ)

/-- The values in the rows and columns up to distances. -/
noncomputable def areaValues (north east : ℕ) (g : ℕ → ℕ → ℚ) (i j : ℕ) : Multiset ℚ :=
  (Icc (-(north : ℤ)) north ×ˢ Icc (-(east : ℤ)) east).val.map fun o => g (mirror (i + o.1)) (around (j + o.2))

/-- Percentile with linear interpolation. -/
noncomputable def quantile (p : ℚ) (values : Multiset ℚ) : ℚ :=
  let s := values.sort (· ≤ ·)
  let x := p * (values.card - 1)
  let k := ⌊x⌋.toNat
  s.getD k 0 + (x - k) * (s.getD (k + 1) 0 - s.getD k 0)

/-- Two columns are within two columns of each other around the globe. -/
def NearColumns (j j' : ℕ) : Prop := ∃ d : ℤ, |d| ≤ 2 ∧ (1440 : ℤ) ∣ (j : ℤ) + d - j'

/-- Some cell in the square of five by five cells has a property. -/
def Near (P : ℕ → ℕ → Prop) (i j : ℕ) : Prop :=
  ∃ i' j' : ℕ, i' < 720 ∧ j' < 1440 ∧ |(i : ℤ) - i'| ≤ 2 ∧ NearColumns j j' ∧ P i' j'

/-- The smallest number of cells which reach 750 km to the east at a latitude, but not more than 50. -/
noncomputable def eastward (latitude : ℝ) : ℕ :=
  min (sInf {n : ℕ | 750 ≤ (n / 4 : ℝ) * (Real.pi / 180) * 6371 * Real.cos (latitude * Real.pi / 180)}) 50

/-- The latitude in the middle of the five degrees a row is in. -/
noncomputable def bandLatitude (i : ℕ) : ℝ := -87.5 + 5 * (i / 20 : ℕ)

/-- Temperature, uncertainty and influence of observations in one file. -/
structure Contents where
  temperature : Grid
  uncertainty : Grid
  influence : Grid

/-- What is in the files of one day. -/
structure Day where
  analysis : Contents
  climatology : Contents
  largeScale : Contents
  localScale : Contents
  /-- number of members of the ensemble -/
  size : ℕ
  members : ℕ → Grid

/-- A file has one cube with a name. -/
def Has (cubes : List Cube) (name : String) (g : Grid) : Prop :=
  ∃ v, cubes.filter (·.name = name) = [⟨name, v, g⟩]

/-- The file of a component. -/
structure Stores (file : Option (List Cube)) (t : Contents) : Prop where
  file : ∃ cubes, file = some cubes ∧ Has cubes "air_temperature" t.temperature ∧
    Has cubes "Total uncertainty in average daily surface air temperature" t.uncertainty ∧
    Has cubes "Observation influence for average daily surface air temperature" t.influence

/-- The name of a member of the ensemble in the files. -/
def memberVariable (k : ℕ) : String := "tasensemble_" ++ toString k

/-- The cubes of the ensemble, in any order. -/
def StoresMembers (file : Option (List Cube)) (n : ℕ) (members : ℕ → Grid) : Prop :=
  ∃ cubes order, file = some cubes ∧ List.Perm order (List.range n) ∧
    cubes.filter (·.name = "Average daily surface air temperature ensemble") =
      order.map fun k => ⟨"Average daily surface air temperature ensemble", memberVariable k, members k⟩

/-- The files of a day are complete. -/
structure Complete (f : DayFiles) (t : Day) : Prop where
  analysis : Stores f.analysis t.analysis
  members : StoresMembers f.analysis t.size t.members
  climatology : Stores f.climatology t.climatology
  largeScale : Stores f.largeScale t.largeScale
  localScale : Stores f.localScale t.localScale

/-- Dates in a period of whole years. -/
def InYears (first last : ℕ) (d : Date) : Prop := d.Valid ∧ first ≤ d.year ∧ d.year ≤ last

/-- Water in percent; the map is wrong in its first and last rows and columns. -/
def water (coast : Grid) (i j : ℕ) : ℚ :=
  if i = 0 then 0 else if i = 719 then 100 else coast i (if j = 0 then 1 else if j = 1439 then 1438 else j)

section Rules
variable (s : Settings) (t : Date → Day) (altitude : Grid)

/-- There are observations on a day. -/
def Observed (d : Date) (i j : ℕ) : Prop := s.constraintLimit ≤ areaMean 2 (t d).analysis.influence i j

open Classical in
/-- The number of days in a range of days of the analysis with observations. -/
noncomputable def observedDays (first last : ℕ) (i j : ℕ) : ℕ :=
  #{n ∈ Icc first last | InYears s.startYear s.endYear (Date.ofNumber n) ∧ Observed s t (Date.ofNumber n) i j}

/-- There are observations on the day, or on enough days before, or on enough days after. -/
def Supported (d : Date) (i j : ℕ) : Prop :=
  Observed s t d i j ∨ s.windowCount ≤ observedDays s t (d.number - s.windowRange) (d.number - 1) i j ∨
    s.windowCount ≤ observedDays s t (d.number + 1) (d.number + s.windowRange) i j

/-- The same day in another year, or the last day of February. -/
def inYear (d : Date) (y : ℕ) : Date := ⟨y, d.month, min d.day (daysInMonth y d.month)⟩

open Classical in
/-- The number of years of the analysis in which the calendar day is supported. -/
noncomputable def supportedYears (d : Date) (i j : ℕ) : ℕ :=
  #{y ∈ Icc s.startYear s.endYear | Supported s t (inYear d y) i j}

/-- Temperature at sea level. -/
def seaLevel (d : Date) (i j : ℕ) : ℚ := (t d).analysis.temperature i j + 9 / 2 * (altitude i j / 1000)

/-- Percentile of temperatures at sea level within 750 km. -/
noncomputable def regional (p : ℚ) (d : Date) (i j : ℕ) : ℚ :=
  quantile p (areaValues 27 (eastward (bandLatitude i)) (seaLevel t altitude d) i j)

/-- Too cold for the region. -/
def RegionalCold (d : Date) (i j : ℕ) : Prop :=
  seaLevel t altitude d i j < regional t altitude (1 / 4) d i j -
    4 * (regional t altitude (1 / 2) d i j - regional t altitude (1 / 4) d i j)

/-- Too warm for the region. -/
def RegionalWarm (d : Date) (i j : ℕ) : Prop :=
  regional t altitude (3 / 4) d i j +
    4 * (regional t altitude (3 / 4) d i j - regional t altitude (1 / 2) d i j) < seaLevel t altitude d i j

/-- Percentile of temperatures of the calendar day in the reference period. -/
noncomputable def calendarQuantile (p : ℚ) (d : Date) (i j : ℕ) : ℚ :=
  quantile p ((Icc s.percentileStart s.percentileEnd).val.map fun y => (t (inYear d y)).analysis.temperature i j)

/-- Too cold for the calendar day. -/
def LocallyCold (d : Date) (i j : ℕ) : Prop :=
  (t d).analysis.temperature i j < calendarQuantile s t (1 / 2) d i j -
    8 * (calendarQuantile s t (1 / 2) d i j - calendarQuantile s t (1 / 4) d i j)

/-- Too warm for the calendar day. -/
def LocallyWarm (d : Date) (i j : ℕ) : Prop :=
  calendarQuantile s t (1 / 2) d i j +
    8 * (calendarQuantile s t (3 / 4) d i j - calendarQuantile s t (1 / 2) d i j) < (t d).analysis.temperature i j

/-- A cell is masked. -/
def Masked (coast : Grid) (d : Date) (i j : ℕ) : Prop :=
  s.climatologyLimit < areaMean 6 (t d).climatology.uncertainty i j ∨
  s.largeScaleLimit < areaMean 8 (t d).largeScale.uncertainty i j ∨
  Near (fun i j => (t d).analysis.temperature i j < 193.15 ∨ 333.15 < (t d).analysis.temperature i j) i j ∨
  Near (fun i j => RegionalCold t altitude d i j ∨ RegionalWarm t altitude d i j) i j ∨
  LocallyCold s t d i j ∨ LocallyWarm s t d i j ∨
  (water coast i j ≤ 95 ∧ supportedYears s t d i j < 3) ∨
  (95 < water coast i j ∧ 2012 < d.year)

end Rules

/-- The settings are consistent: the scripts' windows are not empty and fit before the first year, the search covers all years
and the reference period is in the analysis. -/
structure Consistent (s : Settings) : Prop where
  year : 1 ≤ s.startYear
  years : s.startYear ≤ s.endYear
  range : s.windowRange ≤ 365
  count : 0 < s.windowCount
  outlierRange : s.outlierRange ≤ 365
  outlierCount : 0 < s.outlierCount
  searchStart : s.searchStart ≤ s.startYear
  searchEnd : s.endYear ≤ s.searchEnd
  percentileStart : s.startYear ≤ s.percentileStart
  percentiles : s.percentileStart ≤ s.percentileEnd
  percentileEnd : s.percentileEnd ≤ s.endYear

/-- The fields which a masked file should have. -/
def expected (t : Day) : Kind → List (String × Grid)
  | .analysis => [("tas", t.analysis.temperature), ("tasuncertainty", t.analysis.uncertainty),
      ("tasobservationinfluence", t.analysis.influence)] ++ (List.range t.size).map fun k => (memberVariable k, t.members k)
  | .climatology => [("tas", t.climatology.temperature), ("tasuncertainty", t.climatology.uncertainty),
      ("tasobservationinfluence", t.climatology.influence)]
  | .largeScale => [("tas_perturbation", t.largeScale.temperature), ("tasuncertainty", t.largeScale.uncertainty),
      ("tasobservationinfluence", t.largeScale.influence)]
  | .localScale => [("tas_perturbation", t.localScale.temperature), ("tasuncertainty", t.localScale.uncertainty),
      ("tasobservationinfluence", t.localScale.influence)]

end Verif.Eustace.Masking.Spec
