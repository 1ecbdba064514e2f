import Verif.Eustace.SurfaceAir.Model

/-! What is expected of air temperatures over land, ocean and lakes. -/

namespace Verif.Eustace.SurfaceAir

noncomputable section

/-- The number of cells of a global field. -/
abbrev cellCount : ℕ := 1036800

/-- A global field, possibly with further dimensions of size one, with one value for each cell. -/
def IsGlobal (a : Arr) : Prop := (a.shape.filter fun n => n ≠ 1) = [720, 1440] ∧ a.cells.length = cellCount

/-- The value of a variable of a file in a cell. -/
def value (vars : String → Option Arr) (name : String) (k : ℕ) : Option ℝ :=
  match vars name with
  | some a => a.cells.getD k none
  | none => none

open Classical in
/-- The root of the sum of squares of values, if all are there. -/
def rootOfSquares (values : List (Option ℝ)) : Option ℝ :=
  if none ∈ values then none else some (Real.sqrt ((values.map fun v => v.getD 0 ^ 2).sum))

/-- The fields over land: name in the output, name in the intermediate file. -/
def landPairs : List (String × String) :=
  [("tasmin", "tasmin"), ("tasmax", "tasmax"),
    ("tasmin_unc_rand", "unc_rand_tasmin"), ("tasmin_unc_corr_atm", "unc_corr_atm_tasmin"),
    ("tasmin_unc_corr_sfc", "unc_corr_sfc_tasmin"), ("tasmin_unc_sys", "unc_sys_tasmin"),
    ("tasmax_unc_rand", "unc_rand_tasmax"), ("tasmax_unc_corr_atm", "unc_corr_atm_tasmax"),
    ("tasmax_unc_corr_sfc", "unc_corr_sfc_tasmax"), ("tasmax_unc_sys", "unc_sys_tasmax"),
    ("tasmin_model_number", "tasmin_model_number"), ("tasmax_model_number", "tasmax_model_number")]

/-- The components of the uncertainty of the minimum. -/
def minComponents : List String := ["unc_rand_tasmin", "unc_corr_atm_tasmin", "unc_corr_sfc_tasmin", "unc_sys_tasmin"]

/-- The components of the uncertainty of the maximum. -/
def maxComponents : List String := ["unc_rand_tasmax", "unc_corr_atm_tasmax", "unc_corr_sfc_tasmax", "unc_sys_tasmax"]

/-- The uncertainties over the ocean: name in the output, name in the intermediate file. -/
def oceanPairs : List (String × String) :=
  [("tas_unc_rand", "unc_rand_tas"), ("tas_unc_corr_sat", "unc_corr_tas"), ("tas_unc_sys", "unc_syst_tas"),
    ("tas_unc_corr_mod", "unc_corr2_tas"), ("tas_unc_sys_mod", "unc_syst2_tas"),
    ("tas_unc_parameter_0", "unc_parameter_0_tas"), ("tas_unc_parameter_1", "unc_parameter_1_tas"),
    ("tas_unc_parameter_2", "unc_parameter_2_tas"), ("tas_unc_parameter_3", "unc_parameter_3_tas"),
    ("tas_unc_parameter_4", "unc_parameter_4_tas")]

/-- A field is the one of the file, without dimensions of size one. -/
def SameField (nc : Nc) (input : String) (a : Arr) : Prop :=
  ∃ b, nc.vars input = some b ∧ a.cells = b.cells ∧ a.plain = b.plain ∧ a.shape = b.shape.filter (fun n => n ≠ 1)

/-- A field is global and each cell has the root of the sum of squares of the components. -/
def TotalOf (nc : Nc) (components : List String) (a : Arr) : Prop :=
  a.shape = [720, 1440] ∧ a.plain = false ∧ a.cells.length = cellCount ∧
    ∀ k < cellCount, a.cells.getD k none = rootOfSquares (components.map fun n => value nc.vars n k)

/-- The minimum is known to be above the maximum. -/
def Crossed (vars : String → Option Arr) (k : ℕ) : Prop :=
  ∃ a b, value vars "tasmin" k = some a ∧ value vars "tasmax" k = some b ∧ b < a

/-- A cell of the field is missing. -/
def HasGap (vars : String → Option Arr) (name : String) : Prop := ∃ a, vars name = some a ∧ none ∈ a.cells

/-- What is left of a file if its comment is not looked at. -/
def uncommented (f : Option File) : Option (ℤ × (String → Option (List (Option ℝ))) × String × String) :=
  f.map fun f => (f.day, f.vars, f.institution, f.catalogue)

/-- The same files, apart from comments. -/
def SameFiles (d e : Disc) : Prop := ∀ p, uncommented (d p) = uncommented (e p)

/-- One run after the other; the first error stops it. -/
def oneByOne {X : Type} (run : Disc → X → Disc × Except PyErr Unit) : Disc → List X → Disc × Except PyErr Unit
  | d, [] => (d, .ok ())
  | d, x :: rest =>
    match run d x with
    | (d, .error e) => (d, .error e)
    | (d, .ok ()) => oneByOne run d rest

/-- What the documentation of a run over several days over land says: all but the files of the day is the same for all days. -/
def LandDay.Shared (x y : LandDay) : Prop :=
  x.catalogue = y.catalogue ∧ x.institution = y.institution ∧ x.parameters = y.parameters ∧ x.mask = y.mask ∧ x.dem = y.dem ∧
    x.fvc = y.fvc ∧ x.fraction = y.fraction ∧ x.sampling = y.sampling

/-- The same for the ocean. -/
def OceanDay.Shared (x y : OceanDay) : Prop :=
  x.catalogue = y.catalogue ∧ x.institution = y.institution ∧ x.parameters = y.parameters ∧ x.uncertainty = y.uncertainty ∧
    x.stdev = y.stdev

/-- A decimal digit as it is written. -/
def written (n : ℕ) : Char := Char.ofNat (48 + n)

/-- A date as it is written in the names of files. -/
def dateText (y m d : ℕ) : List Char :=
  [written (y / 1000), written (y / 100 % 10), written (y / 10 % 10), written (y % 10),
    written (m / 10), written (m % 10), written (d / 10), written (d % 10)]

/-- Is it a day of the calendar? -/
def IsDate (y m d : ℕ) : Prop :=
  1 ≤ y ∧ y ≤ 9999 ∧ 1 ≤ d ∧
    ((m ∈ [1, 3, 5, 7, 8, 10, 12] ∧ d ≤ 31) ∨ (m ∈ [4, 6, 9, 11] ∧ d ≤ 30) ∨
      (m = 2 ∧ (d ≤ 28 ∨ (d = 29 ∧ 4 ∣ y ∧ (¬ 100 ∣ y ∨ 400 ∣ y)))))

/-- Eight digits in succession occur in a text. -/
def EightDigits (s : List Char) : Prop := ∃ a w b, s = a ++ w ++ b ∧ w.length = 8 ∧ ∀ c ∈ w, '0' ≤ c ∧ c ≤ '9'

end

end Verif.Eustace.SurfaceAir
