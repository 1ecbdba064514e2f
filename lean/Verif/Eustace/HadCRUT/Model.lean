import Verif.Eustace.ObsSource.Connector
import Verif.Eustace.Dates.Props
import Mathlib.Analysis.SpecialFunctions.Sqrt

/-!
C169: monthly fields of HadCRUT4 as observations:
`src/eustace/analysis/advanced_standard/examples/inputloader_hadcrut4.py`.

Simplifications: `iris` is given by the cubes which it loads, each with its times as the date and hour of the middle of a month
(the code compares the decimal number of the same instant); values are real numbers; prints are left out.
-/

namespace Verif.Eustace.HadCRUT

open Verif Verif.Eustace.RawBinary Verif.Eustace.ObsSource Verif.Calendar

/-- `cube.data.ravel()`: a masked array; `none` is the mask `numpy.ma.nomask`, which is the scalar `False`. -/
structure Masked where
  values : List ℝ
  mask : Option (List Bool)

/-- `ObservationSourceHadCRUT4.midmonth` (inputloader_hadcrut4.py 64-74): first day of the month, and half of its length in hours. -/
def midmonth (epoch : Date) (monthnumber : Nat) : Date × Nat :=
  let total := 12 * epoch.year + monthnumber
  let t0 : Date := ⟨total / 12, 1 + total % 12, 1⟩
  let t1 : Date := ⟨(total + 1) / 12, 1 + (total + 1) % 12, 1⟩
  (t0, (t1.number - t0.number) * 24 / 2)

/-- The constraint `select_time` (inputloader_hadcrut4.py 99-102) on the fields of a variable with their times. -/
def selectTime {α : Type} (epoch : Date) (monthnumber : Nat) (fields : List ((Date × Nat) × α)) : List α :=
  (fields.filter fun f => f.1 = midmonth epoch monthnumber).map Prod.snd

/-- `observation_location_lookup` (inputloader_hadcrut4.py 111-116): `meshgrid` has one row for each latitude and one column for each
longitude; a column of the result is a pair. -/
def locationLookup (lat lon : List ℝ) : List (ℝ × ℝ) := lat.flatMap fun y => lon.map fun x => (y, x)

/-- `numpy.nonzero(~tas.mask)` (inputloader_hadcrut4.py 133): `nonzero` of a scalar which is true is the index 0. -/
def validIndices : Option (List Bool) → List Nat
  | none => [0]
  | some m => validPlaces m

/-- `mask[valid_indices]` (inputloader_hadcrut4.py 136): a scalar has no index. -/
def maskAt (mask : Option (List Bool)) (indices : List Nat) : Except PyErr (List Bool) :=
  match mask with
  | none => .error .indexError
  | some m => gather m indices

/-- `numpy.sqrt(tas_unc0**2 + tas_unc1**2)` (inputloader_hadcrut4.py 146). -/
noncomputable def combine (a b : ℝ) : ℝ := Real.sqrt (a ^ 2 + b ^ 2)

/-- The array of combined uncertainties (inputloader_hadcrut4.py 145-146): zero where no value is assigned. -/
noncomputable def combined (tas unc0 unc1 : Masked) : Except PyErr (List ℝ) :=
  let valid := validIndices tas.mask
  (gather unc0.values valid).bind fun _ =>
  (gather unc1.values valid).bind fun _ =>
  if valid.all (· < tas.values.length) then
    .ok ((List.range tas.values.length).map fun i =>
      if i ∈ valid then combine (unc0.values.getD i 0) (unc1.values.getD i 0) else 0)
  else .error .indexError

/-- `~tas.mask` at a place (inputloader_hadcrut4.py 149): a scalar is the same at all places. -/
def unmasked (mask : Option (List Bool)) (i : Nat) : Bool :=
  match mask with
  | none => true
  | some m => m[i]? == some false

/-- Uncertainties which are too small are replaced (inputloader_hadcrut4.py 149-154). -/
noncomputable def adjusted (mask : Option (List Bool)) (u : List ℝ) : List ℝ :=
  open Classical in
  (List.range u.length).map fun i =>
    if unmasked mask i ∧ u.getD i 0 < 0.001 then Real.sqrt 0.1 else u.getD i 0

/-- `tas.mask.ravel()` (inputloader_hadcrut4.py 158): a scalar becomes an array of one element. -/
def ravelMask : Option (List Bool) → List Bool
  | none => [false]
  | some m => m

/-- `observations` (inputloader_hadcrut4.py 118-163): `None` for other observables.  Simplified: the locally correlated
components, which are `None`, are the empty list; `concatenate_cube` of the one field which is selected is that field. -/
noncomputable def observations (observable : String) (monthnumber : Nat) (tas : Masked) (uncs : List Masked) :
    Except PyErr (Option (Observations ℝ)) :=
  if observable = "Tmean" then
    match uncs with
    | unc0 :: unc1 :: _ =>
      let valid := validIndices tas.mask
      (maskAt unc0.mask valid).bind fun m0 =>
      (if m0.any id then .ok [true] else maskAt unc1.mask valid).bind fun m1 =>
      if m0.any id || m1.any id then .error .valueError
      else
        (combined tas unc0 unc1).bind fun u =>
        .ok (some
          { mask := ravelMask tas.mask
            time := .scalar monthnumber
            location := (List.range tas.values.length).map UInt64.ofNat
            measurement := tas.values
            uncorrelated := adjusted tas.mask u
            correlated := [] })
    | _ => .error .indexError
  else .ok none

/-- `ObservationStructureSourceConnector.__init__` (observation_structure_source_connector.py 18-24) for a source with the attribute
`filespecs`, a dictionary of names of files, or without it.  Gives the observations and the names of files. -/
def connect (loaded : Except PyErr (Option (Observations ℝ))) (filespecs : Option (List (String × Option String))) :
    Except PyErr (Observations ℝ × List String) :=
  loaded.bind fun o =>
  match o with
  | none => .error .attributeError
  | some obs =>
    match filespecs with
    | none => .error .attributeError
    | some specs => .ok (obs, specs.filterMap Prod.snd)

/-- `load_observation_structure` (inputloader_hadcrut4.py 46-59): neither `ObservationSourceHadCRUT4` nor `ObservationSource` has an
attribute `filespecs`. -/
noncomputable def loadObservationStructure (observable : String) (monthnumber : Nat) (tas : Masked) (uncs : List Masked) :
    Except PyErr (Observations ℝ × List String) :=
  connect (observations observable monthnumber tas uncs) none

end Verif.Eustace.HadCRUT
