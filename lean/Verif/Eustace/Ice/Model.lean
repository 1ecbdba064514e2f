import Verif.Py
import Mathlib.Analysis.SpecialFunctions.Trigonometric.Basic
import Mathlib.Data.Real.Sqrt
import Mathlib.Algebra.Order.Floor.Ring

/-! Surface air temperature over ice: `model_ice_input_processing.py` (quality control of the satellite input) and `model_ice.py`
(the model itself). Numbers are reals. Masked arrays are arrays of options; a masked element has no value, and every use of `.data`
in the source is at elements found unmasked, so what lies under a mask is not modelled. Masks are taken to be arrays (the scalar
`nomask` of numpy is not modelled). Not-a-number is not modelled. -/

namespace Verif.Eustace.Ice

open Verif

noncomputable section

/-- A two-dimensional array: its shape and its elements. -/
structure Grid (α : Type) where
  rows : ℕ
  cols : ℕ
  at' : ℕ → ℕ → α

/-- `shape` of a two-dimensional array. -/
def Grid.shape {α : Type} (g : Grid α) : ℕ × ℕ := (g.rows, g.cols)

/-- A three-dimensional array, of which the first index is the time of day. -/
structure Cube (α : Type) where
  bins : ℕ
  rows : ℕ
  cols : ℕ
  at' : ℕ → ℕ → ℕ → α

/-- `shape[1:3]` of a three-dimensional array. -/
def Cube.shape {α : Type} (g : Cube α) : ℕ × ℕ := (g.rows, g.cols)

/-- The members of `IceSurfaceTemperatureQualityControl` (model_ice_input_processing.py 82-95). Whether arrays have the number of
dimensions demanded by lines 46-55 is in the types here. The land mask is an array of integers without missing values. -/
structure Inputs where
  daynumber : ℝ
  latitude : List ℝ
  longitude : List ℝ
  ts : Grid (Option ℝ)
  tsMin : Grid (Option ℝ)
  tsMax : Grid (Option ℝ)
  tsStd : Grid (Option ℝ)
  ts3d : Cube (Option ℝ)
  nobs3d : Cube (Option ℤ)
  land : Grid ℤ
  fraction : Grid (Option ℝ)
  uncorrelated : Grid (Option ℝ)
  synoptic : Grid (Option ℝ)
  largeScale : Grid (Option ℝ)

/-- The checks of the constructor (model_ice_input_processing.py 57-79), in their order. Line 70 compares the shape of the land mask
with itself. -/
def construct (x : Inputs) : Except PyErr Inputs :=
  if x.ts.shape ≠ (x.latitude.length, x.longitude.length) then .error .valueError
  else if x.ts.shape ≠ x.tsMin.shape then .error .valueError
  else if x.ts.shape ≠ x.tsMax.shape then .error .valueError
  else if x.ts.shape ≠ x.tsStd.shape then .error .valueError
  else if x.ts.shape ≠ x.ts3d.shape then .error .valueError
  else if x.ts.shape ≠ x.nobs3d.shape then .error .valueError
  else if x.land.shape ≠ x.land.shape then .error .valueError
  else if x.ts.shape ≠ x.fraction.shape then .error .valueError
  else if x.ts.shape ≠ x.uncorrelated.shape then .error .valueError
  else if x.ts.shape ≠ x.largeScale.shape then .error .valueError
  else if x.ts.shape ≠ x.synoptic.shape then .error .valueError
  else .ok x

/-- `MIN_SEA_ICE_CONC` (model_ice_input_processing.py 13). -/
def minConcentration : ℝ := 0.3

/-- `MIZ_UPPER_THRESHOLD` (model_ice_input_processing.py 14). -/
def marginalUpper : ℝ := 0.85

/-- `TEMPERATURE_STANDARD_DEVIATION_MAX` (model_ice_input_processing.py 15). -/
def stdMax : ℝ := 7.07

/-- `TEMPERATURE_MAX` (model_ice_input_processing.py 16). -/
def temperatureMax : ℝ := 278.15

/-- `NB_TOL` (model_ice_input_processing.py 17). -/
def neighbourTolerance : ℝ := 10

/-- `COMBINED_BIN_MAX` (model_ice_input_processing.py 18). -/
def combinedBinMax : ℝ := 10

/-- `DAY_BIN_MAX` (model_ice_input_processing.py 19). -/
def dayBinMax : ℝ := 20

/-- `NIGHT_BIN_MIN` (model_ice_input_processing.py 20). -/
def nightBinMin : ℝ := -20

/-- `CLOUD_MASK_HALFWIDTH` (model_ice_input_processing.py 21). -/
def halfWidth : ℕ := 2

/-- `CLOUD_MASK_MIN_COUNT` (model_ice_input_processing.py 22). -/
def minCount : ℕ := 2

/-- `NIGHTBINS` (model_ice_input_processing.py 25). -/
def nightBins : List ℕ := [0, 1, 6, 7]

/-- `DAYBINS` (model_ice_input_processing.py 26). -/
def dayBins : List ℕ := [2, 3, 4, 5]

/-- The hemispheres (model_ice.py 48-49). -/
inductive Hemisphere
  | north
  | south
  deriving DecidableEq

/-- `hemisphere` (model_ice_input_processing.py 97-100). -/
def hemisphere (x : Inputs) : Except PyErr Hemisphere :=
  match x.latitude[0]? with
  | none => .error .indexError
  | some l => .ok (if l > 0 then .north else .south)

/-- `land_ice_mask` (model_ice_input_processing.py 102-105) at one cell; the land mask is taken to have the shape of the grid, and to
have no masked elements. -/
def landIceMask (x : Inputs) (i j : ℕ) : Bool := decide (x.land.at' i j ≠ 1) && decide (x.land.at' i j ≠ 4)

/-- A comparison of a masked array, `filled` with a value where it is masked. -/
def filled (fill : Bool) (p : ℝ → Prop) [DecidablePred p] : Option ℝ → Bool
  | none => fill
  | some v => decide (p v)

/-- `sea_ice_concentration_mask` (model_ice_input_processing.py 107-110). -/
def concentrationMask (x : Inputs) (i j : ℕ) : Bool := filled true (fun v => v < minConcentration) (x.fraction.at' i j)

/-- `sea_ice_mask` (model_ice_input_processing.py 112-115). -/
def seaIceMask (x : Inputs) (i j : ℕ) : Bool := concentrationMask x i j || !landIceMask x i j

/-- `ice_mask` (model_ice_input_processing.py 117-120). -/
def iceMask (x : Inputs) (i j : ℕ) : Bool := landIceMask x i j && concentrationMask x i j

/-- `marginal_ice_zone_mask` (model_ice_input_processing.py 122-125): the fraction is not filled here, so that a cell of unknown
fraction is masked in the result unless the first operand decides. In numpy the element under the mask of `a | b` is the one of `a`,
which is true where the fraction is unknown. -/
def marginalMask (x : Inputs) (i j : ℕ) : Option Bool :=
  (x.fraction.at' i j).map fun v => seaIceMask x i j || decide (v ≥ marginalUpper)

/-- `temperature_standard_deviation_mask` (model_ice_input_processing.py 127-130). -/
def stdMask (x : Inputs) (i j : ℕ) : Bool := filled false (fun v => v > stdMax) (x.tsStd.at' i j)

/-- `temperature_value_mask` (model_ice_input_processing.py 132-135). -/
def valueMask (x : Inputs) (i j : ℕ) : Bool := filled false (fun v => v > temperatureMax) (x.ts.at' i j)

/-- `numpy.sum(..., axis=0)` of a masked array: the sum of what is not masked, masked if all is. -/
def maskedSum (values : List (Option ℤ)) : Option ℤ :=
  match values.filterMap id with
  | [] => none
  | v => some v.sum

/-- `mean(axis=0)` of a masked array: the mean of what is not masked, masked if all is. -/
def maskedMean (values : List (Option ℝ)) : Option ℝ :=
  match values.filterMap id with
  | [] => none
  | v => some (v.sum / v.length)

/-- Where a count is zero or unknown. -/
def noneCounted : Option ℤ → Bool
  | none => true
  | some n => decide (n = 0)

/-- `observations_day_mask` (model_ice_input_processing.py 137-141), for arrays which have the bins. -/
def dayMask (x : Inputs) (i j : ℕ) : Bool := noneCounted (maskedSum (dayBins.map fun b => x.nobs3d.at' b i j))

/-- `observations_night_mask` (model_ice_input_processing.py 143-147), for arrays which have the bins. -/
def nightMask (x : Inputs) (i j : ℕ) : Bool := noneCounted (maskedSum (nightBins.map fun b => x.nobs3d.at' b i j))

/-- `observations_day_or_night_mask` (model_ice_input_processing.py 149-152). -/
def dayOrNightMask (x : Inputs) (i j : ℕ) : Bool := dayMask x i j || nightMask x i j

/-- The absolute difference of two masked values. -/
def absDifference : Option ℝ → Option ℝ → Option ℝ
  | some a, some b => some |a - b|
  | _, _ => none

/-- `combined_bin_comparison_mask` (model_ice_input_processing.py 154-159). -/
def combinedBinMask (x : Inputs) (i j : ℕ) : Bool :=
  filled false (fun v => v > combinedBinMax)
    (absDifference (x.ts.at' i j) (maskedMean ((List.range x.ts3d.bins).map fun b => x.ts3d.at' b i j)))

/-- `day_bin_comparison_mask` (model_ice_input_processing.py 161-166), for arrays which have the bins. -/
def dayBinMask (x : Inputs) (i j : ℕ) : Bool :=
  filled false (fun v => v > dayBinMax)
    (absDifference (x.tsMax.at' i j) (maskedMean (dayBins.map fun b => x.ts3d.at' b i j)))

/-- `night_bin_comparison_mask` (model_ice_input_processing.py 168-173), for arrays which have the bins. -/
def nightBinMask (x : Inputs) (i j : ℕ) : Bool :=
  filled false (fun v => v < nightBinMin)
    (absDifference (x.tsMin.at' i j) (maskedMean (nightBins.map fun b => x.ts3d.at' b i j)))

/-- The kernel of `local_mean` (model_ice_input_processing.py 272-274): ones, and zero at the centre. -/
def kernel (h : ℕ) (u v : ℕ) : ℝ := if u = h ∧ v = h then 0 else 1

/-- `scipy.signal.convolve(x, kernel, 'valid')` with a square kernel of side `2 h + 1` (model_ice_input_processing.py 278, 281): the
convolution turns the kernel about. For arrays of at least the size of the kernel. The sums are exact here; scipy may use the Fourier
transform. -/
def convolve (h : ℕ) (x : ℕ → ℕ → ℝ) (k : ℕ → ℕ → ℝ) (a b : ℕ) : ℝ :=
  ((List.range (2 * h + 1)).map fun u =>
    ((List.range (2 * h + 1)).map fun v => x (a + 2 * h - u) (b + 2 * h - v) * k u v).sum).sum

/-- `x.filled(0.0)` (model_ice_input_processing.py 270). -/
def zeroFilled (x : ℕ → ℕ → Option ℝ) (i j : ℕ) : ℝ := (x i j).getD 0

/-- `x.mask == False` as numbers (model_ice_input_processing.py 281). -/
def present (x : ℕ → ℕ → Option ℝ) (i j : ℕ) : ℝ := if (x i j).isSome then 1 else 0

/-- `local_mean` (model_ice_input_processing.py 261-287): masked where fewer than `mincount` neighbours have a value. Division of a
masked array by zero gives a masked element. -/
def localMean (h mincount : ℕ) (x : ℕ → ℕ → Option ℝ) (a b : ℕ) : Option ℝ :=
  let s := convolve h (zeroFilled x) (kernel h) a b
  let n := convolve h (present x) (kernel h) a b
  if n < mincount then none else if n = 0 then none else some (s / n)

/-- The difference of two masked values. -/
def difference : Option ℝ → Option ℝ → Option ℝ
  | some a, some b => some (a - b)
  | _, _ => none

/-- The variable with the mask of ice applied (model_ice_input_processing.py 240). -/
def remasked (x : ℕ → ℕ → Option ℝ) (mask : ℕ → ℕ → Bool) (i j : ℕ) : Option ℝ := if mask i j then none else x i j

/-- `cloud_mask` (model_ice_input_processing.py 236-259) at a cell of an array of the given shape, which is at least that of the
kernel. -/
def cloudMask (rows cols : ℕ) (x : ℕ → ℕ → Option ℝ) (mask : ℕ → ℕ → Bool) (i j : ℕ) : Bool :=
  if halfWidth ≤ i ∧ i < rows - halfWidth ∧ halfWidth ≤ j ∧ j < cols - halfWidth then
    filled false (fun d => d > neighbourTolerance)
      (difference (localMean halfWidth minCount (remasked x mask) (i - halfWidth) (j - halfWidth)) (remasked x mask i j))
  else false

/-- `filter_outliers` (model_ice_input_processing.py 175-183). -/
def filterOutliers (x : Inputs) (g : Grid (Option ℝ)) (threshold : ℕ → ℕ → Bool) : Grid (Option ℝ) :=
  { rows := g.rows
    cols := g.cols
    at' := fun i j =>
      if iceMask x i j
          || cloudMask g.rows g.cols g.at' (fun i j => threshold i j || concentrationMask x i j) i j
          || cloudMask g.rows g.cols g.at' (fun i j => threshold i j || landIceMask x i j) i j
          || threshold i j
      then none else g.at' i j }

/-- The threshold of `quality_controlled_surface_temperature` (model_ice_input_processing.py 189-193). -/
def meanThreshold (x : Inputs) (i j : ℕ) : Bool :=
  stdMask x i j || valueMask x i j || dayOrNightMask x i j || combinedBinMask x i j

/-- The threshold of `quality_controlled_surface_temperature_min` (model_ice_input_processing.py 201-205). -/
def minThreshold (x : Inputs) (i j : ℕ) : Bool :=
  stdMask x i j || valueMask x i j || nightMask x i j || nightBinMask x i j

/-- The threshold of `quality_controlled_surface_temperature_max` (model_ice_input_processing.py 213-217). -/
def maxThreshold (x : Inputs) (i j : ℕ) : Bool :=
  stdMask x i j || valueMask x i j || dayMask x i j || dayBinMask x i j

/-- What is computed (model_ice.py 52-57). -/
inductive Observable
  | tas
  | tasmin
  | tasmax
  deriving DecidableEq

/-- `OBSERVABLES` (model_ice.py 57). -/
def observables : List Observable := [.tas, .tasmin, .tasmax]

/-- The names (model_ice.py 52-54, definitions.py 182-184). -/
def Observable.name : Observable → String
  | .tas => "tas"
  | .tasmin => "tasmin"
  | .tasmax => "tasmax"

/-- `corresponding_surface_temperature` (model_ice.py 301-305), with the three functions of model_ice_input_processing.py 185-219.
Taking the bins of an array which has too few of them is an IndexError. -/
def surfaceTemperature (x : Inputs) : Observable → Except PyErr (Grid (Option ℝ))
  | .tas => if x.nobs3d.bins < 8 then .error .indexError else .ok (filterOutliers x x.ts (meanThreshold x))
  | .tasmin =>
    if x.nobs3d.bins < 8 ∨ x.ts3d.bins < 8 then .error .indexError else .ok (filterOutliers x x.tsMin (minThreshold x))
  | .tasmax =>
    if x.nobs3d.bins < 6 ∨ x.ts3d.bins < 6 then .error .indexError else .ok (filterOutliers x x.tsMax (maxThreshold x))

/-- The two surfaces (model_ice.py 46-47). -/
inductive Surface
  | landIce
  | seaIce
  deriving DecidableEq

/-- Their names in the parameter files (model_ice.py 46-47). -/
def Surface.name : Surface → String
  | .landIce => "LandIce"
  | .seaIce => "SeaIce"

/-- `corresponding_part_mask` (model_ice.py 308-311). -/
def partMask (x : Inputs) : Surface → ℕ → ℕ → Bool
  | .landIce => landIceMask x
  | .seaIce => seaIceMask x

/-- `glob_LSU` (model_ice.py 66). -/
def globalLargeScale : ℝ := 0.2

/-- `glob_CU_offset` (model_ice.py 69). -/
def cloudOffset : Observable → ℝ
  | .tas => 0
  | .tasmin => 2
  | .tasmax => 0

/-- `RU_sampling` (model_ice.py 78-87). -/
def sampling : Hemisphere → Surface → Observable → ℝ
  | .north, .landIce, .tas => 1.6
  | .north, .landIce, .tasmin => 2.2
  | .north, .landIce, .tasmax => 2.1
  | .north, .seaIce, .tas => 0
  | .north, .seaIce, .tasmin => 2.9
  | .north, .seaIce, .tasmax => 2
  | .south, .landIce, .tas => 1.6
  | .south, .landIce, .tasmin => 1.5
  | .south, .landIce, .tasmax => 3.8
  | .south, .seaIce, .tas => 1.7
  | .south, .seaIce, .tasmin => 5.7
  | .south, .seaIce, .tasmax => 2.9

/-- `SSU_relation` (model_ice.py 94-97). -/
def relation : Surface → Observable → ℝ
  | .landIce, .tas => 1.5
  | .landIce, .tasmin => 1.8
  | .landIce, .tasmax => 2
  | .seaIce, .tas => 1.7
  | .seaIce, .tasmin => 1.8
  | .seaIce, .tasmax => 2.1

/-- The parameters of one hemisphere: for every surface named in the file, and every observable, the coefficients. -/
abbrev Parameters := List (String × (Observable → List ℝ))

/-- What is read from a file of parameters (model_ice.py 146-149, 164): names of surfaces, and for each a list of vectors. -/
structure ParameterFile where
  names : List String
  vectors : List (List (List ℝ))

/-- The loop over the names (model_ice.py 161-174). A name beyond the vectors is an IndexError. Later entries of a dictionary replace
earlier ones: here they come first. -/
def loadLoop (vectors : List (List (List ℝ))) : List String → ℕ → Parameters → Except PyErr Parameters
  | [], _, acc => .ok acc
  | name :: rest, k, acc =>
    match vectors[k]? with
    | none => .error .indexError
    | some v =>
      if v.length ≠ 3 then .error .valueError
      else loadLoop vectors rest (k + 1) ((name, fun o =>
        match o with
        | .tas => v.getD 0 []
        | .tasmin => v.getD 1 []
        | .tasmax => v.getD 2 []) :: acc)

/-- `load_hemisphere_model_parameters` (model_ice.py 141-177). -/
def loadHemisphere (f : ParameterFile) : Except PyErr Parameters :=
  if Surface.landIce.name ∉ f.names then .error .valueError
  else if Surface.seaIce.name ∉ f.names then .error .valueError
  else loadLoop f.vectors f.names 0 []

/-- The entry of a dictionary. -/
def lookup (p : Parameters) (name : String) : Except PyErr (Observable → List ℝ) :=
  match p.find? (fun e => e.1 = name) with
  | none => .error .keyError
  | some e => .ok e.2

/-- The model: parameters for the hemispheres for which a file was given (model_ice.py 136-139). -/
abbrev Model := Hemisphere → Option Parameters

/-- `TEMPERATURE_OFFSET` (model_ice.py 61). -/
def temperatureOffset : ℝ := 273.15

/-- `DAYNUMBER_OFFSET` (model_ice.py 62). -/
def dayOffset : ℝ := 18262

/-- `DAYNUMBER_SCALE` (model_ice.py 63). -/
def dayScale : ℝ := 365.2425

/-- `compute_air_temperature_TskinSeason` (model_ice.py 271-287) of one value, for coefficients `c0, c1, c2, c3`. -/
def airTemperature (c0 c1 c2 c3 day t : ℝ) : ℝ :=
  let temperature := t - temperatureOffset
  let time := 2 * Real.pi * (day - dayOffset) / dayScale
  c1 * temperature + (c0 + c2 * Real.cos time + c3 * Real.sin time) + temperatureOffset

/-- `ravel` of a two-dimensional array in order of rows. -/
def ravel {α : Type} (g : Grid α) (k : ℕ) : α := g.at' (k / g.cols) (k % g.cols)

/-- `numpy.nonzero` of a flat array of truth values of the given size. -/
def nonzero (size : ℕ) (p : ℕ → Bool) : List ℕ := (List.range size).filter p

/-- Positions in a list of the elements which have a property: `numpy.nonzero(a[indices])[0]`. -/
def positions (p : ℕ → Bool) (indices : List ℕ) : List ℕ :=
  (List.range indices.length).filter fun k => match indices[k]? with
    | some i => p i
    | none => false

/-- `numpy.delete(indices, missing)`: the list without the elements at the given positions. -/
def delete (indices missing : List ℕ) : List ℕ :=
  ((List.range indices.length).filter fun k => decide (k ∉ missing)).filterMap fun k => indices[k]?

/-- Assignment to elements of a flat array: `a.mask.ravel()[indices] = False; a.data.ravel()[indices] = values`. -/
def put : List ℕ → List ℝ → (ℕ → Option ℝ) → ℕ → Option ℝ
  | i :: is, v :: vs, f => put is vs (Function.update f i (some v))
  | _, _, f => f

/-- The arrays of `ModelIceObservableProcessor` (model_ice.py 374-378), flat. -/
structure Fields where
  air : ℕ → Option ℝ
  uncorrelated : ℕ → Option ℝ
  synoptic : ℕ → Option ℝ
  largeScale : ℕ → Option ℝ
  cloud : ℕ → Option ℝ

/-- `numpy.ma.masked_all` for all arrays (model_ice.py 374-378). -/
def masked : Fields := ⟨fun _ => none, fun _ => none, fun _ => none, fun _ => none, fun _ => none⟩

/-- The cells over which a part is computed (model_ice.py 381-393): those where the surface temperature has a value and the part is
present, without those for which an uncertainty is missing. -/
def partIndices (x : Inputs) (s : Surface) (t : Grid (Option ℝ)) : List ℕ :=
  let size := t.rows * t.cols
  let combined := fun k => (ravel t k).isNone || partMask x s (k / t.cols) (k % t.cols)
  let indices := nonzero size (fun k => combined k == false)
  let missing :=
    positions (fun k => (ravel x.uncorrelated k).isNone) indices
      ++ positions (fun k => (ravel x.synoptic k).isNone) indices
      ++ positions (fun k => (ravel x.largeScale k).isNone) indices
  if missing.length ≠ 0 then delete indices missing else indices

/-- The elements of a flat masked array at given indices, `.data.ravel()[indices]`. -/
def dataAt (g : Grid (Option ℝ)) (indices : List ℕ) : List ℝ := indices.map fun k => (ravel g k).getD 0

/-- `part_RU` (model_ice.py 408). -/
def uncorrelatedOf (h : Hemisphere) (s : Surface) (o : Observable) (c1 u : ℝ) : ℝ :=
  Real.sqrt (u ^ 2 + (sampling h s o) ^ 2) * c1

/-- `part_SSU` (model_ice.py 409). -/
def synopticOf (s : Surface) (o : Observable) (c1 u : ℝ) : ℝ := Real.sqrt ((u * c1) ^ 2 + (relation s o) ^ 2)

/-- `part_LSU` (model_ice.py 412). -/
def largeScaleOf (c1 : ℝ) : ℝ := c1 * globalLargeScale

/-- `part_CU` (model_ice.py 413). -/
def cloudOf (o : Observable) (c1 u : ℝ) : ℝ := c1 * (u - globalLargeScale + cloudOffset o)

/-- `process_observable_part` (model_ice.py 364-429). The coefficients must be at least four. -/
def processPart (o : Observable) (x : Inputs) (h : Hemisphere) (s : Surface) (t : Grid (Option ℝ)) (coeffs : List ℝ)
    (f : Fields) : Except PyErr Fields :=
  match coeffs with
  | c0 :: c1 :: c2 :: c3 :: _ =>
    let indices := partIndices x s t
    if (indices.filter fun k => (f.air k).isSome).length ≠ 0 then .error .valueError
    else .ok
      { air := put indices ((dataAt t indices).map (airTemperature c0 c1 c2 c3 x.daynumber)) f.air
        uncorrelated := put indices ((dataAt x.uncorrelated indices).map (uncorrelatedOf h s o c1)) f.uncorrelated
        synoptic := put indices ((dataAt x.synoptic indices).map (synopticOf s o c1)) f.synoptic
        largeScale := put indices (indices.map fun _ => largeScaleOf c1) f.largeScale
        cloud := put indices ((dataAt x.largeScale indices).map (cloudOf o c1)) f.cloud }
  | _ => .error .indexError

/-- The loop over the parts (model_ice.py 320-332). -/
def processParts (m : Model) (x : Inputs) (h : Hemisphere) (o : Observable) : List Surface → Fields → Except PyErr Fields
  | [], f => .ok f
  | s :: rest, f =>
    match m h with
    | none => .error .keyError
    | some p =>
      match lookup p s.name with
      | .error e => .error e
      | .ok c =>
        match surfaceTemperature x o with
        | .error e => .error e
        | .ok t =>
          match processPart o x h s t (c o) f with
          | .error e => .error e
          | .ok f' => processParts m x h o rest f'

/-- `numpy.sqrt` of the sum of squares of masked values: masked where one of them is (model_ice.py 335-338). -/
def rootSumSquares (values : List (Option ℝ)) : Option ℝ :=
  if values.all Option.isSome then some (Real.sqrt ((values.map fun v => (v.getD 0) ^ 2).sum)) else none

/-- The flat array as a field of the given shape. -/
def field (rows cols : ℕ) (f : ℕ → Option ℝ) : Grid (Option ℝ) := ⟨rows, cols, fun i j => f (i * cols + j)⟩

/-- `process_observable` (model_ice.py 297-351): names and fields. -/
def processObservable (m : Model) (x : Inputs) (o : Observable) : Except PyErr (List (String × Grid (Option ℝ))) :=
  match hemisphere x with
  | .error e => .error e
  | .ok h =>
    match processParts m x h o [.landIce, .seaIce] masked with
    | .error e => .error e
    | .ok f =>
      let noCloud := fun k => rootSumSquares [f.uncorrelated k, f.synoptic k, f.largeScale k]
      let total := fun k => rootSumSquares [f.uncorrelated k, f.synoptic k, f.largeScale k, f.cloud k]
      let g := field x.ts.rows x.ts.cols
      .ok [(o.name, g f.air), (o.name ++ "uncertainty", g total), (o.name ++ "_unc_no_cloud", g noCloud),
        (o.name ++ "_unc_rand", g f.uncorrelated), (o.name ++ "_unc_corr_local", g f.synoptic),
        (o.name ++ "_unc_sys", g f.largeScale), (o.name ++ "_unc_cloud", g f.cloud)]

/-- `process_hemisphere` (model_ice.py 179-193): the names of the observables give different keys, so `update` appends. -/
def processHemisphere (m : Model) (x : Inputs) : List Observable → Except PyErr (List (String × Grid (Option ℝ)))
  | [] => .ok []
  | o :: rest =>
    match processObservable m x o with
    | .error e => .error e
    | .ok r =>
      match processHemisphere m x rest with
      | .error e => .error e
      | .ok r' => .ok (r ++ r')

/-- Python's `int` of a real number: towards zero. -/
def truncate (v : ℝ) : ℤ := if 0 ≤ v then ⌊v⌋ else ⌈v⌉

/-- Differences of neighbours, `a[1:] - a[0:-1]`. -/
def steps : List ℝ → List ℝ
  | a :: b :: rest => (b - a) :: steps (b :: rest)
  | _ => []

/-- `numpy.max(numpy.abs(steps - resolution)) > 0.000001` (model_ice.py 224-229); the maximum of nothing is a ValueError. -/
def uneven (resolution : ℝ) (latitudes : List ℝ) : Except PyErr Bool :=
  match steps latitudes with
  | [] => .error .valueError
  | s => .ok (s.any fun d => decide (|d - resolution| > 0.000001))

/-- An index of a slice of Python, for an array of the given length. -/
def clip (n : ℕ) (k : ℤ) : ℕ := if k < 0 then (k + n).toNat else min k.toNat n

/-- `combined_field[start:end,:] = fielddata` (model_ice.py 266). Fields of one row (which numpy would repeat) do not occur, as there
are at least two latitudes. -/
def assignRows (combined : Grid (Option ℝ)) (start stop : ℤ) (data : Grid (Option ℝ)) : Except PyErr (Grid (Option ℝ)) :=
  let a := clip combined.rows start
  let b := clip combined.rows stop
  if b - a ≠ data.rows ∨ data.cols ≠ combined.cols then .error .valueError
  else .ok { combined with at' := fun i j => if a ≤ i ∧ i < a + data.rows then data.at' (i - a) j else combined.at' i j }

/-- Put one field into the results (model_ice.py 257-266). -/
def insertField (rows cols : ℕ) (start stop : ℤ) (name : String) (data : Grid (Option ℝ))
    (results : List (String × Grid (Option ℝ))) : Except PyErr (List (String × Grid (Option ℝ))) :=
  match results.find? (fun e => e.1 = name) with
  | none =>
    match assignRows ⟨rows, cols, fun _ _ => none⟩ start stop data with
    | .error e => .error e
    | .ok g => .ok (results ++ [(name, g)])
  | some e =>
    match assignRows e.2 start stop data with
    | .error e => .error e
    | .ok g => .ok (results.map fun r => if r.1 = name then (name, g) else r)

/-- The loop over the fields (model_ice.py 255-266), in the order in which they were computed: their names differ, so that the order
of a dictionary does not matter. -/
def insertFields (rows cols : ℕ) (start stop : ℤ) :
    List (String × Grid (Option ℝ)) → List (String × Grid (Option ℝ)) → Except PyErr (List (String × Grid (Option ℝ)))
  | [], results => .ok results
  | (name, data) :: rest, results =>
    match insertField rows cols start stop name data results with
    | .error e => .error e
    | .ok r => insertFields rows cols start stop rest r

/-- One pass of the loop over the hemispheres (model_ice.py 244-266). -/
def insertHemisphere (m : Model) (first resolution : ℝ) (rows cols : ℕ) (x : Inputs) (results : List (String × Grid (Option ℝ))) :
    Except PyErr (List (String × Grid (Option ℝ))) :=
  match x.latitude[0]? with
  | none => .error .indexError
  | some l =>
    let start := truncate ((l - first + 0.000001) / resolution)
    match processHemisphere m x observables with
    | .error e => .error e
    | .ok fields => insertFields rows cols start (start + x.latitude.length) fields results

/-- The checks of `process_global` (model_ice.py 198-229): what is left is the first latitude, the resolution, the last latitude of
the south and the ends of the north. -/
structure Checked where
  first : ℝ
  resolution : ℝ
  last : ℝ

/-- `process_global` (model_ice.py 198-232): checks. -/
def check (south north : Inputs) : Except PyErr Checked :=
  match hemisphere south, hemisphere north with
  | .ok .south, .ok .north =>
    if south.daynumber ≠ north.daynumber then .error .valueError
    else if south.longitude.length ≠ north.longitude.length then .error .valueError
    else match south.latitude, south.latitude.getLast?, north.latitude.head?, north.latitude.getLast? with
      | l0 :: l1 :: _, some sLast, some nFirst, some nLast =>
        if l1 - l0 ≤ 0 then .error .valueError
        else if nFirst ≤ sLast then .error .valueError
        else match uneven (l1 - l0) south.latitude with
          | .error e => .error e
          | .ok true => .error .valueError
          | .ok false =>
            match uneven (l1 - l0) north.latitude with
            | .error e => .error e
            | .ok true => .error .valueError
            | .ok false => .ok ⟨l0, l1 - l0, nLast⟩
      | _, _, _, _ => .error .indexError
  | .error e, _ => .error e
  | .ok .north, _ => .error .valueError
  | .ok .south, .error e => .error e
  | .ok .south, .ok .south => .error .valueError

/-- `process_global` (model_ice.py 195-268): the day number and the fields by name. An array cannot have a negative number of rows. -/
def processGlobal (m : Model) (south north : Inputs) : Except PyErr (ℝ × List (String × Grid (Option ℝ))) :=
  match check south north with
  | .error e => .error e
  | .ok c =>
    let total := truncate ((c.last - c.first + 0.000001) / c.resolution) + 1
    if total < 0 then .error .valueError
    else
      match insertHemisphere m c.first c.resolution total.toNat south.longitude.length south [] with
      | .error e => .error e
      | .ok r =>
        match insertHemisphere m c.first c.resolution total.toNat south.longitude.length north r with
        | .error e => .error e
        | .ok r' => .ok (south.daynumber, r')

end

end Verif.Eustace.Ice
