import Verif.Py
import Mathlib.Analysis.SpecialFunctions.Trigonometric.Basic
import Mathlib.Data.Real.Archimedean
import Mathlib.Algebra.Order.Floor.Ring

/-!
C62: averages over grid cells (`src/eustace/analysis/advanced_standard/fileio/output_structure_rectilinear.py`, class `Regridder`).

Simplifications: floating point values are real numbers (a division by zero gives nan in the code, zero here); the value of a component
at a list of places is the list of its values at the places.
-/

namespace Verif.Eustace.Regrid

open Verif

/-! ### Arrays -/

/-- `l.reshape(-1, n)`.  Simplified: no error if the length is not a multiple of `n`. -/
def reshape {α : Type} (n : Nat) (l : List α) : List (List α) := (List.range (l.length / n)).map fun i => (l.drop (i * n)).take n

/-- `numpy.tile(rows, (m, n))`. -/
def tile {α : Type} (m n : Nat) (rows : List (List α)) : List (List α) :=
  ((List.replicate m rows).flatten).map fun r => (List.replicate n r).flatten

/-- What `numpy.argsort` gives: the indices of all elements, ordered by the elements; the order of equal elements is not known. -/
structure Sorts (argsort : List ℝ → List Nat) : Prop where
  perm : ∀ l, (argsort l).Perm (List.range l.length)
  sorted : ∀ l, ((argsort l).map fun i => l.getD i 0).Pairwise (· ≤ ·)

/-! ### RegriddingRectilinearGridStructure -/

/-- `RegriddingRectilinearGridStructure` (output_structure_rectilinear.py 47-57) without time. -/
structure Structure where
  latitudes : List ℝ
  longitudes : List ℝ
  nlat : Nat
  nlon : Nat

/-- `rearrange_latitudes` (output_structure_rectilinear.py 79-86). -/
def Structure.rearrangeLatitudes (argsort : List ℝ → List Nat) (s : Structure) : List (List ℝ) :=
  let latitudes := tile (s.longitudes.length / s.nlon) s.nlon (reshape s.nlat s.latitudes)
  (argsort (latitudes.map fun r => r.headD 0)).map fun i => latitudes.getD i []

/-- `rearrange_longitudes` (output_structure_rectilinear.py 88-95). -/
def Structure.rearrangeLongitudes (argsort : List ℝ → List Nat) (s : Structure) : List (List ℝ) :=
  let longitudes := tile (s.latitudes.length / s.nlat) s.nlat (reshape s.nlon s.longitudes)
  longitudes.map fun r => (argsort (longitudes.headD [])).map fun i => r.getD i 0

/-- `location_polar_coordinates` (output_structure_rectilinear.py 97-102). -/
def Structure.locations (argsort : List ℝ → List Nat) (s : Structure) : List (ℝ × ℝ) :=
  (s.rearrangeLatitudes argsort).flatten.zip (s.rearrangeLongitudes argsort).flatten

/-! ### Regridder -/

/-- `round(x, 3)` of Python 2: halves away from zero. -/
noncomputable def round3 (x : ℝ) : ℝ :=
  open Classical in
  if 0 ≤ x then (⌊x * 1000 + 1 / 2⌋ : ℝ) / 1000 else -((⌊-x * 1000 + 1 / 2⌋ : ℝ) / 1000)

/-- `Regridder` (output_structure_rectilinear.py 107-119). -/
structure Regridder where
  latitudes : List ℝ
  longitudes : List ℝ
  nlat : Nat
  nlon : Nat
  blocking : Nat
  latitudeSpacing : ℝ
  longitudeSpacing : ℝ

/-- `Regridder.__init__` (output_structure_rectilinear.py 107-119). -/
noncomputable def Regridder.init (latitudes longitudes : List ℝ) (nlat nlon blocking : Nat) : Except PyErr Regridder :=
  match latitudes, longitudes with
  | a :: b :: _, c :: d :: _ => .ok ⟨latitudes, longitudes, nlat, nlon, blocking, round3 (b - a), round3 (d - c)⟩
  | _, _ => .error .indexError

/-- The points of one cell on one axis (output_structure_rectilinear.py 164-168). -/
noncomputable def subPoints (spacing : ℝ) (n : Nat) (x : ℝ) : List ℝ :=
  (List.range n).map fun i : Nat => x - spacing / 2 + (2 * ((i : ℝ) + 1) - 1) * spacing / (2 * n)

/-- `create_sub_cell_grids` (output_structure_rectilinear.py 161-170). -/
noncomputable def Regridder.subCellGrids (r : Regridder) (latitudes longitudes : List ℝ) : Structure :=
  ⟨latitudes.flatMap (subPoints r.latitudeSpacing r.nlat), longitudes.flatMap (subPoints r.longitudeSpacing r.nlon), r.nlat, r.nlon⟩

/-- `harmonic_factor` of one point (output_structure_rectilinear.py 182-185). -/
noncomputable def harmonic (latitude : ℝ) : ℝ := Real.cos (latitude * Real.pi / 180)

/-- `weighting_factors` of one row (output_structure_rectilinear.py 172-180). -/
noncomputable def weights (row : List ℝ) : List ℝ := row.map fun x => harmonic x / (row.map harmonic).sum

/-- What is evaluated at places: `solution_observation_expected_value`, `solution_observation_expected_uncertainties` and
`solution_observation_prior_uncertainties` of a component solution. -/
structure Solution where
  value : ℝ × ℝ → ℝ
  uncertainty : ℝ × ℝ → ℝ
  prior : ℝ × ℝ → ℝ

/-- The choice of field (output_structure_rectilinear.py 147-155; `GLOBAL_FIELD_OUTPUT_FLAGS`, definitions.py 26). -/
def Solution.field (s : Solution) (flag : String) : Except PyErr (ℝ × ℝ → ℝ) :=
  if flag = "MAP" then .ok s.value
  else if flag = "post_STD" then .ok s.uncertainty
  else if flag = "prior_STD" then .ok s.prior
  else .error .valueError

/-- `compute_blocked_gridded_expected_value` (output_structure_rectilinear.py 141-159). -/
noncomputable def Regridder.blocked (argsort : List ℝ → List Nat) (r : Regridder) (flag : String) (latitudes : List ℝ) (s : Solution) :
    Except PyErr (List ℝ) :=
  match s.field flag with
  | .error e => .error e
  | .ok f =>
    let structure_ := r.subCellGrids latitudes r.longitudes
    .ok (List.zipWith (fun w v => (List.zipWith (fun a b => a * b) w v).sum)
      ((structure_.rearrangeLatitudes argsort).map weights)
      (reshape (r.nlat * r.nlon) ((structure_.locations argsort).map f)))

/-- The blocks of latitudes (output_structure_rectilinear.py 124-137), with `blocking` at most the number of latitudes. -/
def latitudeBlocks (blocking : Nat) (latitudes : List ℝ) : List (List ℝ) :=
  ((List.range (latitudes.length / blocking)).map fun i => (latitudes.take ((i + 1) * blocking)).drop (i * blocking)) ++
    if latitudes.length % blocking ≠ 0 then [latitudes.drop ((latitudes.length / blocking - 1 + 1) * blocking)] else []

/-- The loop over blocks (output_structure_rectilinear.py 128-137): results are joined. -/
noncomputable def Regridder.loop (argsort : List ℝ → List Nat) (r : Regridder) (flag : String) (s : Solution) :
    List (List ℝ) → Except PyErr (List ℝ)
  | [] => .ok []
  | b :: rest =>
    match r.blocked argsort flag b s with
    | .error e => .error e
    | .ok values =>
      match r.loop argsort flag s rest with
      | .error e => .error e
      | .ok others => .ok (values ++ others)

/-- `compute_gridded_expected_value` (output_structure_rectilinear.py 121-139). -/
noncomputable def Regridder.compute (argsort : List ℝ → List Nat) (r : Regridder) (flag : String) (s : Solution) :
    Except PyErr (List ℝ) :=
  if min r.blocking r.latitudes.length = 0 then .error .zeroDivision
  else r.loop argsort flag s (latitudeBlocks (min r.blocking r.latitudes.length) r.latitudes)

/-! ### AnalysisSystem -/

/-- `OutputRectilinearGridStructure.location_polar_coordinates` (output_structure_rectilinear.py 41-45). -/
def gridLocations (latitudes longitudes : List ℝ) : List (ℝ × ℝ) := latitudes.flatMap fun a => longitudes.map fun b => (a, b)

/-- Sum of arrays of the same length, beginning with zeros (analysissystem.py 252, 273, 286, 296). -/
noncomputable def addTo (total values : List ℝ) : Except PyErr (List ℝ) :=
  if total.length = values.length then .ok (List.zipWith (fun a b => a + b) total values) else .error .valueError

/-- `evaluate_pointwise_expected_value` (analysissystem.py 254-273): the loop over components. -/
noncomputable def pointwiseLoop (flag : String) (places : List (ℝ × ℝ)) : List ℝ → List Solution → Except PyErr (List ℝ)
  | total, [] => .ok total
  | total, s :: rest =>
    let values := if flag = "MAP" then places.map s.value else places.map fun p => s.uncertainty p ^ 2
    if flag = "MAP" ∨ flag = "post_STD" then
      match addTo total values with
      | .error e => .error e
      | .ok total => pointwiseLoop flag places total rest
    else .error .valueError

/-- `evaluate_pointwise_expected_value` (analysissystem.py 243-278). -/
noncomputable def pointwise (flag : String) (latitudes longitudes : List ℝ) (components : List Solution) : Except PyErr (List ℝ) :=
  match pointwiseLoop flag (gridLocations latitudes longitudes) (List.replicate (latitudes.length * longitudes.length) 0) components with
  | .error e => .error e
  | .ok total => .ok (if flag = "MAP" then total else total.map Real.sqrt)

/-- `evaluate_single_component_grid_cell_average_expected_value` (analysissystem.py 306-316). -/
noncomputable def single (argsort : List ℝ → List Nat) (flag : String) (latitudes longitudes : List ℝ) (nlat nlon blocking : Nat)
    (s : Solution) : Except PyErr (List ℝ) :=
  match Regridder.init latitudes longitudes nlat nlon blocking with
  | .error e => .error e
  | .ok r =>
    match r.compute argsort flag s with
    | .error e => .error e
    | .ok values => .ok (if flag = "MAP" then values else values.map fun x => x ^ 2)

/-- The loop over components (analysissystem.py 288-296). -/
noncomputable def averageLoop (argsort : List ℝ → List Nat) (flag : String) (latitudes longitudes : List ℝ) (nlat nlon blocking : Nat) :
    List ℝ → List Solution → Except PyErr (List ℝ)
  | total, [] => .ok total
  | total, s :: rest =>
    match single argsort flag latitudes longitudes nlat nlon blocking s with
    | .error e => .error e
    | .ok values =>
      match addTo total values with
      | .error e => .error e
      | .ok total => averageLoop argsort flag latitudes longitudes nlat nlon blocking total rest

/-- `evaluate_grid_cell_average_expected_value` (analysissystem.py 280-304). -/
noncomputable def average (argsort : List ℝ → List Nat) (flag : String) (latitudes longitudes : List ℝ) (nlat nlon blocking : Nat)
    (components : List Solution) : Except PyErr (List ℝ) :=
  match averageLoop argsort flag latitudes longitudes nlat nlon blocking
      (List.replicate (latitudes.length * longitudes.length) 0) components with
  | .error e => .error e
  | .ok total =>
    if flag = "MAP" then .ok total
    else if flag = "post_STD" then .ok (total.map Real.sqrt)
    else .error .valueError

/-- `check_spatial_components` (analysissystem.py 332-347): the index of the only spatial component. -/
def spatialIndex (spatial : List Bool) : Option Nat :=
  match (List.range spatial.length).filter fun i => spatial.getD i false with
  | [i] => some i
  | _ => none

/-- `evaluate_climatology_fraction` (analysissystem.py 318-330), with the fill value. -/
noncomputable def climatologyFraction (argsort : List ℝ → List Nat) (fill : ℝ) (latitudes longitudes : List ℝ)
    (nlat nlon blocking : Nat) (components : List (Bool × Solution)) : Except PyErr (List ℝ) :=
  match spatialIndex (components.map Prod.fst) with
  | none => .ok (List.replicate (latitudes.length * longitudes.length) (0 + fill))
  | some i =>
    match components[i]? with
    | none => .error .indexError
    | some c =>
      match single argsort "post_STD" latitudes longitudes nlat nlon blocking c.2 with
      | .error e => .error e
      | .ok posterior =>
        match single argsort "prior_STD" latitudes longitudes nlat nlon blocking c.2 with
        | .error e => .error e
        | .ok prior => .ok (List.zipWith (fun a b => a / b) posterior prior)

/-- `evaluate_expected_value` (analysissystem.py 223-241; flags 42-43). -/
noncomputable def evaluate (argsort : List ℝ → List Nat) (field : String) (latitudes longitudes : List ℝ) (flag : String)
    (nlat nlon blocking : Nat) (components : List Solution) : Except PyErr (List ℝ) :=
  if field ∉ ["MAP", "post_STD", "prior_STD"] then .error .valueError
  else if flag ∉ ["POINTWISE", "GRID_CELL_AREA_AVERAGE"] then .error .valueError
  else if flag = "POINTWISE" then pointwise field latitudes longitudes components
  else average argsort field latitudes longitudes nlat nlon blocking components

/-- The loop of `evaluate_projected_sample` (analysissystem.py 209-219), over the draws of each component at each place.  Simplified:
arrays of another shape than the result are refused (numpy would repeat an array of one draw). -/
noncomputable def sampleLoop (places : List (ℝ × ℝ)) (size : Nat) :
    List (List ℝ) → List (Nat × (ℝ × ℝ → Nat → ℝ)) → Except PyErr (List (List ℝ))
  | total, [] => .ok total
  | total, c :: rest =>
    let drawn := places.map fun p => (List.range c.1).map (c.2 p)
    if c.1 = size then sampleLoop places size (List.zipWith (fun a b => List.zipWith (fun x y => x + y) a b) total drawn) rest
    else .error .valueError

/-- `evaluate_projected_sample` (analysissystem.py 193-221): components given by sample size and the value of each draw at a place. -/
noncomputable def projectedSample (latitudes longitudes : List ℝ) (components : List (Nat × (ℝ × ℝ → Nat → ℝ))) :
    Except PyErr (List (List ℝ)) :=
  if 1 < (components.map Prod.fst).dedup.length then .error .valueError
  else
    match components with
    | [] => .error .indexError
    | c :: _ =>
      sampleLoop (gridLocations latitudes longitudes) c.1
        (List.replicate (latitudes.length * longitudes.length) (List.replicate c.1 0)) components

end Verif.Eustace.Regrid
