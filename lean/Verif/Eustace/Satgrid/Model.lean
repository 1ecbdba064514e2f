import Verif.Eustace.Satgrid.Axis
import Verif.Eustace.ObsSource.Model
import Mathlib.Logic.Function.Basic

/-!
Model of the aggregation of satellite files on a grid: `src/eustace/satgrid/` aggregate.c, aggregate_grid.py,
file_aggregate_grid.py, satellite_file.py.

Simplifications: float32 values are real numbers and counts natural numbers, so there is no rounding and no overflow.  Arrays over
the grid are functions of the flat index of a box; the C functions do not check indices, but all indices are below the number of
boxes (`c59_flat_range`).
-/

namespace Verif.Eustace.Satgrid

open Verif Verif.Eustace.ObsSource

/-! ### aggregate.c -/

/-- The loop of all functions of aggregate.c: the box of each index is changed by the value in the same place. -/
def scatter {α β : Type} (op : β → α → β) : (Nat → β) → List (Nat × α) → Nat → β
  | bins, [] => bins
  | bins, p :: rest => scatter op (Function.update bins p.1 (op (bins p.1) p.2)) rest

/-- `aggregate_sum` (aggregate.c 74-75).  Values and indices have the same length. -/
noncomputable def aggregateSum (bins : Nat → ℝ) (values : List ℝ) (indices : List Nat) : Nat → ℝ :=
  scatter (fun b x => b + x) bins (indices.zip values)

/-- Contents of a box in `aggregate_count_sum_min_max`. -/
structure Stats where
  count : Nat
  sum : ℝ
  min : ℝ
  max : ℝ

/-- One turn of the loop of `aggregate_count_sum_min_max` (aggregate.c 120-127). -/
noncomputable def Stats.add (s : Stats) (x : ℝ) : Stats :=
  open Classical in
  ⟨s.count + 1, s.sum + x, if x < s.min then x else s.min, if s.max < x then x else s.max⟩

/-- `aggregate_count_sum_min_max` (aggregate.c 118-128). -/
noncomputable def aggregateCountSumMinMax (bins : Nat → Stats) (values : List ℝ) (indices : List Nat) : Nat → Stats :=
  scatter Stats.add bins (indices.zip values)

/-- `aggregate_constant` (aggregate.c 155-156). -/
noncomputable def aggregateConstant (bins : Nat → ℝ) (k : ℝ) (indices : List Nat) : Nat → ℝ :=
  scatter (fun b x => b + x) bins (indices.map fun i => (i, k))

/-- `aggregate_count` (aggregate.c 181-182). -/
def aggregateCount (bins : Nat → Nat) (indices : List Nat) : Nat → Nat :=
  scatter (fun b (_ : Unit) => b + 1) bins (indices.map fun i => (i, ()))

/-- `aggregate_sum_dev_sq` (aggregate.c 216-220). -/
noncomputable def aggregateSumDevSq (bins mean : Nat → ℝ) (values : List ℝ) (indices : List Nat) : Nat → ℝ :=
  scatter (fun b x => b + x) bins ((indices.zip values).map fun p => (p.1, (p.2 - mean p.1) * (p.2 - mean p.1)))

/-! ### aggregate_grid.py -/

/-- `numpy.finfo('f').max`. -/
noncomputable def floatMax : ℝ := (2 - 1 / 2 ^ 23) * 2 ^ 127

/-- Observations and uncertainties given to `aggregate_at_indices`. -/
structure Batch where
  indices : List Nat
  observations : List ℝ
  ran : List ℝ
  atm : List ℝ
  sfc : List ℝ
  sys : ℝ

/-- `AggregateGridCountSumMinMax` (aggregate_grid.py 205-220). -/
structure Running where
  stats : Nat → Stats
  sumSq : Nat → ℝ
  ran : Nat → ℝ
  atm : Nat → ℝ
  sfc : Nat → ℝ
  sys : Nat → ℝ

/-- `AggregateGridCountSumMinMax.__init__` (aggregate_grid.py 205-220). -/
noncomputable def Running.empty : Running :=
  ⟨fun _ => ⟨0, 0, floatMax, -floatMax⟩, fun _ => 0, fun _ => 0, fun _ => 0, fun _ => 0, fun _ => 0⟩

/-- `AggregateGridCountSumMinMax.aggregate_at_indices` (aggregate_grid.py 222-233). -/
noncomputable def Running.aggregate (s : Running) (b : Batch) : Running where
  stats := aggregateCountSumMinMax s.stats b.observations b.indices
  sumSq := aggregateSum s.sumSq (b.observations.map fun x => x * x) b.indices
  ran := aggregateSum s.ran (b.ran.map fun x => x * x) b.indices
  atm := aggregateSum s.atm (b.atm.map fun x => x * x) b.indices
  sfc := aggregateSum s.sfc (b.sfc.map fun x => x * x) b.indices
  sys := aggregateConstant s.sys (b.sys * b.sys) b.indices

/-- The fields which `compute_fields` returns. -/
structure Fields where
  mean : Nat → ℝ
  min : Nat → ℝ
  max : Nat → ℝ
  ran : Nat → ℝ
  atm : Nat → ℝ
  sfc : Nat → ℝ
  sys : Nat → ℝ
  number : Nat → Nat

/-- `AggregateGridCountSumMinMax.compute_fields` (aggregate_grid.py 235-282). -/
noncomputable def Running.computeFields (s : Running) (flag : ℝ) : Fields where
  mean g := if (s.stats g).count ≠ 0 then (s.stats g).sum / (s.stats g).count else flag
  max g := if (s.stats g).count ≠ 0 then (s.stats g).max else flag
  min g := if (s.stats g).count ≠ 0 then (s.stats g).min else flag
  number g := if (s.stats g).count ≠ 0 then (s.stats g).count else 0
  ran g := if (s.stats g).count ≠ 0 then Real.sqrt (s.ran g / ((s.stats g).count * (s.stats g).count)) else flag
  atm g := if (s.stats g).count ≠ 0 then Real.sqrt (s.atm g / (s.stats g).count) else flag
  sfc g := if (s.stats g).count ≠ 0 then Real.sqrt (s.sfc g / (s.stats g).count) else flag
  sys g := if (s.stats g).count ≠ 0 then Real.sqrt (s.sys g / (s.stats g).count) else flag

/-! ### AggregateGridArray -/

/-- `AggregateGridArray` (aggregate_grid.py 89-99), for a grid with `boxes` boxes: `values` is the flat array. -/
structure Held where
  count : Nat → Nat
  values : Nat → ℝ
  ran : Nat → ℝ
  atm : Nat → ℝ
  sfc : Nat → ℝ
  sys : Nat → ℝ

/-- `AggregateGridArray.__init__` (aggregate_grid.py 89-99). -/
def Held.empty : Held := ⟨fun _ => 0, fun _ => 0, fun _ => 0, fun _ => 0, fun _ => 0, fun _ => 0⟩

/-- One turn of the loop (aggregate_grid.py 122-143): a place outside of the flat array raises `IndexError`. -/
noncomputable def Held.add (boxes room : Nat) (sys : ℝ) (s : Held) (g : Nat) (x ran atm sfc : ℝ) : Except PyErr Held :=
  if boxes * room ≤ g * room + s.count g then .error .indexError
  else .ok {
    values := Function.update s.values (g * room + s.count g) x
    count := Function.update s.count g (s.count g + 1)
    ran := Function.update s.ran g (s.ran g + ran * ran)
    atm := Function.update s.atm g (s.atm g + atm * atm)
    sfc := Function.update s.sfc g (s.sfc g + sfc * sfc)
    sys := Function.update s.sys g (s.sys g + sys * sys) }

/-- The loop of `aggregate_at_indices` (aggregate_grid.py 122-143), `nditer` over arrays of the same length. -/
noncomputable def Held.loop (boxes room : Nat) (sys : ℝ) : Held → List Nat → List ℝ → List ℝ → List ℝ → List ℝ → Except PyErr Held
  | s, g :: gs, x :: xs, r :: rs, a :: as, f :: fs =>
    match Held.add boxes room sys s g x r a f with
    | .error e => .error e
    | .ok s' => Held.loop boxes room sys s' gs xs rs as fs
  | s, _, _, _, _, _ => .ok s

/-- `AggregateGridArray.aggregate_at_indices` (aggregate_grid.py 101-143). -/
noncomputable def Held.aggregate (boxes room : Nat) (s : Held) (b : Batch) : Except PyErr Held :=
  Held.loop boxes room b.sys s b.indices b.observations b.ran b.atm b.sfc

/-- The values in the places of a box. -/
def Held.row (room : Nat) (s : Held) (g : Nat) : List ℝ := (List.range room).map fun k => s.values (g * room + k)

/-- Maximum along an axis of a masked array, which masks zeros: without any other value the fill value is left
(aggregate_grid.py 166-172). -/
noncomputable def maskedMax (l : List ℝ) : ℝ :=
  open Classical in
  match l.filter fun x => decide (x ≠ 0) with
  | [] => 10 ^ 20
  | x :: rest => rest.foldl max x

/-- Minimum along an axis of a masked array (aggregate_grid.py 166-167, 175). -/
noncomputable def maskedMin (l : List ℝ) : ℝ :=
  open Classical in
  match l.filter fun x => decide (x ≠ 0) with
  | [] => 10 ^ 20
  | x :: rest => rest.foldl min x

/-- `AggregateGridArray.compute_fields` (aggregate_grid.py 145-196). -/
noncomputable def Held.computeFields (room : Nat) (s : Held) (flag : ℝ) : Fields where
  mean g := if s.count g ≠ 0 then (s.row room g).sum / s.count g else flag
  max g := if s.count g ≠ 0 then maskedMax (s.row room g) else flag
  min g := if s.count g ≠ 0 then maskedMin (s.row room g) else flag
  number g := if s.count g ≠ 0 then s.count g else 0
  ran g := if s.count g ≠ 0 then Real.sqrt (s.ran g / (s.count g * s.count g)) else flag
  atm g := if s.count g ≠ 0 then Real.sqrt (s.atm g / s.count g) else flag
  sfc g := if s.count g ≠ 0 then Real.sqrt (s.sfc g / s.count g) else flag
  sys g := if s.count g ≠ 0 then Real.sqrt (s.sys g / s.count g) else flag

/-! ### Files -/

/-- The variables of a pair of files (satellite_file.py 46-48), as flat arrays.  Simplified: nothing is masked. -/
structure SatelliteFile where
  qc : List Nat
  lst : List ℝ
  lat : List ℝ
  lon : List ℝ
  ran : List ℝ
  atm : List ℝ
  sfc : List ℝ
  sys : ℝ

/-- `find_qc_flag_indices` (satellite_file.py 73-81). -/
def qcIndices (qc : List Nat) (mask filter : Nat) : List Nat :=
  (List.range qc.length).filter fun i => (qc[i]?).any fun q => decide (q &&& mask = filter)

/-- The parameters of `SatelliteFileAggregator` (file_aggregate_grid.py 47-63). -/
structure Aggregator where
  latitude : GridAxis
  longitude : GridAxis
  maskObs : Nat
  filterObs : Nat
  maskValid : Nat
  filterValid : Nat

/-- What a `SatelliteFileAggregator` has collected (file_aggregate_grid.py 54-55, 63). -/
structure Collected where
  output : Running
  obs : Nat → Nat
  devSq : Nat → ℝ

/-- The coordinates at given indices, as pairs (file_aggregate_grid.py 76-77). -/
def coordinatesAt (f : SatelliteFile) (indices : List Nat) : Except PyErr (List (ℝ × ℝ)) :=
  match gather f.lat indices with
  | .error e => .error e
  | .ok lat =>
    match gather f.lon indices with
    | .error e => .error e
    | .ok lon => .ok (lat.zip lon)

/-- The boxes of the pixels with given flags. -/
noncomputable def boxesAt (a : Aggregator) (f : SatelliteFile) (indices : List Nat) : Except PyErr (List Nat) :=
  match coordinatesAt f indices with
  | .error e => .error e
  | .ok coordinates => flatIndices a.latitude a.longitude coordinates

/-- `aggregate_file` (file_aggregate_grid.py 65-89). -/
noncomputable def aggregateFile (a : Aggregator) (s : Collected) (f : SatelliteFile) : Except PyErr Collected :=
  let valid := qcIndices f.qc a.maskValid a.filterValid
  match gather f.lst valid, gather f.ran valid, gather f.atm valid, gather f.sfc valid with
  | .ok lst, .ok ran, .ok atm, .ok sfc =>
    match boxesAt a f valid with
    | .error e => .error e
    | .ok indices =>
      match boxesAt a f (qcIndices f.qc a.maskObs a.filterObs) with
      | .error e => .error e
      | .ok obs => .ok { s with
          output := s.output.aggregate ⟨indices, lst, ran, atm, sfc, f.sys⟩
          obs := aggregateCount s.obs obs }
  | _, _, _, _ => .error .indexError

/-- `aggregate_file_second_order` (file_aggregate_grid.py 91-100). -/
noncomputable def aggregateSecond (a : Aggregator) (mean : Nat → ℝ) (s : Collected) (f : SatelliteFile) : Except PyErr Collected :=
  let valid := qcIndices f.qc a.maskValid a.filterValid
  match gather f.lst valid with
  | .error e => .error e
  | .ok lst =>
    match boxesAt a f valid with
    | .error e => .error e
    | .ok indices => .ok { s with devSq := aggregateSumDevSq s.devSq mean lst indices }

/-- A loop over files. -/
def forFiles (step : Collected → SatelliteFile → Except PyErr Collected) : Collected → List SatelliteFile → Except PyErr Collected
  | s, [] => .ok s
  | s, f :: rest =>
    match step s f with
    | .error e => .error e
    | .ok s' => forFiles step s' rest

/-- `FLAG_INVALID` (file_aggregate_grid.py 17). -/
noncomputable def flagInvalid : ℝ := -1

/-- What `run` returns as fields, without the coordinates of the axes (file_aggregate_grid.py 102-136). -/
structure Output where
  first : Fields
  total : Nat → Nat
  variance : Nat → ℝ
  sampling : Nat → ℝ

/-- The variance of a box (file_aggregate_grid.py 115-121). -/
noncomputable def varianceOf (s : Collected) (g : Nat) : ℝ := s.devSq g / ((s.output.stats g).count - 1 : ℝ)

/-- `compute_fields_second_order` (file_aggregate_grid.py 112-136). -/
noncomputable def secondOrder (first : Fields) (s : Collected) : Output where
  first := first
  total := s.obs
  variance g := if 1 < (s.output.stats g).count then varianceOf s g else flagInvalid
  sampling g :=
    if 1 < (s.output.stats g).count then
      ((s.obs g : ℝ) - (s.output.stats g).count) * Real.sqrt (varianceOf s g) / ((s.obs g : ℝ) - 1)
    else flagInvalid

/-- `run` (file_aggregate_grid.py 138-201): `none` for files which are missing or cannot be loaded; the result is `none` without
any file. -/
noncomputable def run (a : Aggregator) (files : List (Option SatelliteFile)) : Except PyErr (Option Output) :=
  let loaded := files.filterMap id
  if loaded = [] then .ok none
  else
    match forFiles (aggregateFile a) ⟨Running.empty, fun _ => 0, fun _ => 0⟩ loaded with
    | .error e => .error e
    | .ok s =>
      let first := s.output.computeFields flagInvalid
      match forFiles (aggregateSecond a first.mean) s loaded with
      | .error e => .error e
      | .ok s' => .ok (some (secondOrder first s'))

end Verif.Eustace.Satgrid
