import Verif.Eustace.Elements.Model
import Verif.Eustace.Regrid.Model
import Verif.Eustace.Storage.Model

/-!
Model of the projection of component solutions to the output grid:
`/repo/src/eustace/analysis/advanced_standard/fileio/output_projector.py`, its use in
`/repo/src/eustace/analysis/advanced_standard/examples/moving_climatology.py` 338-640 and in
`/repo/src/eustace/postprocess/latent_variable_check.py` 141-214.

Simplified: float64 is replaced by the reals, so a division by zero gives zero where numpy gives an infinity or not a number; a
state is an array of one column and samples have one column for each draw; the contents of a solution storage do not change
while output is made; files of the output are not written.
-/

namespace Verif.Eustace.Projector

open Verif Verif.Eustace.Elements Verif.Eustace.Mesh Verif.Eustace.Storage

noncomputable section

/-! ### Arrays -/

/-- `A.dot(B)`: the inner shapes have to agree. -/
def mul (A B : Arr) : Except PyErr Arr :=
  if A.cols ≠ B.rows then .error .valueError
  else .ok ⟨A.rows, B.cols, fun i k => ∑ j ∈ Finset.range A.cols, A.get i j * B.get j k⟩

/-- `scipy.sparse.diags(w).dot(A)`. -/
def scaleRows (w : List ℝ) (A : Arr) : Except PyErr Arr :=
  if w.length ≠ A.rows then .error .valueError else .ok ⟨A.rows, A.cols, fun i j => w.getD i 0 * A.get i j⟩

/-- `A + B`: the shapes have to agree. -/
def add (A B : Arr) : Except PyErr Arr :=
  if A.rows ≠ B.rows ∨ A.cols ≠ B.cols then .error .valueError else .ok ⟨A.rows, A.cols, fun i j => A.get i j + B.get i j⟩

/-- `A[:, indices]`. -/
def selectColumns (A : Arr) (indices : List Nat) : Except PyErr Arr :=
  if indices.all fun i => i < A.cols then .ok ⟨A.rows, indices.length, fun i j => A.get i (indices.getD j 0)⟩
  else .error .indexError

/-- `A[start:stop, :]` for `stop` at most the number of rows. -/
def sliceRows (A : Arr) (start stop : Nat) : Arr := ⟨stop - start, A.cols, fun i j => A.get (start + i) j⟩

/-- A row of an array. -/
def rowOf (A : Arr) (i : Nat) : List ℝ := (List.range A.cols).map (A.get i)

/-! ### Components -/

/-- What an element needs to know besides the places and time of output: the year as a decimal number for a day, and the rows of
the spherical design matrix. -/
structure World where
  decimalYear : Int → ℝ
  sphereRow : Mesh V3 → ℝ × ℝ → Nat → ℝ

/-- `OutputRectilinearGridStructure` (output_structure_rectilinear.py 9-45).  No bias affects it: `covariate_effect` is that of
`ObservationStructure` (element.py 205-213). -/
def gridObs (w : World) (time : Int) (latitudes longitudes : List ℝ) : Obs where
  locations := Regrid.gridLocations latitudes longitudes
  timeIndex := time
  decimalYear := w.decimalYear time
  effect := fun _ => none
  sphereRow := w.sphereRow

/-- A solution storage by the class which the projector finds (output_projector.py 18-19): classes of a storage with a state for
each time, classes with one state, and others. -/
inductive Solution where
  | timeIndexed (read : Quantity → Int → Except PyErr (Option Arr))
  | indexFree (read : Quantity → Except PyErr (Option Arr))
  | other

/-- A component: its element and its solution storage. -/
structure Component where
  element : Element
  solution : Solution

/-! ### Projector -/

/-- The attributes of a `Projector` (output_projector.py 39-55), without `outputstructure`, which is not used, and
`corresponding_datetime`, which is always that of `time_index`. -/
structure Projector where
  latitudes : List ℝ
  longitudes : List ℝ
  resolution : ℝ × ℝ
  time : Int
  sampling : Nat × Nat
  blocking : Nat
  component : Option Component
  state : Option Arr
  samples : Option Arr
  prior : Option Arr
  design : Option Arr

/-- `Projector.__init__` (output_projector.py 39-55). -/
def Projector.init (latitudes longitudes : List ℝ) (resolution : ℝ × ℝ) (time : Int) (sampling : Nat × Nat) (blocking : Nat) :
    Projector :=
  ⟨latitudes, longitudes, resolution, time, sampling, blocking, none, none, none, none, none⟩

/-- `read_state_solution`, `read_state_sample` and `read_prior_sample` (output_projector.py 96-137). -/
def readQuantity (q : Quantity) (time : Int) : Solution → Except PyErr (Option Arr)
  | .timeIndexed read => read q time
  | .indexFree read => read q
  | .other => .error .typeError

/-- `set_component` (output_projector.py 57-78). -/
def Projector.setComponent (p : Projector) (c : Component) (keep : Bool) : Except PyErr Projector :=
  match readQuantity .state p.time c.solution with
  | .error e => .error e
  | .ok state =>
    match readQuantity .sample p.time c.solution with
    | .error e => .error e
    | .ok samples =>
      match readQuantity .priorSample p.time c.solution with
      | .error e => .error e
      | .ok prior =>
        .ok { p with
          component := some c
          state := state
          samples := samples
          prior := prior
          design := if keep then p.design else none }

/-- `update_time_index` (output_projector.py 80-94). -/
def Projector.updateTimeIndex (p : Projector) (time : Int) (keep : Bool) : Projector :=
  { p with time := time, design := if keep then p.design else none }

/-- `project_expected_value` (output_projector.py 140-147). -/
def Projector.expected (p : Projector) : Except PyErr (Option Arr) :=
  match p.state with
  | none => .ok none
  | some x =>
    match p.design with
    | none => .error .attributeError
    | some A =>
      match mul A x with
      | .error e => .error e
      | .ok y => .ok (some y)

/-- The chosen draws (output_projector.py 156-159). -/
def chosen (S : Arr) : Option (List Nat) → Except PyErr Arr
  | none => .ok S
  | some l => selectColumns S l

/-- `project_sample_values` (output_projector.py 149-161); without indices the argument is `Ellipsis` or `None`. -/
def Projector.sampleValues (p : Projector) (indices : Option (List Nat)) : Except PyErr (Option Arr) :=
  match p.samples with
  | none => .ok none
  | some S =>
    match chosen S indices with
    | .error e => .error e
    | .ok S =>
      match p.design with
      | none => .error .attributeError
      | some A =>
        match mul A S with
        | .error e => .error e
        | .ok y => .ok (some y)

/-- `numpy.std` of a row. -/
def std (row : List ℝ) : ℝ :=
  Real.sqrt ((row.map fun x => (x - row.sum / row.length) ^ 2).sum / row.length)

/-- The root of the mean square of a row (output_projector.py 218). -/
def rms (row : List ℝ) : ℝ := Real.sqrt ((row.map fun x => x ^ 2).sum / row.length)

/-- The loop over blocks (output_projector.py 184-187, 213-218): a statistic of the rows of the design matrix times samples. -/
def blockLoop (statistic : List ℝ → ℝ) (A S : Arr) (blocksize : Nat) : List Nat → (Nat → ℝ) → Except PyErr (Nat → ℝ)
  | [], output => .ok output
  | block :: rest, output =>
    let start := block * blocksize
    let stop := min ((block + 1) * blocksize) A.rows
    match mul (sliceRows A start stop) S with
    | .error e => .error e
    | .ok B =>
      blockLoop statistic A S blocksize rest
        fun i => if start ≤ i ∧ i < stop then statistic (rowOf B (i - start)) else output i

/-- The part which `project_sample_std` and `project_sample_deviation` share (output_projector.py 177-189, 206-220); the result
has one column. -/
def Projector.statistic (p : Projector) (statistic : List ℝ → ℝ) (S : Arr) : Except PyErr Arr :=
  match p.design with
  | none => .error .attributeError
  | some A =>
    if p.blocking = 0 then .error .zeroDivision
    else
      let blocksize := A.rows / p.blocking
      if blocksize = 0 then .error .zeroDivision
      else
        match blockLoop statistic A S blocksize (List.range ⌈(A.rows : ℝ) / blocksize⌉₊) (fun _ => 0) with
        | .error e => .error e
        | .ok output => .ok ⟨A.rows, 1, fun i _ => output i⟩

/-- `project_sample_std` (output_projector.py 163-189).  The difference of samples and state is made and not used.  Simplified: it
is refused for another number of rows (numpy would repeat a state of one row). -/
def Projector.sampleStd (p : Projector) (prior : Bool) : Except PyErr (Option Arr) :=
  match (bif prior then p.prior else p.samples) with
  | none => .ok none
  | some S =>
    match p.state with
    | none => .error .typeError
    | some x =>
      if x.rows ≠ S.rows then .error .valueError
      else
        match p.statistic std S with
        | .error e => .error e
        | .ok y => .ok (some y)

/-- `project_sample_deviation` (output_projector.py 191-220).  The shapes of samples and state are printed before it is asked
whether there are samples. -/
def Projector.sampleDeviation (p : Projector) (prior : Bool) : Except PyErr (Option Arr) :=
  if prior then
    match p.prior with
    | none => .ok none
    | some S =>
      match p.statistic rms S with
      | .error e => .error e
      | .ok y => .ok (some y)
  else
    match p.samples, p.state with
    | some S, some _ =>
      match p.statistic rms S with
      | .error e => .error e
      | .ok y => .ok (some y)
    | _, _ => .error .attributeError

/-- `weight_array` (output_projector.py 260-262), of the latitudes of the points. -/
def weightArray (latitudes : List ℝ) : List ℝ := latitudes.map fun x => Real.cos (x * Real.pi / 180)

/-- One coordinate of the points `index` of all cells (output_projector.py 236-243). -/
def pointsOf (centres : List ℝ) (resolution : ℝ) (samples index : Nat) : List ℝ :=
  centres.map fun x => x - resolution / 2 + (0.5 + index) * (resolution / samples)

/-- The loop over points within cells (output_projector.py 240-256), with the sums so far.  The weights of the first point are
changed in place when further weights are added, after their last use. -/
def cellLoop (w : World) (p : Projector) (element : Element) : List (Nat × Nat) → Option (Arr × List ℝ) →
    Except PyErr (Option (Arr × List ℝ))
  | [], total => .ok total
  | (a, b) :: rest, total =>
    let obs := gridObs w p.time (pointsOf p.latitudes p.resolution.1 p.sampling.1 a)
      (pointsOf p.longitudes p.resolution.2 p.sampling.2 b)
    match (element.design obs).matrix with
    | .error e => .error e
    | .ok block =>
      let weights := weightArray (obs.locations.map Prod.fst)
      match scaleRows weights block with
      | .error e => .error e
      | .ok weighted =>
        match total with
        | none => cellLoop w p element rest (some (weighted, weights))
        | some (design, normalisation) =>
          match add design weighted with
          | .error e => .error e
          | .ok design => cellLoop w p element rest (some (design, List.zipWith (fun x y => x + y) normalisation weights))

/-- `evaluate_design_matrix` (output_projector.py 222-258).  Without points in a cell `1.0 / None` fails, and a resolution divided
by no points fails before. -/
def Projector.evaluateDesign (w : World) (p : Projector) : Except PyErr Projector :=
  if p.sampling.1 = 0 ∨ p.sampling.2 = 0 then .error .zeroDivision
  else
    match p.component with
    | none => .error .attributeError
    | some c =>
      match cellLoop w p c.element
          ((List.range p.sampling.1).flatMap fun a => (List.range p.sampling.2).map fun b => (a, b)) none with
      | .error e => .error e
      | .ok none => .error .typeError
      | .ok (some (design, normalisation)) =>
        match scaleRows (normalisation.map fun x => 1 / x) design with
        | .error e => .error e
        | .ok design => .ok { p with design := some design }

/-- `save_projection` and `load_projection` (output_projector.py 264-288): what is read back. -/
def Projector.saved (p : Projector) : Projector :=
  { Projector.init p.latitudes p.longitudes p.resolution p.time p.sampling p.blocking with
    design := p.design
    component := p.component }

/-! ### Output for days -/

/-- The fields of one component for one day (moving_climatology.py 393-396). -/
structure Fields where
  expected : Arr
  uncertainty : Arr
  samples : Arr
  unconstraint : Arr

/-- `x.reshape((-1,1))` and other uses of a value which may be `None`. -/
def present {α : Type} (err : PyErr) : Except PyErr (Option α) → Except PyErr α
  | .error e => .error e
  | .ok none => .error err
  | .ok (some v) => .ok v

/-- A column added to each column of an array. -/
def addColumn (A c : Arr) : Except PyErr Arr :=
  if A.rows ≠ c.rows then .error .valueError else .ok ⟨A.rows, A.cols, fun i j => A.get i j + c.get i 0⟩

/-- `numpy.minimum(u**2 / v**2, 1.0)` (moving_climatology.py 396, 410, 430) or `u**2 / v**2` (moving_climatology.py 221, 236,
251). -/
def ratio (capped : Bool) (u v : Arr) : Arr :=
  ⟨u.rows, 1, fun i _ => if capped then min (u.get i 0 ^ 2 / v.get i 0 ^ 2) 1 else u.get i 0 ^ 2 / v.get i 0 ^ 2⟩

/-- The fields of one component (moving_climatology.py 393-396, 407-410, 426-430; 218-221, 233-236, 248-251). -/
def Projector.fields (p : Projector) (indices : List Nat) (capped : Bool) : Except PyErr Fields :=
  match present .attributeError p.expected with
  | .error e => .error e
  | .ok expected =>
    match present .typeError (p.sampleDeviation false) with
    | .error e => .error e
    | .ok uncertainty =>
      match present .typeError (p.sampleValues (some indices)) with
      | .error e => .error e
      | .ok values =>
        match addColumn values expected with
        | .error e => .error e
        | .ok samples =>
          match present .typeError (p.sampleDeviation true) with
          | .error e => .error e
          | .ok prior => .ok ⟨expected, uncertainty, samples, ratio capped uncertainty prior⟩

/-- What does not change from day to day (moving_climatology.py 353-374). -/
structure Grid where
  latitudes : List ℝ
  longitudes : List ℝ
  resolution : ℝ × ℝ
  sampling : Nat × Nat
  blocking : Nat

def Grid.projector (g : Grid) (time : Int) : Projector :=
  Projector.init g.latitudes g.longitudes g.resolution time g.sampling g.blocking

/-- The projector of an earlier day or a new one (moving_climatology.py 386-388, 400-402). -/
def known (g : Grid) (c : Component) (time : Int) : Option Projector → Except PyErr Projector
  | none => (g.projector time).setComponent c false
  | some p => .ok p

/-- The projector of the climatology or the large scale component for a day (moving_climatology.py 386-391, 400-405). -/
def slowStep (w : World) (g : Grid) (c : Component) (time : Int) (previous : Option Projector) : Except PyErr Projector :=
  match known g c time previous with
  | .error e => .error e
  | .ok p => (p.updateTimeIndex time false).evaluateDesign w

/-- The projector of the local component for a day (moving_climatology.py 416-422): the design matrix is made on the first
day. -/
def localStep (w : World) (g : Grid) (c : Component) (time : Int) (previous : Option Projector) : Except PyErr Projector :=
  match previous with
  | none =>
    match (g.projector time).setComponent c false with
    | .error e => .error e
    | .ok p => p.evaluateDesign w
  | some p => (p.updateTimeIndex time true).setComponent c true

/-- What is written for a day (moving_climatology.py 446-515). -/
structure Output where
  tas : Arr
  uncertainty : Arr
  influence : Arr
  ensemble : Arr
  climatology : Fields
  largeScale : Fields
  localScale : Fields

/-- The results of a day (moving_climatology.py 450-463); the three components have the same grid. -/
def combine (a b c : Fields) : Output where
  tas := ⟨a.expected.rows, 1, fun i _ => a.expected.get i 0 + b.expected.get i 0 + c.expected.get i 0⟩
  uncertainty :=
    ⟨a.uncertainty.rows, 1, fun i _ =>
      Real.sqrt (a.uncertainty.get i 0 ^ 2 + b.uncertainty.get i 0 ^ 2 + c.uncertainty.get i 0 ^ 2)⟩
  influence := ⟨c.unconstraint.rows, 1, fun i _ => 1 - c.unconstraint.get i 0⟩
  ensemble := ⟨a.samples.rows, a.samples.cols, fun i k => a.samples.get i k + b.samples.get i k + c.samples.get i k⟩
  climatology := a
  largeScale := b
  localScale := c

/-- The loop over days of `output_grid_batch` (moving_climatology.py 376-519). -/
def batchLoop (w : World) (g : Grid) (indices : List Nat) (climatology largeScale localScale : Component) :
    List Int → Option Projector → Option Projector → Option Projector → Except PyErr (List Output)
  | [], _, _, _ => .ok []
  | time :: rest, p, q, r =>
    match slowStep w g climatology time p with
    | .error e => .error e
    | .ok p =>
      match p.fields indices true with
      | .error e => .error e
      | .ok a =>
        match slowStep w g largeScale time q with
        | .error e => .error e
        | .ok q =>
          match q.fields indices true with
          | .error e => .error e
          | .ok b =>
            match localStep w g localScale time r with
            | .error e => .error e
            | .ok r =>
              match r.fields indices true with
              | .error e => .error e
              | .ok c =>
                match batchLoop w g indices climatology largeScale localScale rest (some p) (some q) (some r) with
                | .error e => .error e
                | .ok others => .ok (combine a b c :: others)

/-- `output_grid_batch` (moving_climatology.py 338-521). -/
def outputGridBatch (w : World) (g : Grid) (indices : List Nat) (climatology largeScale localScale : Component) (times : List Int) :
    Except PyErr (List Output) :=
  batchLoop w g indices climatology largeScale localScale times none none none

/-- A new projector for one component and day (moving_climatology.py 214-216, 229-231, 244-246). -/
def single (w : World) (g : Grid) (c : Component) (time : Int) : Except PyErr Projector :=
  match (g.projector time).setComponent c false with
  | .error e => .error e
  | .ok p => p.evaluateDesign w

/-- `output_grid` (moving_climatology.py 177-336), for one day.  Here the field `unconstraint` of the local component is written
where the batch writes the influence. -/
def outputGrid (w : World) (g : Grid) (indices : List Nat) (climatology largeScale localScale : Component) (time : Int) :
    Except PyErr Output :=
  match single w g climatology time with
  | .error e => .error e
  | .ok p =>
    match p.fields indices false with
    | .error e => .error e
    | .ok a =>
      match single w g largeScale time with
      | .error e => .error e
      | .ok q =>
        match q.fields indices false with
        | .error e => .error e
        | .ok b =>
          match single w g localScale time with
          | .error e => .error e
          | .ok r =>
            match r.fields indices false with
            | .error e => .error e
            | .ok c => .ok (combine a b c)

/-! ### Checks of latent variables -/

/-- `evaluate_latent_variable_constraint` (latent_variable_check.py 187-200), from posterior and prior samples. -/
def constraint (samples prior : Arr) : List ℝ :=
  (List.range samples.rows).map fun i => 1 - min (std (rowOf samples i) ^ 2 / std (rowOf prior i) ^ 2) 1

open Classical in
/-- `evaluate_constraint_statistic` (latent_variable_check.py 202-214). -/
def constraintStatistic (A : Arr) (constraints : List ℝ) (threshold : ℝ) : Except PyErr (List Bool) :=
  let indicator := constraints.map fun c => if c < threshold then 1 else 0
  match A.dot indicator with
  | .error e => .error e
  | .ok projection => .ok (projection.map fun x => decide (0 < x))

end

end Verif.Eustace.Projector
