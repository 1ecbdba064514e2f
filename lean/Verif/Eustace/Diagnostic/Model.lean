import Verif.Eustace.ObsSource.Model
import Verif.Eustace.Satgrid.Iris

/-!
C27: diagnostic grids of observations (`src/eustace/analysis/diagnosticgrid.py`, `diagnosticgrid_aggregate.pyx`,
`diagnostic_combine.py`).

Simplifications: floating point values are real numbers, and so are the counts which are stored in fields; a field is a function
of the index into the flattened array.
-/

namespace Verif.Eustace.Diagnostic

open Verif Verif.Eustace.RawBinary Verif.Eustace.ObsSource Verif.Eustace.Satgrid

/-! ### Observations of a day -/

/-- `DiagnosticGridInput` (diagnosticgrid.py 8-16) without the number of the day, which is not used. -/
structure Input where
  observable : String
  indices : List Nat
  observation : List ℝ
  uncertainty : List ℝ

/-- `DiagnosticGridObservationConnector.__init__` (diagnosticgrid.py 21-40): the grid index of each location. -/
noncomputable def connector (axes : List GridFieldAxis) (lookup : List (ℝ × ℝ)) : Except PyErr (List Nat) :=
  match axes with
  | [latitude, longitude] => flatFieldIndices latitude longitude lookup
  | [first, latitude, longitude] =>
    if first.count ≠ 1 then .error .valueError else flatFieldIndices latitude longitude lookup
  | _ => .error .valueError

/-- `get_day` (diagnosticgrid.py 43-68).  Simplified: a mask of one element is not broadcast. -/
def getDay (grid : List Nat) (observable : String) (obs : Observations ℝ) (day : Int) : Except PyErr Input :=
  match dayNumbers obs.mask.length obs.time with
  | .error e => .error e
  | .ok days =>
    match gather obs.measurement (validIndices obs.mask days day) with
    | .error e => .error e
    | .ok observation =>
      match gather obs.uncorrelated (validIndices obs.mask days day) with
      | .error e => .error e
      | .ok uncertainty =>
        match gather obs.location (validIndices obs.mask days day) with
        | .error e => .error e
        | .ok ids =>
          match gather grid (ids.map UInt64.toNat) with
          | .error e => .error e
          | .ok indices => .ok ⟨observable, indices, observation, uncertainty⟩

/-! ### Fields -/

/-- A field: an iris cube with its variable name and masked data. -/
structure Field where
  name : String
  data : Nat → ℝ
  mask : Nat → Bool

/-- `GridFieldList.get_field` (gridfieldlist.py 78-84): the first field with the name. -/
def getField (fields : List Field) (name : String) : Option Field := fields.find? fun f => f.name == name

/-- Change of the arrays of the field which `get_field` returns, in place. -/
def alter (name : String) (change : Field → Field) : List Field → List Field
  | [] => []
  | f :: rest => if f.name == name then change f :: rest else f :: alter name change rest

/-- `GridFieldList.get_or_create_field` (gridfieldlist.py 93-112) with a masked field: the list afterwards. -/
def getOrCreate (fields : List Field) (name : String) (initial : ℝ) : List Field :=
  match getField fields name with
  | some _ => fields
  | none => fields ++ [⟨name, fun _ => initial, fun _ => true⟩]

/-- `FIELDNAMEFORMAT` (diagnosticgrid.py 83). -/
def fieldName (source observable diagnostic : String) : String := source ++ "_" ++ observable ++ "_" ++ diagnostic

/-- `AGGREGATE_INITIAL_VALUE` (diagnosticgrid.py 74-82).  The order in a dictionary of Python is not known and has no influence
on the contents of fields. -/
noncomputable def initialValues : List (String × ℝ) :=
  [("count", 0), ("observation_max", -10 ^ 30), ("observation_min", 10 ^ 30), ("uncertainty_max", -10 ^ 30),
    ("uncertainty_min", 10 ^ 30), ("observation_weightedsum", 0), ("precision_sum", 0)]

/-- What `diagnosticgrid_aggregate` does with one observation and its uncertainty to the array of each name
(diagnosticgrid_aggregate.pyx 27-41). -/
noncomputable def operation (diagnostic : String) (b : ℝ) (r : ℝ × ℝ) : ℝ :=
  open Classical in
  if diagnostic = "count" then b + 1
  else if diagnostic = "observation_min" then if r.1 < b then r.1 else b
  else if diagnostic = "observation_max" then if b < r.1 then r.1 else b
  else if diagnostic = "uncertainty_min" then if r.1 < b then r.2 else b
  else if diagnostic = "uncertainty_max" then if b < r.2 then r.2 else b
  else if diagnostic = "observation_weightedsum" then b + r.1 / r.2
  else if diagnostic = "precision_sum" then b + 1 / r.2
  else b

/-- The mask at the indices is removed (diagnosticgrid.py 109). -/
def uncover (indices : List Nat) (f : Field) : Field := { f with mask := fun g => f.mask g && !decide (g ∈ indices) }

/-- The records of an input: index, observation and uncertainty.  Simplified: the three arrays have the same length. -/
def Input.records (i : Input) : List (Nat × ℝ × ℝ) := i.indices.zip (i.observation.zip i.uncertainty)

/-- One array after `diagnosticgrid_aggregate` (diagnosticgrid_aggregate.pyx 24-41). -/
noncomputable def aggregated (i : Input) (diagnostic : String) (f : Field) : Field :=
  { f with data := scatter (operation diagnostic) f.data i.records }

/-- One turn of the loop of `create_fields_from_sparse_observations` over diagnostics (diagnosticgrid.py 101-112) together with
what is later done to its array. -/
noncomputable def createField (source : String) (i : Input) (fields : List Field) (d : String × ℝ) : List Field :=
  alter (fieldName source i.observable d.1) (fun f => aggregated i d.1 (uncover i.indices f))
    (getOrCreate fields (fieldName source i.observable d.1) d.2)

/-- `create_fields_from_sparse_observations` (diagnosticgrid.py 92-115).  An uncertainty of zero raises `ZeroDivisionError` in the
loop (diagnosticgrid_aggregate.pyx 40). -/
noncomputable def createFields (fields : List Field) (source : String) (i : Input) : Except PyErr (List Field) :=
  open Classical in
  if ∃ r ∈ i.records, r.2.2 = 0 then .error .zeroDivision
  else .ok (initialValues.foldl (createField source i) fields)

/-- `compute_weighted_mean` (diagnosticgrid.py 117-125): a new field is appended.  The quotient of masked arrays is masked where one
of them is, or where the divisor is zero.  Simplified: NumPy also masks quotients beyond the range of floating point. -/
noncomputable def weightedMean (fields : List Field) (source observable : String) : Except PyErr (List Field) :=
  match getField fields (fieldName source observable "observation_weightedsum") with
  | none => .error .attributeError
  | some w =>
    match getField fields (fieldName source observable "precision_sum") with
    | none => .error .attributeError
    | some p =>
      open Classical in
      .ok (fields ++ [⟨fieldName source observable "observation_weightedmean", fun g => w.data g / p.data g,
        fun g => w.mask g || p.mask g || decide (p.data g = 0)⟩])

/-! ### The program -/

/-- What `diagnostic_combine.run` reads for one input (diagnostic_combine.py 41-63): its names, the table of locations and the
observations. -/
structure Source where
  source : String
  observable : String
  lookup : List (ℝ × ℝ)
  obs : Observations ℝ

/-- `print_stats` (diagnostic_combine.py 80-85): `min` of an empty array raises `ValueError`. -/
def printStats (obs : Observations ℝ) : Except PyErr Unit :=
  match obs.measurement with
  | [] => .error .valueError
  | _ :: _ => .ok ()

/-- One turn of the loop of `run` (diagnostic_combine.py 41-74). -/
noncomputable def combineOne (axes : List GridFieldAxis) (day : Int) (fields : List Field) (s : Source) : Except PyErr (List Field) :=
  match printStats s.obs with
  | .error e => .error e
  | .ok () =>
    match connector axes s.lookup with
    | .error e => .error e
    | .ok grid =>
      match getDay grid s.observable s.obs day with
      | .error e => .error e
      | .ok i =>
        match createFields fields s.source i with
        | .error e => .error e
        | .ok fields => weightedMean fields s.source s.observable

/-- `run` (diagnostic_combine.py 26-78): the fields which are written. -/
noncomputable def combine (axes : List GridFieldAxis) (day : Int) : List Field → List Source → Except PyErr (List Field)
  | fields, [] => .ok fields
  | fields, s :: rest =>
    match combineOne axes day fields s with
    | .error e => .error e
    | .ok fields => combine axes day fields rest

/-- Several calls of `create_fields_from_sparse_observations`, as made by a loop over sources. -/
noncomputable def createAll : List Field → List (String × Input) → Except PyErr (List Field)
  | fields, [] => .ok fields
  | fields, c :: rest =>
    match createFields fields c.1 c.2 with
    | .error e => .error e
    | .ok fields => createAll fields rest

/-- The axes of the program: `GlobalFieldAxes2DWithTime` (globalfield.py 12-43, definitions.py `GLOBAL_FIELD_SHAPE`,
`GLOBAL_FIELD_RESOLUTION`). -/
noncomputable def globalAxes (day : Int) : List GridFieldAxis :=
  [⟨day - 1, 1, 1, false⟩, ⟨-90 - 1 / 2 * (1 / 4), 1 / 4, 720, true⟩, ⟨-180 - 1 / 2 * (1 / 4), 1 / 4, 1440, true⟩]

end Verif.Eustace.Diagnostic
