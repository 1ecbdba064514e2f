import Verif.Py
import Verif.Eustace.Linear.Model

/-!
Model of the analysis system and its components:
`/repo/src/eustace/analysis/advanced_standard/analysissystem.py`, `components/spacetime.py`,
`components/spatial.py` and `components/storage_inmemory.py`.

Simplified throughout: float64 is replaced by the reals; printing, memory reports, samples and the
prior-sample branch are left out; the shape of arrays (columns or flat) is not modelled.
-/

namespace Verif.Eustace.Components

open Matrix Verif.Eustace.Linear

/-- `ObservationStructure` (element.py 174-224): time index, locations, values, precision.  `loc` stands
for everything that designs may use beside the time. -/
structure Obs where
  time : Int
  m : Nat
  loc : Fin m → ℝ × ℝ
  y : Vec m
  R : Mat m

/-- `Element` with its designs and prior (element.py 10-174). -/
structure Element where
  n : Nat
  /-- `prior_precision` for the hyperparameters in use. -/
  prior : Mat n
  /-- `isnonlinear`. -/
  nonlinear : Bool
  /-- `design_function`. -/
  function (o : Obs) (x : Vec n) : Vec o.m
  /-- `design_function(.., rectified=True)`. -/
  rectified (o : Obs) (x : Vec n) : Vec o.m
  /-- `design_jacobian`. -/
  jacobian (o : Obs) (x : Option (Vec n)) : Matrix (Fin o.m) (Fin n) ℝ
  /-- `design_initial_state`. -/
  initial (o : Obs) : Vec n

/-- `ElementLinearDesign` (element.py 108-142) with design matrix `A`. -/
def linearElement (n : Nat) (prior : Mat n) (A : ∀ o : Obs, Matrix (Fin o.m) (Fin n) ℝ) : Element where
  n := n
  prior := prior
  nonlinear := false
  function o x := designFunction (A o) x false
  rectified o x := designFunction (A o) x true
  jacobian o _ := A o
  initial _ := 0

/-- `SpaceTimeComponent` or `SpatialComponent`. -/
inductive Kind where
  | spaceTime | spatial
  deriving DecidableEq

/-- A component of the analysis: `SpaceTimeComponent` (spacetime.py 19-37) or `SpatialComponent`
(spatial.py 15-30). -/
structure Comp extends Element where
  kind : Kind
  computeUncertainties : Bool

/-- In-memory storage (storage_inmemory.py 23-76 for space-time components, 78-155 for spatial ones, in
one record): `state`, `std` and `measurement` are used by the former, `states` and `stds` by the
latter.  The dictionaries of states are functions, the dictionary of measurements keeps its keys. -/
structure Storage (n : Nat) where
  state : Option (Vec n)
  std : Option (Vec n)
  measurement : List (Option Int × Option (Update n))
  states : Int → Option (Vec n)
  stds : Int → Option (Vec n)

/-- A new storage (storage_inmemory.py 25-32, 80-87). -/
def Storage.empty (n : Nat) : Storage n := ⟨none, none, [], fun _ => none, fun _ => none⟩

/-- `dict[key] = value`; the order of the keys is of no importance for the theorems. -/
def dictWrite {α β : Type} [DecidableEq α] (k : α) (v : β) : List (α × β) → List (α × β)
  | [] => [(k, v)]
  | (a, b) :: l => if a = k then (a, v) :: l else (a, b) :: dictWrite k v l

/-- Standard deviations from the diagonal of the inverse (linearsystem.py 106-109); that the block-wise
computation in the solver gives this is `Verif.Eustace.Linear.c38_marginal_std`. -/
noncomputable def marginalStdOf {n : Nat} (s : System n) : Vec n := fun j =>
  Real.sqrt ((fromUpper s.posteriorPrecision)⁻¹ j j)

/-! ### Space-time component -/

/-- Attributes of `SpaceTimeComponentSolution` which change (spacetime.py 91-92). -/
structure STSolution (n : Nat) where
  measurement : Option (Update n)
  time : Option Int

/-- A new `SpaceTimeComponentSolution` (spacetime.py 88-98). -/
def STSolution.new (n : Nat) : STSolution n := ⟨none, none⟩

/-- Linearisation point and observations relative to it (spacetime.py 108-124): storage, current state
and relative observations. -/
def linearise (c : Element) (st : Storage c.n) (o : Obs) (relative : Vec o.m) :
    Storage c.n × Option (Vec c.n) × Vec o.m :=
  if c.nonlinear then
    match st.state with
    | none =>
      let x := c.initial o
      ({ st with state := some x }, some x, relative - c.function o x)
    | some x => (st, some x, relative - c.function o x)
  else (st, st.state, relative)

/-- `SpaceTimeComponentSolution.process_observations` (spacetime.py 100-144). -/
def stProcess (c : Element) (st : Storage c.n) (sol : STSolution c.n) (o : Obs) (offset : Vec o.m) :
    Except PyErr (Storage c.n × STSolution c.n) :=
  let r := linearise c st o (o.y - offset)
  let update := createFromSystem (c.jacobian o r.2.1) o.R r.2.2
  let measurement := match sol.measurement with
    | none => some update
    | some u => some (u.append update)
  match sol.time with
  | none => .ok (r.1, ⟨measurement, some o.time⟩)
  | some t => if t = o.time then .ok (r.1, ⟨measurement, some t⟩) else .error .valueError

/-- `SpaceTimeComponentSolution.update_time_step` (spacetime.py 146-150) with
`measurement_write` (storage_inmemory.py 66-68). -/
def stUpdateTimeStep {n : Nat} (st : Storage n) (sol : STSolution n) : Storage n × STSolution n :=
  ({ st with measurement := dictWrite sol.time sol.measurement st.measurement }, ⟨none, none⟩)

/-- The loop over stored measurements (spacetime.py 177-186): a stored `None` has no attribute
`information_precision`. -/
def appendAll {n : Nat} : List (Option Int × Option (Update n)) → System n → Except PyErr (System n)
  | [], s => .ok s
  | (_, none) :: _, _ => .error .attributeError
  | (_, some u) :: l, s => appendAll l (s.append u)

/-- `SpaceTimeComponentSolution.update` (spacetime.py 152-226), in-memory storage. -/
noncomputable def stUpdate (c : Comp) (st : Storage c.n) : Except PyErr (Storage c.n) :=
  match appendAll st.measurement (System.new c.prior) with
  | .error e => .error e
  | .ok s =>
    let std := if c.computeUncertainties then some (marginalStdOf s) else st.std
    if c.nonlinear then
      match st.state with
      | none => .error .typeError
      | some x => .ok { st with state := some (s.maximumAPosteriori + x), std := std }
    else .ok { st with state := some s.maximumAPosteriori, std := std }

/-- The loop of `merge_updates` (spacetime.py 240-256) after the first stored measurement: result and
error on a stored `None`.  (`merged_updates is None` also when the first stored entry is `None`, in
which case the second one is taken over instead.) -/
def mergeRest {n : Nat} : List (Option Int × Option (Update n)) → Option (Update n) →
    Except PyErr (Option (Update n))
  | [], acc => .ok acc
  | (_, u) :: l, none => mergeRest l u
  | (_, none) :: _, some _ => .error .attributeError
  | (_, some u) :: l, some acc => mergeRest l (some (acc.append u))

/-- Effect of the merge on the first object which is not `None`: the accumulator is that very object, so
it ends as the merged result. -/
def overwriteFirst {n : Nat} (merged : Option (Update n)) :
    List (Option Int × Option (Update n)) → List (Option Int × Option (Update n))
  | [] => []
  | (k, none) :: l => (k, none) :: overwriteFirst merged l
  | (k, some _) :: l => (k, merged) :: l

/-- `merge_updates` (spacetime.py 240-256) on in-memory storage, which hands out the stored objects
(storage_inmemory.py 70-72): result and storage afterwards. -/
def mergeUpdates {n : Nat} (st : Storage n) : Except PyErr (Option (Update n) × Storage n) :=
  match mergeRest st.measurement none with
  | .error e => .error e
  | .ok r => .ok (r, { st with measurement := overwriteFirst r st.measurement })

/-- `merge_updates` on file storage, where every read makes a new object (storage_files.py 119-127,
17-19). -/
def mergeUpdatesFiles {n : Nat} (st : Storage n) : Except PyErr (Option (Update n) × Storage n) :=
  match mergeRest st.measurement none with
  | .error e => .error e
  | .ok r => .ok (r, st)

/-! ### Spatial component -/

/-- Attributes of `SpatialComponentSolution` which change (spatial.py 79-80). -/
structure SpSolution (n : Nat) where
  system : Option (System n)
  time : Option Int

/-- A new `SpatialComponentSolution` (spatial.py 71-85). -/
def SpSolution.new (n : Nat) : SpSolution n := ⟨none, none⟩

/-- `SpatialComponentSolution.process_observations` (spatial.py 87-113). -/
def spProcess (c : Element) (sol : SpSolution c.n) (o : Obs) (offset : Vec o.m) :
    Except PyErr (SpSolution c.n) :=
  let update := createFromSystem (c.jacobian o none) o.R (o.y - offset)
  match sol.time with
  | none => .ok ⟨some ((System.new c.prior).append update), some o.time⟩
  | some t =>
    if t = o.time then
      match sol.system with
      | none => .error .attributeError
      | some s => .ok ⟨some (s.append update), some t⟩
    else .error .valueError

/-- `SpatialComponentSolution.update_time_step` (spatial.py 115-143). -/
noncomputable def spUpdateTimeStep (c : Comp) (st : Storage c.n) (sol : SpSolution c.n) :
    Storage c.n × SpSolution c.n :=
  match sol.system, sol.time with
  | some s, some t =>
    ({ st with
        states := fun u => if u = t then some s.maximumAPosteriori else st.states u
        stds := fun u => if u = t ∧ c.computeUncertainties = true then some (marginalStdOf s)
          else st.stds u }, ⟨none, none⟩)
  | _, _ => (st, ⟨none, none⟩)

/-! ### Evaluation -/

/-- `solution_observation_expected_value` (spacetime.py 259-285, spatial.py 151-167). -/
def expectedValue (c : Comp) (st : Storage c.n) (o : Obs) : Vec o.m :=
  match c.kind with
  | .spaceTime =>
    match st.state with
    | none => if c.nonlinear then c.function o (c.initial o) else 0
    | some x => c.function o x
  | .spatial =>
    match st.states o.time with
    | none => 0
    | some x => c.function o x

/-- `solution_observation_expected_uncertainties` (spacetime.py 287-305, spatial.py 169-185). -/
def expectedUncertainty (c : Comp) (st : Storage c.n) (o : Obs) : Vec o.m :=
  match c.kind with
  | .spaceTime =>
    match st.std with
    | none => 0
    | some x => c.rectified o x
  | .spatial =>
    match st.stds o.time with
    | none => 0
    | some x => c.rectified o x

/-- `AnalysisSystem` (analysissystem.py 31-43): the list of components. -/
structure Analysis where
  K : Nat
  comp : Fin K → Comp

/-- The storage of every component. -/
abbrev Store (A : Analysis) := ∀ k, Storage (A.comp k).n

/-- The sum over the other components (analysissystem.py 91-109 and 153-171). -/
def subtractOffset (A : Analysis) (S : Store A) (k : Fin A.K) (o : Obs) : Vec o.m :=
  (List.finRange A.K).foldl
    (fun acc j => if j ≠ k then acc + expectedValue (A.comp j) (S j) o else acc) 0

/-- `evaluate_pointwise_expected_value` for the field MAP (analysissystem.py 243-275). -/
def evaluateMap (A : Analysis) (S : Store A) (o : Obs) : Vec o.m :=
  (List.finRange A.K).foldl (fun acc j => acc + expectedValue (A.comp j) (S j) o) 0

/-- `evaluate_pointwise_expected_value` for the field post_STD (analysissystem.py 243-278). -/
noncomputable def evaluateStd (A : Analysis) (S : Store A) (o : Obs) : Vec o.m := fun i =>
  Real.sqrt ((List.finRange A.K).foldl (fun acc j => acc +
    expectedUncertainty (A.comp j) (S j) o i * expectedUncertainty (A.comp j) (S j) o i) 0)

/-! ### Update of one component -/

/-- An input loader: observations of a time index. -/
abbrev Loader := Int → Obs

/-- The loop over loaders for a space-time component (analysissystem.py 81-112). -/
def stLoaders (A : Analysis) (S : Store A) (k : Fin A.K) (t : Int) :
    List Loader → Storage (A.comp k).n × STSolution (A.comp k).n →
      Except PyErr (Storage (A.comp k).n × STSolution (A.comp k).n)
  | [], r => .ok r
  | l :: ls, r =>
    if 0 < (l t).m then
      match stProcess (A.comp k).toElement r.1 r.2 (l t) (subtractOffset A S k (l t)) with
      | .error e => .error e
      | .ok r => stLoaders A S k t ls r
    else stLoaders A S k t ls r

/-- The loop over loaders for a spatial component (analysissystem.py 81-112). -/
def spLoaders (A : Analysis) (S : Store A) (k : Fin A.K) (t : Int) :
    List Loader → SpSolution (A.comp k).n → Except PyErr (SpSolution (A.comp k).n)
  | [], r => .ok r
  | l :: ls, r =>
    if 0 < (l t).m then
      match spProcess (A.comp k).toElement r (l t) (subtractOffset A S k (l t)) with
      | .error e => .error e
      | .ok r => spLoaders A S k t ls r
    else spLoaders A S k t ls r

/-- `update_component_time` (analysissystem.py 65-115).  The date in the log is asked from the first
loader. -/
noncomputable def updateComponentTime (A : Analysis) (loaders : List Loader) (k : Fin A.K) (t : Int)
    (S : Store A) : Except PyErr (Store A) :=
  if loaders = [] then .error .indexError else
  match (A.comp k).kind with
  | .spaceTime =>
    match stLoaders A S k t loaders (S k, STSolution.new _) with
    | .error e => .error e
    | .ok r => .ok (Function.update S k (stUpdateTimeStep r.1 r.2).1)
  | .spatial =>
    match spLoaders A S k t loaders (SpSolution.new _) with
    | .error e => .error e
    | .ok r => .ok (Function.update S k (spUpdateTimeStep (A.comp k) (S k) r).1)

/-- The loop over time indices (analysissystem.py 57-60). -/
noncomputable def updateTimes (A : Analysis) (loaders : List Loader) (k : Fin A.K) :
    List Int → Store A → Except PyErr (Store A)
  | [], S => .ok S
  | t :: ts, S =>
    match updateComponentTime A loaders k t S with
    | .error e => .error e
    | .ok S => updateTimes A loaders k ts S

/-- `update_component_solution` (analysissystem.py 187-191): nothing to do for a spatial component
(spatial.py 145-149). -/
noncomputable def updateComponentSolution (A : Analysis) (k : Fin A.K) (S : Store A) :
    Except PyErr (Store A) :=
  match (A.comp k).kind with
  | .spaceTime =>
    match stUpdate (A.comp k) (S k) with
    | .error e => .error e
    | .ok st => .ok (Function.update S k st)
  | .spatial => .ok S

/-- `update_component` (analysissystem.py 55-63). -/
noncomputable def updateComponent (A : Analysis) (loaders : List Loader) (times : List Int)
    (k : Fin A.K) (S : Store A) : Except PyErr (Store A) :=
  match updateTimes A loaders k times S with
  | .error e => .error e
  | .ok S => updateComponentSolution A k S

/-- The loop over components (analysissystem.py 50-53). -/
noncomputable def updateAll (A : Analysis) (loaders : List Loader) (times : List Int) :
    List (Fin A.K) → Store A → Except PyErr (Store A)
  | [], S => .ok S
  | k :: ks, S =>
    match updateComponent A loaders times k S with
    | .error e => .error e
    | .ok S => updateAll A loaders times ks S

/-- `AnalysisSystem.update` (analysissystem.py 45-53). -/
noncomputable def update (A : Analysis) (loaders : List Loader) (times : List Int) (S : Store A) :
    Except PyErr (Store A) :=
  updateAll A loaders times (List.finRange A.K) S

/-! ### Batch update -/

/-- The loop of `update_component_times` for a space-time component (analysissystem.py 130-174): one
solution object for all times, its time index reset for every time (line 142). -/
def stBatch (A : Analysis) (S : Store A) (k : Fin A.K) :
    List (Int × List Loader) → Storage (A.comp k).n × STSolution (A.comp k).n →
      Except PyErr (Storage (A.comp k).n × STSolution (A.comp k).n)
  | [], r => .ok r
  | (t, ls) :: rest, r =>
    if ls = [] then .error .indexError else
    match stLoaders A S k t ls (r.1, { r.2 with time := none }) with
    | .error e => .error e
    | .ok r => stBatch A S k rest r

/-- The loop of `update_component_times` for a spatial component (analysissystem.py 130-181); the reset in
line 142 makes an attribute which nothing reads. -/
noncomputable def spBatch (A : Analysis) (S : Store A) (k : Fin A.K) :
    List (Int × List Loader) → Storage (A.comp k).n × SpSolution (A.comp k).n →
      Except PyErr (Storage (A.comp k).n × SpSolution (A.comp k).n)
  | [], r => .ok r
  | (t, ls) :: rest, r =>
    if ls = [] then .error .indexError else
    match spLoaders A S k t ls r.2 with
    | .error e => .error e
    | .ok sol => spBatch A S k rest (spUpdateTimeStep (A.comp k) r.1 sol)

/-- `update_component_times` (analysissystem.py 117-185).  For a space-time component the measurement of
all times is written once, under the time index of the last time if that had observations. -/
noncomputable def updateComponentTimes (A : Analysis) (k : Fin A.K) (input : List (Int × List Loader))
    (S : Store A) : Except PyErr (Store A) :=
  match (A.comp k).kind with
  | .spaceTime =>
    match stBatch A S k input (S k, STSolution.new _) with
    | .error e => .error e
    | .ok r => .ok (Function.update S k (stUpdateTimeStep r.1 r.2).1)
  | .spatial =>
    match spBatch A S k input (S k, SpSolution.new _) with
    | .error e => .error e
    | .ok r => .ok (Function.update S k r.1)

end Verif.Eustace.Components
