import Verif.Eustace.Definitions.Model
import Verif.Eustace.Components.Model
import Verif.Eustace.SphereView.Model
import Verif.Eustace.AnnualBatch.Model

/-!
Model of the steps which lead to local hyperparameters:
`/repo/src/eustace/analysis/advanced_standard/examples/example_optimization.py`,
`/repo/src/eustace/analysis/advanced_standard/components/spatialdelayed.py`,
`/repo/src/eustace/analysis/advanced_standard/optimizationsystem.py` and
`/repo/src/eustace/analysis/advanced_standard/fileio/optimization_inputs.py`.

Simplified: reals for float64; prints, samples and statistics are left out.  The cost function and its optimiser are in
`Verif.Eustace.CostFunction`.
-/

namespace Verif.Eustace.Optimise

open Verif Verif.Eustace.Linear

noncomputable section

/-! ### Splitting the state of a component -/

section Split

open Verif.Eustace.Elements Verif.Eustace.Mesh Verif.Eustace.Locator Verif.Eustace.Definitions

/-- `element_states` of `CombinationPrior` (combination.py 247-268), for the sizes of the priors. -/
def priorStates (sizes : List Nat) : Option (List ℝ) → List (Option (List ℝ))
  | none => sizes.map fun _ => none
  | some x => (statesFrom x 0 sizes).map some

/-- The states whose flag is `flag`, in order (example_optimization.py 135-143). -/
def chosen {α : Type} (flag : Bool) (flags : List Bool) (states : List α) : List α :=
  ((flags.zip states).filter fun p => p.1 == flag).map Prod.snd

/-- `None` if any state is `None`, otherwise `numpy.concatenate`, which refuses an empty list (example_optimization.py
147-155). -/
def concatenated (states : List (Option (List ℝ))) : Except PyErr (Option (List ℝ)) :=
  if states.any Option.isNone then .ok none
  else if states = [] then .error .valueError
  else .ok (some (states.filterMap id).flatten)

/-- `split_states_time` (example_optimization.py 127-158): the states written to the component which is to be optimised and to
the other one.  The assertion on the number of flags is `other`. -/
def splitStates (sizes : List Nat) (flags : List Bool) (state : Option (List ℝ)) :
    Except PyErr (Option (List ℝ) × Option (List ℝ)) :=
  if (priorStates sizes state).length ≠ flags.length then .error .other
  else
    match concatenated (chosen true flags (priorStates sizes state)) with
    | .error e => .error e
    | .ok a =>
      match concatenated (chosen false flags (priorStates sizes state)) with
      | .error e => .error e
      | .ok b => .ok (a, b)

/-- `PureLocalComponentDefinition` (example_optimization.py 91-101). -/
def bareLocal (srt : Argsort) : Definition where
  element := .combination [.stationary (sphereMesh srt 7)]
  hyper := .combination [.stationary (Real.log 2.0) (Real.log (radians 5))]

/-- `PureBiasComponentDefinition` (example_optimization.py 103-119). -/
def bareBias (biasTerms : Bool) (groups : List String) : Definition where
  element := .combination (if biasTerms then groups.map fun g => .bias g 1 else [])
  hyper := .combination (if biasTerms then (List.range groups.length).map fun _ => .covariate (Real.log 2.0) else [])

/-- The parts of a combination (combination.py 63). -/
def partsOf : Element → List Element
  | .combination parts => parts
  | _ => []

/-- The sizes of the priors of the parts of a definition (combination.py 75-81, 259). -/
def priorSizes (d : Definition) : Except PyErr (List Nat) :=
  match d.element, d.hyper with
  | .combination elements, .combination parts =>
    match priorsOf elements parts with
    | .error e => .error e
    | .ok priors => .ok (priors.map Prior.size)
  | _, _ => .error .attributeError

/-- `element_optimisation_flags` (example_optimization.py 201). -/
def localFlags (d : Definition) : List Bool := true :: List.replicate ((partsOf d.element).length - 1) false

/-- `run_split_states` (example_optimization.py 183-210), for the state of the local component on the day. -/
def runSplit (srt : Argsort) (biasTerms : Bool) (groups : List String) (state : Option (List ℝ)) :
    Except PyErr (Option (List ℝ) × Option (List ℝ)) :=
  match priorSizes (localDefinition srt biasTerms groups) with
  | .error e => .error e
  | .ok sizes => splitStates sizes (localFlags (localDefinition srt biasTerms groups)) state

/-- `solution_observation_expected_value` of a component which has one state for every day (spatial.py 151-167,
spatialdelayed.py 163-179), for the state of the day. -/
def valueAt (d : Definition) (state : Option (List ℝ)) (obs : Elements.Obs) : Except PyErr (List ℝ) :=
  match state with
  | none => .ok (List.replicate obs.locations.length 0)
  | some x => (d.element.design obs).function (some x) none

/-- The arguments of `run_split_states` (example_optimization.py 183-188). -/
def splitArguments : List String :=
  ["storage_climatology", "storage_large_scale", "storage_local", "storage_local_bias", "storage_local_spde",
    "covariates_descriptor", "insitu_biases", "breakpoints_file", "global_biases", "global_biases_group_list",
    "compute_uncertainties", "method", "compute_sample", "sample_size", "time_index"]

/-- A call with keyword arguments only, of a function without defaults (Python 2): every argument has to be one of the
function, and all of the function have to be given. -/
def callable (arguments given : List String) : Except PyErr Unit :=
  if given.all (arguments.contains ·) && arguments.all (given.contains ·) then .ok () else .error .typeError

end Split

/-! ### The state of a view -/

section View

open Verif.Eustace.Elements Verif.Eustace.Mesh Verif.Eustace.Locator Verif.Eustace.SphereView

/-- `state[indices]`: numpy refuses an index beyond the end. -/
def takeAt (x : List ℝ) : List Nat → Except PyErr (List ℝ)
  | [] => .ok []
  | i :: rest =>
    match x[i]? with
    | none => .error .indexError
    | some v =>
      match takeAt x rest with
      | .error e => .error e
      | .ok l => .ok (v :: l)

/-- The loop of `extract_local_view_states_time` (example_optimization.py 166-172).  For every part there are the active
points of its view, or `none` for a flag which is not set.  A state `None` cannot be indexed; where it is taken over, the
concatenation in line 174 refuses it. -/
def viewStates : List (Option (List Nat)) → List (Option (List ℝ)) → Except PyErr (List (List ℝ))
  | [], _ => .ok []
  | _ :: _, [] => .error .indexError
  | some indices :: rest, some x :: states =>
    match takeAt x indices with
    | .error e => .error e
    | .ok v =>
      match viewStates rest states with
      | .error e => .error e
      | .ok l => .ok (v :: l)
  | none :: rest, some x :: states =>
    match viewStates rest states with
    | .error e => .error e
    | .ok l => .ok (x :: l)
  | some _ :: _, none :: _ => .error .typeError
  | none :: _, none :: _ => .error .valueError

/-- `extract_local_view_states_time` (example_optimization.py 161-174): the state written for the view. -/
def extractView (sizes : List Nat) (views : List (Option (List Nat))) (state : Option (List ℝ)) : Except PyErr (List ℝ) :=
  match viewStates views (priorStates sizes state) with
  | .error e => .error e
  | .ok [] => .error .valueError
  | .ok (v :: l) => .ok (v :: l).flatten

/-- The design of `LocalSubRegion` and `LocalSuperTriangle` (local_view.py 10-59, local.py 67-94) for active triangles
`active`; `base` is the icosahedron of the locator. -/
def viewDesign (m base : Mesh V3) (level : Nat) (active : List Nat) (obs : Elements.Obs) : Design :=
  linearDesign (size m active)
    (.ok ⟨obs.locations.length, size m active, fun i c =>
      if h : c < size m active then
        viewRow m base level active
          (polarToCartesian (obs.locations.getD i (0, 0)).1 (obs.locations.getD i (0, 0)).2) ⟨c, h⟩
      else 0⟩)

end View

/-! ### Components whose solution is delayed -/

section Delayed

open Matrix Verif.Eustace.Components

/-- An argument which is a truth value, a text or a number. -/
inductive Val where
  | bool (b : Bool)
  | text (s : String)
  | number (n : Nat)
  deriving DecidableEq

/-- The truth of a value (Python). -/
def Val.truth : Val → Bool
  | .bool b => b
  | .text s => s ≠ ""
  | .number n => n ≠ 0

/-- The attributes of a component which decide about uncertainties and samples (spacetime.py 21-29). -/
structure Options where
  printstats : Val
  computeUncertainties : Val
  method : Val
  computeSample : Val

/-- `DelayedSpatialComponent.__init__` (spatialdelayed.py 30-32), for the arguments after the two storages: `compute_sample`
and `sample_size` are not passed on. -/
def delayedOptions (printstats computeUncertainties method _computeSample _sampleSize : Val) : Options :=
  ⟨printstats, computeUncertainties, method, .bool false⟩

/-- The component which `GlobalOptimizationSystem_EUSTACE` and `RegionOptimizationSystem_EUSTACE` make
(example_optimization.py 45, 64): the arguments are given by position, and there are four for the five after the storages. -/
def systemOptions (computeUncertainties method computeSample sampleSize : Val) : Options :=
  delayedOptions computeUncertainties method computeSample sampleSize (.number 1)

variable {n : Nat}

/-- Linearisation point of the day and observations relative to it (spatialdelayed.py 84-101). -/
def dsLinearise (c : Element) (st : Storage c.n) (t : Int) (o : Obs) (relative : Vec o.m) :
    Storage c.n × Option (Vec c.n) × Vec o.m :=
  if c.nonlinear then
    match st.states t with
    | none =>
      let x := c.initial o
      ({ st with states := fun u => if u = t then some x else st.states u }, some x, relative - c.function o x)
    | some x => (st, some x, relative - c.function o x)
  else (st, st.states t, relative)

/-- `DelayedSpatialComponentSolution.process_observations` (spatialdelayed.py 65-113). -/
def dsProcess (c : Element) (st : Storage c.n) (sol : STSolution c.n) (o : Obs) (offset : Vec o.m) :
    Except PyErr (Storage c.n × STSolution c.n) :=
  if sol.time ≠ none ∧ sol.time ≠ some o.time then .error .valueError
  else
    let r := dsLinearise c st o.time o (o.y - offset)
    let update := createFromSystem (c.jacobian o r.2.1) o.R r.2.2
    .ok (r.1, ⟨match sol.measurement with
      | none => some update
      | some u => some (u.append update), some o.time⟩)

/-- The loop over loaders for such a component (analysissystem.py 81-112). -/
def dsLoaders (A : Analysis) (S : Store A) (k : Fin A.K) (t : Int) :
    List Loader → Storage (A.comp k).n × STSolution (A.comp k).n →
      Except PyErr (Storage (A.comp k).n × STSolution (A.comp k).n)
  | [], r => .ok r
  | l :: ls, r =>
    if 0 < (l t).m then
      match dsProcess (A.comp k).toElement r.1 r.2 (l t) (subtractOffset A S k (l t)) with
      | .error e => .error e
      | .ok r => dsLoaders A S k t ls r
    else dsLoaders A S k t ls r

/-- `update_component_time` (analysissystem.py 65-115) for such a component: the end of the time step is that of
`SpaceTimeComponentSolution` (spacetime.py 146-150), the storage is `SpatialComponentSolutionStorage_InMemory`
(storage_inmemory.py 145-155). -/
def dsTime (A : Analysis) (loaders : List Loader) (k : Fin A.K) (t : Int) (S : Store A) : Except PyErr (Store A) :=
  if loaders = [] then .error .indexError
  else
    match dsLoaders A S k t loaders (S k, STSolution.new _) with
    | .error e => .error e
    | .ok r => .ok (Function.update S k (stUpdateTimeStep r.1 r.2).1)

/-- What is written for the uncertainties of one day (spatialdelayed.py 151-157); `approximated` is the result of sampling
(linearsystem.py). -/
def stdWritten (opt : Options) (approximated : System n → Vec n) (s : System n) : Option (Vec n) :=
  if opt.computeUncertainties.truth then
    if opt.method = .text "APPROXIMATED" then some (approximated s)
    else if opt.method = .text "EXACT" then some (marginalStdOf s)
    else none
  else none

/-- The loop of `update` (spatialdelayed.py 115-161).  A stored `None` has no attribute `information_precision`; in a nonlinear
system, `partial_state_read()` lacks its argument (line 141).  A key `None` only ever has the measurement `None`. -/
def dsSolve (c : Element) (opt : Options) (approximated : System c.n → Vec c.n) :
    List (Option Int × Option (Update c.n)) → Storage c.n → Except PyErr (Storage c.n)
  | [], st => .ok st
  | (_, none) :: _, _ => .error .attributeError
  | (none, some _) :: _, _ => .error .keyError
  | (some t, some u) :: rest, st =>
    let s := (System.new c.prior).append u
    if c.nonlinear then .error .typeError
    else dsSolve c opt approximated rest
      { st with
        states := fun v => if v = t then some s.maximumAPosteriori else st.states v
        stds := fun v => if v = t then (match stdWritten opt approximated s with
          | none => st.stds t
          | some x => some x) else st.stds v }

/-- `DelayedSpatialComponentSolution.update` (spatialdelayed.py 115-161). -/
def dsUpdate (c : Element) (opt : Options) (approximated : System c.n → Vec c.n) (st : Storage c.n) :
    Except PyErr (Storage c.n) :=
  dsSolve c opt approximated st.measurement st

/-! ### Inputs by time -/

/-- `datetime.isoformat()`: as with a blank, with the letter T instead (Python library). -/
def isoT (t : Eumopps.Names.DateTime) : List Char :=
  let s := Eumopps.Names.isoformat t
  Eumopps.Names.slice s 0 10 ++ ['T'] ++ Eumopps.Names.slice s 11 19

/-- The value of decimal digits. -/
def numberOf : List Char → Option Nat
  | [] => some 0
  | l => l.foldl (fun acc c => acc.bind fun a => if c.isDigit then some (10 * a + (c.toNat - 48)) else none) (some 0)

/-- `dateutil.parser.parse` (optimizationsystem.py 34), for texts of the form YYYY-MM-DDTHH:MM:SS; other forms, which the
library knows as well, are refused here. -/
def parseIso (s : List Char) : Except PyErr Eumopps.Names.DateTime :=
  match numberOf (Eumopps.Names.slice s 0 4), numberOf (Eumopps.Names.slice s 5 7), numberOf (Eumopps.Names.slice s 8 10),
    numberOf (Eumopps.Names.slice s 11 13), numberOf (Eumopps.Names.slice s 14 16), numberOf (Eumopps.Names.slice s 17 19) with
  | some y, some mo, some d, some h, some mi, some sec =>
    if s.length = 19 ∧ s[4]? = some '-' ∧ s[7]? = some '-' ∧ s[10]? = some 'T' ∧ s[13]? = some ':' ∧ s[16]? = some ':' then
      if 1 ≤ mo ∧ mo ≤ 12 ∧ 1 ≤ d ∧ d ≤ Calendar.daysInMonth y mo ∧ h < 24 ∧ mi < 60 ∧ sec < 60 then .ok ⟨⟨y, mo, d⟩, h, mi, sec⟩
      else .error .valueError
    else .error .valueError
  | _, _, _, _, _, _ => .error .valueError

/-- The instant of a date and time, in microseconds. -/
def instantOf (t : Eumopps.Names.DateTime) : Int :=
  Eumopps.Periods.midnight t.date + (t.hour * 3600 + t.minute * 60 + t.second : Nat) * 1000000

/-- `int(epoch.days_since_epoch(this_time))` (optimizationsystem.py 35). -/
def dayIndex (t : Eumopps.Names.DateTime) : Int := Eumopps.Time.intOf (AnnualBatch.daysSince (instantOf t))

/-- What there is in a summary: the text of the time and the list of inputs. -/
abbrev Summary (σ : Type) := List Char × List σ

/-- `input_summary` (optimization_inputs.py 5-18): the file after the call, as the value which JSON stands for. -/
def inputSummary {σ : Type} (t : Eumopps.Names.DateTime) (sources : List σ) : Summary σ := (isoT t, sources)

/-- `merge_input_summaries` (optimization_inputs.py 20-33); a file which is not there is an IOError. -/
def mergeSummaries {σ : Type} (disk : List Char → Option (Summary σ)) : List (List Char) → Except PyErr (List (Summary σ))
  | [] => .ok []
  | f :: rest =>
    match disk f with
    | none => .error .other
    | some s =>
      match mergeSummaries disk rest with
      | .error e => .error e
      | .ok l => .ok (s :: l)

/-- `generate_input_descriptor` (optimization_inputs.py 35-44) and `read_inputdescriptor` (optimise.py 27-34): an `OrderedDict`
has each key where it came first, with the value which came last. -/
def descriptorOf {σ : Type} (inputs : List (Summary σ)) : List (Summary σ) :=
  inputs.foldl (fun d s => dictWrite s.1 s.2 d) []

/-- `input_descriptor[time_key]` (optimizationsystem.py 38). -/
def sourcesAt {σ : Type} (descriptor : List (Summary σ)) (key : List Char) : Except PyErr (List σ) :=
  match descriptor.find? fun p => p.1 == key with
  | none => .error .keyError
  | some p => .ok p.2

/-- `OptimizationSystem.process_inputs` (optimizationsystem.py 23-41); `load` is
`AnalysisSystemInputLoaderRawBinary_OneDay(time_index, **source)`. -/
def dsInputs {σ : Type} (load : Int → σ → Loader) (A : Analysis) (k : Fin A.K) (descriptor : List (Summary σ)) :
    List (List Char) → Store A → Except PyErr (Store A)
  | [], S => .ok S
  | key :: keys, S =>
    match parseIso key with
    | .error e => .error e
    | .ok t =>
      match sourcesAt descriptor key with
      | .error e => .error e
      | .ok sources =>
        match dsTime A (sources.map (load (dayIndex t))) k (dayIndex t) S with
        | .error e => .error e
        | .ok S => dsInputs load A k descriptor keys S

/-- `OptimizationSystem.update_component` (optimizationsystem.py 43-50). -/
def dsComponent {σ : Type} (load : Int → σ → Loader) (A : Analysis) (k : Fin A.K) (opt : Options)
    (approximated : System (A.comp k).n → Vec (A.comp k).n) (descriptor : List (Summary σ)) (keys : List (List Char))
    (S : Store A) : Except PyErr (Store A) :=
  match dsInputs load A k descriptor keys S with
  | .error e => .error e
  | .ok S =>
    match dsUpdate (A.comp k).toElement opt approximated (S k) with
    | .error e => .error e
    | .ok st => .ok (Function.update S k st)

end Delayed

end

end Verif.Eustace.Optimise
