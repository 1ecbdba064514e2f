import Verif.Eustace.Components.Model

/-!
Model of the samples which components draw, keep and project:
`/repo/src/eustace/analysis/advanced_standard/components/spacetime.py`, `components/spatial.py`,
`components/spatialdelayed.py`, `components/storage_inmemory.py`, `linalg/linearsystem.py`,
`analysissystem.py` and `examples/example_eustace.py`.

Simplified throughout: float64 is replaced by the reals; the random numbers are given from outside; the factorisation
which the solver makes is a matrix `L` (the row permutation is part of it, as in `Verif.Eustace.Linear.Factor`).  Unlike in
`Verif.Eustace.Components`, the shapes of arrays are modelled, since the code depends on them here.
-/

namespace Verif.Eustace.Samples

open Matrix Verif.Eustace.Linear Verif.Eustace.Components

/-- A numpy array with one or two dimensions. -/
inductive Arr where
  | flat (n : ℕ) (x : Fin n → ℝ)
  | table (n k : ℕ) (x : Matrix (Fin n) (Fin k) ℝ)

/-- `numpy.squeeze` (spatialdelayed.py 160, spatial.py 138): dimensions of length one are dropped.  Simplified: an array with a
single number, which would lose both dimensions, keeps one. -/
def squeeze : Arr → Arr
  | .flat n x => .flat n x
  | .table n k x =>
    if h : k = 1 then .flat n fun i => x i ⟨0, by omega⟩
    else if h : n = 1 then .flat k fun j => x ⟨0, by omega⟩ j
    else .table n k x

/-- `design_function` of an array of states (element.py 136-142, kronecker.py 43-48, factor.py 61-65, combination.py 150-161):
a table is treated column by column; another number of state parameters is a ValueError. -/
def designOf (c : Element) (o : Obs) : Arr → Except PyErr Arr
  | .flat n x => if h : c.n = n then .ok (.flat o.m (c.function o fun i => x (Fin.cast h i))) else .error .valueError
  | .table n k x =>
    if h : c.n = n then .ok (.table o.m k (Matrix.of fun i j => c.function o (fun l => x (Fin.cast h l) j) i))
    else .error .valueError

/-- The index which numpy takes in a dimension of length `a` when it is stretched to length `m`. -/
def stretch {a m : ℕ} (h : a = m ∨ a = 1) (i : Fin m) : Fin a :=
  ⟨if a = 1 then 0 else i.val, by split <;> omega⟩

/-- `result_expected_value += component_expected_value` (analysissystem.py 219): the array on the right is stretched to the
shape of the result if it can be; an array with one dimension is a row. -/
def addInto {m s : ℕ} (total : Matrix (Fin m) (Fin s) ℝ) : Arr → Except PyErr (Matrix (Fin m) (Fin s) ℝ)
  | .flat l x =>
    if h : l = s ∨ l = 1 then .ok (Matrix.of fun i j => total i j + x (stretch h j)) else .error .valueError
  | .table a b x =>
    if h : (a = m ∨ a = 1) ∧ (b = s ∨ b = 1) then
      .ok (Matrix.of fun i j => total i j + x (stretch h.1 i) (stretch h.2 j))
    else .error .valueError

/-- `white_noise_to_posterior_distribution` (linearsystem.py 117-120) for a table of white noise: `Lᵀ x = z` is solved. -/
noncomputable def whiten {n k : ℕ} (L : Mat n) (z : Matrix (Fin n) (Fin k) ℝ) : Arr := .table n k ((Lᵀ)⁻¹ * z)

/-- `sample.std(axis=1)`, one row. -/
noncomputable def stdRow {k : ℕ} (x : Fin k → ℝ) : ℝ :=
  Real.sqrt ((∑ j, (x j - (∑ l, x l) / k) * (x j - (∑ l, x l) / k)) / k)

/-- `approximated_marginal_std` (linearsystem.py 111-115) with `random_sample` (lines 75-82), for the white noise `z`. -/
noncomputable def approximatedStd {n k : ℕ} (L : Mat n) (z : Matrix (Fin n) (Fin k) ℝ) : Vec n :=
  fun i => stdRow (((Lᵀ)⁻¹ * z) i)

/-- The kinds of components. -/
inductive Kind where
  | spaceTime | spatial | delayed
  deriving DecidableEq

/-- A component with what it was asked for: `SpaceTimeComponent` (spacetime.py 19-29), `SpatialComponent` (spatial.py 15-24) or
`DelayedSpatialComponent` (spatialdelayed.py 28-32, which has no `compute_prior_sample`). -/
structure Sampled extends Comp where
  which : Kind
  computeSample : Bool
  sampleSize : ℕ
  computePriorSample : Bool

/-- The attributes `compute_sample`, `sample_size` and `compute_prior_sample` of the solution which `component_solution` makes
(spacetime.py 31-37, spatial.py 26-30, spatialdelayed.py 34-39).  The constructor of the delayed component does not hand the first two
to its base class (line 32), which takes its defaults instead (spacetime.py 21). -/
def solutionSettings (c : Sampled) : Bool × ℕ × Bool :=
  match c.which with
  | .spaceTime => (c.computeSample, c.sampleSize, c.computePriorSample)
  | .spatial => (c.computeSample, c.sampleSize, c.computePriorSample)
  | .delayed => (false, 1, false)

/-- The samples in memory (storage_inmemory.py 30-31, 85-86). -/
structure Kept where
  sample : Option Arr
  prior : Option Arr
  samples : ℤ → Option Arr
  priors : ℤ → Option Arr

/-- New storage (storage_inmemory.py 25-32, 80-87). -/
def Kept.empty : Kept := ⟨none, none, fun _ => none, fun _ => none⟩

/-- `SpaceTimeComponentSolution.update` (spacetime.py 152-237), in-memory storage: with `compute_prior_sample` only the prior is
sampled and nothing is solved.  `chol` is the factorisation, `z` the white noise. -/
noncomputable def stUpdateSample (c : Sampled) (chol : Mat c.n → Mat c.n)
    (z : Matrix (Fin c.n) (Fin (solutionSettings c).2.1) ℝ) (st : Storage c.n) (kept : Kept) :
    Except PyErr (Storage c.n × Kept) :=
  if (solutionSettings c).2.2 then .ok (st, { kept with prior := some (whiten (chol (System.new c.prior).posteriorPrecision) z) })
  else
    match appendAll st.measurement (System.new c.prior), stUpdate c.toComp st with
    | .error e, _ => .error e
    | .ok _, .error e => .error e
    | .ok s, .ok st' =>
      .ok (st', if (solutionSettings c).1 then { kept with sample := some (whiten (chol s.posteriorPrecision) z) } else kept)

/-- `SpatialComponentSolution.update_time_step` (spatial.py 115-143), in-memory storage: the same white noise is used for the sample
of the prior, which is squeezed. -/
noncomputable def spUpdateSample (c : Sampled) (chol : Mat c.n → Mat c.n)
    (z : Matrix (Fin c.n) (Fin (solutionSettings c).2.1) ℝ) (st : Storage c.n) (sol : SpSolution c.n) (kept : Kept) :
    Storage c.n × SpSolution c.n × Kept :=
  let after := spUpdateTimeStep c.toComp st sol
  match sol.system, sol.time with
  | some s, some t =>
    (after.1, after.2,
      if (solutionSettings c).1 then
        { kept with
          samples := fun u => if u = t then some (whiten (chol s.posteriorPrecision) z) else kept.samples u
          priors := fun u =>
            if u = t ∧ (solutionSettings c).2.2 = true then
              some (squeeze (whiten (chol (System.new c.prior).posteriorPrecision) z))
            else kept.priors u }
      else kept)
  | _, _ => (after.1, after.2, kept)

/-- `solution_observation_projected_sample` (spacetime.py 307-331, spatial.py 203-220, spatialdelayed.py 199-215), in-memory storage:
that of a delayed component, which needs the methods `partial_state_...`, has no method `state_sample_read`
(storage_inmemory.py 78-155). -/
def projectedSample (c : Sampled) (kept : Kept) (o : Obs) : Except PyErr Arr :=
  match c.which with
  | .spaceTime =>
    match kept.sample with
    | none =>
      if c.nonlinear then .ok (.flat o.m (c.function o (c.initial o))) else .ok (.table o.m (solutionSettings c).2.1 0)
    | some x => designOf c.toElement o x
  | .spatial =>
    match kept.samples o.time with
    | none => .ok (.table o.m (solutionSettings c).2.1 0)
    | some x => designOf c.toElement o x
  | .delayed => .error .attributeError

/-- The loop of `evaluate_projected_sample` (analysissystem.py 209-219). -/
def addSamples (o : Obs) (s : ℕ) : Matrix (Fin o.m) (Fin s) ℝ → List (Sampled × Kept) →
    Except PyErr (Matrix (Fin o.m) (Fin s) ℝ)
  | total, [] => .ok total
  | total, c :: rest =>
    match projectedSample c.1 c.2 o with
    | .error e => .error e
    | .ok x =>
      match addInto total x with
      | .error e => .error e
      | .ok total => addSamples o s total rest

/-- `evaluate_projected_sample` (analysissystem.py 193-221): number of draws and draws at each place. -/
def evaluateSamples (o : Obs) (components : List (Sampled × Kept)) : Except PyErr (Σ s : ℕ, Matrix (Fin o.m) (Fin s) ℝ) :=
  let sizes := components.map fun c => (solutionSettings c.1).2.1
  if 1 < sizes.dedup.length then .error .valueError
  else
    match sizes with
    | [] => .error .indexError
    | s :: _ =>
      match addSamples o s 0 components with
      | .error e => .error e
      | .ok total => .ok ⟨s, total⟩

/-- The ensemble in the output (example_eustace.py 304-308): the draws of the sample added to the expected value, for each number
below `GLOBAL_SAMPLE_SHAPE[3]`; a draw which does not exist is an IndexError. -/
def ensemble {m s : ℕ} (sample : Matrix (Fin m) (Fin s) ℝ) (expected : Vec m) : List ℕ → Except PyErr (List (Vec m))
  | [] => .ok []
  | index :: rest =>
    if h : index < s then
      match ensemble sample expected rest with
      | .error e => .error e
      | .ok members => .ok ((fun i => sample i ⟨index, h⟩ + expected i) :: members)
    else .error .indexError

/-- `DelayedSpatialComponentSolution.update` (spatialdelayed.py 157-161) with a storage of files by patterns or in batches, which have a
method `state_sample_write` of two arguments (storage_files.py 456-457, storage_files_batch.py 169-174): what is written for one time
index. -/
noncomputable def delayedSample {n k : ℕ} (L : Mat n) (z : Matrix (Fin n) (Fin k) ℝ) : Arr := squeeze (whiten L z)

end Verif.Eustace.Samples
