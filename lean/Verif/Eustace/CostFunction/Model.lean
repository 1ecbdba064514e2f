import Verif.Eustace.Qinv.Model
import Mathlib.Analysis.SpecialFunctions.Log.Basic
import Mathlib.Analysis.SpecialFunctions.Trigonometric.Basic

/-!
Model of the cost functions for optimisation of hyperparameters:
`/repo/src/eustace/analysis/advanced_standard/linalg/costfunction.py`.

Simplified throughout: float64 is replaced by the reals, column vectors are functions on `Fin n`, printing is left out,
and `Qargs` are part of the precision function.  `sksparse.cholmod` is trusted to solve and to give the
logarithm of the determinant for symmetric positive definite matrices.
-/

namespace Verif.Eustace.CostFunction

open Matrix Verif.Eustace.Linear Verif.Eustace.Qinv

/-- `precision_solver.solve_A(b)` (costfunction.py 53, 83). -/
noncomputable def solve {n : Nat} (precision : Mat n) (b : Vec n) : Vec n := precision⁻¹ *ᵥ b

/-- `precision_solver.logdet()` (costfunction.py 125). -/
noncomputable def logdet {n : Nat} (precision : Mat n) : ℝ := Real.log precision.det

/-- `gaussian_loglikelihood` (costfunction.py 119-128). -/
noncomputable def gaussianLoglikelihood {n : Nat} (meanDeparture : Vec n) (precision : Mat n) : ℝ :=
  - 0.5 * n * Real.log (2.0 * Real.pi) + 0.5 * logdet precision
    - 0.5 * (meanDeparture ⬝ᵥ (precision *ᵥ meanDeparture))

/-- `gaussian_loglikelihood_derivative` (costfunction.py 131-139). -/
noncomputable def gaussianLoglikelihoodDerivative {n : Nat} (meanDeparture : Vec n) (precision : Mat n)
    (meanDepartureDerivative : Vec n) (precisionDerivative iQp : Mat n) : ℝ :=
  0.5 * traceIQdQ iQp precisionDerivative
    - 0.5 * (meanDeparture ⬝ᵥ (precisionDerivative *ᵥ meanDeparture))
    - meanDepartureDerivative ⬝ᵥ (precision *ᵥ meanDeparture)

/-- Data of one replicate: arguments `set_point`, `prior_mean`, `i_increment` and `Q_increment`. -/
structure Replicate (n : Nat) where
  setPoint : Vec n
  priorMean : Vec n
  iIncrement : Vec n
  qIncrement : Mat n

/-- The posterior mean in information form (costfunction.py 51-53, 81-83). -/
noncomputable def posteriorMean {n : Nat} (prior : Mat n) (r : Replicate n) : Vec n :=
  solve (prior + r.qIncrement) (prior *ᵥ r.priorMean + r.iIncrement)

/-- `MarginalGaussianCF.cost_function` (costfunction.py 41-65) for the precision `prior` at the parameters. -/
noncomputable def costFunction {n : Nat} (prior : Mat n) (r : Replicate n) : ℝ :=
  let posteriorPrecision := prior + r.qIncrement
  let likelihoodTerm : ℝ := 0.0
  let priorTerm := gaussianLoglikelihood (r.priorMean - r.setPoint) prior
  let posteriorTerm := gaussianLoglikelihood (posteriorMean prior r - r.setPoint) posteriorPrecision
  (- likelihoodTerm - priorTerm + posteriorTerm)

/-- The body of the loop over parameters (costfunction.py 93-115) with the partial inverses. -/
noncomputable def derivativeTerm {n : Nat} (prior : Mat n) (r : Replicate n) (priorPinv posteriorPinv dQ : Mat n) : ℝ :=
  let posteriorPrecision := prior + r.qIncrement
  let mean := posteriorMean prior r
  let meanDerivative := - solve posteriorPrecision (dQ *ᵥ (mean - r.priorMean))
  let likelihoodTerm : ℝ := 0.0
  let priorTerm := gaussianLoglikelihoodDerivative (r.priorMean - r.setPoint) prior 0 dQ priorPinv
  let posteriorTerm := gaussianLoglikelihoodDerivative (mean - r.setPoint) posteriorPrecision meanDerivative dQ
    posteriorPinv
  (- likelihoodTerm - priorTerm + posteriorTerm)

/-- A factorisation with the pattern arrays made from it, as needed by `Q_inv`. -/
structure Solver {n : Nat} (Q : Mat n) where
  cholmod : Cholmod Q
  sigma : Sigma cholmod.L

/-- `MarginalGaussianCF.cost_derivative` (costfunction.py 67-117): one number for each parameter `j`, with
`dQ j` the value of `dQ_function` for it. -/
noncomputable def costDerivative {n p : Nat} (prior : Mat n) (dQ : Fin p → Mat n) (r : Replicate n)
    (priorSolver : Solver prior) (posteriorSolver : Solver (prior + r.qIncrement)) : Except PyErr (Fin p → ℝ) :=
  match qInv priorSolver.cholmod priorSolver.sigma with
  | .error e => .error e
  | .ok priorPinv =>
    match qInv posteriorSolver.cholmod posteriorSolver.sigma with
    | .error e => .error e
    | .ok posteriorPinv => .ok fun j => derivativeTerm prior r priorPinv posteriorPinv (dQ j)

/-- `MarginalGaussianReplicateCF_InMemory.cost_function` (costfunction.py 160-197): the loop over replicates. -/
noncomputable def replicateCost {n : Nat} (prior : Mat n) (rs : List (Replicate n)) : ℝ :=
  rs.foldl (fun cf r => cf + costFunction prior r) 0

/-- The loop over replicates in `cost_derivative` (costfunction.py 220-265), each with the factorisation of its own
posterior precision. -/
noncomputable def derivativeLoop {n p : Nat} (prior : Mat n) (dQ : Fin p → Mat n) (priorPinv : Mat n) :
    List ((r : Replicate n) × Solver (prior + r.qIncrement)) → (Fin p → ℝ) → Except PyErr (Fin p → ℝ)
  | [], acc => .ok acc
  | ⟨r, s⟩ :: rest, acc =>
    match qInv s.cholmod s.sigma with
    | .error e => .error e
    | .ok posteriorPinv =>
      derivativeLoop prior dQ priorPinv rest fun j => acc j + derivativeTerm prior r priorPinv posteriorPinv (dQ j)

/-- `MarginalGaussianReplicateCF_InMemory.cost_derivative` (costfunction.py 199-270). -/
noncomputable def replicateDerivative {n p : Nat} (prior : Mat n) (dQ : Fin p → Mat n) (priorSolver : Solver prior)
    (rs : List ((r : Replicate n) × Solver (prior + r.qIncrement))) : Except PyErr (Fin p → ℝ) :=
  match qInv priorSolver.cholmod priorSolver.sigma with
  | .error e => .error e
  | .ok priorPinv => derivativeLoop prior dQ priorPinv rs 0

/-- The arguments which `optimize` takes from storage for one time (spatialdelayed.py 217-236): measurement, state as
set point, and a prior mean of zero. -/
def replicateOf {n : Nat} (measurement : Update n) (state : Vec n) : Replicate n :=
  ⟨state, 0, measurement.vector, measurement.precision⟩

end Verif.Eustace.CostFunction
