import Verif.Eustace.CostFunction.Model
import Verif.Eustace.Linear.Spec
import Mathlib.Analysis.Real.Sqrt
import Mathlib.MeasureTheory.Measure.Lebesgue.Basic
import Mathlib.MeasureTheory.Integral.Bochner.Basic

/-!
Specification for the cost function: the marginal likelihood of the observations as an integral over states.
-/

namespace Verif.Eustace.CostFunction

open Matrix Verif.Eustace.Linear MeasureTheory

/-- Density of the normal distribution with the given precision and mean. -/
noncomputable def normalDensity {n : Nat} (precision : Mat n) (mean x : Vec n) : ℝ :=
  Real.sqrt (precision.det / (2 * Real.pi) ^ n) * Real.exp (-(1 / 2) * quad precision (x - mean))

/-- Density of the observations given the state: batches are independent, each normal around `J x`. -/
noncomputable def likelihood {n : Nat} (bs : List (Batch n)) (x : Vec n) : ℝ :=
  (bs.map fun b => normalDensity b.R (b.J *ᵥ x) b.y).prod

/-- Density of the observations when the state is drawn from the prior. -/
noncomputable def marginalLikelihood {n : Nat} (prior : Mat n) (priorMean : Vec n) (bs : List (Batch n)) : ℝ :=
  ∫ x : Vec n, likelihood bs x * normalDensity prior priorMean x

end Verif.Eustace.CostFunction
