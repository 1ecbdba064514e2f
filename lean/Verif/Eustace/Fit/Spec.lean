import Verif.Eustace.Fit.Model
import Verif.Eustace.CostFunction.Spec

/-!
Specification of the optimisation of hyperparameters: how a minimiser goes with a function of the values and its derivative, and
how likely the observations of all days are.
-/

namespace Verif.Eustace.Fit

open Verif.Eustace.Linear Verif.Eustace.CostFunction

noncomputable section

/-- How a minimiser ends, and what it calls back, for a function and its derivatives. -/
def Minimiser.against (f : List ℝ → ℝ) (g : List ℝ → List ℝ) : Minimiser → Bool × List ℝ × List (List ℝ)
  | .done success x => (success, x, [])
  | .cost x next => (next (f x)).against f g
  | .gradient x next => (next (g x)).against f g
  | .callback x next => let r := next.against f g; (r.1, r.2.1, x :: r.2.2)

/-- All values which a minimiser asks for, and ends with, have the length `p`. -/
def Minimiser.Sized (p : Nat) : Minimiser → Prop
  | .done _ x => x.length = p
  | .cost x next => x.length = p ∧ ∀ v, (next v).Sized p
  | .gradient x next => x.length = p ∧ ∀ v, (next v).Sized p
  | .callback _ next => next.Sized p

/-- The contract of a minimiser: at success, the function is not larger than at the start. -/
def Descends (minimize : List ℝ → Minimiser) : Prop :=
  ∀ f g x₀, ((minimize x₀).against f g).1 = true → f ((minimize x₀).against f g).2.1 ≤ f x₀

/-- The contract with a tolerance (`gtol`, optimize.py 11): at success, no derivative is larger. -/
def Settles (tolerance : ℝ) (minimize : List ℝ → Minimiser) : Prop :=
  ∀ f g x₀, ((minimize x₀).against f g).1 = true → ∀ v ∈ g ((minimize x₀).against f g).2.1, |v| ≤ tolerance

/-- The partial derivatives of a function of a list of values. -/
def slopes (f : List ℝ → ℝ) (w : List ℝ) : List ℝ :=
  (List.range w.length).map fun j => deriv (fun t => f (w.set j t)) (w.getD j 0)

/-- Density of the observations of all days, when the state of each is drawn on its own from the same prior with mean zero. -/
def jointLikelihood {n : Nat} (prior : Mat n) (days : List (List (Batch n))) : ℝ :=
  (days.map fun bs => marginalLikelihood prior 0 bs).prod

end

end Verif.Eustace.Fit
