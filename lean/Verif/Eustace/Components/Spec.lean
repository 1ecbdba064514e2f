import Verif.Eustace.Components.Model
import Verif.Eustace.Linear.Spec
import Mathlib.Algebra.BigOperators.Fin

/-!
Specification for the analysis system: the observation model as the sum of all components and the misfit
of an assignment of states to all components and all days, independent of the way the code iterates.
-/

namespace Verif.Eustace.Components

open Matrix Verif.Eustace.Linear

/-- Component `k` has the linear design `J`. -/
structure IsLinear (c : Comp) (J : ∀ o : Obs, Matrix (Fin o.m) (Fin c.n) ℝ) : Prop where
  linear : c.nonlinear = false
  function : ∀ o x, c.function o x = J o *ᵥ x
  jacobian : ∀ o x, c.jacobian o x = J o

/-- Designs of all components. -/
abbrev Designs (A : Analysis) := ∀ (k : Fin A.K) (o : Obs), Matrix (Fin o.m) (Fin (A.comp k).n) ℝ

/-- Which state a component uses at a time: a space-time component has one state for all times, a spatial
component has one for every time. -/
def keyAt (A : Analysis) (k : Fin A.K) (t : Int) : Option Int :=
  match (A.comp k).kind with
  | .spaceTime => none
  | .spatial => some t

/-- States of all components. -/
abbrev Assignment (A : Analysis) := ∀ k : Fin A.K, Option Int → Vec (A.comp k).n

/-- What the sum of all components says about the observations. -/
def predict {A : Analysis} (J : Designs A) (X : Assignment A) (o : Obs) : Vec o.m :=
  ∑ k, J k o *ᵥ X k (keyAt A k o.time)

/-- All observations of a day. -/
def dayObs (loaders : List Loader) (t : Int) : List Obs := loaders.map fun l => l t

/-- All observations. -/
def allObs (loaders : List Loader) (times : List Int) : List Obs := times.flatMap (dayObs loaders)

/-- Some observation is available on the day. -/
def HasData (loaders : List Loader) (t : Int) : Prop := ∃ l ∈ loaders, 0 < (l t).m

instance (loaders : List Loader) (t : Int) : Decidable (HasData loaders t) :=
  inferInstanceAs (Decidable (∃ l ∈ loaders, 0 < (l t).m))

/-- The states which are estimated: one of a space-time component, one for every day with observations of a
spatial component. -/
def keys (A : Analysis) (loaders : List Loader) (times : List Int) (k : Fin A.K) : List (Option Int) :=
  match (A.comp k).kind with
  | .spaceTime => [none]
  | .spatial => (times.filter fun t => HasData loaders t).map some

/-- Twice the negative logarithm of the joint posterior density of all components, up to a constant. -/
def totalCost {A : Analysis} (J : Designs A) (loaders : List Loader) (times : List Int)
    (X : Assignment A) : ℝ :=
  ∑ k, ((keys A loaders times k).map fun κ => quad (A.comp k).prior (X k κ)).sum +
    ((allObs loaders times).map fun o => quad o.R (o.y - predict J X o)).sum

/-- The states held in the storages, zero where there is none yet. -/
def statesOf {A : Analysis} (S : Store A) : Assignment A := fun k κ =>
  match κ with
  | none => (S k).state.getD 0
  | some t => ((S k).states t).getD 0

/-- Two assignments agree in all states which are estimated. -/
def Agree {A : Analysis} (loaders : List Loader) (times : List Int) (X Y : Assignment A) : Prop :=
  ∀ k, ∀ κ ∈ keys A loaders times k, X k κ = Y k κ

end Verif.Eustace.Components
