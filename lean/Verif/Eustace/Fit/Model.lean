import Verif.Eustace.CostFunction.Model
import Verif.Eustace.Components.Model
import Verif.Eustace.Elements.PriorProps

/-!
Model of the optimisation of hyperparameters:
`/repo/src/eustace/analysis/advanced_standard/components/spatialdelayed.py` 217-272,
`/repo/src/eustace/analysis/advanced_standard/linalg/optimize.py` 28-79 and
`/repo/src/eustace/analysis/advanced_standard/optimizationsystem.py` 52-58.

`scipy.optimize.minimize` is not part of the code.  It is a program of its own which asks for costs and derivatives, calls back,
and ends: any such program is allowed here (`Minimiser`).  Also `sksparse.cholmod.cholesky` is given from outside.

Simplified: reals for float64; prints are left out.  An error ends all: values which the hyperparameters have at that time are
not kept.
-/

namespace Verif.Eustace.Fit

open Verif Verif.Eustace.Linear Verif.Eustace.Qinv Verif.Eustace.CostFunction Verif.Eustace.Components
open Verif.Eustace.Elements (Hyper getArray setArray)

noncomputable section

/-- What `element_prior(hyperparameters)` gives for an element: `prior_precision()` and `prior_precision_derivative(index)`
(spatialdelayed.py 244, 248). -/
structure PriorOf (n : Nat) where
  precision : Hyper → Except PyErr (Mat n)
  derivative : Hyper → Nat → Except PyErr (Mat n)

/-- The prior of an element of `Verif.Eustace.Elements`, with `n` state parameters. -/
def ofElement (e : Elements.Element) (n : Nat) : PriorOf n where
  precision h :=
    match e.prior h with
    | .error e => .error e
    | .ok p =>
      match p.precision with
      | .error e => .error e
      | .ok A => .ok (Elements.toMatrix n A)
  derivative h k :=
    match e.prior h with
    | .error e => .error e
    | .ok p =>
      match p.derivative k with
      | .error e => .error e
      | .ok A => .ok (Elements.toMatrix n A)

variable {n : Nat}

/-- The loop which reads measurements and states (spatialdelayed.py 220-236).  A stored `None` has no attribute
`information_vector`; where no state is stored, `None` has no `shape`. -/
def gather (states : Int → Option (Vec n)) : List (Option Int × Option (Update n)) → Except PyErr (List (Replicate n))
  | [] => .ok []
  | (_, none) :: _ => .error .attributeError
  | (none, some _) :: _ => .error .attributeError
  | (some t, some u) :: rest =>
    match states t with
    | none => .error .attributeError
    | some x =>
      match gather states rest with
      | .error e => .error e
      | .ok rs => .ok (replicateOf u x :: rs)

/-- `Q_function` (spatialdelayed.py 242-244): the hyperparameters of the component are changed. -/
def qFunction (c : PriorOf n) (h : Hyper) (values : List ℝ) : Except PyErr (Hyper × Mat n) :=
  match setArray h values with
  | .error e => .error e
  | .ok h' =>
    match c.precision h' with
    | .error e => .error e
    | .ok Q => .ok (h', Q)

/-- `dQ_function` (spatialdelayed.py 246-248). -/
def dqFunction (c : PriorOf n) (h : Hyper) (values : List ℝ) (k : Nat) : Except PyErr (Hyper × Mat n) :=
  match setArray h values with
  | .error e => .error e
  | .ok h' =>
    match c.derivative h' k with
    | .error e => .error e
    | .ok D => .ok (h', D)

/-- The list `prior_precision_derivatives` (costfunction.py 231-234), for the given parameter indices. -/
def dqList (c : PriorOf n) (values : List ℝ) : List Nat → Hyper → Except PyErr (Hyper × List (Mat n))
  | [], h => .ok (h, [])
  | k :: ks, h =>
    match dqFunction c h values k with
    | .error e => .error e
    | .ok (h', D) =>
      match dqList c values ks h' with
      | .error e => .error e
      | .ok (h'', Ds) => .ok (h'', D :: Ds)

/-- The factorisations of the posterior precisions (costfunction.py 177-178, 224-225). -/
def posteriors (cholesky : (Q : Mat n) → Except PyErr (Solver Q)) (prior : Mat n) :
    List (Replicate n) → Except PyErr (List ((r : Replicate n) × Solver (prior + r.qIncrement)))
  | [] => .ok []
  | r :: rs =>
    match cholesky (prior + r.qIncrement) with
    | .error e => .error e
    | .ok s =>
      match posteriors cholesky prior rs with
      | .error e => .error e
      | .ok rest => .ok (⟨r, s⟩ :: rest)

/-- `cost_function` (costfunction.py 160-197) with the functions of `optimize`: value, and hyperparameters afterwards. -/
def costOf (c : PriorOf n) (cholesky : (Q : Mat n) → Except PyErr (Solver Q)) (rs : List (Replicate n)) (h : Hyper)
    (values : List ℝ) : Except PyErr (Hyper × ℝ) :=
  match qFunction c h values with
  | .error e => .error e
  | .ok (h', Q) =>
    match cholesky Q with
    | .error e => .error e
    | .ok _ =>
      match posteriors cholesky Q rs with
      | .error e => .error e
      | .ok _ => .ok (h', replicateCost Q rs)

/-- `cost_derivative` (costfunction.py 199-270) with the functions of `optimize`.  Simplified: precision and derivatives, which
the loop makes again for every replicate from the same values, are made once. -/
def gradientOf (c : PriorOf n) (cholesky : (Q : Mat n) → Except PyErr (Solver Q)) (rs : List (Replicate n)) (h : Hyper)
    (values : List ℝ) : Except PyErr (Hyper × List ℝ) :=
  match qFunction c h values with
  | .error e => .error e
  | .ok (h', Q) =>
    match cholesky Q with
    | .error e => .error e
    | .ok s =>
      match dqList c values (List.range values.length) h' with
      | .error e => .error e
      | .ok (h'', Ds) =>
        match posteriors cholesky Q rs with
        | .error e => .error e
        | .ok ss =>
          match replicateDerivative Q (fun j : Fin values.length => Ds.getD j 0) s ss with
          | .error e => .error e
          | .ok g => .ok (h'', List.ofFn g)

/-- A program which minimises: it asks for the cost or the derivative at some values and goes on with the answer, it calls the
callback, and it ends with `success` and `x`.  It cannot go on forever (`maxiter`, optimize.py 11). -/
inductive Minimiser where
  | done (success : Bool) (x : List ℝ)
  | cost (x : List ℝ) (next : ℝ → Minimiser)
  | gradient (x : List ℝ) (next : List ℝ → Minimiser)
  | callback (x : List ℝ) (next : Minimiser)

/-- `Optimizer.fit` and `reporter` (optimize.py 50-79): hyperparameters of the component, `success`, `x` and `optim_path` at
the end. -/
def fit (c : PriorOf n) (cholesky : (Q : Mat n) → Except PyErr (Solver Q)) (rs : List (Replicate n)) :
    Minimiser → Hyper → List (List ℝ) → Except PyErr (Hyper × Bool × List ℝ × List (List ℝ))
  | .done success x, h, path => .ok (h, success, x, path)
  | .cost x next, h, path =>
    match costOf c cholesky rs h x with
    | .error e => .error e
    | .ok (h', v) => fit c cholesky rs (next v) h' path
  | .gradient x next, h, path =>
    match gradientOf c cholesky rs h x with
    | .error e => .error e
    | .ok (h', v) => fit c cholesky rs (next v) h' path
  | .callback x next, h, path => fit c cholesky rs next h (path ++ [x])

/-- `DelayedSpatialComponentSolution.optimize` (spatialdelayed.py 217-272): the hyperparameters of the component afterwards, and
the path which is printed. -/
def optimize (c : PriorOf n) (cholesky : (Q : Mat n) → Except PyErr (Solver Q)) (minimize : List ℝ → Minimiser)
    (st : Storage n) (h : Hyper) : Except PyErr (Hyper × List (List ℝ)) :=
  match gather st.states st.measurement with
  | .error e => .error e
  | .ok rs =>
    match getArray h with
    | .error e => .error e
    | .ok initial =>
      match fit c cholesky rs (minimize initial) h [initial] with
      | .error e => .error e
      | .ok (h', success, x, path) =>
        match setArray h' (if success = true then x else initial) with
        | .error e => .error e
        | .ok h'' => .ok (h'', path)

/-- `optimize_component` (optimizationsystem.py 52-58): hyperparameters of the component, which are those of its storage
(spatialdelayed.py 36, storage_inmemory.py 19-21), and the values which are in the file, if one is asked for
(local_view.py 154-157). -/
def optimizeComponent (c : PriorOf n) (cholesky : (Q : Mat n) → Except PyErr (Solver Q)) (minimize : List ℝ → Minimiser)
    (st : Storage n) (h : Hyper) (file : Bool) : Except PyErr (Hyper × Option (List ℝ)) :=
  match optimize c cholesky minimize st h with
  | .error e => .error e
  | .ok (h', _) =>
    if file then
      match getArray h' with
      | .error e => .error e
      | .ok values => .ok (h', some values)
    else .ok (h', none)

end

end Verif.Eustace.Fit
