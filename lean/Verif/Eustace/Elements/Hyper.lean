import Verif.Eustace.Elements.Arrays

/-!
Model of hyperparameter objects:
`/repo/src/eustace/analysis/advanced_standard/elements/` covariate.py 14-30, local.py 10-34, local_view.py 159-213,
seasonal.py 27-51, spacetimespde.py 15-35, combination.py 11-53.

Simplified: an object is the value of its attributes; an error leaves no object behind (Python keeps the parts which were set
before the error).  Arrays have one dimension.
-/

namespace Verif.Eustace.Elements

open Verif

noncomputable section

/-- The hyperparameter classes with their attributes. -/
inductive Hyper where
  /-- `CovariateHyperparameters` (covariate.py 14-20). -/
  | covariate (value : ℝ)
  /-- `LocalHyperparameters` (local.py 10-17). -/
  | stationary (logSigma logRho : ℝ)
  /-- `ExpandedLocalHyperparameters` (local_view.py 159). -/
  | expanded (logSigma logRho : List ℝ)
  /-- `SeasonalHyperparameters` (seasonal.py 27-34). -/
  | seasonal (harmonics : List ℝ)
  /-- `SpaceTimeSPDEHyperparameters` (spacetimespde.py 15-22). -/
  | spaceTime (spaceLogSigma spaceLogRho timeLogRho : ℝ)
  /-- `CombinationHyperparameters` (combination.py 11-18). -/
  | combination (parts : List Hyper)

/-- `values[i]` for a one dimensional array. -/
def item (values : List ℝ) (i : Nat) : Except PyErr ℝ :=
  if h : i < values.length then .ok values[i] else .error .indexError

mutual

/-- `get_array` (covariate.py 22-25, local.py 19-23, local_view.py 162-166, seasonal.py 43-46, spacetimespde.py 24-28,
combination.py 20-24).  `numpy.hstack` refuses an empty list. -/
def getArray : Hyper → Except PyErr (List ℝ)
  | .covariate v => .ok [v]
  | .stationary s r => .ok [s, r]
  | .expanded s r => .ok (s ++ r)
  | .seasonal h => .ok h
  | .spaceTime a b c => .ok [a, b, c]
  | .combination parts =>
    match getArrays parts with
    | .error e => .error e
    | .ok [] => .error .valueError
    | .ok (v :: vs) => .ok (v :: vs).flatten

/-- The list `vectors` (combination.py 23). -/
def getArrays : List Hyper → Except PyErr (List (List ℝ))
  | [] => .ok []
  | h :: rest =>
    match getArray h with
    | .error e => .error e
    | .ok v =>
      match getArrays rest with
      | .error e => .error e
      | .ok vs => .ok (v :: vs)

end

/-- The ranges which follow each other from `startindex`, as start and length (combination.py 46-53). -/
def rangesFrom : Nat → List Nat → List (Nat × Nat)
  | _, [] => []
  | startindex, count :: rest => (startindex, count) :: rangesFrom (startindex + count) rest

/-- `get_element_ranges` (combination.py 43-53). -/
def elementRanges (parts : List Hyper) : Except PyErr (List (Nat × Nat)) :=
  match getArrays parts with
  | .error e => .error e
  | .ok vs => .ok (rangesFrom 0 (vs.map List.length))

/-- `elementranges[-1][-1] + 1` (combination.py 33). -/
def totalCount (ranges : List (Nat × Nat)) : Except PyErr Nat :=
  match ranges.getLast? with
  | none => .error .indexError
  | some (startindex, count) => if count = 0 then .error .indexError else .ok (startindex + count - 1 + 1)

/-- `values[elementranges[index]]` (combination.py 41). -/
def slice (values : List ℝ) (r : Nat × Nat) : List ℝ := (values.drop r.1).take r.2

mutual

/-- `set_array` (covariate.py 27-30, local.py 25-29, local_view.py 168-172, seasonal.py 48-51, spacetimespde.py 30-35,
combination.py 26-41). -/
def setArray : Hyper → List ℝ → Except PyErr Hyper
  | .covariate _, values =>
    match item values 0 with
    | .error e => .error e
    | .ok v => .ok (.covariate v)
  | .stationary _ _, values =>
    match item values 0 with
    | .error e => .error e
    | .ok s =>
      match item values 1 with
      | .error e => .error e
      | .ok r => .ok (.stationary s r)
  | .expanded _ _, values =>
    .ok (.expanded (values.take (values.length / 2)) (values.drop (values.length / 2)))
  | .seasonal _, values => .ok (.seasonal values)
  | .spaceTime _ _ _, values =>
    match item values 0 with
    | .error e => .error e
    | .ok a =>
      match item values 1 with
      | .error e => .error e
      | .ok b =>
        match item values 2 with
        | .error e => .error e
        | .ok c => .ok (.spaceTime a b c)
  | .combination parts, values =>
    match elementRanges parts with
    | .error e => .error e
    | .ok ranges =>
      match totalCount ranges with
      | .error e => .error e
      | .ok total =>
        if values.length ≠ total then .error .valueError
        else
          match setArrays parts values ranges with
          | .error e => .error e
          | .ok parts' => .ok (.combination parts')

/-- The loop which sets the values of the parts (combination.py 39-41). -/
def setArrays : List Hyper → List ℝ → List (Nat × Nat) → Except PyErr (List Hyper)
  | [], _, _ => .ok []
  | _ :: _, _, [] => .error .indexError
  | h :: rest, values, r :: ranges =>
    match setArray h (slice values r) with
    | .error e => .error e
    | .ok h' =>
      match setArrays rest values ranges with
      | .error e => .error e
      | .ok rest' => .ok (h' :: rest')

end

/-- `GeneralHyperparameters.get_array` (local_view.py 195-199) for fields which are arrays of the same length, in the order
of their names: an array of two dimensions, whose rows are the fields. -/
def generalGet (fields : List (List ℝ)) : List (List ℝ) := fields

/-- `GeneralHyperparameters.set_array` (local_view.py 201-209): each field takes as many values, from the first axis, as it
has now. -/
def generalSet {α : Type} : List Nat → List α → List (List α)
  | [], _ => []
  | count :: rest, values => values.take count :: generalSet rest (values.drop count)

end

end Verif.Eustace.Elements
