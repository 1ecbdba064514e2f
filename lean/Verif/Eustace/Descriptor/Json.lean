import Verif.Py
import Mathlib.Data.List.Basic
import Mathlib.Data.Int.Notation

/-!
Values of the `json` module as the descriptor generator handles them
(`/repo/src/eustace/analysis/advanced_standard/examples/jsonfiller.py`): nested dictionaries and lists with assignment, deletion and
look-up of items.

Simplified: dictionaries are association lists, whose order no statement depends on; there are no floating point numbers and no truth
values, as none occur in the templates.  Values are not shared: the generator copies its templates (`copy.deepcopy`) before it changes
them, except for the template of the gridding operation of `fill_descriptor`.
-/

namespace Verif.Eustace.Descriptor

open Verif

/-- What `json.load` gives (jsonfiller.py 73-84) and `json.dump` takes (99, 114). -/
inductive Json where
  | null
  | int (n : ℤ)
  | str (s : String)
  | list (l : List Json)
  | dict (d : List (String × Json))

/-- One index in an expression such as `dictionary['newdatasets'][0]`. -/
inductive Index where
  | key (k : String)
  | at (n : ℕ)

/-- Item of a dictionary. -/
def lookup (k : String) : List (String × Json) → Option Json
  | [] => none
  | (k', v) :: d => if k' = k then some v else lookup k d

/-- Assignment to an item of a dictionary: `d[k] = v`. -/
def assign (k : String) (v : Json) : List (String × Json) → List (String × Json)
  | [] => [(k, v)]
  | (k', v') :: d => if k' = k then (k', v) :: d else (k', v') :: assign k v d

/-- Deletion of an item of a dictionary if it is there: `if k in d: del d[k]`. -/
def remove (k : String) : List (String × Json) → List (String × Json)
  | [] => []
  | (k', v) :: d => if k' = k then d else (k', v) :: remove k d

/-- The value of `j[i₁][i₂]...`; a missing key is a KeyError, a missing position an IndexError, an index of the wrong kind a TypeError. -/
def Json.get : List Index → Json → Except PyErr Json
  | [], j => .ok j
  | .key k :: p, .dict d => match lookup k d with
    | none => .error .keyError
    | some j => Json.get p j
  | .at n :: p, .list l => match l[n]? with
    | none => .error .indexError
    | some j => Json.get p j
  | _ :: _, _ => .error .typeError

/-- `j[i₁][i₂]... = f(j[i₁][i₂]...)` for a place which exists. -/
def Json.update (f : Json → Except PyErr Json) : List Index → Json → Except PyErr Json
  | [], j => f j
  | .key k :: p, .dict d => match lookup k d with
    | none => .error .keyError
    | some j => match Json.update f p j with
      | .error e => .error e
      | .ok j' => .ok (.dict (assign k j' d))
  | .at n :: p, .list l => match l[n]? with
    | none => .error .indexError
    | some j => match Json.update f p j with
      | .error e => .error e
      | .ok j' => .ok (.list (l.set n j'))
  | _ :: _, _ => .error .typeError

/-- `j[k] = v` for a dictionary `j`. -/
def Json.put (k : String) (v : Json) : Json → Except PyErr Json
  | .dict d => .ok (.dict (assign k v d))
  | _ => .error .typeError

/-- `if k in j: del j[k]` for a dictionary `j`. -/
def Json.del (k : String) : Json → Except PyErr Json
  | .dict d => .ok (.dict (remove k d))
  | _ => .error .typeError

/-- `j.append(v)` for a list `j`. -/
def Json.append (v : Json) : Json → Except PyErr Json
  | .list l => .ok (.list (l ++ [v]))
  | _ => .error .attributeError

/-- Assignments `j[i₁][i₂]...[k] = v` one after the other. -/
def Json.putAll : List (List Index × String × Json) → Json → Except PyErr Json
  | [], j => .ok j
  | (p, k, v) :: l, j => match Json.update (Json.put k v) p j with
    | .error e => .error e
    | .ok j' => Json.putAll l j'

end Verif.Eustace.Descriptor
