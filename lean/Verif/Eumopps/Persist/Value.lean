import Verif.Py
import Verif.PyLemmas
import Verif.Eumopps.Names.Model
import Verif.Eumopps.Time.Model
import Verif.Eumopps.Periods.Model

/-!
Python objects as they are saved to files: the values which `jsonobjects.py` and `netcdfobjects.py` (src/eumopps) work on.
-/

namespace Verif.Eumopps.Persist

open Verif Verif.Py

/-- Values which are not made of other values.  Floating-point numbers are their bit patterns, times are instants (microseconds). `unicode`
strings are not told from `str`; booleans are left out. -/
inductive Scalar where
  | str (s : String)
  | int (n : Int)
  | float (bits : UInt64)
  | time (t : Int)
  deriving DecidableEq, Repr

/-- Python values: `None`, scalars, lists, and objects: dictionaries (`none`) or instances of the named class, with their attributes.
(Dictionaries of Python 2 have no order; the order of the list is that in which attributes are visited.) -/
inductive Value where
  | none
  | scalar (s : Scalar)
  | list (l : List Value)
  | obj (cls : Option String) (fields : List (String × Value))
  deriving Repr

/-- `bool(v)` (Python library). -/
def truthy : Value → Bool
  | .none => false
  | .scalar (.str s) => s != ""
  | .scalar (.int n) => n != 0
  | .scalar (.float b) => b != 0 && b != 0x8000000000000000
  | .scalar (.time _) => true
  | .list l => !l.isEmpty
  | .obj .none f => !f.isEmpty
  | .obj (some _) _ => true

/-- A parameter of the `__init__` of a class, with its default value if it has one, and the replacement for false values if the attribute is set
by `x if x else replacement` (catalogue.py 14-24, dataset.py 22-29, 63-69, 141-149 and the like). -/
structure Param where
  name : String
  default : Option Value := some .none
  orElse : Option Value := none

/-- The value of the attribute for an argument. -/
def Param.settle (p : Param) (v : Value) : Value :=
  match p.orElse with
  | some r => if truthy v then v else r
  | none => v

/-- The classes of the program, by identifier.  Simplified: `__init__` only sets an attribute for each parameter. -/
abbrev Classes := String → Option (List Param)

/-- The attribute for one parameter. -/
def argument (params : List (String × Value)) (p : Param) : Except PyErr (String × Value) :=
  match dictGet params p.name with
  | some v => .ok (p.name, p.settle v)
  | none =>
    match p.default with
    | some v => .ok (p.name, p.settle v)
    | none => .error .typeError

/-- `class_to_make(**parameters)` (Python library): unknown parameters are refused. -/
def make (C : Classes) (cls : String) (params : List (String × Value)) : Except PyErr Value :=
  match C cls with
  | none => .error .attributeError
  | some ps =>
    if params.any fun kv => !(ps.map (·.name)).contains kv.1 then .error .typeError
    else
      match ps.mapM (argument params) with
      | .ok fields => .ok (.obj (some cls) fields)
      | .error e => .error e

/-- `CLASSID` (jsonobjects.py 8). -/
def classId : String := "python_class"

/-! ### What a user sees of a value -/

/-- One step into a value: an attribute (or key), or a position in a list. -/
inductive Step where
  | attr (k : String)
  | index (i : Nat)

/-- A value without its parts. -/
inductive Shape where
  | none
  | scalar (s : Scalar)
  | list (length : Nat)
  | obj (cls : Option String)
  deriving DecidableEq, Repr

/-- What is found at the end of a path into a value. -/
def shapeAt : List Step → Value → Option Shape
  | [], .none => some .none
  | [], .scalar s => some (.scalar s)
  | [], .list l => some (.list l.length)
  | [], .obj cls _ => some (.obj cls)
  | .attr k :: p, .obj _ fields =>
    match dictGet fields k with
    | some v => shapeAt p v
    | none => none
  | .index i :: p, .list l =>
    match l[i]? with
    | some v => shapeAt p v
    | none => none
  | _, _ => none

/-- Both values are the same on every path: same attributes, lengths, classes and scalars, whatever the order of attributes. -/
def Same (v w : Value) : Prop := ∀ p, shapeAt p v = shapeAt p w

/-! ### Classes of the catalogue -/

/-- Classes of `src/eumopps/catalogue`: dataset.py 141-149, 63-69, 22-29, storage.py 31-34, 51-55, step.py (StepDaily) 76-79, catalogue.py 14-24,
operationparameters.py 16-20, 41-44, 56-59 (a new identifier for a missing one is taken to be the empty string). -/
def catalogueClasses : Classes := fun c =>
  if c = "eumopps.catalogue.dataset.CatalogueFileEntry" then
    some [⟨"name", some .none, none⟩, ⟨"time", some .none, none⟩, ⟨"tags", some .none, none⟩, ⟨"checksum", some .none, none⟩, ⟨"size", some .none, none⟩]
  else if c = "eumopps.catalogue.dataset.CatalogueDataSubset" then
    some [⟨"layout", some .none, none⟩, ⟨"matches", some .none, some (.list [])⟩, ⟨"value_errors", some .none, some (.list [])⟩,
      ⟨"archive_unused", some .none, some (.list [])⟩]
  else if c = "eumopps.catalogue.dataset.CatalogueDataSet" then
    some [⟨"name", some .none, none⟩, ⟨"path", some .none, none⟩, ⟨"toolchain", some .none, none⟩, ⟨"subsets", some .none, none⟩,
      ⟨"non_matching", some .none, none⟩]
  else if c = "eumopps.catalogue.storage.DataStorageFiles" then some [⟨"patterns", none, none⟩]
  else if c = "eumopps.catalogue.step.StepDaily" then some [⟨"start", none, none⟩, ⟨"end", none, none⟩]
  else if c = "eumopps.catalogue.catalogue.Catalogue" then
    some [⟨"datasets", some .none, some (.list [])⟩, ⟨"identifier", some .none, some (.scalar (.str ""))⟩, ⟨"operations", some .none, some (.list [])⟩]
  else if c = "eumopps.catalogue.operationparameters.OperationFileReference" then some [⟨"operation_parameters", none, none⟩]
  else if c = "eumopps.catalogue.operationparameters.OperationFileListReference" then some [⟨"operation_parameters", none, none⟩]
  else none

end Verif.Eumopps.Persist
