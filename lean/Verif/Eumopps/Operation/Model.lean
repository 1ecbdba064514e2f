import Verif.Eumopps.Placeholder.Model
import Verif.Eumopps.Reference.Model

/-! Model of src/eumopps/catalogue/operation.py and operationparameters.py. -/
namespace Verif.Eumopps.Operation
open Verif Verif.Py Verif.Eumopps.Catalogue Verif.Eumopps.Placeholder Verif.Eumopps.Reference

/-- Values that are not changed by any walk. -/
inductive Lit where
  | none
  | int (i : Int)
  | str (s : String)
  | time (t : Int)
  /-- a list of integers: the flat references of one operation -/
  | ints (l : List Int)
  /-- a list of path names, None for a missing file -/
  | paths (l : List (Option String))
  deriving DecidableEq, Repr

/-- The three list classes of operationparameters.py: OperationParameterList (14-35), OperationFileReference (37-50) and
OperationFileListReference (52-63). -/
inductive PKind where
  | value | file | fileList
  deriving DecidableEq, Repr

/-- Nodes of a parameter tree that carry no further parameters. -/
inductive Leaf where
  | lit (v : Lit)
  /-- placeholder.InputFileList -/
  | inputFileList (inp : InputFileList)
  /-- placeholder.InputFile -/
  | inputFile (inp : InputFileList)
  /-- placeholder.StepTime -/
  | stepTime
  /-- placeholder.StepIndex -/
  | stepIndex
  /-- placeholder.OutputFile -/
  | outputFile (datasetname : String) (subsetindex : Int)
  /-- OperationParameterList and its subclasses -/
  | plist (kind : PKind) (params : List Lit)
  /-- OperationTimeStamp -/
  | timestamp
  /-- OperationCatalogueID -/
  | catalogueId
  deriving DecidableEq, Repr

/-- Containers walked into by `updatewalk`, operation.py 154-170: class instances, dictionaries and lists. -/
inductive NodeKind where
  | object (cls : String) | dict | list
  deriving DecidableEq, Repr

mutual
/-- A run module: a tree of containers over leaves. Simplified: no object is shared between two places of the tree (the
trees come from JSON), and dictionary items are listed in some fixed order (theorems cover every order). -/
inductive Tree where
  | leaf (l : Leaf)
  | node (k : NodeKind) (c : Forest)
  deriving DecidableEq
/-- Children of a container with their keys (keys are irrelevant for lists). -/
inductive Forest where
  | nil
  | cons (key : String) (t : Tree) (rest : Forest)
  deriving DecidableEq
end

mutual
/-- `Operation.updatewalk`, operation.py 143-182, for an update whose `process` acts on leaves, may raise and may change
a state (`request_skip` or the catalogue). Containers are never processed themselves, they are rebuilt from their walked
children. Placeholder and parameter leaves that are not processed are walked into by the code, but their members are
literals, so they come back unchanged. -/
def walk (process : Leaf → σ → Except PyErr (Leaf × σ)) : Tree → σ → Except PyErr (Tree × σ)
  | .leaf l, s =>
    match process l s with
    | .ok (l', s') => .ok (.leaf l', s')
    | .error e => .error e
  | .node k c, s =>
    match walkForest process c s with
    | .ok (c', s') => .ok (.node k c', s')
    | .error e => .error e
/-- The comprehension over the members of a container, operation.py 157, 165, 170. -/
def walkForest (process : Leaf → σ → Except PyErr (Leaf × σ)) : Forest → σ → Except PyErr (Forest × σ)
  | .nil, s => .ok (.nil, s)
  | .cons key t rest, s =>
    match walk process t s with
    | .error e => .error e
    | .ok (t', s') =>
      match walkForest process rest s' with
      | .error e => .error e
      | .ok (rest', s'') => .ok (.cons key t' rest', s'')
end

/-- `OperationResolveInputReferences.process`, operation.py 204-212, with the `operation_input_resolve` methods of
placeholder.py 44-46, 184-196, 198-202 and 204-208. -/
def resolveInput (step : Step) (cat : Catalogue) (l : Leaf) (skip : List Bool) : Except PyErr (Leaf × List Bool) :=
  match l with
  | .inputFileList inp =>
    match findReferences inp skip cat step with
    | .ok (refs, skip') => .ok (.plist .fileList (refs.map Lit.ints), skip')
    | .error e => .error e
  | .inputFile inp =>
    match resolveInputFile inp skip cat step with
    | .ok (refs, skip') => .ok (.plist .file (refs.map Lit.ints), skip')
    | .error e => .error e
  | .stepTime =>
    match (List.range step.count).mapM step.timeAtIndex with
    | .ok ts => .ok (.plist .value (ts.map Lit.time), skip)
    | .error e => .error e
  | .stepIndex => .ok (.plist .value ((List.range step.count).map (fun (i : Nat) => Lit.int (i : Int))), skip)
  | l => .ok (l, skip)

/-- `OperationParameterList.restrict_to_subset`, operationparameters.py 22-27. -/
def restrictToSubset (params : List Lit) (restrict : List Nat) : Except PyErr (List Lit) :=
  restrict.mapM (fun i => idx params i)

/-- `OperationResolveOutputReferences.process`, operation.py 222-236. -/
def resolveOutput (step : Step) (restrict : List Nat) (l : Leaf) (cat : Catalogue) : Except PyErr (Leaf × Catalogue) :=
  match l with
  | .plist k ps =>
    match restrictToSubset ps restrict with
    | .ok ps' => .ok (.plist k ps', cat)
    | .error e => .error e
  | .outputFile n si =>
    match resolveOutputFile n si cat step restrict with
    | .ok (refs, cat') => .ok (.plist .file (refs.map Lit.ints), cat')
    | .error e => .error e
  | l => .ok (l, cat)

/-- operation.py 125: indices of the steps which are not skipped. -/
def restrictTo (skip : List Bool) : List Nat :=
  (skip.zipIdx.filter (fun x => !x.1)).map (·.2)

/-- The parts of `Operation` (operation.py 17-33) used here. The toolchain is not modelled in this file. -/
structure Op where
  runmodule : Tree
  step : Step
  newdatasets : List DataSet

/-- operation.py 92-96: a data set without path (an empty path stands for a falsy one) gets the default path. -/
def withPath (pathdefault : Option String) (d : DataSet) : Except PyErr DataSet :=
  if d.path = "" then
    match pathdefault with
    | some p => if p = "" then .error .valueError else .ok { d with path := p }
    | none => .error .valueError
  else .ok d

/-- operation.py 88-102: give new data sets a path and append them to the catalogue. -/
def addDatasets (op : Op) (cat : Catalogue) (pathdefault : Option String) : Except PyErr Catalogue :=
  match op.newdatasets.mapM (withPath pathdefault) with
  | .error e => .error e
  | .ok new => .ok ⟨cat.datasets ++ new⟩

/-- `Operation.resolve_operation_references`, operation.py 79-134: new parameters, operation count, new catalogue. -/
def resolveOperationReferences (op : Op) (cat : Catalogue) (pathdefault : Option String) :
    Except PyErr (Tree × Nat × Catalogue) :=
  match addDatasets op cat pathdefault with
  | .error e => .error e
  | .ok cat1 =>
    match walk (resolveInput op.step cat1) op.runmodule (List.replicate op.step.count false) with
    | .error e => .error e
    | .ok (tree1, skip) =>
      let restrict := restrictTo skip
      match walk (resolveOutput op.step restrict) tree1 cat1 with
      | .error e => .error e
      | .ok (tree2, cat2) => .ok (tree2, restrict.length, cat2)

/-- `os.path.join(a, b)` on POSIX. -/
def pathJoin (a b : String) : String :=
  if b.startsWith "/" then b
  else if a = "" ∨ a.endsWith "/" then a ++ b
  else a ++ "/" ++ b

/-- `dataset.groups` / `subset.groups` lookups by formatted number: KeyError if there is no such group. -/
def groupAt (l : List α) (i : Int) : Except PyErr α :=
  if 0 ≤ i then
    match l[i.toNat]? with
    | some a => .ok a
    | none => .error .keyError
  else .error .keyError

/-- One pass of the loop in `load_data_pathnames`, formatnetcdf.py 107-118. The NetCDF file is taken to hold the given
catalogue; the group `matches` does not exist for a subset without entries (netcdfobjects.py 363-366 skips empty lists),
which is a KeyError also if the entry index is negative. -/
def loadDataPathname (cat : Catalogue) (r : DataReference) : Except PyErr (Option String) :=
  match groupAt cat.datasets r.dataset with
  | .error e => .error e
  | .ok ds =>
    match groupAt ds.subsets r.subset with
    | .error e => .error e
    | .ok s =>
      if s.entries = [] then .error .keyError
      else if 0 ≤ r.entry then
        match idx s.entries r.entry.toNat with
        | .ok e => .ok (some (pathJoin ds.path e.name))
        | .error e => .error e
      else .ok none

/-- `load_data_pathnames`, formatnetcdf.py 102-123. -/
def loadDataPathnames (cat : Catalogue) (refs : List DataReference) : Except PyErr (List (Option String)) :=
  refs.mapM (loadDataPathname cat)

/-- `resolve_single_operation` of the three list classes, operationparameters.py 29-32, 43-50, 58-63. Elements of a
file list that are not integer lists cannot occur (TypeError). -/
def plistSingle (cat : Catalogue) (k : PKind) (params : List Lit) (i : Int) : Except PyErr Lit :=
  match getItem params i with
  | .error e => .error e
  | .ok v =>
    match k, v with
    | .value, v => .ok v
    | .file, .ints l =>
      match referenceIntegersToList l with
      | .error e => .error e
      | .ok refs =>
        match loadDataPathnames cat refs with
        | .error e => .error e
        | .ok [] => .ok .none
        | .ok (some p :: _) => .ok (.str p)
        | .ok (none :: _) => .ok .none
    | .fileList, .ints l =>
      match referenceIntegersToList l with
      | .error e => .error e
      | .ok refs =>
        match loadDataPathnames cat refs with
        | .error e => .error e
        | .ok ps => .ok (.paths ps)
    | _, _ => .error .typeError

/-- `OperationResolveSingleOperation.process`, operation.py 247-270. -/
def resolveSingle (count : Nat) (cat : Catalogue) (identifier : String) (i : Int) (timestamp : String) (l : Leaf) (_ : Unit) :
    Except PyErr (Leaf × Unit) :=
  match l with
  | .timestamp => .ok (.lit (.str timestamp), ())
  | .plist k ps =>
    if count ≠ ps.length then .error .valueError
    else match plistSingle cat k ps i with
      | .ok v => .ok (.lit v, ())
      | .error e => .error e
  | .catalogueId => .ok (.lit (.str identifier), ())
  | l => .ok (l, ())

/-- `Operation.resolve_single_operation`, operation.py 74-77. -/
def resolveSingleOperation (t : Tree) (count : Nat) (cat : Catalogue) (identifier : String) (i : Int) (timestamp : String) :
    Except PyErr Tree :=
  match walk (resolveSingle count cat identifier i timestamp) t () with
  | .ok (t', _) => .ok t'
  | .error e => .error e

end Verif.Eumopps.Operation
