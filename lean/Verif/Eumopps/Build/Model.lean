import Verif.Eumopps.Run.Model

/-! Model of src/eumopps/catalogue/build.py: building and updating a catalogue file. -/
namespace Verif.Eumopps.Build
open Verif Verif.Py Verif.Eumopps.Catalogue Verif.Eumopps.Operation Verif.Eumopps.Run

/-- An operation of the description file, before references are resolved: operation.py 28-33. -/
structure OpDesc where
  name : Option String
  pythonClass : Option String
  pythonFunction : Option String
  op : Op

/-- The description file: data sets to search and operations to expand. -/
structure Description where
  datasets : List DataSet
  operations : List OpDesc

/-- The whole catalogue file: `Catalogue` members, catalogue.py 14-22. -/
structure FullCatalogue where
  datasets : List DataSet
  operations : List StoredOp
  identifier : String
  deriving DecidableEq

/-- What building reads from its surroundings: the file search of a data set (dataset.py 37-56, including checksums), the
tool chain of an operation's module, the new identifier. -/
structure Env where
  search : DataSet → Except PyErr DataSet
  toolchain : OpDesc → List String
  newIdentifier : String

/-- build.py 41-51: the data set filter. Line 51 subscripts the method `inputcatalogue.dataset`: TypeError. -/
def applyFilter (d : Description) (filter : Option String) : Except PyErr Description :=
  match filter with
  | none => .ok d
  | some f =>
    if f = "" then .ok d
    else match (Catalogue.mk d.datasets).datasetindex f with
      | none => .error .valueError
      | some _ => .error .typeError

/-- build.py 85-88: operations are expanded one after the other against the growing catalogue. -/
def expand (env : Env) (pathdefault : Option String) :
    List OpDesc → Catalogue → Except PyErr (List StoredOp × Catalogue)
  | [], cat => .ok ([], cat)
  | o :: os, cat =>
    match resolveOperationReferences o.op cat pathdefault with
    | .error e => .error e
    | .ok (t, n, cat') =>
      match expand env pathdefault os cat' with
      | .error e => .error e
      | .ok (rest, cat'') => .ok (⟨o.name, o.pythonClass, o.pythonFunction, env.toolchain o, n, t⟩ :: rest, cat'')

/-- `build`, build.py 37-95, on the content of the catalogue file (`none`: no such file): the new content, or an
exception, in which case nothing was written (the file is written in the last statement). Reading the file back is taken
to give what was saved; writing is taken to be atomic. -/
def build (env : Env) (file : Option FullCatalogue) (d : Description) (update : Bool) (filter : Option String)
    (pathdefault : Option String) : Except PyErr FullCatalogue :=
  match applyFilter d filter with
  | .error e => .error e
  | .ok d =>
    match d.datasets.mapM env.search with
    | .error e => .error e
    | .ok found =>
      match (if update then
          match file with
          | none => .error .runtimeError
          | some f => .ok (f.datasets, f.operations)
        else .ok ([], []) : Except PyErr (List DataSet × List StoredOp)) with
      | .error e => .error e
      | .ok (oldDatasets, oldOperations) =>
        match expand env pathdefault d.operations ⟨oldDatasets ++ found⟩ with
        | .error e => .error e
        | .ok (new, cat) => .ok ⟨cat.datasets, oldOperations ++ new, env.newIdentifier⟩

/-- `build_from_json_file`, build.py 16-35, once the description file has been read. -/
def buildFromFile (env : Env) (file : Option FullCatalogue) (d : Description) (update overwrite : Bool)
    (filter : Option String) (pathdefault : Option String) : Except PyErr FullCatalogue :=
  if file.isSome ∧ update = false ∧ overwrite = false then .error .valueError
  else build env file d update filter pathdefault

/-- One build request of a history. -/
structure Request where
  env : Env
  description : Description
  update : Bool
  overwrite : Bool
  filter : Option String
  pathdefault : Option String

/-- Effect of one request on the catalogue file: unchanged if it raises. -/
def request (file : Option FullCatalogue) (r : Request) : Option FullCatalogue :=
  match buildFromFile r.env file r.description r.update r.overwrite r.filter r.pathdefault with
  | .ok f => some f
  | .error _ => file

end Verif.Eumopps.Build
