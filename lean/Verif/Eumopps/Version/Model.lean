import Verif.Eumopps.Build.Model
import Verif.Eustace.Insitu.Ocean

/-!
Versions of code: `src/eumopps/version/` svn.py and codepath.py, `src/eumopps/toolchain.py`, `src/eustace/toolchain.py`,
`current_runtime_toolchain` of `src/eumopps/catalogue/operation.py`, and their use in build.py and commandrun.py.

`RepositoryStateException`, `OSError` and `ImportError` are all `PyErr.other`; where an exception is handled the model does not
go by its name.
-/

namespace Verif.Eumopps.Version

open Verif Verif.Eumopps.Catalogue Verif.Eumopps.Operation Verif.Eumopps.Run Verif.Eumopps.Build
open Verif.Eustace.Insitu.Ocean (intOf strip)

abbrev Text := List Char

/-- The packages which have a module `toolchain`. -/
inductive Package where
  | eumopps | eustace
  deriving DecidableEq

/-- What the programs called say on a machine: `svnversion` in the directory of a package (codepath.py 10-12), and `rpm`;
`none` if there is no such program. -/
structure Host where
  svnversion : Package → Option Text
  rpm : Option Text

/-- `parse_revision_string` (svn.py 37-42): `none` for `RepositoryStateException`. -/
def parseRevisionString (s : Text) : Option Int := intOf s

/-- Digits filled up with zeros. -/
def zeroPad (width : Nat) (s : Text) : Text := List.replicate (width - s.length) '0' ++ s

/-- `get_revision_id_for_number` (svn.py 13, 45-47): the pattern `R{:06d}`. -/
def revisionIdForNumber (n : Int) : Text :=
  'R' :: (if n < 0 then '-' :: zeroPad 5 (Nat.toDigits 10 n.natAbs) else zeroPad 6 (Nat.toDigits 10 n.toNat))

/-- `PROVENANCE_BYPASS_WARNING` (svn.py 15). -/
def bypassWarning : Text := "UNVERSIONED".toList

/-- `get_revision_id` (svn.py 31-34, 50-70): `allow` is the global variable `allow_unversioned_code`. -/
def revisionId (allow : Bool) (report : Option Text) : Except PyErr Text :=
  match report with
  | none => .error .other
  | some s =>
    match parseRevisionString s with
    | some n => .ok (revisionIdForNumber n)
    | none => if allow then .ok bypassWarning else .error .other

/-- `versionlist` of eumopps (src/eumopps/toolchain.py 7-10). -/
def eumoppsVersions (h : Host) (allow : Bool) : Except PyErr (List String) :=
  match revisionId allow (h.svnversion .eumopps) with
  | .error e => .error e
  | .ok s => .ok [String.ofList ("eumopps-".toList ++ s)]

/-- `versionlist` of eustace (src/eustace/toolchain.py 10-28). -/
def eustaceVersions (h : Host) (allow : Bool) : Except PyErr (List String) :=
  match h.rpm with
  | none => .error .other
  | some out =>
    match revisionId allow (h.svnversion .eustace) with
    | .error e => .error e
    | .ok s => .ok [String.ofList (strip out), String.ofList ("eustace-".toList ++ s)]

/-- `current_runtime_toolchain` (operation.py 56-72) for the name of a class or function. -/
def runtimeToolchain (h : Host) (allow : Bool) (modulename : String) : Except PyErr (List String) :=
  let basename := String.ofList (modulename.toList.takeWhile (· ≠ '.'))
  match (if basename = "eumopps" then some (eumoppsVersions h allow)
    else if basename = "eustace" then some (eustaceVersions h allow) else none) with
  | none => .error .other
  | some processing =>
    match eumoppsVersions h allow with
    | .error e => .error e
    | .ok a =>
      match processing with
      | .error e => .error e
      | .ok b => .ok (a ++ b)

/-- The name of the module to run (operation.py 59-63): of the class if there is one, otherwise of the function.  Simplified: the
name of the class with its module, whose first part is the same. -/
def moduleName (pythonClass pythonFunction : Option String) : String :=
  match pythonClass with
  | some c => c
  | none => pythonFunction.getD ""

/-- The part of `commandrun` which evaluates the tool chain (commandrun.py 13-76): `flag` is the global variable, `allow` the argument
`allow_toolchain_mismatch`; `w` is as in `Run`, but for the tool chain. -/
def commandrun (h : Host) (flag : Bool) (w : World α) (timestamp operationname : String) (index : Int)
    (useBatchSize batch : Option Int) (justlist allow : Bool) : Except PyErr (Effect α) :=
  match operationIndex index useBatchSize batch with
  | .error e => .error e
  | .ok i =>
    match loadOperation w.ops operationname with
    | .error e => .error e
    | .ok op =>
      match runtimeToolchain h flag (moduleName op.pythonClass op.pythonFunction) with
      | .error e => .error e
      | .ok current =>
        match resolveAt w op i timestamp with
        | .error e => .error e
        | .ok t => gate { w with runtimeToolchain := fun _ => current } op t justlist allow

/-- `main` (commandrun.py 88-116): one option sets both. -/
def commandrunMain (h : Host) (w : World α) (timestamp operationname : String) (index : Int)
    (useBatchSize batch : Option Int) (justlist allowUnversioned : Bool) : Except PyErr (Effect α) :=
  commandrun h allowUnversioned w timestamp operationname index useBatchSize batch justlist allowUnversioned

/-- `build` (build.py 37-95) with its versions: those of the search (57) and those of the operations (operation.py 85).  Simplified:
all are evaluated before anything else is done, so that it may be another one of several errors which is raised. -/
def buildVersioned (h : Host) (flag : Bool) (search : DataSet → Except PyErr DataSet) (newIdentifier : String)
    (file : Option FullCatalogue) (d : Description) (update : Bool) (filter pathdefault : Option String) :
    Except PyErr FullCatalogue :=
  match (if d.datasets = [] then .ok [] else eumoppsVersions h flag : Except PyErr (List String)) with
  | .error e => .error e
  | .ok _ =>
    match d.operations.mapM fun o => runtimeToolchain h flag (moduleName o.pythonClass o.pythonFunction) with
    | .error e => .error e
    | .ok _ =>
      build ⟨search, fun o => ((runtimeToolchain h flag (moduleName o.pythonClass o.pythonFunction)).toOption).getD [], newIdentifier⟩
        file d update filter pathdefault

/-- `build_from_json_file` (build.py 16-35) in a process in which the global variable is `flag`: the variable afterwards, and the
catalogue.  Simplified: the files are there and the description has been read. -/
def buildFromJsonFile (h : Host) (flag : Bool) (search : DataSet → Except PyErr DataSet) (newIdentifier : String)
    (file : Option FullCatalogue) (d : Description) (update : Bool) (filter pathdefault : Option String) (allow : Bool) :
    Bool × Except PyErr FullCatalogue :=
  let flag := if allow then true else flag
  (flag, buildVersioned h flag search newIdentifier file d update filter pathdefault)

end Verif.Eumopps.Version
