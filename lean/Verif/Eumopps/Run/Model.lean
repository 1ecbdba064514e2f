import Verif.Eumopps.Operation.Model

/-! Model of finding, counting and running operations: src/eumopps/catalogue/fileio/formatnetcdf.py,
commandrun.py, multiplecommandsrun.py and `Operation.run` in operation.py. -/
namespace Verif.Eumopps.Run
open Verif Verif.Py Verif.Eumopps.Catalogue Verif.Eumopps.Operation

/-- An operation as stored in the catalogue file: `Operation` members, operation.py 28-33, with the attributes of its
`runmodule` group that identify it. A run module is either a class instance (python_class) or a dictionary naming a
function (python_function). -/
structure StoredOp where
  name : Option String
  pythonClass : Option String
  pythonFunction : Option String
  toolchain : List String
  count : Nat
  runmodule : Tree
  deriving DecidableEq

/-- Contribution of one group to `discovered`, formatnetcdf.py 52-64 (three separate `if`, no `elif`). -/
def discoveredIn (m : String) (g : StoredOp) : List StoredOp :=
  (if g.name = some m then [g] else []) ++ (if g.pythonClass = some m then [g] else []) ++
    (if g.pythonFunction = some m then [g] else [])

/-- `CatalogueReaderNetCDF.findoperation`, formatnetcdf.py 44-71. Without any operation the list dimension does not exist
in the file (KeyError in `findgroups`, 40; empty lists are not saved). Returns None (implicitly) if nothing is found. -/
def findoperation (ops : List StoredOp) (m : String) : Except PyErr (Option StoredOp) :=
  if ops = [] then .error .keyError
  else match ops.flatMap (discoveredIn m) with
    | [] => .ok none
    | [g] => .ok (some g)
    | _ => .error .valueError

/-- `operationcount`, formatnetcdf.py 73-91. Simplified: the batch size is a natural number. -/
def operationcount (ops : List StoredOp) (m : String) (batchsize : Nat) : Except PyErr Nat :=
  match findoperation ops m with
  | .error e => .error e
  | .ok g =>
    let recordCount := match g with
      | some g => g.count
      | none => 0
    if batchsize = 0 then .error .zeroDivision
    else if recordCount % batchsize ≠ 0 then .ok (recordCount / batchsize + 1)
    else .ok (recordCount / batchsize)

/-- `load_operation`, formatnetcdf.py 93-100: `load_object(None)` raises AttributeError if nothing is found. -/
def loadOperation (ops : List StoredOp) (m : String) : Except PyErr StoredOp :=
  match findoperation ops m with
  | .error e => .error e
  | .ok none => .error .attributeError
  | .ok (some g) => .ok g

/-- What is observable of one call: nothing executed (list only), or the module executed with these parameters giving a
value, after a warning or not. -/
inductive Effect (α : Type) where
  | listed (t : Tree)
  | ran (t : Tree) (result : α) (warned : Bool)
  deriving DecidableEq

/-- `Operation.run`, operation.py 36-54. `exec` is the behaviour of the named function. For run modules that are class
instances line 41 refers to the undefined name `runmodule`: NameError. -/
def operationRun (exec : Tree → Except PyErr α) (op : StoredOp) (t : Tree) : Except PyErr α :=
  if op.pythonClass.isSome then .error .nameError else exec t

/-- commandrun.py 16-24: the operation index from batch number and position. `use_batch_size` 0 and None are both falsy,
and so is batch number 0. -/
def operationIndex (index : Int) (useBatchSize : Option Int) (batch : Option Int) : Except PyErr Int :=
  if useBatchSize.getD 0 ≠ 0 then
    match batch with
    | none => .error .valueError
    | some b => .ok (b * useBatchSize.getD 0 + index)
  else if batch.getD 0 ≠ 0 then .error .valueError
  else .ok index

/-- Everything `commandrun` reads from its surroundings: the catalogue file, the current tool chain for an operation, and
what executing a resolved run module does. -/
structure World (α : Type) where
  cat : Catalogue
  ops : List StoredOp
  identifier : String
  runtimeToolchain : StoredOp → List String
  exec : Tree → Except PyErr α

/-- commandrun.py 50-76: list, or check the tool chain and run. -/
def gate (w : World α) (op : StoredOp) (t : Tree) (justlist allow : Bool) : Except PyErr (Effect α) :=
  if justlist then .ok (.listed t)
  else if w.runtimeToolchain op ≠ op.toolchain ∧ allow = false then .error .valueError
  else match operationRun w.exec op t with
    | .ok a => .ok (.ran t a (decide (w.runtimeToolchain op ≠ op.toolchain)))
    | .error e => .error e

/-- commandrun.py 41-48: an IndexError during resolution becomes a ValueError. -/
def resolveAt (w : World α) (op : StoredOp) (i : Int) (timestamp : String) : Except PyErr Tree :=
  match resolveSingleOperation op.runmodule op.count w.cat w.identifier i timestamp with
  | .ok t => .ok t
  | .error .indexError => .error .valueError
  | .error e => .error e

/-- `commandrun`, commandrun.py 13-85. The branch for `operation is None` (78-85) is unreachable, as loading an operation
that was not found raises. The run-time tool chain is evaluated by a parameter that does not raise. -/
def commandrun (w : World α) (timestamp operationname : String) (index : Int) (useBatchSize batch : Option Int)
    (justlist allow : Bool) : Except PyErr (Effect α) :=
  match operationIndex index useBatchSize batch with
  | .error e => .error e
  | .ok i =>
    match loadOperation w.ops operationname with
    | .error e => .error e
    | .ok op =>
      match resolveAt w op i timestamp with
      | .error e => .error e
      | .ok t => gate w op t justlist allow

/-- Parameter trees executed so far, and the outcome. -/
structure Run (α : Type) where
  executed : List Tree
  outcome : Except PyErr (List α)

/-- The loop of `multiple_commands_run`, multiplecommandsrun.py 29-31: positions of one batch in order, stopping at the
first exception. `justlist` is always passed as False. A module that raises counts as executed. -/
def batchLoop (w : World α) (timestamp operationname : String) (size batch : Int) (allow : Bool) :
    List Nat → Run α
  | [] => ⟨[], .ok []⟩
  | p :: ps =>
    match commandrun w timestamp operationname (p : Int) (some size) (some batch) false allow with
    | .error e => ⟨[], .error e⟩
    | .ok (.listed _) => batchLoop w timestamp operationname size batch allow ps
    | .ok (.ran t a _) =>
      let r := batchLoop w timestamp operationname size batch allow ps
      ⟨t :: r.executed, match r.outcome with
        | .ok l => .ok (a :: l)
        | .error e => .error e⟩

/-- `multiple_commands_run`, multiplecommandsrun.py 14-36 without `justlist`: the value passed to the outer function. -/
def multipleCommandsRun (w : World α) (timestamp operationname : String) (size : Nat) (batch : Int) (allow : Bool) : Run α :=
  if size = 0 then ⟨[], .error .valueError⟩
  else batchLoop w timestamp operationname (size : Int) batch allow (List.range size)

end Verif.Eumopps.Run
