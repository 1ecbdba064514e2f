import Verif.Py

/-!
Model of the multi-threaded checksum computation of src/eumopps/catalogue/dataset.py.
-/
namespace Verif.Eumopps.Checksum
open Verif

/-- `CatalogueDataSubset.compute_checksum_thread_indices`, dataset.py lines 80-91.
Python 2 `/` on non-negative ints is floor division. -/
def threadIndices (totalMatches numthreads : Nat) : Except PyErr (List (Nat × Nat)) :=
  if totalMatches = 0 then .ok []
  else if numthreads = 0 then .error .zeroDivision
  else
    let step0 := totalMatches / numthreads
    let step := if step0 < 1 then 1 else step0
    let ranges := (Py.range3 0 ((totalMatches / step) * step) step).map (fun start => (start, start + step))
    Py.setLast ranges (fun r => (r.1, totalMatches))

/-- `CHECKSUM_NUM_THREADS`, dataset.py line 15. -/
def checksumNumThreads : Nat := 64

/-- The part of `CatalogueFileEntry` (dataset.py 143-149) touched by checksumming. -/
structure Entry where
  name : String
  checksum : Option String
  size : Option Nat
  deriving DecidableEq, Repr

/-- Result of `Checksum(pathname)` (dataset.py 176, checksum.py): `none` models any exception raised while
reading the file; otherwise checksum and size. A parameter of the model, fixed per name during one run. -/
abbrev Reader := String → Option (String × Nat)

/-- The two assignments `self.checksum = ...`, `self.size = ...` of `CatalogueFileEntry.compute_checksum`,
dataset.py 171-183, as separate atomic actions on the entry at an index. Reading itself has no effect on the
catalogue; after an exception (swallowed, line 180) no assignment is made. -/
inductive Action where
  | setChecksum (index : Nat) | setSize (index : Nat)
  deriving DecidableEq, Repr

/-- Effect of one assignment. -/
def Action.apply (read : Reader) (es : List Entry) : Action → List Entry
  | .setChecksum i => es.modify i (fun e => match read e.name with
      | some (c, _) => { e with checksum := some c }
      | none => e)
  | .setSize i => es.modify i (fun e => match read e.name with
      | some (_, s) => { e with size := some s }
      | none => e)

/-- `ChecksumThread.run`, dataset.py 198-202: the actions of one worker in program order. -/
def workerProgram (start stop : Nat) : List Action :=
  (List.range' start (stop - start)).flatMap (fun i => [.setChecksum i, .setSize i])

/-- Configuration while `compute_checksum` (dataset.py 93-104) waits: remaining program of each started worker
and the shared entries. -/
structure Config where
  workers : List (List Action)
  entries : List Entry

/-- One scheduler step: some worker with a remaining action performs it. -/
inductive Step (read : Reader) : Config → Config → Prop where
  | run (k : Nat) (a : Action) (rest : List Action) (ws : List (List Action)) (es : List Entry)
      (h : ws[k]? = some (a :: rest)) :
      Step read ⟨ws, es⟩ ⟨ws.set k rest, a.apply read es⟩

/-- Any number of scheduler steps. -/
inductive Steps (read : Reader) : Config → Config → Prop where
  | refl (c) : Steps read c c
  | tail {a b c} : Steps read a b → Step read b c → Steps read a c

/-- Every worker has signalled `iscomplete` (dataset.py 103-104, 202). -/
def Config.finished (c : Config) : Prop := ∀ w ∈ c.workers, w = []

/-- Initial configuration built by `compute_checksum`, dataset.py 97-102. -/
def start (es : List Entry) (numthreads : Nat) : Except PyErr Config :=
  (threadIndices es.length numthreads).map
    (fun rs => ⟨rs.map (fun r => workerProgram r.1 r.2), es⟩)

end Verif.Eumopps.Checksum
