import Verif.Py
import Mathlib.Data.List.Basic

/-!
Model of the storages of component solutions:
`/repo/src/eustace/analysis/advanced_standard/components/` storage_inmemory.py, storage_files.py, storage_files_batch.py.

A storage is a state which is changed by writing and, where there is a cache, by reading.  The disk is a state of its own, which
many storage objects and processes share.

Simplified: `cPickle` gives back the object which was dumped; directories can be made and files opened for writing at any time.
`V` is the type of stored objects; the Python value `None` is `none`.
-/

namespace Verif.Eustace.Storage

open Verif

variable {V : Type}

/-- The four quantities for which each storage class has a method to write and one to read: state, marginal standard deviation,
sample and prior sample. -/
inductive Quantity where
  | state | marginalStd | sample | priorSample
  deriving DecidableEq, Repr

/-- The contents of files. -/
abbrev Disk (V : Type) := String → Option (Option V)

/-- `writepickle` (storage_files.py 11-14). -/
def writepickle (value : Option V) (filename : String) (disk : Disk V) : Disk V :=
  fun f => if f = filename then some value else disk f

/-- `readpickle` (storage_files.py 16-18); a missing file raises IOError. -/
def readpickle (filename : String) (disk : Disk V) : Except PyErr (Option V) :=
  match disk filename with
  | none => .error .other
  | some v => .ok v

/-! ### In memory -/

/-- The attributes of `SpatialComponentSolutionStorage_InMemory` (storage_inmemory.py 80-87): a dictionary for each quantity
and one for measurements. -/
structure SpatialMemory (V : Type) where
  atTime : Quantity → Int → Option (Option V)
  measurement : Int → Option (Option V)

/-- `__init__` (storage_inmemory.py 80-87). -/
def SpatialMemory.init : SpatialMemory V := ⟨fun _ _ => none, fun _ => none⟩

/-- `partial_state_write` and the like (storage_inmemory.py 89-91, 103-105, 117-119, 131-133). -/
def SpatialMemory.write (m : SpatialMemory V) (q : Quantity) (value : Option V) (time : Int) : SpatialMemory V :=
  { m with atTime := fun q' t => if q' = q ∧ t = time then some value else m.atTime q' t }

/-- `partial_state_read` and the like (storage_inmemory.py 93-101, 107-115, 121-129, 135-143): a KeyError becomes `None`. -/
def SpatialMemory.read (m : SpatialMemory V) (q : Quantity) (time : Int) : Except PyErr (Option V) :=
  match m.atTime q time with
  | none => .ok none
  | some v => .ok v

/-- `measurement_write` (storage_inmemory.py 66-68, 145-147). -/
def SpatialMemory.writeMeasurement (m : SpatialMemory V) (value : Option V) (time : Int) : SpatialMemory V :=
  { m with measurement := fun t => if t = time then some value else m.measurement t }

/-- `measurement_read` (storage_inmemory.py 70-72, 149-151). -/
def SpatialMemory.readMeasurement (m : SpatialMemory V) (time : Int) : Except PyErr (Option V) :=
  match m.measurement time with
  | none => .error .keyError
  | some v => .ok v

/-- The attributes of `SpaceTimeComponentSolutionStorage_InMemory` without measurements (storage_inmemory.py 25-32). -/
structure SpaceTimeMemory (V : Type) where
  value : Quantity → Option V

/-- `__init__` (storage_inmemory.py 25-32). -/
def SpaceTimeMemory.init : SpaceTimeMemory V := ⟨fun _ => none⟩

/-- `state_write` and the like (storage_inmemory.py 34-48). -/
def SpaceTimeMemory.write (m : SpaceTimeMemory V) (q : Quantity) (value : Option V) : SpaceTimeMemory V :=
  ⟨fun q' => if q' = q then value else m.value q'⟩

/-- `state_read` and the like (storage_inmemory.py 50-64). -/
def SpaceTimeMemory.read (m : SpaceTimeMemory V) (q : Quantity) : Except PyErr (Option V) := .ok (m.value q)

/-! ### Files of one state -/

/-- The attributes of `SpaceTimeComponentSolutionStorage_Files` (storage_files.py 22-49). -/
structure SpaceTimeFiles where
  readName : Quantity → Option String
  writeName : Quantity → Option String
  measurementTime : Option Int
  measurementWrite : Option String
  measurementRead : Option (List String)

/-- `state_write` and the like (storage_files.py 51-77). -/
def SpaceTimeFiles.write (s : SpaceTimeFiles) (q : Quantity) (value : Option V) (disk : Disk V) : Except PyErr (Disk V) :=
  match s.writeName q with
  | none => .error .valueError
  | some f => .ok (writepickle value f disk)

/-- `state_read` and the like (storage_files.py 79-105). -/
def SpaceTimeFiles.read (s : SpaceTimeFiles) (q : Quantity) (disk : Disk V) : Except PyErr (Option V) :=
  match s.readName q with
  | none => .ok none
  | some f => readpickle f disk

/-- `measurement_write` (storage_files.py 107-115). -/
def SpaceTimeFiles.writeMeasurement (s : SpaceTimeFiles) (value : Option V) (time : Int) (disk : Disk V) :
    Except PyErr (Disk V) :=
  match s.measurementWrite with
  | none => .error .valueError
  | some f => if s.measurementTime ≠ some time then .error .valueError else .ok (writepickle value f disk)

/-- `measurement_read` (storage_files.py 117-125): the time index is the position in the list of files. -/
def SpaceTimeFiles.readMeasurement (s : SpaceTimeFiles) (time : Int) (disk : Disk V) : Except PyErr (Option V) :=
  match s.measurementRead with
  | none => .error .valueError
  | some l =>
    if time < 0 ∨ (l.length : Int) ≤ time then .error .valueError
    else
      match l[time.toNat]? with
      | none => .error .indexError
      | some f => readpickle f disk

/-- The attributes of `SpatialComponentSolutionStorage_Files` (storage_files.py 133-155). -/
structure SpatialFiles where
  time : Option Int
  readName : Quantity → Option String
  writeName : Quantity → Option String

/-- `partial_state_write` and the like (storage_files.py 157-195). -/
def SpatialFiles.write (s : SpatialFiles) (q : Quantity) (value : Option V) (time : Int) (disk : Disk V) :
    Except PyErr (Disk V) :=
  match s.writeName q with
  | none => .error .valueError
  | some f => if s.time ≠ some time then .error .valueError else .ok (writepickle value f disk)

/-- `partial_state_read` and the like (storage_files.py 197-234). -/
def SpatialFiles.read (s : SpatialFiles) (q : Quantity) (time : Int) (disk : Disk V) : Except PyErr (Option V) :=
  match s.readName q with
  | none => .ok none
  | some f => if s.time ≠ some time then .error .valueError else readpickle f disk

/-! ### Dictionaries of files -/

/-- What can be given to `parse_lookup`. -/
inductive Lookup where
  | absent
  | dict (names : Int → Option String)
  | list (names : List String)

/-- `parse_lookup` (storage_files.py 269-278). -/
def parseLookup : Lookup → Option (Int → Option String)
  | .absent => none
  | .dict names => some names
  | .list names => some fun k => if k < 0 then none else names[k.toNat]?

/-- The attributes of `DelayedSpatialComponentSolutionStorage_Files` after `__init__` (storage_files.py 243-267). -/
structure DelayedFiles where
  readNames : Quantity → Option (Int → Option String)
  writeNames : Quantity → Option (Int → Option String)
  measurementRead : Option (Int → Option String)
  measurementWrite : Option (Int → Option String)

/-- `partial_state_write`, `partial_state_marginal_std_write`, `state_sample_write` (storage_files.py 283-287, 292-320): the
method for samples reads an attribute which no object has; for prior samples there is no method. -/
def DelayedFiles.write (s : DelayedFiles) (q : Quantity) (value : Option V) (key : Int) (disk : Disk V) :
    Except PyErr (Disk V) :=
  match q with
  | .state | .marginalStd =>
    match s.writeNames q with
    | none => .error .valueError
    | some names =>
      match names key with
      | none => .error .valueError
      | some f => .ok (writepickle value f disk)
  | .sample => .error .attributeError
  | .priorSample => .error .attributeError

/-- `partial_state_read`, `partial_state_marginal_std_read`, `state_sample_read` (storage_files.py 280-281, 289-290,
322-348). -/
def DelayedFiles.read (s : DelayedFiles) (q : Quantity) (key : Int) (disk : Disk V) : Except PyErr (Option V) :=
  match q with
  | .state | .marginalStd =>
    match s.readNames q with
    | none => .ok none
    | some names =>
      match names key with
      | none => .ok none
      | some f => readpickle f disk
  | .sample => .error .attributeError
  | .priorSample => .error .attributeError

/-- `measurement_write` (storage_files.py 350-358). -/
def DelayedFiles.writeMeasurement (s : DelayedFiles) (value : Option V) (key : Int) (disk : Disk V) : Except PyErr (Disk V) :=
  match s.measurementWrite with
  | none => .error .valueError
  | some names =>
    match names key with
    | none => .error .valueError
    | some f => .ok (writepickle value f disk)

/-- `measurement_read` (storage_files.py 360-368). -/
def DelayedFiles.readMeasurement (s : DelayedFiles) (key : Int) (disk : Disk V) : Except PyErr (Option V) :=
  match s.measurementRead with
  | none => .error .valueError
  | some names =>
    match names key with
    | none => .error .valueError
    | some f => readpickle f disk

/-! ### Patterns of file names -/

/-- A key: only `int` is converted to a time. -/
inductive Key where
  | int (day : Int)
  | other

/-- The attributes of `DelayedSpatialComponentSolutionStorageFlexible_Files` (storage_files.py 385-409), with the names which
the patterns give for each day (`build_from_pattern`, modelled in `Verif.Eumopps.Names`). -/
structure FlexibleFiles where
  readName : Quantity → Option (Int → String)
  writeName : Quantity → Option (Int → String)

/-- `filename_from_patterns` (storage_files.py 441-448): for other keys the time is not assigned. -/
def filenameFromPatterns (names : Int → String) : Key → Except PyErr String
  | .int day => .ok (names day)
  | .other => .error .nameError

/-- `file_write` (storage_files.py 412-419). -/
def fileWrite (value : Option V) (pattern : Option (Int → String)) (key : Key) (disk : Disk V) : Except PyErr (Disk V) :=
  match pattern with
  | none => .error .valueError
  | some names =>
    match filenameFromPatterns names key with
    | .error e => .error e
    | .ok f => .ok (writepickle value f disk)

/-- `file_read` (storage_files.py 422-439): a missing file gives `None`. -/
def fileRead (pattern : Option (Int → String)) (key : Key) (disk : Disk V) : Except PyErr (Option V) :=
  match pattern with
  | none => .error .valueError
  | some names =>
    match filenameFromPatterns names key with
    | .error e => .error e
    | .ok f => if (disk f).isSome then readpickle f disk else .ok none

/-- `partial_state_write` and the like, called with a value and a key (storage_files.py 486-490, 495-496, 501-502): the methods
for samples take a single argument. -/
def FlexibleFiles.write (s : FlexibleFiles) (q : Quantity) (value : Option V) (key : Key) (disk : Disk V) :
    Except PyErr (Disk V) :=
  match q with
  | .state | .marginalStd => fileWrite value (s.writeName q) key disk
  | .sample | .priorSample => .error .typeError

/-- `state_sample_write`, as the delayed component calls it (storage_files.py 456-457). -/
def FlexibleFiles.writeSample (s : FlexibleFiles) (value : Option V) (key : Key) (disk : Disk V) : Except PyErr (Disk V) :=
  fileWrite value (s.writeName .sample) key disk

/-- `partial_state_read` and the like (storage_files.py 483-484, 492-493, 498-499, 504-505): for prior samples a method for
writing is called, with an argument missing. -/
def FlexibleFiles.read (s : FlexibleFiles) (q : Quantity) (key : Key) (disk : Disk V) : Except PyErr (Option V) :=
  match q with
  | .priorSample => .error .typeError
  | _ => fileRead (s.readName q) key disk

/-- `prior_state_sample_read(sample, key)` (storage_files.py 474-475): the result is `None`, and the disk has changed. -/
def FlexibleFiles.priorRead (s : FlexibleFiles) (value : Option V) (key : Key) (disk : Disk V) :
    Except PyErr (Option V × Disk V) :=
  match fileWrite value (s.readName .priorSample) key disk with
  | .error e => .error e
  | .ok d => .ok (none, d)

/-! ### Lists of files with times -/

/-- The attributes of `SpatialComponentSolutionStorageIndexed_Files` (storage_files_batch.py 28-57). -/
structure IndexedFiles where
  readList : Quantity → Option (List String)
  writeList : Quantity → Option (List String)
  measurementRead : Option (List String)
  measurementWrite : Option (List String)
  timeList : Option (List Int)

/-- `number_of_substeps` (storage_files_batch.py 62-76). -/
def IndexedFiles.substeps (s : IndexedFiles) : Nat :=
  match s.timeList with
  | some l => l.length
  | none =>
    match s.readList .state with
    | some l => l.length
    | none =>
      match s.writeList .state with
      | some l => l.length
      | none =>
        match s.measurementRead with
        | some l => l.length
        | none =>
          match s.measurementWrite with
          | some l => l.length
          | none => 0

/-- `dict(zip(keys, range(len(keys))))`: the last position of a key counts. -/
def lastIndex (keys : List Int) (key : Int) : Option Nat :=
  match keys with
  | [] => none
  | k :: rest =>
    match lastIndex rest key with
    | some i => some (i + 1)
    | none => if k = key then some 0 else none

/-- `make_file_lookup` (storage_files_batch.py 78-87).  The table is made at the first access and kept; the attributes on which
it depends do not change. -/
def IndexedFiles.lookup (s : IndexedFiles) : Int → Option Nat :=
  lastIndex (match s.timeList with
    | some l => l
    | none => (List.range s.substeps).map Int.ofNat)

/-- `file_write` and the check before it (storage_files_batch.py 92-111, 155-181). -/
def IndexedFiles.write (s : IndexedFiles) (q : Quantity) (value : Option V) (key : Int) (disk : Disk V) :
    Except PyErr (Disk V) :=
  match s.writeList q with
  | none => .error .valueError
  | some files =>
    match s.lookup key with
    | none => .error .valueError
    | some i =>
      match files[i]? with
      | none => .error .indexError
      | some f => .ok (writepickle value f disk)

/-- `file_read` and the check before it (storage_files_batch.py 113-129, 183-209). -/
def IndexedFiles.read (s : IndexedFiles) (q : Quantity) (key : Int) (disk : Disk V) : Except PyErr (Option V) :=
  match s.readList q with
  | none => .ok none
  | some files =>
    match s.lookup key with
    | none => .error .valueError
    | some i =>
      match files[i]? with
      | none => .error .indexError
      | some f => readpickle f disk

/-- `measurement_write` (storage_files_batch.py 211-216). -/
def IndexedFiles.writeMeasurement (s : IndexedFiles) (value : Option V) (key : Int) (disk : Disk V) : Except PyErr (Disk V) :=
  match s.measurementWrite with
  | none => .error .valueError
  | some files =>
    match s.lookup key with
    | none => .error .valueError
    | some i =>
      match files[i]? with
      | none => .error .indexError
      | some f => .ok (writepickle value f disk)

/-- `measurement_read` (storage_files_batch.py 218-223). -/
def IndexedFiles.readMeasurement (s : IndexedFiles) (key : Int) (disk : Disk V) : Except PyErr (Option V) :=
  match s.measurementRead with
  | none => .error .valueError
  | some files =>
    match s.lookup key with
    | none => .error .valueError
    | some i =>
      match files[i]? with
      | none => .error .indexError
      | some f => readpickle f disk

/-! ### Files with a cache -/

/-- The attributes of `SpaceTimeComponentSolutionStorageBatched_Files` (storage_files_batch.py 232-266). -/
structure BatchedFiles (V : Type) where
  readName : Quantity → Option String
  writeName : Quantity → Option String
  measurementRead : Option (List String)
  keepInMemory : Bool
  cache : Quantity → Option V

/-- `state_write` and the like (storage_files_batch.py 268-306). -/
def BatchedFiles.write (s : BatchedFiles V) (q : Quantity) (value : Option V) (disk : Disk V) :
    Except PyErr (BatchedFiles V × Disk V) :=
  match s.writeName q with
  | none => .error .valueError
  | some f =>
    .ok (if s.keepInMemory then { s with cache := fun q' => if q' = q then value else s.cache q' } else s,
      writepickle value f disk)

/-- `state_read` and the like (storage_files_batch.py 308-354): a cached `None` is read from the file again. -/
def BatchedFiles.read (s : BatchedFiles V) (q : Quantity) (disk : Disk V) : Except PyErr (BatchedFiles V × Option V) :=
  match s.readName q with
  | none => .ok (s, none)
  | some f =>
    if s.keepInMemory then
      match s.cache q with
      | some v => .ok (s, some v)
      | none =>
        match readpickle f disk with
        | .error e => .error e
        | .ok v => .ok ({ s with cache := fun q' => if q' = q then v else s.cache q' }, v)
    else
      match readpickle f disk with
      | .error e => .error e
      | .ok v => .ok (s, v)

/-- `measurement_read` (storage_files_batch.py 367-376): the name of the file is an attribute which no object has. -/
def BatchedFiles.readMeasurement (s : BatchedFiles V) : Except PyErr (Option V) :=
  match s.measurementRead with
  | none => .error .valueError
  | some _ => .error .attributeError

end Verif.Eustace.Storage
