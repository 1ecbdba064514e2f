import Verif.Eustace.Storage.Model

/-!
What a storage has to do, without regard to how it is done: a read gives what was written last for the same quantity and time.
-/

namespace Verif.Eustace.Storage

open Verif

variable {V σ : Type}

/-- A request to write. -/
structure Write (V : Type) where
  quantity : Quantity
  time : Int
  value : Option V

/-- In a history of requests to storage objects, `value` is the last which an object that accepts requests for this quantity and
time was asked to write. -/
def LastWritten (accepts : σ → Quantity → Int → Prop) (history : List (σ × Write V)) (q : Quantity) (time : Int)
    (value : Option V) : Prop :=
  ∃ before s after, history = before ++ (s, ⟨q, time, value⟩) :: after ∧ accepts s q time ∧
    ∀ e ∈ after, e.2.quantity = q → e.2.time = time → ¬ accepts e.1 q time

/-- No object which accepts requests for this quantity and time was asked to write. -/
def NeverWritten (accepts : σ → Quantity → Int → Prop) (history : List (σ × Write V)) (q : Quantity) (time : Int) : Prop :=
  ∀ e ∈ history, e.2.quantity = q → e.2.time = time → ¬ accepts e.1 q time

/-- The contents of the disk after a history of requests to storage objects, whose method for writing is `write`; a request
which raises an error changes nothing. -/
def diskAfter (write : σ → Quantity → Option V → Int → Disk V → Except PyErr (Disk V)) :
    Disk V → List (σ × Write V) → Disk V
  | disk, [] => disk
  | disk, (s, w) :: rest =>
    match write s w.quantity w.value w.time disk with
    | .ok disk' => diskAfter write disk' rest
    | .error _ => diskAfter write disk rest

/-- Names of files are different for different quantities and times. -/
def Distinct (name : Quantity → Int → String) : Prop := ∀ q t q' t', name q t = name q' t' → q = q' ∧ t = t'

/-! What the constructors were told: which file is for which quantity and time. -/

/-- A storage of one time has the file for this quantity, and the time is its own. -/
def SpatialFiles.WritesTo (s : SpatialFiles) (q : Quantity) (time : Int) (f : String) : Prop :=
  s.time = some time ∧ s.writeName q = some f

/-- The same for reading. -/
def SpatialFiles.ReadsFrom (s : SpatialFiles) (q : Quantity) (time : Int) (f : String) : Prop :=
  s.time = some time ∧ s.readName q = some f

/-- The file has the same place in the list of files as the time in the list of times. -/
def IndexedFiles.WritesTo (s : IndexedFiles) (q : Quantity) (time : Int) (f : String) : Prop :=
  ∃ times files, ∃ i : Nat, s.timeList = some times ∧ s.writeList q = some files ∧ times[i]? = some time ∧ files[i]? = some f

/-- The same for reading. -/
def IndexedFiles.ReadsFrom (s : IndexedFiles) (q : Quantity) (time : Int) (f : String) : Prop :=
  ∃ times files, ∃ i : Nat, s.timeList = some times ∧ s.readList q = some files ∧ times[i]? = some time ∧ files[i]? = some f

/-- States and standard deviations have files in dictionaries. -/
def DelayedFiles.WritesTo (s : DelayedFiles) (q : Quantity) (time : Int) (f : String) : Prop :=
  (q = .state ∨ q = .marginalStd) ∧ ∃ names, s.writeNames q = some names ∧ names time = some f

/-- The same for reading. -/
def DelayedFiles.ReadsFrom (s : DelayedFiles) (q : Quantity) (time : Int) (f : String) : Prop :=
  (q = .state ∨ q = .marginalStd) ∧ ∃ names, s.readNames q = some names ∧ names time = some f

/-- States and standard deviations have patterns of names. -/
def FlexibleFiles.WritesTo (s : FlexibleFiles) (q : Quantity) (time : Int) (f : String) : Prop :=
  (q = .state ∨ q = .marginalStd) ∧ ∃ names, s.writeName q = some names ∧ names time = f

/-- The same for reading. -/
def FlexibleFiles.ReadsFrom (s : FlexibleFiles) (q : Quantity) (time : Int) (f : String) : Prop :=
  (q = .state ∨ q = .marginalStd) ∧ ∃ names, s.readName q = some names ∧ names time = f

end Verif.Eustace.Storage
