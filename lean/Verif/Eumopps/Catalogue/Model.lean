import Verif.Py

/-! Model of the in-memory catalogue: src/eumopps/catalogue/catalogue.py, dataset.py, step.py. -/
namespace Verif.Eumopps.Catalogue
open Verif

/-- `CatalogueFileEntry`, dataset.py 134-149. Simplified: only the name and time are kept (tags, checksum and size
do not influence the modelled operations). Times are microseconds from a fixed origin; `none` is Python's None. -/
structure FileEntry where
  name : String
  time : Option Int := none
  deriving DecidableEq, Repr

/-- `CatalogueDataSubset`, dataset.py 58-69. `patterns = none` models a layout without a `patterns` attribute. -/
structure Subset where
  patterns : Option (List String)
  entries : List FileEntry
  deriving DecidableEq, Repr

/-- `CatalogueDataSet`, dataset.py 19-29 (toolchain and non_matching omitted). -/
structure DataSet where
  name : String
  path : String
  subsets : List Subset
  deriving DecidableEq, Repr

/-- `Catalogue`, catalogue.py 6-22, restricted to its data sets. -/
structure Catalogue where
  datasets : List DataSet
  deriving DecidableEq, Repr

/-- `Catalogue.datasetindex`, catalogue.py 29-35: the first data set with the name, or None. -/
def Catalogue.datasetindex (c : Catalogue) (name : String) : Option Nat :=
  c.datasets.findIdx? (fun d => d.name == name)

/-- `Catalogue.dataset`, catalogue.py 37-43. -/
def Catalogue.dataset (c : Catalogue) (name : String) : Option DataSet :=
  c.datasets.find? (fun d => d.name == name)

/-- `CatalogueDataSet.subset`, dataset.py 31-35: None if the index is out of range (no wrap-around). -/
def DataSet.subset (d : DataSet) (i : Int) : Option Subset :=
  if 0 ≤ i ∧ i < d.subsets.length then d.subsets[i.toNat]? else none

/-- `Catalogue.datasubset`, catalogue.py 45-50. -/
def Catalogue.datasubset (c : Catalogue) (name : String) (i : Int) : Option Subset :=
  match c.dataset name with
  | some d => d.subset i
  | none => none

/-- In-place mutation of `subset.matches` for the subset found by `datasubset(name, i)`. -/
def Catalogue.setEntries (c : Catalogue) (name : String) (i : Int) (es : List FileEntry) : Catalogue :=
  match c.datasetindex name with
  | none => c
  | some d =>
    { datasets := c.datasets.modify d (fun ds =>
        { ds with subsets := ds.subsets.modify i.toNat (fun s => { s with entries := es }) }) }

/-- The `Step` interface, step.py 9-37: one operation per index in `range(count())`. The methods are parameters of the
model, so every theorem covers all step classes. `count` is a natural number: `range(n)` of a negative count is empty. -/
structure Step where
  count : Nat
  indexAtTime : Option Int → Except PyErr Int
  timeAtIndex : Nat → Except PyErr Int
  createOutputEntry : List String → Nat → FileEntry
  isUniquelyDefinedBy : List String → Bool

end Verif.Eumopps.Catalogue
