import Verif.Py

/-! Model of src/eumopps/catalogue/datareference.py. -/
namespace Verif.Eumopps.Reference
open Verif Verif.Py

/-- `DataReference`, datareference.py 3-13. -/
structure DataReference where
  dataset : Int
  subset : Int
  entry : Int
  deriving DecidableEq, Repr

/-- `DataReference.aslist`, datareference.py 11-13. -/
def DataReference.aslist (r : DataReference) : List Int := [r.dataset, r.subset, r.entry]

/-- `reference_list_to_integers`, datareference.py 15-20: a loop extending `result`. -/
def referenceListToIntegers (reflist : List DataReference) : List Int :=
  reflist.foldl (fun result ref => result ++ ref.aslist) []

/-- `reference_integers_to_list`, datareference.py 22-24: list comprehension over `range(0, len, 3)`. -/
def referenceIntegersToList (refnumbers : List Int) : Except PyErr (List DataReference) :=
  (Py.range3 0 refnumbers.length 3).mapM (fun index => do
    let a ← idx refnumbers index
    let b ← idx refnumbers (index + 1)
    let c ← idx refnumbers (index + 2)
    pure ⟨a, b, c⟩)

end Verif.Eumopps.Reference
