import Verif.Eumopps.Catalogue.Model

/-! What a user expects of file placeholders, stated without the model of placeholder.py. -/
namespace Verif.Eumopps.Placeholder.Spec
open Verif Verif.Eumopps.Catalogue

/-- The integers stored for a list of entries of one subset: dataset, subset, entry for each. -/
def triples (d s : Int) (es : List Int) : List Int := es.flatMap (fun e => [d, s, e])

/-- Entry `j` of the subset is a file whose time falls in step `i`. -/
def FileInStep (step : Step) (entries : List FileEntry) (i j : Nat) : Prop :=
  ∃ e, entries[j]? = some e ∧ step.indexAtTime e.time = .ok (i : Int)

/-- Entry `j` carries exactly the name `n`. -/
def Named (entries : List FileEntry) (n : String) (j : Nat) : Prop :=
  ∃ e, entries[j]? = some e ∧ e.name = n

/-- The entries that belong to step `i`. If file names determine the step: all files whose time is in the step, in
catalogue order. Otherwise: the (last) entry whose name is the one the patterns give for the step, if there is one. -/
def Selected (step : Step) (patterns : List String) (entries : List FileEntry) (i : Nat) (js : List Nat) : Prop :=
  if step.isUniquelyDefinedBy patterns then
    js.Pairwise (· < ·) ∧ ∀ j, j ∈ js ↔ FileInStep step entries i j
  else
    (js = [] ∧ ∀ j, ¬ Named entries (step.createOutputEntry patterns i).name j) ∨
    (∃ j, js = [j] ∧ Named entries (step.createOutputEntry patterns i).name j ∧
      ∀ j', j < j' → ¬ Named entries (step.createOutputEntry patterns i).name j')

/-- Step `i` has at least one file. -/
def HasFile (step : Step) (patterns : List String) (entries : List FileEntry) (i : Nat) : Prop :=
  if step.isUniquelyDefinedBy patterns then ∃ j, FileInStep step entries i j
  else ∃ j, Named entries (step.createOutputEntry patterns i).name j

/-- The subset at a pair of list positions in the catalogue. -/
def subsetAt (c : Catalogue) (d s : Nat) : Option Subset := (c.datasets[d]?).bind (fun ds => ds.subsets[s]?)

end Verif.Eumopps.Placeholder.Spec
