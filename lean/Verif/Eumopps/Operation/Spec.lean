import Verif.Eumopps.Operation.Model
import Verif.Eumopps.Placeholder.Spec

/-! What a user expects of operation parameters. Only the data types of the model are used, not its functions. -/
namespace Verif.Eumopps.Operation.Spec
open Verif Verif.Eumopps.Catalogue Verif.Eumopps.Placeholder Verif.Eumopps.Placeholder.Spec

mutual
/-- `l` is one of the leaves of the tree. -/
def Occurs (l : Leaf) : Tree → Prop
  | .leaf l' => l = l'
  | .node _ c => OccursF l c
def OccursF (l : Leaf) : Forest → Prop
  | .nil => False
  | .cons _ t rest => Occurs l t ∨ OccursF l rest
end

mutual
/-- Same containers and keys, and the leaves correspond by `R`. -/
def TreeRel (R : Leaf → Leaf → Prop) : Tree → Tree → Prop
  | .leaf l, .leaf l' => R l l'
  | .node k c, .node k' c' => k = k' ∧ ForestRel R c c'
  | _, _ => False
def ForestRel (R : Leaf → Leaf → Prop) : Forest → Forest → Prop
  | .nil, .nil => True
  | .cons k t r, .cons k' t' r' => k = k' ∧ TreeRel R t t' ∧ ForestRel R r r'
  | _, _ => False
end

/-- The file placeholder of a leaf, if it is one. -/
def inputOf : Leaf → Option InputFileList
  | .inputFileList inp => some inp
  | .inputFile inp => some inp
  | _ => none

/-- Step `i` must be skipped because of leaf `l`: it is a file input with policy `skip` and the step has no file. -/
def SkipCause (cat : Catalogue) (step : Step) (l : Leaf) (i : Nat) : Prop :=
  ∃ inp s p, inputOf l = some inp ∧ inp.missingData = .skip ∧
    cat.datasubset inp.datasetname inp.subsetindex = some s ∧ s.patterns = some p ∧ ¬ HasFile step p s.entries i

/-- The value of a file input for step `i`: references to the files of the step (at least one unless missing data is
allowed or skipped), or the marker -1 if there is none and missing data is allowed. -/
def InputValue (cat : Catalogue) (step : Step) (inp : InputFileList) (i : Nat) (v : Lit) : Prop :=
  ∃ s p d js, cat.datasubset inp.datasetname inp.subsetindex = some s ∧ s.patterns = some p ∧
    cat.datasetindex inp.datasetname = some d ∧ Selected step p s.entries i js ∧
    (inp.missingData = .notAllowed → js ≠ []) ∧
    v = .ints (triples d inp.subsetindex
      (if js = [] ∧ inp.missingData = .allowed then [-1] else js.map (fun (j : Nat) => (j : Int))))

/-- The value of an output for step `i`: a reference to an entry of the final catalogue with the generated name. -/
def OutputValue (cat cat' : Catalogue) (step : Step) (name : String) (si : Int) (i : Nat) (v : Lit) : Prop :=
  ∃ (s : Subset) (p : List String) (d : Nat) (s' : Subset) (j : Nat) (e : FileEntry), cat.datasubset name si = some s ∧ s.patterns = some p ∧ cat.datasetindex name = some d ∧ 0 ≤ si ∧
    subsetAt cat' d si.toNat = some s' ∧ s'.entries[j]? = some e ∧ e.name = (step.createOutputEntry p i).name ∧
    v = .ints [(d : Int), si, (j : Int)]

/-- Position `k` of the parameter list that replaces leaf `l` belongs to the `k`-th kept step. `cat` is the catalogue
including the data sets the operation adds, `cat'` the final one. -/
def LeafResolved (cat cat' : Catalogue) (step : Step) (keep : List Nat) (l l' : Leaf) : Prop :=
  match l with
  | .inputFileList inp => ∃ ps, l' = .plist .fileList ps ∧ ps.length = keep.length ∧
      ∀ (k i : Nat), keep[k]? = some i → ∃ v, ps[k]? = some v ∧ InputValue cat step inp i v
  | .inputFile inp => ∃ ps, l' = .plist .file ps ∧ ps.length = keep.length ∧
      ∀ (k i : Nat), keep[k]? = some i → ∃ v, ps[k]? = some v ∧ InputValue cat step inp i v
  | .stepTime => ∃ ps, l' = .plist .value ps ∧ ps.length = keep.length ∧
      ∀ (k i : Nat), keep[k]? = some i → ∃ t, ps[k]? = some (Lit.time t) ∧ step.timeAtIndex i = .ok t
  | .stepIndex => ∃ ps, l' = .plist .value ps ∧ ps.length = keep.length ∧
      ∀ (k i : Nat), keep[k]? = some i → ps[k]? = some (Lit.int i)
  | .outputFile n si => ∃ ps, l' = .plist .file ps ∧ ps.length = keep.length ∧
      ∀ (k i : Nat), keep[k]? = some i → ∃ v, ps[k]? = some v ∧ OutputValue cat cat' step n si i v
  | .plist kind ps0 => ∃ ps, l' = .plist kind ps ∧ ps.length = keep.length ∧
      ∀ (k i : Nat), keep[k]? = some i → ∃ v, ps[k]? = some v ∧ ps0[i]? = some v
  | l => l' = l

/-- `q` is the path name of a reference: None for a negative entry, otherwise data set path joined with entry name. -/
def PathOf (cat : Catalogue) (r : Reference.DataReference) (q : Option String) : Prop :=
  if r.entry < 0 then q = none
  else 0 ≤ r.dataset ∧ 0 ≤ r.subset ∧ ∃ ds sub fe, cat.datasets[r.dataset.toNat]? = some ds ∧
    ds.subsets[r.subset.toNat]? = some sub ∧ sub.entries[r.entry.toNat]? = some fe ∧
    q = some (pathJoin ds.path fe.name)

/-- The path names of a list of references, one each and in order. -/
def PathsOf (cat : Catalogue) (refs : List Reference.DataReference) (qs : List (Option String)) : Prop :=
  qs.length = refs.length ∧ ∀ (k : Nat) (r : Reference.DataReference), refs[k]? = some r →
    ∃ q, qs[k]? = some q ∧ PathOf cat r q

/-- One optional path as a parameter value. -/
def litOfPath : Option String → Lit
  | some p => .str p
  | none => .none

/-- What a leaf becomes when the single operation `i` is selected. -/
def LeafSingle (cat : Catalogue) (count : Nat) (identifier timestamp : String) (i : Nat) (l l' : Leaf) : Prop :=
  match l with
  | .timestamp => l' = .lit (.str timestamp)
  | .catalogueId => l' = .lit (.str identifier)
  | .plist .value ps => ps.length = count ∧ ∃ v, ps[i]? = some v ∧ l' = .lit v
  | .plist .file ps => ps.length = count ∧ ∃ refs qs,
      ps[i]? = some (Lit.ints (refs.flatMap Reference.DataReference.aslist)) ∧ PathsOf cat refs qs ∧
      l' = .lit (litOfPath (qs.head?.join))
  | .plist .fileList ps => ps.length = count ∧ ∃ refs qs,
      ps[i]? = some (Lit.ints (refs.flatMap Reference.DataReference.aslist)) ∧ PathsOf cat refs qs ∧ l' = .lit (.paths qs)
  | l => l' = l

/-- The path names handed to the module for a file input at step `i`: those of the files of the step, in catalogue order;
a single None if there is no file and missing data is allowed. -/
def InputPaths (cat : Catalogue) (step : Step) (inp : InputFileList) (i : Nat) (qs : List (Option String)) : Prop :=
  ∃ ds s p js, cat.dataset inp.datasetname = some ds ∧ ds.subset inp.subsetindex = some s ∧ s.patterns = some p ∧
    Selected step p s.entries i js ∧ (inp.missingData = .notAllowed → js ≠ []) ∧
    if js = [] ∧ inp.missingData = .allowed then qs = [none]
    else qs.length = js.length ∧ ∀ (k j : Nat), js[k]? = some j → ∃ fe, s.entries[j]? = some fe ∧
      qs[k]? = some (some (pathJoin ds.path fe.name))

/-- What the module receives for each leaf of the template when it is run for step `i`. -/
def LeafRun (cat : Catalogue) (step : Step) (identifier timestamp : String) (i : Nat) (l l' : Leaf) : Prop :=
  match l with
  | .inputFileList inp => ∃ qs, InputPaths cat step inp i qs ∧ l' = .lit (.paths qs)
  | .inputFile inp => ∃ qs, InputPaths cat step inp i qs ∧ l' = .lit (litOfPath (qs.head?.join))
  | .stepTime => ∃ t, step.timeAtIndex i = .ok t ∧ l' = .lit (.time t)
  | .stepIndex => l' = .lit (.int i)
  | .outputFile n si => ∃ ds s p, cat.dataset n = some ds ∧ ds.subset si = some s ∧ s.patterns = some p ∧
      l' = .lit (.str (pathJoin ds.path (step.createOutputEntry p i).name))
  | .timestamp => l' = .lit (.str timestamp)
  | .catalogueId => l' = .lit (.str identifier)
  | .lit v => l' = .lit v
  | .plist _ _ => True

/-- `cat1` is the catalogue with the data sets an operation adds appended at the end, in order, where those without a path
get the default one. -/
def Added (newdatasets : List DataSet) (pathdefault : Option String) (cat cat1 : Catalogue) : Prop :=
  ∃ new : List DataSet, cat1.datasets = cat.datasets ++ new ∧ new.length = newdatasets.length ∧
    ∀ (k : Nat) (d : DataSet), newdatasets[k]? = some d → ∃ d', new[k]? = some d' ∧
      d'.name = d.name ∧ d'.subsets = d.subsets ∧ d'.path ≠ "" ∧ (d.path ≠ "" → d'.path = d.path) ∧
      (d.path = "" → pathdefault = some d'.path)

end Verif.Eumopps.Operation.Spec
