import Verif.Eumopps.Catalogue.Model

/-! Model of src/eumopps/catalogue/placeholder.py. -/
namespace Verif.Eumopps.Placeholder
open Verif Verif.Py Verif.Eumopps.Catalogue

/-- Values of the `missing_data` argument, placeholder.py 32-34. `other` is any other string: no branch compares equal. -/
inductive Missing where
  | notAllowed | allowed | skip | other
  deriving DecidableEq, Repr

/-- `InputFileList`, placeholder.py 28-42 (also the state of `InputFile`, 173-182). -/
structure InputFileList where
  datasetname : String
  subsetindex : Int := 0
  missingData : Missing := .notAllowed
  deriving DecidableEq, Repr

/-- placeholder.py 92-104: the lookup from step to the list of entry indices, through sort and groupby. -/
def matchgroupsByTime (step : Step) (entries : List FileEntry) : Except PyErr (List (Int × List Nat)) := do
  let matchWithStep ← entries.zipIdx.mapM (fun (m, index) => do
    let s ← step.indexAtTime m.time
    pure (index, s))
  let sorted := sortedBy (fun ms => ms.2) matchWithStep
  pure ((groupby (fun ms => ms.2) sorted).map (fun (k, g) => (k, g.map (·.1))))

/-- placeholder.py 127-133: the lookup from step to a singleton list, through the generated name. -/
def matchgroupsByName (step : Step) (patterns : List String) (entries : List FileEntry) : List (Int × List Nat) :=
  let matchnameToIndex := entries.zipIdx.map (fun (m, index) => (m.name, index))
  let stepToMatch := (List.range step.count).map (fun i =>
    dictGet matchnameToIndex (step.createOutputEntry patterns i).name)
  stepToMatch.zipIdx.filterMap (fun (mi, i) => mi.map (fun j => ((i : Int), [j])))

/-- placeholder.py 70-133: the lookup from step to entry indices, by either branch. -/
def groupsOf (step : Step) (patterns : List String) (entries : List FileEntry) : Except PyErr (List (Int × List Nat)) :=
  if step.isUniquelyDefinedBy patterns then matchgroupsByTime step entries
    else .ok (matchgroupsByName step patterns entries)

/-- placeholder.py 136-145: the flat integers of step `i`; `step_to_matchgroup.get(step_index, default_entryindex)`. -/
def stepRefs (inp : InputFileList) (d : Int) (groups : List (Int × List Nat)) (i : Nat) : List Int :=
  (match dictGet groups (i : Int) with
      | some g => g.map (fun (j : Nat) => (j : Int))
      | none => if inp.missingData = Missing.allowed then [-1] else []).flatMap (fun e => [d, inp.subsetindex, e])

/-- placeholder.py 148: `operations_with_missing_data`. -/
def missingOf (refs : List (List Int)) : List Nat :=
  (refs.zipIdx.filter (fun x => x.1.length == 0)).map (·.2)

/-- placeholder.py 150-171: apply the policy for missing data. The warning print at 164 is omitted. -/
def finish (inp : InputFileList) (skip : List Bool) (refs : List (List Int)) : Except PyErr (List (List Int) × List Bool) :=
  match inp.missingData with
  | .notAllowed => if (missingOf refs).length > 0 then .error .operationError else .ok (refs, skip)
  | .skip =>
    match (missingOf refs).foldlM
        (fun sk i => if i < sk.length then (.ok (sk.set i true) : Except PyErr (List Bool)) else .error .indexError) skip with
    | .ok sk => .ok (refs, sk)
    | .error e => .error e
  | _ => .ok (refs, skip)

/-- `InputFileList.find_references`, placeholder.py 48-171. Returns the flat integer lists, one per step, and the updated
`request_skip` list. (The first data set with the name exists whenever one of its subsets does, so the
`some _, none` branch below is unreachable; see `datasetindex_of_subset`.) -/
def findReferences (inp : InputFileList) (requestSkip : List Bool) (cat : Catalogue) (step : Step) :
    Except PyErr (List (List Int) × List Bool) :=
  match cat.datasubset inp.datasetname inp.subsetindex, cat.datasetindex inp.datasetname with
  | none, _ => .error .operationError
  | some _, none => .error .typeError
  | some s, some d =>
    match s.patterns with
    | none => .error .operationError
    | some p =>
      match groupsOf step p s.entries with
      | .error e => .error e
      | .ok g => finish inp requestSkip ((List.range step.count).map (stepRefs inp (d : Int) g))

/-- `InputFile.operation_input_resolve`, placeholder.py 184-196: `max` of an empty list is a ValueError. -/
def resolveInputFile (inp : InputFileList) (requestSkip : List Bool) (cat : Catalogue) (step : Step) :
    Except PyErr (List (List Int) × List Bool) :=
  match findReferences inp requestSkip cat step with
  | .error e => .error e
  | .ok (refs, sk) =>
    match (refs.map List.length).max? with
    | none => .error .valueError
    | some m => if m > 3 then .error .operationError else .ok (refs, sk)

/-- State of the loop at placeholder.py 244-271: entries appended so far, name dictionary, references so far. -/
structure OutState where
  entries : List FileEntry
  names : List (String × Nat)
  refs : List (List Int)

/-- One pass of the loop body, placeholder.py 253-271. -/
def outputStep (step : Step) (patterns : List String) (d : Int) (s : Int) (st : OutState) (i : Nat) : OutState :=
  let newentry := step.createOutputEntry patterns i
  match dictGet st.names newentry.name with
  | some e => { st with refs := st.refs ++ [[d, s, (e : Int)]] }
  | none =>
    { entries := st.entries ++ [newentry]
      names := st.names ++ [(newentry.name, st.entries.length)]
      refs := st.refs ++ [[d, s, (st.entries.length : Int)]] }

/-- `OutputFile.operation_output_resolve`, placeholder.py 225-274: references and the updated catalogue. -/
def resolveOutputFile (name : String) (subsetindex : Int) (cat : Catalogue) (step : Step) (operationIndices : List Nat) :
    Except PyErr (List (List Int) × Catalogue) :=
  match cat.datasubset name subsetindex, cat.datasetindex name with
  | none, _ => .error .operationError
  | some _, none => .error .typeError
  | some subset, some d =>
    if subset.entries.length > 0 then .error .operationError
    else match subset.patterns with
      | none => .error .operationError
      | some patterns =>
        let st := operationIndices.foldl (outputStep step patterns (d : Int) subsetindex) ⟨[], [], []⟩
        .ok (st.refs, cat.setEntries name subsetindex st.entries)

end Verif.Eumopps.Placeholder
