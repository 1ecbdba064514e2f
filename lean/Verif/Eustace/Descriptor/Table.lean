import Verif.Eustace.Descriptor.Model
import Verif.Eustace.Descriptor.Spec
import Mathlib.Tactic.NormNum

/-! What each operation of a descriptor says, kind by kind. -/

namespace Verif.Eustace.Descriptor
open Verif

theorem restrict_operation : restrictInputs operationTemplate = .ok operationTemplate := by rfl
theorem restrict_batch : restrictInputs batchTemplate = .ok batchTemplate := by rfl
theorem restrict_grid : restrictInputs gridTemplate = .ok gridTemplate := by rfl

/-- All that is said about one storage argument. -/
structure StorageFacts where
  cls : Option String
  arguments : List String
  stateRead : Option String := none
  stateWritten : Option String := none
  sampleRead : Option String := none
  sampleWritten : Option String := none
  priorRead : Option String := none
  priorWritten : Option String := none
  measurementRead : Option String := none
  measurementWritten : Option String := none

/-- All that is said about an operation. -/
structure Facts where
  command : Option String
  function : Option String
  component : Option ℤ
  step : Option String
  times : Option String × Option String
  arguments : List String
  sample : Option ℤ
  prior : Option ℤ
  size : Option ℤ
  uncertainties : Option ℤ
  reads : List String
  writes : List String
  creates : Option (List String)
  land : Option Json
  global : Option Json
  patterns : Option (List (String × List String))
  climatology : StorageFacts
  largeScale : StorageFacts
  localScale : StorageFacts
  complete : Except PyErr Unit := .ok ()
  fits : Bool := true

/-- What is said about a storage argument of an operation. -/
def storageFacts (s : String) (j : Json) : StorageFacts where
  cls := Spec.storageClass s j
  arguments := Spec.storageArguments s j
  stateRead := Spec.stateRead s j
  stateWritten := Spec.stateWritten s j
  sampleRead := Spec.sampleRead s j
  sampleWritten := Spec.sampleWritten s j
  priorRead := Spec.priorRead s j
  priorWritten := Spec.priorWritten s j
  measurementRead := Spec.measurementRead s j
  measurementWritten := Spec.measurementWritten s j

/-- What is said about an operation. -/
def facts (j : Json) : Facts where
  command := Spec.command j
  function := Spec.function j
  component := Spec.component j
  step := Spec.stepClass j
  land := Spec.item [.key "runmodule", .key "insitu_biases"] j
  global := Spec.item [.key "runmodule", .key "global_biases"] j
  times := Spec.stepTimes j
  arguments := Spec.arguments j
  sample := Spec.flag "compute_sample" j
  prior := Spec.flag "compute_prior_sample" j
  size := Spec.flag "sample_size" j
  uncertainties := Spec.flag "compute_uncertainties" j
  reads := Spec.reads j
  writes := Spec.writes j
  creates := Spec.creates j
  patterns := Spec.createsPatterns j
  climatology := storageFacts "storage_climatology" j
  largeScale := storageFacts "storage_large_scale" j
  localScale := storageFacts "storage_local" j
  complete := checkNone j
  fits := Spec.fits j

/-- Data sets of observations. -/
def sourceNames : List String :=
  Spec.mentionsList Spec.inputClasses [operationSource0, operationSource1, operationSource2, operationSource3, operationSource4]

theorem storage0 : nameAt storageList 0 = "storage_climatology" := rfl
theorem storage1 : nameAt storageList 1 = "storage_large_scale" := rfl
theorem storage2 : nameAt storageList 2 = "storage_local" := rfl
theorem solution0 (c : Config) : nameAt c.solutions 0 = c.solutionClimatologyName := rfl
theorem solution1 (c : Config) : nameAt c.solutions 1 = c.solutionLargeScaleName := rfl
theorem solution2 (c : Config) : nameAt c.solutions 2 = c.solutionLocalScaleName := rfl

theorem batchPuts_zero0 (c : Config) : batchSecondaryPuts c 0 0 = [([.key "runmodule"], "component_index", .int 0)] := rfl

theorem batchPuts_zero1 (c : Config) : batchSecondaryPuts c 0 1 = [([.key "runmodule"], "component_index", .int 1),
    ([.key "runmodule", .key "storage_climatology"], "statefilename_read", dataPlaceholder inputFile (numbered c.solutionClimatologyName 0))] := rfl

theorem batchPuts_pos0 (c : Config) {i : ℤ} (h : 0 < i) : batchSecondaryPuts c i 0 = [([.key "runmodule"], "component_index", .int 0),
    ([.key "runmodule", .key "storage_climatology"], "statefilename_read", dataPlaceholder inputFile (numbered c.solutionClimatologyName (i - 1))),
    ([.key "runmodule", .key "storage_large_scale"], "statefilename_read", dataPlaceholder inputFile (numbered c.solutionLargeScaleName (i - 1))),
    ([.key "runmodule", .key "storage_local"], "statefilelist_read", dataPlaceholder annualBatchDays (numbered c.solutionLocalScaleName (i - 1))),
    ([.key "runmodule", .key "storage_local"], "time_list", placeholder batchDayIndices)] := by
  simp [batchSecondaryPuts, batchSecondaryPut, batchStatePut, h, storage0, storage1, storage2, solution0, solution1, solution2]

theorem batchPuts_pos1 (c : Config) {i : ℤ} (h : 0 < i) : batchSecondaryPuts c i 1 = [([.key "runmodule"], "component_index", .int 1),
    ([.key "runmodule", .key "storage_climatology"], "statefilename_read", dataPlaceholder inputFile (numbered c.solutionClimatologyName i)),
    ([.key "runmodule", .key "storage_large_scale"], "statefilename_read", dataPlaceholder inputFile (numbered c.solutionLargeScaleName (i - 1))),
    ([.key "runmodule", .key "storage_local"], "statefilelist_read", dataPlaceholder annualBatchDays (numbered c.solutionLocalScaleName (i - 1))),
    ([.key "runmodule", .key "storage_local"], "time_list", placeholder batchDayIndices)] := by
  simp [batchSecondaryPuts, batchSecondaryPut, batchStatePut, h, h.le, storage0, storage1, storage2, solution0, solution1, solution2]

theorem secondaryPuts2 (c : Config) {i : ℤ} (h : 0 ≤ i) : secondaryPuts c i 2 = [([.key "runmodule"], "component_index", .int 2),
    ([.key "runmodule", .key "storage_large_scale"], "statefilename_read", dataPlaceholder inputFile (numbered c.solutionLargeScaleName i)),
    ([.key "runmodule", .key "storage_climatology"], "statefilename_read", dataPlaceholder inputFile (numbered c.solutionClimatologyName i))] := by
  simp [secondaryPuts, secondaryPut, h, storage0, storage1, storage2, solution0, solution1, solution2]

theorem numbered_ne_prior (s : String) (i : ℤ) : numbered s i ≠ numberedPrior s i := by
  intro h
  have := congrArg String.length h
  simp [numbered, numberedPrior] at this
  exact absurd this (by decide)

theorem sample_ne_prior (s : String) (i : ℤ) : numberedSample s i ≠ numberedPrior s i := by
  intro h
  have := congrArg String.length h
  simp [numberedSample, numberedPrior] at this
  exact absurd this (by decide)

/-- Assignments of `fill_batch_output_gridding` when the local solution has a name of its own. -/
theorem gridPuts_eq (c : Config) (i : ℤ) (h0 : c.solutionClimatologyName ≠ c.solutionLocalScaleName)
    (h1 : c.solutionLargeScaleName ≠ c.solutionLocalScaleName) : gridPuts c i =
    [([.key "runmodule"], "sample_size", .int 10),
     ([.key "runmodule"], "python_function", .str (movingClimatology "output_grid_batch")),
     ([.key "runmodule"], "outputfiles", dataPlaceholder annualBatchDaysOutput (numbered c.outputGridName i)),
     ([.key "runmodule"], "climatologyfiles", dataPlaceholder annualBatchDaysOutput (numbered c.outputClimatologyName i)),
     ([.key "runmodule"], "largescalefiles", dataPlaceholder annualBatchDaysOutput (numbered c.outputLargeScaleName i)),
     ([.key "runmodule"], "localfiles", dataPlaceholder annualBatchDaysOutput (numbered c.outputLocalName i)),
     ([.key "runmodule", .key "storage_climatology"], "statefilename_read", dataPlaceholder inputFile (numbered c.solutionClimatologyName i)),
     ([.key "runmodule", .key "storage_climatology"], "sample_filename_read",
        dataPlaceholder inputFile (numberedSample c.solutionClimatologyName i)),
     ([.key "runmodule", .key "storage_climatology"], "prior_sample_filename_read",
        dataPlaceholder inputFile (numberedPrior c.solutionClimatologyName i)),
     ([.key "runmodule", .key "storage_large_scale"], "statefilename_read", dataPlaceholder inputFile (numbered c.solutionLargeScaleName i)),
     ([.key "runmodule", .key "storage_large_scale"], "sample_filename_read",
        dataPlaceholder inputFile (numberedSample c.solutionLargeScaleName i)),
     ([.key "runmodule", .key "storage_large_scale"], "prior_sample_filename_read",
        dataPlaceholder inputFile (numberedPrior c.solutionLargeScaleName i)),
     ([.key "runmodule", .key "storage_local"], "statefilelist_read",
        optionalPlaceholder annualBatchDays (numbered c.solutionLocalScaleName i)),
     ([.key "runmodule", .key "storage_local"], "sample_filelist_read",
        optionalPlaceholder annualBatchDays (numberedSample c.solutionLocalScaleName i)),
     ([.key "runmodule", .key "storage_local"], "prior_sample_filelist_read",
        optionalPlaceholder annualBatchDays (numberedPrior c.solutionLocalScaleName i)),
     ([.key "runmodule", .key "storage_local"], "time_list", placeholder batchDayIndices)] := by
  simp [gridPuts, gridReads, h0, h1, outputSampleSize]

/-- Class of storage. -/
def spaceTimeFiles : String := "eustace.analysis.advanced_standard.components.storage_files.SpaceTimeComponentSolutionStorage_Files"
/-- Class of storage. -/
def spatialFiles : String := "eustace.analysis.advanced_standard.components.storage_files.SpatialComponentSolutionStorage_Files"
/-- Class of storage. -/
def spaceTimeBatched : String :=
  "eustace.analysis.advanced_standard.components.storage_files_batch.SpaceTimeComponentSolutionStorageBatched_Files"
/-- Class of storage. -/
def spatialIndexed : String :=
  "eustace.analysis.advanced_standard.components.storage_files_batch.SpatialComponentSolutionStorageIndexed_Files"

/-- Arguments common to all functions. -/
def commonArguments : List String :=
  ["covariates_descriptor", "insitu_biases", "breakpoints_file", "global_biases", "global_biases_group_list", "compute_uncertainties",
   "method", "compute_sample", "sample_size", "compute_prior_sample"]

/-- Arguments for storage. -/
def storageArgs : List String := ["storage_climatology", "storage_large_scale", "storage_local"]

/-- Arguments of functions which process observations. -/
def inputArgs (time : String) : List String := storageArgs ++ ["inputsources", time, "component_index"] ++ commonArguments

/-- Functions of moving_climatology.py. -/
def fullName (f : String) : String := "eustace.analysis.advanced_standard.examples.moving_climatology." ++ f

/-- Patterns of files for months. -/
def monthly (n : String) : String × List String := (n, [n ++ "/%Y/", n ++ "_%Y%m." ++ "pickle"])

/-- Patterns of files for days. -/
def daily (n ext : String) : String × List String := (n, [n ++ "/%Y/", n ++ "_%Y%m%d." ++ ext])

/-- Pattern of one file. -/
def once (n : String) : String × List String := (n, [n ++ "/", n ++ "." ++ "pickle"])

theorem onlyIf_pos {p : Prop} [Decidable p] (h : p) (f : Json → Except PyErr Json) (j : Json) : onlyIf p f j = f j := if_pos h

theorem onlyIf_neg {p : Prop} [Decidable p] (h : ¬ p) (f : Json → Except PyErr Json) (j : Json) : onlyIf p f j = .ok j := if_neg h

/-! Evaluation of assignments without `match`. -/

/-- What is done with an item, if there is one. -/
def withItem (e : PyErr) (x : Option Json) (f : Json → Except PyErr Json) : Except PyErr Json := match x with
  | none => .error e
  | some j => f j

/-- The value put into its place. -/
def mapOk (x : Except PyErr Json) (f : Json → Json) : Except PyErr Json := match x with
  | .error e => .error e
  | .ok j => .ok (f j)

theorem withItem_some (e : PyErr) (j : Json) (f : Json → Except PyErr Json) : withItem e (some j) f = f j := rfl
theorem mapOk_ok (j : Json) (f : Json → Json) : mapOk (.ok j) f = .ok (f j) := rfl
theorem andThen_ok (j : Json) (f : Json → Except PyErr Json) : andThen (.ok j) f = f j := rfl

theorem update_nil (f : Json → Except PyErr Json) (j : Json) : Json.update f [] j = f j := by
  simp [Json.update]

theorem update_key (f : Json → Except PyErr Json) (k : String) (p : List Index) (d : List (String × Json)) :
    Json.update f (.key k :: p) (.dict d) = withItem .keyError (lookup k d) fun j => mapOk (Json.update f p j) fun j' =>
      .dict (assign k j' d) := by
  rw [Json.update]
  cases lookup k d with
  | none => rfl
  | some j => rw [withItem_some]; dsimp only; cases Json.update f p j <;> rfl

theorem update_at (f : Json → Except PyErr Json) (n : ℕ) (p : List Index) (l : List Json) :
    Json.update f (.at n :: p) (.list l) = withItem .indexError l[n]? fun j => mapOk (Json.update f p j) fun j' =>
      .list (l.set n j') := by
  rw [Json.update]
  cases l[n]? with
  | none => rfl
  | some j => rw [withItem_some]; dsimp only; cases Json.update f p j <;> rfl

theorem get_nil (j : Json) : Json.get [] j = .ok j := by simp [Json.get]

theorem get_key (k : String) (p : List Index) (d : List (String × Json)) :
    Json.get (.key k :: p) (.dict d) = withItem .keyError (lookup k d) (Json.get p) := by
  rw [Json.get]; cases lookup k d <;> rfl

theorem get_at (n : ℕ) (p : List Index) (l : List Json) :
    Json.get (.at n :: p) (.list l) = withItem .indexError l[n]? (Json.get p) := by
  rw [Json.get]; cases l[n]? <;> rfl

theorem putAll_nil (j : Json) : Json.putAll [] j = .ok j := rfl

theorem putAll_cons (p : List Index) (k : String) (v : Json) (l : List (List Index × String × Json)) (j : Json) :
    Json.putAll ((p, k, v) :: l) j = andThen (Json.update (Json.put k v) p j) (Json.putAll l) := by
  rw [Json.putAll]; cases Json.update (Json.put k v) p j <;> rfl

theorem put_dict (k : String) (v : Json) (d : List (String × Json)) : Json.put k v (.dict d) = .ok (.dict (assign k v d)) := rfl

theorem del_dict (k : String) (d : List (String × Json)) : Json.del k (.dict d) = .ok (.dict (remove k d)) := rfl

theorem append_list (v : Json) (l : List Json) : Json.append v (.list l) = .ok (.list (l ++ [v])) := rfl

theorem remove_nil (j : Json) : removeArguments [] j = .ok j := rfl

theorem remove_cons (k : String) (l : List String) (j : Json) :
    removeArguments (k :: l) j = andThen (Json.update (Json.del k) [.key "runmodule"] j) (removeArguments l) := by
  rw [removeArguments]; cases Json.update (Json.del k) [.key "runmodule"] j <;> rfl

theorem append_eq (dataset fileFormat nameFormat : String) (j : Json) :
    appendDataset dataset fileFormat nameFormat j = andThen (Json.get [.key "newdatasets", .at 0] j) fun first =>
      andThen (returnOutputPatterns dataset fileFormat nameFormat) fun patterns =>
      andThen (Json.putAll [([], "name", .str dataset), ([.key "subsets", .at 0, .key "layout"], "patterns", patterns)] first) fun new =>
      Json.update (Json.append new) [.key "newdatasets"] j := by
  unfold appendDataset
  cases Json.get [.key "newdatasets", .at 0] j with
  | error e => rfl
  | ok first =>
    cases returnOutputPatterns dataset fileFormat nameFormat with
    | error e => rfl
    | ok patterns =>
      simp only [andThen_ok]
      cases Json.putAll [([], "name", .str dataset), ([.key "subsets", .at 0, .key "layout"], "patterns", patterns)] first <;> rfl

theorem sample_eq (component : ℤ) (dataset fileFormat nameFormat mode : String) (j : Json) :
    addSampleInformation component dataset fileFormat nameFormat mode j =
      andThen (Json.putAll (sampleTarget "sample" mode (nameAt storageList component) dataset ++
        [([.key "runmodule"], "compute_sample", .int 1), ([.key "runmodule"], "sample_size", .int stateSampleSize)]) j)
        (appendDataset dataset fileFormat nameFormat) := by
  unfold addSampleInformation andThen
  rfl

/-- The decision whether a data set has to be added. -/
def unlessNamed (dataset fileFormat nameFormat : String) (j : Json) : Json → Except PyErr Json
  | .list l => match anyNamed dataset l with
    | .error e => .error e
    | .ok b => if b then .ok j else appendDataset dataset fileFormat nameFormat j
  | _ => .error .typeError

theorem datasetNamed_eq (n s : String) (v : Json) (d : List (String × Json)) :
    datasetNamed n (.dict (("python_class", v) :: ("name", .str s) :: d)) = .ok (decide (s = n)) := by
  have h : Json.get [.key "name"] (.dict (("python_class", v) :: ("name", .str s) :: d)) = .ok (.str s) := by
    simp [Json.get, lookup]
  simp only [datasetNamed, h]

theorem named_yes (n fileFormat nameFormat : String) (j v : Json) (d : List (String × Json)) :
    unlessNamed n fileFormat nameFormat j (.list [.dict (("python_class", v) :: ("name", .str n) :: d)]) = .ok j := by
  simp [unlessNamed, anyNamed, datasetNamed_eq]

theorem named_no {n s s' : String} (h : s ≠ n) (h' : s' ≠ n) (fileFormat nameFormat : String) (j v v' : Json) (d d' : List (String × Json)) :
    unlessNamed n fileFormat nameFormat j
      (.list [.dict (("python_class", v) :: ("name", .str s) :: d), .dict (("python_class", v') :: ("name", .str s') :: d')]) =
      appendDataset n fileFormat nameFormat j := by
  simp [unlessNamed, anyNamed, datasetNamed_eq, h, h']

theorem prior_eq (component : ℤ) (dataset fileFormat nameFormat mode : String) (j : Json) :
    addPriorSampleInformation component dataset fileFormat nameFormat mode j =
      andThen (Json.putAll (sampleTarget "prior_sample" mode (nameAt storageList component) dataset ++
        [([.key "runmodule"], "compute_prior_sample", .int 1), ([.key "runmodule"], "sample_size", .int stateSampleSize)]) j) fun j =>
        andThen (Json.get [.key "newdatasets"] j) (unlessNamed dataset fileFormat nameFormat j) := by
  unfold addPriorSampleInformation
  cases Json.putAll (sampleTarget "prior_sample" mode (nameAt storageList component) dataset ++
        [([.key "runmodule"], "compute_prior_sample", .int 1), ([.key "runmodule"], "sample_size", .int stateSampleSize)]) j with
  | error e => rfl
  | ok j =>
    simp only [andThen_ok]
    cases Json.get [.key "newdatasets"] j with
    | error e => rfl
    | ok x => cases x <;> rfl

theorem primary_eq (c : Config) (command dataset fileFormat nameFormat : String) (j : Json) :
    fillPrimaryKeys c command dataset fileFormat nameFormat j = andThen (returnOutputPatterns dataset fileFormat nameFormat) fun patterns =>
      Json.putAll (primaryPuts c command ++
      [([.key "newdatasets", .at 0], "name", .str dataset),
       ([.key "newdatasets", .at 0, .key "subsets", .at 0, .key "layout"], "patterns", patterns)]) j := by
  unfold fillPrimaryKeys andThen
  rfl

theorem lookup_same (k : String) (v : Json) (d : List (String × Json)) : lookup k ((k, v) :: d) = some v := if_pos rfl
theorem lookup_other {k k' : String} (h : k' ≠ k) (v : Json) (d : List (String × Json)) : lookup k ((k', v) :: d) = lookup k d := if_neg h
theorem assign_nil (k : String) (v : Json) : assign k v [] = [(k, v)] := by rw [assign]
theorem assign_same (k : String) (v v' : Json) (d : List (String × Json)) : assign k v ((k, v') :: d) = (k, v) :: d := if_pos rfl
theorem assign_other {k k' : String} (h : k' ≠ k) (v v' : Json) (d : List (String × Json)) :
    assign k v ((k', v') :: d) = (k', v') :: assign k v d := if_neg h
theorem removal_nil (k : String) : remove k [] = [] := by rw [remove]
theorem removal_same (k : String) (v : Json) (d : List (String × Json)) : remove k ((k, v) :: d) = d := if_pos rfl
theorem removal_other {k k' : String} (h : k' ≠ k) (v : Json) (d : List (String × Json)) :
    remove k ((k', v) :: d) = (k', v) :: remove k d := if_neg h

open Lean.Parser.Tactic in
/-- Evaluation of assignments. -/
macro "evaluate" "[" l:simpLemma,* "]" : tactic => `(tactic| simp only [fillBatchMeasurement, fillPosteriorSolution, fillPriorSolution,
    fillSingleOperationSpace, fillBatchOutputGridding, primary_eq, returnOutputPatterns, batchTemplate, operationTemplate, andThen_ok,
    primaryPuts, putAll_nil, putAll_cons, update_nil, update_key, update_at, get_nil, get_key, get_at, put_dict, append_list, del_dict,
    withItem_some, mapOk_ok, removal_nil, removal_same, removal_other, remove_nil, remove_cons, solvePuts, solveFiles, sample_eq, prior_eq, named_yes, append_eq, sampleTarget, lookup_same, lookup_other,
    assign_nil, assign_same, assign_other, ne_eq, not_false_eq_true, reduceIte, String.reduceEq, String.reduceAppend, List.cons_append, List.nil_append, or_false, or_true, false_or, true_or,
    List.getElem?_cons_zero, List.set_cons_zero, storage0, storage1, storage2, solution0, solution1, solution2, Except.ok.injEq,
    exists_eq_left', $l,*])

/-- The remaining facts, by the kinds of values of options. -/
macro "conclude" c:term "in" f:ident : tactic => `(tactic| (
  dsimp only [$f:ident]
  generalize ($c).landBiases = l
  generalize ($c).globalBiases = g
  cases l <;> cases g <;> rfl))

/-- What is said about the operation of `measurement0_zero`. -/
def measurement0_zeroFacts (c : Config) (command name : String) : Facts := {
      command := some (numbered command 0), function := some (fullName "process_inputs_batch"), component := some 0, step := some "eustace.analysis.advanced_standard.examples.step.StepMonthly"
      times := (some c.start, some c.stop), arguments := inputArgs "time_indices"
      sample := some 0, prior := some 0, size := some 0, uncertainties := some 0, land := some c.landBiases.json, global := some c.globalBiases.json
      reads := sourceNames
      writes := [numbered name 0]
      creates := some [numbered name 0]
      patterns := some [monthly (numbered name 0)]
      climatology := { cls := some spaceTimeBatched, arguments := ["keep_in_memory", "measurementfilename_write"], measurementWritten := some (numbered name 0) }
      largeScale := { cls := some spaceTimeBatched, arguments := ["keep_in_memory"] }
      localScale := { cls := some spatialIndexed, arguments := [] } }

theorem measurement0_zero (c : Config) (command name : String) :
    ∃ j, fillBatchMeasurement c batchTemplate 0 0 command name = .ok j ∧ facts j = measurement0_zeroFacts c command name := by
  evaluate [batchPuts_zero0]
  conclude c in measurement0_zeroFacts

/-- What is said about the operation of `measurement0_pos`. -/
def measurement0_posFacts (c : Config) (i : ℤ) (command name : String) : Facts := {
      command := some (numbered command i), function := some (fullName "process_inputs_batch"), component := some 0, step := some "eustace.analysis.advanced_standard.examples.step.StepMonthly"
      times := (some c.start, some c.stop), arguments := inputArgs "time_indices"
      sample := some 0, prior := some 0, size := some 0, uncertainties := some 0, land := some c.landBiases.json, global := some c.globalBiases.json
      reads := [numbered c.solutionClimatologyName (i - 1), numbered c.solutionLargeScaleName (i - 1), numbered c.solutionLocalScaleName (i - 1)] ++ sourceNames
      writes := [numbered name i]
      creates := some [numbered name i]
      patterns := some [monthly (numbered name i)]
      climatology := { cls := some spaceTimeBatched, arguments := ["keep_in_memory", "statefilename_read", "measurementfilename_write"], stateRead := some (numbered c.solutionClimatologyName (i - 1)), measurementWritten := some (numbered name i) }
      largeScale := { cls := some spaceTimeBatched, arguments := ["keep_in_memory", "statefilename_read"], stateRead := some (numbered c.solutionLargeScaleName (i - 1)) }
      localScale := { cls := some spatialIndexed, arguments := ["statefilelist_read", "time_list"], stateRead := some (numbered c.solutionLocalScaleName (i - 1)) } }

theorem measurement0_pos (c : Config) {i : ℤ} (hi : 0 < i) (command name : String) :
    ∃ j, fillBatchMeasurement c batchTemplate i 0 command name = .ok j ∧ facts j = measurement0_posFacts c i command name := by
  evaluate [batchPuts_pos0 c hi]
  conclude c in measurement0_posFacts

/-- What is said about the operation of `measurement1_zero`. -/
def measurement1_zeroFacts (c : Config) (command name : String) : Facts := {
      command := some (numbered command 0), function := some (fullName "process_inputs_batch"), component := some 1, step := some "eustace.analysis.advanced_standard.examples.step.StepMonthly"
      times := (some c.start, some c.stop), arguments := inputArgs "time_indices"
      sample := some 0, prior := some 0, size := some 0, uncertainties := some 0, land := some c.landBiases.json, global := some c.globalBiases.json
      reads := [numbered c.solutionClimatologyName 0] ++ sourceNames
      writes := [numbered name 0]
      creates := some [numbered name 0]
      patterns := some [monthly (numbered name 0)]
      climatology := { cls := some spaceTimeBatched, arguments := ["keep_in_memory", "statefilename_read"], stateRead := some (numbered c.solutionClimatologyName 0) }
      largeScale := { cls := some spaceTimeBatched, arguments := ["keep_in_memory", "measurementfilename_write"], measurementWritten := some (numbered name 0) }
      localScale := { cls := some spatialIndexed, arguments := [] } }

theorem measurement1_zero (c : Config) (command name : String) :
    ∃ j, fillBatchMeasurement c batchTemplate 0 1 command name = .ok j ∧ facts j = measurement1_zeroFacts c command name := by
  evaluate [batchPuts_zero1]
  conclude c in measurement1_zeroFacts

/-- What is said about the operation of `measurement1_pos`. -/
def measurement1_posFacts (c : Config) (i : ℤ) (command name : String) : Facts := {
      command := some (numbered command i), function := some (fullName "process_inputs_batch"), component := some 1, step := some "eustace.analysis.advanced_standard.examples.step.StepMonthly"
      times := (some c.start, some c.stop), arguments := inputArgs "time_indices"
      sample := some 0, prior := some 0, size := some 0, uncertainties := some 0, land := some c.landBiases.json, global := some c.globalBiases.json
      reads := [numbered c.solutionClimatologyName i, numbered c.solutionLargeScaleName (i - 1), numbered c.solutionLocalScaleName (i - 1)] ++ sourceNames
      writes := [numbered name i]
      creates := some [numbered name i]
      patterns := some [monthly (numbered name i)]
      climatology := { cls := some spaceTimeBatched, arguments := ["keep_in_memory", "statefilename_read"], stateRead := some (numbered c.solutionClimatologyName i) }
      largeScale := { cls := some spaceTimeBatched, arguments := ["keep_in_memory", "statefilename_read", "measurementfilename_write"], stateRead := some (numbered c.solutionLargeScaleName (i - 1)), measurementWritten := some (numbered name i) }
      localScale := { cls := some spatialIndexed, arguments := ["statefilelist_read", "time_list"], stateRead := some (numbered c.solutionLocalScaleName (i - 1)) } }

theorem measurement1_pos (c : Config) {i : ℤ} (hi : 0 < i) (command name : String) :
    ∃ j, fillBatchMeasurement c batchTemplate i 1 command name = .ok j ∧ facts j = measurement1_posFacts c i command name := by
  evaluate [batchPuts_pos1 c hi]
  conclude c in measurement1_posFacts

/-- What is said about the operation of `solution0_plain`. -/
def solution0_plainFacts (c : Config) (i : ℤ) (command solution measurement : String) : Facts := {
      command := some (numbered command i), function := some (fullName "solve"), component := some 0, step := some "eumopps.catalogue.step.StepOnce"
      times := (none, none), arguments := storageArgs ++ ["component_index"] ++ commonArguments
      sample := some 0, prior := some 0, size := some 0, uncertainties := some 0, land := some c.landBiases.json, global := some c.globalBiases.json
      reads := [numbered measurement i]
      writes := [numbered solution i]
      creates := some [numbered solution i]
      patterns := some [once (numbered solution i)]
      climatology := { cls := some spaceTimeFiles, arguments := ["measurementfilelist_read", "statefilename_write"], stateWritten := some (numbered solution i), measurementRead := some (numbered measurement i) }
      largeScale := { cls := some spaceTimeFiles, arguments := [] }
      localScale := { cls := some spatialFiles, arguments := [] } }

theorem solution0_plain (c : Config) {i : ℤ} (hg : ¬ c.gridNow i) (command solution measurement : String) :
    ∃ j, fillPosteriorSolution c operationTemplate i 0 command solution measurement = .ok j ∧ facts j = solution0_plainFacts c i command solution measurement := by
  evaluate [onlyIf_neg hg]
  conclude c in solution0_plainFacts

/-- What is said about the operation of `solution0_grid`. -/
def solution0_gridFacts (c : Config) (i : ℤ) (command solution measurement : String) : Facts := {
      command := some (numbered command i), function := some (fullName "solve"), component := some 0, step := some "eumopps.catalogue.step.StepOnce"
      times := (none, none), arguments := storageArgs ++ ["component_index"] ++ commonArguments
      sample := some 1, prior := some 0, size := some 30, uncertainties := some 0, land := some c.landBiases.json, global := some c.globalBiases.json
      reads := [numbered measurement i]
      writes := [numberedSample solution i, numbered solution i]
      creates := some [numbered solution i, numberedSample solution i]
      patterns := some [once (numbered solution i), once (numberedSample solution i)]
      climatology := { cls := some spaceTimeFiles, arguments := ["sample_filename_write", "measurementfilelist_read", "statefilename_write"], stateWritten := some (numbered solution i), measurementRead := some (numbered measurement i), sampleWritten := some (numberedSample solution i) }
      largeScale := { cls := some spaceTimeFiles, arguments := [] }
      localScale := { cls := some spatialFiles, arguments := [] } }

theorem solution0_grid (c : Config) {i : ℤ} (hg : c.gridNow i) (command solution measurement : String) :
    ∃ j, fillPosteriorSolution c operationTemplate i 0 command solution measurement = .ok j ∧ facts j = solution0_gridFacts c i command solution measurement := by
  evaluate [onlyIf_pos hg]
  conclude c in solution0_gridFacts

/-- What is said about the operation of `solution1_plain`. -/
def solution1_plainFacts (c : Config) (i : ℤ) (command solution measurement : String) : Facts := {
      command := some (numbered command i), function := some (fullName "solve"), component := some 1, step := some "eumopps.catalogue.step.StepOnce"
      times := (none, none), arguments := storageArgs ++ ["component_index"] ++ commonArguments
      sample := some 0, prior := some 0, size := some 0, uncertainties := some 0, land := some c.landBiases.json, global := some c.globalBiases.json
      reads := [numbered measurement i]
      writes := [numbered solution i]
      creates := some [numbered solution i]
      patterns := some [once (numbered solution i)]
      climatology := { cls := some spaceTimeFiles, arguments := [] }
      largeScale := { cls := some spaceTimeFiles, arguments := ["measurementfilelist_read", "statefilename_write"], stateWritten := some (numbered solution i), measurementRead := some (numbered measurement i) }
      localScale := { cls := some spatialFiles, arguments := [] } }

theorem solution1_plain (c : Config) {i : ℤ} (hg : ¬ c.gridNow i) (command solution measurement : String) :
    ∃ j, fillPosteriorSolution c operationTemplate i 1 command solution measurement = .ok j ∧ facts j = solution1_plainFacts c i command solution measurement := by
  evaluate [onlyIf_neg hg]
  conclude c in solution1_plainFacts

/-- What is said about the operation of `solution1_grid`. -/
def solution1_gridFacts (c : Config) (i : ℤ) (command solution measurement : String) : Facts := {
      command := some (numbered command i), function := some (fullName "solve"), component := some 1, step := some "eumopps.catalogue.step.StepOnce"
      times := (none, none), arguments := storageArgs ++ ["component_index"] ++ commonArguments
      sample := some 1, prior := some 0, size := some 30, uncertainties := some 0, land := some c.landBiases.json, global := some c.globalBiases.json
      reads := [numbered measurement i]
      writes := [numberedSample solution i, numbered solution i]
      creates := some [numbered solution i, numberedSample solution i]
      patterns := some [once (numbered solution i), once (numberedSample solution i)]
      climatology := { cls := some spaceTimeFiles, arguments := [] }
      largeScale := { cls := some spaceTimeFiles, arguments := ["sample_filename_write", "measurementfilelist_read", "statefilename_write"], stateWritten := some (numbered solution i), measurementRead := some (numbered measurement i), sampleWritten := some (numberedSample solution i) }
      localScale := { cls := some spatialFiles, arguments := [] } }

theorem solution1_grid (c : Config) {i : ℤ} (hg : c.gridNow i) (command solution measurement : String) :
    ∃ j, fillPosteriorSolution c operationTemplate i 1 command solution measurement = .ok j ∧ facts j = solution1_gridFacts c i command solution measurement := by
  evaluate [onlyIf_pos hg]
  conclude c in solution1_gridFacts

/-- What is said about the operation of `prior0`. -/
def prior0Facts (c : Config) (i : ℤ) (command solution : String) : Facts := {
      command := some (numberedPrior command i), function := some (fullName "solve"), component := some 0, step := some "eumopps.catalogue.step.StepOnce"
      times := (none, none), arguments := storageArgs ++ ["component_index"] ++ commonArguments
      sample := some 0, prior := some 1, size := some 30, uncertainties := some 0, land := some c.landBiases.json, global := some c.globalBiases.json
      reads := []
      writes := [numberedPrior solution i]
      creates := some [numberedPrior solution i]
      patterns := some [once (numberedPrior solution i)]
      climatology := { cls := some spaceTimeFiles, arguments := ["prior_sample_filename_write"], priorWritten := some (numberedPrior solution i) }
      largeScale := { cls := some spaceTimeFiles, arguments := [] }
      localScale := { cls := some spatialFiles, arguments := [] } }

theorem prior0 (c : Config) {i : ℤ} (hg : c.gridNow i) (command solution : String) :
    ∃ j, fillPriorSolution c operationTemplate i 0 command solution = .ok j ∧ facts j = prior0Facts c i command solution := by
  evaluate [onlyIf_pos hg]
  conclude c in prior0Facts

/-- What is said about the operation of `prior1`. -/
def prior1Facts (c : Config) (i : ℤ) (command solution : String) : Facts := {
      command := some (numberedPrior command i), function := some (fullName "solve"), component := some 1, step := some "eumopps.catalogue.step.StepOnce"
      times := (none, none), arguments := storageArgs ++ ["component_index"] ++ commonArguments
      sample := some 0, prior := some 1, size := some 30, uncertainties := some 0, land := some c.landBiases.json, global := some c.globalBiases.json
      reads := []
      writes := [numberedPrior solution i]
      creates := some [numberedPrior solution i]
      patterns := some [once (numberedPrior solution i)]
      climatology := { cls := some spaceTimeFiles, arguments := [] }
      largeScale := { cls := some spaceTimeFiles, arguments := ["prior_sample_filename_write"], priorWritten := some (numberedPrior solution i) }
      localScale := { cls := some spatialFiles, arguments := [] } }

theorem prior1 (c : Config) {i : ℤ} (hg : c.gridNow i) (command solution : String) :
    ∃ j, fillPriorSolution c operationTemplate i 1 command solution = .ok j ∧ facts j = prior1Facts c i command solution := by
  evaluate [onlyIf_pos hg]
  conclude c in prior1Facts

/-- What is said about the operation of `local_plain`. -/
def local_plainFacts (c : Config) (i : ℤ) : Facts := {
      command := some (numbered c.localScaleCommand i), function := some (fullName "process_inputs"), component := some 2, step := some "eumopps.catalogue.step.StepDaily"
      times := (some c.start, some c.stop), arguments := inputArgs "time_index"
      sample := some 0, prior := some 0, size := some 0, uncertainties := some 0, land := some c.landBiases.json, global := some c.globalBiases.json
      reads := [numbered c.solutionClimatologyName i, numbered c.solutionLargeScaleName i] ++ sourceNames
      writes := [numbered c.solutionLocalScaleName i]
      creates := some [numbered c.solutionLocalScaleName i]
      patterns := some [daily (numbered c.solutionLocalScaleName i) "pickle"]
      climatology := { cls := some spaceTimeFiles, arguments := ["statefilename_read"], stateRead := some (numbered c.solutionClimatologyName i) }
      largeScale := { cls := some spaceTimeFiles, arguments := ["statefilename_read"], stateRead := some (numbered c.solutionLargeScaleName i) }
      localScale := { cls := some spatialFiles, arguments := ["time_index", "statefilename_write"], stateWritten := some (numbered c.solutionLocalScaleName i) } }

theorem local_plain (c : Config) {i : ℤ} (hi : 0 ≤ i) (hg : ¬ c.gridNow i) :
    ∃ j, fillSingleOperationSpace c operationTemplate i 2 = .ok j ∧ facts j = local_plainFacts c i := by
  evaluate [secondaryPuts2 c hi, onlyIf_neg hg]
  conclude c in local_plainFacts

/-- What is said about the operation of `local_grid`. -/
def local_gridFacts (c : Config) (i : ℤ) : Facts := {
      command := some (numbered c.localScaleCommand i), function := some (fullName "process_inputs"), component := some 2, step := some "eumopps.catalogue.step.StepDaily"
      times := (some c.start, some c.stop), arguments := inputArgs "time_index"
      sample := some 1, prior := some 1, size := some 30, uncertainties := some 0, land := some c.landBiases.json, global := some c.globalBiases.json
      reads := [numbered c.solutionClimatologyName i, numbered c.solutionLargeScaleName i] ++ sourceNames
      writes := [numberedSample c.solutionLocalScaleName i, numberedPrior c.solutionLocalScaleName i, numbered c.solutionLocalScaleName i]
      creates := some [numbered c.solutionLocalScaleName i, numberedSample c.solutionLocalScaleName i, numberedPrior c.solutionLocalScaleName i]
      patterns := some [daily (numbered c.solutionLocalScaleName i) "pickle", daily (numberedSample c.solutionLocalScaleName i) "pickle", daily (numberedPrior c.solutionLocalScaleName i) "pickle"]
      climatology := { cls := some spaceTimeFiles, arguments := ["statefilename_read"], stateRead := some (numbered c.solutionClimatologyName i) }
      largeScale := { cls := some spaceTimeFiles, arguments := ["statefilename_read"], stateRead := some (numbered c.solutionLargeScaleName i) }
      localScale := { cls := some spatialFiles, arguments := ["sample_filename_write", "prior_sample_filename_write", "time_index", "statefilename_write"], stateWritten := some (numbered c.solutionLocalScaleName i), sampleWritten := some (numberedSample c.solutionLocalScaleName i), priorWritten := some (numberedPrior c.solutionLocalScaleName i) } }

theorem local_grid (c : Config) {i : ℤ} (hi : 0 ≤ i) (hg : c.gridNow i) :
    ∃ j, fillSingleOperationSpace c operationTemplate i 2 = .ok j ∧ facts j = local_gridFacts c i := by
  evaluate [named_no (numbered_ne_prior c.solutionLocalScaleName i) (sample_ne_prior c.solutionLocalScaleName i), secondaryPuts2 c hi, onlyIf_pos hg]
  conclude c in local_gridFacts

/-- What is said about the operation of `grid`. -/
def gridFacts (c : Config) (i : ℤ) : Facts := {
      command := some (numbered c.outputGridCommand i), function := some (fullName "output_grid_batch"), component := none, step := some "eustace.analysis.advanced_standard.examples.step.StepMonthly"
      times := (some c.start, some c.stop), arguments := storageArgs ++ ["time_indices"] ++ commonArguments ++ ["outputfiles", "climatologyfiles", "largescalefiles", "localfiles"]
      sample := some 0, prior := some 0, size := some 10, uncertainties := some 0, land := some c.landBiases.json, global := some c.globalBiases.json
      reads := [numbered c.solutionClimatologyName i, numberedSample c.solutionClimatologyName i, numberedPrior c.solutionClimatologyName i, numbered c.solutionLargeScaleName i, numberedSample c.solutionLargeScaleName i, numberedPrior c.solutionLargeScaleName i, numbered c.solutionLocalScaleName i, numberedSample c.solutionLocalScaleName i, numberedPrior c.solutionLocalScaleName i]
      writes := [numbered c.outputGridName i, numbered c.outputClimatologyName i, numbered c.outputLargeScaleName i, numbered c.outputLocalName i]
      creates := some [numbered c.outputGridName i, numbered c.outputClimatologyName i, numbered c.outputLargeScaleName i, numbered c.outputLocalName i]
      patterns := some [daily (numbered c.outputGridName i) "nc", daily (numbered c.outputClimatologyName i) "nc", daily (numbered c.outputLargeScaleName i) "nc", daily (numbered c.outputLocalName i) "nc"]
      climatology := { cls := some spaceTimeBatched, arguments := ["keep_in_memory", "statefilename_read", "sample_filename_read", "prior_sample_filename_read"], stateRead := some (numbered c.solutionClimatologyName i), sampleRead := some (numberedSample c.solutionClimatologyName i), priorRead := some (numberedPrior c.solutionClimatologyName i) }
      largeScale := { cls := some spaceTimeBatched, arguments := ["keep_in_memory", "statefilename_read", "sample_filename_read", "prior_sample_filename_read"], stateRead := some (numbered c.solutionLargeScaleName i), sampleRead := some (numberedSample c.solutionLargeScaleName i), priorRead := some (numberedPrior c.solutionLargeScaleName i) }
      localScale := { cls := some spatialIndexed, arguments := ["statefilelist_read", "sample_filelist_read", "prior_sample_filelist_read", "time_list"], stateRead := some (numbered c.solutionLocalScaleName i), sampleRead := some (numberedSample c.solutionLocalScaleName i), priorRead := some (numberedPrior c.solutionLocalScaleName i) }
      complete := .error .valueError }

theorem grid (c : Config) (i : ℤ) (h0 : c.solutionClimatologyName ≠ c.solutionLocalScaleName)
    (h1 : c.solutionLargeScaleName ≠ c.solutionLocalScaleName) :
    ∃ j, fillBatchOutputGridding c batchTemplate i = .ok j ∧ facts j = gridFacts c i := by
  evaluate [gridPuts_eq c i h0 h1]
  conclude c in gridFacts

end Verif.Eustace.Descriptor
