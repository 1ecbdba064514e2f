import Verif.Eustace.Descriptor.Templates

/-!
Model of the generator of operation descriptors, `FullstaceJsonFiller` in
`/repo/src/eustace/analysis/advanced_standard/examples/jsonfiller.py`, and of the arguments which
`/repo/src/eustace/analysis/advanced_standard/examples/generate_json_descriptors.py` gives to it.

Simplified: templates are values instead of files; printing is left out; the descriptor is the value given to `json.dump`.
Component indices are 0, 1 and 2, as in all calls.
-/

namespace Verif.Eustace.Descriptor

open Verif

/-- Value of an option of a command line: a number as default or after conversion, or the text given. -/
inductive OptionValue where
  | number (n : ℤ)
  | given (s : String)
  deriving DecidableEq, Repr

/-- The value as it is put into the descriptor. -/
def OptionValue.json : OptionValue → Json
  | .number n => .int n
  | .given s => .str s

/-- The arguments of `FullstaceJsonFiller.__init__` (jsonfiller.py 26-68) except for paths and templates. -/
structure Config where
  first : ℤ
  last : ℤ
  gridLast : ℤ
  startDate : String
  endDate : String
  landBiases : OptionValue
  globalBiases : OptionValue
  measurementClimatologyCommand : String
  measurementClimatologyName : String
  solutionClimatologyCommand : String
  solutionClimatologyName : String
  measurementLargeScaleCommand : String
  measurementLargeScaleName : String
  solutionLargeScaleCommand : String
  solutionLargeScaleName : String
  localScaleCommand : String
  solutionLocalScaleName : String
  outputGridCommand : String
  outputGridName : String
  outputClimatologyName : String
  outputLargeScaleName : String
  outputLocalName : String

/-- `self.start_date` (jsonfiller.py 47). -/
def Config.start (c : Config) : String := c.startDate ++ "000000"

/-- `self.end_date` (jsonfiller.py 48). -/
def Config.stop (c : Config) : String := c.endDate ++ "000000"

/-- `self.n_iterations` (jsonfiller.py 40). -/
def Config.iterations (c : Config) : ℤ := c.last - c.first + 1

/-- `(iteration_index==self.last_iteration) and self.grid_last_iteration` (jsonfiller.py 164, 172, 181, 204,
243, 273, 299, 331). -/
def Config.gridNow (c : Config) (i : ℤ) : Prop := i = c.last ∧ c.gridLast ≠ 0

instance (c : Config) (i : ℤ) : Decidable (c.gridNow i) := inferInstanceAs (Decidable (_ ∧ _))

/-- `STORAGE_LIST` (jsonfiller.py 15). -/
def storageList : List String := ["storage_climatology", "storage_large_scale", "storage_local"]

/-- `INPUTSOURCE_LIST` (jsonfiller.py 20). -/
def inputsourceList : List String :=
  ["insitu_land", "insitu_ocean", "surfaceairmodel_land", "surfaceairmodel_ocean", "surfaceairmodel_ice"]

/-- `STATE_SAMPLE_SIZE` (jsonfiller.py 23). -/
def stateSampleSize : ℤ := 30

/-- `OUTPUT_SAMPLE_SIZE` (jsonfiller.py 24), which is `GLOBAL_SAMPLE_SHAPE[3]` (outputformats/definitions.py 24). -/
def outputSampleSize : ℤ := 10

/-- `l[i]` for a list of names; a negative index counts from the end.  Simplified: the empty name if there is no such item, which does
not occur for component indices 0, 1 and 2. -/
def nameAt (l : List String) (i : ℤ) : String := l.getD (if i < 0 then i + l.length else i).toNat ""

/-- The local list `datasets` (jsonfiller.py 600, 625). -/
def Config.solutions (c : Config) : List String := [c.solutionClimatologyName, c.solutionLargeScaleName, c.solutionLocalScaleName]

/-- `name+'_'+str(iteration_index)`. -/
def numbered (name : String) (i : ℤ) : String := name ++ "_" ++ toString i

/-- `name+'_sample_'+str(iteration_index)`. -/
def numberedSample (name : String) (i : ℤ) : String := name ++ "_sample_" ++ toString i

/-- `name+'_prior_sample_'+str(iteration_index)`. -/
def numberedPrior (name : String) (i : ℤ) : String := name ++ "_prior_sample_" ++ toString i

/-- Dictionary with `python_class` only. -/
def placeholder (cls : String) : Json := .dict [("python_class", .str cls)]

/-- Dictionary with `python_class` and `datasetname`. -/
def dataPlaceholder (cls name : String) : Json := .dict [("python_class", .str cls), ("datasetname", .str name)]

/-- Dictionary with `python_class`, `datasetname` and `missing_data` (jsonfiller.py 442-453). -/
def optionalPlaceholder (cls name : String) : Json :=
  .dict [("python_class", .str cls), ("datasetname", .str name), ("missing_data", .str "allowed")]

/-- `eumopps.catalogue.placeholder.InputFile`. -/
def inputFile : String := "eumopps.catalogue.placeholder.InputFile"

/-- `eumopps.catalogue.placeholder.InputFileList`. -/
def inputFileList : String := "eumopps.catalogue.placeholder.InputFileList"

/-- `eumopps.catalogue.placeholder.OutputFile`. -/
def outputFile : String := "eumopps.catalogue.placeholder.OutputFile"

/-- `eustace.analysis.advanced_standard.examples.placeholder.AnnualBatchDays`. -/
def annualBatchDays : String := "eustace.analysis.advanced_standard.examples.placeholder.AnnualBatchDays"

/-- `eustace.analysis.advanced_standard.examples.placeholder.AnnualBatchDaysOutput`. -/
def annualBatchDaysOutput : String := "eustace.analysis.advanced_standard.examples.placeholder.AnnualBatchDaysOutput"

/-- `eustace.analysis.advanced_standard.examples.placeholder.AnalysisStepIndex`. -/
def analysisStepIndex : String := "eustace.analysis.advanced_standard.examples.placeholder.AnalysisStepIndex"

/-- `eustace.analysis.advanced_standard.examples.placeholder.AnalysisAnnualBatchDayIndices`. -/
def batchDayIndices : String := "eustace.analysis.advanced_standard.examples.placeholder.AnalysisAnnualBatchDayIndices"

/-- Functions of moving_climatology.py. -/
def movingClimatology (f : String) : String := "eustace.analysis.advanced_standard.examples.moving_climatology." ++ f

/-- The source is kept by `restrict_inputs` (jsonfiller.py 89). -/
def keptSource (source : Json) : Except PyErr Bool :=
  match Json.get [.key "name"] source with
  | .error e => .error e
  | .ok (.str s) => .ok (decide (s ∈ inputsourceList))
  | .ok _ => .ok false

/-- The list `restricted_sources` (jsonfiller.py 89). -/
def restrictedSources : List Json → Except PyErr (List Json)
  | [] => .ok []
  | s :: l => match keptSource s with
    | .error e => .error e
    | .ok b => match restrictedSources l with
      | .error e => .error e
      | .ok r => .ok (if b then s :: r else r)

/-- `restrict_inputs` (jsonfiller.py 85-91).  Simplified: the input sources are a list. -/
def restrictInputs (operation : Json) : Except PyErr Json :=
  match Json.get [.key "runmodule"] operation with
  | .error e => .error e
  | .ok (.dict d) => match lookup "inputsources" d with
    | none => .ok operation
    | some (.list l) => match restrictedSources l with
      | .error e => .error e
      | .ok r => Json.putAll [([.key "runmodule"], "inputsources", .list r)] operation
    | some _ => .error .typeError
  | .ok _ => .error .typeError

/-- `return_output_patterns` (jsonfiller.py 654-666). -/
def returnOutputPatterns (name fileFormat nameFormat : String) : Except PyErr Json :=
  if nameFormat = "spacetime_solution" ∨ nameFormat = "spacetime_uncertainty" ∨ nameFormat = "spacetime_sample" then
    .ok (.list [.str (name ++ "/"), .str (name ++ "." ++ fileFormat)])
  else if nameFormat = "measurement" ∨ nameFormat = "space_solution" ∨ nameFormat = "space_uncertainty" ∨ nameFormat = "space_sample" then
    .ok (.list [.str (name ++ "/%Y/"), .str (name ++ "_%Y%m%d." ++ fileFormat)])
  else if nameFormat = "annual_measurement" then
    .ok (.list [.str (name ++ "/%Y/"), .str (name ++ "_%Y." ++ fileFormat)])
  else if nameFormat = "monthly_measurement" then
    .ok (.list [.str (name ++ "/%Y/"), .str (name ++ "_%Y%m." ++ fileFormat)])
  else if nameFormat = "region_optimization" then
    .ok (.list [.str (name ++ "/optimization/"), .str (name ++ "_%i.%i.%i." ++ fileFormat)])
  else .error .valueError

/-- Assignments of `fill_primary_keys` other than those to the data set (jsonfiller.py 573-583). -/
def primaryPuts (c : Config) (command : String) : List (List Index × String × Json) :=
  [([], "name", .str command),
   ([.key "runmodule"], "insitu_biases", c.landBiases.json),
   ([.key "runmodule"], "global_biases", c.globalBiases.json),
   ([.key "runmodule"], "compute_uncertainties", .int 0),
   ([.key "runmodule"], "method", .str "EXACT"),
   ([.key "runmodule"], "compute_sample", .int 0),
   ([.key "runmodule"], "sample_size", .int 0),
   ([.key "runmodule"], "compute_prior_sample", .int 0),
   ([.key "step"], "start", .str c.start),
   ([.key "step"], "end", .str c.stop)]

/-- `fill_primary_keys` (jsonfiller.py 566-588). -/
def fillPrimaryKeys (c : Config) (command dataset fileFormat nameFormat : String) (j : Json) : Except PyErr Json :=
  match returnOutputPatterns dataset fileFormat nameFormat with
  | .error e => .error e
  | .ok patterns => Json.putAll (primaryPuts c command ++
      [([.key "newdatasets", .at 0], "name", .str dataset),
       ([.key "newdatasets", .at 0, .key "subsets", .at 0, .key "layout"], "patterns", patterns)]) j

/-- Assignment for one `shifter` in `fill_secondary_keys` (jsonfiller.py 606-613). -/
def secondaryPut (c : Config) (iteration component shifter : ℤ) : List (List Index × String × Json) :=
  if 0 ≤ component - shifter ∧ 0 ≤ iteration then
    [([.key "runmodule", .key (nameAt storageList (component - shifter))], "statefilename_read",
      dataPlaceholder inputFile (numbered (nameAt c.solutions (component - shifter)) iteration))]
  else if component - shifter < 0 ∧ 0 < iteration then
    [([.key "runmodule", .key (nameAt storageList (component - shifter))], "statefilename_read",
      dataPlaceholder inputFile (numbered (nameAt c.solutions (component - shifter)) (iteration - 1)))]
  else []

/-- Assignments of `fill_secondary_keys` (jsonfiller.py 590-613). -/
def secondaryPuts (c : Config) (iteration component : ℤ) : List (List Index × String × Json) :=
  [([.key "runmodule"], "component_index", .int component)] ++
  (if component ≠ 2 then [([.key "runmodule", .key "storage_local"], "time_index", placeholder analysisStepIndex)] else []) ++
  secondaryPut c iteration component 1 ++ secondaryPut c iteration component 2

/-- The state which `fill_secondary_keys_batch` reads for one storage (jsonfiller.py 634-641, 643-650). -/
def batchStatePut (c : Config) (storage iteration : ℤ) : List (List Index × String × Json) :=
  if storage ≠ 2 then
    [([.key "runmodule", .key (nameAt storageList storage)], "statefilename_read",
      dataPlaceholder inputFile (numbered (nameAt c.solutions storage) iteration))]
  else
    [([.key "runmodule", .key (nameAt storageList storage)], "statefilelist_read",
      dataPlaceholder annualBatchDays (numbered (nameAt c.solutions storage) iteration)),
     ([.key "runmodule", .key (nameAt storageList storage)], "time_list", placeholder batchDayIndices)]

/-- Assignments for one storage in `fill_secondary_keys_batch` (jsonfiller.py 633-650). -/
def batchSecondaryPut (c : Config) (iteration component storage : ℤ) : List (List Index × String × Json) :=
  if storage < component ∧ 0 ≤ iteration then batchStatePut c storage iteration
  else if component ≤ storage ∧ 0 < iteration then batchStatePut c storage (iteration - 1)
  else []

/-- Assignments of `fill_secondary_keys_batch` (jsonfiller.py 615-650). -/
def batchSecondaryPuts (c : Config) (iteration component : ℤ) : List (List Index × String × Json) :=
  [([.key "runmodule"], "component_index", .int component)] ++
  batchSecondaryPut c iteration component 0 ++ batchSecondaryPut c iteration component 1 ++ batchSecondaryPut c iteration component 2

/-- A copy of the first new data set with another name and other patterns is appended: jsonfiller.py 459-463, 465-469, 471-475,
532-536, 554-558. -/
def appendDataset (dataset fileFormat nameFormat : String) (j : Json) : Except PyErr Json :=
  match Json.get [.key "newdatasets", .at 0] j with
  | .error e => .error e
  | .ok first => match returnOutputPatterns dataset fileFormat nameFormat with
    | .error e => .error e
    | .ok patterns =>
      match Json.putAll [([], "name", .str dataset), ([.key "subsets", .at 0, .key "layout"], "patterns", patterns)] first with
      | .error e => .error e
      | .ok new => Json.update (Json.append new) [.key "newdatasets"] j

/-- Where samples are written, by mode (jsonfiller.py 522-527, 542-547). -/
def sampleTarget (stem mode storage dataset : String) : List (List Index × String × Json) :=
  if mode = "single" then [([.key "runmodule", .key storage], stem ++ "_filename_write", dataPlaceholder outputFile dataset)]
  else if mode = "batch" then [([.key "runmodule", .key storage], stem ++ "_filelist_write", dataPlaceholder annualBatchDaysOutput dataset)]
  else []

/-- `add_sample_information` (jsonfiller.py 518-536). -/
def addSampleInformation (component : ℤ) (dataset fileFormat nameFormat mode : String) (j : Json) : Except PyErr Json :=
  match Json.putAll (sampleTarget "sample" mode (nameAt storageList component) dataset ++
      [([.key "runmodule"], "compute_sample", .int 1), ([.key "runmodule"], "sample_size", .int stateSampleSize)]) j with
  | .error e => .error e
  | .ok j => appendDataset dataset fileFormat nameFormat j

/-- `dataset['name'] == dataset_name` (jsonfiller.py 553). -/
def datasetNamed (name : String) (dataset : Json) : Except PyErr Bool :=
  match Json.get [.key "name"] dataset with
  | .error e => .error e
  | .ok (.str s) => .ok (decide (s = name))
  | .ok _ => .ok false

/-- `any([dataset['name'] == dataset_name for dataset in ...])` (jsonfiller.py 553). -/
def anyNamed (name : String) : List Json → Except PyErr Bool
  | [] => .ok false
  | d :: l => match datasetNamed name d with
    | .error e => .error e
    | .ok b => match anyNamed name l with
      | .error e => .error e
      | .ok b' => .ok (b || b')

/-- `add_prior_sample_information` (jsonfiller.py 538-558). -/
def addPriorSampleInformation (component : ℤ) (dataset fileFormat nameFormat mode : String) (j : Json) : Except PyErr Json :=
  match Json.putAll (sampleTarget "prior_sample" mode (nameAt storageList component) dataset ++
      [([.key "runmodule"], "compute_prior_sample", .int 1), ([.key "runmodule"], "sample_size", .int stateSampleSize)]) j with
  | .error e => .error e
  | .ok j => match Json.get [.key "newdatasets"] j with
    | .error e => .error e
    | .ok (.list l) => match anyNamed dataset l with
      | .error e => .error e
      | .ok b => if b then .ok j else appendDataset dataset fileFormat nameFormat j
    | .ok _ => .error .typeError

/-- Removal of arguments of `runmodule` which are not needed (jsonfiller.py 258-260, 285-287, 309-311, 478-480). -/
def removeArguments : List String → Json → Except PyErr Json
  | [], j => .ok j
  | k :: l, j => match Json.update (Json.del k) [.key "runmodule"] j with
    | .error e => .error e
    | .ok j => removeArguments l j

/-- One step after the other. -/
def andThen (x : Except PyErr Json) (f : Json → Except PyErr Json) : Except PyErr Json :=
  match x with
  | .error e => .error e
  | .ok j => f j

/-- A step which is done on a condition. -/
def onlyIf (p : Prop) [Decidable p] (f : Json → Except PyErr Json) (j : Json) : Except PyErr Json := if p then f j else .ok j

/-- `fill_single_operation_space` (jsonfiller.py 195-217). -/
def fillSingleOperationSpace (c : Config) (template : Json) (i component : ℤ) : Except PyErr Json :=
  andThen (andThen (andThen (andThen
    (fillPrimaryKeys c (numbered c.localScaleCommand i) (numbered c.solutionLocalScaleName i) "pickle" "space_solution" template)
    (Json.putAll (secondaryPuts c i component)))
    (onlyIf (c.gridNow i) (addSampleInformation component (numberedSample c.solutionLocalScaleName i) "pickle" "space_sample" "single")))
    (onlyIf (c.gridNow i)
      (addPriorSampleInformation component (numberedPrior c.solutionLocalScaleName i) "pickle" "space_sample" "single")))
    (Json.putAll
      [([.key "runmodule"], "python_function", .str (movingClimatology "process_inputs")),
       ([.key "runmodule", .key (nameAt storageList component)], "time_index", placeholder analysisStepIndex),
       ([.key "runmodule", .key (nameAt storageList component)], "statefilename_write",
          dataPlaceholder outputFile (numbered c.solutionLocalScaleName i))])

/-- `fill_single_measurement_operation_space_time` (jsonfiller.py 219-232). -/
def fillSingleMeasurement (c : Config) (template : Json) (i component : ℤ) (command name : String) : Except PyErr Json :=
  andThen (andThen (fillPrimaryKeys c (numbered command i) (numbered name i) "pickle" "measurement" template)
    (Json.putAll (secondaryPuts c i component)))
    (Json.putAll
      [([.key "runmodule"], "python_function", .str (movingClimatology "process_inputs")),
       ([.key "runmodule", .key (nameAt storageList component)], "measurement_time_index_write", placeholder analysisStepIndex),
       ([.key "runmodule", .key (nameAt storageList component)], "measurementfilename_write",
          dataPlaceholder outputFile (numbered name i))])

/-- Assignments which make an operation one to solve a component (jsonfiller.py 251-253, 278-280, 305-307). -/
def solvePuts (component : ℤ) : List (List Index × String × Json) :=
  [([.key "runmodule"], "component_index", .int component),
   ([], "step", placeholder "eumopps.catalogue.step.StepOnce"),
   ([.key "runmodule"], "python_function", .str (movingClimatology "solve"))]

/-- Assignments of the files read and written when solving (jsonfiller.py 254-257, 281-284). -/
def solveFiles (i component : ℤ) (solution measurement : String) : List (List Index × String × Json) :=
  [([.key "runmodule", .key (nameAt storageList component)], "measurementfilelist_read",
      dataPlaceholder inputFileList (numbered measurement i)),
   ([.key "runmodule", .key (nameAt storageList component)], "statefilename_write", dataPlaceholder outputFile (numbered solution i))]

/-- `fill_single_solution_operation_space_time` (jsonfiller.py 234-262). -/
def fillSingleSolution (c : Config) (template : Json) (i component : ℤ) (command solution measurement : String) : Except PyErr Json :=
  andThen (andThen (andThen (andThen
    (fillPrimaryKeys c (numbered command i) (numbered solution i) "pickle" "spacetime_solution" template)
    (onlyIf (c.gridNow i) (addSampleInformation component (numberedSample solution i) "pickle" "spacetime_sample" "single")))
    (onlyIf (c.gridNow i) (addPriorSampleInformation component (numberedPrior solution i) "pickle" "spacetime_sample" "single")))
    (Json.putAll (solvePuts component ++ solveFiles i component solution measurement)))
    (removeArguments ["inputsources", "time_index", "time_indices"])

/-- `fill_single_posterior_solution_operation_space_time` (jsonfiller.py 264-289). -/
def fillPosteriorSolution (c : Config) (template : Json) (i component : ℤ) (command solution measurement : String) : Except PyErr Json :=
  andThen (andThen (andThen
    (fillPrimaryKeys c (numbered command i) (numbered solution i) "pickle" "spacetime_solution" template)
    (onlyIf (c.gridNow i) (addSampleInformation component (numberedSample solution i) "pickle" "spacetime_sample" "single")))
    (Json.putAll (solvePuts component ++ solveFiles i component solution measurement)))
    (removeArguments ["inputsources", "time_index", "time_indices"])

/-- `fill_single_prior_solution_operation_space_time` (jsonfiller.py 291-313). -/
def fillPriorSolution (c : Config) (template : Json) (i component : ℤ) (command solution : String) : Except PyErr Json :=
  andThen (andThen (andThen
    (fillPrimaryKeys c (numberedPrior command i) (numberedPrior solution i) "pickle" "spacetime_solution" template)
    (onlyIf (c.gridNow i) (addPriorSampleInformation component (numberedPrior solution i) "pickle" "spacetime_sample" "single")))
    (Json.putAll (solvePuts component)))
    (removeArguments ["inputsources", "time_index", "time_indices"])

/-- `fill_batch_measurement_operation_space` (jsonfiller.py 322-345), which nothing calls. -/
def fillBatchOperationSpace (c : Config) (template : Json) (i component : ℤ) : Except PyErr Json :=
  andThen (andThen (andThen (andThen
    (fillPrimaryKeys c (numbered c.localScaleCommand i) (numbered c.solutionLocalScaleName i) "pickle" "space_solution" template)
    (Json.putAll (batchSecondaryPuts c i component)))
    (onlyIf (c.gridNow i) (addSampleInformation component (numberedSample c.solutionLocalScaleName i) "pickle" "space_sample" "batch")))
    (onlyIf (c.gridNow i)
      (addPriorSampleInformation component (numberedPrior c.solutionLocalScaleName i) "pickle" "space_sample" "batch")))
    (Json.putAll
      [([.key "runmodule"], "python_function", .str (movingClimatology "process_inputs_batch")),
       ([.key "runmodule", .key (nameAt storageList component)], "time_list", placeholder batchDayIndices),
       ([.key "runmodule", .key (nameAt storageList component)], "statefilelist_write",
          dataPlaceholder annualBatchDaysOutput (numbered c.solutionLocalScaleName i))])

/-- `fill_batch_measurement_operation_space_time` (jsonfiller.py 347-359). -/
def fillBatchMeasurement (c : Config) (template : Json) (i component : ℤ) (command name : String) : Except PyErr Json :=
  andThen (andThen (fillPrimaryKeys c (numbered command i) (numbered name i) "pickle" "monthly_measurement" template)
    (Json.putAll (batchSecondaryPuts c i component)))
    (Json.putAll
      [([.key "runmodule"], "python_function", .str (movingClimatology "process_inputs_batch")),
       ([.key "runmodule", .key (nameAt storageList component)], "measurementfilename_write",
          dataPlaceholder outputFile (numbered name i))])

/-- What gridding reads of one component (jsonfiller.py 426-454). -/
def gridReads (c : Config) (i : ℤ) (storage solution : String) : List (List Index × String × Json) :=
  if solution ≠ c.solutionLocalScaleName then
    [([.key "runmodule", .key storage], "statefilename_read", dataPlaceholder inputFile (numbered solution i)),
     ([.key "runmodule", .key storage], "sample_filename_read", dataPlaceholder inputFile (numberedSample solution i)),
     ([.key "runmodule", .key storage], "prior_sample_filename_read", dataPlaceholder inputFile (numberedPrior solution i))]
  else
    [([.key "runmodule", .key storage], "statefilelist_read", optionalPlaceholder annualBatchDays (numbered solution i)),
     ([.key "runmodule", .key storage], "sample_filelist_read", optionalPlaceholder annualBatchDays (numberedSample solution i)),
     ([.key "runmodule", .key storage], "prior_sample_filelist_read", optionalPlaceholder annualBatchDays (numberedPrior solution i)),
     ([.key "runmodule", .key storage], "time_list", placeholder batchDayIndices)]

/-- Assignments of `fill_batch_output_gridding` (jsonfiller.py 418-454). -/
def gridPuts (c : Config) (i : ℤ) : List (List Index × String × Json) :=
  [([.key "runmodule"], "sample_size", .int outputSampleSize),
   ([.key "runmodule"], "python_function", .str (movingClimatology "output_grid_batch")),
   ([.key "runmodule"], "outputfiles", dataPlaceholder annualBatchDaysOutput (numbered c.outputGridName i)),
   ([.key "runmodule"], "climatologyfiles", dataPlaceholder annualBatchDaysOutput (numbered c.outputClimatologyName i)),
   ([.key "runmodule"], "largescalefiles", dataPlaceholder annualBatchDaysOutput (numbered c.outputLargeScaleName i)),
   ([.key "runmodule"], "localfiles", dataPlaceholder annualBatchDaysOutput (numbered c.outputLocalName i))] ++
  gridReads c i "storage_climatology" c.solutionClimatologyName ++
  gridReads c i "storage_large_scale" c.solutionLargeScaleName ++
  gridReads c i "storage_local" c.solutionLocalScaleName

/-- `fill_batch_output_gridding` (jsonfiller.py 412-487). -/
def fillBatchOutputGridding (c : Config) (template : Json) (i : ℤ) : Except PyErr Json :=
  andThen (andThen (andThen (andThen (andThen (andThen
    (fillPrimaryKeys c (numbered c.outputGridCommand i) (numbered c.outputGridName i) "nc" "measurement" template)
    (Json.putAll (gridPuts c i)))
    (appendDataset (numbered c.outputClimatologyName i) "nc" "measurement"))
    (appendDataset (numbered c.outputLargeScaleName i) "nc" "measurement"))
    (appendDataset (numbered c.outputLocalName i) "nc" "measurement"))
    (removeArguments ["inputsources", "time_index"]))
    (Json.putAll [([.key "runmodule"], "time_indices", placeholder batchDayIndices)])

/-- `range(self.first_iteration, self.last_iteration+1)` (jsonfiller.py 132, 158). -/
def Config.range (c : Config) : List ℤ := (List.range c.iterations.toNat).map fun n : ℕ => c.first + n

/-- The operations of one iteration in `fill_batch_descriptor` (jsonfiller.py 158-183), with the templates for one day and for batches. -/
def batchIteration (c : Config) (single batch : Json) (i : ℤ) : List (Except PyErr Json) :=
  [fillBatchMeasurement c batch i 0 c.measurementClimatologyCommand c.measurementClimatologyName,
   fillPosteriorSolution c single i 0 c.solutionClimatologyCommand c.solutionClimatologyName c.measurementClimatologyName] ++
  (if c.gridNow i then [fillPriorSolution c single i 0 c.solutionClimatologyCommand c.solutionClimatologyName] else []) ++
  [fillBatchMeasurement c batch i 1 c.measurementLargeScaleCommand c.measurementLargeScaleName,
   fillPosteriorSolution c single i 1 c.solutionLargeScaleCommand c.solutionLargeScaleName c.measurementLargeScaleName] ++
  (if c.gridNow i then [fillPriorSolution c single i 1 c.solutionLargeScaleCommand c.solutionLargeScaleName] else []) ++
  [fillSingleOperationSpace c single i 2] ++
  (if c.gridNow i then [fillBatchOutputGridding c batch i] else [])

/-- The operations of one iteration in `fill_descriptor` (jsonfiller.py 132-141). -/
def singleIteration (c : Config) (single : Json) (i : ℤ) : List (Except PyErr Json) :=
  [fillSingleMeasurement c single i 0 c.measurementClimatologyCommand c.measurementClimatologyName,
   fillSingleSolution c single i 0 c.solutionClimatologyCommand c.solutionClimatologyName c.measurementClimatologyName,
   fillSingleMeasurement c single i 1 c.measurementLargeScaleCommand c.measurementLargeScaleName,
   fillSingleSolution c single i 1 c.solutionLargeScaleCommand c.solutionLargeScaleName c.measurementLargeScaleName,
   fillSingleOperationSpace c single i 2]

/-- All values, or the first error. -/
def collect : List (Except PyErr Json) → Except PyErr (List Json)
  | [] => .ok []
  | .error e :: _ => .error e
  | .ok j :: l => match collect l with
    | .error e => .error e
    | .ok r => .ok (j :: r)

/-- `final_dictionary` (jsonfiller.py 145, 185). -/
def finalDictionary (operations : List Json) : Json :=
  .dict [("python_class", .str "eumopps.catalogue.catalogue.Catalogue"), ("operations", .list operations)]

/-- `fill_batch_descriptor` (jsonfiller.py 149-186) for given templates, with `load_templates` (70-83). -/
def fillBatchDescriptor (c : Config) (single batch grid : Json) : Except PyErr Json :=
  match restrictInputs single, restrictInputs batch, restrictInputs grid with
  | .error e, _, _ => .error e
  | _, .error e, _ => .error e
  | _, _, .error e => .error e
  | .ok single, .ok batch, .ok _ =>
    if c.iterations = 0 then .error .valueError
    else match collect (c.range.flatMap (batchIteration c single batch)) with
      | .error e => .error e
      | .ok operations => .ok (finalDictionary operations)

/-- `fill_descriptor` (jsonfiller.py 124-146) for given templates: `fill_output_gridding` is called without its argument (142), which is
a TypeError. -/
def fillDescriptor (c : Config) (single batch grid : Json) : Except PyErr Json :=
  match restrictInputs single, restrictInputs batch, restrictInputs grid with
  | .error e, _, _ => .error e
  | _, .error e, _ => .error e
  | _, _, .error e => .error e
  | .ok single, .ok _, .ok _ =>
    if c.iterations = 0 then .error .valueError
    else match collect (c.range.flatMap (singleIteration c single)) with
      | .error e => .error e
      | .ok _ => .error .typeError

mutual
/-- `check_none` (jsonfiller.py 669-679). -/
def checkNone : Json → Except PyErr Unit
  | .dict d => checkNoneDict d
  | .list l => checkNoneList l
  | .null => .error .valueError
  | .int _ => .ok ()
  | .str _ => .ok ()
/-- The loop over items of a list (jsonfiller.py 674-675). -/
def checkNoneList : List Json → Except PyErr Unit
  | [] => .ok ()
  | j :: l => match checkNone j with
    | .error e => .error e
    | .ok () => checkNoneList l
/-- The loop over items of a dictionary (jsonfiller.py 671-673). -/
def checkNoneDict : List (String × Json) → Except PyErr Unit
  | [] => .ok ()
  | (_, j) :: d => match checkNone j with
    | .error e => .error e
    | .ok () => checkNoneDict d
end

/-- `create_batch_descriptor` (jsonfiller.py 108-121) with the templates of the repository: what is written.  With `check` the file has
been written when the check fails. -/
def createBatchDescriptor (c : Config) (check : Bool) : Except PyErr Json :=
  match fillBatchDescriptor c operationTemplate batchTemplate gridTemplate with
  | .error e => .error e
  | .ok d => if check then (match checkNone d with
      | .error e => .error e
      | .ok () => .ok d) else .ok d

/-- An option of generate_json_descriptors.py without `type`: the default, or the text given (generate_json_descriptors.py 31-32). -/
def untypedOption (default : ℤ) : Option String → OptionValue
  | none => .number default
  | some text => .given text

/-- The defaults of generate_json_descriptors.py (lines 31-53) with the positional arguments and the two options for biases. -/
def defaultConfig (first last gridLast : ℤ) (startDate endDate : String) (landBiases globalBiases : Option String) : Config where
  first := first
  last := last
  gridLast := gridLast
  startDate := startDate
  endDate := endDate
  landBiases := untypedOption 1 landBiases
  globalBiases := untypedOption 1 globalBiases
  measurementClimatologyCommand := "climatology_input"
  measurementClimatologyName := "measurement_climatology"
  solutionClimatologyCommand := "climatology_solve"
  solutionClimatologyName := "solution_climatology"
  measurementLargeScaleCommand := "large_scale_input"
  measurementLargeScaleName := "measurement_large_scale"
  solutionLargeScaleCommand := "large_scale_solve"
  solutionLargeScaleName := "solution_large_scale"
  localScaleCommand := "local_input_and_solve"
  solutionLocalScaleName := "solution_local"
  outputGridCommand := "output_grid"
  outputGridName := "eustace_infilled"
  outputClimatologyName := "eustace_infilled"
  outputLargeScaleName := "eustace_infilled"
  outputLocalName := "eustace_infilled"

/-- The arguments in roses/fullstace/advanced_standard/build_descriptors.sh (lines 18-50), for any iterations. -/
def scriptConfig (first last gridLast : ℤ) (startDate endDate : String) : Config where
  first := first
  last := last
  gridLast := gridLast
  startDate := startDate
  endDate := endDate
  landBiases := .given "1"
  globalBiases := .given "1"
  measurementClimatologyCommand := "climatology_input"
  measurementClimatologyName := "climatology_increment"
  solutionClimatologyCommand := "climatology_solve"
  solutionClimatologyName := "climatology_solution"
  measurementLargeScaleCommand := "large_scale_input"
  measurementLargeScaleName := "large_scale_increment"
  solutionLargeScaleCommand := "large_scale_solve"
  solutionLargeScaleName := "large_scale_solution"
  localScaleCommand := "local_input_and_solve"
  solutionLocalScaleName := "local_solution"
  outputGridCommand := "output_grid"
  outputGridName := "eustace_analysis"
  outputClimatologyName := "eustace_climatology_component"
  outputLargeScaleName := "eustace_large_scale_component"
  outputLocalName := "eustace_local_component"

/-- build_descriptors.sh as it is: iterations 0 to 5, gridded, 1880 to 2015. -/
def buildDescriptors : Except PyErr Json := createBatchDescriptor (scriptConfig 0 5 1 "18800101" "20151231") false

end Verif.Eustace.Descriptor
