import Verif.Eustace.Descriptor.Json

/-!
How a descriptor of operations is understood: which data sets an operation reads, writes and creates, and what it gives to the function
which it runs.  Nothing here refers to the generator.
-/

namespace Verif.Eustace.Descriptor.Spec

open Verif

/-- Placeholders for files to be read: `InputFile`, `InputFileList` (eumopps/catalogue/placeholder.py) and `AnnualBatchDays`
(eustace/analysis/advanced_standard/examples/placeholder.py). -/
def inputClasses : List String :=
  ["eumopps.catalogue.placeholder.InputFile", "eumopps.catalogue.placeholder.InputFileList",
   "eustace.analysis.advanced_standard.examples.placeholder.AnnualBatchDays"]

/-- Placeholders for files to be written: `OutputFile` (eumopps/catalogue/placeholder.py) and `AnnualBatchDaysOutput`
(eustace/analysis/advanced_standard/examples/placeholder.py). -/
def outputClasses : List String :=
  ["eumopps.catalogue.placeholder.OutputFile", "eustace.analysis.advanced_standard.examples.placeholder.AnnualBatchDaysOutput"]

/-- The data set of a placeholder of one of the given classes. -/
def placeholderOf (classes : List String) (d : List (String × Json)) : Option String :=
  match lookup "python_class" d, lookup "datasetname" d with
  | some (.str c), some (.str n) => if c ∈ classes then some n else none
  | _, _ => none

mutual
/-- The data sets of all placeholders of the given classes in a value. -/
def mentions (classes : List String) : Json → List String
  | .dict d => match placeholderOf classes d with
    | some n => [n]
    | none => mentionsDict classes d
  | .list l => mentionsList classes l
  | _ => []
/-- The same for the items of a list. -/
def mentionsList (classes : List String) : List Json → List String
  | [] => []
  | j :: l => mentions classes j ++ mentionsList classes l
/-- The same for the items of a dictionary. -/
def mentionsDict (classes : List String) : List (String × Json) → List String
  | [] => []
  | (_, j) :: d => mentions classes j ++ mentionsDict classes d
end

/-- The item at a place if there is one. -/
def item (p : List Index) (j : Json) : Option Json := match Json.get p j with
  | .ok x => some x
  | .error _ => none

/-- The text at a place if there is one. -/
def text (p : List Index) (j : Json) : Option String := match Json.get p j with
  | .ok (.str s) => some s
  | _ => none

/-- Data sets read by an operation. -/
def reads (op : Json) : List String := match item [.key "runmodule"] op with
  | some r => mentions inputClasses r
  | none => []

/-- Data sets written by an operation. -/
def writes (op : Json) : List String := match item [.key "runmodule"] op with
  | some r => mentions outputClasses r
  | none => []

/-- Names of the data sets of a list, if it has the form of a list of data sets. -/
def datasetNames : List Json → Option (List String)
  | [] => some []
  | d :: l => match text [.key "name"] d, datasetNames l with
    | some n, some r => some (n :: r)
    | _, _ => none

/-- Data sets which an operation adds to the catalogue. -/
def creates (op : Json) : Option (List String) := match item [.key "newdatasets"] op with
  | some (.list l) => datasetNames l
  | _ => none

/-- Texts of a list of texts. -/
def texts : List Json → Option (List String)
  | [] => some []
  | .str s :: l => match texts l with
    | some r => some (s :: r)
    | none => none
  | _ :: _ => none

/-- The patterns for names of files of a data set with one subset. -/
def patternsOf (dataset : Json) : Option (List String) :=
  match item [.key "subsets"] dataset with
  | some (.list [s]) => match item [.key "layout", .key "patterns"] s with
    | some (.list l) => texts l
    | _ => none
  | _ => none

/-- Data sets of a list with their patterns. -/
def datasetPatterns : List Json → Option (List (String × List String))
  | [] => some []
  | d :: l => match text [.key "name"] d, patternsOf d, datasetPatterns l with
    | some n, some p, some r => some ((n, p) :: r)
    | _, _, _ => none

/-- The data sets which an operation adds to the catalogue, with the patterns for names of files. -/
def createsPatterns (op : Json) : Option (List (String × List String)) := match item [.key "newdatasets"] op with
  | some (.list l) => datasetPatterns l
  | _ => none

/-- Name of an operation. -/
def command (op : Json) : Option String := text [.key "name"] op

/-- The function which an operation runs. -/
def function (op : Json) : Option String := text [.key "runmodule", .key "python_function"] op

/-- Class of the steps of an operation. -/
def stepClass (op : Json) : Option String := text [.key "step", .key "python_class"] op

/-- Start and end of the steps of an operation. -/
def stepTimes (op : Json) : Option String × Option String := (text [.key "step", .key "start"] op, text [.key "step", .key "end"] op)

/-- Keys with values other than `null`. -/
def presentKeys : List (String × Json) → List String
  | [] => []
  | (_, .null) :: d => presentKeys d
  | (k, _) :: d => k :: presentKeys d

/-- Names of the arguments with which the function is called: the members of `runmodule` other than the name of the function.  Members
which are `null` are not kept in the catalogue (eumopps/catalogue/fileio/formatnetcdf.py) and are not given to the function. -/
def arguments (op : Json) : List String := match item [.key "runmodule"] op with
  | some (.dict d) => (presentKeys d).filter (· ≠ "python_function")
  | _ => []

/-- Class of a storage argument. -/
def storageClass (storage : String) (op : Json) : Option String := text [.key "runmodule", .key storage, .key "python_class"] op

/-- Names of the arguments with which a storage object is made. -/
def storageArguments (storage : String) (op : Json) : List String := match item [.key "runmodule", .key storage] op with
  | some (.dict d) => (presentKeys d).filter (· ≠ "python_class")
  | _ => []

/-- The data set given to a storage object under one of two names. -/
def storageData (storage key key' : String) (op : Json) : Option String :=
  match text [.key "runmodule", .key storage, .key key, .key "datasetname"] op with
  | some n => some n
  | none => text [.key "runmodule", .key storage, .key key', .key "datasetname"] op

/-- The data set from which an operation reads the state of a component. -/
def stateRead (storage : String) (op : Json) : Option String := storageData storage "statefilename_read" "statefilelist_read" op

/-- The data set to which an operation writes the state of a component. -/
def stateWritten (storage : String) (op : Json) : Option String := storageData storage "statefilename_write" "statefilelist_write" op

/-- The data set from which an operation reads the sample of a component. -/
def sampleRead (storage : String) (op : Json) : Option String := storageData storage "sample_filename_read" "sample_filelist_read" op

/-- The data set to which an operation writes the sample of a component. -/
def sampleWritten (storage : String) (op : Json) : Option String := storageData storage "sample_filename_write" "sample_filelist_write" op

/-- The data set from which an operation reads the prior sample of a component. -/
def priorRead (storage : String) (op : Json) : Option String :=
  storageData storage "prior_sample_filename_read" "prior_sample_filelist_read" op

/-- The data set to which an operation writes the prior sample of a component. -/
def priorWritten (storage : String) (op : Json) : Option String :=
  storageData storage "prior_sample_filename_write" "prior_sample_filelist_write" op

/-- The data set to which an operation writes the measurement update of a component. -/
def measurementWritten (storage : String) (op : Json) : Option String :=
  storageData storage "measurementfilename_write" "measurementfilelist_write" op

/-- The data set from which an operation reads the measurement updates of a component. -/
def measurementRead (storage : String) (op : Json) : Option String := text [.key "runmodule", .key storage, .key "measurementfilelist_read", .key "datasetname"] op

/-- Number of the component which an operation handles. -/
def component (op : Json) : Option ℤ := match item [.key "runmodule", .key "component_index"] op with
  | some (.int n) => some n
  | _ => none

/-- A number among the arguments. -/
def flag (key : String) (op : Json) : Option ℤ := match item [.key "runmodule", .key key] op with
  | some (.int n) => some n
  | _ => none

/-- What a parameter of a function or of a storage class is to be given: one file or one day, or a list of them.  `InputFile`, `OutputFile` and
`AnalysisStepIndex` stand for one, `InputFileList` for the files of all times, `AnnualBatchDays`, `AnnualBatchDaysOutput` and
`AnalysisAnnualBatchDayIndices` for those of the days of a batch (eumopps/catalogue/placeholder.py,
eustace/analysis/advanced_standard/examples/placeholder.py). -/
def placeholderClasses : List (String × String) :=
  [("statefilename_read", "eumopps.catalogue.placeholder.InputFile"),
   ("sample_filename_read", "eumopps.catalogue.placeholder.InputFile"),
   ("prior_sample_filename_read", "eumopps.catalogue.placeholder.InputFile"),
   ("statefilename_write", "eumopps.catalogue.placeholder.OutputFile"),
   ("sample_filename_write", "eumopps.catalogue.placeholder.OutputFile"),
   ("prior_sample_filename_write", "eumopps.catalogue.placeholder.OutputFile"),
   ("measurementfilename_write", "eumopps.catalogue.placeholder.OutputFile"),
   ("measurementfilelist_read", "eumopps.catalogue.placeholder.InputFileList"),
   ("statefilelist_read", "eustace.analysis.advanced_standard.examples.placeholder.AnnualBatchDays"),
   ("sample_filelist_read", "eustace.analysis.advanced_standard.examples.placeholder.AnnualBatchDays"),
   ("prior_sample_filelist_read", "eustace.analysis.advanced_standard.examples.placeholder.AnnualBatchDays"),
   ("statefilelist_write", "eustace.analysis.advanced_standard.examples.placeholder.AnnualBatchDaysOutput"),
   ("sample_filelist_write", "eustace.analysis.advanced_standard.examples.placeholder.AnnualBatchDaysOutput"),
   ("prior_sample_filelist_write", "eustace.analysis.advanced_standard.examples.placeholder.AnnualBatchDaysOutput"),
   ("outputfiles", "eustace.analysis.advanced_standard.examples.placeholder.AnnualBatchDaysOutput"),
   ("climatologyfiles", "eustace.analysis.advanced_standard.examples.placeholder.AnnualBatchDaysOutput"),
   ("largescalefiles", "eustace.analysis.advanced_standard.examples.placeholder.AnnualBatchDaysOutput"),
   ("localfiles", "eustace.analysis.advanced_standard.examples.placeholder.AnnualBatchDaysOutput"),
   ("time_index", "eustace.analysis.advanced_standard.examples.placeholder.AnalysisStepIndex"),
   ("time_list", "eustace.analysis.advanced_standard.examples.placeholder.AnalysisAnnualBatchDayIndices"),
   ("time_indices", "eustace.analysis.advanced_standard.examples.placeholder.AnalysisAnnualBatchDayIndices")]

/-- The members of a dictionary are placeholders of the classes which their names ask for. -/
def fitting : List (String × Json) → Bool
  | [] => true
  | (k, j) :: d => (match placeholderClasses.find? (fun p => p.1 == k) with
    | none => true
    | some p => text [.key "python_class"] j == some p.2) && fitting d

/-- The same for a value. -/
def fittingItem (p : List Index) (op : Json) : Bool := match item p op with
  | some (.dict d) => fitting d
  | _ => false

/-- Classes of the placeholders for files of observations which functions ask for: one day, or the days of a batch. -/
def observationClass (function : Option String) : String :=
  if function = some "eustace.analysis.advanced_standard.examples.moving_climatology.process_inputs" then
    "eumopps.catalogue.placeholder.InputFile"
  else "eustace.analysis.advanced_standard.examples.placeholder.AnnualBatchDays"

/-- Every file of observations of an operation is asked for in the way of its function. -/
def fittingSources (op : Json) : Bool := match item [.key "runmodule", .key "inputsources"] op with
  | some j => mentions inputClasses j == mentions [observationClass (function op)] j
  | none => true

/-- The arguments of an operation and of its storage objects are of the kinds which they are to have. -/
def fits (op : Json) : Bool :=
  fittingItem [.key "runmodule"] op && fittingItem [.key "runmodule", .key "storage_climatology"] op &&
    fittingItem [.key "runmodule", .key "storage_large_scale"] op && fittingItem [.key "runmodule", .key "storage_local"] op &&
    fittingSources op

/-- The operations of a descriptor. -/
def operations (descriptor : Json) : List Json := match item [.key "operations"] descriptor with
  | some (.list l) => l
  | _ => []

/-- Names of the data sets of observations: those of roses/fullstace/advanced_standard/templates/advstd_inputs.json. -/
def observations : List String :=
  ["locationlookup_insitu_land",
   "locationlookup_satellite",
   "rawbinary_insitu_land_Tmin_correlationranges",
   "rawbinary_surfaceairmodel_land_Tmin_correlationranges",
   "rawbinary_insitu_land_Tmax_correlationranges",
   "rawbinary_surfaceairmodel_land_Tmax_correlationranges",
   "rawbinary_insitu_ocean_Tmean_correlationranges",
   "rawbinary_surfaceairmodel_ocean_Tmean_correlationranges",
   "rawbinary_surfaceairmodel_ice_Tmin_correlationranges",
   "rawbinary_surfaceairmodel_ice_Tmean_correlationranges",
   "rawbinary_surfaceairmodel_ice_Tmax_correlationranges",
   "rawbinary_insitu_land_Tmin",
   "rawbinary_surfaceairmodel_land_Tmin",
   "rawbinary_insitu_land_Tmax",
   "rawbinary_surfaceairmodel_land_Tmax",
   "rawbinary_insitu_ocean_Tmean",
   "rawbinary_surfaceairmodel_ocean_Tmean",
   "rawbinary_surfaceairmodel_ice_Tmin",
   "rawbinary_surfaceairmodel_ice_Tmean",
   "rawbinary_surfaceairmodel_ice_Tmax"]

/-- Names which an iteration of the analysis gives: a name, an underscore, and the number of the iteration. -/
def numberedName (name : String) (i : ℤ) : String := name ++ "_" ++ toString i

/-- The data set mentioned last by some operations. -/
def latest (mentioned : Json → Option String) (ops : List Json) : Option String := (ops.filterMap mentioned).getLast?

/-- Names of the parameters of the functions which operations run, none of which has a default value (moving_climatology.py 73-77, 91-95,
144-147, 339-344). -/
def parameters : List (String × List String) :=
  [("eustace.analysis.advanced_standard.examples.moving_climatology.process_inputs",
    ["storage_climatology", "storage_large_scale", "storage_local", "inputsources", "time_index", "component_index", "covariates_descriptor",
     "insitu_biases", "breakpoints_file", "global_biases", "global_biases_group_list", "compute_uncertainties", "method",
     "compute_sample", "sample_size", "compute_prior_sample"]),
   ("eustace.analysis.advanced_standard.examples.moving_climatology.process_inputs_batch",
    ["storage_climatology", "storage_large_scale", "storage_local", "inputsources", "time_indices", "component_index", "covariates_descriptor",
     "insitu_biases", "breakpoints_file", "global_biases", "global_biases_group_list", "compute_uncertainties", "method",
     "compute_sample", "sample_size", "compute_prior_sample"]),
   ("eustace.analysis.advanced_standard.examples.moving_climatology.solve",
    ["storage_climatology", "storage_large_scale", "storage_local", "component_index", "covariates_descriptor",
     "insitu_biases", "breakpoints_file", "global_biases", "global_biases_group_list", "compute_uncertainties", "method",
     "compute_sample", "sample_size", "compute_prior_sample"]),
   ("eustace.analysis.advanced_standard.examples.moving_climatology.output_grid_batch",
    ["storage_climatology", "storage_large_scale", "storage_local", "outputfiles", "climatologyfiles", "largescalefiles", "localfiles",
     "time_indices", "covariates_descriptor", "insitu_biases", "breakpoints_file", "global_biases", "global_biases_group_list",
     "compute_uncertainties", "method", "compute_sample", "sample_size", "compute_prior_sample"])]

/-- Storage classes with whether they are for components in space and time, and names of the parameters of their constructors, all of which
have default values (components/storage_files.py 22-33, 133-141, components/storage_files_batch.py 28-39, 232-243). -/
def storageParameters : List (String × Bool × List String) :=
  [("eustace.analysis.advanced_standard.components.storage_files.SpaceTimeComponentSolutionStorage_Files", true,
    ["statefilename_read", "marginal_std_filename_read", "sample_filename_read", "prior_sample_filename_read", "statefilename_write",
     "marginal_std_filename_write", "sample_filename_write", "prior_sample_filename_write", "measurement_time_index_write",
     "measurementfilename_write", "measurementfilelist_read"]),
   ("eustace.analysis.advanced_standard.components.storage_files.SpatialComponentSolutionStorage_Files", false,
    ["time_index", "statefilename_read", "marginal_std_filename_read", "sample_filename_read", "prior_sample_filename_read",
     "statefilename_write", "marginal_std_filename_write", "sample_filename_write", "prior_sample_filename_write"]),
   ("eustace.analysis.advanced_standard.components.storage_files_batch.SpatialComponentSolutionStorageIndexed_Files", false,
    ["statefilelist_read", "marginal_std_filelist_read", "sample_filelist_read", "prior_sample_filelist_read", "measurementfilelist_read",
     "statefilelist_write", "marginal_std_filelist_write", "sample_filelist_write", "prior_sample_filelist_write",
     "measurementfilelist_write", "time_list"]),
   ("eustace.analysis.advanced_standard.components.storage_files_batch.SpaceTimeComponentSolutionStorageBatched_Files", true,
    ["statefilename_read", "marginal_std_filename_read", "sample_filename_read", "prior_sample_filename_read", "statefilename_write",
     "marginal_std_filename_write", "sample_filename_write", "prior_sample_filename_write", "measurementfilename_write",
     "measurementfilelist_read", "keep_in_memory"])]

/-- Whether a function writes the state of its component: `solve` does unless it is to compute a sample of the prior
(components/spacetime.py 161, 216), `process_inputs` does for the local component (components/spatial.py 123). -/
def writesState (f : String) (prior : ℤ) : Prop :=
  (f = "eustace.analysis.advanced_standard.examples.moving_climatology.solve" ∧ prior = 0) ∨
  f = "eustace.analysis.advanced_standard.examples.moving_climatology.process_inputs"

/-- Whether a function writes a sample of its component (components/spacetime.py 227, components/spatial.py 131). -/
def writesSample (f : String) (sample prior : ℤ) : Prop := writesState f prior ∧ sample ≠ 0

/-- Whether a function writes a sample of the prior (components/spacetime.py 161-174, components/spatial.py 131-139). -/
def writesPrior (f : String) (sample prior : ℤ) : Prop :=
  prior ≠ 0 ∧ (f = "eustace.analysis.advanced_standard.examples.moving_climatology.solve" ∨
    (f = "eustace.analysis.advanced_standard.examples.moving_climatology.process_inputs" ∧ sample ≠ 0))

/-- Whether a function writes measurement updates (analysissystem.py 117-186). -/
def writesMeasurement (f : String) : Prop := f = "eustace.analysis.advanced_standard.examples.moving_climatology.process_inputs_batch"

end Verif.Eustace.Descriptor.Spec
