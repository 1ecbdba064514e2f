import Verif.Eustace.Descriptor.Calls

/-!
Model of the generator of descriptors for diagnostics, `DiagnosticJsonFiller` in
`/repo/src/eustace/analysis/advanced_standard/examples/diagnosticfiller.py`, which is used by
`/repo/src/eustace/analysis/advanced_standard/examples/generate_diagnostic_descriptors.py`.

Simplified as in `Verif.Eustace.Descriptor.Model`.  The names of data sets and commands, the dates and the options are those of `Config`,
which also has the iterations of the analysis; the number of iterations of a diagnostic descriptor is a separate argument `n`.
-/

namespace Verif.Eustace.Descriptor

open Verif

/-- What is read of a storage object by `fill_state_inputs` for a component in space and time (diagnosticfiller.py 130-138). -/
def spacetimeInputs (n i : ℤ) (storage solution : String) : List (List Index × String × Json) :=
  [([.key "runmodule", .key storage], "statefilename_read", dataPlaceholder inputFile (numbered solution i))] ++
  if i = n - 1 then
    [([.key "runmodule", .key storage], "sample_filename_read", dataPlaceholder inputFile (numberedSample solution i)),
     ([.key "runmodule", .key storage], "prior_sample_filename_read", dataPlaceholder inputFile (numberedPrior solution i))]
  else []

/-- What is read of a storage object by `fill_state_inputs` for the local component (diagnosticfiller.py 140-156). -/
def localInputs (n i : ℤ) (storage solution : String) : List (List Index × String × Json) :=
  [([.key "runmodule", .key storage], "statefilelist_read", optionalPlaceholder annualBatchDays (numbered solution i)),
   ([.key "runmodule", .key storage], "time_list", placeholder batchDayIndices)] ++
  if i = n - 1 then
    [([.key "runmodule", .key storage], "sample_filelist_read", optionalPlaceholder annualBatchDays (numberedSample solution i)),
     ([.key "runmodule", .key storage], "prior_sample_filelist_read", optionalPlaceholder annualBatchDays (numberedPrior solution i))]
  else []

/-- `fill_state_inputs` for one storage object (diagnosticfiller.py 123-156): nothing if the solution is not one of `filter`. -/
def stateInput (c : Config) (n i : ℤ) (filter : Option (List String)) (storage solution : String) : List (List Index × String × Json) :=
  if ∀ l, filter = some l → solution ∈ l then
    if solution ≠ c.solutionLocalScaleName then spacetimeInputs n i storage solution else localInputs n i storage solution
  else []

/-- `fill_state_inputs` (diagnosticfiller.py 107-156). -/
def stateInputs (c : Config) (n i : ℤ) (filter : Option (List String)) : List (List Index × String × Json) :=
  stateInput c n i filter "storage_climatology" c.solutionClimatologyName ++
  stateInput c n i filter "storage_large_scale" c.solutionLargeScaleName ++
  stateInput c n i filter "storage_local" c.solutionLocalScaleName

/-- Settings of both operations of station_bias_model.py (diagnosticfiller.py 81-88, 171-178). -/
def biasSettings (c : Config) (command : String) : List (List Index × String × Json) :=
  [([], "name", .str command),
   ([.key "runmodule"], "insitu_biases", c.landBiases.json),
   ([.key "runmodule"], "global_biases", c.globalBiases.json),
   ([.key "runmodule"], "compute_uncertainties", .int 0),
   ([.key "runmodule"], "method", .str "EXACT"),
   ([.key "runmodule"], "compute_sample", .int 0),
   ([.key "runmodule"], "sample_size", .int stateSampleSize),
   ([.key "runmodule"], "compute_prior_sample", .int 0)]

/-- Module of functions of diagnostics. -/
def stationBiasModel (f : String) : String := "eustace.analysis.advanced_standard.examples.station_bias_model." ++ f

/-- `s[:4]`. -/
def firstFour (s : String) : String := String.ofList (s.toList.take 4)

/-- `fill_extract_station_biases_operation` (diagnosticfiller.py 159-198). -/
def fillExtractStationBiases (c : Config) (n : ℤ) (template : Json) (i component : ℤ) (command dataset : String) : Except PyErr Json :=
  andThen (andThen (andThen
    (fillPrimaryKeys c (numbered command i) (numbered dataset i) "pickle" "spacetime_solution" template)
    (Json.putAll ([([.key "runmodule"], "component_index", .int component),
      ([], "step", placeholder "eumopps.catalogue.step.StepOnce"),
      ([.key "runmodule"], "python_function", .str (stationBiasModel "extract_station_biases"))] ++
      biasSettings c (numbered command i) ++
      [([.key "runmodule"], "first_year", .str (firstFour c.start)),
       ([.key "runmodule"], "last_year", .str (firstFour c.stop)),
       ([.key "runmodule"], "outputfile", dataPlaceholder outputFile (numbered dataset i)),
       ([.key "newdatasets", .at 0], "name", .str (numbered dataset i)),
       ([.key "newdatasets", .at 0, .key "subsets", .at 0, .key "layout"], "patterns",
         .list [.str (numbered dataset i), .str (numbered dataset i ++ ".pickle")])])))
    (Json.putAll (stateInputs c n i (some [c.solutionLargeScaleName]))))
    (removeArguments ["inputsources", "time_index", "time_indices"])

/-- `fill_analysissystem_save_operation` (diagnosticfiller.py 66-105). -/
def fillAnalysissystemSave (c : Config) (n : ℤ) (template : Json) (i component : ℤ) (command dataset : String) : Except PyErr Json :=
  andThen (andThen
    (Json.putAll ([([.key "runmodule"], "component_index", .int component),
      ([], "step", placeholder "eustace.analysis.advanced_standard.examples.StepAnnual"),
      ([.key "runmodule"], "python_function", .str (stationBiasModel "store_analysissystem"))] ++
      biasSettings c (numbered (command ++ "_analysissytem") i) ++
      [([.key "step"], "start", .str c.start),
       ([.key "step"], "end", .str c.stop),
       ([.key "newdatasets", .at 0], "name", .str (numbered dataset i)),
       ([.key "newdatasets", .at 0, .key "subsets", .at 0, .key "layout"], "patterns",
         .list [.str (numbered dataset i), .str (numbered dataset i ++ "_%Y.pickle")])]) template)
    (Json.putAll (stateInputs c n i none)))
    (removeArguments ["inputsources", "time_index", "time_indices"])

/-- What is read of one storage object by `fill_early_look_batch_output_gridding` (diagnosticfiller.py 225-233). -/
def earlyInput (c : Config) (i : ℤ) (storage solution : String) : List (List Index × String × Json) :=
  if solution ≠ c.solutionLocalScaleName then
    [([.key "runmodule", .key storage], "statefilename_read", dataPlaceholder inputFile (numbered solution i))]
  else
    [([.key "runmodule", .key storage], "statefilelist_read", optionalPlaceholder annualBatchDays (numbered solution i)),
     ([.key "runmodule", .key storage], "time_list", placeholder batchDayIndices)]

/-- `fill_early_look_batch_output_gridding` (diagnosticfiller.py 206-243). -/
def fillEarlyLook (c : Config) (template : Json) (i : ℤ) : Except PyErr Json :=
  andThen (andThen (andThen
    (fillPrimaryKeys c (numbered (c.outputGridCommand ++ "_preview") i) (numbered (c.outputGridName ++ "_preview") i) "nc" "measurement" template)
    (Json.putAll ([([.key "runmodule"], "sample_size", .int outputSampleSize),
      ([.key "runmodule"], "python_function", .str (movingClimatology "early_look_grid_batch")),
      ([.key "runmodule"], "outputfiles", dataPlaceholder annualBatchDaysOutput (numbered (c.outputGridName ++ "_preview") i))] ++
      earlyInput c i "storage_climatology" c.solutionClimatologyName ++
      earlyInput c i "storage_large_scale" c.solutionLargeScaleName ++
      earlyInput c i "storage_local" c.solutionLocalScaleName)))
    (removeArguments ["inputsources", "time_index"]))
    (Json.putAll [([.key "runmodule"], "time_indices", placeholder batchDayIndices)])

/-- `range(self.n_iterations)` (diagnosticfiller.py 260). -/
def diagnosticRange (n : ℤ) : List ℤ := (List.range n.toNat).map fun m : ℕ => (m : ℤ)

/-- `fill_diagnostic_descriptor` (diagnosticfiller.py 251-271) with `load_templates` (jsonfiller.py 70-83). -/
def fillDiagnosticDescriptor (c : Config) (n : ℤ) (single batch grid : Json) : Except PyErr Json :=
  match restrictInputs single, restrictInputs batch, restrictInputs grid with
  | .error e, _, _ => .error e
  | _, .error e, _ => .error e
  | _, _, .error e => .error e
  | .ok single, .ok _, .ok _ =>
    if n = 0 then .error .valueError
    else match collect ((diagnosticRange n).map fun i =>
        fillExtractStationBiases c n single i 1 "store_station_biases" "station_biases") with
      | .error e => .error e
      | .ok operations => .ok (finalDictionary operations)

/-- `create_diagnostic_descriptor` (diagnosticfiller.py 274-287) with the templates of the repository and without check: what is
written. -/
def createDiagnosticDescriptor (c : Config) (n : ℤ) : Except PyErr Json :=
  fillDiagnosticDescriptor c n operationTemplate batchTemplate gridTemplate

end Verif.Eustace.Descriptor
