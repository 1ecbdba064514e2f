import Verif.Eustace.Descriptor.Json

/-!
The templates of operations in `/repo/src/roses/fullstace/advanced_standard/templates/`: advstd_operation_template.json,
advstd_batch_operation_template.json and advstd_outputgrid_template.json, member by member.
-/

namespace Verif.Eustace.Descriptor

/-- Input source 0 of templates/advstd_operation_template.json (member `inputsources` of `runmodule`). -/
def operationSource0 : Json :=
  .dict [
    ("name", .str "insitu_land"),
    ("fixed_location_lookup_filename", .dict [("python_class", .str "eumopps.catalogue.placeholder.InputFile"), ("datasetname", .str "locationlookup_insitu_land")]),
    ("local_correlation_ranges_filenames", .dict [
      ("Tmin", .dict [
        ("python_class", .str "eumopps.catalogue.placeholder.InputFile"),
        ("datasetname", .str "rawbinary_insitu_land_Tmin_correlationranges")]),
      ("Tmax", .dict [
        ("python_class", .str "eumopps.catalogue.placeholder.InputFile"),
        ("datasetname", .str "rawbinary_insitu_land_Tmax_correlationranges")])]),
    ("observable_filenames", .dict [
      ("Tmin", .dict [
        ("python_class", .str "eumopps.catalogue.placeholder.InputFile"),
        ("datasetname", .str "rawbinary_insitu_land_Tmin"),
        ("missing_data", .str "allowed")]),
      ("Tmax", .dict [
        ("python_class", .str "eumopps.catalogue.placeholder.InputFile"),
        ("datasetname", .str "rawbinary_insitu_land_Tmax"),
        ("missing_data", .str "allowed")])])]

/-- Input source 1 of templates/advstd_operation_template.json (member `inputsources` of `runmodule`). -/
def operationSource1 : Json :=
  .dict [
    ("name", .str "insitu_ocean"),
    ("local_correlation_ranges_filenames", .dict [
      ("Tmean", .dict [
        ("python_class", .str "eumopps.catalogue.placeholder.InputFile"),
        ("datasetname", .str "rawbinary_insitu_ocean_Tmean_correlationranges")])]),
    ("observable_filenames", .dict [
      ("Tmean", .dict [
        ("python_class", .str "eumopps.catalogue.placeholder.InputFile"),
        ("datasetname", .str "rawbinary_insitu_ocean_Tmean"),
        ("subsetindex", .int 0),
        ("missing_data", .str "allowed")])]),
    ("mobile_location_lookup_filenames", .dict [
      ("Tmean", .dict [
        ("python_class", .str "eumopps.catalogue.placeholder.InputFile"),
        ("datasetname", .str "rawbinary_insitu_ocean_Tmean"),
        ("subsetindex", .int 1),
        ("missing_data", .str "allowed")])])]

/-- Input source 2 of templates/advstd_operation_template.json (member `inputsources` of `runmodule`). -/
def operationSource2 : Json :=
  .dict [
    ("name", .str "surfaceairmodel_land"),
    ("fixed_location_lookup_filename", .dict [("python_class", .str "eumopps.catalogue.placeholder.InputFile"), ("datasetname", .str "locationlookup_satellite")]),
    ("local_correlation_ranges_filenames", .dict [
      ("Tmin", .dict [
        ("python_class", .str "eumopps.catalogue.placeholder.InputFile"),
        ("datasetname", .str "rawbinary_surfaceairmodel_land_Tmin_correlationranges")]),
      ("Tmax", .dict [
        ("python_class", .str "eumopps.catalogue.placeholder.InputFile"),
        ("datasetname", .str "rawbinary_surfaceairmodel_land_Tmax_correlationranges")])]),
    ("observable_filenames", .dict [
      ("Tmin", .dict [
        ("python_class", .str "eumopps.catalogue.placeholder.InputFile"),
        ("datasetname", .str "rawbinary_surfaceairmodel_land_Tmin"),
        ("missing_data", .str "allowed")]),
      ("Tmax", .dict [
        ("python_class", .str "eumopps.catalogue.placeholder.InputFile"),
        ("datasetname", .str "rawbinary_surfaceairmodel_land_Tmax"),
        ("missing_data", .str "allowed")])])]

/-- Input source 3 of templates/advstd_operation_template.json (member `inputsources` of `runmodule`). -/
def operationSource3 : Json :=
  .dict [
    ("name", .str "surfaceairmodel_ocean"),
    ("fixed_location_lookup_filename", .dict [("python_class", .str "eumopps.catalogue.placeholder.InputFile"), ("datasetname", .str "locationlookup_satellite")]),
    ("local_correlation_ranges_filenames", .dict [
      ("Tmean", .dict [
        ("python_class", .str "eumopps.catalogue.placeholder.InputFile"),
        ("datasetname", .str "rawbinary_surfaceairmodel_ocean_Tmean_correlationranges")])]),
    ("observable_filenames", .dict [
      ("Tmean", .dict [
        ("python_class", .str "eumopps.catalogue.placeholder.InputFile"),
        ("datasetname", .str "rawbinary_surfaceairmodel_ocean_Tmean"),
        ("missing_data", .str "allowed")])])]

/-- Input source 4 of templates/advstd_operation_template.json (member `inputsources` of `runmodule`). -/
def operationSource4 : Json :=
  .dict [
    ("name", .str "surfaceairmodel_ice"),
    ("fixed_location_lookup_filename", .dict [("python_class", .str "eumopps.catalogue.placeholder.InputFile"), ("datasetname", .str "locationlookup_satellite")]),
    ("local_correlation_ranges_filenames", .dict [
      ("Tmin", .dict [
        ("python_class", .str "eumopps.catalogue.placeholder.InputFile"),
        ("datasetname", .str "rawbinary_surfaceairmodel_ice_Tmin_correlationranges")]),
      ("Tmean", .dict [
        ("python_class", .str "eumopps.catalogue.placeholder.InputFile"),
        ("datasetname", .str "rawbinary_surfaceairmodel_ice_Tmean_correlationranges")]),
      ("Tmax", .dict [
        ("python_class", .str "eumopps.catalogue.placeholder.InputFile"),
        ("datasetname", .str "rawbinary_surfaceairmodel_ice_Tmax_correlationranges")])]),
    ("observable_filenames", .dict [
      ("Tmin", .dict [
        ("python_class", .str "eumopps.catalogue.placeholder.InputFile"),
        ("datasetname", .str "rawbinary_surfaceairmodel_ice_Tmin"),
        ("missing_data", .str "allowed")]),
      ("Tmean", .dict [
        ("python_class", .str "eumopps.catalogue.placeholder.InputFile"),
        ("datasetname", .str "rawbinary_surfaceairmodel_ice_Tmean"),
        ("missing_data", .str "allowed")]),
      ("Tmax", .dict [
        ("python_class", .str "eumopps.catalogue.placeholder.InputFile"),
        ("datasetname", .str "rawbinary_surfaceairmodel_ice_Tmax"),
        ("missing_data", .str "allowed")])])]

/-- roses/fullstace/advanced_standard/templates/advstd_operation_template.json, lines 1-122. -/
def operationTemplate : Json :=
  .dict [
    ("python_class", .str "eumopps.catalogue.operation.Operation"),
    ("name", .null),
    ("runmodule", .dict [
      ("python_function", .str "eustace.analysis.advanced_standard.examples.moving_climatology.process_inputs"),
      ("storage_climatology", .dict [
        ("python_class", .str "eustace.analysis.advanced_standard.components.storage_files.SpaceTimeComponentSolutionStorage_Files")]),
      ("storage_large_scale", .dict [
        ("python_class", .str "eustace.analysis.advanced_standard.components.storage_files.SpaceTimeComponentSolutionStorage_Files")]),
      ("storage_local", .dict [
        ("python_class", .str "eustace.analysis.advanced_standard.components.storage_files.SpatialComponentSolutionStorage_Files")]),
      ("inputsources", .list [operationSource0, operationSource1, operationSource2, operationSource3, operationSource4]),
      ("time_index", .dict [("python_class", .str "eustace.analysis.advanced_standard.examples.placeholder.AnalysisStepIndex")]),
      ("component_index", .null),
      ("covariates_descriptor", .str "/gws/nopw/j04/eustace/data/internal/climatology_covariates/covariates.json"),
      ("insitu_biases", .null),
      ("breakpoints_file", .str "/gws/nopw/j04/eustace/data/internal/D1.7/daily/eustace_stations_global_R001127_daily_status.nc"),
      ("global_biases", .null),
      ("global_biases_group_list", .list [
        .str "surfaceairmodel_ice_global",
        .str "surfaceairmodel_land_global",
        .str "surfaceairmodel_ocean_global"]),
      ("compute_uncertainties", .null),
      ("method", .null),
      ("compute_sample", .null),
      ("sample_size", .null),
      ("compute_prior_sample", .null)]),
    ("step", .dict [("python_class", .str "eumopps.catalogue.step.StepDaily"), ("start", .null), ("end", .null)]),
    ("newdatasets", .list [
      .dict [
        ("python_class", .str "eumopps.catalogue.dataset.CatalogueDataSet"),
        ("name", .null),
        ("subsets", .list [
          .dict [
            ("python_class", .str "eumopps.catalogue.dataset.CatalogueDataSubset"),
            ("layout", .dict [("python_class", .str "eumopps.catalogue.storage.DataStorageFiles"), ("patterns", .null)])]])]])]

/-- Input source 0 of templates/advstd_batch_operation_template.json (member `inputsources` of `runmodule`). -/
def batchSource0 : Json :=
  .dict [
    ("name", .str "insitu_land"),
    ("fixed_location_lookup_filename", .dict [
      ("python_class", .str "eustace.analysis.advanced_standard.examples.placeholder.AnnualBatchDays"),
      ("datasetname", .str "locationlookup_insitu_land")]),
    ("local_correlation_ranges_filenames", .dict [
      ("Tmin", .dict [
        ("python_class", .str "eustace.analysis.advanced_standard.examples.placeholder.AnnualBatchDays"),
        ("datasetname", .str "rawbinary_insitu_land_Tmin_correlationranges")]),
      ("Tmax", .dict [
        ("python_class", .str "eustace.analysis.advanced_standard.examples.placeholder.AnnualBatchDays"),
        ("datasetname", .str "rawbinary_insitu_land_Tmax_correlationranges")])]),
    ("observable_filenames", .dict [
      ("Tmin", .dict [
        ("python_class", .str "eustace.analysis.advanced_standard.examples.placeholder.AnnualBatchDays"),
        ("datasetname", .str "rawbinary_insitu_land_Tmin"),
        ("missing_data", .str "allowed")]),
      ("Tmax", .dict [
        ("python_class", .str "eustace.analysis.advanced_standard.examples.placeholder.AnnualBatchDays"),
        ("datasetname", .str "rawbinary_insitu_land_Tmax"),
        ("missing_data", .str "allowed")])])]

/-- Input source 1 of templates/advstd_batch_operation_template.json (member `inputsources` of `runmodule`). -/
def batchSource1 : Json :=
  .dict [
    ("name", .str "insitu_ocean"),
    ("local_correlation_ranges_filenames", .dict [
      ("Tmean", .dict [
        ("python_class", .str "eustace.analysis.advanced_standard.examples.placeholder.AnnualBatchDays"),
        ("datasetname", .str "rawbinary_insitu_ocean_Tmean_correlationranges")])]),
    ("observable_filenames", .dict [
      ("Tmean", .dict [
        ("python_class", .str "eustace.analysis.advanced_standard.examples.placeholder.AnnualBatchDays"),
        ("datasetname", .str "rawbinary_insitu_ocean_Tmean"),
        ("subsetindex", .int 0),
        ("missing_data", .str "allowed")])]),
    ("mobile_location_lookup_filenames", .dict [
      ("Tmean", .dict [
        ("python_class", .str "eustace.analysis.advanced_standard.examples.placeholder.AnnualBatchDays"),
        ("datasetname", .str "rawbinary_insitu_ocean_Tmean"),
        ("subsetindex", .int 1),
        ("missing_data", .str "allowed")])])]

/-- Input source 2 of templates/advstd_batch_operation_template.json (member `inputsources` of `runmodule`). -/
def batchSource2 : Json :=
  .dict [
    ("name", .str "surfaceairmodel_land"),
    ("fixed_location_lookup_filename", .dict [
      ("python_class", .str "eustace.analysis.advanced_standard.examples.placeholder.AnnualBatchDays"),
      ("datasetname", .str "locationlookup_satellite")]),
    ("local_correlation_ranges_filenames", .dict [
      ("Tmin", .dict [
        ("python_class", .str "eustace.analysis.advanced_standard.examples.placeholder.AnnualBatchDays"),
        ("datasetname", .str "rawbinary_surfaceairmodel_land_Tmin_correlationranges")]),
      ("Tmax", .dict [
        ("python_class", .str "eustace.analysis.advanced_standard.examples.placeholder.AnnualBatchDays"),
        ("datasetname", .str "rawbinary_surfaceairmodel_land_Tmax_correlationranges")])]),
    ("observable_filenames", .dict [
      ("Tmin", .dict [
        ("python_class", .str "eustace.analysis.advanced_standard.examples.placeholder.AnnualBatchDays"),
        ("datasetname", .str "rawbinary_surfaceairmodel_land_Tmin"),
        ("missing_data", .str "allowed")]),
      ("Tmax", .dict [
        ("python_class", .str "eustace.analysis.advanced_standard.examples.placeholder.AnnualBatchDays"),
        ("datasetname", .str "rawbinary_surfaceairmodel_land_Tmax"),
        ("missing_data", .str "allowed")])])]

/-- Input source 3 of templates/advstd_batch_operation_template.json (member `inputsources` of `runmodule`). -/
def batchSource3 : Json :=
  .dict [
    ("name", .str "surfaceairmodel_ocean"),
    ("fixed_location_lookup_filename", .dict [
      ("python_class", .str "eustace.analysis.advanced_standard.examples.placeholder.AnnualBatchDays"),
      ("datasetname", .str "locationlookup_satellite")]),
    ("local_correlation_ranges_filenames", .dict [
      ("Tmean", .dict [
        ("python_class", .str "eustace.analysis.advanced_standard.examples.placeholder.AnnualBatchDays"),
        ("datasetname", .str "rawbinary_surfaceairmodel_ocean_Tmean_correlationranges")])]),
    ("observable_filenames", .dict [
      ("Tmean", .dict [
        ("python_class", .str "eustace.analysis.advanced_standard.examples.placeholder.AnnualBatchDays"),
        ("datasetname", .str "rawbinary_surfaceairmodel_ocean_Tmean"),
        ("missing_data", .str "allowed")])])]

/-- Input source 4 of templates/advstd_batch_operation_template.json (member `inputsources` of `runmodule`). -/
def batchSource4 : Json :=
  .dict [
    ("name", .str "surfaceairmodel_ice"),
    ("fixed_location_lookup_filename", .dict [
      ("python_class", .str "eustace.analysis.advanced_standard.examples.placeholder.AnnualBatchDays"),
      ("datasetname", .str "locationlookup_satellite")]),
    ("local_correlation_ranges_filenames", .dict [
      ("Tmin", .dict [
        ("python_class", .str "eustace.analysis.advanced_standard.examples.placeholder.AnnualBatchDays"),
        ("datasetname", .str "rawbinary_surfaceairmodel_ice_Tmin_correlationranges")]),
      ("Tmean", .dict [
        ("python_class", .str "eustace.analysis.advanced_standard.examples.placeholder.AnnualBatchDays"),
        ("datasetname", .str "rawbinary_surfaceairmodel_ice_Tmean_correlationranges")]),
      ("Tmax", .dict [
        ("python_class", .str "eustace.analysis.advanced_standard.examples.placeholder.AnnualBatchDays"),
        ("datasetname", .str "rawbinary_surfaceairmodel_ice_Tmax_correlationranges")])]),
    ("observable_filenames", .dict [
      ("Tmin", .dict [
        ("python_class", .str "eustace.analysis.advanced_standard.examples.placeholder.AnnualBatchDays"),
        ("datasetname", .str "rawbinary_surfaceairmodel_ice_Tmin"),
        ("missing_data", .str "allowed")]),
      ("Tmean", .dict [
        ("python_class", .str "eustace.analysis.advanced_standard.examples.placeholder.AnnualBatchDays"),
        ("datasetname", .str "rawbinary_surfaceairmodel_ice_Tmean"),
        ("missing_data", .str "allowed")]),
      ("Tmax", .dict [
        ("python_class", .str "eustace.analysis.advanced_standard.examples.placeholder.AnnualBatchDays"),
        ("datasetname", .str "rawbinary_surfaceairmodel_ice_Tmax"),
        ("missing_data", .str "allowed")])])]

/-- roses/fullstace/advanced_standard/templates/advstd_batch_operation_template.json, lines 1-124. -/
def batchTemplate : Json :=
  .dict [
    ("python_class", .str "eumopps.catalogue.operation.Operation"),
    ("name", .null),
    ("runmodule", .dict [
      ("python_function", .str "eustace.analysis.advanced_standard.examples.moving_climatology.process_inputs_batch"),
      ("storage_climatology", .dict [
        ("python_class", .str "eustace.analysis.advanced_standard.components.storage_files_batch.SpaceTimeComponentSolutionStorageBatched_Files"),
        ("keep_in_memory", .int 1)]),
      ("storage_large_scale", .dict [
        ("python_class", .str "eustace.analysis.advanced_standard.components.storage_files_batch.SpaceTimeComponentSolutionStorageBatched_Files"),
        ("keep_in_memory", .int 1)]),
      ("storage_local", .dict [
        ("python_class", .str "eustace.analysis.advanced_standard.components.storage_files_batch.SpatialComponentSolutionStorageIndexed_Files")]),
      ("inputsources", .list [batchSource0, batchSource1, batchSource2, batchSource3, batchSource4]),
      ("time_indices", .dict [("python_class", .str "eustace.analysis.advanced_standard.examples.placeholder.AnalysisAnnualBatchDayIndices")]),
      ("component_index", .null),
      ("covariates_descriptor", .str "/gws/nopw/j04/eustace/data/internal/climatology_covariates/covariates.json"),
      ("insitu_biases", .null),
      ("breakpoints_file", .str "/gws/nopw/j04/eustace/data/internal/D1.7/daily/eustace_stations_global_R001127_daily_status.nc"),
      ("global_biases", .null),
      ("global_biases_group_list", .list [
        .str "surfaceairmodel_ice_global",
        .str "surfaceairmodel_land_global",
        .str "surfaceairmodel_ocean_global"]),
      ("compute_uncertainties", .null),
      ("method", .null),
      ("compute_sample", .null),
      ("sample_size", .null),
      ("compute_prior_sample", .null)]),
    ("step", .dict [("python_class", .str "eustace.analysis.advanced_standard.examples.step.StepMonthly"), ("start", .null), ("end", .null)]),
    ("newdatasets", .list [
      .dict [
        ("python_class", .str "eumopps.catalogue.dataset.CatalogueDataSet"),
        ("name", .null),
        ("subsets", .list [
          .dict [
            ("python_class", .str "eumopps.catalogue.dataset.CatalogueDataSubset"),
            ("layout", .dict [("python_class", .str "eumopps.catalogue.storage.DataStorageFiles"), ("patterns", .null)])]])]])]

/-- roses/fullstace/advanced_standard/templates/advstd_outputgrid_template.json, lines 1-56. -/
def gridTemplate : Json :=
  .dict [
    ("python_class", .str "eumopps.catalogue.operation.Operation"),
    ("name", .null),
    ("runmodule", .dict [
      ("python_function", .str "eustace.analysis.advanced_standard.examples.moving_climatology.output_grid"),
      ("storage_climatology", .dict [
        ("python_class", .str "eustace.analysis.advanced_standard.components.storage_files.SpaceTimeComponentSolutionStorage_Files"),
        ("statefilename_read", .dict [
          ("python_class", .str "eumopps.catalogue.placeholder.InputFile"),
          ("datasetname", .null),
          ("missing_data", .str "allowed")]),
        ("sample_filename_read", .dict [
          ("python_class", .str "eumopps.catalogue.placeholder.InputFile"),
          ("datasetname", .null),
          ("missing_data", .str "allowed")]),
        ("prior_sample_filename_read", .dict [
          ("python_class", .str "eumopps.catalogue.placeholder.InputFile"),
          ("datasetname", .null),
          ("missing_data", .str "allowed")])]),
      ("storage_large_scale", .dict [
        ("python_class", .str "eustace.analysis.advanced_standard.components.storage_files.SpaceTimeComponentSolutionStorage_Files"),
        ("statefilename_read", .dict [
          ("python_class", .str "eumopps.catalogue.placeholder.InputFile"),
          ("datasetname", .null),
          ("missing_data", .str "allowed")]),
        ("sample_filename_read", .dict [
          ("python_class", .str "eumopps.catalogue.placeholder.InputFile"),
          ("datasetname", .null),
          ("missing_data", .str "allowed")]),
        ("prior_sample_filename_read", .dict [
          ("python_class", .str "eumopps.catalogue.placeholder.InputFile"),
          ("datasetname", .null),
          ("missing_data", .str "allowed")])]),
      ("storage_local", .dict [
        ("python_class", .str "eustace.analysis.advanced_standard.components.storage_files.SpatialComponentSolutionStorage_Files"),
        ("time_index", .dict [("python_class", .str "eustace.analysis.advanced_standard.examples.placeholder.AnalysisStepIndex")]),
        ("statefilename_read", .dict [
          ("python_class", .str "eumopps.catalogue.placeholder.InputFile"),
          ("datasetname", .null),
          ("missing_data", .str "allowed")]),
        ("sample_filename_read", .dict [
          ("python_class", .str "eumopps.catalogue.placeholder.InputFile"),
          ("datasetname", .null),
          ("missing_data", .str "allowed")]),
        ("prior_sample_filename_read", .dict [
          ("python_class", .str "eumopps.catalogue.placeholder.InputFile"),
          ("datasetname", .null),
          ("missing_data", .str "allowed")])]),
      ("processdate", .dict [("python_class", .str "eumopps.catalogue.placeholder.StepTime")]),
      ("time_index", .dict [("python_class", .str "eustace.analysis.advanced_standard.examples.placeholder.AnalysisStepIndex")]),
      ("outputfile", .dict [("python_class", .str "eumopps.catalogue.placeholder.OutputFile"), ("datasetname", .null)]),
      ("covariates_descriptor", .str "/gws/nopw/j04/eustace/data/internal/climatology_covariates/covariates.json"),
      ("insitu_biases", .null),
      ("breakpoints_file", .str "/gws/nopw/j04/eustace/data/internal/D1.7/daily/eustace_stations_global_R001127_daily_status.nc"),
      ("global_biases", .null),
      ("global_biases_group_list", .list [
        .str "surfaceairmodel_ice_global",
        .str "surfaceairmodel_land_global",
        .str "surfaceairmodel_ocean_global"])]),
    ("step", .dict [("python_class", .str "eumopps.catalogue.step.StepDaily"), ("start", .null), ("end", .null)]),
    ("newdatasets", .list [
      .dict [
        ("python_class", .str "eumopps.catalogue.dataset.CatalogueDataSet"),
        ("name", .null),
        ("subsets", .list [
          .dict [
            ("python_class", .str "eumopps.catalogue.dataset.CatalogueDataSubset"),
            ("layout", .dict [("python_class", .str "eumopps.catalogue.storage.DataStorageFiles"), ("patterns", .null)])]])]])]

end Verif.Eustace.Descriptor
