{
 "claims": [
  {
   "property": "C01",
   "status": "proved",
   "theorems": [
    "Verif.Eumopps.Checksum.c01_ranges_partition",
    "Verif.Eumopps.Checksum.c01_each_file_one_worker",
    "Verif.Eumopps.Checksum.c01_error"
   ],
   "note": "All totals and all positive thread numbers; the only error is a zero thread number."
  },
  {
   "property": "C02",
   "status": "proved",
   "theorems": [
    "Verif.Eumopps.Checksum.c02_concurrent_eq_sequential",
    "Verif.Eumopps.Checksum.c02_progress"
   ],
   "note": "All interleavings of atomic field assignments; file reading is a parameter fixed per name."
  },
  {
   "property": "C03",
   "status": "partial",
   "theorems": [
    "Verif.Eumopps.Checksum.c03_thread_bound_violated",
    "Verif.Eumopps.Checksum.c03_thread_bound_partial"
   ],
   "note": "The advertised bound of 64 threads is false of the code (127 files start 127 threads); proved: fewer than twice the bound."
  },
  {
   "property": "C04",
   "status": "proved",
   "theorems": [
    "Verif.Eumopps.Reference.c04_decode_encode",
    "Verif.Eumopps.Reference.c04_encode_decode"
   ],
   "note": "All reference lists and all integer lists."
  },
  {
   "property": "C05",
   "status": "proved",
   "theorems": [
    "Verif.Eumopps.Placeholder.c05_references"
   ],
   "note": "All catalogues, step objects and file orders; stable sort, groupby and dictionary lookup are modelled."
  },
  {
   "property": "C06",
   "status": "proved",
   "theorems": [
    "Verif.Eumopps.Placeholder.c06_policy",
    "Verif.Eumopps.Placeholder.c06_single_file"
   ],
   "note": "All policies, catalogues and steps. Hypothesis: file times convert to a step without raising (otherwise the exception propagates)."
  },
  {
   "property": "C07",
   "status": "proved",
   "theorems": [
    "Verif.Eumopps.Placeholder.c05_references"
   ],
   "note": "Second branch of Spec.Selected (lookup by generated name, last duplicate wins)."
  },
  {
   "property": "C08",
   "status": "proved",
   "theorems": [
    "Verif.Eumopps.Placeholder.c08_outputs",
    "Verif.Eumopps.Placeholder.c08_refused"
   ],
   "note": "All catalogues, steps and operation lists."
  },
  {
   "property": "C09",
   "status": "proved",
   "theorems": [
    "Verif.Eumopps.Operation.c09_alignment",
    "Verif.Eumopps.Operation.c09_lengths"
   ],
   "note": "All parameter trees (any nesting), catalogues and steps."
  },
  {
   "property": "C10",
   "status": "partial",
   "theorems": [
    "Verif.Eumopps.Operation.c10_single",
    "Verif.Eumopps.Operation.c10_mismatch_fails",
    "Verif.Eumopps.Operation.c10_beyond_fails",
    "Verif.Eumopps.Operation.c10_index_range_violated"
   ],
   "note": "Selection is proved right for all indices in range and count mismatches are refused; refusal of out-of-range indices is false of the code for negative indices and for modules without lists (negation proved)."
  },
  {
   "property": "C100",
   "status": "partial",
   "theorems": [
    "Verif.Eustace.AnnualBatch.c100_outputs",
    "Verif.Eustace.AnnualBatch.c100_own_file_partial",
    "Verif.Eustace.AnnualBatch.c100_refused"
   ],
   "note": "All catalogues, whole-second periods and lists of operations. That no two days share a file needs each field within one pattern and no later absolute pattern (as C16), and years below 10000."
  },
  {
   "property": "C101",
   "status": "partial",
   "theorems": [
    "Verif.Eustace.AnnualBatch.c101_days",
    "Verif.Eustace.AnnualBatch.c101_steps_partial",
    "Verif.Eustace.AnnualBatch.c101_violated"
   ],
   "note": "All whole-second periods from 1850 on. One number for each step unless the end is earlier in its day than the start, when there is one more (negation proved)."
  },
  {
   "property": "C102",
   "status": "proved",
   "theorems": [
    "Verif.Eustace.SphereView.c102_numbering",
    "Verif.Eustace.SphereView.c102_roughness",
    "Verif.Eustace.SphereView.c102_free_boundary",
    "Verif.Eustace.SphereView.c102_mass",
    "Verif.Eustace.SphereView.c102_precision",
    "Verif.Eustace.SphereView.c102_operator",
    "Verif.Eustace.SphereView.c102_stationary",
    "Verif.Eustace.SphereView.c102_triangles",
    "Verif.Eustace.SphereView.c102_assembly",
    "Verif.Eustace.SphereView.c102_interior",
    "Verif.Eustace.SphereView.c102_super",
    "Verif.Eustace.SphereView.c102_core_rows",
    "Verif.Eustace.SphereView.c102_global"
   ],
   "note": "All sound meshes (levels up to 28 of the subdivided icosahedron are), all regions.  Real arithmetic."
  },
  {
   "property": "C103",
   "status": "proved",
   "theorems": [
    "Verif.Eustace.SphereView.c103_rows",
    "Verif.Eustace.SphereView.c103_one_domain",
    "Verif.Eustace.SphereView.c103_rows_add_up"
   ],
   "note": "All locations but the centre of the sphere, levels up to 28, all views.  Real arithmetic."
  },
  {
   "property": "C104",
   "status": "partial",
   "theorems": [
    "Verif.Eustace.CppReader.c104_day",
    "Verif.Eustace.CppReader.c104_cache",
    "Verif.Eustace.CppReader.c104_format",
    "Verif.Eustace.CppReader.c104_cut",
    "Verif.Eustace.CppReader.c104_counts",
    "Verif.Eustace.CppReader.c104_total",
    "Verif.Eustace.CppReader.c104_missing",
    "Verif.Eustace.CppReader.c104_uuid_violated",
    "Verif.Eustace.CppReader.c104_header_cut_violated",
    "Verif.Eustace.CppReader.c104_missing_violated"
   ],
   "note": "True for all files Python writes, all requests and caches. Files cut within their header are read as empty days, missing files can be (depending on uninitialised memory), and identifiers of location tables are never compared (negations proved)."
  },
  {
   "property": "C105",
   "status": "partial",
   "theorems": [
    "Verif.Eustace.CppReader.c105_pointers",
    "Verif.Eustace.CppReader.c105_series",
    "Verif.Eustace.CppReader.c105_unknown_violated",
    "Verif.Eustace.CppReader.c105_location_violated",
    "Verif.Eustace.CppReader.c105_missing_violated",
    "Verif.Eustace.CppReader.c105_mobile_violated"
   ],
   "note": "Values and days true for all days and requests of known locations. The location given by the iterator is that of the day number; an unknown location empties the rest of the request; missing day files give zeros; nothing for ships (negations proved). File sizes below 2^64."
  },
  {
   "property": "C106",
   "status": "partial",
   "theorems": [
    "Verif.Eustace.CppReader.c106_number",
    "Verif.Eustace.CppReader.c106_constant",
    "Verif.Eustace.CppReader.c106_inverse",
    "Verif.Eustace.CppReader.c106_day_names",
    "Verif.Eustace.CppReader.c106_pointers_name",
    "Verif.Eustace.CppReader.c106_distinct",
    "Verif.Eustace.CppReader.c106_zone_violated",
    "Verif.Eustace.CppReader.c106_tables_violated"
   ],
   "note": "Day numbers exact in zones whose offset has not grown since 1850, one too small otherwise (both proved); names of day and pointer files agree, those of correlation ranges and location tables do not (negation proved). Years of four digits."
  },
  {
   "property": "C107",
   "status": "partial",
   "theorems": [
    "Verif.Eustace.BreakPoints.c107_read",
    "Verif.Eustace.BreakPoints.c107_read_station",
    "Verif.Eustace.BreakPoints.c107_count",
    "Verif.Eustace.BreakPoints.c107_file_station",
    "Verif.Eustace.BreakPoints.c107_lookup",
    "Verif.Eustace.BreakPoints.c107_cutoff",
    "Verif.Eustace.BreakPoints.c107_cutoff_rows",
    "Verif.Eustace.BreakPoints.c107_kernel",
    "Verif.Eustace.BreakPoints.c107_kernel_all",
    "Verif.Eustace.BreakPoints.c107_codes",
    "Verif.Eustace.BreakPoints.c107_twice",
    "Verif.Eustace.BreakPoints.c107_stations",
    "Verif.Eustace.BreakPoints.c107_filtered",
    "Verif.Eustace.BreakPoints.c107_cpp_stations",
    "Verif.Eustace.BreakPoints.c107_cpp_policies",
    "Verif.Eustace.BreakPoints.c107_cpp_codes",
    "Verif.Eustace.BreakPoints.c107_cpp_file",
    "Verif.Eustace.BreakPoints.c107_count_violated",
    "Verif.Eustace.BreakPoints.c107_nomask_violated",
    "Verif.Eustace.BreakPoints.c107_feasibility_violated",
    "Verif.Eustace.BreakPoints.c107_negative_violated",
    "Verif.Eustace.BreakPoints.c107_cpp_missing_violated",
    "Verif.Eustace.BreakPoints.c107_cpp_memory_violated"
   ],
   "note": "True for all files whose likelihoods have an array of masks, with values 0 to 127 for the kernel. The count from the file alone includes missing likelihoods; a masked array without masks gains a dimension; the feasibility of a station is that of the next one; negative likelihoods overflow; C++ keeps missing likelihoods unless cut, and writes beyond its buffers (negations proved)."
  },
  {
   "property": "C108",
   "status": "proved",
   "theorems": [
    "Verif.Eustace.BreakPoints.c108_element",
    "Verif.Eustace.BreakPoints.c108_design",
    "Verif.Eustace.BreakPoints.c108_value",
    "Verif.Eustace.BreakPoints.c108_periods",
    "Verif.Eustace.BreakPoints.c108_stations",
    "Verif.Eustace.BreakPoints.c108_column",
    "Verif.Eustace.BreakPoints.c108_grid",
    "Verif.Eustace.BreakPoints.c108_order_violated"
   ],
   "note": "For all files in order of stations and times (observed stations increasing, as the raw binary format has them). Without that order the claim is false (negation proved)."
  },
  {
   "property": "C109",
   "status": "partial",
   "theorems": [
    "Verif.Eustace.Definitions.c109_repeats",
    "Verif.Eustace.Definitions.c109_weights",
    "Verif.Eustace.Definitions.c109_period",
    "Verif.Eustace.Definitions.c109_quantised",
    "Verif.Eustace.Definitions.c109_months",
    "Verif.Eustace.Definitions.c109_latitudes",
    "Verif.Eustace.Definitions.c109_climatology_prior",
    "Verif.Eustace.Definitions.c109_example_prior",
    "Verif.Eustace.Definitions.c109_large_scale_prior",
    "Verif.Eustace.Definitions.c109_local_prior",
    "Verif.Eustace.Definitions.c109_nonstationary_prior",
    "Verif.Eustace.Definitions.c109_local_design",
    "Verif.Eustace.Definitions.c109_large_scale_design",
    "Verif.Eustace.Definitions.c109_climatology_design",
    "Verif.Eustace.Definitions.c109_local_size",
    "Verif.Eustace.Definitions.c109_climatology_repeats",
    "Verif.Eustace.Definitions.c109_large_scale_period",
    "Verif.Eustace.Definitions.c109_descriptor",
    "Verif.Eustace.Definitions.c109_descriptor_violated",
    "Verif.Eustace.Definitions.c109_ice_violated"
   ],
   "note": "True for all definitions of model_structure.py. The older local definition of example_eustace.py has too few biases for ice and fails on any day with southern ice; the descriptor of covariates shipped with the examples cannot be loaded (negations proved)."
  },
  {
   "property": "C11",
   "status": "partial",
   "theorems": [
    "Verif.Eumopps.Run.c11_batch_count",
    "Verif.Eumopps.Run.c11_unique_pair",
    "Verif.Eumopps.Run.c11_batch_position",
    "Verif.Eumopps.Run.c11_past_end_partial",
    "Verif.Eumopps.Run.c11_past_end_violated"
   ],
   "note": "Counting and enumeration proved in full; positions past the end are refused only if the module has a per-operation list (negation proved otherwise)."
  },
  {
   "property": "C110",
   "status": "partial",
   "theorems": [
    "Verif.Eustace.Projector.c110_cells",
    "Verif.Eustace.Projector.c110_blocks",
    "Verif.Eustace.Projector.c110_days",
    "Verif.Eustace.Projector.c110_batch",
    "Verif.Eustace.Projector.c110_influence",
    "Verif.Eustace.Projector.c110_single",
    "Verif.Eustace.Projector.c110_variance",
    "Verif.Eustace.Projector.c110_deviation",
    "Verif.Eustace.Projector.c110_regridder",
    "Verif.Eustace.Projector.c110_local",
    "Verif.Eustace.Projector.c110_saved",
    "Verif.Eustace.Projector.c110_refuses",
    "Verif.Eustace.Projector.c110_blocks_violated",
    "Verif.Eustace.Projector.c110_samples_violated",
    "Verif.Eustace.Projector.c110_fraction_violated",
    "Verif.Eustace.Projector.c110_stale_violated"
   ],
   "note": "True for the batched output of all days, grids and components without factors whose slow states are stored once (as in the analysis), with no more blocks than cells. output_grid does not limit the ratio of variances; a component with a state for each day keeps that of the first day when only the time is changed; more blocks than cells and solutions without draws fail (negations proved). Real arithmetic."
  },
  {
   "property": "C111",
   "status": "partial",
   "theorems": [
    "Verif.Eustace.Projector.c111_constraint",
    "Verif.Eustace.Projector.c111_flags_partial",
    "Verif.Eustace.Projector.c111_missed_violated"
   ],
   "note": "True for weights which are not negative. With weights of both signs cells are missed (negation proved for harmonics of latitude). Real arithmetic."
  },
  {
   "property": "C112",
   "status": "partial",
   "theorems": [
    "Verif.Eustace.Merge.c112_clean",
    "Verif.Eustace.Merge.c112_lengths",
    "Verif.Eustace.Merge.c112_sizes",
    "Verif.Eustace.Merge.c112_unpaired",
    "Verif.Eustace.Merge.c112_merge",
    "Verif.Eustace.Merge.c112_missing",
    "Verif.Eustace.Merge.c112_bound",
    "Verif.Eustace.Merge.c112_independent",
    "Verif.Eustace.Merge.c112_correlated",
    "Verif.Eustace.Merge.c112_day",
    "Verif.Eustace.Merge.c112_nothing",
    "Verif.Eustace.Merge.c112_mismatch_violated",
    "Verif.Eustace.Merge.c112_days_violated",
    "Verif.Eustace.Merge.c112_complete_violated"
   ],
   "note": "True for one day whenever the two files of each instrument are both there or both missing, labels differ and no name looks like a labelled one. A primary file of one instrument can be merged with an ancillary file of another; several days with different numbers of instruments cannot be merged by one object; sources without missing cells fail with netCDF4 before 1.4 (negations proved). Real arithmetic; packing left out."
  },
  {
   "property": "C113",
   "status": "partial",
   "theorems": [
    "Verif.Eustace.Merge.c113_single",
    "Verif.Eustace.Merge.c113_days",
    "Verif.Eustace.Merge.c112_merge",
    "Verif.Eustace.Merge.c113_check",
    "Verif.Eustace.Merge.c113_ranges",
    "Verif.Eustace.Merge.c113_overwrite_violated",
    "Verif.Eustace.Merge.c113_check_violated",
    "Verif.Eustace.Merge.c113_empty_violated",
    "Verif.Eustace.Merge.c113_ranges_violated"
   ],
   "note": "True for labels which occur once in the path. A merged file with the name of a source is deleted with the sources; the check accepts any part of the expected name; a day without sources ends a merging of several days; the scales of ocean.json name variables which do not exist (negations proved)."
  },
  {
   "property": "C114",
   "status": "partial",
   "theorems": [
    "Verif.Eustace.Ice.c114_mean",
    "Verif.Eustace.Ice.c114_max",
    "Verif.Eustace.Ice.c114_min_partial",
    "Verif.Eustace.Ice.c114_shape",
    "Verif.Eustace.Ice.c114_night_violated",
    "Verif.Eustace.Ice.c114_warm_violated",
    "Verif.Eustace.Ice.c114_shape_violated"
   ],
   "note": "Proved for mean and maximum temperatures, all grids of at least five by five cells. For minimum temperatures the comparison with the night has no effect, as an absolute value is compared with -20; only the mean is compared with the upper limit; the shape of the land mask is compared with itself (negations proved). Real arithmetic; not-a-number left out."
  },
  {
   "property": "C115",
   "status": "partial",
   "theorems": [
    "Verif.Eustace.Ice.c115_process",
    "Verif.Eustace.Ice.c115_load",
    "Verif.Eustace.Ice.c115_total",
    "Verif.Eustace.Ice.c115_cloud_violated",
    "Verif.Eustace.Ice.c115_order_violated"
   ],
   "note": "Values, masks and totals proved for all inputs. The uncertainty of clouds can be negative and nothing keeps minimum and maximum in order (negations proved). Real arithmetic."
  },
  {
   "property": "C116",
   "status": "partial",
   "theorems": [
    "Verif.Eustace.Ice.c116_rows",
    "Verif.Eustace.Ice.c116_alignment_violated"
   ],
   "note": "Proved when the northern latitudes lie (within 1e-6) on the grid of the southern ones after their last row. This is not checked: off the grid the first northern row can replace the last southern one (negation proved)."
  },
  {
   "property": "C117",
   "status": "proved",
   "theorems": [
    "Verif.Eustace.SurfaceAir.c117_land",
    "Verif.Eustace.SurfaceAir.c117_ocean",
    "Verif.Eustace.SurfaceAir.c117_ranges",
    "Verif.Eustace.SurfaceAir.c117_ranges_written"
   ],
   "note": "For all files. Real arithmetic; not-a-number left out; arrays of other shapes which numpy would repeat are treated as an error."
  },
  {
   "property": "C118",
   "status": "partial",
   "theorems": [
    "Verif.Eustace.SurfaceAir.c118_post",
    "Verif.Eustace.SurfaceAir.c118_ordered_partial",
    "Verif.Eustace.SurfaceAir.c118_ordered_violated"
   ],
   "note": "Exact effect proved for all inputs. A field without any missing cell is not changed (the mask is set on a temporary slice), so the minimum may stay above the maximum although the cell is counted as removed (negation proved)."
  },
  {
   "property": "C119",
   "status": "partial",
   "theorems": [
    "Verif.Eustace.SurfaceAir.c119_land_day",
    "Verif.Eustace.SurfaceAir.c119_ocean_day",
    "Verif.Eustace.SurfaceAir.c119_mismatch",
    "Verif.Eustace.SurfaceAir.c119_land_days",
    "Verif.Eustace.SurfaceAir.c119_ocean_days",
    "Verif.Eustace.SurfaceAir.c119_untouched",
    "Verif.Eustace.SurfaceAir.c119_date",
    "Verif.Eustace.SurfaceAir.c119_date_example",
    "Verif.Eustace.SurfaceAir.c119_parameters_violated",
    "Verif.Eustace.SurfaceAir.c119_parameters_fail_violated",
    "Verif.Eustace.SurfaceAir.c119_date_violated",
    "Verif.Eustace.SurfaceAir.c119_directory_violated",
    "Verif.Eustace.SurfaceAir.c119_no_date"
   ],
   "note": "Proved for days which share parameters, masks, elevation and vegetation, with snow files given; those of later days are ignored (negation proved). Dates proved for names with no digit just before the date and no eight digits earlier (negations proved). Programs in IDL are a parameter."
  },
  {
   "property": "C12",
   "status": "partial",
   "theorems": [
    "Verif.Eumopps.Time.c12_inverse",
    "Verif.Eumopps.Time.c12_day_partial",
    "Verif.Eumopps.Time.c12_before",
    "Verif.Eumopps.Time.c12_count",
    "Verif.Eumopps.Time.c12_count_days",
    "Verif.Eumopps.Time.c12_violated",
    "Verif.Eumopps.Time.c12_count_violated"
   ],
   "note": "Inverse and count proved in full; index = day proved for whole-second instants from the start on. The rest of the claim is false of the code: instants within 24 h before the start get index 0, fractions of a second count as fractions of a day (negations proved)."
  },
  {
   "property": "C120",
   "status": "partial",
   "theorems": [
    "Verif.Eustace.SurfaceAir.c120_lakes",
    "Verif.Eustace.SurfaceAir.c120_table",
    "Verif.Eustace.SurfaceAir.c120_apart_partial",
    "Verif.Eustace.SurfaceAir.c120_apart_violated",
    "Verif.Eustace.SurfaceAir.c120_zero"
   ],
   "note": "Numbers are equal exactly if signatures are; places which differ in the signature by four millionths have different numbers; but places kilometres apart can share a signature, as latitude is multiplied by 360 only (negation proved)."
  },
  {
   "property": "C121",
   "status": "partial",
   "theorems": [
    "Verif.Eustace.Format.c121_temperatures",
    "Verif.Eustace.Format.c121_perturbations",
    "Verif.Eustace.Format.c121_uncertainties",
    "Verif.Eustace.Format.c121_fractions",
    "Verif.Eustace.Format.c121_outside",
    "Verif.Eustace.Format.c121_order",
    "Verif.Eustace.Format.c121_rewrite",
    "Verif.Eustace.Format.c121_uncertainties_violated",
    "Verif.Eustace.Format.c121_low_violated",
    "Verif.Eustace.Format.c121_small_violated"
   ],
   "note": "Proved for values within the ranges. Values outside wrap around or become missing without an error, and uncertainties below 0.0005 K become zero (negations proved). Packing as by netCDF4: exact division, rounding to even, conversion to 16 bits modulo 65536."
  },
  {
   "property": "C122",
   "status": "partial",
   "theorems": [
    "Verif.Eustace.Format.c122_verdict",
    "Verif.Eustace.Format.c122_unopened",
    "Verif.Eustace.Format.c122_built",
    "Verif.Eustace.Format.c122_accepts",
    "Verif.Eustace.Format.c122_names",
    "Verif.Eustace.Format.c122_complete_violated",
    "Verif.Eustace.Format.c122_reuse_violated"
   ],
   "note": "Exact verdict proved. A file without temperatures, latitudes, longitudes and times passes, and a verifier which has seen a bad file fails good ones (negations proved)."
  },
  {
   "property": "C123",
   "status": "partial",
   "theorems": [
    "Verif.Eustace.Format.c123_fields",
    "Verif.Eustace.Format.c123_filled",
    "Verif.Eustace.Format.c123_missing",
    "Verif.Eustace.Format.c123_long_name",
    "Verif.Eustace.Format.c123_inherits",
    "Verif.Eustace.Format.c123_accepts",
    "Verif.Eustace.Format.c123_definitions",
    "Verif.Eustace.Format.c123_packing",
    "Verif.Eustace.Format.c123_quantity_partial",
    "Verif.Eustace.Format.c123_quantity_violated"
   ],
   "note": "Proved for all templates and definitions but for three long names, which are wrong (negation proved). Templates are without doubled brackets or format specifications."
  },
  {
   "property": "C124",
   "status": "partial",
   "theorems": [
    "Verif.Eustace.Format.c124_places",
    "Verif.Eustace.Format.c124_local_time",
    "Verif.Eustace.Format.c124_day",
    "Verif.Eustace.Format.c124_axes",
    "Verif.Eustace.Format.c124_day_violated"
   ],
   "note": "Proved for day numbers below 2 to the 24; later days are rounded (negation proved). The axes are computed with exact arithmetic before they are stored in single precision."
  },
  {
   "property": "C125",
   "status": "partial",
   "theorems": [
    "Verif.Eustace.Stations.c125_cells",
    "Verif.Eustace.Stations.c125_accepts",
    "Verif.Eustace.Stations.c125_unknown_violated",
    "Verif.Eustace.Stations.c125_shared_violated"
   ],
   "note": "Proved when samples are of known stations, names are distinct and times of the axis are a thousandth of a day apart. A sample of an unknown station is put at all stations, and those of stations which share a name at the last one (negations proved)."
  },
  {
   "property": "C126",
   "status": "partial",
   "theorems": [
    "Verif.Eustace.Stations.c126_times",
    "Verif.Eustace.Stations.c126_axis",
    "Verif.Eustace.Stations.c126_apart_partial",
    "Verif.Eustace.Stations.c126_midnight_violated",
    "Verif.Eustace.Stations.c126_order_violated"
   ],
   "note": "Distinct times may be close if they are of different days, in which case samples at the second are put in the row of the first, and the result depends on the order of samples (negations proved). Days before the epoch are left out of the statement about closeness."
  },
  {
   "property": "C127",
   "status": "partial",
   "theorems": [
    "Verif.Eustace.Stations.c127_breaks",
    "Verif.Eustace.Stations.c127_accepts",
    "Verif.Eustace.Stations.c127_quantities",
    "Verif.Eustace.Stations.c127_names",
    "Verif.Eustace.Stations.c127_names_apart",
    "Verif.Eustace.Stations.c127_names_violated"
   ],
   "note": "Proved for distinct names of stations, and in files for names of up to 32 bytes; longer ones are cut off (negation proved). Names of variables are taken as split already."
  },
  {
   "property": "C128",
   "status": "proved",
   "theorems": [
    "Verif.Eustace.Submit.c128_jobs",
    "Verif.Eustace.Submit.c128_grouped",
    "Verif.Eustace.Submit.c128_accepts",
    "Verif.Eustace.Submit.c128_refuses",
    "Verif.Eustace.Submit.c128_failure",
    "Verif.Eustace.Submit.c128_output_files",
    "Verif.Eustace.Submit.c128_output_files_grouped",
    "Verif.Eustace.Submit.c128_runlsf",
    "Verif.Eustace.Submit.c128_solver",
    "Verif.Eustace.Submit.c128_whole"
   ],
   "note": "The batch system is represented by its replies. Scripts which do not shorten the last array also give numbers beyond the last operation (c128_whole)."
  },
  {
   "property": "C129",
   "status": "partial",
   "theorems": [
    "Verif.Eustace.Submit.c129_order",
    "Verif.Eustace.Submit.c129_runs",
    "Verif.Eustace.Submit.c129_grouped_partial",
    "Verif.Eustace.Submit.c129_grouped_violated",
    "Verif.Eustace.Submit.c129_optimisation_violated",
    "Verif.Eustace.Submit.c129_single_violated"
   ],
   "note": "Proved for iterations of single operations. In groups a failed operation does not stop later stages; the stages of optimisation do not wait; eustace_single_iteration never succeeds (negations proved). The meaning of conditions and of the end of jobs is a specification of the batch system."
  },
  {
   "property": "C13",
   "status": "proved",
   "theorems": [
    "Verif.Eumopps.Time.c13_number",
    "Verif.Eumopps.Time.c13_roundtrip",
    "Verif.Eumopps.Time.c13_roundtrip_number"
   ],
   "note": "All instants; round trip holds exactly for whole seconds."
  },
  {
   "property": "C130",
   "status": "partial",
   "theorems": [
    "Verif.Eustace.Submit.c130_order",
    "Verif.Eustace.Submit.c130_empty_violated"
   ],
   "note": "Proved when every stage has operations; a stage without operations makes later stages forget what to wait for (negation proved)."
  },
  {
   "property": "C131",
   "status": "partial",
   "theorems": [
    "Verif.Eustace.Submit.c131_suite_once",
    "Verif.Eustace.Submit.c131_suite_final",
    "Verif.Eustace.Submit.c131_scheduling_violated"
   ],
   "note": "Proved for the suite itself. The functions for suites in eumopps.catalogue.jinja call a method which does not exist (negation proved)."
  },
  {
   "property": "C132",
   "status": "partial",
   "theorems": [
    "Verif.Eustace.Insitu.c132_day",
    "Verif.Eustace.Insitu.c132_hold_out_partial",
    "Verif.Eustace.Insitu.c132_hold_out_violated",
    "Verif.Eustace.Insitu.c132_all_partial",
    "Verif.Eustace.Insitu.c132_all_violated",
    "Verif.Eustace.Insitu.c132_absent"
   ],
   "note": "Whatever is unmasked on a day may be used. With checks and a list, flags of the first row of the file mask other days as well; for a whole file without a list the checks are ignored (negations proved). Masks are full arrays."
  },
  {
   "property": "C133",
   "status": "proved",
   "theorems": [
    "Verif.Eustace.Insitu.c133_day",
    "Verif.Eustace.Insitu.c133_grid_point",
    "Verif.Eustace.Insitu.c133_direction",
    "Verif.Eustace.Insitu.c133_error"
   ],
   "note": "Real arithmetic. The reference altitude is the interpolation of C89."
  },
  {
   "property": "C134",
   "status": "partial",
   "theorems": [
    "Verif.Eustace.Insitu.c134_place",
    "Verif.Eustace.Insitu.c134_written",
    "Verif.Eustace.Insitu.c134_adjusted",
    "Verif.Eustace.Insitu.c134_refused",
    "Verif.Eustace.Insitu.c134_absent",
    "Verif.Eustace.Insitu.c134_adjustment_violated"
   ],
   "note": "With a reference surface but without a list of stations to be held out no file is ever written (negation proved). With checks and a list the first row must have no flags (C132). Sources other than stations over land are not modelled here."
  },
  {
   "property": "C135",
   "status": "partial",
   "theorems": [
    "Verif.Eustace.Insitu.Ocean.c135_read",
    "Verif.Eustace.Insitu.Ocean.c135_kelvin",
    "Verif.Eustace.Insitu.Ocean.c135_degrees",
    "Verif.Eustace.Insitu.Ocean.c135_titles",
    "Verif.Eustace.Insitu.Ocean.c135_single_violated",
    "Verif.Eustace.Insitu.Ocean.c135_blank_violated",
    "Verif.Eustace.Insitu.Ocean.c135_pole_violated"
   ],
   "note": "A file with exactly one report cannot be read; a blank temperature is read as -0.01 degrees Celsius; latitude 90 becomes more than 90 (negations proved). numpy.genfromtxt is modelled for fixed width and these types."
  },
  {
   "property": "C136",
   "status": "partial",
   "theorems": [
    "Verif.Eustace.Insitu.Ocean.c136_written",
    "Verif.Eustace.Insitu.Ocean.c136_quantity_violated"
   ],
   "note": "Proved for the mean; another quantity leaves a readable file without observations (negation proved)."
  },
  {
   "property": "C137",
   "status": "proved",
   "theorems": [
    "Verif.Eustace.Masking.c137_threshold",
    "Verif.Eustace.Masking.c137_complete"
   ],
   "note": "Rational numbers, no missing values in the analysis."
  },
  {
   "property": "C138",
   "status": "partial",
   "theorems": [
    "Verif.Eustace.Masking.c138_outliers",
    "Verif.Eustace.Masking.c138_location",
    "Verif.Eustace.Masking.c138_quantile",
    "Verif.Eustace.Masking.c138_region",
    "Verif.Eustace.Masking.c138_north",
    "Verif.Eustace.Masking.c138_pole_violated"
   ],
   "note": "The flags are exactly these. The region does not reach 750 km to the east near the poles, where it is limited to 50 cells (negation proved)."
  },
  {
   "property": "C139",
   "status": "proved",
   "theorems": [
    "Verif.Eustace.Masking.c139_published",
    "Verif.Eustace.Masking.c139_words"
   ],
   "note": "For complete archives and consistent settings (checked for those in the scripts). Storing and reading the fields is in C121; attributes are not modelled."
  },
  {
   "property": "C14",
   "status": "partial",
   "theorems": [
    "Verif.Eumopps.Time.c14_elapsed_partial",
    "Verif.Eumopps.Time.c14_strictMono_partial",
    "Verif.Eumopps.Time.c14_roundtrip_partial",
    "Verif.Eumopps.Time.c14_back",
    "Verif.Eumopps.Time.daysToNumber_eq",
    "Verif.Eumopps.Time.c14_violated"
   ],
   "note": "True for whole seconds; with microseconds the number is wrong by an exactly stated amount (negation proved)."
  },
  {
   "property": "C140",
   "status": "partial",
   "theorems": [
    "Verif.Eustace.Masking.c140_month_violated",
    "Verif.Eustace.Masking.c140_percentile_violated",
    "Verif.Eustace.Masking.c140_iteration_violated",
    "Verif.Eustace.Masking.c140_members_violated"
   ],
   "note": "False: nothing is published for later days of the month, or for the same calendar day in all years if the day is in the reference period; for iterations other than 4 and 9 nothing is published; members get new numbers (negations proved, for all archives)."
  },
  {
   "property": "C141",
   "status": "partial",
   "theorems": [
    "Verif.Eustace.Masking.c141_complete",
    "Verif.Eustace.Masking.c141_published",
    "Verif.Eustace.Masking.c141_output_grid_violated"
   ],
   "note": "Proved for output_grid_batch; files of output_grid lack the influence of observations and nothing is published (negation proved). Values are taken as stored (C121)."
  },
  {
   "property": "C142",
   "status": "proved",
   "theorems": [
    "Verif.Eustace.Descriptor.c142_reads",
    "Verif.Eustace.Descriptor.c142_declared",
    "Verif.Eustace.Descriptor.c142_created_once",
    "Verif.Eustace.Descriptor.c142_commands",
    "Verif.Eustace.Descriptor.c142_observations_kept"
   ],
   "note": "For the templates of the repository and different names of data sets (satisfied by build_descriptors.sh; see C146 for the defaults)."
  },
  {
   "property": "C143",
   "status": "proved",
   "theorems": [
    "Verif.Eustace.Descriptor.c143_states",
    "Verif.Eustace.Descriptor.c143_none_stale",
    "Verif.Eustace.Descriptor.c143_measurements",
    "Verif.Eustace.Descriptor.c143_gridding"
   ],
   "note": "For the templates of the repository."
  },
  {
   "property": "C144",
   "status": "proved",
   "theorems": [
    "Verif.Eustace.Descriptor.c144_arguments",
    "Verif.Eustace.Descriptor.c144_storage",
    "Verif.Eustace.Descriptor.c144_written",
    "Verif.Eustace.Descriptor.c144_unwritten",
    "Verif.Eustace.Descriptor.c144_sizes"
   ],
   "note": "Signatures and what functions write are stated from the sources of functions and storage classes; the functions themselves are in other topics."
  },
  {
   "property": "C145",
   "status": "proved",
   "theorems": [
    "Verif.Eustace.Descriptor.c145_names",
    "Verif.Eustace.Descriptor.c145_inputs"
   ],
   "note": "With gridding of the last iteration and everything submitted (C129 for the batch system). How the catalogue is made from the descriptor is in other topics."
  },
  {
   "property": "C146",
   "status": "partial",
   "theorems": [
    "Verif.Eustace.Descriptor.c146_files",
    "Verif.Eustace.Descriptor.c146_disjoint",
    "Verif.Eustace.Descriptor.c146_times",
    "Verif.Eustace.Descriptor.c146_default_violated"
   ],
   "note": "Proved for different names without fields or directories; with the default names of outputs the four files of a day are the same (negation proved)."
  },
  {
   "property": "C147",
   "status": "partial",
   "theorems": [
    "Verif.Eustace.Descriptor.c147_biases",
    "Verif.Eustace.Descriptor.c147_switch_violated"
   ],
   "note": "All operations have the same options; they cannot be switched off on the command line (negation proved)."
  },
  {
   "property": "C148",
   "status": "partial",
   "theorems": [
    "Verif.Eustace.Descriptor.c148_written",
    "Verif.Eustace.Descriptor.c148_check_partial",
    "Verif.Eustace.Descriptor.c148_empty_violated",
    "Verif.Eustace.Descriptor.c148_check_violated",
    "Verif.Eustace.Descriptor.c148_single_violated"
   ],
   "note": "Empty descriptors are written for negative numbers of iterations, the check fails whenever there is gridding, and the variant without batches never works (negations proved)."
  },
  {
   "property": "C149",
   "status": "partial",
   "theorems": [
    "Verif.Eustace.MonthlyBatch.c149_days",
    "Verif.Eustace.MonthlyBatch.c149_all_days",
    "Verif.Eustace.MonthlyBatch.c149_times",
    "Verif.Eustace.MonthlyBatch.c149_inputs",
    "Verif.Eustace.MonthlyBatch.c149_by_name_partial",
    "Verif.Eustace.MonthlyBatch.c149_name_violated",
    "Verif.Eustace.MonthlyBatch.c149_missing_day_violated"
   ],
   "note": "All catalogues and periods at whole seconds: one slot for each day of each month, in the order of the day numbers, the last file of the day or -1. False: files found by name when the period does not begin at midnight; days without a file in a month with some file are never refused (negations proved). Times of files at whole seconds."
  },
  {
   "property": "C15",
   "status": "partial",
   "theorems": [
    "Verif.Eumopps.Periods.c15_epoch",
    "Verif.Eumopps.Periods.c15_annual_index",
    "Verif.Eumopps.Periods.c15_annual_index_partial",
    "Verif.Eumopps.Periods.c15_annual_violated",
    "Verif.Eumopps.Periods.c15_annual_time",
    "Verif.Eumopps.Periods.c15_annual_count",
    "Verif.Eumopps.Periods.c15_monthly_index",
    "Verif.Eumopps.Periods.c15_monthly_index_partial",
    "Verif.Eumopps.Periods.c15_monthly_violated",
    "Verif.Eumopps.Periods.c15_monthly_time",
    "Verif.Eumopps.Periods.c15_monthly_count",
    "Verif.Eumopps.Periods.c15_annual_roundtrip",
    "Verif.Eumopps.Periods.c15_monthly_roundtrip"
   ],
   "note": "Indices characterised exactly, including float32 rounding: the last second of every year gets the next year index and the last microsecond of a month the next month index (negations proved); true otherwise."
  },
  {
   "property": "C150",
   "status": "partial",
   "theorems": [
    "Verif.Eustace.MonthlyBatch.c150_outputs",
    "Verif.Eustace.MonthlyBatch.c150_own_file_partial",
    "Verif.Eustace.MonthlyBatch.c150_refused",
    "Verif.Eustace.MonthlyBatch.c150_existing"
   ],
   "note": "All catalogues, whole-second periods and lists of operations. That no two days share a file needs each field within one pattern and no later absolute pattern (as C16), and years below 10000."
  },
  {
   "property": "C151",
   "status": "proved",
   "theorems": [
    "Verif.Eustace.MonthInput.c151_day",
    "Verif.Eustace.MonthInput.c151_month",
    "Verif.Eustace.MonthInput.c151_single",
    "Verif.Eustace.MonthInput.isObs_unique"
   ],
   "note": "All files, sources and days. Where means are computed, locations in each file increase. Values of float64 are given by a function from bits to real numbers."
  },
  {
   "property": "C152",
   "status": "partial",
   "theorems": [
    "Verif.Eustace.MonthInput.c152_solved",
    "Verif.Eustace.MonthInput.c152_days",
    "Verif.Eustace.MonthInput.c152_days_spatial",
    "Verif.Eustace.MonthInput.c152_empty_month_violated",
    "Verif.Eustace.MonthInput.c152_one_missing_violated",
    "Verif.Eustace.MonthInput.c152_no_ranges_violated"
   ],
   "note": "Linear components, storage empty before. False for a month without any observation (the component cannot be solved any more), for a day with maxima but without minima where errors are correlated, and for a day without a file of ranges: the month fails (negations proved)."
  },
  {
   "property": "C153",
   "status": "partial",
   "theorems": [
    "Verif.Eustace.Optimise.c153_split",
    "Verif.Eustace.Optimise.c153_none",
    "Verif.Eustace.Optimise.c153_ocean",
    "Verif.Eustace.Optimise.c153_template_values",
    "Verif.Eustace.Optimise.c153_template_violated",
    "Verif.Eustace.Optimise.c153_no_bias_violated",
    "Verif.Eustace.Optimise.c153_call_violated"
   ],
   "note": "Proved for every combination split by flags, and for the two definitions where only ocean temperatures have a bias. False with the groups of the templates: every part but the first counts as a bias, also the fields of biases, which the definition of the bias component does not have, so that its state is read at wrong places; no day can be split where there is no bias part; and the template passes an argument which does not exist (negations proved)."
  },
  {
   "property": "C154",
   "status": "proved",
   "theorems": [
    "Verif.Eustace.Optimise.c154_view",
    "Verif.Eustace.Optimise.c154_none"
   ],
   "note": "Every level up to 28, every view and state. A location is in the view when its base triangle is."
  },
  {
   "property": "C155",
   "status": "partial",
   "theorems": [
    "Verif.Eustace.Optimise.c155_solution",
    "Verif.Eustace.Optimise.c155_same_route",
    "Verif.Eustace.Optimise.c155_exact",
    "Verif.Eustace.Optimise.c155_uncertainties_violated",
    "Verif.Eustace.Optimise.c155_empty_day_violated",
    "Verif.Eustace.Optimise.c155_nonlinear_violated"
   ],
   "note": "Linear components, different days which all have observations, empty storage before. False for uncertainties in the systems in use (arguments given by position are shifted), for a day without observations (no day is solved), and for components which are not linear (TypeError) (negations proved)."
  },
  {
   "property": "C156",
   "status": "partial",
   "theorems": [
    "Verif.Eustace.Optimise.c156_time",
    "Verif.Eustace.Optimise.c156_day",
    "Verif.Eustace.Optimise.c156_merge",
    "Verif.Eustace.Optimise.c156_descriptor",
    "Verif.Eustace.Optimise.c156_order",
    "Verif.Eustace.Optimise.c156_order_violated",
    "Verif.Eustace.Optimise.c156_inputs",
    "Verif.Eustace.Optimise.c156_component",
    "Verif.Eustace.Optimise.c156_same_day_violated"
   ],
   "note": "Different days from 1850 on. The descriptor has the order of the files, not of time, and of two times on one day the first is lost (negations proved)."
  },
  {
   "property": "C157",
   "status": "proved",
   "theorems": [
    "Verif.Eustace.Descriptor.c157_period"
   ],
   "note": "Batch descriptors; dates in eight digits."
  },
  {
   "property": "C158",
   "status": "partial",
   "theorems": [
    "Verif.Eustace.MeshFile.c158_python",
    "Verif.Eustace.MeshFile.c158_mesh",
    "Verif.Eustace.MeshFile.c158_cpp",
    "Verif.Eustace.MeshFile.c158_cpp_mesh",
    "Verif.Eustace.MeshFile.c158_again_violated",
    "Verif.Eustace.MeshFile.c158_index_violated",
    "Verif.Eustace.MeshFile.c158_fourteen_violated",
    "Verif.Eustace.MeshFile.c158_missing_violated",
    "Verif.Eustace.MeshFile.c158_short_violated",
    "Verif.Eustace.MeshFile.c158_latitudes_violated",
    "Verif.Eustace.MeshFile.c158_option_violated"
   ],
   "note": "The same mesh is read in both languages, for thirteen or fewer levels of subdivision; float64 as real numbers. Violated: a mesh which was read cannot be written; indices of more than 31 bits; the reader in C++ does not refuse incomplete files; the option for rotation cannot be switched off by any text but the empty one."
  },
  {
   "property": "C159",
   "status": "proved",
   "theorems": [
    "Verif.Eustace.Descriptor.c159_kinds"
   ],
   "note": "Batch descriptors."
  },
  {
   "property": "C16",
   "status": "partial",
   "theorems": [
    "Verif.Eumopps.Names.c16_substitution",
    "Verif.Eumopps.Names.c16_build",
    "Verif.Eumopps.Names.c16_names_differ_partial",
    "Verif.Eumopps.Names.c16_contains",
    "Verif.Eumopps.Names.c16_accepted_single_partial",
    "Verif.Eumopps.Names.c16_refused",
    "Verif.Eumopps.Names.c16_violated"
   ],
   "note": "Names of different days differ if each date field lies within one pattern and no later pattern is absolute; is_uniquely_defined_by accepts patterns for which names coincide (negation proved)."
  },
  {
   "property": "C160",
   "status": "partial",
   "theorems": [
    "Verif.Eustace.ObsCount.c160_names",
    "Verif.Eustace.ObsCount.c160_summary",
    "Verif.Eustace.ObsCount.c160_sources",
    "Verif.Eustace.ObsCount.c160_inspect",
    "Verif.Eustace.ObsCount.c160_loader",
    "Verif.Eustace.ObsCount.c160_layout_violated",
    "Verif.Eustace.ObsCount.c160_ocean_violated",
    "Verif.Eustace.ObsCount.c160_lake_violated",
    "Verif.Eustace.ObsCount.c160_repeated_violated"
   ],
   "note": "Proved for files of correlation ranges and locations in the base directory; with the layout of the generation nothing can be read, ocean satellites cannot be inspected, lakes not loaded, and a source listed twice loses its first results."
  },
  {
   "property": "C161",
   "status": "partial",
   "theorems": [
    "Verif.Eustace.OptimiseJobs.c161_count",
    "Verif.Eustace.OptimiseJobs.c161_commands",
    "Verif.Eustace.OptimiseJobs.c161_options",
    "Verif.Eustace.OptimiseJobs.c161_job_files",
    "Verif.Eustace.OptimiseJobs.c161_region_files",
    "Verif.Eustace.OptimiseJobs.c161_files_partial",
    "Verif.Eustace.OptimiseJobs.c161_merge_partial",
    "Verif.Eustace.OptimiseJobs.c161_everywhere_partial",
    "Verif.Eustace.OptimiseJobs.c161_settings_violated",
    "Verif.Eustace.OptimiseJobs.c161_jobs_violated",
    "Verif.Eustace.OptimiseJobs.c161_level_violated",
    "Verif.Eustace.OptimiseJobs.c161_false_violated",
    "Verif.Eustace.OptimiseJobs.c161_spec_violated"
   ],
   "note": "Jobs, command lines and names are proved; what is written and read is proved under the assumption that the settings can be looked up, which fails: the module does not have them, so no job writes anything."
  },
  {
   "property": "C162",
   "status": "partial",
   "theorems": [
    "Verif.Eustace.SatgridFile.c162_file",
    "Verif.Eustace.SatgridFile.c162_status",
    "Verif.Eustace.SatgridFile.c162_no_data",
    "Verif.Eustace.SatgridFile.c162_variance_violated",
    "Verif.Eustace.SatgridFile.c162_temperature_violated",
    "Verif.Eustace.SatgridFile.c162_sampling_violated"
   ],
   "note": "Proved for boxes whose temperatures are between 109.4 K and 436.9 K and at most 92 K apart, with uncertainties of at most 65.5 K and flags of valid pixels which include those of pixels of interest; what cannot be stored is read as something else."
  },
  {
   "property": "C163",
   "status": "partial",
   "theorems": [
    "Verif.Eumopps.Version.c163_identifier",
    "Verif.Eumopps.Version.c163_distinct",
    "Verif.Eumopps.Version.c163_same_code",
    "Verif.Eumopps.Version.c163_refused",
    "Verif.Eumopps.Version.c163_unversioned_violated",
    "Verif.Eumopps.Version.c163_sticky_violated",
    "Verif.Eumopps.Version.c163_no_program_violated",
    "Verif.Eumopps.Version.c163_list_violated"
   ],
   "note": "Proved for what svnversion reports of versioned files; fails where unversioned code is allowed, in which case not even a warning is given for two different modified copies, and in processes which allowed it once."
  },
  {
   "property": "C164",
   "status": "partial",
   "theorems": [
    "Verif.Eustace.StationFiles.c164_verdict",
    "Verif.Eustace.StationFiles.c164_built",
    "Verif.Eustace.StationFiles.c164_accepts",
    "Verif.Eustace.StationFiles.c164_positions_violated",
    "Verif.Eustace.StationFiles.c164_report_violated",
    "Verif.Eustace.StationFiles.c164_region_violated"
   ],
   "note": "The verdict and the agreement of builder and specification are proved in full.  The code violates the rest: positions of stations are not written and not asked for (c164_positions_violated), lists of another length stop the verification (c164_report_violated), and regions which differ in capitals share files (c164_region_violated)."
  },
  {
   "property": "C165",
   "status": "partial",
   "theorems": [
    "Verif.Eustace.Descriptor.c165_written",
    "Verif.Eustace.Descriptor.c165_arguments",
    "Verif.Eustace.Descriptor.c165_state",
    "Verif.Eustace.Descriptor.c165_file",
    "Verif.Eustace.Descriptor.c165_reads",
    "Verif.Eustace.Descriptor.c165_separate",
    "Verif.Eustace.Descriptor.c165_preview",
    "Verif.Eustace.Descriptor.c165_samples_violated",
    "Verif.Eustace.Descriptor.c165_save_violated"
   ],
   "note": "c165_reads is exact: all that is read is written if and only if the analysis ends with the last iteration of the diagnostics and is gridded; otherwise samples are asked for which nobody writes (c165_samples_violated).  The operation to save the analysis, which is not put into the descriptor, has a class of steps which does not exist (c165_save_violated)."
  },
  {
   "property": "C166",
   "status": "partial",
   "theorems": [
    "Verif.Eustace.BreakPoints.Extract.c166_times",
    "Verif.Eustace.BreakPoints.Extract.c166_extracted",
    "Verif.Eustace.BreakPoints.Extract.c166_unsolved",
    "Verif.Eustace.BreakPoints.Extract.c166_unbiased_violated",
    "Verif.Eustace.BreakPoints.Extract.c166_uncut_violated",
    "Verif.Eustace.BreakPoints.Extract.c166_global_violated",
    "Verif.Eustace.BreakPoints.Extract.c166_last_violated"
   ],
   "note": "c166_extracted holds for stations up to the last one with a break, and there is no number where the analysis gives zero.  Without biases no file is written and no error is raised; without any break used the function fails; the loop keeps its dictionary from one element to the next, so that a bias element without breaks fails or writes the biases of another one again, and of several elements with breaks the last one is left."
  },
  {
   "property": "C167",
   "status": "partial",
   "theorems": [
    "Verif.Eustace.ParseDoc.c167_text",
    "Verif.Eustace.ParseDoc.c167_digits",
    "Verif.Eustace.ParseDoc.c167_between",
    "Verif.Eustace.ParseDoc.c167_attributes",
    "Verif.Eustace.ParseDoc.c167_attribute_error",
    "Verif.Eustace.ParseDoc.c167_dimensions",
    "Verif.Eustace.ParseDoc.c167_names",
    "Verif.Eustace.ParseDoc.c167_variables",
    "Verif.Eustace.ParseDoc.c167_orphan",
    "Verif.Eustace.ParseDoc.c167_ascii_violated",
    "Verif.Eustace.ParseDoc.c167_nested_violated",
    "Verif.Eustace.ParseDoc.c167_unended_violated",
    "Verif.Eustace.ParseDoc.c167_unstarted_violated",
    "Verif.Eustace.ParseDoc.c167_attribute_violated",
    "Verif.Eustace.ParseDoc.c167_heading_violated",
    "Verif.Eustace.ParseDoc.c167_comment_violated"
   ],
   "note": "Proved for ASCII text, flat paragraphs, markers which are there, attribute values without \": \" and a table of dimensions with a heading; each other case is shown to be read wrongly without an error.  Container, parser of XML and ast.literal_eval are not modelled."
  },
  {
   "property": "C168",
   "status": "partial",
   "theorems": [
    "Verif.Eustace.ParseDoc.c168_datasets",
    "Verif.Eustace.ParseDoc.c168_preface_violated"
   ],
   "note": "Holds if no path is named between contents and descriptions; otherwise the last data set of the contents gets that path (c168_preface_violated)."
  },
  {
   "property": "C169",
   "status": "partial",
   "theorems": [
    "Verif.Eustace.HadCRUT.c169_midmonth",
    "Verif.Eustace.HadCRUT.c169_select",
    "Verif.Eustace.HadCRUT.c169_location",
    "Verif.Eustace.HadCRUT.c169_observations",
    "Verif.Eustace.HadCRUT.c169_missing",
    "Verif.Eustace.HadCRUT.c169_positive",
    "Verif.Eustace.HadCRUT.c169_places",
    "Verif.Eustace.HadCRUT.c169_structure_error",
    "Verif.Eustace.HadCRUT.c169_structure_violated",
    "Verif.Eustace.HadCRUT.c169_nomask_violated",
    "Verif.Eustace.HadCRUT.c169_known_violated"
   ],
   "note": "The source itself is proved right for fields with a full mask; but the connector always fails on it, so that the analysis never gets an observation (c169_structure_violated), and fields or uncertainties without a mask are read wrongly or not at all.  iris is not modelled."
  },
  {
   "property": "C17",
   "status": "partial",
   "theorems": [
    "Verif.Eumopps.Search.c17_single",
    "Verif.Eumopps.Search.c17_nested_partial",
    "Verif.Eumopps.Search.c17_dates",
    "Verif.Eumopps.Search.c17_tags",
    "Verif.Eumopps.Search.c17_violated",
    "Verif.Eumopps.Search.match_sound",
    "Verif.Eumopps.Search.match_complete"
   ],
   "note": "Full for one pattern and for directory patterns with only date fields; with category fields files of different directories can share a key and are then mixed up (negation proved)."
  },
  {
   "property": "C170",
   "status": "partial",
   "theorems": [
    "Verif.Eustace.Geometry.c170_circumcentre",
    "Verif.Eustace.Geometry.c170_circumcentre_unique",
    "Verif.Eustace.Geometry.c170_area",
    "Verif.Eustace.Geometry.c170_nonneg",
    "Verif.Eustace.Geometry.c170_positive",
    "Verif.Eustace.Geometry.c170_parts",
    "Verif.Eustace.Geometry.c170_spherical",
    "Verif.Eustace.Geometry.c170_subdivide",
    "Verif.Eustace.Geometry.c170_subdivide_inside",
    "Verif.Eustace.Geometry.c170_corner_violated",
    "Verif.Eustace.Geometry.c170_descent_violated",
    "Verif.Eustace.Geometry.c170_subdivide_violated"
   ],
   "note": "All proved away from the corners of a triangle, where coordinates by areas are NaN (c170_corner_violated).  Used in the locator they choose wrong parts (c170_descent_violated); coordinates in parts are those of plane midpoints, not of the corners which the mesh has on the sphere (c170_subdivide_violated).  Numbers are real."
  },
  {
   "property": "C171",
   "status": "partial",
   "theorems": [
    "Verif.Eustace.Samples.c171_update",
    "Verif.Eustace.Samples.c171_time_step",
    "Verif.Eustace.Samples.c171_total",
    "Verif.Eustace.Samples.c171_sizes",
    "Verif.Eustace.Samples.c171_members",
    "Verif.Eustace.Samples.c171_law",
    "Verif.Eustace.Samples.c171_ensemble",
    "Verif.Eustace.Samples.c171_approximated",
    "Verif.Eustace.Samples.c171_delayed_violated",
    "Verif.Eustace.Samples.c171_squeeze_violated",
    "Verif.Eustace.Samples.c171_nonlinear_violated",
    "Verif.Eustace.Samples.c171_single_violated",
    "Verif.Eustace.Samples.c171_members_violated",
    "Verif.Eustace.Samples.c171_deviation_violated"
   ],
   "note": "Proved for linear space-time and spatial components in memory.  Delayed components make no sample (c171_delayed_violated), a single draw loses a dimension (c171_squeeze_violated), nonlinear components are wrong (c171_nonlinear_violated, c171_deviation_violated); the variance from k draws is too small by (k-1)/k (c171_approximated), zero for one (c171_single_violated).  Random numbers are given from outside, with mean zero and covariance one; numbers are real."
  },
  {
   "property": "C172",
   "status": "partial",
   "theorems": [
    "Verif.Eustace.Solver.c172_matrix",
    "Verif.Eustace.Solver.c172_columns",
    "Verif.Eustace.Solver.c172_refused",
    "Verif.Eustace.Solver.c172_order",
    "Verif.Eustace.Solver.c172_cholmod",
    "Verif.Eustace.Solver.c172_isometry",
    "Verif.Eustace.Solver.c172_variance",
    "Verif.Eustace.Solver.c172_solution",
    "Verif.Eustace.Solver.c172_stride_violated",
    "Verif.Eustace.Solver.c172_wide_violated",
    "Verif.Eustace.Solver.c172_empty_row_violated",
    "Verif.Eustace.Solver.c172_triangular_violated"
   ],
   "note": "Proved for arrays of two dimensions with any strides, sparse ones, and those of one dimension without gaps; with gaps the result is wrong (c172_stride_violated).  Matrices with 2^31 entries or more are handed over wrongly (c172_wide_violated).  The factor is not triangular in general (c172_triangular_violated).  The native libraries are trusted; numbers are real."
  },
  {
   "property": "C173",
   "status": "partial",
   "theorems": [
    "Verif.Eustace.Fit.c173_kept",
    "Verif.Eustace.Fit.c173_likelihood",
    "Verif.Eustace.Fit.c173_settled",
    "Verif.Eustace.Fit.c173_elements",
    "Verif.Eustace.Fit.c173_progress_violated",
    "Verif.Eustace.Fit.c173_empty_day_violated"
   ],
   "note": "Proved for priors with derivatives and factorisations whose pattern is closed; c173_elements gives the former for all elements without periodic lattices.  Progress of a minimiser which stops at its limit is thrown away and the file does not tell (c173_progress_violated); one day without observations ends all (c173_empty_day_violated).  scipy and cholmod are given from outside; numbers are real."
  },
  {
   "property": "C174",
   "status": "partial",
   "theorems": [
    "Verif.Eustace.Prepare.c174_lookup",
    "Verif.Eustace.Prepare.c174_ranges",
    "Verif.Eustace.Prepare.c174_day",
    "Verif.Eustace.Prepare.c174_one_table",
    "Verif.Eustace.Prepare.c174_written",
    "Verif.Eustace.Prepare.c174_other_day_violated",
    "Verif.Eustace.Prepare.c174_complete_violated",
    "Verif.Eustace.Prepare.c174_lake_violated",
    "Verif.Eustace.Prepare.c174_ocean_lookup_violated",
    "Verif.Eustace.Prepare.c174_uncertainty_violated"
   ],
   "note": "A field without missing cells cannot be prepared (c174_complete_violated), nor can lakes (c174_lake_violated); a file of another day gives an empty file without an error (c174_other_day_violated); an observation whose uncertainty is missing is used with the number beneath the mask (c174_uncertainty_violated).  What Iris loads is a model of its behaviour; float64 bits are given from outside with an inverse on the coordinates."
  },
  {
   "property": "C175",
   "status": "proved",
   "theorems": [
    "Verif.Eustace.Prepare.c175_day_number",
    "Verif.Eustace.Prepare.c175_extension",
    "Verif.Eustace.Prepare.c175_name",
    "Verif.Eustace.Prepare.c175_series"
   ],
   "note": "Years 1 to 9999; files below 2^64 bytes; float64 bits are given from outside with an inverse on the coordinates. Texts which strptime takes although they have not eight digits are not modelled."
  },
  {
   "property": "C176",
   "status": "partial",
   "theorems": [
    "Verif.Eustace.Projector.c176_days",
    "Verif.Eustace.Projector.c176_flags",
    "Verif.Eustace.Projector.c176_import_partial",
    "Verif.Eustace.Projector.c176_import_violated",
    "Verif.Eustace.Projector.c176_words_violated",
    "Verif.Eustace.Projector.c176_iteration_violated"
   ],
   "note": "The per-day claims are proved for any two words of flags. As the module stands it cannot be imported, the words in the comments are those of other flags, and files of iteration 9 are read whatever is asked for. Real numbers for floats; the prior draws of every variable are taken to differ."
  },
  {
   "property": "C177",
   "status": "proved",
   "theorems": [
    "Verif.Eustace.OceanModel.c177_day_of_year",
    "Verif.Eustace.OceanModel.c177_basis",
    "Verif.Eustace.OceanModel.c177_boxes",
    "Verif.Eustace.OceanModel.c177_day",
    "Verif.Eustace.OceanModel.c177_files",
    "Verif.Eustace.OceanModel.c177_coldest_violated",
    "Verif.Eustace.OceanModel.c177_systematic_violated"
   ],
   "note": "The coldest cells of each file and the in situ bias are exceptions, proved as violations. Real numbers for floats; reading and writing NetCDF and JSON is left out, as is wrapping of numbers beyond 16 bits."
  },
  {
   "property": "C178",
   "status": "partial",
   "theorems": [
    "Verif.Eustace.LandModel.c178_day_partial",
    "Verif.Eustace.LandModel.c178_runs",
    "Verif.Eustace.LandModel.c178_third_violated",
    "Verif.Eustace.LandModel.c178_zero_violated",
    "Verif.Eustace.LandModel.c178_last_violated"
   ],
   "note": "Proved for two of the models, as the third is never used, for uncertainties up to 65 and temperatures from 110 to 436 K. Real numbers for floats, NaN as none; the place of the sun, the joined mask of ice and NetCDF are given from outside."
  },
  {
   "property": "C179",
   "status": "proved",
   "theorems": [
    "Verif.Eustace.LandSun.c179_day_of_year",
    "Verif.Eustace.LandSun.c179_month_day",
    "Verif.Eustace.LandSun.c179_julian",
    "Verif.Eustace.LandSun.c179_jday",
    "Verif.Eustace.LandSun.c179_jd",
    "Verif.Eustace.LandSun.c179_jd_months",
    "Verif.Eustace.LandSun.c179_jd_2100_violated",
    "Verif.Eustace.LandSun.c179_mean_longitude",
    "Verif.Eustace.LandSun.c179_times",
    "Verif.Eustace.LandSun.c179_greenwich",
    "Verif.Eustace.LandSun.c179_zenith",
    "Verif.Eustace.LandSun.c179_noon",
    "Verif.Eustace.LandSun.c179_noon_zenith",
    "Verif.Eustace.LandSun.c179_sun_at_noon",
    "Verif.Eustace.LandSun.c179_1900_violated"
   ],
   "note": "Real numbers for floats. The accuracy of the series for the sun beyond the bounds stated is not claimed; sunrise and sunset, which the model does not use, are not modelled."
  },
  {
   "property": "C18",
   "status": "partial",
   "theorems": [
    "Verif.Eumopps.Search.c18_files",
    "Verif.Eumopps.Search.c18_archives",
    "Verif.Eumopps.Search.c18_archive_errors_violated",
    "Verif.Eumopps.Search.c18_no_year_violated"
   ],
   "note": "Accounting proved for all completed searches of plain files and archives; value errors in archives lose the archive name, and patterns with date fields but no year abort the search (negations proved)."
  },
  {
   "property": "C180",
   "status": "proved",
   "theorems": [
    "Verif.Eustace.LandMask.c180_strip_cells",
    "Verif.Eustace.LandMask.c180_strip_points",
    "Verif.Eustace.LandMask.c180_strip_refused",
    "Verif.Eustace.LandMask.c180_match",
    "Verif.Eustace.LandMask.c180_joined",
    "Verif.Eustace.LandMask.c180_accepted",
    "Verif.Eustace.LandMask.c180_longitudes_violated",
    "Verif.Eustace.LandMask.c180_no_match_violated"
   ],
   "note": "Real numbers for floats, so that equal latitudes are equal; the branch of match for integers, and for vectors of one element, is not modelled."
  },
  {
   "property": "C181",
   "status": "proved",
   "theorems": [
    "Verif.Eustace.LandFiles.c181_text",
    "Verif.Eustace.LandFiles.c181_julian_day",
    "Verif.Eustace.LandFiles.c181_round_trip",
    "Verif.Eustace.LandFiles.c181_day_of_year",
    "Verif.Eustace.LandFiles.c181_day_of_year_text",
    "Verif.Eustace.LandFiles.c181_refused",
    "Verif.Eustace.LandFiles.c181_short_violated",
    "Verif.Eustace.LandFiles.c181_year_violated",
    "Verif.Eustace.LandFiles.c181_vegetation_days",
    "Verif.Eustace.LandFiles.c181_vegetation_name",
    "Verif.Eustace.LandFiles.c181_date_refused",
    "Verif.Eustace.LandFiles.c181_nothing_lost",
    "Verif.Eustace.LandFiles.c181_vegetation_found",
    "Verif.Eustace.LandFiles.c181_words",
    "Verif.Eustace.LandFiles.c181_table",
    "Verif.Eustace.LandFiles.c181_coefficients",
    "Verif.Eustace.LandFiles.c181_ragged_violated",
    "Verif.Eustace.LandFiles.c181_header_violated"
   ],
   "note": "JULDAY and CALDAT are of the IDL library and are taken to be right for the Gregorian calendar. The conversion of words to floats is not modelled."
  },
  {
   "property": "C182",
   "status": "proved",
   "theorems": [
    "Verif.Eustace.RawScript.c182_joined",
    "Verif.Eustace.RawScript.c182_comment_ends",
    "Verif.Eustace.RawScript.c182_comment_alone",
    "Verif.Eustace.RawScript.c182_commands",
    "Verif.Eustace.RawScript.c182_run_violated",
    "Verif.Eustace.RawScript.c182_never_built_violated",
    "Verif.Eustace.RawScript.c182_without_comments",
    "Verif.Eustace.RawScript.c182_build",
    "Verif.Eustace.RawScript.c182_positionals"
   ],
   "note": "Quotes and expansion of variables are not modelled; a build with its two file names is taken to succeed."
  },
  {
   "property": "C183",
   "status": "proved",
   "theorems": [
    "Verif.Eustace.SatgridJobs.c183_once",
    "Verif.Eustace.SatgridJobs.c183_order",
    "Verif.Eustace.SatgridJobs.c183_names",
    "Verif.Eustace.SatgridJobs.c183_day_night_names",
    "Verif.Eustace.SatgridJobs.c183_day_night",
    "Verif.Eustace.SatgridJobs.c183_valid",
    "Verif.Eustace.SatgridJobs.c183_grid",
    "Verif.Eustace.SatgridJobs.c183_year_violated"
   ],
   "note": "`date` of the system is taken to count days of the Gregorian calendar. Names are distinct for years up to 9999. The input paths and the version text are left out."
  },
  {
   "property": "C184",
   "status": "proved",
   "theorems": [
    "Verif.Eustace.EnsureDir.c184_no_error",
    "Verif.Eustace.EnsureDir.c184_there",
    "Verif.Eustace.EnsureDir.c184_ends",
    "Verif.Eustace.EnsureDir.c184_made",
    "Verif.Eustace.EnsureDir.c184_file_refused",
    "Verif.Eustace.EnsureDir.c184_nothing_else",
    "Verif.Eustace.EnsureDir.c184_removed_violated"
   ],
   "note": "`os.makedirs` is that of the Python 2 library, taken step by step; the calls `mkdir`, `exists` and `isdir` are each one step. Links, relative paths and permissions are left out."
  },
  {
   "property": "C185",
   "status": "proved",
   "theorems": [
    "Verif.Eustace.IceRun.c185_refused",
    "Verif.Eustace.IceRun.c185_only_outputs",
    "Verif.Eustace.IceRun.c185_kept",
    "Verif.Eustace.IceRun.c185_success",
    "Verif.Eustace.IceRun.c185_all_days",
    "Verif.Eustace.IceRun.c185_inputs",
    "Verif.Eustace.IceRun.c185_retry_violated",
    "Verif.Eustace.IceRun.c185_command_violated"
   ],
   "note": "The model itself and the writer are any functions here; runs at the same time are left out."
  },
  {
   "property": "C186",
   "status": "partial",
   "theorems": [
    "Verif.Eustace.EnsureDir.c186_ends",
    "Verif.Eustace.EnsureDir.c186_alone_partial",
    "Verif.Eustace.EnsureDir.c186_again",
    "Verif.Eustace.EnsureDir.c186_race_violated",
    "Verif.Eustace.EnsureDir.c186_two_jobs_violated"
   ],
   "note": "That no job ends with an error is false for jobs at the same time (c186_race_violated); it is proved for a job alone and for directories that are there."
  },
  {
   "property": "C187",
   "status": "partial",
   "theorems": [
    "Verif.Eustace.Qinv.c187_nodes",
    "Verif.Eustace.Qinv.c187_points_partial",
    "Verif.Eustace.Qinv.c187_weights",
    "Verif.Eustace.Qinv.c187_accepted",
    "Verif.Eustace.Qinv.c187_import_violated",
    "Verif.Eustace.Qinv.c187_cancel_violated"
   ],
   "note": "False for combinations that cancel (c187_cancel_violated); proved for all others, and for all weights that are not negative, of the function with its missing import."
  },
  {
   "property": "C188",
   "status": "proved",
   "theorems": [
    "Verif.Eustace.MaskDirs.c188_closed",
    "Verif.Eustace.MaskDirs.c188_reads",
    "Verif.Eustace.MaskDirs.c188_version",
    "Verif.Eustace.MaskDirs.c188_apart",
    "Verif.Eustace.MaskDirs.c188_merged",
    "Verif.Eustace.MaskDirs.c188_threshold",
    "Verif.Eustace.MaskDirs.c188_window",
    "Verif.Eustace.MaskDirs.c188_outliers",
    "Verif.Eustace.MaskDirs.c188_own",
    "Verif.Eustace.MaskDirs.c188_committed_violated"
   ],
   "note": "Only directories below the common one for masks; what the files contain is C139."
  },
  {
   "property": "C189",
   "status": "proved",
   "theorems": [
    "Verif.Eustace.FlagJobs.c189_finished",
    "Verif.Eustace.FlagJobs.c189_failed",
    "Verif.Eustace.FlagJobs.c189_untouched",
    "Verif.Eustace.FlagJobs.c189_ends",
    "Verif.Eustace.FlagJobs.c189_months",
    "Verif.Eustace.FlagJobs.c189_years",
    "Verif.Eustace.FlagJobs.c189_in_place_restart_violated",
    "Verif.Eustace.FlagJobs.c189_in_place_together_violated"
   ],
   "note": "The scripts use separate directories (C188: c188_own); directories are taken to be there (C186)."
  },
  {
   "property": "C19",
   "status": "partial",
   "theorems": [
    "Verif.Eumopps.Persist.c19_round_trip_partial",
    "Verif.Eumopps.Persist.c19_entries",
    "Verif.Eumopps.Persist.c19_entries_iff",
    "Verif.Eumopps.Persist.c19_shift_violated",
    "Verif.Eumopps.Persist.c19_strings_violated",
    "Verif.Eumopps.Persist.c19_strings_object_violated",
    "Verif.Eumopps.Persist.c19_time_violated",
    "Verif.Eumopps.Persist.c19_class_violated",
    "Verif.Eumopps.Persist.c19_references_violated"
   ],
   "note": "Exact description of what is loaded for every list of file entries with missing fields, and an exact condition for nothing being lost; round trip for whole catalogues (trees of any depth) under conditions on the fields. The full claim is false (negations proved). Text without NUL characters."
  },
  {
   "property": "C190",
   "status": "proved",
   "theorems": [
    "Verif.Eustace.FlagStages.c190_consistent",
    "Verif.Eustace.FlagStages.c190_order",
    "Verif.Eustace.FlagStages.c190_failed",
    "Verif.Eustace.FlagStages.c190_same",
    "Verif.Eustace.FlagStages.c190_ends",
    "Verif.Eustace.FlagStages.c190_scripts",
    "Verif.Eustace.FlagStages.c190_postprocess",
    "Verif.Eustace.FlagStages.c190_postprocess_ends",
    "Verif.Eustace.FlagStages.c190_needed",
    "Verif.Eustace.FlagStages.c190_no_wait_violated"
   ],
   "note": "Conditions of the batch system mean that all jobs of the arrays named have ended without an error. That scripts are called with the right conditions is left to their user."
  },
  {
   "property": "C191",
   "status": "proved",
   "theorems": [
    "Verif.Eustace.Elements.c191_slow",
    "Verif.Eustace.Elements.c191_same_day",
    "Verif.Eustace.Elements.c191_new_year"
   ],
   "note": "Decimal years are exact rationals and harmonics are reals; the last year of the calendar is refused by the code (C93)."
  },
  {
   "property": "C20",
   "status": "partial",
   "theorems": [
    "Verif.Eumopps.Persist.c20_round_trip_partial",
    "Verif.Eumopps.Persist.c20_attributes",
    "Verif.Eumopps.Persist.c20_not_written",
    "Verif.Eumopps.Persist.c20_zero_violated",
    "Verif.Eumopps.Persist.c20_required_violated",
    "Verif.Eumopps.Persist.c20_microseconds_violated"
   ],
   "note": "All values of any depth: exact round trip if false attributes are what the class sets by default and times are whole seconds of years 1 to 9999; for any instance the loaded object is what its class makes of the true attributes. The full claim is false (negations proved)."
  },
  {
   "property": "C21",
   "status": "proved",
   "theorems": [
    "Verif.Eumopps.Build.c21_append_only",
    "Verif.Eumopps.Build.c21_protected",
    "Verif.Eumopps.Build.c21_stored",
    "Verif.Eumopps.Build.c21_counts",
    "Verif.Eumopps.Build.c21_filter_violated"
   ],
   "note": "All histories of build requests without overwrite. NetCDF save/load is taken as identity here (see C19). The data set filter option never works (proved)."
  },
  {
   "property": "C22",
   "status": "partial",
   "theorems": [
    "Verif.Eumopps.Run.c22_found",
    "Verif.Eumopps.Run.c22_not_found",
    "Verif.Eumopps.Run.c22_unique_operation_violated"
   ],
   "note": "Lookup outcome characterised for all catalogues by (operation, field) pairs; an operation named like its own module counts twice, so uniqueness by operation is false (negation proved)."
  },
  {
   "property": "C23",
   "status": "partial",
   "theorems": [
    "Verif.Eumopps.Run.c23_executed",
    "Verif.Eumopps.Run.c23_gate",
    "Verif.Eumopps.Run.c23_runs",
    "Verif.Eumopps.Run.c23_class_module_violated"
   ],
   "note": "Tool chain gate proved for all inputs; for class modules nothing can ever be run (NameError in Operation.run, proved)."
  },
  {
   "property": "C24",
   "status": "partial",
   "theorems": [
    "Verif.Eustace.RawBinary.c24_round_trip",
    "Verif.Eustace.RawBinary.c24_rewrite",
    "Verif.Eustace.RawBinary.c24_format",
    "Verif.Eustace.RawBinary.c24_lookup",
    "Verif.Eustace.RawBinary.c24_ranges",
    "Verif.Eustace.RawBinary.c24_uuid_violated",
    "Verif.Eustace.RawBinary.c24_cut_violated",
    "Verif.Eustace.RawBinary.c24_before_epoch_violated",
    "Verif.Eustace.RawBinary.c24_wrong_ranges_violated"
   ],
   "note": "Byte level, all observations, masks and times from the epoch on, any number of correlation ranges. False: the identifier of the locations is not compared on reading a day, cut files and wrong range counts are read without an error, times less than a day before 1850 count as the first day (negations proved). Floats are bit patterns."
  },
  {
   "property": "C25",
   "status": "partial",
   "theorems": [
    "Verif.Eustace.RawBinary.c25_collect",
    "Verif.Eustace.RawBinary.c25_offsets",
    "Verif.Eustace.RawBinary.c25_increasing",
    "Verif.Eustace.RawBinary.c25_address",
    "Verif.Eustace.RawBinary.c25_unknown_location",
    "Verif.Eustace.RawBinary.c25_file",
    "Verif.Eustace.RawBinary.c25_reader_violated"
   ],
   "note": "What is collected and written is right for all days, locations and records, up to the size of the format (2^64 bytes; the float64 offsets of the code are exact below 2^53). The reader of the project raises NameError on every such file (negation proved)."
  },
  {
   "property": "C26",
   "status": "partial",
   "theorems": [
    "Verif.Eustace.ObsSource.c26_mean",
    "Verif.Eustace.ObsSource.c26_same_locations",
    "Verif.Eustace.ObsSource.c26_pairs",
    "Verif.Eustace.ObsSource.c26_refused",
    "Verif.Eustace.ObsSource.c26_append",
    "Verif.Eustace.ObsSource.c26_both_missing",
    "Verif.Eustace.ObsSource.c26_time_violated",
    "Verif.Eustace.ObsSource.c26_one_missing_violated",
    "Verif.Eustace.ObsSource.c26_append_refused_violated"
   ],
   "note": "True for all observations whose common locations come in the same order. False: times kept in arrays are not restricted, a day with one observable missing raises ValueError, a refused append has already changed the mask (negations proved)."
  },
  {
   "property": "C27",
   "status": "partial",
   "theorems": [
    "Verif.Eustace.Diagnostic.c27_fields",
    "Verif.Eustace.Diagnostic.c27_unique",
    "Verif.Eustace.Diagnostic.c27_order_partial",
    "Verif.Eustace.Diagnostic.c27_run",
    "Verif.Eustace.Diagnostic.c27_mean",
    "Verif.Eustace.Diagnostic.c27_total",
    "Verif.Eustace.Diagnostic.c27_uncertainty_min_violated",
    "Verif.Eustace.Diagnostic.c27_order_violated",
    "Verif.Eustace.Diagnostic.c27_precision_violated",
    "Verif.Eustace.Diagnostic.c27_zero_violated",
    "Verif.Eustace.Diagnostic.c27_stale_mean_violated",
    "Verif.Eustace.Diagnostic.c27_missing_violated",
    "Verif.Eustace.Diagnostic.c27_missing_source"
   ],
   "note": "True for all calls, batches and orders, for all fields but the minimum of uncertainties, which is the uncertainty of the first observation (negation proved); also the whole program from sources to fields. Real arithmetic; observables without underscore."
  },
  {
   "property": "C28",
   "status": "proved",
   "theorems": [
    "Verif.Eustace.Mesh.c28_counts",
    "Verif.Eustace.Mesh.c28_euler",
    "Verif.Eustace.Mesh.c28_n_triangles"
   ],
   "note": "All levels and all tie-breaking orders of the sort."
  },
  {
   "property": "C29",
   "status": "proved",
   "theorems": [
    "Verif.Eustace.Mesh.c29_closed",
    "Verif.Eustace.Mesh.c29_edges",
    "Verif.Eustace.Mesh.c29_points",
    "Verif.Eustace.Mesh.c29_connected"
   ],
   "note": "All levels up to 28 (at level 29 identifiers have no bits left for the edge number, see C30), all tie-breaking orders."
  },
  {
   "property": "C30",
   "status": "proved",
   "theorems": [
    "Verif.Eustace.Mesh.c30_position",
    "Verif.Eustace.Mesh.c30_distinct",
    "Verif.Eustace.Mesh.c30_child",
    "Verif.Eustace.Mesh.c30_super",
    "Verif.Eustace.Mesh.c30_descendants",
    "Verif.Eustace.Mesh.c30_neighbours",
    "Verif.Eustace.Mesh.c30_level_29_violated"
   ],
   "note": "All levels up to 28; sort keys collide at level 29 (proved)."
  },
  {
   "property": "C31",
   "status": "proved",
   "theorems": [
    "Verif.Eustace.Locator.c31_top",
    "Verif.Eustace.Locator.c31_locate",
    "Verif.Eustace.Locator.c31_exact",
    "Verif.Eustace.Locator.c31_rows"
   ],
   "note": "All non-zero vectors, all levels up to 28, plain and rotated mesh; real arithmetic, planar barycentric coordinates (the default)."
  },
  {
   "property": "C32",
   "status": "proved",
   "theorems": [
    "Verif.Eustace.Linear.c32_minimiser",
    "Verif.Eustace.Linear.c32_curvature",
    "Verif.Eustace.Linear.c32_unsymmetric_violated"
   ],
   "note": "All dimensions and batches; the Cholesky solver enters by its contract (it reads the upper triangle only, so symmetry is needed, negation proved without)."
  },
  {
   "property": "C33",
   "status": "proved",
   "theorems": [
    "Verif.Eustace.Linear.c33_order",
    "Verif.Eustace.Linear.c33_at_once",
    "Verif.Eustace.Linear.c33_stack_misfit",
    "Verif.Eustace.Components.c33_batch",
    "Verif.Eustace.Components.c33_routes",
    "Verif.Eustace.Components.c33_routes_spatial"
   ],
   "note": "All lists of batches, permutations and groupings; day by day and all days at once give the same states for both kinds of components."
  },
  {
   "property": "C34",
   "status": "partial",
   "theorems": [
    "Verif.Eustace.Components.c34_merged",
    "Verif.Eustace.Components.c34_solve_twice",
    "Verif.Eustace.Components.c34_memory_partial",
    "Verif.Eustace.Components.c34_memory_violated"
   ],
   "note": "Solving leaves storage alone; merging changes the first update of the in-memory storage unless at most one is stored (negation proved)."
  },
  {
   "property": "C35",
   "status": "proved",
   "theorems": [
    "Verif.Eustace.Components.c35_component",
    "Verif.Eustace.Components.c35_decrease",
    "Verif.Eustace.Components.c35_sequence",
    "Verif.Eustace.Components.c35_update",
    "Verif.Eustace.Components.c35_fixed_point",
    "Verif.Eustace.Components.c35_converges"
   ],
   "note": "All numbers and kinds of linear components, all sequences of updates; beyond the claim, iterating converges to the unique joint optimum."
  },
  {
   "property": "C36",
   "status": "proved",
   "theorems": [
    "Verif.Eustace.Components.c36_offset",
    "Verif.Eustace.Components.c36_output"
   ],
   "note": "All numbers of components and all indices."
  },
  {
   "property": "C37",
   "status": "partial",
   "theorems": [
    "Verif.Eustace.Linear.c37_variance",
    "Verif.Eustace.Linear.c37_more_data",
    "Verif.Eustace.Linear.c37_std",
    "Verif.Eustace.Linear.c37_fraction_partial",
    "Verif.Eustace.Linear.c37_fraction_violated"
   ],
   "note": "Variances and standard deviations: full. The climatology fraction lies in [0,1] for non-negative designs, but not for signed ones (negation proved)."
  },
  {
   "property": "C38",
   "status": "proved",
   "theorems": [
    "Verif.Eustace.Linear.c38_form",
    "Verif.Eustace.Linear.c38_covariance",
    "Verif.Eustace.Linear.c38_linear",
    "Verif.Eustace.Linear.c38_diagonal",
    "Verif.Eustace.Linear.c38_marginal_std",
    "Verif.Eustace.Linear.c38_blocksize_zero_violated"
   ],
   "note": "All positive definite precisions and all block sizes except 0."
  },
  {
   "property": "C39",
   "status": "partial",
   "theorems": [
    "Verif.Eustace.Elements.c39_function",
    "Verif.Eustace.Elements.c39_jacobian",
    "Verif.Eustace.Elements.c39_matrix",
    "Verif.Eustace.Elements.c39_split",
    "Verif.Eustace.Elements.c39_initial",
    "Verif.Eustace.Elements.c39_linear",
    "Verif.Eustace.Elements.c39_sum",
    "Verif.Eustace.Elements.c39_bias",
    "Verif.Eustace.Elements.c39_dimension",
    "Verif.Eustace.Elements.c39_precision",
    "Verif.Eustace.Elements.c39_factor_violated"
   ],
   "note": "Design functions, Jacobians, design matrices, initial states and prior precisions of combinations, for any lists and nesting of elements. The function of a combination with a space-time factor always raises TypeError (negation proved)."
  },
  {
   "property": "C40",
   "status": "partial",
   "theorems": [
    "Verif.Eustace.Elements.c40_get",
    "Verif.Eustace.Elements.c40_round_trip",
    "Verif.Eustace.Elements.c40_identity",
    "Verif.Eustace.Elements.c40_length",
    "Verif.Eustace.Elements.c40_parts",
    "Verif.Eustace.Elements.c40_last_empty_violated",
    "Verif.Eustace.Elements.c40_surplus_violated",
    "Verif.Eustace.Elements.c40_general_violated"
   ],
   "note": "True for every tree of hyperparameters whose combinations end with a non-empty part; false where the last part is empty, for surplus values of single objects and for GeneralHyperparameters (negations proved)."
  },
  {
   "property": "C41",
   "status": "partial",
   "theorems": [
    "Verif.Eustace.SphereSpde.c41_sphere",
    "Verif.Eustace.SphereSpde.c41_sphere_refused",
    "Verif.Eustace.SphereSpde.c41_stationary",
    "Verif.Eustace.Lattice.c41_lattice_partial",
    "Verif.Eustace.Lattice.c41_lattice_check",
    "Verif.Eustace.Lattice.c41_periodic_violated",
    "Verif.Eustace.Elements.c41_elements_partial"
   ],
   "note": "All elements, also nested combinations, with respect to every entry of the hyperparameter array. Spherical SPDE: all parameters and designs. Lattice SPDE: lattices without periodic dimensions; in periodic dimensions the derivative is that of another matrix (negation proved)."
  },
  {
   "property": "C42",
   "status": "proved",
   "theorems": [
    "Verif.Eustace.Elements.c42_factor",
    "Verif.Eustace.Elements.c42_element",
    "Verif.Eustace.Elements.c42_linear"
   ],
   "note": "All states, meshes, temporal models and observations; real arithmetic."
  },
  {
   "property": "C43",
   "status": "partial",
   "theorems": [
    "Verif.Eustace.Storage.c43_memory_last",
    "Verif.Eustace.Storage.c43_memory_never",
    "Verif.Eustace.Storage.c43_memory_measurement",
    "Verif.Eustace.Storage.c43_memory_single",
    "Verif.Eustace.Storage.c43_spatial_last",
    "Verif.Eustace.Storage.c43_spatial_never",
    "Verif.Eustace.Storage.c43_indexed_last",
    "Verif.Eustace.Storage.c43_indexed_never",
    "Verif.Eustace.Storage.c43_indexed_measurement",
    "Verif.Eustace.Storage.c43_indexed_positions",
    "Verif.Eustace.Storage.c43_delayed_last",
    "Verif.Eustace.Storage.c43_delayed_never",
    "Verif.Eustace.Storage.c43_delayed_measurement",
    "Verif.Eustace.Storage.c43_parse_list",
    "Verif.Eustace.Storage.c43_flexible",
    "Verif.Eustace.Storage.c43_flexible_sample",
    "Verif.Eustace.Storage.c43_single_files",
    "Verif.Eustace.Storage.c43_single_measurement",
    "Verif.Eustace.Storage.c43_batched_last",
    "Verif.Eustace.Storage.c43_batched_never",
    "Verif.Eustace.Storage.c43_stale_violated",
    "Verif.Eustace.Storage.c43_kept_violated",
    "Verif.Eustace.Storage.c43_missing_violated",
    "Verif.Eustace.Storage.c43_delayed_sample_violated",
    "Verif.Eustace.Storage.c43_flexible_sample_violated",
    "Verif.Eustace.Storage.c43_batched_measurement_violated",
    "Verif.Eustace.Storage.c43_repeated_time_violated"
   ],
   "note": "True for all histories of any number of objects sharing files, where names of files belong to one quantity and time. False: values kept in memory go stale, a missing value is None in memory and IOError in files, samples in dictionaries of files, prior samples with patterns, batched measurements, times listed twice (negations proved)."
  },
  {
   "property": "C44",
   "status": "partial",
   "theorems": [
    "Verif.Eustace.Qinv.c44_partial_inverse",
    "Verif.Eustace.Qinv.c44_entries",
    "Verif.Eustace.Qinv.c44_trace",
    "Verif.Eustace.Qinv.c44_cancellation_violated"
   ],
   "note": "All positive definite matrices whose factor pattern (nonzero entries) is closed under fill; without closure an entry is wrong (negation proved with a positive definite 4x4 matrix whose factor entry cancels)."
  },
  {
   "property": "C45",
   "status": "proved",
   "theorems": [
    "Verif.Eustace.SphereSpde.c45_roughness",
    "Verif.Eustace.SphereSpde.c45_stiffness_posSemidef",
    "Verif.Eustace.SphereSpde.c45_row_sums",
    "Verif.Eustace.SphereSpde.c45_kernel",
    "Verif.Eustace.SphereSpde.c45_mass",
    "Verif.Eustace.SphereSpde.c45_posDef",
    "Verif.Eustace.SphereSpde.c45_mesh",
    "Verif.Eustace.SphereSpde.c45_buildQ"
   ],
   "note": "All meshes with positive areas and all parameters; every mesh built by the code up to level 28 is one. Beyond the claim, the stiffness form is the integral of the squared gradient and vanishes on constants only."
  },
  {
   "property": "C46",
   "status": "partial",
   "theorems": [
    "Verif.Eustace.SphereSpde.c46_order_partial",
    "Verif.Eustace.SphereSpde.c46_order_violated"
   ],
   "note": "True for alpha 1 and 2 only; for alpha 3 and 4 the precision of order 1 and 2 is returned (negation proved)."
  },
  {
   "property": "C47",
   "status": "proved",
   "theorems": [
    "Verif.Eustace.Lattice.c47_nearby",
    "Verif.Eustace.Lattice.c47_valid",
    "Verif.Eustace.Lattice.c47_design",
    "Verif.Eustace.Lattice.c47_single_node_violated"
   ],
   "note": "All lattices with at least two nodes per dimension, all locations inside, any number of dimensions; a dimension of one node divides by zero (proved)."
  },
  {
   "property": "C48",
   "status": "proved",
   "theorems": [
    "Verif.Eustace.Lattice.c48_weights",
    "Verif.Eustace.Lattice.c48_linear",
    "Verif.Eustace.Lattice.c48_nodes"
   ],
   "note": "All lattices with at least two nodes per dimension, span equal to the node distance; beyond the claim, linear functions are reproduced."
  },
  {
   "property": "C49",
   "status": "partial",
   "theorems": [
    "Verif.Eustace.Lattice.c49_operator",
    "Verif.Eustace.Lattice.c49_precision_partial",
    "Verif.Eustace.Lattice.c49_order_violated",
    "Verif.Eustace.Lattice.c49_order_two"
   ],
   "note": "Design and precision enumerate nodes in opposite orders; the claim holds for one dimension and for lattices with symmetric shape, and fails for 2x3 nodes (negation proved)."
  },
  {
   "property": "C50",
   "status": "proved",
   "theorems": [
    "Verif.Eustace.Flags.c50_rules",
    "Verif.Eustace.Flags.c50_masked",
    "Verif.Eustace.Flags.c50_ignored"
   ],
   "note": "All flag words, rule lists, files and years; the marine classification is a parameter."
  },
  {
   "property": "C51",
   "status": "proved",
   "theorems": [
    "Verif.Eustace.Flags.c51_window",
    "Verif.Eustace.Flags.c51_missing_centre",
    "Verif.Eustace.Flags.c51_zero_threshold_violated"
   ],
   "note": "All files, windows and positive thresholds; a zero threshold is not respected when no other day can be read (proved)."
  },
  {
   "property": "C52",
   "status": "proved",
   "theorems": [
    "Verif.Eustace.Flags.c52_calendar",
    "Verif.Eustace.Flags.c52_missing_centre"
   ],
   "note": "All files, periods and dates, including 29 February."
  },
  {
   "property": "C53",
   "status": "proved",
   "theorems": [
    "Verif.Eustace.Flags.c53_outliers",
    "Verif.Eustace.Flags.c53_missing_centre"
   ],
   "note": "All files, windows and thresholds."
  },
  {
   "property": "C54",
   "status": "proved",
   "theorems": [
    "Verif.Eustace.Flags.c54_merged",
    "Verif.Eustace.Flags.c54_areal_lost"
   ],
   "note": "All pairs of flag words."
  },
  {
   "property": "C55",
   "status": "proved",
   "theorems": [
    "Verif.Eustace.Dates.c55_consecutive",
    "Verif.Eustace.Dates.c55_each_day_once",
    "Verif.Eustace.Dates.c55_count",
    "Verif.Eustace.Dates.c55_years",
    "Verif.Eustace.Dates.c55_not_first_violated"
   ],
   "note": "All reference months. A reference time that is not the first of a month loses days at month ends (negation proved)."
  },
  {
   "property": "C56",
   "status": "partial",
   "theorems": [
    "Verif.Eustace.Smooth.c56_mean_partial",
    "Verif.Eustace.Smooth.c56_mean_value_partial",
    "Verif.Eustace.Smooth.c56_extend_partial",
    "Verif.Eustace.Smooth.c56_quartiles",
    "Verif.Eustace.Smooth.c56_small_violated",
    "Verif.Eustace.Smooth.c56_extend_small_violated"
   ],
   "note": "Proved for all shapes with at least ten rows and columns (percentiles: all shapes); smaller fields give zero means and no flags at all (negation proved)."
  },
  {
   "property": "C57",
   "status": "partial",
   "theorems": [
    "Verif.Eustace.Smooth.c57_rows",
    "Verif.Eustace.Smooth.c57_multiple_partial",
    "Verif.Eustace.Smooth.c57_violated"
   ],
   "note": "A row is covered iff it lies in a complete block; false whenever the block size does not divide the number of rows (negation proved)."
  },
  {
   "property": "C58",
   "status": "partial",
   "theorems": [
    "Verif.Eustace.Flags.c58_first_partial",
    "Verif.Eustace.Flags.c58_later_violated"
   ],
   "note": "True for bits 0-10; from bit 11 on every meaning is one bit off and 15 meanings are written for 13 masks (negation proved)."
  },
  {
   "property": "C59",
   "status": "partial",
   "theorems": [
    "Verif.Eustace.Satgrid.c59_cell",
    "Verif.Eustace.Satgrid.c59_rejected",
    "Verif.Eustace.Satgrid.c59_circular",
    "Verif.Eustace.Satgrid.c59_below_violated",
    "Verif.Eustace.Satgrid.c59_pole_violated",
    "Verif.Eustace.Satgrid.c59_field_axis",
    "Verif.Eustace.Satgrid.c59_centres",
    "Verif.Eustace.Satgrid.c59_flat",
    "Verif.Eustace.Satgrid.c59_flat_range"
   ],
   "note": "True for all axes with positive cells and all values from the start on; values less than one cell below the start go to the first cell instead of being rejected, and the latitude axis wraps as well, so the North Pole goes to the southernmost row (negations proved). Real arithmetic."
  },
  {
   "property": "C60",
   "status": "proved",
   "theorems": [
    "Verif.Eustace.Satgrid.c60_fields",
    "Verif.Eustace.Satgrid.c60_unique",
    "Verif.Eustace.Satgrid.c60_order",
    "Verif.Eustace.Satgrid.c60_total",
    "Verif.Eustace.Satgrid.c60_refused",
    "Verif.Eustace.Satgrid.c60_sampling"
   ],
   "note": "satgrid pipeline, both passes over the files, all files, grids and flags; a pixel off the grid refuses all files. Real arithmetic; values within the float32 range. The boxes are those of C59."
  },
  {
   "property": "C61",
   "status": "partial",
   "theorems": [
    "Verif.Eustace.Satgrid.c61_same_partial",
    "Verif.Eustace.Satgrid.c61_zero_violated",
    "Verif.Eustace.Satgrid.c61_overflow_violated",
    "Verif.Eustace.Satgrid.c61_last_box_violated"
   ],
   "note": "True for all batches as long as no box is over-full and no value is zero; zeros are left out of minima and maxima, values for a full box overwrite the next box, or raise in the last (negations proved)."
  },
  {
   "property": "C62",
   "status": "partial",
   "theorems": [
    "Verif.Eustace.Regrid.c62_average",
    "Verif.Eustace.Regrid.c62_blocking",
    "Verif.Eustace.Regrid.c62_convex",
    "Verif.Eustace.Regrid.c62_one_point",
    "Verif.Eustace.Regrid.c62_spacing",
    "Verif.Eustace.Regrid.c62_blocks_of_one",
    "Verif.Eustace.Regrid.c62_descending_violated",
    "Verif.Eustace.Regrid.c62_blocking_violated",
    "Verif.Eustace.Regrid.c62_rounding_violated",
    "Verif.Eustace.Regrid.c62_pole_violated"
   ],
   "note": "True for all grids with ascending latitudes (longitudes in any order), all sub-samplings and blockings, for cells whose points are between the poles. With descending latitudes the rows of each block are reversed, spacings are rounded to a thousandth of a degree, weights of cells centred at a pole add up to zero (negations proved). Real arithmetic."
  },
  {
   "property": "C63",
   "status": "partial",
   "theorems": [
    "Verif.Eustace.AnnualBatch.c63_days",
    "Verif.Eustace.AnnualBatch.c63_all_days",
    "Verif.Eustace.AnnualBatch.c63_times",
    "Verif.Eustace.AnnualBatch.c63_inputs",
    "Verif.Eustace.AnnualBatch.c63_by_name_partial",
    "Verif.Eustace.AnnualBatch.c63_name_violated",
    "Verif.Eustace.AnnualBatch.c63_last_second_violated",
    "Verif.Eustace.AnnualBatch.c63_missing_day_violated"
   ],
   "note": "All catalogues and periods at whole seconds: one slot for each day of each year, in the order of the day numbers, the last file of the day or -1. False: files found by name when the period does not begin at midnight, files with a time in the last second of a year; days without a file in a year with some file are never refused (negations proved). Times of files at whole seconds."
  },
  {
   "property": "C64",
   "status": "partial",
   "theorems": [
    "Verif.Eumopps.Time.c64_at_epoch_partial",
    "Verif.Eumopps.Time.c64_violated"
   ],
   "note": "True only if the period starts at the epoch; for every later start the indices do not correspond (negation proved for all periods)."
  },
  {
   "property": "C65",
   "status": "proved",
   "theorems": [
    "Verif.Eustace.SphereView.c65_tiling",
    "Verif.Eustace.SphereView.c65_neighbourhood",
    "Verif.Eustace.SphereView.c65_direct_average",
    "Verif.Eustace.SphereView.c65_exp_average",
    "Verif.Eustace.SphereView.c65_expanded_design",
    "Verif.Eustace.SphereView.c65_refused",
    "Verif.Eustace.SphereView.c65_accumulated",
    "Verif.Eustace.SphereView.c65_ways_agree",
    "Verif.Eustace.SphereView.c65_order",
    "Verif.Eustace.SphereView.c65_files",
    "Verif.Eustace.SphereView.c65_files_complete",
    "Verif.Eustace.SphereView.c65_missing_file",
    "Verif.Eustace.SphereView.c65_missing_file_violated",
    "Verif.Eustace.SphereView.c65_expanded_array"
   ],
   "note": "All levels up to 28, all views and parameters, each of the three ways of merging.  Merging of files does not notice a missing one; points of no other region then get no finite value (proved).  Real arithmetic."
  },
  {
   "property": "C66",
   "status": "partial",
   "theorems": [
    "Verif.Eumopps.Operation.c66_end_to_end",
    "Verif.Eumopps.Operation.c66_selectable_partial",
    "Verif.Eumopps.Operation.c66_selectable_violated"
   ],
   "note": "End-to-end content proved in full. Selectability needs that inputs allowing missing data refer to a non-empty subset (negation proved otherwise)."
  },
  {
   "property": "C67",
   "status": "partial",
   "theorems": [
    "Verif.Eumopps.Run.c67_batch",
    "Verif.Eumopps.Run.c67_last_batch_violated"
   ],
   "note": "Complete batches proved; the last incomplete batch always fails (negation proved)."
  },
  {
   "property": "C68",
   "status": "partial",
   "theorems": [
    "Verif.Eustace.Dates.c68_january_partial",
    "Verif.Eustace.Dates.c68_violated"
   ],
   "note": "True only for epochs in January (negation proved otherwise)."
  },
  {
   "property": "C69",
   "status": "partial",
   "theorems": [
    "Verif.Eumopps.Search.c69_single",
    "Verif.Eumopps.Search.c69_nested_partial",
    "Verif.Eumopps.Search.c69_violated"
   ],
   "note": "Proved for one pattern, and for two if the directory pattern ends in a slash; otherwise names are joined with a slash the search does not expect (negation proved)."
  },
  {
   "property": "C70",
   "status": "partial",
   "theorems": [
    "Verif.Eumopps.Search.c70_prefix_partial",
    "Verif.Eumopps.Search.c70_violated"
   ],
   "note": "Names begin with an instance of the pattern; anything may follow (negation proved for all patterns without category fields)."
  },
  {
   "property": "C71",
   "status": "partial",
   "theorems": [
    "Verif.Eumopps.Search.c71_fields_partial",
    "Verif.Eumopps.Search.c71_violated"
   ],
   "note": "True if a day comes with a month; a day without a month is replaced by 1 January (negation proved)."
  },
  {
   "property": "C72",
   "status": "proved",
   "theorems": [
    "Verif.Eustace.Flags.c72_window_in_place",
    "Verif.Eustace.Flags.c72_calendar_in_place",
    "Verif.Eustace.Flags.c72_outlier_in_place",
    "Verif.Eustace.Flags.c72_target_matters"
   ],
   "note": "All files and all duplicate-free lists of days; one process at a time."
  },
  {
   "property": "C73",
   "status": "proved",
   "theorems": [
    "Verif.Eustace.Smooth.c73_blocks"
   ],
   "note": "All statistics, shapes, block sizes and ranges; the computation of ranges from kilometres is a parameter."
  },
  {
   "property": "C74",
   "status": "proved",
   "theorems": [
    "Verif.Eustace.Percentiles.c74_one_file",
    "Verif.Eustace.Percentiles.c74_dates",
    "Verif.Eustace.Percentiles.c74_contributes"
   ],
   "note": "All dates and periods."
  },
  {
   "property": "C75",
   "status": "proved",
   "theorems": [
    "Verif.Eustace.Mesh.c75_degree"
   ],
   "note": "All levels up to 28 and all points."
  },
  {
   "property": "C76",
   "status": "proved",
   "theorems": [
    "Verif.Eustace.Locator.c76_tiling",
    "Verif.Eustace.Locator.c76_proper",
    "Verif.Eustace.Locator.good_plain",
    "Verif.Eustace.Locator.good_poles"
   ],
   "note": "All directions and levels up to 28; real arithmetic."
  },
  {
   "property": "C77",
   "status": "proved",
   "theorems": [
    "Verif.Eustace.Locator.c77_interpolation"
   ],
   "note": "All locations and levels up to 28; real arithmetic."
  },
  {
   "property": "C78",
   "status": "proved",
   "theorems": [
    "Verif.Eustace.Locator.c78_unit",
    "Verif.Eustace.Locator.c78_polar_roundtrip",
    "Verif.Eustace.Locator.c78_cartesian_roundtrip"
   ],
   "note": "Real arithmetic."
  },
  {
   "property": "C79",
   "status": "proved",
   "theorems": [
    "Verif.Eustace.Locator.c79_poles"
   ],
   "note": "Real arithmetic."
  },
  {
   "property": "C80",
   "status": "proved",
   "theorems": [
    "Verif.Eustace.Linear.c80_conservative",
    "Verif.Eustace.Linear.c80_unrectified_violated"
   ],
   "note": "All dimensions; false without the rectified design (proved)."
  },
  {
   "property": "C81",
   "status": "partial",
   "theorems": [
    "Verif.Eustace.Components.c81_spatial_partial",
    "Verif.Eustace.Components.c81_empty_day_violated"
   ],
   "note": "True for daily components; the update of a space-time component fails if one day has no data (negation proved)."
  },
  {
   "property": "C82",
   "status": "partial",
   "theorems": [
    "Verif.Eustace.Components.c82_no_data_violated"
   ],
   "note": "False: the uncertainty of a daily component on such a day is zero while its prior variance is positive (proved for all systems)."
  },
  {
   "property": "C83",
   "status": "partial",
   "theorems": [
    "Verif.Eustace.Components.c83_reported",
    "Verif.Eustace.Components.c83_conditional_partial",
    "Verif.Eustace.Components.c83_independent_partial",
    "Verif.Eustace.Components.c83_joint_violated"
   ],
   "note": "What is reported are standard deviations of each component given all others; they cover changes of one component alone, but not the joint posterior (negation proved)."
  },
  {
   "property": "C84",
   "status": "partial",
   "theorems": [
    "Verif.Eustace.Components.c84_stationary",
    "Verif.Eustace.Components.c84_violated"
   ],
   "note": "Fixed points are exactly the stationary points of the observation misfit alone, so the prior is lost (negation proved)."
  },
  {
   "property": "C85",
   "status": "proved",
   "theorems": [
    "Verif.Eustace.CostFunction.normalDensity_integral",
    "Verif.Eustace.CostFunction.c85_marginal",
    "Verif.Eustace.CostFunction.c85_log",
    "Verif.Eustace.CostFunction.c85_order",
    "Verif.Eustace.CostFunction.c85_replicates",
    "Verif.Eustace.CostFunction.c85_replicates_order",
    "Verif.Eustace.CostFunction.c85_set_point",
    "Verif.Eustace.CostFunction.replicateOf_holds"
   ],
   "note": "All dimensions; the integral over states is evaluated exactly."
  },
  {
   "property": "C86",
   "status": "partial",
   "theorems": [
    "Verif.Eustace.CostFunction.c86_derivative",
    "Verif.Eustace.CostFunction.c86_replicates",
    "Verif.Eustace.CostFunction.c86_cancellation_violated"
   ],
   "note": "True for closed factor patterns and derivatives within the pattern of the precisions; false when a factor entry cancels (negation proved)."
  },
  {
   "property": "C87",
   "status": "proved",
   "theorems": [
    "Verif.Eustace.SphereSpde.c87_parameters",
    "Verif.Eustace.SphereSpde.c87_stationary",
    "Verif.Eustace.SphereSpde.c87_expanded",
    "Verif.Eustace.SphereSpde.c87_scale",
    "Verif.Eustace.Lattice.c87_lattice"
   ],
   "note": "All designs, parameters and orders from 2 up; real arithmetic."
  },
  {
   "property": "C88",
   "status": "proved",
   "theorems": [
    "Verif.Eustace.Lattice.c88_posDef",
    "Verif.Eustace.Lattice.c88_buildQ",
    "Verif.Eustace.Lattice.c88_refused"
   ],
   "note": "All lattices and hyperparameters; real arithmetic."
  },
  {
   "property": "C89",
   "status": "partial",
   "theorems": [
    "Verif.Eustace.Geography.c89_interpolation_partial",
    "Verif.Eustace.Geography.c89_grid_point",
    "Verif.Eustace.Geography.c89_date_line",
    "Verif.Eustace.Geography.c89_date_line_west",
    "Verif.Eustace.Geography.c89_south",
    "Verif.Eustace.Geography.c89_north",
    "Verif.Eustace.Geography.c89_pole_violated",
    "Verif.Eustace.Geography.c89_range",
    "Verif.Eustace.Geography.c89_scale",
    "Verif.Eustace.Geography.c89_refused",
    "Verif.Eustace.Geography.c89_rounding_violated",
    "Verif.Eustace.Geography.c89_descending_violated"
   ],
   "note": "True for all regular grids from south to north whose node distance has at most two decimals; false for other distances and for grids from north to south (negations proved)."
  },
  {
   "property": "C90",
   "status": "proved",
   "theorems": [
    "Verif.Eustace.Elements.c90_precision"
   ],
   "note": "All trees of elements; meshes need a solid stiffness/mass assembly, which c45_mesh proves for the icosahedral meshes; real arithmetic."
  },
  {
   "property": "C91",
   "status": "proved",
   "theorems": [
    "Verif.Eustace.Elements.c91_grand_mean",
    "Verif.Eustace.Elements.c91_latitude",
    "Verif.Eustace.Elements.c91_geography",
    "Verif.Eustace.Elements.c91_local",
    "Verif.Eustace.Elements.c91_spatial_bias",
    "Verif.Eustace.Elements.c91_seasonal",
    "Verif.Eustace.Elements.c91_season_periodic",
    "Verif.Eustace.Elements.c91_kronecker",
    "Verif.Eustace.Elements.c91_latitude_spline",
    "Verif.Eustace.Elements.c91_periodic"
   ],
   "note": "All sizes and states; real arithmetic; the rows of the spherical design are those of C31/C79."
  },
  {
   "property": "C92",
   "status": "proved",
   "theorems": [
    "Verif.Eustace.Elements.c92_kronecker",
    "Verif.Eustace.Elements.c92_seasonal"
   ],
   "note": "All sizes and hyperparameters. For lattices of more than one dimension see C49."
  },
  {
   "property": "C93",
   "status": "partial",
   "theorems": [
    "Verif.Eustace.DecimalYear.c93_floor",
    "Verif.Eustace.DecimalYear.c93_increasing",
    "Verif.Eustace.DecimalYear.c93_even",
    "Verif.Eustace.DecimalYear.c93_last_violated"
   ],
   "note": "True for all times before the year 9999, in exact arithmetic; in that last year of the calendar the conversion raises ValueError (negation proved). Rounding of float64 is not modelled."
  },
  {
   "property": "C94",
   "status": "partial",
   "theorems": [
    "Verif.Eustace.ObsSource.c94_cutoff",
    "Verif.Eustace.ObsSource.c94_kernel",
    "Verif.Eustace.ObsSource.c94_again",
    "Verif.Eustace.ObsSource.c94_refused",
    "Verif.Eustace.ObsSource.c94_station",
    "Verif.Eustace.ObsSource.c94_kernel_zero_violated"
   ],
   "note": "All lists and positive thresholds; with the threshold 0 the kernel keeps every break (proved)."
  },
  {
   "property": "C95",
   "status": "partial",
   "theorems": [
    "Verif.Eustace.ObsSource.c95_locations",
    "Verif.Eustace.ObsSource.c95_gap_violated"
   ],
   "note": "True for all regular grids whose gap is a whole number of rows; other gaps are accepted and shift the second hemisphere (negation proved)."
  },
  {
   "property": "C96",
   "status": "partial",
   "theorems": [
    "Verif.Eustace.ObsSource.c96_stations",
    "Verif.Eustace.ObsSource.c96_observations",
    "Verif.Eustace.ObsSource.c96_order_violated",
    "Verif.Eustace.ObsSource.c96_repeated_violated",
    "Verif.Eustace.ObsSource.c96_breaks_order_violated"
   ],
   "note": "True where breaks are ordered by station and time and observations by station without repetition; false otherwise (negations proved)."
  },
  {
   "property": "C97",
   "status": "partial",
   "theorems": [
    "Verif.Eustace.ObsSource.c97_aligned",
    "Verif.Eustace.ObsSource.c97_precision_pos",
    "Verif.Eustace.ObsSource.c97_longitude",
    "Verif.Eustace.ObsSource.c97_global",
    "Verif.Eustace.ObsSource.c97_satellite",
    "Verif.Eustace.ObsSource.c97_hemispheres",
    "Verif.Eustace.ObsSource.c97_groups",
    "Verif.Eustace.ObsSource.c97_ocean_violated"
   ],
   "note": "All observations and masks; the group insitu_ocean is accepted but never gets an effect (proved)."
  },
  {
   "property": "C98",
   "status": "partial",
   "theorems": [
    "Verif.Eustace.Satgrid.c98_load",
    "Verif.Eustace.Satgrid.c98_fields",
    "Verif.Eustace.Satgrid.c98_agree",
    "Verif.Eustace.Satgrid.c98_complete_violated",
    "Verif.Eustace.Satgrid.c98_error_coordinates_violated"
   ],
   "note": "Both programs agree for all files without masks and error coordinates, and satgrid_iris alone is characterised for any masks. A file whose primary field is complete while another field has gaps is left out whole; coordinates standing for errors make satgrid raise and satgrid_iris leave out pixels (proved). Real arithmetic."
  },
  {
   "property": "C99",
   "status": "proved",
   "theorems": [
    "Verif.Eustace.Regrid.c99_pointwise",
    "Verif.Eustace.Regrid.c99_pointwise_uncertainty",
    "Verif.Eustace.Regrid.c99_average",
    "Verif.Eustace.Regrid.c99_average_uncertainty",
    "Verif.Eustace.Regrid.c99_uncertainty_bound",
    "Verif.Eustace.Regrid.c99_order",
    "Verif.Eustace.Regrid.c99_flags",
    "Verif.Eustace.Regrid.c99_prior",
    "Verif.Eustace.Regrid.c99_fraction",
    "Verif.Eustace.Regrid.c99_fraction_range",
    "Verif.Eustace.Regrid.c99_fraction_fill",
    "Verif.Eustace.Regrid.c99_sample",
    "Verif.Eustace.Regrid.c99_sample_refused"
   ],
   "note": "All components, grids with ascending latitudes, sub-samplings and blockings; cells as in C62. Real arithmetic."
  }
 ]
}