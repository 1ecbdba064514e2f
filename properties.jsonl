{"id": "C01", "title": "Checksum work split is an exact partition", "statement": "When checksums are computed for a data subset, the index ranges handed to the workers are non-empty, consecutive and disjoint, and together they are exactly the indices of the files of the subset: every file is checksummed once, by one worker.", "quantifier": "every number of files (including 0) and every positive worker setting", "why_tests_cant": "The integer division, the forced minimum step and the patched last range interact differently for each remainder; tests cover a handful of totals.", "anchors": ["src/eumopps/catalogue/dataset.py: CatalogueDataSubset.compute_checksum_thread_indices, ChecksumThread.run"]}
{"id": "C02", "title": "Concurrent checksumming equals sequential checksumming", "statement": "Whatever the order in which the worker threads are scheduled, once all of them have signalled completion the subset holds for each file exactly the checksum and size that a sequential pass would have stored, and a file that could not be read keeps its previous values.", "quantifier": "every list of files, every outcome of reading each file, every interleaving of the workers", "why_tests_cant": "A test run exercises one schedule; the statement is about all interleavings.", "anchors": ["src/eumopps/catalogue/dataset.py: CatalogueDataSubset.compute_checksum, CatalogueFileEntry.compute_checksum, ChecksumThread.run"]}
{"id": "C03", "title": "Advertised bound on checksum threads", "statement": "Computing checksums of one subset uses at most CHECKSUM_NUM_THREADS threads.", "quantifier": "every number of files", "why_tests_cant": "Violations appear only for particular totals between multiples of the thread number.", "anchors": ["src/eumopps/catalogue/dataset.py: CatalogueDataSubset.compute_checksum (doc string), compute_checksum_thread_indices"]}
{"id": "C04", "title": "Data references survive flattening to integers", "statement": "Converting a list of data references to the flat integer list stored in the catalogue and back gives the same references in the same order; a flat list is accepted exactly when its length is a multiple of three.", "quantifier": "every list of references and every list of integers", "why_tests_cant": "Round-trip over unbounded lists; the malformed-length boundary is not sampled.", "anchors": ["src/eumopps/catalogue/datareference.py: reference_list_to_integers, reference_integers_to_list, DataReference"]}
{"id": "C05", "title": "Each input file is given to exactly the operation of its time step", "statement": "When file names determine the step, then after resolving a file-list input the references of operation i are precisely the catalogue entries whose time falls into step i, each exactly once and in catalogue order; files outside the step range are given to no operation.", "quantifier": "every catalogue subset (any number, order and multiplicity of files), every step object", "why_tests_cant": "Depends on sort stability, grouping and dictionary lookup for arbitrary file orders; tests use short sorted lists.", "anchors": ["src/eumopps/catalogue/placeholder.py: InputFileList.find_references"]}
{"id": "C06", "title": "Missing-data policy is honoured exactly", "statement": "With policy 'not_allowed' resolution fails if and only if some step has no file; with 'allowed' it never fails and a step with no file gets exactly one placeholder entry of -1; with 'skip' it never fails and marks for skipping exactly the steps with no file, leaving all previously requested skips in place.", "quantifier": "every subset, step object and prior skip list", "why_tests_cant": "Quantifies over all distributions of missing files.", "anchors": ["src/eumopps/catalogue/placeholder.py: InputFileList.find_references (missing data policy)"]}
{"id": "C07", "title": "Inputs that do not identify the step are looked up by name", "statement": "When file names do not determine the step, operation i refers to a catalogue entry whose name equals the name the step builds for i, if there is one, and is otherwise treated as missing.", "quantifier": "every subset including duplicate names, every step object", "why_tests_cant": "Universally quantified over names; duplicates are not in tests.", "anchors": ["src/eumopps/catalogue/placeholder.py: InputFileList.find_references (name lookup branch)"]}
{"id": "C08", "title": "Output registration: one entry per distinct name, right reference for each operation", "statement": "Resolving an output adds to the (previously empty) subset one entry per distinct output name, in order of first use, and the reference of each operation points at the entry bearing the name built for that operation; every other dataset is untouched; a second registration on the same subset is refused.", "quantifier": "every step object, every list of operation indices", "why_tests_cant": "Deduplication via a dictionary over arbitrary name functions.", "anchors": ["src/eumopps/catalogue/placeholder.py: OutputFile.operation_output_resolve"]}
{"id": "C09", "title": "Skipping keeps all per-operation parameters aligned", "statement": "After resolution with skips, the operation count equals the number of non-skipped steps, every per-operation parameter list anywhere in the module parameters has exactly that length, and position k of each list belongs to the k-th non-skipped step.", "quantifier": "every parameter tree, every combination of skip requests from any number of inputs", "why_tests_cant": "Alignment across independently resolved inputs and outputs at arbitrary nesting.", "anchors": ["src/eumopps/catalogue/operation.py: Operation.resolve_operation_references, updatewalk, OperationResolveInputReferences, OperationResolveOutputReferences", "src/eumopps/catalogue/operationparameters.py: OperationParameterList.restrict_to_subset"]}
{"id": "C10", "title": "Selecting a single operation yields exactly its own parameters", "statement": "Resolving a single operation index replaces every per-operation list in the module parameters by the value for that index, replaces time stamps by the given time stamp, leaves every other value unchanged, and fails if any list length differs from the operation count.", "quantifier": "every parameter tree and operation index", "why_tests_cant": "Structural recursion over arbitrary trees.", "anchors": ["src/eumopps/catalogue/operation.py: Operation.resolve_single_operation, OperationResolveSingleOperation, updatewalk", "src/eumopps/catalogue/operationparameters.py"]}
{"id": "C11", "title": "Batches cover every operation exactly once", "statement": "With batch size b, the advertised number of batches is the least number that suffices, every operation index belongs to exactly one (batch, position) pair, and the pairs enumerate the operations in order; positions past the end of the last batch address no operation.", "quantifier": "every operation count and every positive batch size", "why_tests_cant": "Ceiling arithmetic for all pairs (count, batch size).", "anchors": ["src/eumopps/catalogue/fileio/formatnetcdf.py: CatalogueReaderNetCDF.operationcount", "src/eumopps/catalogue/commandrun.py: main", "src/eumopps/catalogue/multiplecommandsrun.py"]}
{"id": "C12", "title": "Daily step: index and time are inverse, and every instant of a day maps to that day", "statement": "For a daily step, the index of the time of step i is i, the number of steps is the number of calendar days from start to end inclusive, and a time t is mapped to index i exactly when t lies within the i-th day after start.", "quantifier": "every start, end, index and time (to the microsecond)", "why_tests_cant": "Floating and truncating arithmetic over unbounded times, including times before the start.", "anchors": ["src/eumopps/catalogue/step.py: StepDaily", "src/eumopps/timeutils/timebase.py: TimeBaseDays"]}
{"id": "C13", "title": "Second-based time numbers round-trip", "statement": "Converting a datetime to seconds since a base and back returns the same datetime for every whole-second datetime.", "quantifier": "every base and every datetime", "why_tests_cant": "Unbounded domain.", "anchors": ["src/eumopps/timeutils/timebase.py: TimeBaseSeconds"]}
{"id": "C14", "title": "Day-based time numbers are the elapsed time in days", "statement": "The number produced for a datetime is the elapsed time since the base divided by one day, so conversion is strictly increasing and converting back returns the datetime.", "quantifier": "every base and every datetime to the microsecond", "why_tests_cant": "Sub-second inputs are not tested; the microsecond term has the wrong unit.", "anchors": ["src/eumopps/timeutils/timebase.py: TimeBaseDays.datetime_to_number, number_to_datetime"]}
{"id": "C15", "title": "Annual and monthly time numbers agree with the calendar", "statement": "Annual (monthly) numbering maps the start of the k-th year (month) after the base to k and back, and a datetime gets the integer part k exactly when it lies in the k-th year (month).", "quantifier": "every base at a year (month) start, every datetime, every k", "why_tests_cant": "Leap years and month lengths over the whole calendar.", "anchors": ["src/eumopps/timeutils/timebase.py: TimeBaseAnnual, TimeBaseMonthly", "src/eustace/analysis/advanced_standard/examples/step.py: StepAnnual, StepMonthly"]}
{"id": "C16", "title": "Day file names identify the day", "statement": "If the concatenated name patterns contain %Y, %m and %d then two different days never get the same file name from the patterns, and the name built for a day contains that day written in fixed-width digits.", "quantifier": "every pattern list and every two days", "why_tests_cant": "Injectivity over all patterns and dates.", "anchors": ["src/eumopps/timeutils/datetime_numeric.py: build_from_pattern", "src/eumopps/catalogue/step.py: StepDaily.filename_from_patterns, is_uniquely_defined_by"]}
{"id": "C17", "title": "Two-level pattern search returns the fields of the file itself", "statement": "In a nested (directory, file) pattern search, the field values reported for a file are those extracted from that file.", "quantifier": "every candidate list and pattern pair", "why_tests_cant": "The grouping key is a concatenation of values; colliding keys are not tested.", "anchors": ["src/eumopps/catalogue/namepatterns.py: nested_search_patterns, hash_string_dictionary"]}
{"id": "C18", "title": "Catalogue search accounts for every file", "statement": "After a search every found file is reported either as a match, as a value error, or as non-matching, and none is lost.", "quantifier": "every directory listing and every set of subset patterns", "why_tests_cant": "Quantifies over arbitrary listings.", "anchors": ["src/eumopps/catalogue/dataset.py: CatalogueDataSet.search, CatalogueDataSubset.append_results", "src/eumopps/catalogue/storage.py"]}
{"id": "C19", "title": "Saving and reloading a catalogue preserves file entries", "statement": "A list of file entries written to a catalogue file and read back is the same list: each entry keeps its own time, checksum and size.", "quantifier": "every list of entries, including entries for which some field is missing", "why_tests_cant": "Mixed presence of optional fields in long lists is not covered by tests.", "anchors": ["src/eumopps/netcdfobjects/netcdfobjects.py: save_object, load_object, read_variable, save_list"]}
{"id": "C20", "title": "JSON save/load of objects", "statement": "Loading a saved object gives an object with the same attribute values.", "quantifier": "every object tree", "why_tests_cant": "Unbounded trees; falsy attributes are silently dropped on save.", "anchors": ["src/eumopps/jsonobjects/jsonobjects.py: save_object, load_object"]}
{"id": "C21", "title": "Updating a catalogue never changes what existing references mean", "statement": "Building further datasets and operations onto an existing catalogue only appends: every data reference that resolved to a path before the update resolves to the same path afterwards.", "quantifier": "every existing catalogue and every sequence of updates", "why_tests_cant": "Quantifies over histories of updates.", "anchors": ["src/eumopps/catalogue/build.py: build", "src/eumopps/catalogue/catalogue.py", "src/eumopps/catalogue/fileio/formatnetcdf.py: load_data_pathnames"]}
{"id": "C22", "title": "Operation lookup by name is unambiguous", "statement": "Looking up an operation by name succeeds if and only if exactly one operation has that name (or, for unnamed operations, module name), and returns that one.", "quantifier": "every catalogue", "why_tests_cant": "Quantifies over arbitrary operation lists.", "anchors": ["src/eumopps/catalogue/fileio/formatnetcdf.py: CatalogueReaderNetCDF.findoperation"]}
{"id": "C23", "title": "An operation is run only with the tool chain it was resolved with", "statement": "Running an operation index checks the recorded tool chain against the current one before anything is executed: on mismatch nothing runs, unless mismatch is explicitly allowed; list-only mode never runs a command.", "quantifier": "every recorded and current tool chain, every option combination", "why_tests_cant": "All option combinations and version lists.", "anchors": ["src/eumopps/catalogue/commandrun.py: main", "src/eumopps/catalogue/operation.py: Operation.current_runtime_toolchain"]}
{"id": "C24", "title": "Raw binary day files round-trip the valid observations of the day", "statement": "Reading a raw binary day file returns exactly the unmasked observations of that day that were written, in order, with their location, measurement, uncorrelated and locally correlated errors; the reported count is the number of those observations.", "quantifier": "every list of observations, masks and times", "why_tests_cant": "Unbounded observation lists; filter and byte layout interact.", "anchors": ["src/eustace/analysis/fileio/observationsource_rawbinary.py"]}
{"id": "C25", "title": "Location pointers address exactly the records of a location", "statement": "For every location the pointer index lists, in file order, the byte offsets of exactly the records in the day file that belong to that location, and reading the record at such an offset gives that record.", "quantifier": "every sequence of day files and locations", "why_tests_cant": "Offset arithmetic over unbounded files.", "anchors": ["src/eustace/analysis/fileio/locationpointers.py"]}
{"id": "C26", "title": "Observation collections: mean and append", "statement": "Averaging two aligned observation sets gives at each place the mean measurement and root-sum-square combination for the entries valid in both and masks the rest; appending collections keeps every entry.", "quantifier": "every pair of collections", "why_tests_cant": "Masks over arbitrary lengths.", "anchors": ["src/eustace/analysis/observationsource.py: Observations.mean, append"]}
{"id": "C27", "title": "Diagnostic grids aggregate each observation once, in any order", "statement": "Each grid box counter equals the number of observations mapped to it; the minimum and maximum of value and uncertainty and the weighted sums depend only on the multiset of observations per box, not on order or on how input is split into batches.", "quantifier": "every list of observations and every split into batches", "why_tests_cant": "All orders and batchings; the minimum uncertainty is compared against the wrong variable.", "anchors": ["src/eustace/analysis/diagnosticgrid_aggregate.pyx", "src/eustace/analysis/diagnosticgrid.py"]}
{"id": "C28", "title": "Mesh sizes at every level", "statement": "The mesh at level n has 10*4^n+2 vertices, 30*4^n edges and 20*4^n triangles; hence V-E+F=2.", "quantifier": "every subdivision level", "why_tests_cant": "Tests build a few levels.", "anchors": ["src/eustace/analysis/mesh/mesh.py: MeshIcosahedron, MeshIcosahedronSubdivision.subdivide"]}
{"id": "C29", "title": "The mesh is a closed consistently oriented surface at every level", "statement": "At every level each edge of the mesh belongs to exactly two triangles, which traverse it in opposite directions; there are no boundary edges.", "quantifier": "every subdivision level which 64 bit identifiers support (up to 28)", "why_tests_cant": "Combinatorial invariant over unbounded recursion.", "anchors": ["src/eustace/analysis/mesh/mesh.py: MeshIcosahedronSubdivision.subdivide"]}
{"id": "C30", "title": "Triangle identifiers encode ancestry", "statement": "At every supported level triangle identifiers are pairwise distinct, sorted in array order, and shifting an identifier gives the position in the array; the ancestor of a triangle at a coarser level is obtained by shifting further, and each coarse triangle has exactly 4^k descendants k levels below.", "quantifier": "every level up to the 64 bit limit and every triangle", "why_tests_cant": "Bit arithmetic over all levels; collisions appear only at depth.", "anchors": ["src/eustace/analysis/mesh/mesh.py", "src/eustace/analysis/advanced_standard/stats/spde/spherical.py: super_triangle_at_level, neighbours_at_level"]}
{"id": "C31", "title": "Point location picks exactly one child and stays consistent with the mesh", "statement": "Descending one level assigns a point inside a triangle to exactly one of the four children, whose vertices are those of the mesh triangle with the child identifier, and the returned barycentric coordinates are non-negative, sum to one and reproduce the point; iterating reaches any level.", "quantifier": "every triangle, every point in it, every depth", "why_tests_cant": "Points on shared edges and unbounded depth.", "anchors": ["src/eustace/analysis/mesh/locator.py: barycentre_subdivision_number, barycentre_subdivide, triangle_points_to_subtriangle"]}
{"id": "C32", "title": "The reported state is the unique minimiser of the posterior cost", "statement": "For a positive definite prior precision and a positive semi-definite observation precision, the state computed by the solver is the unique minimiser of prior misfit plus observation misfit.", "quantifier": "every dimension, design matrix, precision matrices and observation vector (exact arithmetic)", "why_tests_cant": "Optimality over all states.", "anchors": ["src/eustace/analysis/advanced_standard/linalg/linearsystem.py: LinearSystem, LinearSystemSolution_Cholesky, MeasurementUpdate"]}
{"id": "C33", "title": "Observation updates may be accumulated in any order and grouping", "statement": "Accumulating measurement updates gives the same posterior as processing all observations at once; the order of the updates and the way they are grouped is irrelevant.", "quantifier": "every list of observation batches and every permutation and grouping", "why_tests_cant": "All orders and groupings.", "anchors": ["src/eustace/analysis/advanced_standard/linalg/linearsystem.py: MeasurementUpdate.append, LinearSystem.append_measurement", "src/eustace/analysis/advanced_standard/components/spacetime.py: process_observations, update, merge_updates"]}
{"id": "C34", "title": "Merging stored updates does not change stored data", "statement": "Reading and merging the stored measurement updates of a space-time component leaves the stored updates unchanged, so solving twice gives the same state.", "quantifier": "every storage content, any number of solves", "why_tests_cant": "A second solve with in-memory storage is needed to observe aliasing.", "anchors": ["src/eustace/analysis/advanced_standard/components/spacetime.py: merge_updates", "src/eustace/analysis/advanced_standard/components/storage_inmemory.py"]}
{"id": "C35", "title": "Iterating component updates never worsens the fit", "statement": "Each component update, given the other components, never increases the total cost; a state that no component update changes is the joint optimum of all components.", "quantifier": "every number of components, every current state, any sequence of component updates", "why_tests_cant": "Monotonicity over all histories.", "anchors": ["src/eustace/analysis/advanced_standard/analysissystem.py: AnalysisSystem.update, update_component", "src/eustace/analysis/advanced_standard/components/spacetime.py", "src/eustace/analysis/advanced_standard/components/spatial.py"]}
{"id": "C36", "title": "A component is fitted to the residual of all other components", "statement": "When a component is updated at a time step, the quantity it is fitted to is the observation minus the expected values of every other component and not its own.", "quantifier": "every number of components and every component index", "why_tests_cant": "Every index and number of components.", "anchors": ["src/eustace/analysis/advanced_standard/analysissystem.py: update_component_time, update_component_times"]}
{"id": "C37", "title": "Posterior uncertainty never exceeds prior uncertainty", "statement": "For every linear output the posterior variance is at most the prior variance, and the climatology fraction lies between 0 and 1.", "quantifier": "every dimension, design, precision", "why_tests_cant": "Inequality over all directions.", "anchors": ["src/eustace/analysis/advanced_standard/linalg/linearsystem.py: marginal_std", "src/eustace/analysis/advanced_standard/analysissystem.py: evaluate_climatology_fraction"]}
{"id": "C38", "title": "Samples drawn from the solution have the posterior covariance", "statement": "The linear map applied to white noise to draw a sample satisfies M Mᵀ = inverse posterior precision, so the quadratic form of a sample equals that of its white noise.", "quantifier": "every positive definite precision", "why_tests_cant": "Matrix identity in all dimensions.", "anchors": ["src/eustace/analysis/advanced_standard/linalg/linearsystem.py: random_sample, white_noise_to_posterior_distribution"]}
{"id": "C39", "title": "Combined elements behave as the concatenation of their parts", "statement": "For a combination of elements, the design applied to a state is the sum over the elements of each design applied to its slice of the state, slices are disjoint, consecutive and cover the state, and the prior precision couples no two elements.", "quantifier": "every list of elements and every state", "why_tests_cant": "Slicing for arbitrary element sizes.", "anchors": ["src/eustace/analysis/advanced_standard/elements/combination.py: CombinationDesign, CombinationPrior"]}
{"id": "C40", "title": "Combined hyperparameters round-trip", "statement": "Setting the hyperparameter array of a combination and getting it back returns the same values; each element receives exactly its own parameters.", "quantifier": "every list of parameter sizes, including empty elements", "why_tests_cant": "Arbitrary shapes.", "anchors": ["src/eustace/analysis/advanced_standard/elements/combination.py: CombinationHyperparameters, CombinationElement"]}
{"id": "C41", "title": "Precision derivatives are the derivatives of the precision", "statement": "The reported derivative of a prior precision with respect to a hyperparameter is the derivative of the reported precision with respect to that hyperparameter.", "quantifier": "every element, hyperparameter value and index", "why_tests_cant": "Calculus identity.", "anchors": ["src/eustace/analysis/advanced_standard/elements/covariate.py: CovariatePrior", "src/eustace/analysis/advanced_standard/elements/combination.py: CombinationPrior.prior_precision_derivative", "src/eustace/analysis/advanced_standard/elements/seasonal.py", "src/eustace/analysis/advanced_standard/stats/spde/lattice.py: build_dQdp_native"]}
{"id": "C42", "title": "The factor element Jacobian is the derivative of its design function", "statement": "The Jacobian reported for the non-linear space-time factor element is the derivative of its design function at every state.", "quantifier": "every state and design", "why_tests_cant": "Calculus identity.", "anchors": ["src/eustace/analysis/advanced_standard/elements/factor.py"]}
{"id": "C43", "title": "Component storage returns what was last written", "statement": "Every read of a stored component state returns the value most recently written for that time index, or \"nothing\" if none was written, and file-backed and in-memory storages are indistinguishable.", "quantifier": "every history of writes and reads over any number of time indices", "why_tests_cant": "Histories; caching can serve stale or foreign values.", "anchors": ["src/eustace/analysis/advanced_standard/components/storage_inmemory.py", "src/eustace/analysis/advanced_standard/components/storage_files.py", "src/eustace/analysis/advanced_standard/components/storage_files_batch.py"]}
{"id": "C44", "title": "Partial inverse equals the inverse on the computed pattern", "statement": "The partial inverse routine returns, for every entry of the factor pattern, the corresponding entry of the inverse of the precision matrix.", "quantifier": "every positive definite matrix with any fill-closed sparsity pattern", "why_tests_cant": "Recursion over unbounded dimensions.", "anchors": ["src/eustace/analysis/advanced_standard/linalg/qinv.pyx: Q_inv"]}
{"id": "C45", "title": "Spherical SPDE precision is symmetric positive definite", "statement": "The precision built on the spherical mesh is symmetric and positive definite for every positive parameter value; the stiffness matrix has zero row sums and is positive semi-definite.", "quantifier": "every mesh with positive triangle areas, every kappa and tau", "why_tests_cant": "All meshes and parameters.", "anchors": ["src/eustace/analysis/advanced_standard/stats/spde/spherical.py: build_Q, build_Q_native, build_Q_G, build_Q_C_tilde"]}
{"id": "C46", "title": "The smoothness parameter selects the corresponding operator power", "statement": "The precision for order alpha is the alpha-fold composition: different alpha give the precision of different order.", "quantifier": "every alpha accepted", "why_tests_cant": "Loop bounds matter only for larger alpha.", "anchors": ["src/eustace/analysis/advanced_standard/stats/spde/spherical.py: build_Q_native"]}
{"id": "C47", "title": "Lattice neighbour search finds every node with support at a point", "statement": "For every location inside the lattice, every basis function that is non-zero there is among the indices returned, in periodic and non-periodic dimensions.", "quantifier": "every lattice, every location", "why_tests_cant": "Boundary positions in all dimensions.", "anchors": ["src/eustace/analysis/advanced_standard/stats/spde/lattice.py: LatticeMesh.locate_nearby_basis_indices, build_A"]}
{"id": "C48", "title": "Piecewise-linear lattice interpolation reproduces constants", "statement": "With piecewise-linear basis functions the interpolation weights at any location inside the lattice are non-negative and sum to one.", "quantifier": "every location and node spacing", "why_tests_cant": "Real-valued locations.", "anchors": ["src/eustace/analysis/advanced_standard/stats/spde/lattice.py: PiecewiseLinearBasis, build_A"]}
{"id": "C49", "title": "Lattice precision couples only neighbouring nodes", "statement": "The lattice precision matrix links two nodes exactly when they are adjacent in the lattice as enumerated by the design matrix.", "quantifier": "every lattice shape", "why_tests_cant": "Ordering disagreements are visible only for unequal dimensions.", "anchors": ["src/eustace/analysis/advanced_standard/stats/spde/lattice.py: build_Q_native, node ordering"]}
{"id": "C50", "title": "The output mask is exactly the documented combination of flags", "statement": "A value is masked if and only if some masking rule applies: all flags of the rule are set and none of its overriding flags is.", "quantifier": "every flag word and every rule list", "why_tests_cant": "All 65536 flag words and all rule lists.", "anchors": ["src/eustace/postprocess/apply_mask.py: compute_mask, FLAGS_TO_MASK"]}
{"id": "C51", "title": "Window check flags exactly the cells with too few constrained days", "statement": "The previous-days flag is added to a cell if and only if fewer than the threshold of the available previous days in the window are constrained there (likewise following days); no other flag changes.", "quantifier": "every window size, positive threshold, set of missing days and flag fields", "why_tests_cant": "Arbitrary patterns of missing days.", "anchors": ["src/eustace/postprocess/window_check.py: local_window_constraint_checks"]}
{"id": "C52", "title": "Calendar check flags exactly the cells with too few constrained years", "statement": "The previous-years/later-years flags and the unconstrained-calendar-day flag are added exactly according to the numbers of constrained years before, after and in total; no other flag changes.", "quantifier": "every year range, set of missing files and flag fields", "why_tests_cant": "Arbitrary sets of years.", "anchors": ["src/eustace/postprocess/calendar_check.py: calendar_constraint_checks"]}
{"id": "C53", "title": "Persistent outlier flag", "statement": "The persistent outlier flag is added to a cell if and only if at least the threshold number of available days in the window carries any outlier flag there.", "quantifier": "every window, threshold and flag fields", "why_tests_cant": "Arbitrary windows.", "anchors": ["src/eustace/postprocess/outlier_window_check.py: persistant_outlier_check"]}
{"id": "C54", "title": "Merging flag files", "statement": "Merging two flag files keeps every flag of the first, adds every flag of the second except that the second file's areal-low flag is reported as missing-marine.", "quantifier": "every pair of flag words", "why_tests_cant": "All flag words.", "anchors": ["src/eustace/postprocess/merge_flag_files.py: merged_flags"]}
{"id": "C55", "title": "Monthly operations cover every day exactly once", "statement": "For a reference date on the first of a month, the dates of operations 0,1,2,... are consecutive, disjoint and cover every day from the reference date on; the number of operations for a range of years covers exactly those years.", "quantifier": "every reference date and every operation index", "why_tests_cant": "Month arithmetic over all dates.", "anchors": ["src/eustace/postprocess/operation_count.py: operation_dates, operation_count"]}
{"id": "C56", "title": "Smoothing and dilation do not depend on internal blocking", "statement": "The running mean over a field computed block by block equals the directly computed window mean in every cell; flag regions are extended exactly to the cells having a flagged cell in their window.", "quantifier": "every field shape and window", "why_tests_cant": "Shapes below or not multiple of the block size.", "anchors": ["src/eustace/postprocess/outlier_check.py: compute_window_mean, extremes_checks, areal_checks"]}
{"id": "C57", "title": "Areal statistics are computed for every row", "statement": "Block-wise areal statistics assign a value to every latitude row of the field.", "quantifier": "every number of rows and block size", "why_tests_cant": "Only a row number not divisible by the block size shows the gap.", "anchors": ["src/eustace/postprocess/outlier_check.py: block_iqr_by_range"]}
{"id": "C58", "title": "Flag documentation matches the flag bits", "statement": "The i-th flag mask written to the output file carries the i-th meaning and covers all flags in use.", "quantifier": "every flag", "why_tests_cant": "Only an exhaustive correspondence check settles it.", "anchors": ["src/eustace/postprocess/flags.py", "src/eustace/postprocess/apply_mask.py: save_flag_file"]}
{"id": "C59", "title": "Grid axis indexing puts a value in the cell that contains it", "statement": "A coordinate value is assigned the index of the cell containing it, values outside the axis are rejected, and on circular axes the end point wraps to the first cell.", "quantifier": "every axis and every value", "why_tests_cant": "Truncation toward zero just below the start.", "anchors": ["src/eustace/satgrid/grid.py: GridAxis.compute_indices", "src/eustace/satgrid_iris/gridbin/gridfieldlist.py: GridFieldAxis.compute_indices"]}
{"id": "C60", "title": "Satellite aggregation is batch-independent and counts every observation once", "statement": "The aggregated count, sum, minimum, maximum and uncertainty sums of every grid box depend only on the multiset of observations assigned to the box, not on file order or batching, and the counts add up to the number of observations.", "quantifier": "every sequence of input files", "why_tests_cant": "All orders and batchings.", "anchors": ["src/eustace/satgrid/aggregate_grid.py", "src/eustace/satgrid_iris/gridbin/operation/*.pyx", "src/eustace/satgrid/aggregate.c"]}
{"id": "C61", "title": "In-memory array aggregation agrees with running aggregation", "statement": "The class that keeps all observations per box and the class that keeps running totals report the same fields.", "quantifier": "every list of observations", "why_tests_cant": "Overflow of a box capacity and zero values are not in tests.", "anchors": ["src/eustace/satgrid/aggregate_grid.py: AggregateGridArray, AggregateGridCountSumMinMax"]}
{"id": "C62", "title": "Grid-cell averages are convex combinations and independent of blocking", "statement": "Sub-cell weights are positive and sum to one in each cell, each cell averages exactly its own sub-points, and the result does not depend on the blocking parameter.", "quantifier": "every grid, sub-sampling and blocking", "why_tests_cant": "All shapes.", "anchors": ["src/eustace/analysis/advanced_standard/fileio/output_structure_rectilinear.py: Regridder"]}
{"id": "C63", "title": "Annual batches list one file slot per day, aligned with the day list", "statement": "For annual batch processing, the list of input references of a year has one slot per day of that year within the analysis period, the slot of a day refers to a file of that day or is marked missing, and slots are aligned with the list of day numbers given to the same operation.", "quantifier": "every file list, start and end date", "why_tests_cant": "Arbitrary file orders and partial years.", "anchors": ["src/eustace/analysis/advanced_standard/examples/placeholder.py: AnnualBatchDays, AnalysisAnnualBatchDayIndices"]}
{"id": "C64", "title": "Epoch-indexed daily step is usable like the daily step", "statement": "For the epoch-indexed daily step, the step indices used when resolving inputs and outputs (0 .. count-1) correspond to the days from start to end.", "quantifier": "every start and end", "why_tests_cant": "Only start dates different from the epoch show the mismatch.", "anchors": ["src/eustace/analysis/advanced_standard/fileio/step.py: StepDailyEpoch"]}
{"id": "C65", "title": "Local view domains share the sphere without gaps", "statement": "Every triangle of the mesh belongs to exactly one core region at a given super-level, and merging parameters of overlapping local views gives at each vertex the mean of the values of the views containing it.", "quantifier": "every level, every set of views", "why_tests_cant": "All levels and view sets.", "anchors": ["src/eustace/analysis/advanced_standard/stats/spde/spherical_view.py", "src/eustace/analysis/advanced_standard/stats/spde/spherical.py"]}
{"id": "C66", "title": "An operation receives exactly the files of its own step, end to end", "statement": "After a catalogue is built and operation k is selected from it, every file input of the module is given the path names of the catalogue files of the k-th step that was not skipped (or None where that is allowed), every output the path name generated for that same step, and every time or index parameter the time or index of that step; and every operation below the count can be selected.", "quantifier": "every catalogue, operation template (nested to any depth), step object, operation number", "why_tests_cant": "Combines skipping, reference numbering, in-place catalogue extension and path lookup; an off-by-one in any stage only shows for particular skip patterns.", "anchors": ["src/eumopps/catalogue/operation.py: Operation.resolve_operation_references, resolve_single_operation", "src/eumopps/catalogue/operationparameters.py", "src/eumopps/catalogue/fileio/formatnetcdf.py: load_data_pathnames"]}
{"id": "C67", "title": "A batch run hands over the results of exactly its operations, in order", "statement": "Running batch q of size b collects the results of operations q*b .. min(q*b+b, count)-1 in this order and passes them to the outer function; this holds for every batch that is advertised, including the last incomplete one.", "quantifier": "every catalogue, operation, batch size and batch number", "why_tests_cant": "The last incomplete batch and failing operations are not exercised by tests.", "anchors": ["src/eumopps/catalogue/multiplecommandsrun.py: multiple_commands_run", "src/eumopps/catalogue/commandrun.py: commandrun"]}
{"id": "C68", "title": "Middle-of-month steps are assigned back to themselves", "statement": "For a step object of the kind StepMidMonth, the index computed from the time of step i is i, for every epoch and every i; times of successive steps lie in successive calendar months.", "quantifier": "for all epochs (any month) and all step indices", "why_tests_cant": "Tests use an epoch in January; the month of the epoch enters the formula in a way that vanishes for January.", "anchors": ["src/eustace/analysis/advanced_standard/examples/stepmidmonth.py"]}
{"id": "C69", "title": "Files named by a step are found again by the search", "statement": "A file whose name was built from a list of one or two patterns for a time is found by a search with the same patterns, and the catalogue entry carries that same time.", "quantifier": "for all patterns (any length and number of fields) and all times", "why_tests_cant": "Tests use a handful of patterns; the agreement between name building and regular expression matching is a statement about all patterns and times.", "anchors": ["src/eumopps/timeutils/datetime_numeric.py:16-28", "src/eumopps/catalogue/step.py:105-109", "src/eumopps/catalogue/namepatterns.py:29-154", "src/eumopps/timeutils/datetime_dictionary.py:17-29"]}
{"id": "C70", "title": "A file matched by a pattern follows the whole pattern and nothing else", "statement": "A file found by a search with some pattern has a name which is an instance of that pattern from its first to its last character.", "quantifier": "for all patterns and file names", "why_tests_cant": "Tests list well-formed names; a stray suffix (temporary or backup files) is accepted by the prefix match.", "anchors": ["src/eumopps/catalogue/namepatterns.py:123-151"]}
{"id": "C71", "title": "The time of a catalogue entry shows the fields of the file name", "statement": "If a catalogue entry has a time, then each of the year, month, day, hour, minute and second read from the file name equals the corresponding component of that time.", "quantifier": "for all file names and patterns", "why_tests_cant": "Tests use patterns with complete dates; combinations of present and missing fields are not enumerated.", "anchors": ["src/eumopps/timeutils/datetime_dictionary.py:17-29", "src/eumopps/catalogue/dataset.py:152-169"]}
{"id": "C72", "title": "Flag checks can be run in place, in any order of days", "statement": "Running the window, calendar or persistent outlier check with the output directory equal to the input directory (the default of the window check) over any set of days in any order gives every day the flags that would be computed from the original files.", "quantifier": "for all sets of flag files, all sets and orders of processed days, all windows and thresholds", "why_tests_cant": "The interference between days depends on which flags a check reads and writes; tests cannot enumerate the orders of a distributed run.", "anchors": ["src/eustace/postprocess/window_check.py:130-190", "src/eustace/postprocess/calendar_check.py:140-170", "src/eustace/postprocess/outlier_window_check.py:120-160"]}
{"id": "C73", "title": "Areal statistics do not depend on the blocks of rows", "statement": "Wherever areal statistics are computed at all, they are the statistics of the whole window around the cell, taken from the whole field with reflection at the poles and wrapping in longitude; the margin of each block is wide enough.", "quantifier": "for all fields, shapes, block sizes, ranges and cells", "why_tests_cant": "A margin one row too small changes only values near block borders.", "anchors": ["src/eustace/postprocess/outlier_check.py:202-263"]}
{"id": "C74", "title": "Every date has exactly one percentile file, computed from its own calendar day", "statement": "For every date, 29 February included, exactly one calendar day of exactly one monthly run writes the percentile file which the location check reads for that date, and the date itself is among the dates from which the file is computed if it lies in the period.", "quantifier": "for all dates and periods", "why_tests_cant": "Tests would have to run all calendar days of all months.", "anchors": ["src/eustace/postprocess/cell_percentile_calculation.py:19-57", "src/eustace/postprocess/cell_percentile_threshold.py:84-114"]}
{"id": "C75", "title": "Points of the mesh have five or six triangles around them", "statement": "At every level the twelve points of the icosahedron belong to exactly five triangles each and every other point to exactly six, so mean and variance of the finite element prior depend on the level only through the size of the triangles.", "quantifier": "for all levels up to 28, all tie-breaking orders of the sort and all points", "why_tests_cant": "Tests look at one or two low levels; the mesh of the product has level 7 and more.", "anchors": ["src/eustace/analysis/mesh/mesh.py:218-400"]}
{"id": "C76", "title": "The triangles of the mesh tile the sphere", "statement": "At every level every direction lies in a triangle of the mesh, and a direction in the interior of one triangle lies in the interior of no other; all points lie on the unit sphere and all triangles are clockwise and not degenerate; the same holds for the mesh rotated to have faces at the poles.", "quantifier": "for all directions and all levels up to 28", "why_tests_cant": "Directions are uncountable and triangles number 20*4^n.", "anchors": ["src/eustace/analysis/mesh/mesh.py:36-260"]}
{"id": "C77", "title": "The design matrix of the spherical model interpolates", "statement": "Each row of the matrix A built for a location has non-negative weights which sum to one, are zero except at the corners of the mesh triangle which contains the location, and reproduce the direction of the location from the points of the mesh.", "quantifier": "for all locations and all levels up to 28", "why_tests_cant": "Tests evaluate a handful of locations on coarse meshes.", "anchors": ["src/eustace/analysis/advanced_standard/stats/spde/spherical.py:57-80", "src/eustace/analysis/mesh/locator.py:82-203"]}
{"id": "C78", "title": "Polar and cartesian coordinates are inverse to each other", "statement": "Latitude and longitude in degrees give a point of the unit sphere; away from the poles, for longitudes in (-180,180], converting back gives the same latitude and longitude; converting any non-zero vector to polar coordinates and back projects it onto the sphere.", "quantifier": "for all latitudes, longitudes and vectors", "why_tests_cant": "Tests sample a few points.", "anchors": ["src/eustace/analysis/mesh/geometry.py:136-153"]}
{"id": "C79", "title": "With face_centre_at_poles the poles are face centres", "statement": "The mesh built with face_centre_at_poles has a triangle of the icosahedron centred on the north pole and one centred on the south pole.", "quantifier": "exact real arithmetic, not a numerical tolerance", "why_tests_cant": "Tests compare to a tolerance at most; the angle formula is stated with a misleading name.", "anchors": ["src/eustace/analysis/mesh/mesh.py:55-68", "src/eustace/analysis/mesh/mesh.py:175-210"]}
{"id": "C80", "title": "The reported uncertainty is an upper bound of the standard deviation of the output", "statement": "The uncertainty reported for an output location from the rectified design and the marginal standard deviations of the state is at least the posterior standard deviation of the output, whatever the correlations of the state.", "quantifier": "every dimension, design row and positive definite posterior precision", "why_tests_cant": "The correlations of the state are not known to a test; the bound is an inequality over all of them.", "anchors": ["src/eustace/analysis/advanced_standard/elements/element.py:136-142", "src/eustace/analysis/advanced_standard/components/spacetime.py:287-305"]}
{"id": "C81", "title": "A day without observations does not stop the analysis", "statement": "If there are no observations at all on one of the days of an update, the update of every component still succeeds, and the days which do have observations are estimated as if the empty day were not there.", "quantifier": "every list of days, loaders and components", "why_tests_cant": "Test data have observations on all days.", "anchors": ["src/eustace/analysis/advanced_standard/analysissystem.py: update_component_time", "src/eustace/analysis/advanced_standard/components/spacetime.py: update_time_step, update", "src/eustace/analysis/advanced_standard/components/spatial.py"]}
{"id": "C82", "title": "On a day without observations the reported uncertainty is that of the prior", "statement": "For a day on which no observation was available, the uncertainty reported by a daily component is at least the standard deviation of the output under the prior.", "quantifier": "every component, day and output location", "why_tests_cant": "Tests evaluate the days which were observed.", "anchors": ["src/eustace/analysis/advanced_standard/components/spatial.py: solution_observation_expected_uncertainties", "src/eustace/analysis/advanced_standard/analysissystem.py: update_component_time"]}
{"id": "C83", "title": "The reported uncertainty covers the joint posterior of all components", "statement": "The uncertainty reported for an output (root of the sum of squares over components) is at least the standard deviation of the sum of all components under their joint posterior given all observations.", "quantifier": "every number of components, all designs, observations and output locations", "why_tests_cant": "The joint posterior of all components is never computed by the code or its tests.", "anchors": ["src/eustace/analysis/advanced_standard/analysissystem.py: evaluate_grid_cell_average_expected_uncertainties", "src/eustace/analysis/advanced_standard/components/spacetime.py: update"]}
{"id": "C84", "title": "Iterating a nonlinear component finds the most probable state", "statement": "If iterating the update of a component with nonlinear design no longer changes its state, the state is a stationary point of prior plus observation misfit.", "quantifier": "every prior, design and observation", "why_tests_cant": "Tests iterate a fixed number of times on one data set with weak priors.", "anchors": ["src/eustace/analysis/advanced_standard/components/spacetime.py: process_observations, update", "src/eustace/analysis/advanced_standard/components/spatial.py"]}
{"id": "C85", "title": "The cost function is the negative log marginal likelihood up to a constant", "statement": "For every prior precision the cost that the hyperparameter optimisation minimises differs from minus the logarithm of the density of the observations (the integral over all states of likelihood times prior) by a number that does not depend on the prior, so a smaller cost means a larger marginal likelihood, whatever set point is used; for replicates the same holds for the product over replicates.", "quantifier": "every dimension, prior mean, set point, list of observation batches with positive definite precision, positive definite prior, list of replicates", "why_tests_cant": "The claim is about an integral over all states; a test compares numbers computed with the same formula.", "anchors": ["src/eustace/analysis/advanced_standard/linalg/costfunction.py: MarginalGaussianCF.cost_function, MarginalGaussianReplicateCF_InMemory.cost_function", "src/eustace/analysis/advanced_standard/components/spatialdelayed.py: optimize"]}
{"id": "C86", "title": "The cost derivative is the derivative of the cost", "statement": "What cost_derivative returns for a parameter is the partial derivative of cost_function with respect to it.", "quantifier": "every dimension, every differentiable family of positive definite precisions, every replicate list, every sparsity pattern", "why_tests_cant": "Finite differences at sample points give approximate agreement only, and patterns in which factor entries cancel are not sampled.", "anchors": ["src/eustace/analysis/advanced_standard/linalg/costfunction.py: cost_derivative, gaussian_loglikelihood_derivative", "src/eustace/analysis/advanced_standard/linalg/sparse.py: trace_iQ_dQdp", "src/eustace/analysis/advanced_standard/linalg/qinv.pyx: Q_inv"]}
{"id": "C87", "title": "Correlation length and standard deviation parameters mean what they say", "statement": "The parameters (log sigma, log rho) at every node give the operator with kappa = sqrt(8 nu)/rho and tau such that the marginal variance formula of the Matern field, Gamma(nu)/(Gamma(alpha) 4 pi kappa^(2 nu) tau^2), equals sigma squared; scaling sigma by c scales the precision by 1/c^2.", "quantifier": "every order alpha >= 2, every design of sigma and rho, every parameter vector, every mesh", "why_tests_cant": "An identity in real-valued parameters at all nodes.", "anchors": ["src/eustace/analysis/advanced_standard/stats/spde/spherical.py: build_Q, build_Q_stationary, build_Q_expanded"]}
{"id": "C88", "title": "The lattice precision is symmetric and positive definite", "statement": "For every lattice with at least two nodes per dimension and all hyperparameters for which the precision is built, the lattice SPDE precision is symmetric positive definite, so its Cholesky factor exists; parameters that are not valid are refused.", "quantifier": "every lattice, dimension, order and hyperparameter", "why_tests_cant": "Positive definiteness is a statement about all vectors and all real hyperparameters.", "anchors": ["src/eustace/analysis/advanced_standard/stats/spde/lattice.py: build_Q, build_Q_native"]}
{"id": "C89", "title": "Geographical covariates are interpolated from their own grid points", "statement": "At every grid point of a covariate file the covariate has the value stored for this point; between grid points it is the bilinear interpolation of the four points around, across the date line too, and nowhere leaves the range of the stored values.", "quantifier": "every regular grid, field and location", "why_tests_cant": "Tests use one grid whose rows run from south to north and whose node distance has few decimals.", "anchors": ["src/eustace/analysis/advanced_standard/elements/geography_based.py: GeographyBasedCovariateFunction.bilinear_interpolation, compute"]}
{"id": "C90", "title": "Every prior precision is symmetric positive definite", "statement": "For every model element, also combinations of combinations, and hyperparameters of the right kind, the prior precision exists, is symmetric, is positive definite and has as many rows as the element has state parameters.", "quantifier": "every tree of elements, every mesh and lattice, every hyperparameter value", "why_tests_cant": "Positive definiteness is a statement about all vectors, for every tree of elements and all real hyperparameters.", "anchors": ["src/eustace/analysis/advanced_standard/elements/combination.py: CombinationPrior", "src/eustace/analysis/advanced_standard/elements/kronecker.py: SpaceTimeKroneckerPrior", "src/eustace/analysis/advanced_standard/elements/covariate.py: CovariatePrior"]}
{"id": "C91", "title": "Each element adds to an observation what it stands for", "statement": "The grand mean adds one value to all observations; latitude harmonics add the named harmonics of the latitude; seasonal elements add a mean field and sine and cosine fields, depending on the fraction of the year only; space-time elements interpolate between the fields of their time nodes; periodic splines repeat after a period.", "quantifier": "every mesh, number of harmonics, observation structure and state", "why_tests_cant": "Tests compare a few entries of one design matrix.", "anchors": ["src/eustace/analysis/advanced_standard/elements/seasonal.py: SeasonalElementDesign", "src/eustace/analysis/advanced_standard/elements/latitudeharmonics.py", "src/eustace/analysis/advanced_standard/elements/kronecker.py", "src/eustace/analysis/advanced_standard/elements/kronecker_annual.py", "src/eustace/analysis/advanced_standard/elements/spatial_bias.py"]}
{"id": "C92", "title": "Design and prior of an element order the state in the same way", "statement": "The state parameter to which the design gives the weight of a field and mesh point is the one to which the prior gives the precision of this field and mesh point.", "quantifier": "every mesh, time line, number of harmonics and hyperparameters", "why_tests_cant": "Agreement of orderings for all sizes; with equal hyperparameters or sizes a wrong order goes unnoticed.", "anchors": ["src/eustace/analysis/advanced_standard/elements/kronecker.py: SpaceTimeKroneckerPrior, SpaceTimeKroneckerDesign", "src/eustace/analysis/advanced_standard/elements/seasonal.py: SeasonalElementPrior"]}
{"id": "C93", "title": "Decimal years grow with time and keep the calendar year", "statement": "The decimal year of a later time is larger, its whole part is the calendar year, and within a year it grows evenly.", "quantifier": "every pair of times", "why_tests_cant": "All times, leap years and the turn of the year.", "anchors": ["src/eustace/timeutils/decimaltime.py: datetime_to_decimal_year", "src/eustace/analysis/advanced_standard/elements/seasonal.py: datetime_to_decimal_year"]}
{"id": "C94", "title": "Break filtering keeps exactly the breaks the policy asks for, in order", "statement": "A hard cut-off keeps the break points whose likelihood is at least the threshold, a Laplace kernel those whose damped likelihood is at least the threshold; order and content of the kept break points do not change, filtering twice changes nothing more, and unknown policies are refused.", "quantifier": "every list of break points, every threshold and decay", "why_tests_cant": "All lists of break points and all real thresholds.", "anchors": ["src/eustace/analysis/observationsource.py: ObservationsBreakPoints.apply_policy, filtered_break_points"]}
{"id": "C95", "title": "Combined ice grids number both hemispheres as one regular grid", "statement": "The location table of the combined ice source lists all latitude rows of both hemisphere grids and of the gap between them, and the locations of the second grid are found at the offset the source adds.", "quantifier": "every pair of regular grids", "why_tests_cant": "All sizes, spacings and gaps of the two grids.", "anchors": ["src/eustace/surfaceairmodel/fileio/ice.py: combined hemispheres"]}
{"id": "C96", "title": "Station biases are attached to the segment between breaks in which an observation falls", "statement": "Each observation of a station with a later break gets the bias of the first break of its station after the time of the observation; observations of other stations get none.", "quantifier": "every time, list of observed stations and table of breaks", "why_tests_cant": "The index arithmetic depends on the order of all stations and breaks.", "anchors": ["src/eustace/analysis/advanced_standard/fileio/observation_source_surface_effects.py: insitu_land_covariate_effect"]}
{"id": "C97", "title": "Observation structures keep locations, values and precisions aligned", "statement": "The coordinates, observation vector and observation precision given to the analysis have one entry for each valid observation, in the same order, and bias designs have a row for the observations they concern only.", "quantifier": "every day of observations, mask and location table", "why_tests_cant": "All masks and orders of locations.", "anchors": ["src/eustace/analysis/advanced_standard/fileio/observation_structure_source_connector.py"]}
{"id": "C98", "title": "Both satellite gridding programs give the same fields", "statement": "For the same files and arguments, satgrid and satgrid_iris report the same counts, means, extremes and uncertainties in every grid box; satgrid_iris uses exactly the pixels whose fields are all present.", "quantifier": "every list of files, every mask and quality flags", "why_tests_cant": "Agreement of two independent programs over all inputs.", "anchors": ["src/eustace/satgrid_iris/pipeline.py", "src/eustace/satgrid_iris/satellite.py", "src/eustace/satgrid_iris/gridbin/", "src/eustace/satgrid/file_aggregate_grid.py"]}
{"id": "C99", "title": "Analysis output is the sum of its components", "statement": "The analysis at a place is the sum of all components there, its uncertainty the root of the sum of squares, averages over cells and draws of samples likewise, whatever the order of components; the fraction of climatology is the ratio of posterior to prior variance of the only spatial component, and the fill value where there is no unique one.", "quantifier": "every list of components, grid, sub-sampling and blocking", "why_tests_cant": "All functions on all grids; the loops over components, blocks and cells are unbounded.", "anchors": ["src/eustace/analysis/advanced_standard/analysissystem.py: evaluate_expected_value, evaluate_projected_sample, evaluate_climatology_fraction"]}
{"id": "C100", "title": "Output files of annual batches: one for each day", "statement": "For patterns with year, month and day, the outputs of the operations of annual batches are one entry for each day of the operation, in the order of days, with the name the patterns give for the day; no two days share an entry and nothing else in the catalogue changes; other patterns are refused.", "quantifier": "every catalogue, period and list of operations", "why_tests_cant": "Arbitrary periods and lists of operations.", "anchors": ["src/eustace/analysis/advanced_standard/examples/placeholder.py: AnnualBatchDaysOutput"]}
{"id": "C101", "title": "Day numbers of daily steps are those of the days of the period", "statement": "The list of day numbers since 1850 given to daily operations has one number for each daily step, that of the day of the step, and consists of the days with some time in the period.", "quantifier": "every start and end", "why_tests_cant": "All start and end times of day.", "anchors": ["src/eustace/analysis/advanced_standard/examples/placeholder.py: AnalysisStepIndex"]}
{"id": "C102", "title": "A local view is the finite element model of its own region", "statement": "The mass and stiffness matrices of a view of the sphere are the integrals over its triangles alone, with a free boundary; its precision is positive definite; the matrices of views which divide the sphere add up to those of the sphere; entries of points inside a view are those of the sphere, and the view of all triangles is the sphere.", "quantifier": "every mesh level, view, order and parameters", "why_tests_cant": "All regions, all functions on them.", "anchors": ["src/eustace/analysis/advanced_standard/stats/spde/spherical_view.py: SphereMeshView"]}
{"id": "C103", "title": "A local view sees exactly the observations in its region", "statement": "A location is in the domain of a view exactly if its triangle belongs to the view; its row has the weights of the full design matrix there and is zero otherwise, and of views which divide the sphere exactly one sees it.", "quantifier": "every location, level and view", "why_tests_cant": "All locations and views.", "anchors": ["src/eustace/analysis/advanced_standard/stats/spde/spherical_view.py: SphereMeshView.build_A, locate_in_domain"]}
{"id": "C104", "title": "The C++ reader gets what the Python writer stored for a day", "statement": "From the files of a day as Python writes them, the C++ reader gets exactly the unmasked observations of the day in order with all values, the correlation ranges and the location of each observation, whatever was requested before; totals are the numbers of records; files of another format, cut files and files of another table are refused.", "quantifier": "every file, day, source and sequence of requests", "why_tests_cant": "Two programs in two languages; all files, all states of the caches and of uninitialised memory.", "anchors": ["src/cpp/eustace/analysis/fileio/rawbinary.cpp", "src/cpp/eustace/analysis/inputmanager.cpp", "src/cpp/eustace/analysis/observationsource.h"]}
{"id": "C105", "title": "Time series of locations hold exactly the observations of the location", "statement": "From day files and the file of location pointers made from them, the C++ reader gives for each location asked for its observations in the order of days, with day number, values and location.", "quantifier": "every set of days, locations and request", "why_tests_cant": "All numbers of days, records and requests; offsets between files.", "anchors": ["src/cpp/eustace/analysis/fileio/locationpointers.cpp", "src/cpp/eustace/analysis/inputmanager.cpp: RetrieveLocations", "src/eustace/analysis/preparelocationpointers.py"]}
{"id": "C106", "title": "The C++ reader finds the files which Python wrote", "statement": "Day numbers are days since 1850-01-01 in every time zone, dates and numbers are inverse; the names the reader looks for are those the Python catalogue gives; different sources, observables and days have different names.", "quantifier": "every date, time zone, source and observable", "why_tests_cant": "All dates and time zones; names made by two different programs.", "anchors": ["src/cpp/eustace/timeutils/timebase.cpp", "src/cpp/eustace/analysis/inputmanager.cpp: PathName functions", "src/roses/fullstace/rawbinary/rawbinary_generation.json"]}
{"id": "C107", "title": "The breaks of a file are read, filtered and counted alike in Python and C++", "statement": "The breaks read from a file are those whose likelihood is present, with time, station and likelihood together; the hard cut-off keeps exactly those which reach the threshold, in order; the kernel policy is a hard cut-off at 127+log(threshold)/decay; counts of breaks and stations are those of what is kept; the C++ program gives the same.", "quantifier": "every file of breaks, threshold, decay and station", "why_tests_cant": "All files, masks, thresholds; two programs; integer overflow of stored bytes.", "anchors": ["src/eustace/analysis/fileio/observationsource_rawbinary.py", "src/eustace/preprocess/fileio/insitu_land_breakpoints.py", "src/eustace/analysis/observationsource.py: ObservationsBreakPoints", "src/cpp/eustace/analysis/break_points/"]}
{"id": "C108", "title": "The bias of a station observation is that of its period between breaks", "statement": "The station bias element has one bias for each break used; the bias of an observation is that of the first used break of its station after it, zero if there is none; two observations of a station share their bias exactly if no used break is between them; the grid of biases shows the same.", "quantifier": "every file in order of stations and times, cut value, time, list of observed stations and state", "why_tests_cant": "All files, times and states; the design is made by rolling arrays over station boundaries.", "anchors": ["src/eustace/analysis/advanced_standard/elements/bias_insitu_land.py", "src/eustace/analysis/advanced_standard/examples/station_bias_model.py: build_bias_matrix"]}
{"id": "C109", "title": "The models of the analysis are well-formed", "statement": "For the definitions of climatology, large scale and local components the prior precision exists, is positive definite and has one row for each parameter of the design; the design exists and is linear for the observations of any day; the climatology repeats every year; the large scale has weights throughout its period; latitude splines are not cut off at the poles; complete descriptors of covariates are loaded.", "quantifier": "every list of groups, covariates, breaks, observations, time and place", "why_tests_cant": "Matrices of hundreds of thousands of rows; all observations and times.", "anchors": ["src/eustace/analysis/advanced_standard/examples/model_structure.py", "src/eustace/analysis/advanced_standard/examples/example_eustace.py", "src/eustace/analysis/advanced_standard/elements/latitudespline.py", "src/eustace/analysis/advanced_standard/elements/covariate.py"]}
{"id": "C110", "title": "Each day of output is the sum of the components averaged over cells", "statement": "For each day and cell the temperature written is the sum over the three components of the cosine-weighted average over the cell of the values of the component for the state stored for that day; its squared uncertainty is the sum of the mean squares of the draws projected likewise; each ensemble member is the temperature plus the projected draws; the influence of observations is between nought and one. This holds whatever was projected before with the same projectors, and agrees with the other way to average (Regridder).", "quantifier": "every element without factors, every grid, sampling, blocking, state, set of draws and list of days", "why_tests_cant": "Projectors carry design matrices and states from day to day; a stale one gives plausible fields.", "anchors": ["src/eustace/analysis/advanced_standard/fileio/output_projector.py", "src/eustace/analysis/advanced_standard/examples/moving_climatology.py"]}
{"id": "C111", "title": "Cells which depend on unconstrained latent variables are flagged", "statement": "The constraint of a latent variable is between nought and one and below the threshold just when its posterior variance is more than the rest of its prior variance; a cell is flagged just when a variable with too little constraint has a weight in it.", "quantifier": "every design matrix, set of draws and threshold", "why_tests_cant": "The flag is computed from a sum over variables in which weights of either sign may cancel.", "anchors": ["src/eustace/postprocess/latent_variable_check.py"]}
{"id": "C112", "title": "A merged day is the mean of its instruments with the propagated uncertainties", "statement": "For files of one day of at least two instruments on one grid, the merged fields are in each cell the mean over the instruments which have data, missing just when all are missing; squared uncertainties are the variances of the mean for the correlations given (none for total uncertainties); the fields of all instruments are kept under labelled names; sources are deleted and other files unchanged. Instruments of which both files are missing take no part, and correlations are those between the others.", "quantifier": "every number of instruments, fields, cells, correlations and pattern of missing files and cells", "why_tests_cant": "All patterns of missing data; correlation lists are cut by position in a triangular order.", "anchors": ["src/eustace/outputformats/filesmerger.py", "src/eustace/outputformats/merge_multiple_outputs.py", "src/eustace/surfaceairmodel/fileio/consistent.py: write_element"]}
{"id": "C113", "title": "Merged files have the expected names and scales", "statement": "The merged pair of files is named like the files of the first instrument without its label, also when there is one instrument only; a name which is not the expected one is reported; variables named in the configuration take their correlation scales.", "quantifier": "every directory, name, label and configuration", "why_tests_cant": "All names; replacement acts on every occurrence of the label in the whole path.", "anchors": ["src/eustace/outputformats/filesmerger.py", "src/eustace/surfaceairmodel/correlation_ranges.py", "src/roses/satstace/ocean.json"]}
{"id": "C114", "title": "Quality control over ice keeps exactly the good temperatures", "statement": "A surface temperature over ice is kept, unchanged, exactly if it is there, the cell is land ice or has a known concentration of at least 0.3, the spread and the mean of the day are not known to be out of range, there are observations in the part of the day needed, it is not far from the temperatures of the parts of the day, and it is not more than ten degrees below the mean of at least two good neighbours of the same surface within two cells. Inputs of inconsistent shape are refused.", "quantifier": "every grid, mask, temperature and cell", "why_tests_cant": "All patterns of missing cells; the neighbourhood test is a convolution over data which other tests have masked.", "anchors": ["src/eustace/surfaceairmodel/model_ice_input_processing.py"]}
{"id": "C115", "title": "Air temperature over ice is computed for exactly the usable cells, by the model of their surface", "statement": "For each observable, every cell with a kept temperature and known uncertainties gets the air temperature and the six uncertainties given by the coefficients of its own hemisphere, surface and observable; all other cells are missing in all seven fields; the parts never overlap. Totals are roots of sums of squares. Uncertainties are not negative and minimum, mean and maximum are in order.", "quantifier": "every input, parameter file, observable and cell", "why_tests_cant": "All masks; fields are filled in by flat index lists from which positions are deleted.", "anchors": ["src/eustace/surfaceairmodel/model_ice.py"]}
{"id": "C116", "title": "Rows of both hemispheres are put at their own latitudes", "statement": "The global fields have for each latitude of the southern and northern input the row computed for it, and are missing between them.", "quantifier": "every pair of inputs and field", "why_tests_cant": "All latitudes; row numbers come from truncated quotients of floating point numbers.", "anchors": ["src/eustace/surfaceairmodel/model_ice.py: process_global"]}
{"id": "C117", "title": "Fields over land and ocean are those of their own names in the intermediate files", "statement": "A file of the models over land or ocean can be read exactly if it has all its variables and global uncertainties. Each output field is the input field of its own name, ocean temperatures become kelvin, and total uncertainties are roots of sums of squares of the components of the same quantity, missing where a component is. Correlated uncertainties get the length and time scales listed for them.", "quantifier": "every file, variable and cell", "why_tests_cant": "Old and new names are paired by position in lists which are concatenated and cut in half in other files.", "anchors": ["src/eustace/surfaceairmodel/fileio/remap.py", "src/eustace/surfaceairmodel/fileio/land.py", "src/eustace/surfaceairmodel/fileio/ocean.py", "src/eustace/surfaceairmodel/correlation_ranges.py"]}
{"id": "C118", "title": "Cells over land in which the minimum is above the maximum are removed", "statement": "After post-processing all fields over land are missing in exactly the cells where they were before or where the minimum was above the maximum, all other values are kept, the count is the number of those cells, and the minimum is nowhere above the maximum.", "quantifier": "every set of fields and cell", "why_tests_cant": "All patterns of missing cells, in particular none at all.", "anchors": ["src/eustace/surfaceairmodel/fileio/post_processing.py"]}
{"id": "C119", "title": "A run over several days writes what runs of single days would", "statement": "Runs of the models over land and ocean for several days succeed exactly if runs day by day do and write the same files; a run of one day uses its own parameters and writes two files with the main and the ancillary fields and nothing else; day and night files of different dates are refused; dates are read correctly from names of files; if the program of one day fails nothing is written.", "quantifier": "every list of days, disc, program and file name", "why_tests_cant": "All sequences of days; names of files and directories are free.", "anchors": ["src/eustace/surfaceairmodel/run_land.py", "src/eustace/surfaceairmodel/run_ocean.py", "src/eustace/surfaceairmodel/model_land.py", "src/eustace/surfaceairmodel/model_ocean.py", "src/eustace/surfaceairmodel/fileio/consistent.py"]}
{"id": "C120", "title": "Lake readings keep their places", "statement": "Each lake reading becomes one observation in kelvin whose location number points to its own place in the table of locations; readings have equal numbers exactly if their places are equal to about a millionth of a degree.", "quantifier": "every list of readings", "why_tests_cant": "All pairs of places; the signature adds multiples of latitude and longitude.", "anchors": ["src/eustace/surfaceairmodel/fileio/lake.py"]}
{"id": "C121", "title": "Output fields can be read back", "statement": "Temperatures, perturbations, uncertainties and fractions within the range of their 16-bit storage are read back from output files to within half a step, missing values as missing and nothing else, in their own cells, whatever else is in the file; order is kept; writing again what was read stores the same numbers; values outside the range are never read back as anything near them.", "quantifier": "every field, value, cell and file", "why_tests_cant": "All real values, at and beyond the ends of ranges, in all combinations of fields.", "anchors": ["src/eustace/outputformats/definitions.py", "src/eustace/outputformats/filebuilder.py", "src/eustace/outputformats/globalfield_filebuilder.py"]}
{"id": "C122", "title": "Verification accepts exactly the conforming files, and the files that are built", "statement": "A file of global fields passes verification exactly if its attributes and dimensions are as specified, it has one of the variables specified, and those it has are of the type and with the metadata specified. Files made by the builder always pass, whatever fields are added; fields of the right shape with unused names can always be added and names are used once only.", "quantifier": "every file, specification and list of fields", "why_tests_cant": "All files, and all sequences of additions; specification and builder are separate tables.", "anchors": ["src/eustace/outputformats/verify/verify.py", "src/eustace/outputformats/verify/verify_globalfield.py", "src/eustace/outputformats/verify/specification_globalfield.py", "src/eustace/outputformats/globalfield_filebuilder.py"]}
{"id": "C123", "title": "Variables made from templates say what they are", "statement": "A variable made from a template has the type, fill value and metadata of the template with keyword arguments replacing them, and the long name of the template with its fields filled in. It can be made exactly if all fields have values and all other keywords are metadata. All definitions make variables with the packing of their kind, and their long names and cell methods name the quantity of the variable.", "quantifier": "every template, keywords and definition", "why_tests_cant": "All templates and keyword arguments; texts are seen by people only.", "anchors": ["src/eustace/outputformats/outputvariable.py", "src/eustace/outputformats/definitions.py"]}
{"id": "C124", "title": "Coordinates in output files are exact", "statement": "Rows and columns of output files are at the centres of cells of a quarter of a degree without rounding, local time offsets are longitudes as parts of a turn to within a thousandth of a second or so, the time is the day number and its bounds are that day and the next, and the axes of the gridding programs are the same.", "quantifier": "every file, row, column and day", "why_tests_cant": "All rows, columns and days in single precision, after any fields were added.", "anchors": ["src/eustace/outputformats/globalfield_filebuilder.py", "src/eustace/outputformats/definitions.py", "src/eustace/outputformats/filebuilder.py"]}
{"id": "C125", "title": "Station samples appear at their own station and time", "statement": "The array of samples has a row for each time of the axis and a column for each station; each cell holds the last sample of its station close to its time in single precision and is missing if there is none. It can be made exactly if every sample is close to a time of the axis.", "quantifier": "every list of samples, stations and times", "why_tests_cant": "All orders and repetitions of samples, with times compared up to a tolerance.", "anchors": ["src/eustace/outputformats/stationdata.py"]}
{"id": "C126", "title": "Distinct times of samples make an axis", "statement": "The distinct times of samples are in increasing order, are times of samples, are not close to one another, and every sample is close to one of them, so that an array can be made on this axis.", "quantifier": "every list of samples", "why_tests_cant": "Equality of times is not transitive and sets compare hashes first.", "anchors": ["src/eustace/outputformats/stationdata.py"]}
{"id": "C127", "title": "Breaks point to their stations, and names of stations can be read back", "statement": "Breaks are listed for their own quantity in the order in which they were added, with the index of their own station and their amplitude; unknown stations and quantities are refused. Names of stations are stored such that they can be read back and told apart.", "quantifier": "every list of breaks and names", "why_tests_cant": "All sequences of breaks; all names.", "anchors": ["src/eustace/outputformats/stationdata.py", "src/eustace/outputformats/stations.py", "src/eustace/outputformats/definitions.py"]}
{"id": "C128", "title": "Submitted job arrays perform every operation exactly once", "statement": "If operations of a module are submitted to the batch system, singly or in groups, from Python or from the shell, the elements of the job arrays together perform every operation of the module exactly once, in order, and write their outputs to different files. A module without operations is refused, and if a job is not accepted what has been submitted is an initial part.", "quantifier": "every number of operations, every size of batches, jobs and groups, all replies of the batch system", "why_tests_cant": "Numbers of operations and sizes are unbounded, and arithmetic is split between the submitting program, the job scripts and the catalogue.", "anchors": ["src/roses/fullstace/advanced_standard/lsf_submission.py", "src/roses/fullstace/advanced_standard/lsf_submission_group.py", "src/roses/fullstace/advanced_standard/runlsf.sh"]}
{"id": "C129", "title": "Stages of submitted iterations are run in order", "statement": "When iterations have been submitted, then in every execution which the batch system allows, an operation of a stage is run only after all operations of all earlier stages have been performed successfully; and the jobs can be run to their end.", "quantifier": "all options, numbers of iterations and operations, and all executions", "why_tests_cant": "Executions are chosen by the batch system.", "anchors": ["src/roses/fullstace/advanced_standard/lsf_submission.py", "src/roses/fullstace/advanced_standard/lsf_submission_group.py"]}
{"id": "C130", "title": "Stages submitted by the shell script are run in order", "statement": "When runlsf_iterations.sh has submitted iterations, an operation of a stage is run only after all operations of all earlier stages have been performed successfully.", "quantifier": "all iterations, numbers of operations, and all executions", "why_tests_cant": "Executions are chosen by the batch system.", "anchors": ["src/roses/fullstace/advanced_standard/runlsf_iterations.sh", "src/roses/fullstace/advanced_standard/runlsf.sh", "src/roses/fullstace/advanced_standard/runlsf_solver.sh"]}
{"id": "C131", "title": "Suites of the workflow engine run every operation once", "statement": "The tasks of the suite run every operation of a module exactly once, and its last cycle point is late enough for all modules.", "quantifier": "every number of operations and size of chunks", "why_tests_cant": "Numbers are unbounded.", "anchors": ["src/roses/satstace/suite.rc", "src/eumopps/catalogue/jinja/batches.py"]}
{"id": "C132", "title": "Station measurements over land are used if and only if they may be", "statement": "Observations of stations over land have one place for each row and station in order, with value, number of the station and time. A place is masked unless the measurement is there, passed the checks of quality if they are asked for, and its station is not on the list of those held out. A day which is not in the file exactly once gives no observations.", "quantifier": "all files, days, lists of held out stations, both quantities, with and without checks", "why_tests_cant": "Masks depend on all flags, all codes and the shapes of arrays.", "anchors": ["src/eustace/preprocess/fileio/insitu_land.py"]}
{"id": "C133", "title": "Adjustment to the altitude of a reference surface", "statement": "With a reference surface an observation of a station is the measurement plus 6.5 K for each kilometre by which the station is above the surface, its error is 0.3 K and 1.1 K for each kilometre as independent errors, and stations without an elevation are masked.", "quantifier": "all stations, elevations and reference surfaces", "why_tests_cant": "Elevations and surfaces are unbounded real numbers.", "anchors": ["src/eustace/preprocess/fileio/insitu_land.py", "src/eustace/preprocess/fileio/height_adjustment.py"]}
{"id": "C134", "title": "Files of single days of stations hold exactly the usable measurements", "statement": "If the stations are where the reference table has them, the file of a day is written, and reading it gives the measurements of all stations which may be used on that day and nothing else; if a station is elsewhere or the day is not in the file, no file is written.", "quantifier": "all files, tables, days and options", "why_tests_cant": "Composition of masks, verification, writing and reading for any number of stations.", "anchors": ["src/eustace/analysis/preparedailyfixed.py", "src/eustace/preprocess/fileio/insitu_land.py", "src/eustace/analysis/fileio/observationsource_rawbinary.py"]}
{"id": "C135", "title": "Reports of ships are read completely and in the right units", "statement": "A file of reports of ships gives one observation for each line, under the columns named by the titles, at the reported place, on the reported day, with the reported temperature in kelvin.", "quantifier": "all files of lines of fixed width, all numbers and dates", "why_tests_cant": "Text is unbounded, and rounding depends on values.", "anchors": ["src/eustace/preprocess/fileio/insitu_ocean.py"]}
{"id": "C136", "title": "Files of single days of ships hold exactly the reports of that day", "statement": "The file of a day has all reports of that day and no others, and the number of each is that of its coordinates in the file of locations with the same identifier; a run which fails leaves no file which could be read.", "quantifier": "all files of reports and all days", "why_tests_cant": "Composition of reading, selection by day, writing and reading.", "anchors": ["src/eustace/analysis/preparedailymobile.py", "src/eustace/preprocess/fileio/insitu_ocean.py"]}
{"id": "C137", "title": "Threshold flags say where components are uncertain and where there are no observations", "statement": "For a day with complete files the first word of flags of a cell has: the climatology flag exactly if the mean over 13 by 13 cells of the uncertainty of the climatology is above its limit, the large-scale flag exactly if the mean over 17 by 17 cells of the uncertainty of the large-scale component is above its limit, the day flag exactly if the mean influence of observations over 5 by 5 cells is below its limit, and the marine flag exactly if the cell is all water. Windows go around the globe and are mirrored at the poles. A day without complete files gives no flags.", "quantifier": "all files, limits and cells", "why_tests_cant": "Windows across the poles and the date line for every cell of any field.", "anchors": ["src/eustace/postprocess/threshold_check.py", "src/eustace/postprocess/outlier_check.py"]}
{"id": "C138", "title": "Outlier flags compare a cell with its region and with its calendar day", "statement": "A cell has an areal flag exactly if a cell within two rows and columns is beyond a quartile of its region, at sea level, by four times the distance from median to quartile, an extreme flag exactly if one within two is below 193.15 K or above 333.15 K, and a location flag exactly if it is beyond the median of its calendar day by eight times that distance. The region reaches 750 km to the north, south, east and west.", "quantifier": "all fields, altitudes and cells", "why_tests_cant": "Quartiles of thousands of values, cosine of the latitude and rounding to cells.", "anchors": ["src/eustace/postprocess/outlier_check.py", "src/eustace/postprocess/cell_percentile_threshold.py"]}
{"id": "C139", "title": "The published analysis is the analysis, missing exactly where quality control says so", "statement": "For complete files of all days in the period, every day is published once for the whole analysis and once for each component, with temperature, uncertainty, influence and members under their names and in order. A value is missing exactly if the cell is uncertain in climatology or large scale, near an outlier of its region or an impossible value, an outlier of its calendar day, on land without observations on or around the calendar day in three years, or at sea after 2012; otherwise it is the value of the analysis. No word of flags on the way is the one which means missing.", "quantifier": "all archives, settings, days and cells", "why_tests_cant": "Seven programs run one after the other on tens of thousands of files; conditions on one day depend on all others.", "anchors": ["src/eustace/postprocess/apply_mask.py", "src/eustace/postprocess/threshold_check.py", "src/eustace/postprocess/window_check.py", "src/eustace/postprocess/calendar_check.py", "src/eustace/postprocess/outlier_check.py", "src/eustace/postprocess/outlier_window_check.py", "src/eustace/postprocess/merge_flag_files.py", "src/eustace/postprocess/cell_percentile_calculation.py", "src/eustace/postprocess/cell_percentile_threshold.py", "src/eustace/postprocess/lsf/submit_mask_apply.sh"]}
{"id": "C140", "title": "A file which is missing affects its own day only", "statement": "If a file of one day is missing, all other days are published as they would be, with the same numbers of members.", "quantifier": "all archives with a missing file, all iterations", "why_tests_cant": "Effects go through several programs and all years.", "anchors": ["src/eustace/postprocess/apply_mask.py", "src/eustace/postprocess/cell_percentile_calculation.py", "src/eustace/postprocess/threshold_check.py"]}
{"id": "C141", "title": "Quality control reads what the analysis writes", "statement": "The files which the analysis writes for a day have what quality control looks for, so that the published fields are those which the analysis computed.", "quantifier": "all results of the analysis and all numbers of members", "why_tests_cant": "Names are made by templates in one program and compared as text in another.", "anchors": ["src/eustace/analysis/advanced_standard/examples/moving_climatology.py", "src/eustace/outputformats/definitions.py", "src/eustace/postprocess/apply_mask.py"]}
{"id": "C142", "title": "Operations of a descriptor read only what is there and write everything once", "statement": "For any number of iterations, every data set read by an operation of the descriptor is one of the observations, written by an earlier operation, or (in the first iteration) a solution of the iteration before; every operation adds to the catalogue exactly the data sets which it writes; no data set is added twice or has a name of observations, and no two operations have the same name.", "quantifier": "all numbers of iterations, names and options", "why_tests_cant": "Names are put together from templates, options and numbers; operations of any iteration may clash with those of any other.", "anchors": ["src/eustace/analysis/advanced_standard/examples/jsonfiller.py", "src/eustace/analysis/advanced_standard/examples/generate_json_descriptors.py", "src/roses/fullstace/advanced_standard/templates/advstd_batch_operation_template.json"]}
{"id": "C143", "title": "Operations use the latest estimates of the components", "statement": "Whenever measurement updates or local solutions are computed, the estimates of the other components which are subtracted are the ones computed last before this operation; solving for a component uses the updates of that component computed last; gridding uses states and samples computed last for all three components.", "quantifier": "all numbers of iterations and all operations", "why_tests_cant": "A stale name of a data set gives a valid descriptor and plausible results.", "anchors": ["src/eustace/analysis/advanced_standard/examples/jsonfiller.py", "src/eustace/analysis/advanced_standard/examples/moving_climatology.py"]}
{"id": "C144", "title": "Operations call functions with the arguments which these have", "statement": "Every operation of a descriptor runs an existing function with each of its parameters once and no other, and makes storage objects of the right kind with parameters of their classes; the storage object of the component handled is given files for exactly what the function writes, the others none; samples are computed exactly if a number of them is given, and gridding uses no more than there are.", "quantifier": "all numbers of iterations, names and options, all operations", "why_tests_cant": "Wrong arguments are only found when a job runs, after the jobs before it.", "anchors": ["src/eustace/analysis/advanced_standard/examples/jsonfiller.py", "src/eustace/analysis/advanced_standard/examples/moving_climatology.py", "src/eustace/analysis/advanced_standard/components/storage_files.py", "src/eustace/analysis/advanced_standard/components/storage_files_batch.py"]}
{"id": "C145", "title": "The batch system runs an operation after those which write its inputs", "statement": "The operations of a descriptor have the names for which jobs are submitted, in that order; in every execution which the batch system allows, when an operation of the descriptor is run, all operations which write what it reads have succeeded before.", "quantifier": "all numbers of iterations, all executions", "why_tests_cant": "Two programs agree about names by convention only; executions are concurrent.", "anchors": ["src/eustace/analysis/advanced_standard/examples/jsonfiller.py", "src/roses/fullstace/advanced_standard/lsf_submission.py"]}
{"id": "C146", "title": "Files of a descriptor never clash", "statement": "The files of all data sets of a descriptor have names made from the name of the data set and the day or month where there is one for each; files of different data sets, days or months have different names.", "quantifier": "all numbers of iterations, names and times", "why_tests_cant": "Patterns are expanded by other code, for every day.", "anchors": ["src/eustace/analysis/advanced_standard/examples/jsonfiller.py", "src/eustace/analysis/advanced_standard/examples/generate_json_descriptors.py", "src/eumopps/catalogue/step.py"]}
{"id": "C147", "title": "Options for biases are honoured by all operations", "statement": "All operations of a descriptor are given the options for bias terms of the command line, and these switch the terms on or off.", "quantifier": "all numbers of iterations and values of options", "why_tests_cant": "The same options reach the model structure through several programs as text.", "anchors": ["src/eustace/analysis/advanced_standard/examples/jsonfiller.py", "src/eustace/analysis/advanced_standard/examples/generate_json_descriptors.py", "src/eustace/analysis/advanced_standard/examples/model_structure.py"]}
{"id": "C148", "title": "A descriptor is written when there are iterations and is then complete", "statement": "A descriptor is written exactly if there is at least one iteration, and then the check for missing values passes.", "quantifier": "all configurations", "why_tests_cant": "Missing values depend on the combination of options.", "anchors": ["src/eustace/analysis/advanced_standard/examples/jsonfiller.py"]}
{"id": "C149", "title": "Monthly batches list one file slot per day, aligned with the day list", "statement": "For operations of one month each, the list of input references of a month has one slot for each day of that month within the analysis period, the slot of a day refers to a file of that day or is marked missing, and slots are in the order of the day numbers and times given to the same operation; each day of the period is in the list of exactly one month.", "quantifier": "every file list, start and end date", "why_tests_cant": "Arbitrary file orders, partial first and last months, months of all lengths.", "anchors": ["src/eustace/analysis/advanced_standard/examples/placeholder.py: AnnualBatchDays, AnalysisAnnualBatchDayIndices, AnalysisAnnualBatchDayTimes", "src/eustace/analysis/advanced_standard/examples/step.py: StepMonthly"]}
{"id": "C150", "title": "Output files of monthly batches: one for each day", "statement": "For patterns with year, month and day, the outputs of operations of one month each are one entry for each day of the operation, in the order of days, with the name the patterns give for the day; no two days share an entry and nothing else in the catalogue changes; other patterns are refused.", "quantifier": "every catalogue, period and list of operations", "why_tests_cant": "Arbitrary periods and lists of operations.", "anchors": ["src/eustace/analysis/advanced_standard/examples/placeholder.py: AnnualBatchDaysOutput", "src/eustace/analysis/advanced_standard/examples/step.py: StepMonthly"]}
{"id": "C151", "title": "Each day of the analysis sees exactly the stored observations of that day", "statement": "For every source and day of an operation (of one day or of a month), the analysis is given the valid observations in the file of that day and no others: daily means, or means of minimum and maximum where there is no observable of daily means; each at the place its location has in the location file of that day, with longitudes from -180 to 180, and with the inverse square of its error as precision; nothing where there is no file.", "quantifier": "every set of files, source list, list of days", "why_tests_cant": "Arbitrary file contents, day lists, missing files and location tables.", "anchors": ["src/eustace/analysis/advanced_standard/examples/moving_climatology.py: process_inputs, process_inputs_batch", "src/eustace/analysis/advanced_standard/examples/inputloader_rawbinary.py: AnalysisSystemInputLoaderRawBinary_OneDay, ObservationSourceSingleDayRawBinary_ComputedMean"]}
{"id": "C152", "title": "A month at once is solved as its days are", "statement": "The operation for a month followed by the solution of the component gives the state which is best for all observations of the month, the same as operations for the single days followed by the solution; days without files do no harm.", "quantifier": "every set of files, list of days, analysis", "why_tests_cant": "Arbitrary months, sources, missing files and components.", "anchors": ["src/eustace/analysis/advanced_standard/examples/moving_climatology.py: process_inputs_batch, process_inputs, solve"]}
{"id": "C153", "title": "Splitting the local component keeps its values", "statement": "run_split_states splits the solved state of the local component, for each day, into states of a component without bias terms and of one with bias terms only; for every observation the values of the two add up to that of the local component.", "quantifier": "every state, observation, list of bias groups", "why_tests_cant": "Arbitrary states and combinations of parts.", "anchors": ["src/eustace/analysis/advanced_standard/examples/example_optimization.py: run_split_states"]}
{"id": "C154", "title": "A local view of a state is the global field where the view is", "statement": "extract_local_view_states_time takes from the state of the global field the values of a view; the local element gives with these, at every location inside the view, what the global one gives with all.", "quantifier": "every mesh level, view, state, location", "why_tests_cant": "Arbitrary meshes, views and locations.", "anchors": ["src/eustace/analysis/advanced_standard/examples/example_optimization.py: extract_local_view_states_time"]}
{"id": "C155", "title": "The delayed component solves each of its days", "statement": "Days processed by DelayedSpatialComponent one after the other and then solved have, each, the state which is most probable given the observations of the day, as with SpatialComponent; uncertainties are computed when they are asked for; a day without observations is harmless.", "quantifier": "every list of days, loaders, store", "why_tests_cant": "Arbitrary days, observations, components and states.", "anchors": ["src/eustace/analysis/advanced_standard/components/spatialdelayed.py: DelayedSpatialComponentSolution", "src/eustace/analysis/advanced_standard/examples/example_optimization.py: GlobalOptimizationSystem_EUSTACE"]}
{"id": "C156", "title": "Optimisation sees the inputs of each day", "statement": "Summaries of inputs are merged in order of time into one descriptor; each time wanted has then the input sources of its own summary, on the day of its own date, so that the state of each day comes from the observations of that day.", "quantifier": "every list of times, sources, store", "why_tests_cant": "Arbitrary summaries, orders, times of the day and stores.", "anchors": ["src/eustace/analysis/advanced_standard/fileio/optimization_inputs.py: input_summary, merge_input_summaries, generate_input_descriptor", "src/eustace/analysis/advanced_standard/optimizationsystem.py: OptimizationSystem"]}
{"id": "C157", "title": "All operations of a descriptor cover the same days", "statement": "The steps of every operation of a descriptor, for days and for months, begin with the first day and end with the last day of the command line, at midnight; operations without steps are run once.", "quantifier": "all numbers of iterations, dates and names", "why_tests_cant": "Dates are put into each operation of each iteration by separate code.", "anchors": ["src/eustace/analysis/advanced_standard/examples/jsonfiller.py", "src/eustace/analysis/advanced_standard/examples/generate_json_descriptors.py"]}
{"id": "C158", "title": "A mesh written to a file is read as the same mesh", "statement": "A mesh on the sphere which is written to a file and read again, by the program in Python or by the one in C++, has the same points, triangles and edges; a file which does not hold a mesh is refused; and the file is that of the mesh which was asked for.", "quantifier": "all meshes and levels of subdivision", "why_tests_cant": "Coordinates are converted to angles and back, and indices to other types; tests compare a few points.", "anchors": ["src/eustace/analysis/mesh/irisconnector.py", "src/eustace/analysis/mesh/writenetcdf.py", "src/cpp/eustace/analysis/fileio/mesh.cpp"]}
{"id": "C159", "title": "Operations are given one file or a list of files as their functions expect", "statement": "In all operations of a descriptor, functions and storage objects are given a placeholder for one file where they take one file and for lists where they take lists: files of all times where a component is solved, those of the days of a batch in operations on batches; and so are days and files of observations.", "quantifier": "all numbers of iterations and names", "why_tests_cant": "A list in place of a name, or one file in place of all, gives a valid descriptor; of all measurements only those of one time would be used.", "anchors": ["src/eustace/analysis/advanced_standard/examples/jsonfiller.py", "src/eustace/analysis/advanced_standard/examples/placeholder.py", "src/eumopps/catalogue/placeholder.py"]}
{"id": "C160", "title": "Counting and inspecting raw binary files finds what was written", "statement": "For a source and observable, the tools which count observations, show a day of observations and make an input loader find the files by the names which the generation of files gives to them; the summary has the exact number of days, of valid observations written and of days without a file and their mean; the view of a day has exactly its unmasked observations with their coordinates; results of several sources are independent.", "quantifier": "all archives, base directories, sources, observables, dates and observations", "why_tests_cant": "A test writes its own files by the same names; names, layout and numbers over a century of days come together only in a full archive.", "anchors": ["src/eustace/analysis/obscount.py", "src/eustace/analysis/obscountsources.py", "src/eustace/analysis/inspectinput.py", "src/eustace/analysis/fileio/observationsource_rawbinary.py", "src/eustace/analysis/advanced_standard/examples/inputloader_rawbinary.py", "src/roses/fullstace/rawbinary/rawbinary_generation.json"]}
{"id": "C161", "title": "Every region is optimised by one job and the merging reads what the jobs wrote", "statement": "The submitted jobs are exactly one for each triangle of the level; the command line of a job, taken apart by the shell and argparse, asks for exactly its region; no two jobs share a file; after the jobs have been run in any order, some possibly failing, the merging is given for each region what was found for it and nothing for one that failed, and when all succeed it writes finite parameters everywhere; the merging uses the level and kind of region it is given.", "quantifier": "all orders of the jobs, outcomes of the optimisation, levels, regions and files which were there before", "why_tests_cant": "The jobs run in a queue on other machines; a test runs no more than one region and gives the files to the merging by itself.", "anchors": ["src/eustace/analysis/advanced_standard/examples/submit_optimisation.py", "src/eustace/analysis/advanced_standard/examples/optimise.py", "src/eustace/analysis/advanced_standard/examples/moving_climatology.py", "src/eustace/analysis/advanced_standard/examples/model_structure.py", "src/eustace/analysis/advanced_standard/examples/example_optimization.py"]}
{"id": "C162", "title": "Gridded satellite files say what follows from the pixels", "statement": "The file which the gridding of satellite data writes, read back, says of every grid box the numbers of pixels exactly, and the mean, least and greatest temperature, the uncertainties and the variance of the pixels in the box to within half a step of their packed representation; fields are missing exactly where there is nothing to say, no number in range is read as missing, and the least, mean and greatest temperatures are in order. The status says ok only if a new file was written.", "quantifier": "all lists of input files, flags, grids, pixels whose temperatures and uncertainties can be stored, and all behaviours of casts out of range", "why_tests_cant": "Packing errors show only for values at the edges of the ranges; a test reads a few values from the middle.", "anchors": ["src/eustace/satgrid_iris/saver.py", "src/eustace/satgrid_iris/command.py", "src/eustace/satgrid_iris/pipeline.py", "src/eustace/satgrid_iris/modis.py", "src/eustace/outputformats/iriscubesaver.py"]}
{"id": "C163", "title": "Operations are run by the code with which the catalogue was built", "statement": "Unless unversioned code is allowed, an operation of a catalogue is run only if the working copies of all packages it uses are clean and at the same revision as when the operation was put into the catalogue, whether or not unversioned code was allowed then, so that it is run by the same code; identifiers of versions tell any two revisions apart and from unversioned code.", "quantifier": "all states of working copies at build and run time, catalogues, operations and options", "why_tests_cant": "A test runs in one working copy, which mostly is not clean, and with the bypass set.", "anchors": ["src/eumopps/version/svn.py", "src/eumopps/version/codepath.py", "src/eumopps/toolchain.py", "src/eustace/toolchain.py", "src/eumopps/catalogue/operation.py", "src/eumopps/catalogue/commandrun.py", "src/eumopps/catalogue/build.py"]}
{"id": "C164", "title": "Files of station data pass their verification, which accepts exactly the conforming ones", "statement": "The program which verifies files of station data ends with status 0 if and only if both files exist and conform to their specifications.  The files which the builder writes, using the variables of the definitions, pass if and only if the axes of temperatures were set, the three dimensions of the status file were made without limit and it has a variable known to the specification; those of the example do for any data.  Files should tell where stations are, reports should list what is wrong, and files of different regions should be kept apart.", "quantifier": "for all files on disk, prefixes, sequences of calls of the builder, stations, times, values, directories, regions and versions", "why_tests_cant": "Tests verify one example file against one specification; agreement of all variables with the specification for all sequences of calls, and what is never looked at, need proof.", "anchors": ["src/eustace/outputformats/stations.py", "src/eustace/outputformats/verify/verify_stations.py", "src/eustace/outputformats/verify/specification_stations.py", "src/eustace/outputformats/verify/verify.py", "src/eustace/outputformats/definitions.py", "src/eustace/outputformats/examples/example_station_data.py"]}
{"id": "C165", "title": "Descriptors for diagnostics fit the analysis which they follow", "statement": "For every number of iterations other than zero a descriptor for the biases of stations is written with one operation for each iteration, which calls the function for extraction with exactly its parameters, reads the state of the large scale of its iteration, and writes one data set of its own to one file.  All that is read should be written by the analysis of the same names.", "quantifier": "for all names, dates, options, numbers of iterations and iterations", "why_tests_cant": "Tests compare no descriptor for diagnostics; that every name read is written by another descriptor for all settings needs proof over both generators.", "anchors": ["src/eustace/analysis/advanced_standard/examples/diagnosticfiller.py", "src/eustace/analysis/advanced_standard/examples/generate_diagnostic_descriptors.py", "src/eustace/analysis/advanced_standard/examples/jsonfiller.py", "src/eustace/analysis/advanced_standard/examples/station_bias_model.py", "src/eustace/analysis/advanced_standard/examples/moving_climatology.py"]}
{"id": "C166", "title": "The file of biases of stations holds what the analysis gives to observations", "statement": "For a solved large scale component with biases of stations the extracted file holds the breaks, the location of the station of each break, the part of the state which belongs to the biases, and for the first day of each year and each station the bias which the analysis gives to an observation of that station on that day.", "quantifier": "for all files of breaks in order, states, locations and ranges of years; for the loop, all lists of elements", "why_tests_cant": "No test runs the extraction; that the grid agrees with the design matrix of the analysis for all breaks and states is not seen from an example.", "anchors": ["src/eustace/analysis/advanced_standard/examples/station_bias_model.py", "src/eustace/preprocess/fileio/insitu_land_breakpoints.py", "src/eustace/analysis/advanced_standard/examples/model_structure.py", "src/eustace/analysis/advanced_standard/elements/combination.py"]}
{"id": "C167", "title": "The specification of formats is read from its document as it is written there", "statement": "Paragraphs of a document are read in order with all their text; those between a start and an end marker are found, and a missing marker is reported; tables of attributes, dimensions, variables and names are read exactly, whatever the values.", "quantifier": "for all documents, markers and tables", "why_tests_cant": "The tests read one document of the project, which is not part of the repository; which tables would be read wrongly is not seen from it.", "anchors": ["src/eustace/parsedoc/parsedoc.py", "src/eustace/outputformats/verify/specificationreader.py", "src/eustace/outputformats/verify/specification.py"]}
{"id": "C168", "title": "The list of input data sets has for each name of the contents the path of its description", "statement": "For a document whose contents list the data sets and which describes each of them below its heading, the list has all names of the contents in order, each with the first path which is named in its description.", "quantifier": "for all documents of contents, preface and descriptions", "why_tests_cant": "No test reads the document; that every data set gets its own path depends on all text between contents and descriptions.", "anchors": ["src/eustace/inputcheck/deliverable_4_3.py", "src/eustace/parsedoc/parsedoc.py"]}
{"id": "C169", "title": "Monthly fields of HadCRUT4 are given to the analysis as observations of the right month, place and uncertainty", "statement": "For every month of the files exactly its field is selected; a box of the grid has the latitude of its row and the longitude of its column; temperatures keep their values and mask; each has the combined uncertainty of the two files, never zero, and a field with a temperature without uncertainty is refused.", "quantifier": "for all epochs, months, grids, fields, masks and uncertainties", "why_tests_cant": "The example has no test; that boxes, months and masks fit together depends on all shapes and on the connector, which was written for another source.", "anchors": ["src/eustace/analysis/advanced_standard/examples/inputloader_hadcrut4.py", "src/eustace/analysis/advanced_standard/fileio/observation_structure_source_connector.py"]}
{"id": "C170", "title": "Circumcentres, areas on the sphere and coordinates in triangles are what geometry says", "statement": "The circumcentre is the one point of the plane of a triangle which is equally far from its corners; the area of a triangle on the sphere is its spherical excess, never negative; for a point of a triangle the coordinates by areas are fractions of the whole, not negative and with sum one; coordinates in a part of a triangle are those of the same point.", "quantifier": "for all triangles and points", "why_tests_cant": "Tests have a handful of triangles; that areas of parts add up to the whole, or that a formula has no exceptions, is a theorem of geometry.", "anchors": ["src/eustace/analysis/mesh/geometry.py", "src/eustace/analysis/mesh/locator.py"]}
{"id": "C171", "title": "The ensemble has the mean and the covariance of the analysis", "statement": "Draws of a component have mean zero and the covariance of its solution; a component stores as many draws as it was asked for, at the right time; draws of the analysis at given places are the sums of those of the components; members of the ensemble have the mean of the analysis and the sum of the covariances of the components; standard deviations from draws have the right mean.", "quantifier": "for all components, precisions, designs, places and laws of white noise", "why_tests_cant": "A test draws once; that the members have the right covariance is a statement about expected values over all draws.", "anchors": ["src/eustace/analysis/advanced_standard/linalg/linearsystem.py", "src/eustace/analysis/advanced_standard/components/spacetime.py", "src/eustace/analysis/advanced_standard/components/spatial.py", "src/eustace/analysis/advanced_standard/components/spatialdelayed.py", "src/eustace/analysis/advanced_standard/components/storage_inmemory.py", "src/eustace/analysis/advanced_standard/analysissystem.py", "src/eustace/analysis/advanced_standard/examples/example_eustace.py"]}
{"id": "C172", "title": "The native solver gets the matrix and the right-hand sides it is meant to have, and gives the solution back in their order", "statement": "A symmetric positive definite sparse matrix reaches the native library as it is, with sorted columns and no empty row; right-hand sides of any layout in memory give a result of the same shape, whose columns solve the system; whatever order of unknowns the library chooses, the results are those of a factorisation of the matrix itself: noise is carried to numbers of the posterior distribution, sums of squares are marginal variances.", "quantifier": "for all sparse matrices, orders of unknowns, shapes, strides and contents of memory", "why_tests_cant": "Tests solve a few small systems with arrays that were just made; strides, duplicate entries, orders of unknowns and the width of indices only show with other arrays or sizes which no test has.", "anchors": ["src/eustace/analysis/advanced_standard/linalg/pardisowrapper.py", "src/eustace/analysis/advanced_standard/linalg/extendedcholmodwrapper.py", "src/eustace/analysis/advanced_standard/linalg/wrapper.py"]}
{"id": "C173", "title": "Optimised hyperparameters never make the observations less likely", "statement": "Whatever the minimiser asks for, in whatever order, it is answered with the cost of all days at those values and with the partial derivatives of that cost; afterwards component and file have the values it found if it succeeded and otherwise those at the start.  Therefore, with a minimiser that does not succeed uphill, the observations of all days together are at least as likely with the hyperparameters in the file as with those at the start, and with one that succeeds only within a tolerance, the slope of the likelihood there is within it.", "quantifier": "for all minimisers, elements, hyperparameters, numbers of days and observations", "why_tests_cant": "The call of the optimisation is commented out in the test; which path a minimiser takes depends on data, and the functions it is given change the component while they are evaluated.", "anchors": ["src/eustace/analysis/advanced_standard/components/spatialdelayed.py", "src/eustace/analysis/advanced_standard/linalg/optimize.py", "src/eustace/analysis/advanced_standard/optimizationsystem.py", "src/eustace/analysis/advanced_standard/linalg/costfunction.py"]}
{"id": "C174", "title": "What the analysis reads of satellite data is what was written for that day", "statement": "From a file of the satellite data of a day the analysis gets the cells which have a measurement, each once and in order, with measurement (to within 0.0025 K), uncertainty (to within 0.0005 K) and the centre of the cell as place, whichever surface the table of locations was made from; a file on another grid is refused; there are no locally correlated errors.", "quantifier": "for all grids, fields, masks, days, surfaces and quantities", "why_tests_cant": "Tests read one field of two by three cells; order of cells, masks and places pass through four files in three formats, made by different programs on different days.", "anchors": ["src/eustace/surfaceairmodel/fileio/cubemap.py", "src/eustace/surfaceairmodel/fileio/consistent.py", "src/eustace/analysis/preparedailyfixed.py", "src/eustace/analysis/preparelocationlookup.py", "src/eustace/analysis/preparecorrelationranges.py"]}
{"id": "C175", "title": "The time series of a satellite cell has its measurements on the days of their files", "statement": "From the files of locations, ranges and days which the preparation makes of satellite data, the file of pointers can be made; by it the C++ program gets for each cell asked for exactly its measurements and uncertainties on the days on which it has one, in the order in which the files were given, with the number of the day. The number of a day is taken from the last eight characters before the extension of the name, which is the name the C++ program makes for that number; names with another extension are refused.", "quantifier": "for all grids, numbers and orders of days, masks and cells asked for", "why_tests_cant": "The tests take the day from three names and write pointers of a few made-up records; that offsets, names and numbers of days agree between the writer in Python and the reader in C++ for files of any size is not tested.", "anchors": ["src/eustace/analysis/preparelocationpointers.py", "src/eustace/analysis/fileio/locationpointers.py", "src/eustace/analysis/preparedailyfixed.py", "src/eustace/analysis/fileio/observationsource_rawbinary.py"]}
{"id": "C176", "title": "Flags of poorly constrained latent variables are those of each day, if they can be made at all", "statement": "The check of latent variables gives each day of a month the flags it would give that day alone, although projectors and constraints are kept from the first day; a cell gets the flag of the climatology (of the large scale) exactly if the variables of which the posterior draws keep more than four fifths of the prior variance together add to its value on that day. The files read are those of the directory and iteration asked for, and the flags can be told from those of other checks.", "quantifier": "for all grids, worlds, components, draws, numbers of days and words of flags", "why_tests_cant": "There is no test of the check; a run needs a solved analysis on a global grid, and whether state kept from day to day matters cannot be seen from a few days.", "anchors": ["src/eustace/postprocess/latent_variable_check.py", "src/eustace/postprocess/flags.py", "src/eustace/analysis/advanced_standard/fileio/output_projector.py"]}
{"id": "C177", "title": "Ocean air temperatures are those of the seasonal series of their box and day", "statement": "The ocean air temperature of a cell is its sea surface temperature with the difference which the seasonal series of its own quarter degree box gives for the day of the year (the 29th of February as the 28th), to half a thousandth of a degree; the uncertainties of the satellite are carried over as they were, those of the model are from the series of spread (at least 0.3), from the parameters and 0.1 for the bias of measurements in place. All variables of other cells have no data; cells and files do not influence each other.", "quantifier": "for all dates, grids, sea surface temperatures, uncertainties and parameters of series", "why_tests_cant": "The program is in IDL and has no tests; the normalisation of the series and the choice of boxes and days would need all boxes and days of four centuries.", "anchors": ["src/eustace/surfaceairmodel/model_ocean_idl.pro", "src/eustace/surfaceairmodel/model_ocean_idl_setup_satellite.pro"]}
{"id": "C178", "title": "Land air temperatures are those of the first model for which there is data", "statement": "The highest and lowest air temperature of a cell over land are linear in the land surface temperatures of day and night, vegetation, height, sun and snow, with the coefficients of the first of three models for which there is everything its coefficients multiply; a surface temperature counts only if all its uncertainties are there, its sampling uncertainty is not above and its fraction of clear observations not below the thresholds, and the cell is not of ice. Random, atmospheric and surface uncertainties are propagated through the same coefficients, the vegetation is that of the nearest day, the number of the model is written, and what is read back is right to half a unit of the scale. Other cells have no data in all variables.", "quantifier": "for all grids, files, coefficients, thresholds and dates", "why_tests_cant": "The program is in IDL and has no tests; which of three models is used depends on the pattern of gaps in seven fields.", "anchors": ["src/eustace/surfaceairmodel/model_land_idl.pro"]}
{"id": "C179", "title": "The angle of the sun used over land is that of noon at the place and on the day", "statement": "For every day from 1901 to 2099 and every place that is not a pole, the solar zenith angle given to the land model lies between 0 and 180 degrees and its cosine is, up to 0.02, that of the latitude less the declination of the sun, where the declination follows from an obliquity between 23.42 and 23.46 degrees and a longitude of the sun within 2.5 degrees of its mean longitude on that day. The day of the year, month and day, and Julian day are those of the Gregorian calendar; noon is within twenty minutes of mean noon at the longitude; the two programs for the sun take the same time; and zenith angle and azimuth obey spherical trigonometry.", "quantifier": "for all dates of the years 1901-2099, longitudes from -180 to 180 and latitudes between the poles", "why_tests_cant": "The programs are in IDL and have no tests; a sign of the longitude or a day lost in one of the three algorithms for Julian days changes the angle at all places by amounts which a look at a map does not show.", "anchors": ["src/eustace/surfaceairmodel/model_land_idl_setup_satellite.pro", "src/eustace/surfaceairmodel/model_land_idl.pro"]}
{"id": "C180", "title": "The ice masks of the land model end up in the rows of their own latitudes", "statement": "The grid of the land model has the middles of equal cells from pole to pole and around the globe, and a range that is not a whole number of cells is refused. `match` gives the subscripts of all equal elements of two vectors without repetitions, in pairs, whatever order the sort gives to equal elements. So, for two masks with at least one latitude each on the grid, every row of the joined mask has the surface types of the second mask if that has the latitude of the row, otherwise those of the first if it has, otherwise nought. The masks are taken exactly if the outermost longitudes of the first are those of the grid.", "quantifier": "for all resolutions that divide the globe, all masks with at least two different latitudes, and all orders of equal elements that the sort may give", "why_tests_cant": "The programs are in IDL and have no tests; the pairs depend on the order which an unstable sort gives to equal elements, and a test sees one order.", "anchors": ["src/eustace/surfaceairmodel/model_land_idl_setup_satellite.pro", "src/eustace/surfaceairmodel/model_land_idl.pro"]}
{"id": "C181", "title": "The land model reads dates and coefficient files as they are written", "statement": "The text of a Julian day is the eight digits of its date, the Julian day of such a text is that of the date, and the one undoes the other for all years up to 9999; the day of the year is the number of days since the first of January, as a text of three digits. Names of vegetation files give the days of their dates, a name that is too short stops the program, and the check at the start asks exactly for what the later choice of a file needs. `read_asc` gives the words of the lines after the labels, up to the first blank line, without lines of the header, one row for each line; so the coefficients are those of the first two lines.", "quantifier": "for all dates of the Gregorian calendar with years up to 9999, all lists of file names, and all tables of any size", "why_tests_cant": "The programs are in IDL and have no tests; a date that loses a nought or a table that is read across its lines changes the coefficients or the file without a message.", "anchors": ["src/eustace/surfaceairmodel/model_land_idl_setup_satellite.pro", "src/eustace/surfaceairmodel/model_land_idl.pro"]}
{"id": "C182", "title": "The script that creates the raw binary files runs every stage with its file names", "statement": "Lines of a script which end in a backslash make one command with the line after them; a line of comment between them ends the command, also when the comment ends in a backslash. As the script has such lines of comment, its builds get no file names: called in any state of the directory it deletes the run before, builds no catalogue and no lookups and sends no jobs. With the lines of comment taken out it builds the catalogue, takes up the operations, builds the lookups and sends the jobs.", "quantifier": "for all lists of lines of any length, all contents of the working directory, and all words with which the script is called", "why_tests_cant": "The script is never run by a test; it deletes the working directory first, so the only sign of the fault is a message from the command line parser among the messages of success.", "anchors": ["src/roses/fullstace/rawbinary/create_rawbinary_files.sh", "src/roses/fullstace/rawbinary/buildall_lookups.sh", "src/roses/fullstace/rawbinary/buildall_rawbinary.sh", "src/eumopps/catalogue/build.py"]}
{"id": "C183", "title": "The jobs for gridded satellite data do each day once, and day and night apart", "statement": "Job i of the array does the date i - 1 days after the first, so each of the days is done by exactly one job and no other date is done; no two jobs write the same file, nor do a job of the day and a job of the night. Every pixel is an observation either of the day or of the night and never of both, and what is valid is an observation of the same part of the day. The cells cover the globe.", "quantifier": "for all first dates, all numbers of days, all dates of the calendar, all lists of quality flags, and all latitudes and longitudes on the globe", "why_tests_cant": "The scripts run on a cluster only; a wrong offset, mask or name shows as a missing or an overwritten file or as pixels counted twice.", "anchors": ["bin/lsf_satgrid.sh", "bin/eustace_runlsf_satgrid_day.sh", "bin/eustace_runlsf_satgrid_night.sh"]}
{"id": "C184", "title": "Any number of processes may make the directories of their outputs at the same time", "statement": "However the steps of the processes that call ensuredirectory are interleaved, with each other and with programs that remove nothing, no process ends with an error unless a file stands where one of its directories should be; each ends after a number of steps bounded by the length of its path; when it has ended its directory and all above it are there, nothing that was there has changed, and nothing else was made. A file in the way is never taken for a directory.", "quantifier": "for any number of processes, all paths of any length, all file systems and all interleavings of any length", "why_tests_cant": "The tests run one process in an empty directory; on the cluster thousands of jobs make the same directories at once, and a lost race shows as a job that fails now and then.", "anchors": ["src/eustace/outputformats/ensuredirectory.py"]}
{"id": "C185", "title": "Runs of the ice model never replace an output", "statement": "If one of its outputs is there already a run is refused and changes nothing; a run changes no file but its outputs, and however many runs there are, whatever was in a file stays in it. If nothing fails both outputs hold what the writer made of the same results; errors of the inputs leave nothing behind. But once the writer has failed, all later runs of the day are refused; and the command always ends with an error, also when all was written.", "quantifier": "for all file systems, all names, all outcomes of the model and of the writer, and all sequences of runs of any length", "why_tests_cant": "The tests run the model once into fresh temporary files and never the command; refusals and failures in the middle only show in a long production run.", "anchors": ["src/eustace/surfaceairmodel/run_ice.py"]}
{"id": "C186", "title": "Post-processing jobs of one array make the directories they share", "statement": "Jobs that run at the same time and look for their directory before they make it end after a bounded number of steps, without an error and with the directory there. This holds for a job that is alone and when the directory is there before; with several jobs the directory is always there at the end, but a job that looked before another made it always ends with an error.", "quantifier": "for all trees of files, all paths of any depth, any number of jobs, all interleavings of their steps with those of other programs", "why_tests_cant": "The tests run one process on one temporary directory; the error needs two processes within a few microseconds, on a shared file system.", "anchors": ["src/eustace/postprocess/calendar_check.py", "src/eustace/postprocess/threshold_check.py", "src/eustace/postprocess/window_check.py", "src/eustace/postprocess/outlier_check.py", "src/eustace/postprocess/merge_flag_files.py", "src/eustace/postprocess/apply_mask.py"]}
{"id": "C187", "title": "Variances from a partial inverse are those of the whole inverse, or refused", "statement": "Where the partial inverse has the entries of the inverse on a pattern, the variances of the latent variables are those of the whole inverse; for combinations of them the function always ends with NameError. Were scipy imported, whatever it returned would be right for combinations in whose product nothing cancels, in particular for weights that are not negative, and these would be refused only when an entry is missing; but for combinations that cancel it accepts and returns wrong variances.", "quantifier": "for all finite sets of variables and combinations, all matrices and patterns", "why_tests_cant": "The function is not tested; wrong variances need a matrix whose products cancel, and they look like any others.", "anchors": ["src/eustace/analysis/advanced_standard/linalg/sparse.py"]}
{"id": "C188", "title": "Each stage of the post-processing reads what an earlier one has written", "statement": "With the same settings in all scripts every directory of flags which a stage reads is written by an earlier stage. No two stages write to the same directory, and directories for different settings are different, so that flags are never mixed. But with the settings as they are the calendar check, the location flags and the masking read directories which no script writes.", "quantifier": "for all settings: all texts without underscore for thresholds and windows, all versions and iterations; all pairs of scripts", "why_tests_cant": "The scripts are not tested; they only fit together as a whole, through texts of names on a shared disk.", "anchors": ["src/eustace/postprocess/lsf/submit_threshold_flags.sh", "src/eustace/postprocess/lsf/submit_masking_window.sh", "src/eustace/postprocess/lsf/submit_masking_calendar.sh", "src/eustace/postprocess/lsf/submit_merge_flag_files.sh", "src/eustace/postprocess/lsf/submit_mask_apply.sh", "src/eustace/postprocess/lsf/submit_location_flags.sh"]}
{"id": "C189", "title": "Flagging jobs may run together and be started again", "statement": "Jobs of an array each flag the days of one month, run at the same time and are started again when their host fails. As long as flags go to another directory than the one read, a job that has ended without an error has left complete flags for all its days, made from the inputs as they were at the start; it ends with an error only if the check of one of its days does on those inputs; nothing else is changed; and it ends once its host does not fail any more. If flags go to the directory that is read, a failure while writing loses an input for good, and two jobs of adjoining months may disturb each other.", "quantifier": "for all checks as functions of the input files, all numbers of jobs, all lists of days without a common one, all interleavings of steps and failures of hosts", "why_tests_cant": "Depends on when hosts fail and how jobs interleave; tests run one operation on one machine.", "anchors": ["src/eustace/postprocess/window_check.py", "src/eustace/postprocess/calendar_check.py", "src/eustace/postprocess/merge_flag_files.py", "src/eustace/postprocess/apply_mask.py", "src/eustace/postprocess/lsf/submit_masking_window.sh"]}
{"id": "C190", "title": "Stages of the post-processing leave the same files in every run", "statement": "If each script of the post-processing waits for those which write what it reads, then whenever a job has ended the files of its days are complete and are what its stage makes of the files that are there, not of those of an earlier run; no job begins before all jobs which write what it reads have ended; it fails only if what its stage makes of one of its days is an error; and all runs that come to their end leave the same flags and the same masked analysis, whatever the order of events and however often hosts fail. Each script needs to wait for two others at most. If the condition is left out when a script is called, all jobs may end without an error although flags of an earlier run were used.", "quantifier": "for all checks that depend on the directories read, all settings without underscores, all numbers of jobs and days, all interleavings of steps of jobs of all stages and failures of hosts", "why_tests_cant": "Depends on the order in which a batch system runs thousands of jobs of nine arrays, and on files left by earlier runs.", "anchors": ["src/eustace/postprocess/lsf/submit_threshold_flags.sh", "src/eustace/postprocess/lsf/submit_masking_window.sh", "src/eustace/postprocess/lsf/submit_masking_calendar.sh", "src/eustace/postprocess/lsf/submit_merge_flag_files.sh", "src/eustace/postprocess/lsf/submit_mask_apply.sh", "src/eustace/postprocess/lsf/submit_location_flags.sh", "src/eustace/postprocess/merge_flag_files.py", "src/eustace/postprocess/apply_mask.py"]}
{"id": "C191", "title": "Seasonal harmonics follow the calendar", "statement": "Weights of the seasonal element change slowly with time in all years and over every new year: between two times, the sine and cosine weights of an order change by no more than the order times the angle that the time between them takes in a year of 365 days. At the same time of the same calendar day of two years, the weights are equal if both are leap years or neither is, and otherwise differ by the order times the angle of one day of a leap year at most. Every year begins with sines of no weight and cosines of full weight.", "quantifier": "for all times and calendar days of years before 9999, all orders of harmonics", "why_tests_cant": "Depends on every pair of times, on leap years and on the turns of years; a test looks at a few dates.", "anchors": ["src/eustace/analysis/advanced_standard/elements/seasonal.py:107-122", "src/eustace/analysis/advanced_standard/elements/seasonal.py:234-258"]}
