# Design: formal model of eustace-advanced and properties proved about it

The code under study is the Python 2 (and Cython) source in `/repo`.  It is read as text; nothing is run.
The model is a set of Lean 4 modules under `lean/Verif/`, one directory per subsystem:

* `Model.lean`  – executable definitions mirroring the Python functions branch by branch.  Each definition
  cites the file and lines it models; simplifications are stated in the same comment.
* `Spec.lean`   – the small independent specification used to state the property (where the statement needs
  vocabulary of its own).
* `Lemmas.lean` – helper lemmas.
* `Props.lean`  – the property theorems (named `cNN_...`), each with an `example` showing that a concrete
  non-trivial case meets its hypotheses.  Where the code violates the property, the negation is proved on a
  concrete witness (`cNN_..._violated`) and what does hold is proved in a theorem with suffix `_partial`.

## Trusted base

* Lean 4.33.0 kernel.  Axioms: at most `propext`, `Classical.choice`, `Quot.sound` (Lean's standard three).
  No `sorry`, no `native_decide`, no `bv_decide`, no added axioms.
* The fidelity of the model to the Python text (by reading; each definition cites its source lines).
* Python semantics as transcribed: integer division `/` of Python 2 ints is floor division; `int(x)` truncates
  toward zero; `range`, list slicing, `dict` (last write wins), `sorted` (stable), `itertools.groupby`
  (runs of equal keys), `enumerate`, `zip`.  Exceptions are modelled as values (`Except`/`Option`).
* Floating point is idealised: times and grid coordinates as exact integers (microseconds) or rationals,
  linear algebra over ℝ (or an ordered field).  Rounding, overflow and conditioning are not modelled.
* External libraries (numpy, scipy, sksparse/cholmod, netCDF4, iris, threading, the file system) are modelled
  by the contract that is used: e.g. "cholmod solve returns x with A x = b", "a thread performs its steps in
  program order, atomically per entry", "reading a file returns the bytes written".

## Not modelled

Command line parsing, printing, cylc/jinja templates, scientific constants and file paths of the JASMIN
installation, NetCDF metadata conventions, plotting, iris cubes, C++ code other than the raw binary reader, MPI/LSF submission scripts,
the satellite retrieval models' coefficients.

## Plan by property

| id | what is modelled | how it is proved |
|----|------------------|------------------|
| C01 | `compute_checksum_thread_indices` on `Nat` | closed form of the range list, partition by induction |
| C02 | worker threads as programs of atomic per-entry steps, any interleaving | commutation/invariant over interleavings |
| C03 | as C01 | negation with witness (127 files), true bound `< 2·threads` proved |
| C04 | flatten/unflatten over lists | induction, three at a time |
| C05–C07 | `find_references` with stable sort + groupby + dict | lookup lemma: grouped dict = filter; induction |
| C08 | `operation_output_resolve` as a fold with name→index map | loop invariant |
| C09, C10 | parameter trees as an inductive type, `updatewalk` as structural recursion | mutual induction on trees |
| C11 | `operationcount`, index arithmetic of commandrun | `Nat` div/mod |
| C12–C14 | datetimes as integer microseconds, `TimeBaseDays`, `TimeBaseSeconds`, `StepDaily` | integer/rational arithmetic; microsecond and before-start defects as negations |
| C15, C55 | proleptic Gregorian calendar (ordinal of y-m-d), annual/monthly numbering, relativedelta months | calendar lemmas |
| C16 | pattern replacement on character lists | fixed-width digit injectivity |
| C17, C18 | patterns compiled to tokens, a backtracking matcher, nested search, catalogue search | list lemmas; key-collision witness |
| C68 | `StepMidMonth` on months since the epoch | calendar lemmas; witness |
| C69, C70 | name building against matching of the same pattern | induction on patterns; witnesses for prefix match and missing separator |
| C19 | `netcdfobjects.py`: groups, attributes, dimensions, variables with fill values; saving by introspection and loading of object trees (`Persist/Netcdf`) | round trip on an inductive class of values, by pieces of groups for each attribute; exact description for lists of file entries; misalignment witnesses |
| C20 | `jsonobjects.py` and `datetime_numeric.py` on object trees; classes as parameter lists with defaults (`Persist/Json`) | round trip by induction on values; what is left out is described exactly; negative results |
| C21–C23 | catalogue as lists of datasets/operations; run gate | append-only invariant over update histories; decision logic |
| C24, C25 | `Eustace/RawBinary`: files as lists of bytes, records of little-endian words, headers; writing, reading and filtering of days, location and range files; pointer tables | round-trip by induction on records; addresses by splitting the list of bytes |
| C26 | aggregation folds over observation lists | permutation invariance; witnesses for defects |
| C60, C61 | `Satgrid.Model`: aggregate.c as scatter loops, both passes of file_aggregate_grid.py, `AggregateGridArray` with its flat array of places | a box of a scatter is a fold over its own entries; simulation between the two classes; extreme values by uniqueness of least elements |
| C28–C30, C75 | icosahedron tables and `subdivide` on lists of rows, 64 bit identifiers, any `argsort` | invariant `Good` by induction over level; degrees and connectedness by induction too |
| C31, C76–C79 | mesh coordinates and locator over the real numbers | octant case analysis for the icosahedron, one subdivision step, induction over level |
| C32–C38 | matrices over ℝ (Mathlib), solver contract `A x = b` | completing the square, PSD order |
| C34–C36, C81–C84 | components with storage, any number and mix of space-time and daily components, loaders as functions of the day | joint quadratic cost; block minimisation; compactness for convergence of the iteration |
| C80 | rectified design on marginal standard deviations | Cauchy–Schwarz for the inverse precision |
| C39–C42, C90 | elements as an inductive type with combinations of combinations; hyperparameter trees; designs and priors as the objects they build, dense arrays for sparse matrices | mutual induction on trees; list/matrix lemmas; `HasDerivAt` entry by entry; Kronecker and block forms |
| C91, C92 | the same designs and priors | Kronecker sums; block entries |
| C93 | times as microseconds on the calendar model | year bounds; rational arithmetic |
| C94, C95 | break policies; combined ice grids as lists | filters; regular grids |
| C96, C97 | bias designs and observation structures on lists of observations | sorted lists are determined by their members |
| C43 | storages as methods on shared disk contents (and, for the batched storage, a cache in the object); histories of requests to any number of objects | specification `LastWritten`/`NeverWritten`; invariant that the disk has the last accepted value under the name of quantity and time; coherence of cache and file for a single object; witnesses of stale values |
| C44 | `Q_inv` on CSC arrays with its pointer loops, the scipy sum which gives the pattern, `trace_iQ_dQdp` | induction over columns from the last, invariant of the merge loop; counterexample with a cancelled factor entry |
| C85, C86 | cost function and derivative for one and for replicated Gaussian processes, with the partial inverse of C44 | multivariate normal integral by change of variables; completion of squares; Jacobi's formula for the determinant, implicit derivative of the posterior mean |
| C45, C46, C87 | stiffness/mass assembly as lists of triplets over triangles, any mesh; all orders; parameters | stiffness form is the integral of the squared gradient; congruence; closed form for the loop |
| C47–C49 | lattice nodes, nearby search, design and precision in any number of dimensions | floor arithmetic; mixed radix orderings; witnesses |
| C88 | lattice precision as product of operators, all orders | diagonal dominance gives a nonsingular operator; congruence |
| C89 | extension of the field, lattice, design row and product | product form of the sum over lattice nodes; hat functions between two nodes |
| C50–C54, C58 | flag words as `BitVec 16`, per-cell logic | bit lemmas, counting folds |
| C72 | processing in place as a fold over days updating the files | agreement on the flags a check reads is an invariant |
| C73, C74 | blocks with margins against whole-field windows; calendar days of the reference leap year | reflection lemma; calendar lemmas |
| C56, C57, C62 | index arithmetic of blocking | partition lemmas, witnesses |
| C98 | `Satgrid.Iris`: loading with masks, safety mask, maps, operations and postprocessing of satgrid_iris | the same folds as C60; the fields of both programs are determined by the pixels of a box |
| C27 | `Diagnostic.Model`: observations of a day, list of named fields, aggregation, weighted mean, the loop of diagnostic_combine.py | names of fields are injective (last underscore); each field is a fold over the observations of its box; invariant over calls |
| C62 | `Regrid.Model`: numpy reshape, tile and argsort (any order of equal elements), blocks of latitudes, `Regridder` | the rearranged arrays are in closed form; argsort is determined up to equal elements; induction over blocks |
| C99 | `Regrid.Model`: pointwise, averaged and sampled outputs of `AnalysisSystem`, fraction of climatology | induction over components; linearity of averages; triangle inequality of the Euclidean norm |
| C59 | `Satgrid.Axis`: truncation of reals, wrap and range check, flat index | cells by floor arithmetic; negations below the start and at the pole |
| C63 | `AnnualBatch.Model`: day lists, times and file slots of annual batches, by time and by name | days as intervals of microseconds; dictionary and search lemmas; Periods (C15) for the index of a year; witnesses |
| C100 | `AnnualBatch.Model`: outputs of annual batches | reduction to the loop of C17; injectivity of names (C16) |
| C101 | `AnnualBatch.Model`: `stepIndices` | floor of days against `StepDaily` (C12) |
| C65 | `SphereView.Model`: super-triangles and neighbourhoods as regions; `merge_local_parameterisations`, the accumulators and the loop over files | identifiers of descendants (C30) as ranges; rows of designs as marks of regions; folds over views |
| C102 | `SphereView.Model`: active vertices, index maps, mass and stiffness matrices and precision of a view | quadratic forms as sums over triangles; form determines matrix; positivity by C45 |
| C103 | `SphereView.Model`: `inDomain`, `viewRow` | locator (C31, C77) and uniqueness of the region of a triangle |
| C104 | `CppReader.Model`: streams, headers, readers, caches, input manager in C++ | buffers as byte lists with uninitialised contents as argument; bytes written (C24) as words; faithful caches as invariant |
| C105 | `CppReader.Model`: `readPointers`, `series`, `retrieveLocations` | offsets of records (C25) followed through both files; negations |
| C106 | `CppReader.Model`: `number`, `time`, path names | division of seconds; substitution in patterns (C16) against concatenation |
| C107 | `BreakPoints.Model`: reader of the file of breaks, policies, statistics, C++ counterparts | selection by masks against filters of rows; monotone exponential; sorting and runs |
| C108 | `BreakPoints.Element`: station bias design, grid of biases | C96 for the rows kept by C107; sums with one non-zero term |
| C109 | `Definitions`: definitions of the analysis, lattices in time and latitude, loader of covariates | C39, C90, C45, C47, C88 for the elements of each definition; C96, C97 for the observations of a day; floor and ceiling arithmetic for nodes |
| C110 | `Projector`: output_projector.py and the output of moving_climatology.py | each row of the averaged design is the cell average of the values of the element (C39 for single places, C62 for averages); blocks of rows by arithmetic; invariant of the three projectors over days |
| C111 | `Projector`: constraint and flags of latent_variable_check.py | order of reals; sums of terms which are not negative; witness at latitude 60 |
| C112 | `Merge`: filesmerger.py, merge_multiple_outputs.py and write_element of consistent.py, over a table of files | the list of pairs is the upper triangle of the sources; blanking entries and removing blanks is restriction to the sources which are there; induction over files and names for the dictionary of results; quadratic form by induction on the number of sources |
| C113 | `Merge`: names, labels, renaming, check of names; correlation_ranges.py with ocean.json | splitting and replacing of strings; a part which occurs once is removed there |
| C114 | `Ice`: model_ice_input_processing.py | convolution as a sum over the neighbours; masks as decidable conditions; characterisation of what is kept |
| C115 | `Ice`: ModelIceProcessor, ModelIceObservableProcessor, loading of parameters | flat index lists with deletion; land and sea parts are disjoint; values at a cell |
| C116 | `Ice`: process_global | truncation of quotients near integers; dictionary of fields filled by two passes |
| C117 | `SurfaceAir`: fileio/remap.py, the mappings of land.py and ocean.py, correlation_ranges.py | interpreter of the mapping list; loop invariant with distinct outputs; independent table of names; sums of squares cell by cell |
| C118 | `SurfaceAir`: post_processing.py with numpy's sharing of masks | loop over fields; exact characterisation of each cell; count as the size of a set |
| C119 | `SurfaceAir`: run_land.py, run_ocean.py, model_land.py, model_ocean.py, consistent.py; IDL is a parameter | simulation between the loop over days and single runs; leftmost match of the pattern for dates |
| C120 | `SurfaceAir`: ObservationSourceLakeReading | sorted lists without duplicates; error of truncation |
| C121 | `Format`: definitions.py, filebuilder.py, globalfield_filebuilder.py, with the packing of netCDF4 | rounding and wrapping of 16-bit codes; frame lemmas for files that grow |
| C122 | `Format`: verify.py, verify_globalfield.py, specification_globalfield.py, the builder | verdict as an equivalence with an independent predicate; invariant of files that grow |
| C123 | `Format`: outputvariable.py, definitions.py | templates as lists of pieces, induction over pieces; evaluation of the eighteen definitions by the kernel |
| C124 | `Format`: axes of globalfield_filebuilder.py in single precision | exactness of eighths and of whole numbers in single precision |
| C125 | `Stations`: get_temperature_samples, StationDescriptionArray | loop invariant: each cell holds the last contribution; separation makes the first match the only one |
| C126 | `Stations`: MeasurementTime with Python's sets, get_unique_temperature_sample_times | invariant of insertion: kept times with equal hashes are apart; permutation by sorting |
| C127 | `Stations`: add_break, get_break_variable, names in set_temperature_dimensions | induction over breaks; padding with zeros |
| C128 | `Submit`: submit_eumopps_jobs(_grouped), shell loops, job scripts, `operationcount` and `operationIndex` of `Run` | loops equal lists of arrays; consecutive pieces make up the range |
| C129 | `Submit`: eustace_multi_iteration, done_conditon; executions permitted by the batch system as a specification | chain of blocks each waiting for the one before; induction over blocks; sequential execution is permitted |
| C130 | `Submit`: runlsf_iterations.sh with runlsf.sh and runlsf_solver.sh | same chain of blocks |
| C131 | `Submit`: suite.rc, batches.py | division into chunks |
| C132 | `Insitu`: ObservationSourceInsituLand, with broadcasting of masks and `mask.flat` assignment | element of each mask after each assignment; text equal up to zeros at the end |
| C133 | `Insitu`: AltitudeAdjustment with `Geography.compute` | elementwise, with C89 at grid points |
| C134 | `Insitu`: preparedailyfixed.run_day for stations | C132, C133 and the round trip of C24 |
| C135 | `Insitu`: HadNMAT2Format, numpy.genfromtxt with fixed width, float32 by `Float32` | digits of decimal form; error bounds of rounding |
| C136 | `Insitu`: preparedailymobile.run_day | C135 and the round trip of C24 |
| C137 | `Masking`: threshold_check.py on cubes by name; windows by `Smooth` | sums over windows as sums over integer intervals, mirrored or modulo 1440 |
| C138 | `Masking`: outlier_check.py, cell_percentile_threshold.py; percentiles by sorting | sorted list of a multiset; cosine by `Real.cos`; what percentiles are by counting |
| C139 | `Masking`: all steps as directories written by job arrays, with `Flags`, `Percentiles`, `Dates` | each directory characterised from the one before (C50-C55, C74); counts of lists to counts of sets |
| C140 | the same | an error stops the list of days of an operation; induction on that list |
| C141 | `Masking`: output of moving_climatology.py with `Format.definitions` | names evaluated by the kernel; C139 |
| C142 | `Descriptor`: jsonfiller.py on JSON values, templates of the repository as values | each kind of operation evaluated for any names and number; induction over iterations |
| C143 | the same; the latest of a list of operations | invariant of the operations so far at the beginning of an iteration |
| C144 | the same; signatures of functions and storage classes as lists | by kind of operation |
| C145 | `Descriptor` and `Submit` | names of operations are sorted by iteration and stage as in C129 |
| C146 | `Descriptor` and `Names` | patterns expanded by C16; names are split at the first directory |
| C147 | `Descriptor` | by kind of operation |
| C148 | `Descriptor` | by kind of operation |
| C149 | `MonthlyBatch.Model`: day lists, times and file slots of batches of months, by time and by name | as C63, with months numbered from January of year 0; Periods (C15) for the index of a month; witnesses |
| C150 | `MonthlyBatch.Model`: outputs of batches of months | as C100 |
| C151 | `MonthInput.Model`: names of a day out of those of a month, the loader of a day, its observables and the connector to the analysis, on the readers of `RawBinary` and `ObsSource` | round trip of files (C24), pairs of places of the same location for the mean (C26); the loops over sources and days by induction; the observation structure is determined by the records |
| C152 | as C151, with `process_inputs_batch` and `process_inputs` on `Components` | C33 for loaders which depend on the day; witnesses |
| C153 | `Optimise.Model`, first part: `element_states`, the flags and `numpy.concatenate` of `run_split_states`, on `Elements` and `Definitions` | parts picked by flags, values of a combination as a sum over parts; the definitions of the templates as witness |
| C154 | second part: `extract_local_view_states_time` and the design of the view, on `SphereView` and `Locator` | the rows of the local design are the rows of the global one at the active points |
| C155 | third part: the delayed spatial component with its storage and options, on `Components` | the measurements of different days are independent; systems of C30, minimum of the cost of each day |
| C156 | as C155, with the summaries, the descriptor and the times in ISO format | text of a time read back; dictionary with last write; composition with C155 |
| C157 | `Descriptor` | table of facts of each operation |
| C158 | `MeshFile` | round trip of coordinates and of bit vectors; degrees of points (C75) for unit length |
| C159 | `Descriptor` | classes of placeholders in the table of facts of each operation |
| C160 | `ObsCount` | names by the expansion of patterns (C16, C106), counts by the round trip of files (C24), sums over an interval of days; negations for the layout of the generation |
| C161 | `OptimiseJobs` | words of command lines, argparse and decimal numbers as text; induction over the jobs in any order; composition with the merging of C65; negation: no job gets past the look-up of its settings |
| C162 | `SatgridFile` | rounding of reals to even and packing with a cast left open out of range; composition with the fields of C98; bounds of means, quadratic means and variances of lists; negations: variances above 10737.5 K², temperatures out of range, negative sampling uncertainties |
| C163 | `Version` | reports of svnversion as text and Python's int of them; injectivity of padded decimals; composition with the stored tool chains of C21 and the gate of C23; negations with concrete working copies |
| C164 | the builder of station files as calls which change two files, the definitions and specifications as data, and the verifier with its exceptions; proved by induction over the calls (what a call adds is as specified, what is there stays), and by deciding that each definition meets its specification; violations by witness.  Not modelled: broadcasting of arrays and empty lists of breaks, descriptions in the log. |
| C165 | the generator as assignments to the templates, as for C142-C148; proved by evaluating each kind of operation symbolically and by induction over iterations, and compared with the operations of the descriptor of the analysis. |
| C166 | the loop with its dictionary carried from turn to turn and one output file; agreement with the design of C108 by its theorems, the loop by induction over the elements. |
| C167 | elements of the document as trees, loops as recursions with their state; tables are written by a separate function and proved to be read back, by induction over rows. |
| C168 | the loop with its current heading and its dictionary as a recursion; induction over the descriptions. |
| C169 | masked arrays with an optional mask, the selection by time as a filter over fields with their mid-month times, the connector with an optional attribute; proofs by induction over rows and fields. |
| C170 | real vectors as in C31; angles of Mathlib between tangents as the specification; Girard's formula from the polar triangle, additivity from the equality case of the triangle inequality for angles. |
| C171 | arrays with their dimensions and the rules of broadcasting of numpy; draws as random variables, expected values as Bochner integrals of Mathlib; the covariance by bilinearity. |
| C172 | sparse matrices by rows with the arrays of scipy, memory as a function of addresses, the library as a function on columns in memory; sections of flattened lists for the arrays, division with remainder for addresses, permutations of rows for the order of unknowns. |
| C173 | a minimiser is a tree of questions and answers, so that all programs are covered; hyperparameters are the state which every question changes; induction over the tree, with C40 for setting values, C41 for derivatives of priors, C85 and C86 for the cost. |
| C174 | fields, masks and coordinates as Iris loads them; numbering of cells by rows proved against quotient and remainder; composition with C24 (binary files), C121 and C124 (packed fields and axes). |
| C175 | loop over names of files with the contents of the files given; composition of C174 (files of days), C25 (pointers), C105 (reader) and C106 (names). |
| C176 | import as lookup of names; loop over days with kept projectors and constraints as a recursive function; induction over the days; composition with C110 and C111. |
| C177 | columns of harmonics normalised by their squares (sums telescoped to a closed form); boxes by floor; the two loops as one recursion over cells with updates; `where` with its -1; induction over cells and files. |
| C178 | files as functions of cells; `WHERE` without count with its subscript -1; NaN as `none` through sums and roots; loop over models as a recursive function; encoding in 16 bits with wrap-around. |
| C179 | calendar algorithms on naturals with IDL division, proved against the calendar by closed forms; `WHILE` loops with a number of steps shown to be enough; series in ℝ bounded term by term; `atan(y,x)` as the argument of a complex number. |
| C180 | lists of (value, vector, subscript); `match` on any sorted permutation of the combined list, the pairs characterised by induction over sorted lists; the assignment of rows by induction over the pairs. |
| C181 | texts as lists of characters; digits by induction over their number; words against `List.splitOnP`; the loop of `read_asc` by induction over lines, `REFORM` as pieces of a list. |
| C182 | lines as lists of words, comment marks and backslashes; the reading of lines by the shell by induction over lines; the script as a fold over its commands. |
| C183 | dates by their numbers; names as lists of characters; quality flags by the model of C59/C60; the grid by C59. |
| C184 | interleavings as lists of events, also of other programs; an invariant for each process that the steps of all others keep (rely and guarantee), and a measure for its end. |
| C185 | files as a map from names to contents; stages as values that may be errors; sequences of runs by induction. |
| C186 | the file system of C184; jobs as small step machines; invariants over all interleavings. |
| C187 | matrices over the reals; the set of nonzero places as `scipy.sparse.find` gives it. |
| C188 | names as lists of characters built as in each script; read up to underscores. |
| C189 | transition system of jobs with two steps for each day (open, complete) and restarts; invariant for each job. |
| C190 | transition system of jobs of all stages with conditions; an invariant relates done days to the present files, since nothing that a released stage reads is written any more; determinism by induction on the rank of stages. |
| C191 | decimal years (C93) and harmonics (C91) together; the decimal year gains a year in 365 days at the quickest, days of leap and common years are compared month by month, sines and cosines are 1-Lipschitz and periodic. |

No property of the list is considered inexpressible; where only the logical part can be carried (threads,
floating point, file system) the theorem says so in its comment and the MANIFEST marks it `partial` if the
full English statement is not reached.

## Findings: where the code does not do what the property says

Each is proved in Lean on a concrete witness or for all inputs (theorem names in brackets).

* C03: `compute_checksum` can start almost twice the advertised 64 threads [`c03_thread_bound_violated`].
* C10: selecting operation −1 silently selects the last operation, and a module without per-operation lists
  accepts every index [`c10_index_range_violated`, `c11_past_end_violated`].
* C66: an input that allows missing data and refers to a subset without any file makes every operation fail with
  KeyError when run, although the catalogue builds without error [`c66_selectable_violated`].
* C22: an operation whose name equals its own module or function name can never be found
  [`c22_unique_operation_violated`].
* C23: `Operation.run` refers to the undefined name `runmodule` for class modules, so they never run
  [`c23_class_module_violated`].
* C67: the last incomplete batch executes its first operations and then raises; `commandrun` says in a comment that
  such positions are allowed, but that branch is unreachable [`c67_last_batch_violated`].
* C21: the data set filter of `build` subscripts a method and raises TypeError for every existing name
  [`c21_filter_violated`].
* C14/C12: `TimeBaseDays.datetime_to_number` divides microseconds by 10^6 instead of by 86400·10^6, so fractions of a
  second count as fractions of a day; conversion is not monotone and the last microsecond of a day belongs to the next
  step [`c14_violated`, `c12_violated`]. `int()` truncates toward zero, so files of the 24 hours before the start are
  assigned to step 0 [`c12_violated`].
* C64: `StepDailyEpoch` counts the days of the period but indexes from 1850-01-01; unless the period starts there, the
  operations 0..n-1 get none of the period's files [`c64_violated`].
* C15: annual and monthly step numbers are computed from float32 times; the last second of every year is assigned to the
  next year and the last microsecond of a month to the next month [`c15_annual_violated`, `c15_monthly_violated`].
* C16: `is_uniquely_defined_by` concatenates the patterns, so it accepts a field split over two patterns, and ignores that
  an absolute later pattern discards the earlier ones; different days then share one file [`c16_violated`].
* C55: with a reference time that is not the first day of a month the monthly operation dates skip days
  [`c55_not_first_violated`].
* C68: `StepMidMonth` ignores the month of the epoch when computing an index, so it is only self-consistent for January
  epochs [`c68_violated`].
* C17: nested searches key directories by the concatenated values of their category names; `a_bc/` and `ab_c/` share a key,
  so files are catalogued under the wrong categories or not found [`c17_violated`].
* C18: value errors inside archives are recorded without the archive name, and a pattern with date fields but no year aborts
  the search of the whole data set with TypeError [`c18_archive_errors_violated`, `c18_no_year_violated`].
* C69: steps join patterns with `/`, the search concatenates them; with a directory pattern not ending in `/` the outputs of a
  step are not found by a search with the same patterns [`c69_violated`].
* C70: patterns are matched at the beginning of a name only, so `x.nc.tmp` is catalogued like `x.nc` [`c70_violated`].
* C71: a day without a month is silently replaced by 1 January [`c71_violated`].
* C51: with a threshold of zero both window flags are set everywhere if no other day of the window can be read, because
  Python 2 orders `None` below every number [`c51_zero_threshold_violated`].
* C54: merging two flag files turns a genuine low areal outlier of the second file into a marine cell [`c54_areal_lost`].
* C58: `FLAG_MEANINGS` lacks the persistent outlier flag, so from bit 11 on every meaning describes the next bit; 13 masks are
  written with 15 meanings [`c58_later_violated`].
* C56: `compute_window_mean` uses the floor of rows/10, so a field with fewer than ten rows or columns has mean zero everywhere
  and loses all outlier flags [`c56_small_violated`, `c56_extend_small_violated`].
* C57: the number of row blocks is an integer division, so rows beyond the last complete block get no statistics (NaN) and are
  never flagged [`c57_violated`].
* C30: at level 29 the identifiers leave no bits for the edge number, so the keys by which `subdivide` sorts collide; meshes
  are sound up to level 28 only [`c30_level_29_violated`].
* C32: the solver reads the upper triangle of the posterior precision only; an unsymmetric observation precision gives a state
  which is not the minimiser [`c32_unsymmetric_violated`].
* C37: the climatology fraction divides rectified posterior by signed prior uncertainties; with design weights of both signs it
  is 9 even without any data, where it should be 1 [`c37_fraction_violated`].
* C38: the block-wise diagonal of the inverse with a block size of zero never ends [`c38_blocksize_zero_violated`].
* C34: with in-memory storage merge_updates adds to the first stored update in place, so solving after a merge counts the other
  updates twice [`c34_memory_violated`].
* C81: a day without data stores None for a space-time component and the next solve fails with an attribute error
  [`c81_empty_day_violated`].
* C82: a daily component reports uncertainty zero on a day without data [`c82_no_data_violated`].
* C83: uncertainties are those of each component given all others; where components are observed in sum the reported total is
  smaller than the joint posterior standard deviation [`c83_joint_violated`].
* C84: for nonlinear components the update measures the prior from the current state, so the fixed points are those of the
  misfit alone [`c84_stationary`, `c84_violated`].
* C44: scipy's sum of factor and transpose drops entries which are zero by cancellation; the recursion then misses a product and
  an entry of the partial inverse is wrong, without any error [`c44_cancellation_violated`].
* C86: with a cancelled factor entry `cost_derivative` is wrong too (3/2 instead of 9/4 in the example), so the optimiser follows
  a wrong gradient [`c86_cancellation_violated`].
* C46: the loops over the operator power stop before alpha is reached (`range(3, alpha, 2)`, `range(4, alpha, 2)`), so alpha 3
  gives the precision of order 1 and alpha 4 that of order 2 [`c46_order_violated`].
* C47: a lattice dimension of one node has node distance zero and the search divides by it [`c47_single_node_violated`].
* C49: the design matrix numbers lattice nodes with the first dimension fastest, the precision with the last dimension fastest;
  on a 2 by 3 lattice adjacent nodes are not linked [`c49_order_violated`].
* C41: on a periodic lattice the derivative of the precision leaves out the links across the seam [`c41_periodic_violated`]; the
  example model uses such a lattice for its seasonal spline (`examples/model_structure.py` 121).
* C41: `build_Q` on a lattice accepts orders for which the field has no variance, `build_dQdp` refuses them
  [`c41_lattice_check`].
* C89: the distance of grid points is rounded to two decimals; other grids give values outside the range of the field, a field
  of ones 1.026 with eight points per degree [`c89_rounding_violated`].
* C89: grids stored from north to south, as is usual in files, are read upside down without an error
  [`c89_descending_violated`].
* C89: the value of a pole is the mean of the nearest row with the first and last column counted twice, so it depends on the
  meridian at which the file begins [`c89_pole_violated`].
* C39: a combination with a space-time factor fails in every evaluation, since `rectified` is passed to `FactorDesign`'s
  `design_function`, which does not take it (combination.py 159, factor.py 61) [`c39_factor_violated`].
* C40: `set_array` of a combination whose last part has no hyperparameters raises IndexError (combination.py 33)
  [`c40_last_empty_violated`]; single hyperparameter objects ignore surplus values [`c40_surplus_violated`];
  `GeneralHyperparameters` splits its array at the wrong places (local_view.py 195-209) [`c40_general_violated`].
* C43: an object of `SpaceTimeComponentSolutionStorageBatched_Files` with `keep_in_memory` never reads a file again after the first
  time, and gives its own last value even where the file for reading is another than the file for writing
  [`c43_stale_violated`, `c43_kept_violated`]; its `measurement_read` always fails (storage_files_batch.py 376)
  [`c43_batched_measurement_violated`].
* C43: `DelayedSpatialComponentSolutionStorage_Files` cannot write or read samples (storage_files.py 314, 344)
  [`c43_delayed_sample_violated`]; with patterns of names samples and prior samples fail in the calls which the spatial component
  makes, and `prior_state_sample_read` overwrites the file (storage_files.py 474-475, 495-505) [`c43_flexible_sample_violated`].
* C43: what was never written is `None` in memory and with patterns, IOError in the other storages [`c43_missing_violated`].
* C24: `ObservationRawBinaryReader` reads the location identifier of a day file but nobody compares it
  [`c24_uuid_violated`]; files cut short and files with another number of correlation ranges are read without an error
  [`c24_cut_violated`, `c24_wrong_ranges_violated`]; times less than one day before the epoch are truncated towards zero and taken
  for the first day [`c24_before_epoch_violated`].
* C25: `read_pointer_records` uses `uuid`, which is not imported (locationpointers.py 115) [`c25_reader_violated`].
* C26: a mean of two observables with times in arrays keeps the times of all locations [`c26_time_violated`]; a day with one of the
  two observables missing raises ValueError [`c26_one_missing_violated`]; `append` changes the mask before it refuses
  [`c26_append_refused_violated`].
* C94: the Laplace kernel with threshold zero (the default) keeps all break points [`c94_kernel_zero_violated`].
* C95: hemisphere grids whose gap is not a multiple of the spacing are accepted and the rows of the second are numbered wrongly
  [`c95_gap_violated`].
* C96: `insitu_land_covariate_effect` pairs observations and breaks by position; for observations not in the order of stations,
  repeated stations or unordered breaks it attaches wrong breaks [`c96_order_violated`, `c96_repeated_violated`,
  `c96_breaks_order_violated`].
* C97: `insitu_ocean` is a known group of biases without any effect [`c97_ocean_violated`].
* C59: values less than one cell below the start of an axis are put in its first cell (truncation towards zero) and the latitude axis
  wraps like the longitude axis, so that latitude 90 goes to the row at the South Pole [`c59_below_violated`, `c59_pole_violated`].
* C61: `AggregateGridArray` leaves values of exactly zero out of minima and maxima [`c61_zero_violated`]; the value after the last
  place of a box goes to the first place of the next [`c61_overflow_violated`] or raises in the last box
  [`c61_last_box_violated`].
* C98: satgrid_iris reads the attribute `mask` of the primary field, which Iris leaves away when nothing is masked: a file with a
  complete primary field and a gap in any other field fails to load and is left out [`c98_complete_violated`].  A coordinate of
  -32768 makes satgrid raise for all files, where satgrid_iris leaves out the pixel [`c98_error_coordinates_violated`].
* C27: the minimum of uncertainties is replaced whenever an *observation* is below it (diagnosticgrid_aggregate.pyx 36): with
  temperatures in Kelvin it is the uncertainty of the first observation and depends on order [`c27_uncertainty_min_violated`,
  `c27_order_violated`].  "Precision" is the sum of inverse uncertainties [`c27_precision_violated`].  An uncertainty of zero raises
  [`c27_zero_violated`].  A second input with the same source and observable leaves the old mean in place
  [`c27_stale_mean_violated`].  A source without observations on the day ends the program in `print_stats`
  [`c27_missing_violated`, `c27_missing_source`].
* C62: `rearrange_latitudes` sorts latitudes but the blocks are joined in the order of the grid: on grids from north to south the rows
  of each block come out reversed, and the result depends on the blocking [`c62_descending_violated`, `c62_blocking_violated`].
  Spacings are rounded to three decimals [`c62_rounding_violated`].  A cell with its centre at a pole has weights which add up to
  zero, by which the code divides [`c62_pole_violated`].
* C63: with patterns without `%Y` (one file for a year) the limits of the days are not rounded down: if the period does not begin at
  midnight the first day is left out of the files but not of the day numbers [`c63_name_violated`].  A file with a time in the last
  second of a year counts for the next [`c63_last_second_violated`].  A year with some file is accepted where missing data is not
  allowed, whatever days are missing [`c63_missing_day_violated`].  Errors are NameError, as `OperationException` is not imported.
* C101: if the period ends earlier in the day than it begins, `AnalysisStepIndex` has one number more than there are daily steps
  [`c101_violated`].
* C20: JSON files leave out attributes with false values, so the size 0 of an empty file and an empty list of tags are loaded as None
  [`c20_zero_violated`]; instances whose class needs such an argument cannot be loaded [`c20_required_violated`]; microseconds of times
  are lost [`c20_microseconds_violated`].
* C19: NetCDF catalogues read None in a list of file entries by leaving it out, so later sizes and times move to earlier files
  [`c19_shift_violated`]; None among checksums or names becomes an empty string and tags are filled up or lost [`c19_entries`].  Lists of
  lists of strings (`archive_unused`) cannot be saved [`c19_strings_violated`], nor times beside objects [`c19_time_violated`]; only the class
  of the first of a list of simple objects is kept [`c19_class_violated`]; references for operations without any file cannot be loaded
  [`c19_references_violated`].
* C65: `merge_local_parameterisations` passes over files which do not exist; points which belong to such regions only get not-a-number
  (0/0) and the file is written without an error [`c65_missing_file`, `c65_missing_file_violated`].  It always takes regions to be
  super-triangles, also when the local fits used neighbourhoods, and ignores its argument `full_resolution_level`.
* C104: the C++ reader takes a day file cut off within its header (after the format identifier) for an empty day
  [`c104_header_cut_violated`]; a file which does not exist is refused only because uninitialised memory is unlikely to hold the
  format identifier [`c104_missing`]; the identifier of the table of locations is read but never compared [`c104_uuid_violated`].
* C105: in a time series `AnalysisInputIterator::Location` takes the number of the day for the location
  [`c105_location_violated`]; one unknown location leaves the rest of a request empty [`c105_unknown_violated`]; a missing day file
  gives zeros [`c105_missing_violated`]; for ships and buoys nothing is returned [`c105_mobile_violated`].
* C106: `TimeBaseDays::Number` uses local time: in a zone whose offset has grown since 1850 (Berlin, Paris, London from 1968 to 1971)
  day numbers are one too small [`c106_number`, `c106_zone_violated`]; correlation ranges and location tables are not looked for where
  the catalogue puts them [`c106_tables_violated`].
* C107: `number_of_observations` from the file counts breaks with missing likelihood which are not read [`c107_count_violated`]; where
  likelihoods come as masked array with nothing masked, `logical_not(False)` as index adds a dimension and any policy fails
  [`c107_nomask_violated`]; the detection feasibility given for a station (numbered from one) is that of the next station, and for
  the last one reading fails [`c107_feasibility_violated`]; for likelihoods -1 in eight bits `numpy.abs(l-127)` overflows and the kernel
  exceeds one [`c107_negative_violated`]; the C++ reader keeps missing likelihoods [`c107_cpp_missing_violated`], copies 32-bit
  likelihoods into a byte buffer and writes to vectors for which memory was only reserved [`c107_cpp_memory_violated`].
* C108: breaks which are not in order of stations give observations the bias of a later period [`c108_order_violated`]; nothing checks the
  order.  `build_bias_matrix` fails without breaks.
* C109: the local definition of example_eustace.py (and of its variants for few days) gives the biases of ice one parameter although
  observations of the southern hemisphere use a second one; its design fails with an `IndexError` on every day with southern ice
  [`c109_ice_violated`]; model_structure.py has two.  `examples/covariates.json` lacks the parameter `rescale_factor` and has negative
  values whose logarithm is taken [`c109_descriptor_violated`].  Groups of biases with unknown names are left out without notice, and a
  non-stationary definition accepts hyperparameters of any length until its prior is needed.
* C110: `output_grid` (one day) does not limit the ratio of variances to one as `output_grid_batch` does, so that the fraction of
  prior variance it writes may exceed one [`c110_fraction_violated`], and does not close the files of the components.
  `update_time_index` changes the time of a projector and not its state: right for components with one state for all days (the
  climatology and the large scale), wrong for others [`c110_stale_violated`].  `project_sample_deviation` fails without draws where
  `project_sample_std` gives nothing [`c110_samples_violated`]; more blocks than cells divide by zero [`c110_blocks_violated`].  A
  projector which was saved and loaded has its design matrix and no state.  `AnalysisSystem.evaluate_projected_sample` gives the
  draws without the mean, `output_grid` with it.
* C111: `evaluate_constraint_statistic` adds weights of variables without constraint and flags positive sums; negative weights
  (harmonics, covariates below nought) cancel others or hide themselves [`c111_missed_violated`].
* C112: `clean_list_of_outputs_to_merge` compares numbers of primary and ancillary files only, so files of different instruments
  can be merged as one [`c112_mismatch_violated`].  `FilesMerger` has one list of correlations for all days
  [`c112_days_violated`].  A field without missing cells is a plain array in netCDF4 before 1.4, which has no `fill_value`
  [`c112_complete_violated`].
* C113: `replace('_' + label, '')` acts on the whole path; if the name it gives is that of another source, the merged file is written
  over it and then deleted with the sources [`c113_overwrite_violated`].  `check_produced_output` is given strings, for which `in`
  looks for parts [`c113_check_violated`].  A day of no sources in a list of days is reported as mismatching dates
  [`c113_empty_violated`].  ocean.json gives correlation ranges for `unc_corr_tas` and `unc_corr2_tas`, but the variables are called
  `tas_unc_corr_sat` and `tas_unc_corr_mod`, so no output of the ocean has its correlation scales [`c113_ranges_violated`].
* C114: `night_bin_comparison_mask` compares an absolute value with `NIGHT_BIN_MIN` = -20, so it never excludes anything
  [`nightBinMask_false`, `c114_night_violated`].  `temperature_value_mask` looks at the mean temperature only, also when minimum and
  maximum are controlled [`c114_warm_violated`].  Line 70 compares `land_mask.shape` with itself [`c114_shape_violated`].
  `marginal_ice_zone_mask` is not used.
* C115: the uncertainty for clouds is that of the satellite less 0.2 and may be negative [`c115_cloud_violated`]; the totals use its
  square.  Nothing keeps tasmin below tasmax over ice [`c115_order_violated`].
* C116: `process_global` checks that both files have the same step but not that they lie on the same grid; with an offset of less than
  a step the first northern row is written over the last southern one [`c116_alignment_violated`].
* C118: `results[name][:].mask = ...` sets the mask of a temporary slice; if the field has no missing cell there is no array of masks to
  share and nothing is changed, but the cells are counted as removed [`c118_ordered_violated`].
* C119: `run_multiple_days` uses parameters, mask, elevation and vegetation of the first day for all days [`c119_parameters_violated`,
  `c119_parameters_fail_violated`], and a missing snow file is passed as the text MISSING but as null by `run_day`.  The comment of
  `run_day` calls the number of removed cells a percentage.  The pattern for dates takes the leftmost match: a digit before the date
  or a dated directory `20150101_nc` gives another date [`c119_date_violated`, `c119_directory_violated`].  `main` of run_land.py uses
  `args.inpu_day` and `main` of run_ocean.py passes arguments which do not exist (not modelled: both stop with an error).
* C120: the signature is `360 * 10^6 * latitude + 10^6 * longitude`: 0.001 degrees north and 0.36 degrees east of the same point have
  equal signatures and are merged [`c120_apart_violated`].
* C121: values outside the range of 16-bit storage wrap around without an error: an uncertainty of 40 K is read back as negative, a
  temperature of 109.31 K as missing, and an uncertainty of 0.0004 K as zero [`c121_uncertainties_violated`, `c121_low_violated`,
  `c121_small_violated`].
* C122: verification asks for only one of the variables specified: a file with `timebounds` alone passes [`c122_complete_violated`];
  outcomes are kept in the verifier, so that one which is used again reports earlier failures [`c122_reuse_violated`].
* C123: `TASMINUNCERTAINTY` is of 'mimimum' temperatures and the perturbations of minima and maxima are said to be averages
  [`c123_quantity_violated`].
* C125: `get_station_index` gives `None` for an unknown name, and `data[time_index][None] = value` sets the whole row: a sample of an
  unknown station replaces those of all stations at its time [`c125_unknown_violated`].  With shared names all samples go to the last
  station of the name [`c125_shared_violated`].
* C126: `MeasurementTime.__hash__` is the whole day, so that times just before and just after midnight are kept apart although they are
  equal, and `list.index` then puts samples of the second in the row of the first [`c126_midnight_violated`]; equality is not transitive
  and the number of distinct times depends on the order of samples [`c126_order_violated`].
* C127: names are cut off after 32 bytes without an error [`c127_names_violated`].  The description of `get_station_index` says that it is
  one-based; it is zero-based.  Places and elevations of stations are never written although the specification lists them.
* C129: lsf_commandrun_group.sh ends with the status of its last command, or zero after `break`, so that failed local solutions do not
  keep the grid from being produced [`c129_grouped_violated`]; `eustace_optimisation` computes conditions without passing them on
  [`c129_optimisation_violated`]; `eustace_single_iteration` names a job script which does not exist, after having submitted its first
  stage [`c129_single_violated`].
* C130: a stage without operations leaves an empty condition, and stages after it do not wait [`c130_empty_violated`].
* C131: `BatchSpecification` calls `CatalogueReaderNetCDF.quickcount`, which does not exist [`c131_scheduling_violated`];
  `eumopps_cycle_points_required` moreover calls `cyle_points_required`.
* create_rawbinary_files.sh has comments between continued lines, so that arguments after them are lost (not modelled).
* C132: insitu_land.py 151 uses the flags of the whole file instead of those of the day; assigning them to the mask of one day takes the
  first row, so that flags of the first day in the file (for files of a year, the first of January) mask all days
  [`c132_hold_out_violated`].  For a whole file without a list the checks are not done at all [`c132_all_violated`].
* C134: without a list of stations to be held out preparedailyfixed.py 40 passes the adjustment as the third argument, which is the name
  of that list [`c134_adjustment_violated`].
* C135: `numpy.genfromtxt` gives a single record for one line, and -1 for a blank number [`c135_single_violated`,
  `c135_blank_violated`]; float32(0.1) is above a tenth [`c135_pole_violated`].
* C136: `write_day` writes the header before it looks at the observations [`c136_quantity_violated`].
* C138: `MAX_RANGE` limits the region to 50 cells, which are less than 61 km in the row at the pole [`c138_pole_violated`].
* C140: a file which cannot be read is only reported, and the variable which would hold it is unbound afterwards (threshold_check.py
  121-127); the error ends the operation, which is a month [`c140_month_violated`].  The percentiles of a calendar day need this day in
  all years from 1981 to 2010 [`c140_percentile_violated`].  apply_mask.py 297-304 sets names for iterations 4 and 9 only
  [`c140_iteration_violated`] and numbers members anew [`c140_members_violated`].
* C141: `output_grid` writes TAS_CLIMATOLOGY_FRACTION where `output_grid_batch` writes TAS_OBSERVATION_INFLUENCE
  [`c141_output_grid_violated`].
* C139 is about scripts with the same iteration and version. As committed, submit_threshold_flags.sh, submit_masking_window.sh,
  submit_mask_apply.sh and submit_cell_percentile_calculation.sh have ITERATION=4 and version R1400, the others ITERATION=9 and R1413, so
  that they read each other's directories only after editing.
* C146: `--output_grid_name` and the names of the three components have the same default, so the four outputs of a day go to one file
  [`c146_default_violated`].
* C147: `--land_biases` and `--global_biases` have no `type`, so `0` is the text "0", which is true (model_structure.py 321, 359)
  [`c147_switch_violated`].
* C148: only a number of iterations equal to zero is refused (jsonfiller.py) [`c148_empty_violated`]; `check_none` fails for every
  descriptor with gridding because `component_index` stays null [`c148_check_violated`]; `fill_descriptor` calls `fill_output_gridding`
  without its argument [`c148_single_violated`].
* C149: as C63, files found by name (patterns without `%Y` or `%m`) are given without the first day if the period does not begin at
  midnight [`c149_name_violated`]; a day without a file is not refused where missing data is not allowed if another day of the month
  has a file [`c149_missing_day_violated`].
* C152: a month without any observation is stored as `None` and makes every later solution of the component fail, whatever other months
  hold [`c152_empty_month_violated`]; a day with maxima and no minima makes the whole month fail where there are correlated errors
  [`c152_one_missing_violated`], and so does a day without a file of correlation ranges, even when it has no observations
  [`c152_no_ranges_violated`].
* C153: `run_split_states` takes every part but the first for a bias, so the fields of biases over ice and land go to the bias component, whose
  definition has single parameters only; its values over land are then made from the second ice parameter
  [`c153_template_values`, `c153_template_violated`].  Without bias parts each day is refused [`c153_no_bias_violated`], and the template
  passes `component_index`, which the function does not have [`c153_call_violated`].
* C155: `DelayedSpatialComponent` is made with four positional arguments for five, so that `compute_uncertainties` is taken for
  `printstats` and no uncertainties are ever computed [`c155_uncertainties_violated`]; its `compute_sample` and `sample_size` are ignored.
  One day without observations keeps every day from being solved [`c155_empty_day_violated`], and a component which is not linear raises
  `TypeError` [`c155_nonlinear_violated`].
* C156: the merged descriptor is in the order of its files, not `time ordered` as described [`c156_order_violated`]; of two times on one
  day the observations of the first are lost [`c156_same_day_violated`].  Not modelled, read only: `--merge False` counts as true in
  `optimise.py`, as any text does, and `merge_hyperparameters` puts level 3 and `LocalSubRegion` in place of its arguments.
* C158: the option `--face_centre_at_poles` of writenetcdf.py has `type=bool`, so that `False` and `0` switch it on, and files have a rotated mesh where the analysis does not [`c158_option_violated`].  The reader in C++ ignores errors of NetCDF: without the variable of triangles memory outside of a vector is read [`c158_missing_violated`], with too few latitudes points are put on the equator [`c158_short_violated`], and where there are none the first variable is read instead [`c158_latitudes_violated`].  A mesh which was read has no level and cannot be written again [`c158_again_violated`].  Indices are kept in 32 bits, too few for fourteen levels [`c158_fourteen_violated`].
* C160: the generation puts correlation ranges into `{source}/localcorrelationranges/`, but `obscount.py`, `inspectinput.py` and the loader for sources look for them in the base directory: with the files as generated none of these can be used. [`c160_layout_violated`]
* C160: `inspectinput.py` has no entry for `surfaceairmodel_ocean` in its table of fixed locations and looks for a table of ships' locations; the loader has no entry for lakes. [`c160_ocean_violated`, `c160_lake_violated`]
* C160: `obscountsources.py` replaces the results of a source when it is listed a second time. [`c160_repeated_violated`]
* C161: `optimise.py` looks up `ShortScaleSetup` in the module `moving_climatology`, which has imported only the definitions of components from `model_structure`: every job, and the merging, ends with AttributeError before anything is written. [`c161_settings_violated`, `c161_jobs_violated`]
* C161: `merge_hyperparameters` replaces the level and the kind of region it is given by 3 and `LocalSubRegion`; after the regions of another level have been optimised it finds no file. [`c161_level_violated`]
* C161: `--merge False` merges, as any word counts as true. [`c161_false_violated`]
* C161: the name of a region's file does not have the kind of region, so the results for one kind replace those for the other. [`c161_spec_violated`]
* C162: two pixels of 200 K and 350 K in a box have a variance which the packed field `tsvariance` cannot hold; it is stored without complaint and read as another number. [`c162_variance_violated`]
* C162: flags on the command line under which more pixels are valid than are of interest give negative sampling uncertainties, which are read as missing or as large positive numbers. [`c162_sampling_violated`]
* C163: two working copies with different modifications both have the version UNVERSIONED: an operation built by the one is run by the other without a warning. [`c163_unversioned_violated`]
* C163: `build_from_json_file` sets the global flag which allows unversioned code but never resets it: later builds in the same process allow it too. [`c163_sticky_violated`]
* C163: without a program svnversion the option `--allow_unversioned_code` does not help: OSError is not handled. [`c163_no_program_violated`]
* C163: listing an operation with `--justlist` evaluates the tool chain first, and so fails in modified working copies. [`c163_list_violated`]
* C164: `FileBuilderStationData` is given the latitude, longitude and elevation of each station but writes only the names: two sets of stations in different places give the same files.  The specification lists `latitude`, `longitude` and `elevation`, but variables which are missing are not reported, so these files pass (stations.py 48-83, verify.py 88-89).
* C164: `all(meta_value == test_value)` raises `TypeError` when the attribute in the file is text or has another length than the list expected, so the verification of such a file stops without its table of outcomes (verify.py 99-100).
* C164: region names are put in lower case in file names, so regions which differ in capitals only replace the files of each other (stations.py 19-20).
* C165: the descriptor for biases of stations always asks for samples and samples of the prior of the last iteration, which the analysis writes only if its last iteration is gridded (diagnosticfiller.py 133-138, jsonfiller.py 273-276).
* C165: `fill_analysissystem_save_operation` uses the class `eustace.analysis.advanced_standard.examples.StepAnnual`, which is in the module `step` below; its function has no output file and always writes the same path in a scratch directory (diagnosticfiller.py 77, station_bias_model.py 132).
* C165: a negative number of iterations is accepted and gives a descriptor without operations (diagnosticfiller.py 254).
* C166: `extract_station_biases` writes no file, and raises no error, if the analysis has no biases of stations (station_bias_model.py 62-88); if no break reaches the cut value it fails on the maximum of an empty array (99).
* C166: the lines which build and save the grid are outside the test for breaks (station_bias_model.py 86-88): a bias element without breaks fails with an undefined name if it comes first.
* C166: the grid of biases has no rows for stations after the last one with a break, and NaN where the analysis gives zero (station_bias_model.py 99-112).
* C167: a run of text with one character outside ASCII is dropped whole, and text inside nested paragraphs is read twice (parsedoc.py 27-34).
* C167: a missing end marker gives all the rest of the document, a missing start marker nothing, neither an error (parsedoc.py 44-53).
* C167: `read_attributes` loses what follows a second ": " in a value, where `read_variables` keeps it; `read_dimensions` always skips the first paragraph; `read_name_list` reads only the first (specificationreader.py 38-41, 64-65, 83, 101).
* C168: the headings in the contents count as headings too, so that a path named between the contents and the first description is taken for that of the last data set (parsedoc.py 62-67, deliverable_4_3.py 26-30).
* C169: `ObservationStructureSourceConnector` reads `observationsource.filespecs`, which `ObservationSourceHadCRUT4` has not, so that `load_observation_structure` of the HadCRUT4 loader always ends with an AttributeError (observation_structure_source_connector.py 24, inputloader_hadcrut4.py 56-59).
* C169: for a field without a mask only the first box is an observation, and the uncertainties of all others are set to sqrt(0.1); uncertainties without a mask give an IndexError (inputloader_hadcrut4.py 133-154).
* C170: `barycentric_coordinates_spherical` gives NaN at the corners of a triangle, that is at all points of the mesh (geometry.py 44-45, 112-122).
* C170: with `evaluation_method=barycentric_coordinates_spherical`, which its description offers, `locate_vector_hierarchical` goes into a part in which the point is not: halves of the area are not bounded by the great circle through midpoints (locator.py 84-108).
* C170: `triangle_barycentre_subdivide` is right for midpoints in the plane only; the corners of parts are moved onto the sphere (locator.py 202-205, 207-257).
* C171: the constructor of `DelayedSpatialComponent` does not hand `compute_sample` and `sample_size` to its base class, so that neither has an effect (spatialdelayed.py 30-32); projecting a sample of a delayed component needs `state_sample_read`, which spatial storage in memory lacks (spatialdelayed.py 199-215, storage_inmemory.py 78-155).
* C171: a sample of one draw is squeezed to one dimension before it is written, and can then not be added to the table of the analysis (spatialdelayed.py 157-161, analysissystem.py 209-219).
* C171: a nonlinear space-time component without a sample gives one number for each place instead of a table; if the number of places is the number of draws, this is taken for a row (spacetime.py 307-331). With a sample, the nonlinear design is applied to deviations as if they were states.
* C171: `approximated_marginal_std` divides by k instead of k-1, so that the variance is too small by (k-1)/k and zero for the default of one draw (linearsystem.py 111-115).
* C171: the output has ten members, but the default `sample_size` of components is one: IndexError (definitions.py 24, example_eustace.py 304-308).
* C172: right-hand sides in one dimension are handed over by their address without regard to strides (pardisowrapper.py 236-238, 397-401): the solution for a column of a table is that for other numbers.
* C172: with 2^31 entries or more scipy uses indices of 64 bits, which are handed over as if they had 32 (pardisowrapper.py 394-395).
* C172: a matrix with an empty row gives NameError for the undefined `row_col` instead of the message meant (pardisowrapper.py 152).
* C172: `LinearSystemSolution_Cholesky.__del__` looks for `free_memory` in itself instead of in the factor, where it is (linearsystem.py 122-128, pardisowrapper.py 409-415): memory of the library is never released.  Not modelled.
* C173: the minimiser stops after 20 steps (optimize.py 11); whatever it has found by then is dropped and the file has the values at the start, as if these had been found (spatialdelayed.py 264-269).
* C173: a day without any observation in the region is stored as None, and `optimize` ends with AttributeError (spatialdelayed.py 229-230).
* C173: `optimize_component_time` calls `optimize_time_step`, which no class has (optimizationsystem.py 115).  Not modelled.
* C173: `tol` (optimize.py 10) has no effect, as `gtol` is among the options, which scipy prefers.  Not modelled.
* C173: `marginal_variance_Q_inv` with a matrix `A` uses `scipy`, which sparse.py does not import (C187).
* C174: a field in which no cell is missing is loaded as a plain array, and `data.mask` and `data.data.ravel` end with AttributeError (cubemap.py 79-83).
* C174: `run_day`, and both other modules, call ObservationSourceLakeReading with two arguments; it takes one, so that no file can be made for lakes (preparedailyfixed.py 22, 46; lake.py 38).
* C174: the time in a file is only used to select: a file of another day gives an empty file of that day, without an error (cubemap.py 74, preparedailyfixed.py 46-60).
* C174: only the mask of measurements is used; an observation whose uncertainty is missing gets the number beneath the mask (cubemap.py 75-83).
* C174: the table of locations needs minima: none can be made from a file of the ocean, which has means only (preparelocationlookup.py 18).
* C176: `latent_variable_check.py` 65-66 takes two flags from `flags.py` which are there only in comments (42-43): the import ends with AttributeError, so the check cannot be run [`c176_import_violated`].
* C176: the bits in those comments are now those of values too low and too high for their place; with them a poorly constrained climatology would read as too low a temperature [`c176_words_violated`].
* C176: the directory and the iteration asked for are not used for reading: the paths of iteration 9 are written in the code (`latent_variable_check.py` 88-96) [`c176_iteration_violated`].
* C177: `model_ocean_idl.pro` 140-145 takes the lowest temperature of a file as that of missing cells: if every cell has data, the coldest ones still get no air temperature [`c177_coldest_violated`].
* C177: `model_ocean_idl.pro` 561 writes `systematic` a second time where `mat_systematic` (0.1) is meant: the uncertainty of the bias of measurements in place is never in the files [`c177_systematic_violated`].
* C178: `model_land_idl.pro` 571 goes through the models 2 and 1 only: the third, which is read and described in comment and attributes, is never used [`c178_third_violated`].
* C178: uncertainties are written with offset 32.767, scale 0.001 and -32767 for no data: one which rounds to nought is written as no data [`c178_zero_violated`].
* C178: `WHERE` is used without its count: if no cell of the masks is of ice, the last cell of the grid is set as if it were [`c178_last_violated`].
* C179: the procedure `jd` is right for the years 1901 to 2100 and no others [`c179_jd`]; in 1900 the time of the sun and that of the angle of Greenwich differ by a day [`c179_1900_violated`].
* C180: only the outermost longitudes of the first ice mask are checked: a mask with the longitudes the other way round is taken and not turned, and the longitudes of the second are not looked at [`c180_longitudes_violated`]; a mask with no latitude on the grid is not refused, its first row is put in the row of the south pole [`c180_no_match_violated`].
* C181: `date_to_doy` refuses only texts with an odd number of characters, since `AND` goes by bits and a number is true if it is odd: `201003` is taken for 28 February [`c181_refused`, `c181_short_violated`]; the year loses its first digit from 10000 on [`c181_year_violated`].
* C181: `read_asc` does not refuse lines with different numbers of columns if the last divides the whole, and reads across lines [`c181_ragged_violated`]; a header line with a blank before its mark is taken for the labels and the labels for data [`c181_header_violated`].
* C182: `create_rawbinary_files.sh` puts lines of comment inside commands that go on over several lines. A comment ends the command, so `eumopps.catalogue.build` is called without file names, and `buildall_lookups.sh` without a catalogue, where `exit 1` ends the script after the run before was deleted [`c182_commands`, `c182_run_violated`, `c182_never_built_violated`].
* C183: The arrays for the day and the night start at 1 January 2010 and have 366 jobs, though 2010 has 365 days: the last job does 1 January 2011 [`c183_year_violated`].
* C184: If another program removes a directory meanwhile, `ensuredirectory` ends with an error, as `makedirs` does not try again [`c184_removed_violated`].
* C185: `run_ice` refuses outputs that are there, and its writer leaves a partial or a single output when it fails: that day can then never be done again until the file is removed by hand [`c185_retry_violated`].
* C185: `main` of `run_ice` calls `.run()` on `None` and so ends with an AttributeError after every success; `--output_ancillary` may be left out but then nothing is written [`c185_command_violated`].
* C186: Ten scripts of the post-processing test `os.path.exists` and then call `os.makedirs` without a handler, and the jobs of one array share the directories of the years: a job that tests before another makes the directory ends with `OSError` and leaves its month out [`c186_race_violated`, `c186_two_jobs_violated`]. `ensuredirectory` (C184) has no such fault.
* C187: `marginal_variance_Q_inv` with a matrix `A` uses `scipy`, which sparse.py does not import: NameError [`c187_import_violated`].
* C187: With the import its test of the pattern looks at the nonzero entries of `A.T * A`, in which products can cancel: it then accepts and the variances are wrong [`c187_cancel_violated`].
* C188: As committed, the scripts of the post-processing have two versions and iterations, so that calendar check, location flags and masking read what no script writes [`c188_committed_violated`].
* C189: Flagging in place, which the programs allow, is neither safe against failures of hosts nor against adjoining jobs [`c189_in_place_restart_violated`, `c189_in_place_together_violated`].
* C190: The condition on which a script of the post-processing waits is an argument that may be left out: then flags of an earlier run may be used without any error [`c190_no_wait_violated`].
