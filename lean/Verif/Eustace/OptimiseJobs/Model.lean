import Verif.Py
import Verif.Eustace.Insitu.Ocean
import Verif.Eustace.SphereView.Model

/-!
Jobs which optimise the local parameters of one region each, and the merging of what they write.  Models

  /repo/src/eustace/analysis/advanced_standard/examples/submit_optimisation.py
  /repo/src/eustace/analysis/advanced_standard/examples/optimise.py 36-152
  /repo/src/eustace/analysis/advanced_standard/examples/moving_climatology.py (the names which it has)

Files are a table from names to contents.  What the optimisation of a region computes, and what is computed from the contents
of the files which are merged, are parameters (`SphereView.mergeFiles` is the latter).
-/

namespace Verif.Eustace.OptimiseJobs

open Verif

/-- Text, letter by letter. -/
abbrev Text := List Char

/-- `n_operations` (submit_optimisation.py 5-16): `range` of a negative number is empty. -/
def nOperations (level : ℤ) : ℕ := (List.range level.toNat).foldl (fun n _ => n * 4) 20

/-- `str` and `%i` of an integer (submit_optimisation.py 33-41, optimise.py 93, 124, 128). -/
def str (n : ℤ) : Text := if n < 0 then '-' :: Nat.toDigits 10 n.natAbs else Nat.toDigits 10 n.toNat

/-- `' '.join` (submit_optimisation.py 37). -/
def joinSpace : List Text → Text
  | [] => []
  | [w] => w
  | w :: ws => w ++ ' ' :: joinSpace ws

/-- The levels and the kind of regions which are submitted (submit_optimisation.py 22-24). -/
def submittedLevel : ℤ := 7
/-- `neighbourhood_level` (submit_optimisation.py 23). -/
def submittedNeighbourhood : ℤ := 3
/-- `regionspec` (submit_optimisation.py 24). -/
def submittedSpec : Text := "LocalSubRegion".toList

/-- `outdir` (submit_optimisation.py 29), with which `os.path.join` makes the names of files. -/
def outdir : Text := "/work/scratch/cmorice/advanced_standard/optimise/".toList

/-- Names of the files of one job (submit_optimisation.py 33-35), by the ending. -/
def jobName (ending : Text) (region : ℤ) : Text :=
  outdir ++ "optimize.".toList ++ str submittedLevel ++ '.' :: (str submittedNeighbourhood ++ '.' :: (str region ++ ending))

/-- `pycommand` (submit_optimisation.py 37-42). -/
def pycommand (region : ℤ) : Text :=
  joinSpace ["python2.7".toList, "-m eustace.analysis.advanced_standard.examples.optimise".toList,
    "--neighbourhood_level".toList, str submittedNeighbourhood, "--region_index".toList, str region,
    "--regionspec".toList, submittedSpec]

/-- One job: the file which is written for it and the command in the last line of the file (submit_optimisation.py 44-64).
Simplified: the lines before it, which are for the queue and load compilers, are left out. -/
structure Job where
  script : Text
  log : Text
  err : Text
  command : Text

/-- `submit_jobs` (submit_optimisation.py 18-64): the jobs which are submitted, in order. -/
def submitJobs : List Job :=
  (List.range (nOperations submittedNeighbourhood)).map fun r : ℕ =>
    ⟨jobName ".sh".toList r, jobName ".out".toList r, jobName ".err".toList r, pycommand r⟩

/-- The words of a command line without quotes, as the shell separates them. -/
def wordsFrom : Text → Text → List Text
  | word, [] => if word = [] then [] else [word.reverse]
  | word, c :: rest =>
    if c = ' ' then (if word = [] then wordsFrom [] rest else word.reverse :: wordsFrom [] rest) else wordsFrom (c :: word) rest

/-- The words of a command line. -/
def shellWords (line : Text) : List Text := wordsFrom [] line

/-- The arguments of the module which `python2.7 -m` runs: the module's name and the words after it. -/
def moduleArguments (line : Text) : Option (Text × List Text) :=
  match shellWords line with
  | python :: m :: name :: arguments =>
    if python = "python2.7".toList ∧ m = "-m".toList then some (name, arguments) else none
  | _ => none

/-- What `parse_args` gives (optimise.py 137-142); no value of `merge` stands for `False`. -/
structure Args where
  level : ℤ
  region : ℤ
  spec : Text
  merge : Option Text

/-- The default values (optimise.py 138-141). -/
def defaults : Args := ⟨3, 0, "LocalSubRegion".toList, none⟩

/-- A word which argparse takes for an option and not for a value: it begins with a hyphen and is no negative number. -/
def isOption : Text → Bool
  | '-' :: rest => !(rest ≠ [] && rest.all Char.isDigit)
  | _ => false

/-- The kinds of regions (optimise.py 140). -/
def choices : List Text := ["LocalSubRegion".toList, "LocalSuperTriangle".toList]

/-- One option with its value (optimise.py 138-141); argparse ends the program if the value is not right. -/
def setOption (a : Args) (option value : Text) : Except PyErr Args :=
  if isOption value then .error .other
  else if option = "--neighbourhood_level".toList then
    match Insitu.Ocean.intOf value with
    | none => .error .other
    | some n => .ok { a with level := n }
  else if option = "--region_index".toList then
    match Insitu.Ocean.intOf value with
    | none => .error .other
    | some n => .ok { a with region := n }
  else if option = "--regionspec".toList then
    if value ∈ choices then .ok { a with spec := value } else .error .other
  else if option = "--merge".toList then .ok { a with merge := some value }
  else .error .other

/-- `parser.parse_args` (optimise.py 142).  Simplified: options are given by their whole name, and the value is a word of its
own. -/
def parseArgs : Args → List Text → Except PyErr Args
  | a, [] => .ok a
  | _, [_] => .error .other
  | a, option :: value :: rest =>
    match setOption a option value with
    | .error e => .error e
    | .ok b => parseArgs b rest

/-- The names of the module `moving_climatology` which its imports and definitions make (moving_climatology.py 2-41 and the
`def`, `class` lines after them).  The classes of settings are not among them. -/
def climatologyNames : List String :=
  ["os", "psutil", "sys", "ComponentStorage_InMemory", "AnalysisSystem", "definitions", "get_revision_id_for_module",
   "ClimatologyDefinition", "LargeScaleDefinition", "LocalDefinition", "NonStationaryLocalDefinition", "BiasElement",
   "InsituLandBiasElement", "SpatialComponent", "SpaceTimeComponent", "ObservationSource", "datetime_to_decimal_year",
   "datetime", "relativedelta", "rrule", "MONTHLY", "eustace", "numpy", "copy", "OutputRectilinearGridStructure",
   "FileBuilderGlobalField", "AnalysisSystemInputLoaderRawBinary_OneDay", "ObservationSourceMissing", "TimeBaseDays",
   "datetime_numeric", "AnalysisSystem_EUSTACE", "process_inputs", "process_inputs_batch", "solve", "measurement_merge",
   "output_grid", "output_grid_batch", "early_look_grid_batch", "output_homog"]

/-- `moving_climatology.ShortScaleSetup().local_settings.n_triangulation_divisions` (optimise.py 92-93, 113-114;
model_structure.py 210-225), for a module with the given names. -/
def divisions (names : List String) : Except PyErr ℤ :=
  if "ShortScaleSetup" ∈ names then .ok 7 else .error .attributeError

/-- The directory of the results (optimise.py 90, 122). -/
def resultDir : Text := "/work/scratch/cmorice/advanced_standard/local_optimisation/".toList

/-- The file of one region (optimise.py 93, 128). -/
def regionFile (divisions level region : ℤ) : Text :=
  resultDir ++ "regional_hyperparameters.".toList ++ (str divisions ++ '.' :: (str level ++ '.' :: (str region ++ ".npy".toList)))

/-- The file of all regions (optimise.py 124). -/
def mergedFile (divisions level : ℤ) : Text :=
  resultDir ++ "regional_hyperparameters.".toList ++ (str divisions ++ '.' :: (str level ++ ".npy".toList))

/-- Files, by name. -/
abbrev Disk (α : Type) := Text → Option α

/-- A file is written. -/
def Disk.write {α : Type} (d : Disk α) (name : Text) (a : α) : Disk α := fun n => if n = name then some a else d n

variable {α : Type}

/-- `local_optimisation` (optimise.py 36-107).  `fit` is what `optimize_region` finds for a region, or the error with which it
ends.  Simplified: the files which are read before the settings are looked up are there. -/
def localOptimisation (names : List String) (fit : ℤ → ℤ → Text → Except PyErr α) (a : Args) (d : Disk α) : Except PyErr (Disk α) :=
  match divisions names with
  | .error e => .error e
  | .ok n =>
    match fit a.level a.region a.spec with
    | .error e => .error e
    | .ok theta => .ok (d.write (regionFile n a.level a.region) theta)

/-- `merge_hyperparameters` (optimise.py 109-131): both arguments are replaced.  `combine` is what
`merge_local_parameterisations` makes from the contents of the files, `none` for a file which is not there. -/
def mergeHyperparameters (names : List String) (combine : ℤ → ℤ → List (Option α) → Except PyErr α) (_level : ℤ) (_spec : Text)
    (d : Disk α) : Except PyErr (Disk α) :=
  match divisions names with
  | .error e => .error e
  | .ok n =>
    match combine n 3 ((List.range (nOperations 3)).map fun r : ℕ => d (regionFile n 3 r)) with
    | .error e => .error e
    | .ok merged => .ok (d.write (mergedFile n 3) merged)

/-- Whether `args.merge` counts as true (optimise.py 149). -/
def Args.merges (a : Args) : Bool :=
  match a.merge with
  | none => false
  | some t => t ≠ []

/-- `parse_and_run` (optimise.py 135-152): the files afterwards. -/
def parseAndRun (names : List String) (fit : ℤ → ℤ → Text → Except PyErr α) (combine : ℤ → ℤ → List (Option α) → Except PyErr α)
    (arguments : List Text) (d : Disk α) : Except PyErr (Disk α) :=
  match parseArgs defaults arguments with
  | .error e => .error e
  | .ok a => if a.merges then mergeHyperparameters names combine a.level a.spec d else localOptimisation names fit a d

/-- A job is run: one which fails leaves the files as they are. -/
def runCommand (names : List String) (fit : ℤ → ℤ → Text → Except PyErr α) (combine : ℤ → ℤ → List (Option α) → Except PyErr α)
    (command : Text) (d : Disk α) : Disk α :=
  match moduleArguments command with
  | none => d
  | some (_, arguments) =>
    match parseAndRun names fit combine arguments d with
    | .error _ => d
    | .ok d' => d'

/-- Jobs are run one after the other, in the order in which the queue takes them.  Simplified: jobs which run at the same time
do not disturb each other, as they read nothing that another writes. -/
def runJobs (names : List String) (fit : ℤ → ℤ → Text → Except PyErr α) (combine : ℤ → ℤ → List (Option α) → Except PyErr α)
    (commands : List Text) (d : Disk α) : Disk α :=
  commands.foldl (fun d c => runCommand names fit combine c d) d

/-- What a file of the results holds: the two values of a region, or those of every point. -/
inductive Content (N : ℕ) where
  | region (theta : Linear.Vec 2)
  | merged (logSigma logRho : Fin N → Option ℝ)

/-- The contents of the files of regions (example_optimization.py 252-256): a file which is not there is passed over, and one
with another number of values is refused. -/
def regionContents {N : ℕ} : List (Option (Content N)) → Except PyErr (List (Option (Linear.Vec 2)))
  | [] => .ok []
  | none :: l => (regionContents l).map (none :: ·)
  | some (.region theta) :: l => (regionContents l).map (some theta :: ·)
  | some (.merged _ _) :: _ => .error .valueError

/-- `merge_local_parameterisations` for files of the results (example_optimization.py 242-281), on the mesh of the given
division. -/
noncomputable def combineFiles (srt : Mesh.Argsort) (L : ℕ) (_ level : ℤ)
    (files : List (Option (Content (Locator.sphereMesh srt L).points.length))) :
    Except PyErr (Content (Locator.sphereMesh srt L).points.length) :=
  match regionContents files with
  | .error e => .error e
  | .ok l =>
    match SphereView.mergeFiles (Locator.sphereMesh srt L) level.toNat l with
    | .error e => .error e
    | .ok r => .ok (.merged r.1 r.2)

end Verif.Eustace.OptimiseJobs
