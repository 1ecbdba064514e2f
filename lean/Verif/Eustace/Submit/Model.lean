import Verif.Eumopps.Run.Model
import Verif.Py
import Mathlib.Data.Rat.Floor
import Mathlib.Tactic.Ring
import Mathlib.Tactic.Linarith

/-! Model of the submission of catalogue operations to a batch system: in `/repo/src/roses/fullstace/advanced_standard/`
lsf_submission.py, lsf_submission_group.py, runlsf.sh, runlsf_solver.sh, runlsf_iterations.sh, the job scripts
lsf_commandrun*.sh, in `/repo/src/roses/fullstace/rawbinary/` runlsf_rawbinary.sh and runlsf_locationpointers.sh with their job scripts,
in `/repo/src/roses/satstace/` suite.rc with its filters, and `/repo/src/eumopps/catalogue/jinja/`.  The suite example_eustace_suite is in
`/repo/src/eustace/analysis/advanced_standard/examples/`.

Texts are lists of characters.  The batch system itself (LSF) is not modelled here: `Answer` is what it replies. -/
namespace Verif.Eustace.Submit
open Verif Verif.Eumopps.Run

abbrev Text := List Char

/-- What the submitted job script does: run one operation (lsf_commandrun.sh, _tall, _solver*, lsf_rawbinary.sh) or a group of
them (lsf_commandrun_group.sh). -/
inductive Script where
  | single
  | group
  deriving DecidableEq, Repr

/-- The job scripts in the directory roses/fullstace/advanced_standard by name. -/
def scriptNamed (name : String) : Option Script :=
  if name = "lsf_commandrun_group.sh" then some .group
  else if name = "lsf_commandrun.sh" ∨ name = "lsf_commandrun_tall.sh" ∨ name = "lsf_commandrun_solver.sh" ∨
      name = "lsf_commandrun_solver_climatology.sh" ∨ name = "lsf_commandrun_solver_large_scale.sh" ∨
      name = "lsf_commandrun_solver_large_scale_high_memory.sh" then some .single
  else none

/-- One call of `bsub`: the job array `module_batch[first-last]`, the condition given with -w (empty if none), the script and the
environment variables which it reads (lsf_submission.py 86-109, lsf_submission_group.py 191-216).  The text of the array is represented
by its two numbers. -/
structure Submission where
  script : Script
  module : String
  first : ℤ
  last : ℤ
  batchsize : ℤ
  batchnumber : ℤ
  njobs : ℤ
  ntasks : ℤ
  wait : Text
  deriving DecidableEq, Repr

/-- Reply to one call of `bsub`: the return code and what was printed. -/
structure Answer where
  status : ℤ
  out : Text
  deriving DecidableEq, Repr

/-- `done_conditon` (lsf_submission.py 22-32). -/
def doneCondition (ids : List Text) : Text :=
  [' ', '&', '&', ' '].intercalate (ids.map fun i => ['d', 'o', 'n', 'e', '('] ++ i ++ [')'])

/-- `[0-9]` in a regular expression. -/
def isDigit (c : Char) : Bool := decide ('0' ≤ c) && decide (c ≤ '9')

/-- The regular expression `<([0-9]+)>` at the beginning of a text. -/
def idHere : Text → Option Text
  | '<' :: r =>
    if r.takeWhile isDigit ≠ [] ∧ (r.dropWhile isDigit).head? = some '>' then some (r.takeWhile isDigit) else none
  | _ => none

/-- `re.compile('<([0-9]+)>').search(procout).group(1)` (lsf_submission.py 122); `none` stands for no match. -/
def searchId : Text → Option Text
  | [] => none
  | c :: r => match idHere (c :: r) with
    | some d => some d
    | none => searchId r

/-- `run_cmd` and the use of its results (lsf_submission.py 34-49, 111-124): the script is opened, the job is submitted and its
identifier found in the reply.  What has been submitted is kept when an exception is raised. -/
def bsub (answers : ℕ → Answer) (log : List Submission) (s : Submission) : List Submission × Except PyErr Text :=
  if (answers log.length).status ≠ 0 then (log, .error .runtimeError)
  else match searchId (answers log.length).out with
    | none => (log ++ [s], .error .attributeError)
    | some i => (log ++ [s], .ok i)

/-- The loop over batches in `submit_eumopps_jobs` (lsf_submission.py 72-130).  `done` counts the tasks submitted. -/
def batchLoop (answers : ℕ → Answer) (script : Script) (m : String) (w : Text) (size count batches : ℤ) :
    List ℕ → ℤ → List Text → List Submission → List Submission × Except PyErr (List Text)
  | [], _, ids, log => (log, .ok ids)
  | b :: bs, sofar, ids, log =>
    let tasks := if (b : ℤ) = batches - 1 then count - sofar else size
    let start := sofar + 1
    match bsub answers log ⟨script, m, start, start + tasks - 1, size, b, 0, 0, w⟩ with
    | (log', .error e) => (log', .error e)
    | (log', .ok i) => batchLoop answers script m w size count batches bs (sofar + tasks) (ids ++ [i]) log'

/-- `submit_eumopps_jobs` (lsf_submission.py 52-130; the same in lsf_submission_group.py 56-134).  A script which does not exist is an
IOError at the first batch (37). -/
def submitJobs (ops : List StoredOp) (answers : ℕ → Answer) (log : List Submission) (m : String) (w : Text) (script : String)
    (size : ℕ) : List Submission × Except PyErr (List Text) :=
  match operationcount ops m 1 with
  | .error e => (log, .error e)
  | .ok count =>
    match operationcount ops m size with
    | .error e => (log, .error e)
    | .ok batches =>
      if count = 0 then (log, .error .valueError)
      else match scriptNamed script with
        | none => (log, .error .other)
        | some k => batchLoop answers k m w size count batches (List.range batches) 0 [] log

/-- The loop over batches in `submit_eumopps_jobs_grouped` (lsf_submission_group.py 173-241). -/
def groupLoop (answers : ℕ → Answer) (script : Script) (m : String) (w : Text) (size njobs ntasks jobcount batches : ℤ) :
    List ℕ → ℤ → List Text → List Submission → List Submission × Except PyErr (List Text)
  | [], _, ids, log => (log, .ok ids)
  | b :: bs, sofar, ids, log =>
    let jobs := if (b : ℤ) = batches - 1 then jobcount - sofar else njobs
    let start := sofar + 1
    match bsub answers log ⟨script, m, start, start + jobs - 1, size, b, njobs, ntasks, w⟩ with
    | (log', .error e) => (log', .error e)
    | (log', .ok i) => groupLoop answers script m w size njobs ntasks jobcount batches bs (sofar + jobs) (ids ++ [i]) log'

/-- `submit_eumopps_jobs_grouped` (lsf_submission_group.py 137-241). -/
def submitGrouped (ops : List StoredOp) (answers : ℕ → Answer) (log : List Submission) (m : String) (w : Text) (script : String)
    (njobs ntasks : ℕ) : List Submission × Except PyErr (List Text) :=
  match operationcount ops m 1 with
  | .error e => (log, .error e)
  | .ok count =>
    match operationcount ops m (ntasks * njobs) with
    | .error e => (log, .error e)
    | .ok batches =>
      match operationcount ops m ntasks with
      | .error e => (log, .error e)
      | .ok jobcount =>
        if count = 0 then (log, .error .valueError)
        else match scriptNamed script with
          | none => (log, .error .other)
          | some k =>
            groupLoop answers k m w ((ntasks * njobs : ℕ) : ℤ) njobs ntasks jobcount batches (List.range batches) 0 [] log

/-! ### Stages -/

/-- One call of a submission function: the name of the module, the script, and whether operations are grouped. -/
structure Stage where
  module : String
  script : String
  grouped : Bool
  deriving DecidableEq, Repr

/-- Submission of one stage with the default sizes: 366 operations per batch (lsf_submission.py 52), or 100 jobs of 20 operations
(lsf_submission_group.py 137). -/
def submitStage (ops : List StoredOp) (answers : ℕ → Answer) (log : List Submission) (w : Text) (s : Stage) :
    List Submission × Except PyErr (List Text) :=
  if s.grouped then submitGrouped ops answers log s.module w s.script 100 20
  else submitJobs ops answers log s.module w s.script 366

/-- Submission of stages one after another, each with the condition that the jobs of the one before are done
(`job_ids = submit...; wait_options = done_conditon(job_ids)`, lsf_submission.py 208-241). -/
def chain (ops : List StoredOp) (answers : ℕ → Answer) : List Stage → Text → List Submission →
    List Submission × Except PyErr Text
  | [], w, log => (log, .ok w)
  | s :: ss, w, log =>
    match submitStage ops answers log w s with
    | (log', .error e) => (log', .error e)
    | (log', .ok ids) => chain ops answers ss (doneCondition ids) log'

/-- The options of `eustace_iteration` (lsf_submission.py 191-201). -/
structure Options where
  climatologyInput : Bool
  climatologySolve : Bool
  largeScaleInput : Bool
  largeScaleSolve : Bool
  localInputAndSolve : Bool
  gridOutput : Bool
  priorSample : Bool
  localHyperparameters : Bool
  deriving DecidableEq, Repr

/-- The calls made by `eustace_iteration`, in order (lsf_submission.py 207-241; lsf_submission_group.py 318-351 with `grouped`).  The
script of the local stage is lsf_commandrun.sh, or lsf_commandrun_group.sh if grouped. -/
def iterationStages (grouped : Bool) (o : Options) (i : ℕ) : List Stage :=
  (if o.climatologyInput then [⟨"climatology_input_" ++ toString i, "lsf_commandrun_tall.sh", false⟩] else []) ++
  (if o.climatologySolve then
    ⟨"climatology_solve_" ++ toString i, "lsf_commandrun_solver_climatology.sh", false⟩ ::
    (if o.priorSample then
      [⟨"climatology_solve_prior_sample_" ++ toString i, "lsf_commandrun_solver_climatology.sh", false⟩] else [])
  else []) ++
  (if o.largeScaleInput then [⟨"large_scale_input_" ++ toString i, "lsf_commandrun_tall.sh", false⟩] else []) ++
  (if o.largeScaleSolve then
    ⟨"large_scale_solve_" ++ toString i, "lsf_commandrun_solver_large_scale_high_memory.sh", false⟩ ::
    (if o.priorSample then
      [⟨"large_scale_solve_prior_sample_" ++ toString i, "lsf_commandrun_solver_large_scale_high_memory.sh", false⟩] else [])
  else []) ++
  (if o.localInputAndSolve then
    [⟨(if o.localHyperparameters then "nonstationary_local_input_and_solve_" else "local_input_and_solve_") ++ toString i,
      (if grouped then "lsf_commandrun_group.sh" else "lsf_commandrun.sh"), grouped⟩] else []) ++
  (if o.gridOutput then [⟨"output_grid_" ++ toString i, "lsf_commandrun_tall.sh", false⟩] else [])

/-- `eustace_iteration`. -/
def iteration (ops : List StoredOp) (answers : ℕ → Answer) (grouped : Bool) (o : Options) (i : ℕ) (w : Text)
    (log : List Submission) : List Submission × Except PyErr Text :=
  chain ops answers (iterationStages grouped o i) w log

/-- The loop over iterations in `eustace_multi_iteration` (lsf_submission.py 167-189): output and samples of the prior are produced in
the final iteration only; `local_hyperparameters` is not passed on. -/
def iterationsLoop (ops : List StoredOp) (answers : ℕ → Answer) (grouped : Bool) (o : Options) (final : ℕ) :
    List ℕ → Text → List Submission → List Submission × Except PyErr Text
  | [], w, log => (log, .ok w)
  | i :: is, w, log =>
    match iteration ops answers grouped
        { o with gridOutput := decide (i = final) && o.gridOutput, priorSample := decide (i = final), localHyperparameters := false }
        i w log with
    | (log', .error e) => (log', .error e)
    | (log', .ok w') => iterationsLoop ops answers grouped o final is w' log'

/-- `eustace_multi_iteration` (lsf_submission.py 155-189).  Iteration numbers are natural numbers. -/
def multiIteration (ops : List StoredOp) (answers : ℕ → Answer) (grouped : Bool) (o : Options) (first last final : ℕ) (w : Text)
    (log : List Submission) : List Submission × Except PyErr Text :=
  iterationsLoop ops answers grouped o final ((List.range (last + 1 - first)).map (first + ·)) w log

/-- The modules of `eustace_single_iteration` with their scripts (lsf_submission.py 132-153). -/
def singleIteration (ops : List StoredOp) (answers : ℕ → Answer) (log : List Submission) : List Submission × Except PyErr Text :=
  chain ops answers
    [⟨"climatology_input", "lsf_commandrun.sh", false⟩, ⟨"climatology_solve", "lsf_commandrun_solver_testing.sh", false⟩,
     ⟨"large_scale_input", "lsf_commandrun.sh", false⟩, ⟨"large_scale_solve", "lsf_commandrun_solver_testing.sh", false⟩,
     ⟨"local_input_and_solve", "lsf_commandrun.sh", false⟩, ⟨"output_grid", "lsf_commandrun.sh", false⟩] [] log

/-- Submission of stages one after another, none of them waiting (`eustace_optimisation`, lsf_submission.py 257-280: the condition is
computed after each call but not passed to the next). -/
def unchained (ops : List StoredOp) (answers : ℕ → Answer) : List Stage → Text → List Submission →
    List Submission × Except PyErr Text
  | [], w, log => (log, .ok w)
  | s :: ss, _, log =>
    match submitStage ops answers log [] s with
    | (log', .error e) => (log', .error e)
    | (log', .ok ids) => unchained ops answers ss (doneCondition ids) log'

/-- `eustace_optimisation` (lsf_submission.py 257-280). -/
def optimisation (ops : List StoredOp) (answers : ℕ → Answer) (iter : Option ℕ) (w : Text) (log : List Submission) :
    List Submission × Except PyErr Text :=
  let suffix := match iter with
    | none => ""
    | some i => "_" ++ toString i
  unchained ops answers
    [⟨"split_local_component" ++ suffix, "lsf_commandrun.sh", false⟩, ⟨"input_summaries_create" ++ suffix, "lsf_commandrun.sh", false⟩,
     ⟨"input_summaries_merge" ++ suffix, "lsf_commandrun.sh", false⟩] w log

/-! ### Submission by shell scripts -/

/-- `sed -r "s/Job <([0-9]*)>.*/\1/"` at the beginning of a line (runlsf.sh 70). -/
def jobHere : Text → Option Text
  | 'J' :: 'o' :: 'b' :: ' ' :: '<' :: r =>
    if (r.dropWhile isDigit).head? = some '>' then some (r.takeWhile isDigit) else none
  | _ => none

/-- The substitution anywhere in a line: what is before the match is kept (runlsf.sh 70).  Simplified: the reply is one line. -/
def sedId : Text → Text
  | [] => []
  | c :: r => match jobHere (c :: r) with
    | some d => d
    | none => c :: sedId r

/-- Extension of the condition by one job (runlsf.sh 74-78). -/
def extendCondition (c i : Text) : Text :=
  if c ≠ [] then c ++ [' ', '&', '&', ' ', 'd', 'o', 'n', 'e', '('] ++ i ++ [')'] else ['d', 'o', 'n', 'e', '('] ++ i ++ [')']

/-- The last index of an array which begins at `start` (runlsf.sh 51-55, runlsf_solver.sh 44). -/
def arrayEnd (start size : ℤ) : Option ℤ → ℤ
  | none => start - 1 + size
  | some l => if start - 1 + size > l then l else start - 1 + size

/-- The loop of runlsf.sh (46-80), which limits the last batch to the number of operations, and of runlsf_solver.sh (39-70), which does
not.  A job which is not submitted gives an empty reply, and the script goes on. -/
def shellLoop (answers : ℕ → Answer) (m : String) (w : Text) (size : ℤ) (limit : Option ℤ) :
    List ℕ → Text → ℕ → List Submission → List Submission × Text
  | [], c, _, log => (log, c)
  | b :: bs, c, n, log =>
    let start := 1 + (b : ℤ) * size
    let log' := if (answers n).status ≠ 0 then log else log ++ [⟨.single, m, start, arrayEnd start size limit, size, b, 0, 0, w⟩]
    let reply := if (answers n).status ≠ 0 then [] else (answers n).out
    shellLoop answers m w size limit bs (extendCondition c (sedId reply)) (n + 1) log'

/-- The number printed by `eumopps.catalogue.commandcount`, where a failed program prints nothing, which bash arithmetic takes for 0
(commandcount.py 8-21; runlsf.sh 31). -/
def printedCount (ops : List StoredOp) (m : String) (size : ℕ) : ℕ :=
  match operationcount ops m size with
  | .ok n => n
  | .error _ => 0

/-- `runlsf.sh` (1-83) with its batch size 366: the number of batches is computed in bash. -/
def runlsf (ops : List StoredOp) (answers : ℕ → Answer) (m : String) (w : Text) (size n : ℕ) (log : List Submission) :
    List Submission × Text :=
  let count := printedCount ops m 1
  let batches := if count % size > 0 then count / size + 1 else count / size
  shellLoop answers m w size (some count) (List.range batches) [] n log

/-- `runlsf_solver.sh` (1-73): batches of one operation. -/
def runlsfSolver (ops : List StoredOp) (answers : ℕ → Answer) (m : String) (w : Text) (n : ℕ) (log : List Submission) :
    List Submission × Text :=
  shellLoop answers m w 1 none (List.range (printedCount ops m 1)) [] n log

/-- `runlsf_rawbinary.sh` (9-52; diagnosticgrid/runlsf.sh 27-51 and example_eustace_suite/runlsf.sh 20-43 are alike): the last batch is as
long as the others.  Nothing is done with the replies. -/
def runlsfWhole (ops : List StoredOp) (answers : ℕ → Answer) (m : String) (w : Text) (size n : ℕ) (log : List Submission) :
    List Submission :=
  (shellLoop answers m w size none (List.range (printedCount ops m size)) [] n log).1

/-- The stages of `runlsf_iterations.sh` (28-40): name, and whether it is run by runlsf_solver.sh. -/
def shellStages (first last : ℕ) : List (String × Bool) :=
  ((List.range (last + 1 - first)).map (first + ·)).flatMap (fun i =>
    [("climatology_input_" ++ toString i, false), ("climatology_solve_" ++ toString i, true),
     ("large_scale_input_" ++ toString i, false), ("large_scale_solve_" ++ toString i, true),
     ("local_input_and_solve_" ++ toString i, false)]) ++ [("output_grid", false)]

/-- `runlsf_iterations.sh` (28-40): every stage is given the condition made by the one before (the scripts are sourced, so that the
variable is shared).  The number of calls of `bsub` is not the number of submissions if some fail; here the replies are numbered by
submissions. -/
def shellChain (ops : List StoredOp) (answers : ℕ → Answer) : List (String × Bool) → Text → List Submission →
    List Submission × Text
  | [], w, log => (log, w)
  | s :: ss, w, log =>
    let r := if s.2 then runlsfSolver ops answers s.1 w log.length log else runlsf ops answers s.1 w 366 log.length log
    shellChain ops answers ss r.2 r.1

/-! ### Jobs -/

/-- The arguments which lsf_commandrun.sh gives to commandrun.py (12-13, 19): position within the batch, size and number of the batch.
`%` in bash is the remainder of division towards zero. -/
def singleCommand (s : Submission) (jobindex : ℤ) : ℤ × ℤ × ℤ := ((jobindex - 1).tmod s.batchsize, s.batchsize, s.batchnumber)

/-- The loop of lsf_commandrun_group.sh (22-38): the positions within the batch, until the number of operations is reached. -/
def groupCommands (s : Submission) (count jobindex : ℤ) : List ℕ → List (ℤ × ℤ × ℤ)
  | [] => []
  | t :: ts =>
    let inner := (jobindex - 1).tmod s.njobs * s.ntasks + (t : ℤ)
    if s.batchnumber * s.batchsize + inner ≥ count then []
    else (inner, s.batchsize, s.batchnumber) :: groupCommands s count jobindex ts

/-- The calls of commandrun.py made by one element of a job array, in order (lsf_commandrun.sh 12-19, lsf_commandrun_group.sh 12-38). -/
def commands (ops : List StoredOp) (s : Submission) (jobindex : ℤ) : List (ℤ × ℤ × ℤ) :=
  match s.script with
  | .single => [singleCommand s jobindex]
  | .group => groupCommands s (printedCount ops s.module 1) jobindex (List.range s.ntasks.toNat)

/-- The status with which the script of an element ends, given whether each of its commands succeeded (`true`): that of the last
command executed.  After `break` the status is 0, so that in lsf_commandrun_group.sh (29-31) a group which is cut short succeeds;
`full` tells that it was not. -/
def exitOk (s : Submission) (full : Bool) (outcomes : List Bool) : Bool :=
  match s.script with
  | .single => outcomes.getLast?.getD true
  | .group => if full then outcomes.getLast?.getD true else true

/-- Whether the loop of lsf_commandrun_group.sh ran to its end. -/
def ranFull (ops : List StoredOp) (s : Submission) (jobindex : ℤ) : Bool :=
  decide ((commands ops s jobindex).length = s.ntasks.toNat)

/-- The indices of a job array `name[first-last]`. -/
def elements (s : Submission) : List ℤ :=
  (List.range (s.last + 1 - s.first).toNat).map fun i : ℕ => s.first + (i : ℤ)

/-- The files to which the output of the commands of an element goes, as batch number and names below it
(lsf_commandrun.sh 14-17: the position; lsf_commandrun_group.sh 19, 33-34: the job and the task). -/
def outputFiles (ops : List StoredOp) (s : Submission) (jobindex : ℤ) : List (String × ℤ × List ℤ) :=
  match s.script with
  | .single => [(s.module, s.batchnumber, [(jobindex - 1).tmod s.batchsize])]
  | .group => (List.range (commands ops s jobindex).length).map fun t : ℕ => (s.module, s.batchnumber, [jobindex - 1, (t : ℤ)])

/-! ### Suites of the workflow engine cylc -/

/-- `roundup` of a quotient (Jinja2Filters/roundup.py 9-12; division in Jinja2 is true division). -/
def roundup (n d : ℕ) : ℤ := ⌈(n : ℚ) / d⌉

/-- The command numbers run in suite.rc (roses/satstace/suite.rc 25, 58-64): cycle points 0 to `roundup(count / chunk)`, in each of
them the subtasks 0 to `chunk - 1`; numbers which are not less than the count do nothing. -/
def suiteCommands (count chunk : ℕ) : List ℕ :=
  (List.range ((roundup count chunk).toNat + 1)).flatMap fun c : ℕ =>
    ((List.range chunk).map fun t : ℕ => c * chunk + t).filter fun k => decide (k < count)

/-- Last cycle point of the suite: the largest number of chunks (suite.rc 11, 22). -/
def suiteFinal (counts : List ℕ) (chunk : ℕ) : ℤ := roundup (counts.foldl max 0) chunk

/-- `BatchSpecification.cycle_points_required` (batches.py 22-25): the catalogue reader has no method `quickcount`
(formatnetcdf.py 18-120). -/
def cyclePointsRequired (_ops : List StoredOp) (_m : String) (_size : ℕ) : Except PyErr ℕ := .error .attributeError

/-- `BatchSpecification.scheduling` (batches.py 27-30). -/
def scheduling (ops : List StoredOp) (m : String) (size : ℕ) : Except PyErr String :=
  match cyclePointsRequired ops m size with
  | .error e => .error e
  | .ok n => .ok ("R/P1/" ++ toString ((n : ℤ) - 1))

/-- `BatchSpecificationCollection.final_cycle_point` (batches.py 70-83): `max` of an empty list is a ValueError. -/
def finalCyclePoint (ops : List StoredOp) (specs : List (String × ℕ)) : Except PyErr ℤ :=
  match specs.mapM (fun s => cyclePointsRequired ops s.1 s.2) with
  | .error e => .error e
  | .ok [] => .error .valueError
  | .ok (n :: ns) => .ok ((ns.foldl max n : ℕ) - 1)

end Verif.Eustace.Submit
