import Verif.Eustace.FlagJobs.Model

/-! Model of the arrays of jobs of all stages of the post-processing, as
src/eustace/postprocess/lsf/submit_*.sh submit them: each stage makes a file
for each day in its own directory from files in the directories of other stages, and waits
for those which it is told to wait for (`-w`, for example
src/eustace/postprocess/lsf/submit_merge_flag_files.sh:45, 71).

Simplified as in `FlagJobs`; the files which are read besides flags (the
analysis) do not change and belong to the check; every stage has one file for
each number (the percentiles have one for each latitude). -/

namespace Verif.Eustace.FlagStages
open Verif.Eustace.FlagJobs

/-- The files of all directories by number of the day. -/
abbrev Tree (D F : Type) := D → Nat → Entry F

/-- What is submitted: for each stage the directory which it writes, what it
makes of a day, for which stages it waits, and the days of its jobs
(src/eustace/postprocess/lsf/submit_merge_flag_files.sh:37-71). -/
structure Plan (D K F : Type) where
  dst : K → D
  check : K → Tree D F → Nat → Option F
  waits : K → List K
  count : K → Nat
  days : K → Nat → List Nat

structure State (D K F : Type) where
  files : Tree D F
  jobs : K → Nat → Job F

variable {D K F : Type} [DecidableEq D] [DecidableEq K]

/-- What is written to one file (src/eustace/postprocess/merge_flag_files.py:77-79). -/
def put (fs : Tree D F) (p : D) (d : Nat) (e : Entry F) : Tree D F :=
  fun q n => if q = p ∧ n = d then e else fs q n

/-- One step of a job, as in `FlagJobs.stepJob`
(src/eustace/postprocess/merge_flag_files.py:69-79, apply_mask.py:117-153). -/
def stepJob (P : Plan D K F) (k : K) (fs : Tree D F) (j : Job F) : Tree D F × Job F :=
  if j.failed then (fs, j)
  else match j.todo with
    | [] => (fs, j)
    | d :: rest =>
      match j.writing with
      | some f => (put fs (P.dst k) d (.full f), { j with todo := rest, writing := none })
      | none =>
        match P.check k fs d with
        | none => (fs, { j with failed := true })
        | some f => (put fs (P.dst k) d .part, { j with writing := some f })

/-- The condition `done(...) && ...` of a stage: all jobs of the stages for
which it waits have ended without an error
(src/eustace/postprocess/lsf/submit_merge_flag_files.sh:71, 84-88). -/
def released (P : Plan D K F) (s : State D K F) (k : K) : Bool :=
  (P.waits k).all fun j => (List.range (P.count j)).all fun i => (s.jobs j i).todo.isEmpty

/-- A job does a step, or its host fails. -/
inductive Event (K : Type)
  | own (k : K) (i : Nat)
  | restart (k : K) (i : Nat)

/-- The state of one job is replaced. -/
def setJob (jobs : K → Nat → Job F) (k : K) (i : Nat) (j : Job F) : K → Nat → Job F :=
  fun k' i' => if k' = k ∧ i' = i then j else jobs k' i'

/-- One event: jobs do nothing before the condition of their stage is met
(src/eustace/postprocess/lsf/submit_merge_flag_files.sh:71). -/
def step (P : Plan D K F) (s : State D K F) : Event K → State D K F
  | .own k i =>
    if released P s k ∧ i < P.count k then
      ⟨(stepJob P k s.files (s.jobs k i)).1, setJob s.jobs k i (stepJob P k s.files (s.jobs k i)).2⟩
    else s
  | .restart k i => { s with jobs := setJob s.jobs k i (restartJob (s.jobs k i)) }

/-- A sequence of events (src/eustace/postprocess/lsf/submit_merge_flag_files.sh:71). -/
def run (P : Plan D K F) (s : State D K F) : List (Event K) → State D K F
  | [] => s
  | e :: es => run P (step P s e) es

/-- All has been submitted, nothing has run
(src/eustace/postprocess/lsf/submit_merge_flag_files.sh:71). -/
def submitted (P : Plan D K F) (fs : Tree D F) : State D K F := ⟨fs, fun k i => fresh (P.days k i)⟩

end Verif.Eustace.FlagStages
