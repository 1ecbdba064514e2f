import Mathlib.Logic.Function.Basic

/-! Model of the jobs of an array which make flags for the days of a month each,
and which the batch system starts again when their host fails (`bsub -r`):
src/eustace/postprocess/window_check.py:132-167 and, alike,
calendar_check.py:139-169, outlier_window_check.py:120-154 and
merge_flag_files.py:56-79, with src/eustace/postprocess/lsf/submit_masking_window.sh.

Simplified: what a check makes of a day is any function of the files of its
input directory (it may be an error); a file that is being written is there,
but only in part; directories are there (C186). -/

namespace Verif.Eustace.FlagJobs

/-- The file of a day: not there, only a part of it, or all. -/
inductive Entry (F : Type)
  | absent
  | part
  | full (f : F)

/-- The files of the input directory (`false`) and of another one (`true`), by
the number of the day
(src/eustace/postprocess/window_check.py:166: one file for each day). -/
abbrev Files (F : Type) := Bool → Nat → Entry F

/-- A job: the days of its month (src/eustace/postprocess/window_check.py:143),
those still to be done, and what it is writing. -/
structure Job (F : Type) where
  days : List Nat
  todo : List Nat
  writing : Option F
  failed : Bool

/-- A job at its start (src/eustace/postprocess/window_check.py:141-146). -/
def fresh {F : Type} (days : List Nat) : Job F := ⟨days, days, none, false⟩

structure Sys (F : Type) where
  files : Files F
  jobs : Nat → Job F

/-- What is written to one file. -/
def put {F : Type} (fs : Files F) (dst : Bool) (d : Nat) (e : Entry F) : Files F :=
  Function.update fs dst (Function.update (fs dst) d e)

/-- One step of a job: the flags of a day are made from the input directory
and its output is opened (src/eustace/postprocess/window_check.py:153-167,
apply_mask.py:117-129); or the output is completed (apply_mask.py:138-153).
`dst` is the output directory: the input directory itself (`false`) or another. -/
def stepJob {F : Type} (check : (Nat → Entry F) → Nat → Option F) (dst : Bool) (fs : Files F) (j : Job F) :
    Files F × Job F :=
  if j.failed then (fs, j)
  else match j.todo with
    | [] => (fs, j)
    | d :: rest =>
      match j.writing with
      | some f => (put fs dst d (.full f), { j with todo := rest, writing := none })
      | none =>
        match check (fs false) d with
        | none => (fs, { j with failed := true })
        | some f => (put fs dst d .part, { j with writing := some f })

/-- The host fails and the job is started anew (`bsub -r`,
src/eustace/postprocess/lsf/submit_masking_window.sh:64); jobs which have ended
are left alone, also those which have ended with an error. -/
def restartJob {F : Type} (j : Job F) : Job F :=
  if j.failed then j
  else match j.todo with
    | [] => j
    | _ :: _ => fresh j.days

/-- A job does a step, or its host fails. -/
inductive Event
  | own (i : Nat)
  | restart (i : Nat)

/-- One event of the array (src/eustace/postprocess/lsf/submit_masking_window.sh:57-64). -/
def step {F : Type} (check : (Nat → Entry F) → Nat → Option F) (dst : Bool) (s : Sys F) : Event → Sys F
  | .own i => ⟨(stepJob check dst s.files (s.jobs i)).1,
      Function.update s.jobs i (stepJob check dst s.files (s.jobs i)).2⟩
  | .restart i => { s with jobs := Function.update s.jobs i (restartJob (s.jobs i)) }

/-- A sequence of events (src/eustace/postprocess/lsf/submit_masking_window.sh:57-64). -/
def run {F : Type} (check : (Nat → Entry F) → Nat → Option F) (dst : Bool) (s : Sys F) : List Event → Sys F
  | [] => s
  | e :: es => run check dst (step check dst s e) es

end Verif.Eustace.FlagJobs
