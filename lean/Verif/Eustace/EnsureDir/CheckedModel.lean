import Verif.Eustace.EnsureDir.Model

/-! Model of how the post-processing makes its directories: it looks whether a
directory is there and makes it if not (src/eustace/postprocess/calendar_check.py:156-157
and likewise threshold_check.py:215-216, window_check.py:150-151,
outlier_check.py:381-382, outlier_window_check.py:138-139,
merge_flag_files.py:72-73, cell_percentile_threshold.py:138-139,
cell_percentile_calculation.py:41-42, apply_mask.py:123-124 and
latent_variable_check.py:234-235). -/

namespace Verif.Eustace.EnsureDir

/-- A process before `if not os.path.exists(...)`
(src/eustace/postprocess/calendar_check.py:156). -/
def startChecked (path : List String) : Proc := ⟨path, .look⟩

/-- What comes after `EEXIST`: `makedirs` of the Python 2 library does not mind
it for the names before; for the whole path there is no handler
(src/eustace/postprocess/calendar_check.py:157). -/
def nextChecked (p : Proc) (k : Nat) : Phase :=
  if k = p.path.length then .failed .EEXIST else .up (k + 1)

/-- One step of a process (src/eustace/postprocess/calendar_check.py:156-157
with `os.makedirs`): `look` is the test before it. -/
def stepChecked (fs : FS) (p : Proc) : FS × Proc :=
  match p.phase with
  | .look =>
    if fs p.path ≠ none then (fs, { p with phase := .done })
    else (fs, { p with phase := .down p.path.length })
  | .down k =>
    if k ≤ 1 then (fs, { p with phase := .up k })
    else if fs (p.path.take (k - 1)) ≠ none then (fs, { p with phase := .up k })
    else (fs, { p with phase := .down (k - 1) })
  | .up k =>
    match mkdir fs (p.path.take k) with
    | .ok fs' => (fs', { p with phase := next p k })
    | .error .EEXIST => (fs, { p with phase := nextChecked p k })
    | .error e => (fs, { p with phase := .failed e })
  | .done => (fs, p)
  | .failed e => (fs, { p with phase := .failed e })

/-- One event (src/eustace/postprocess/lsf/submit_masking_calendar.sh: the jobs
of one array run at the same time and write to the directories of the same
years). -/
def eventChecked (s : Sys) : Event → Sys
  | .own i => ⟨(stepChecked s.fs (s.procs i)).1,
      Function.update s.procs i (stepChecked s.fs (s.procs i)).2⟩
  | .env fs => { s with fs := fs }

/-- A sequence of events (src/eustace/postprocess/calendar_check.py:156-157). -/
def runChecked (s : Sys) : List Event → Sys
  | [] => s
  | e :: es => runChecked (eventChecked s e) es

end Verif.Eustace.EnsureDir
