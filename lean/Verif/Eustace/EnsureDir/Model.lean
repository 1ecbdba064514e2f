import Mathlib.Logic.Function.Basic
import Mathlib.Data.List.Basic

/-! Model of src/eustace/outputformats/ensuredirectory.py: the directory of an
output file is made if it is not there, while other processes may make the
same directories. -/

namespace Verif.Eustace.EnsureDir

/-- What is found under a path: nothing (`none`), a directory or a file
(src/eustace/outputformats/ensuredirectory.py:19-24). -/
inductive Kind where
  | dir
  | file
deriving DecidableEq

/-- A file system: what is found under each path.  A path is the list of its
names from the root on (src/eustace/outputformats/ensuredirectory.py:10).
Simplified: paths are absolute, without `.`, `..` and links; all processes may
read and write everywhere. -/
abbrev FS : Type := List String → Option Kind

/-- The numbers of errors of the system which matter
(src/eustace/outputformats/ensuredirectory.py:21-27). -/
inductive Errno where
  | EEXIST
  | ENOENT
  | ENOTDIR
deriving DecidableEq

/-- The call `mkdir` of the system, on which `os.makedirs`
(src/eustace/outputformats/ensuredirectory.py:19) rests: it is done in one
step. -/
def mkdir (fs : FS) (p : List String) : Except Errno FS :=
  match fs p.dropLast with
  | none => .error .ENOENT
  | some .file => .error .ENOTDIR
  | some .dir => if fs p = none then .ok (Function.update fs p (some .dir)) else .error .EEXIST

/-- Where a process is in `ensuredirectory`
(src/eustace/outputformats/ensuredirectory.py:13-27) and in `os.makedirs` of
the Python 2 library, which it calls. -/
inductive Phase where
  /-- in `makedirs` for the first `k` names, before `path.exists(head)` -/
  | down (k : Nat)
  /-- in `makedirs` for the first `k` names, before `mkdir(name)` -/
  | up (k : Nat)
  /-- in the handler, before `os.path.isdir(subdirectory)` -/
  | look
  | done
  | failed (e : Errno)
deriving DecidableEq

/-- A process with the names of its directory, `os.path.dirname(pathname)`
(src/eustace/outputformats/ensuredirectory.py:10). -/
structure Proc where
  path : List String
  phase : Phase

/-- The start of `ensuredirectory` for a file in the directory `path`
(src/eustace/outputformats/ensuredirectory.py:7-19): nothing is done for an
empty one. -/
def start (path : List String) : Proc :=
  ⟨path, if path = [] then .done else .down path.length⟩

/-- What comes after `mkdir` for the first `k` names was done without an error
(src/eustace/outputformats/ensuredirectory.py:19; `makedirs` calls itself for
the names before and then makes the last one). -/
def next (p : Proc) (k : Nat) : Phase := if k = p.path.length then .done else .up (k + 1)

/-- What comes after `EEXIST`: `makedirs` does not mind it for the names
before, and for the whole path `ensuredirectory` looks whether it is a
directory (src/eustace/outputformats/ensuredirectory.py:21-25). -/
def nextExists (p : Proc) (k : Nat) : Phase := if k = p.path.length then .look else .up (k + 1)

/-- One step of a process (src/eustace/outputformats/ensuredirectory.py:13-27
with `os.makedirs`). -/
def stepProc (fs : FS) (p : Proc) : FS × Proc :=
  match p.phase with
  | .down k =>
    if k ≤ 1 then (fs, { p with phase := .up k })
    else if fs (p.path.take (k - 1)) ≠ none then (fs, { p with phase := .up k })
    else (fs, { p with phase := .down (k - 1) })
  | .up k =>
    match mkdir fs (p.path.take k) with
    | .ok fs' => (fs', { p with phase := next p k })
    | .error .EEXIST => (fs, { p with phase := nextExists p k })
    | .error e => (fs, { p with phase := .failed e })
  | .look =>
    if fs p.path = some .dir then (fs, { p with phase := .done })
    else (fs, { p with phase := .failed .EEXIST })
  | .done => (fs, p)
  | .failed e => (fs, { p with phase := .failed e })

/-- A file system and any number of processes which call `ensuredirectory`
(src/eustace/outputformats/ensuredirectory.py:15-16: "other processes might
create it inbetween"). -/
structure Sys where
  fs : FS
  procs : Nat → Proc

/-- What may happen next: a step of one of the processes, or another program
changes the file system (src/eustace/outputformats/ensuredirectory.py:15-16). -/
inductive Event where
  | own (i : Nat)
  | env (fs : FS)

/-- One event (src/eustace/outputformats/ensuredirectory.py:13-27). -/
def step (s : Sys) : Event → Sys
  | .own i => ⟨(stepProc s.fs (s.procs i)).1,
      Function.update s.procs i (stepProc s.fs (s.procs i)).2⟩
  | .env fs => { s with fs := fs }

/-- A sequence of events (src/eustace/outputformats/ensuredirectory.py:13-27). -/
def run (s : Sys) : List Event → Sys
  | [] => s
  | e :: es => run (step s e) es

end Verif.Eustace.EnsureDir
