import Verif.Py
import Mathlib.Logic.Function.Basic

/-! Model of src/eustace/surfaceairmodel/run_ice.py: a run of the ice model
for one day, and the command which starts it. -/

namespace Verif.Eustace.IceRun

open Verif

/-- The files there are, by name, with what is in them
(src/eustace/surfaceairmodel/run_ice.py:28-31).  Simplified: there are no
directories. -/
abbrev FS (C : Type) : Type := String → Option C

/-- What one call of the writer does (src/eustace/surfaceairmodel/run_ice.py:39-40):
what is in the file afterwards (`none` when the file could not be made), and
the error which was raised, if any.  An error may come when the file is there
already in part. -/
structure Written (C : Type) where
  content : Option C
  error : Option PyErr

/-- What a run of a day does apart from the files
(src/eustace/surfaceairmodel/run_ice.py:33-40): the results of the model or
the error of reading its inputs, and what the writer makes of the results. -/
structure Day (R C : Type) where
  results : Except PyErr R
  primary : R → Written C
  ancillary : R → Written C

/-- A file is written: the old one, if any, is replaced
(src/eustace/surfaceairmodel/run_ice.py:39-40). -/
def put {C : Type} (fs : FS C) (name : String) (w : Written C) : FS C :=
  match w.content with
  | none => fs
  | some c => Function.update fs name (some c)

/-- `os.path.isfile` (src/eustace/surfaceairmodel/run_ice.py:28,30): `None` is
a TypeError. -/
def isfile {C : Type} (fs : FS C) : Option String → Except PyErr Bool
  | none => .error .typeError
  | some name => .ok (fs name).isSome

/-- The part of `run_day` after the checks
(src/eustace/surfaceairmodel/run_ice.py:33-40). -/
def produce {R C : Type} (fs : FS C) (main ancillary : String) (day : Day R C) :
    FS C × Option PyErr :=
  match day.results with
  | .error e => (fs, some e)
  | .ok r =>
    match (day.primary r).error with
    | some e => (put fs main (day.primary r), some e)
    | none => (put (put fs main (day.primary r)) ancillary (day.ancillary r),
        (day.ancillary r).error)

/-- `run_day` (src/eustace/surfaceairmodel/run_ice.py:20-40): the files after
it, and the error raised. -/
def runDay {R C : Type} (fs : FS C) (main ancillary : Option String) (day : Day R C) :
    FS C × Option PyErr :=
  match isfile fs main with
  | .error e => (fs, some e)
  | .ok true => (fs, some .valueError)
  | .ok false =>
    match isfile fs ancillary with
    | .error e => (fs, some e)
    | .ok true => (fs, some .valueError)
    | .ok false =>
      match main, ancillary with
      | some m, some a => produce fs m a day
      | _, _ => (fs, some .typeError)

/-- `main` (src/eustace/surfaceairmodel/run_ice.py:42-58): the output for
ancillary data may be left out, and `.run()` is called on what `run_day`
returns, which is `None`. -/
def command {R C : Type} (fs : FS C) (main : String) (ancillary : Option String) (day : Day R C) :
    FS C × Option PyErr :=
  match runDay fs (some main) ancillary day with
  | (fs', some e) => (fs', some e)
  | (fs', none) => (fs', some .attributeError)

/-- Runs one after another, each with its outputs
(src/eustace/surfaceairmodel/run_ice.py:20-40): an error ends the run, not
those after it. -/
def runs {R C : Type} (fs : FS C) : List (Option String × Option String × Day R C) → FS C
  | [] => fs
  | r :: rest => runs (runDay fs r.1 r.2.1 r.2.2).1 rest

end Verif.Eustace.IceRun
