import Verif.Eustace.Submit.Model

/-! What is expected of submitted jobs, and what the batch system promises. -/
namespace Verif.Eustace.Submit.Spec
open Verif Verif.Eumopps.Run

/-- The number of operations of a module in a catalogue (none if it is not there). -/
def Operations (ops : List StoredOp) (m : String) (n : ℕ) : Prop :=
  (∃ g, findoperation ops m = .ok (some g) ∧ g.count = n) ∨ (findoperation ops m = .ok none ∧ n = 0)

/-- The operation which a call of commandrun.py with these arguments performs. -/
def performed (a : ℤ × ℤ × ℤ) : Except PyErr ℤ := operationIndex a.1 (some a.2.1) (some a.2.2)

/-- All operations performed by some job arrays, in order of the arrays, their elements, and the commands of an element. -/
def allPerformed (ops : List StoredOp) (log : List Submission) : List (String × Except PyErr ℤ) :=
  log.flatMap fun s => (elements s).flatMap fun e => (commands ops s e).map fun a => (s.module, performed a)

/-- The files written by some job arrays. -/
def allOutputs (ops : List StoredOp) (log : List Submission) : List (String × ℤ × List ℤ) :=
  log.flatMap fun s => (elements s).flatMap fun e => outputFiles ops s e

/-- Operations number 0 to `n - 1` of a module, each of them once. -/
def once (m : String) (n : ℕ) : List (String × Except PyErr ℤ) := (List.range n).map fun k : ℕ => (m, .ok (k : ℤ))

/-- Job identifiers are non-empty and consist of digits. -/
def Identifier (i : Text) : Prop := i ≠ [] ∧ ∀ c ∈ i, '0' ≤ c ∧ c ≤ '9'

/-- The batch system accepts everything: the job submitted as number `n` has identifier `ids n`, different for different jobs, and the
reply is "Job <...> is submitted ...". -/
def Accepting (answers : ℕ → Answer) (ids : ℕ → Text) : Prop :=
  (∀ n, (answers n).status = 0 ∧ Identifier (ids n) ∧ ∃ rest, (answers n).out = "Job <".toList ++ ids n ++ '>' :: rest) ∧
  ∀ n n', ids n = ids n' → n = n'

/-- The meaning of a condition: the jobs which have to be done. -/
inductive Means : Text → List Text → Prop
  | nothing : Means [] []
  | one {i : Text} : Identifier i → Means ("done(".toList ++ i ++ [')']) [i]
  | both {i c : Text} {l : List Text} : Identifier i → l ≠ [] → Means c l →
      Means ("done(".toList ++ i ++ ") && ".toList ++ c) (i :: l)

/-- What can be observed: command number `p` of element `e` of job `j` is over, successful or not; element `e` of job `j` has ended with
status zero or another. -/
inductive Event where
  | ran (j : ℕ) (e : ℤ) (p : ℕ) (ok : Bool)
  | ended (j : ℕ) (e : ℤ) (ok : Bool)
  deriving DecidableEq, Repr

/-- Job `j` is done: all of its elements have ended with status zero. -/
def Done (log : List Submission) (past : List Event) (j : ℕ) : Prop :=
  ∀ s, log[j]? = some s → ∀ e ∈ elements s, Event.ended j e true ∈ past

/-- The promise of the batch system about a sequence of events: a job does nothing until the jobs in its condition are done; an element
ends with the status which its script gives, after having run all of its commands.  Elements may be started again (option -r). -/
structure Permitted (ops : List StoredOp) (ids : ℕ → Text) (log : List Submission) (trace : List Event) : Prop where
  waits : ∀ past future j e p ok, trace = past ++ .ran j e p ok :: future → ∃ s a, log[j]? = some s ∧ e ∈ elements s ∧
    (commands ops s e)[p]? = some a ∧ ∀ l, Means s.wait l → ∀ j', ids j' ∈ l → Done log past j'
  ends : ∀ past future j e, trace = past ++ .ended j e true :: future → ∃ s, log[j]? = some s ∧ e ∈ elements s ∧
    ∃ outcomes : List Bool, outcomes.length = (commands ops s e).length ∧ exitOk s (ranFull ops s e) outcomes = true ∧
      ∀ p ok, outcomes[p]? = some ok → Event.ran j e p ok ∈ past

/-- Every command of every element of every job has been run successfully. -/
def Complete (ops : List StoredOp) (log : List Submission) (trace : List Event) : Prop :=
  ∀ (j : ℕ) s, log[j]? = some s → ∀ e ∈ elements s, ∀ p < (commands ops s e).length, Event.ran j e p true ∈ trace

/-- The event is the end of operation `k` of module `m`, successful or not. -/
def Performs (ops : List StoredOp) (log : List Submission) (m : String) (k : ℤ) (ok : Bool) (ev : Event) : Prop :=
  ∃ j e p s a, ev = .ran j e p ok ∧ log[j]? = some s ∧ s.module = m ∧ e ∈ elements s ∧ (commands ops s e)[p]? = some a ∧
    performed a = .ok k

/-- The stages of one iteration in the order in which they depend on each other. -/
inductive Kind where
  | climatologyInput | climatologySolve | climatologyPrior | largeScaleInput | largeScaleSolve | largeScalePrior | localSolve | outputGrid
  deriving DecidableEq, Repr

/-- Name of a stage in the catalogue. -/
def Kind.name : Kind → String
  | .climatologyInput => "climatology_input_"
  | .climatologySolve => "climatology_solve_"
  | .climatologyPrior => "climatology_solve_prior_sample_"
  | .largeScaleInput => "large_scale_input_"
  | .largeScaleSolve => "large_scale_solve_"
  | .largeScalePrior => "large_scale_solve_prior_sample_"
  | .localSolve => "local_input_and_solve_"
  | .outputGrid => "output_grid_"

/-- Place of a stage in the iteration. -/
def Kind.rank : Kind → ℕ
  | .climatologyInput => 0
  | .climatologySolve => 1
  | .climatologyPrior => 2
  | .largeScaleInput => 3
  | .largeScaleSolve => 4
  | .largeScalePrior => 5
  | .localSolve => 6
  | .outputGrid => 7

/-- Whether a stage is wanted in iteration `i`. -/
def Kind.wanted (o : Options) (final i : ℕ) : Kind → Prop
  | .climatologyInput => o.climatologyInput = true
  | .climatologySolve => o.climatologySolve = true
  | .climatologyPrior => o.climatologySolve = true ∧ i = final
  | .largeScaleInput => o.largeScaleInput = true
  | .largeScaleSolve => o.largeScaleSolve = true
  | .largeScalePrior => o.largeScaleSolve = true ∧ i = final
  | .localSolve => o.localInputAndSolve = true
  | .outputGrid => o.gridOutput = true ∧ i = final

/-- The stages which the shell script has. -/
def InShell (k : Kind) : Prop := k ≠ .climatologyPrior ∧ k ≠ .largeScalePrior ∧ k ≠ .outputGrid

/-- Module for a stage of an iteration. -/
def moduleName (k : Kind) (i : ℕ) : String := k.name ++ toString i

end Verif.Eustace.Submit.Spec
