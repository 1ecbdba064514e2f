import Verif.Eumopps.Run.Model

/-! Vocabulary for operation lookup. -/
namespace Verif.Eumopps.Run.Spec
open Verif

/-- The three texts by which an operation can be found. -/
inductive Field where
  | name | cls | function
  deriving DecidableEq

def fieldOf (g : StoredOp) : Field → Option String
  | .name => g.name
  | .cls => g.pythonClass
  | .function => g.pythonFunction

/-- Operation number `i` is called `m` by its field `f`. -/
def Called (ops : List StoredOp) (m : String) (i : Nat) (f : Field) : Prop :=
  ∃ g, ops[i]? = some g ∧ fieldOf g f = some m

end Verif.Eumopps.Run.Spec
