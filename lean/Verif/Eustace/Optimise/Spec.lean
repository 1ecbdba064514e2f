import Verif.Eustace.Optimise.Model

/-!
Specification for the steps which lead to local hyperparameters, independent of the way the code goes through its lists.
-/

namespace Verif.Eustace.Optimise

open Verif

/-- The members of a list which have the flag. -/
def Picked {α : Type} (flag : Bool) : List Bool → List α → List α
  | f :: flags, a :: l => if f = flag then a :: Picked flag flags l else Picked flag flags l
  | _, _ => []

/-- A vector is the sum of two others, with `n` values each. -/
def IsSum (n : Nat) (v u w : List ℝ) : Prop :=
  v.length = n ∧ u.length = n ∧ w.length = n ∧ ∀ i < n, v.getD i 0 = u.getD i 0 + w.getD i 0

end Verif.Eustace.Optimise
