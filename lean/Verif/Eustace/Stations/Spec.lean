import Mathlib.Algebra.Order.Ring.Rat
import Mathlib.Algebra.Order.Group.Unbundled.Abs

/-! What is asked of station data, stated without reference to how they are put together. -/
namespace Verif.Eustace.Stations.Spec

/-- Two times are of the same measurement: they differ by less than 0.0005 days (43.2 seconds). -/
def Close (a b : ℚ) : Prop := |a - b| < 0.0005

/-- `x` is what `pick` gives for the last of those in the list for which it gives anything. -/
def Last {α β : Type} (pick : α → Option β) (l : List α) (x : β) : Prop :=
  ∃ before a after, l = before ++ a :: after ∧ pick a = some x ∧ ∀ b ∈ after, pick b = none

end Verif.Eustace.Stations.Spec
