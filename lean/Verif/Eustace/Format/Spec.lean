import Verif.Py
import Mathlib.Algebra.Order.Ring.Rat
import Mathlib.Data.List.Forall2

/-! What is asked of output files, stated without reference to how they are written. -/
namespace Verif.Eustace.Format.Spec

/-- A value read stands for a value written, to within `e`; missing values for missing values. -/
inductive Near (e : ℚ) : Option ℚ → Option ℚ → Prop
  | missing : Near e none none
  | value {x y : ℚ} (h : |y - x| ≤ e) : Near e (some x) (some y)

/-- A field read back: as many values, each standing for the one written in its place. -/
def Kept (e : ℚ) (written read : List (Option ℚ)) : Prop := List.Forall₂ (Near e) written read

/-- Centre of cell `i` of those of width a quarter of a degree which start at `start`. -/
def centre (start : ℚ) (i : ℕ) : ℚ := start + (i + 1 / 2) / 4

/-- The value of a sequence of missing or known values which is known to be `x` at `i`. -/
def Holds (l : List (Option ℚ)) (i : ℕ) (x : ℚ) : Prop := l[i]? = some (some x)

end Verif.Eustace.Format.Spec
