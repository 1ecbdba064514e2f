import Mathlib.Data.Real.Basic
import Mathlib.Algebra.BigOperators.Group.Finset.Basic

/-! What merging is meant to give, stated without the program. -/

namespace Verif.Eustace.Merge

noncomputable section

/-- The values of all pairs of a list, in the order (first, second), (first, third), ..., (second, third), ... -/
def upper {α β : Type} (f : α → α → β) : List α → List β
  | [] => []
  | a :: rest => rest.map (f a) ++ upper f rest

/-- Correlations between sources: symmetric, and each source fully correlated with itself. -/
def IsCorrelation (n : Nat) (R : Nat → Nat → ℝ) : Prop :=
  (∀ i < n, R i i = 1) ∧ ∀ i < n, ∀ j < n, R i j = R j i

/-- The field `f` of `size` cells is the mean over those of the `fields` which have data in the cell. -/
def IsMean (size : Nat) (fields : List (List (Option ℝ))) (f : List (Option ℝ)) : Prop :=
  f.length = size ∧ ∀ c < size,
    (f[c]? = some none ↔ ∀ g ∈ fields, g[c]? = some none) ∧
    ∀ x, f[c]? = some (some x) →
      x * ((fields.filterMap fun g => g.getD c none).length : ℝ) = (fields.filterMap fun g => g.getD c none).sum

open Classical in
/-- The sources which have data in a cell. -/
def having (fields : List (List (Option ℝ))) (c : Nat) : Finset Nat :=
  (Finset.range fields.length).filter fun i => ∃ x, (fields.getD i []).getD c none = some x

/-- The value of a source in a cell. -/
def valueAt (fields : List (List (Option ℝ))) (c i : Nat) : ℝ := ((fields.getD i []).getD c none).getD 0

/-- The variance of the sum of the errors of the sources which have data, for standard errors in `fields` and correlations `R`. -/
def sumVariance (R : Nat → Nat → ℝ) (fields : List (List (Option ℝ))) (c : Nat) : ℝ :=
  ∑ i ∈ having fields c, ∑ j ∈ having fields c, R i j * valueAt fields c i * valueAt fields c j

/-- The field `f` is the standard error of the mean over the sources which have data: its square times the square of their number
is the variance of the sum. It is missing where no source has data (and where `R` gives no variance, being negative). -/
def IsPropagated (size : Nat) (R : Nat → Nat → ℝ) (fields : List (List (Option ℝ))) (f : List (Option ℝ)) : Prop :=
  f.length = size ∧ ∀ c < size,
    (f[c]? = some none ↔ (∀ g ∈ fields, g[c]? = some none) ∨ sumVariance R fields c < 0) ∧
    ∀ x, f[c]? = some (some x) →
      0 ≤ x ∧ x ^ 2 * ((having fields c).card : ℝ) ^ 2 = sumVariance R fields c

/-- A path whose file name is `a_b_c_d_label` or `a_b_c_d_label_...`. -/
def HasLabel (path label : List Char) : Prop :=
  ∃ dir a b c d rest,
    path = dir ++ (a ++ '_' :: (b ++ '_' :: (c ++ '_' :: (d ++ '_' :: (label ++ rest))))) ∧
    (dir = [] ∨ dir.getLast? = some '/') ∧ (rest = [] ∨ rest.head? = some '_') ∧
    (∀ s ∈ [a, b, c, d, label], '_' ∉ s ∧ '/' ∉ s) ∧ '/' ∉ rest

/-- `sub` occurs in `pre ++ sub ++ post` only after `pre`. -/
def OnlyAt (sub pre post : List Char) : Prop := ∀ a b, a ++ sub ++ b = pre ++ sub ++ post → a = pre

/-- The names of the variables of a primary file. -/
def mainNames : List (List Char) :=
  ["tas".toList, "tasmin".toList, "tasmax".toList, "tasuncertainty".toList, "tasminuncertainty".toList,
    "tasmaxuncertainty".toList]

/-- No correlation between different sources. -/
def uncorrelated (i j : Nat) : ℝ := if i = j then 1 else 0

end

end Verif.Eustace.Merge
