import Verif.Eustace.Lattice.Model
import Mathlib.Order.ConditionallyCompleteLattice.Finset

/-!
Model of `/repo/src/eustace/analysis/advanced_standard/elements/geography_based.py` 15-90: interpolation of a field given on a
regular grid of latitudes and longitudes.

Simplified: float64 is replaced by the reals; latitudes, longitudes and field have the same shape.
-/

namespace Verif.Eustace.Geography

open Verif.Eustace.Lattice

noncomputable section

/-- A two dimensional array. -/
abbrev Field (R C : Nat) := Fin R → Fin C → ℝ

/-- `a.max()` (geography_based.py 64-65, 81). -/
def maximum {R C : Nat} (a : Field R C) : ℝ := ⨆ p : Fin R × Fin C, a p.1 p.2

/-- `a.min()` (geography_based.py 64-65, 81). -/
def minimum {R C : Nat} (a : Field R C) : ℝ := ⨅ p : Fin R × Fin C, a p.1 p.2

/-- `round(x, 2)` of Python 2 for numbers which are not negative: halves are rounded up. -/
def round2 (x : ℝ) : ℝ := ⌊x * 100 + 1 / 2⌋ / 100

/-- `nodes_spacing` (geography_based.py 64). -/
def nodesSpacing {R C : Nat} (latitude : Field R C) : ℝ := round2 ((maximum latitude - minimum latitude) / ((R : ℝ) - 1))

/-- `nodes_spacing_check` (geography_based.py 65). -/
def nodesSpacingCheck {R C : Nat} (longitude : Field R C) : ℝ :=
  round2 ((maximum longitude - minimum longitude) / ((C : ℝ) - 1))

/-- One row with the last value before the first and the first after the last (geography_based.py 72-74); `row` has `C`
values. -/
def extendRow (C : Nat) (row : Nat → ℝ) (j : Nat) : ℝ :=
  if j = 0 then row (C - 1) else if j ≤ C then row (j - 1) else row 0

/-- `numpy.mean` of an extended row (geography_based.py 75-76). -/
def rowMean (C : Nat) (row : Nat → ℝ) : ℝ := (∑ j ∈ Finset.range (C + 2), extendRow C row j) / ((C : ℝ) + 2)

/-- The extended covariate (geography_based.py 72-79): first and last row are the means of the rows next to them. -/
def extended (R C : Nat) (covariate : Nat → Nat → ℝ) (i j : Nat) : ℝ :=
  if i = 0 then rowMean C (covariate 0)
  else if i ≤ R then extendRow C (covariate (i - 1)) j
  else rowMean C (covariate (R - 1))

/-- The lattice (geography_based.py 81-83). -/
def lattice {R C : Nat} (latitude longitude : Field R C) : Lattice 2 where
  lo := ![minimum latitude - nodesSpacing latitude, minimum longitude - nodesSpacing latitude]
  hi := ![maximum latitude + nodesSpacing latitude, maximum longitude + nodesSpacing latitude]
  n := ![R + 2, C + 2]
  wrap := ![false, false]

/-- `covariate.ravel(order='F')[c]` for `rows` rows (geography_based.py 86). -/
def ravelField (rows : Nat) (a : Nat → Nat → ℝ) (c : Nat) : ℝ := a (c % rows) (c / rows)

/-- `bilinear_interpolation` for one location (geography_based.py 33-90). -/
def bilinear {R C : Nat} (covariate : Nat → Nat → ℝ) (latitude longitude : Field R C) (location : Multi 2 ℝ) :
    Except PyErr ℝ :=
  if nodesSpacing latitude ≠ nodesSpacingCheck longitude then .error .valueError
  else
    let L := lattice latitude longitude
    .ok (∑ c : Fin L.size,
      buildARow L .piecewiseLinear (fun _ => nodesSpacing latitude) location c.val *
        ravelField (R + 2) (extended R C covariate) c.val)

/-- `GeographyBasedCovariateFunction.compute` for one location (geography_based.py 26-30). -/
def compute {R C : Nat} (covariate : Nat → Nat → ℝ) (latitude longitude : Field R C) (rescale : ℝ) (location : Multi 2 ℝ) :
    Except PyErr ℝ :=
  match bilinear covariate latitude longitude location with
  | .error e => .error e
  | .ok v => .ok (rescale * v)

end

end Verif.Eustace.Geography
