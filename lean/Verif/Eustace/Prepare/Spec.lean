import Verif.Eustace.Prepare.Model

/-! What is expected of the preparation of satellite data. -/

namespace Verif.Eustace.Prepare.Spec

open Verif.Eustace.Prepare

/-- A surface with satellite data on a grid. -/
inductive Surface : String → Prop
  | land : Surface "surfaceairmodel_land"
  | ocean : Surface "surfaceairmodel_ocean"
  | ice : Surface "surfaceairmodel_ice"

/-- A quantity and the names of the fields of its measurements and of their uncertainties. -/
inductive Quantity : String → String → String → Prop
  | mean : Quantity "Tmean" "tas" "tasuncertainty"
  | minimum : Quantity "Tmin" "tasmin" "tasminuncertainty"
  | maximum : Quantity "Tmax" "tasmax" "tasmaxuncertainty"

/-- Measurements on a grid of `rows` by `cols` cells, in rows from the first to the last: the coordinates of the rows and of the
columns, the time, which cells have a measurement, and the measurements and uncertainties of those. -/
structure Grid where
  rows : Nat
  cols : Nat
  latitude : Nat → ℝ
  longitude : Nat → ℝ
  time : ℚ
  present : Nat → Bool
  measurement : Nat → ℝ
  uncertainty : Nat → ℝ

/-- The number of cells. -/
def Grid.size (g : Grid) : Nat := g.rows * g.cols

/-- Where cell `k` is. -/
def Grid.place (g : Grid) (k : Nat) : ℝ × ℝ := (g.latitude (k / g.cols), g.longitude (k % g.cols))

/-- The only field of a name in a file. -/
def Only (file : List Cube) (name : String) (c : Cube) : Prop :=
  ∃ before after, file = before ++ c :: after ∧ c.name = name ∧ ∀ x ∈ before ++ after, x.name ≠ name

/-- The coordinates of a field. -/
structure At (c : Cube) (g : Grid) : Prop where
  size : c.shape.prod = g.size
  latitude : ∃ l rest, c.latitude = l :: rest ∧ l.length = g.rows ∧ ∀ i < g.rows, l[i]? = some (g.latitude i)
  longitude : ∃ l rest, c.longitude = l :: rest ∧ l.length = g.cols ∧ ∀ i < g.cols, l[i]? = some (g.longitude i)

/-- A file has the measurements of a grid.  The numbers beneath a mask can be any, and so can the mask of the uncertainties. -/
structure Has (file : List Cube) (m u : String) (g : Grid) : Prop where
  measured : ∃ c, Only file m c ∧ At c g ∧ (∃ rest rest', c.time = (g.time :: rest) :: rest') ∧
    (∃ mask, c.mask = some mask ∧ mask.length = g.size ∧ ∀ k < g.size, mask[k]? = some (! g.present k)) ∧
    c.data.length = g.size ∧ ∀ k < g.size, g.present k = true → c.data[k]? = some (g.measurement k)
  uncertain : ∃ c, Only file u c ∧ (∃ mask, c.mask = some mask) ∧
    c.data.length = g.size ∧ ∀ k < g.size, g.present k = true → c.data[k]? = some (g.uncertainty k)

/-- The numbers of the cells which are to be in the file of a day, in order. -/
def Selected (g : Grid) (day : Int) (kept : List Nat) : Prop :=
  kept.Pairwise (· < ·) ∧ ∀ k, k ∈ kept ↔ k < g.size ∧ g.present k = true ∧ (day : ℚ) ≤ g.time ∧ g.time < day + 1

end Verif.Eustace.Prepare.Spec
