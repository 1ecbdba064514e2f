import Verif.Eustace.Ice.Model
import Mathlib.Algebra.BigOperators.Group.Finset.Basic

/-! What the quality control over ice and the ice model are meant to give, stated without the operations of the program. -/

namespace Verif.Eustace.Ice

noncomputable section

/-- A cell of land ice: class 1 or 4 of the land mask. -/
def OnLandIce (x : Inputs) (i j : ℕ) : Prop := x.land.at' i j = 1 ∨ x.land.at' i j = 4

/-- The concentration of sea ice is known, and is thirty percent or more. -/
def Concentrated (x : Inputs) (i j : ℕ) : Prop := ∃ v, x.fraction.at' i j = some v ∧ 3 / 10 ≤ v

/-- Cells near a cell (at most two away in each direction, not itself), in the array, in the group, and with a value. -/
def Near (rows cols : ℕ) (g : ℕ → ℕ → Option ℝ) (group : ℕ → ℕ → Prop) (i j a b : ℕ) : Prop :=
  a < rows ∧ b < cols ∧ a ≤ i + 2 ∧ i ≤ a + 2 ∧ b ≤ j + 2 ∧ j ≤ b + 2 ∧ (a, b) ≠ (i, j) ∧ group a b ∧ ∃ v, g a b = some v

open Classical in
/-- Those cells as a set. -/
def neighbours (rows cols : ℕ) (g : ℕ → ℕ → Option ℝ) (group : ℕ → ℕ → Prop) (i j : ℕ) : Finset (ℕ × ℕ) :=
  (Finset.range rows ×ˢ Finset.range cols).filter fun q => Near rows cols g group i j q.1 q.2

/-- A cell of the group, at least two cells from the border, which has at least two neighbours of the group, and is more than ten
degrees colder than their mean. -/
def Outlier (rows cols : ℕ) (g : ℕ → ℕ → Option ℝ) (group : ℕ → ℕ → Prop) (i j : ℕ) : Prop :=
  (2 ≤ i ∧ i + 2 < rows ∧ 2 ≤ j ∧ j + 2 < cols) ∧ group i j ∧
    2 ≤ (neighbours rows cols g group i j).card ∧
    ∃ t, g i j = some t ∧
      t + 10 < (∑ q ∈ neighbours rows cols g group i j, (g q.1 q.2).getD 0) / (neighbours rows cols g group i j).card

/-- There is an observation in one of the given parts of the day. -/
def Observed (x : Inputs) (bins : Finset ℕ) (i j : ℕ) : Prop := ∃ b ∈ bins, ∃ n, 0 < n ∧ x.nobs3d.at' b i j = some n

open Classical in
/-- The parts of the day, of those given, which have a temperature. -/
def known (x : Inputs) (bins : Finset ℕ) (i j : ℕ) : Finset ℕ := bins.filter fun b => ∃ v, x.ts3d.at' b i j = some v

/-- A value differs by more than a limit from the mean over the parts of the day. -/
def FarFromBins (x : Inputs) (bins : Finset ℕ) (limit : ℝ) (g : Grid (Option ℝ)) (i j : ℕ) : Prop :=
  (known x bins i j).Nonempty ∧ ∃ t, g.at' i j = some t ∧
    limit < |t - (∑ b ∈ known x bins i j, (x.ts3d.at' b i j).getD 0) / (known x bins i j).card|

/-- The spread of the day is not known to be too large, and the mean is not known to be warmer than five degrees. -/
def Plausible (x : Inputs) (i j : ℕ) : Prop :=
  (∀ s, x.tsStd.at' i j = some s → s ≤ 707 / 100) ∧ (∀ t, x.ts.at' i j = some t → t ≤ 27315 / 100 + 5)

/-- A value is kept by a quality control for which `good` says which cells pass the tests on single cells. -/
def Kept (x : Inputs) (g : Grid (Option ℝ)) (good : ℕ → ℕ → Prop) (i j : ℕ) : Prop :=
  good i j ∧ (OnLandIce x i j ∨ Concentrated x i j) ∧
    ¬ Outlier g.rows g.cols g.at' (fun a b => good a b ∧ OnLandIce x a b) i j ∧
    ¬ Outlier g.rows g.cols g.at' (fun a b => good a b ∧ Concentrated x a b) i j

/-- Parts of the day which are night. -/
def nights : Finset ℕ := {0, 1, 6, 7}

/-- Parts of the day which are day. -/
def days : Finset ℕ := {2, 3, 4, 5}

/-- What a mean temperature must satisfy by itself. -/
def GoodMean (x : Inputs) (i j : ℕ) : Prop :=
  Plausible x i j ∧ Observed x days i j ∧ Observed x nights i j ∧ ¬ FarFromBins x (Finset.range x.ts3d.bins) 10 x.ts i j

/-- What a maximum temperature must satisfy by itself. -/
def GoodMax (x : Inputs) (i j : ℕ) : Prop := Plausible x i j ∧ Observed x days i j ∧ ¬ FarFromBins x days 20 x.tsMax i j

/-- What a minimum temperature must satisfy by itself, as documented. -/
def GoodMin (x : Inputs) (i j : ℕ) : Prop := Plausible x i j ∧ Observed x nights i j ∧ ¬ FarFromBins x nights 20 x.tsMin i j

/-- What the program asks of a minimum temperature by itself. -/
def GoodMinWithoutBins (x : Inputs) (i j : ℕ) : Prop := Plausible x i j ∧ Observed x nights i j

/-- Counts of observations are not negative. -/
def Counts (x : Inputs) : Prop := ∀ b i j n, x.nobs3d.at' b i j = some n → 0 ≤ n

/-- The surface temperature which belongs to an observable. -/
def inputOf (x : Inputs) : Observable → Grid (Option ℝ)
  | .tas => x.ts
  | .tasmin => x.tsMin
  | .tasmax => x.tsMax

/-- What the program asks of it. -/
def goodOf (x : Inputs) : Observable → ℕ → ℕ → Prop
  | .tas => GoodMean x
  | .tasmin => GoodMinWithoutBins x
  | .tasmax => GoodMax x

/-- The surface of a cell: land ice wins over sea ice. -/
def IsSurface (x : Inputs) (i j : ℕ) : Surface → Prop
  | .landIce => OnLandIce x i j
  | .seaIce => ¬ OnLandIce x i j ∧ Concentrated x i j

/-- The tables of the original program in Matlab (comments of model_ice.py 74-77), in tenths of a degree: uncertainty of sampling for
average, minimum and maximum. -/
def samplingTenths : Hemisphere → Surface → ℕ × ℕ × ℕ
  | .north, .landIce => (16, 22, 21)
  | .north, .seaIce => (0, 29, 20)
  | .south, .landIce => (16, 15, 38)
  | .south, .seaIce => (17, 57, 29)

/-- The tables of the original program in Matlab (comments of model_ice.py 92-93), in tenths of a degree: uncertainty of the
relation for average, minimum and maximum. -/
def relationTenths : Surface → ℕ × ℕ × ℕ
  | .landIce => (15, 18, 20)
  | .seaIce => (17, 18, 21)

/-- The entry of a table for an observable, in degrees. -/
def entry (t : ℕ × ℕ × ℕ) : Observable → ℝ
  | .tas => t.1 / 10
  | .tasmin => t.2.1 / 10
  | .tasmax => t.2.2 / 10

/-- What is computed for one cell. -/
structure Cell where
  air : ℝ
  total : ℝ
  noCloud : ℝ
  uncorrelated : ℝ
  synoptic : ℝ
  largeScale : ℝ
  cloud : ℝ

/-- The air temperature and its uncertainties for a surface temperature `t` with uncertainties `ur, us, ul`, by coefficients
`c0, c1, c2, c3`: a linear relation in degrees Celsius with a yearly cycle counted from 1 January 1900; the uncertainties of the
satellite passed through the relation, with those of sampling and of the relation; totals by the sum of squares. -/
structure IsCell (h : Hemisphere) (s : Surface) (o : Observable) (c0 c1 c2 c3 day t ur us ul : ℝ) (c : Cell) : Prop where
  air : c.air - 27315 / 100 = c0 + c1 * (t - 27315 / 100)
    + c2 * Real.cos (2 * Real.pi * ((day - 18262) / (3652425 / 10000)))
    + c3 * Real.sin (2 * Real.pi * ((day - 18262) / (3652425 / 10000)))
  uncorrelated : c.uncorrelated ^ 2 = c1 ^ 2 * (ur ^ 2 + entry (samplingTenths h s) o ^ 2)
  uncorrelatedSign : 0 ≤ c1 → 0 ≤ c.uncorrelated
  synoptic : c.synoptic ^ 2 = c1 ^ 2 * us ^ 2 + entry (relationTenths s) o ^ 2
  synopticSign : 0 ≤ c.synoptic
  largeScale : c.largeScale = c1 * (2 / 10)
  cloud : c.cloud = c1 * (ul - 2 / 10 + if o = .tasmin then 2 else 0)
  noCloud : c.noCloud ^ 2 = c.uncorrelated ^ 2 + c.synoptic ^ 2 + c.largeScale ^ 2
  noCloudSign : 0 ≤ c.noCloud
  total : c.total ^ 2 = c.noCloud ^ 2 + c.cloud ^ 2
  totalSign : 0 ≤ c.total

/-- The seven fields of an observable, by name, where all of them hold a value for the cell. -/
def Cell.fields (o : Observable) (c : Cell) : List (String × ℝ) :=
  [(o.name, c.air), (o.name ++ "uncertainty", c.total), (o.name ++ "_unc_no_cloud", c.noCloud),
    (o.name ++ "_unc_rand", c.uncorrelated), (o.name ++ "_unc_corr_local", c.synoptic), (o.name ++ "_unc_sys", c.largeScale),
    (o.name ++ "_unc_cloud", c.cloud)]

/-- All arrays have the shape of the axes. -/
structure Shaped (x : Inputs) : Prop where
  ts : x.ts.shape = (x.latitude.length, x.longitude.length)
  tsMin : x.tsMin.shape = x.ts.shape
  tsMax : x.tsMax.shape = x.ts.shape
  tsStd : x.tsStd.shape = x.ts.shape
  ts3d : x.ts3d.shape = x.ts.shape
  nobs3d : x.nobs3d.shape = x.ts.shape
  fraction : x.fraction.shape = x.ts.shape
  uncorrelated : x.uncorrelated.shape = x.ts.shape
  synoptic : x.synoptic.shape = x.ts.shape
  largeScale : x.largeScale.shape = x.ts.shape

/-- All that is needed for a cell is there: a temperature which was kept, and the three uncertainties. -/
def Usable (x : Inputs) (o : Observable) (i j : ℕ) (t ur us ul : ℝ) : Prop :=
  (inputOf x o).at' i j = some t ∧ Kept x (inputOf x o) (goodOf x o) i j ∧
    x.uncorrelated.at' i j = some ur ∧ x.synoptic.at' i j = some us ∧ x.largeScale.at' i j = some ul

/-- The values of named fields at a cell. -/
def valuesAt (r : List (String × Grid (Option ℝ))) (i j : ℕ) : List (String × Option ℝ) := r.map fun e => (e.1, e.2.at' i j)

/-- The names of the fields of an observable. -/
def fieldNames (o : Observable) : List String :=
  [o.name, o.name ++ "uncertainty", o.name ++ "_unc_no_cloud", o.name ++ "_unc_rand", o.name ++ "_unc_corr_local",
    o.name ++ "_unc_sys", o.name ++ "_unc_cloud"]

end

end Verif.Eustace.Ice
