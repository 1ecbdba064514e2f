import Verif.Eustace.Locator.Descend
import Mathlib.Geometry.Euclidean.Angle.Unoriented.TriangleInequality

/-!
C170: triangles on the sphere: `src/eustace/analysis/mesh/geometry.py` (triangle_circumcentre, triangle_area_spherical,
barycentric_coordinates_spherical) and `src/eustace/analysis/mesh/locator.py` (triangle_barycentre_subdivide).

As in `Locator`, numbers are real and one row of the arrays is modelled.  A division of zero by zero, which is NaN in numpy, is `none`
here; NaN in one of the areas makes all coordinates of its row NaN.
-/

namespace Verif.Eustace.Geometry

open Verif.Eustace.Locator V3

noncomputable section

/-- `norm2` (geometry.py 26-29). -/
def norm2 (v : V3) : ℝ := dot v v

open Classical in
/-- `triangle_circumcentre` (geometry.py 5-24). -/
def circumcentre (p0 p1 p2 : V3) : Option V3 :=
  let c := p0
  let a := sub p1 c
  let b := sub p2 c
  let aCrossB := cross a b
  let numerator := cross (sub (scale (norm2 a) b) (scale (norm2 b) a)) aCrossB
  let denominator := 2 * norm2 aCrossB
  if denominator = 0 then none else some (add c (divide numerator denominator))

open Classical in
/-- `normalised_cross_product` (geometry.py 41-46). -/
def normalisedCross (a b : V3) : Option V3 :=
  let c := cross a b
  if len c = 0 then none else some (divide c (len c))

/-- `triangle_area_spherical` (geometry.py 62-80). -/
def areaSpherical (n0 n1 n2 : V3) : ℝ :=
  Real.arccos (-dot n0 n1) + Real.arccos (-dot n1 n2) + Real.arccos (-dot n2 n0) - Real.pi

/-- The area of the triangle with three corners, from its normals (geometry.py 112-114, 125). -/
def area (a b c : V3) : Option ℝ :=
  match normalisedCross a b, normalisedCross b c, normalisedCross c a with
  | some n0, some n1, some n2 => some (areaSpherical n0 n1 n2)
  | _, _, _ => none

open Classical in
/-- `barycentric_coordinates_spherical` (geometry.py 104-131). -/
def barycentricSpherical (p0 p1 p2 v : V3) : Option Bary :=
  match area p1 p2 v, area p2 p0 v, area p0 p1 v with
  | some a, some b, some c =>
    if a + b + c = 0 then none else some ⟨a / (a + b + c), b / (a + b + c), c / (a + b + c)⟩
  | _, _, _ => none

/-- `triangle_barycentre_subdivide` (locator.py 207-257). -/
def barycentreSubdivide (b : Bary) (subnumber : Nat) : Bary :=
  match subnumber with
  | 0 => ⟨b.b0 - b.b1 - b.b2, b.b1 * 2, b.b2 * 2⟩
  | 1 => ⟨b.b0 * 2, b.b1 - b.b2 - b.b0, b.b2 * 2⟩
  | 2 => ⟨b.b0 * 2, b.b1 * 2, b.b2 - b.b0 - b.b1⟩
  | 3 => ⟨-b.b0 + b.b1 + b.b2, b.b0 - b.b1 + b.b2, b.b0 + b.b1 - b.b2⟩
  | _ => ⟨0, 0, 0⟩

end

end Verif.Eustace.Geometry
