import Verif.Eustace.SphereSpde.Model
import Verif.Eustace.Linear.Spec

/-!
Specification for the SPDE on the sphere: piecewise linear functions on the triangles, their gradients, and powers of the
operator.
-/

namespace Verif.Eustace.SphereSpde

open Matrix Verif.Eustace.Linear Verif.Eustace.Mesh Verif.Eustace.Locator Verif.Eustace.Locator.V3

noncomputable section

/-- Value at a point given by its number. -/
def valueAt {n : Nat} (x : Vec n) (k : Nat) : ℝ := if h : k < n then x ⟨k, h⟩ else 0

/-- Area of a triangle from the lengths of two sides and the product between them. -/
def gramArea (p : V3 × V3 × V3) : ℝ :=
  Real.sqrt (dot (sub p.2.1 p.1) (sub p.2.1 p.1) * dot (sub p.2.2 p.1) (sub p.2.2 p.1) -
    dot (sub p.2.1 p.1) (sub p.2.2 p.1) ^ 2) / 2

/-- `g` is the gradient of the linear function on the triangle with these values at its corners: it lies in the plane of
the triangle and gives the differences along two sides. -/
structure IsGradient (p : V3 × V3 × V3) (x0 x1 x2 : ℝ) (g : V3) : Prop where
  tangent : ∃ a b : ℝ, g = add (scale a (sub p.2.1 p.1)) (scale b (sub p.2.2 p.1))
  first : dot g (sub p.2.1 p.1) = x1 - x0
  second : dot g (sub p.2.2 p.1) = x2 - x0

/-- A mesh whose triangles are not degenerate and use all points and no others. -/
structure Sound (m : Mesh V3) : Prop where
  inside : ∀ t ∈ m.triangles, t.p0 < m.points.length ∧ t.p1 < m.points.length ∧ t.p2 < m.points.length
  used : ∀ k < m.points.length, ∃ t ∈ m.triangles, k = t.p0 ∨ k = t.p1 ∨ k = t.p2
  area : ∀ t ∈ m.triangles, 0 < gramArea (corners m t)

/-- The precision of order `alpha` of Lindgren and Rue: `K` for one, `K C⁻¹ K` for two, and each step by two adds
`K C⁻¹` on the left and `C⁻¹ K` on the right. -/
def orderPrecision {n : Nat} (C K : Mat n) : Nat → Mat n
  | 0 => C
  | 1 => K
  | alpha + 2 => K * C⁻¹ * orderPrecision C K alpha * C⁻¹ * K

end

end Verif.Eustace.SphereSpde
