import Verif.Eustace.Geometry.Model

/-!
C170: circumcentres, areas on the sphere and coordinates in triangles.
-/

namespace Verif.Eustace.Geometry

open Verif.Eustace.Locator V3
open scoped RealInnerProductSpace NNReal
open InnerProductGeometry

noncomputable section

/-! ### Circumcentre -/

/-- Square of the distance. -/
def Dist2 (p q : V3) : ℝ := (p.x - q.x) ^ 2 + (p.y - q.y) ^ 2 + (p.z - q.z) ^ 2

/-- In the plane through three points. -/
def Coplanar (p p0 p1 p2 : V3) : Prop := ∃ s t : ℝ,
  p = ⟨p0.x + s * (p1.x - p0.x) + t * (p2.x - p0.x), p0.y + s * (p1.y - p0.y) + t * (p2.y - p0.y),
    p0.z + s * (p1.z - p0.z) + t * (p2.z - p0.z)⟩

/-- Three points which are not on a line. -/
def Triangle (p0 p1 p2 : V3) : Prop := cross (sub p1 p0) (sub p2 p0) ≠ ⟨0, 0, 0⟩

theorem norm2_ne {v : V3} (h : v ≠ ⟨0, 0, 0⟩) : norm2 v ≠ 0 := by
  intro e
  apply h
  unfold norm2 dot at e
  ext <;> simp only <;> nlinarith [sq_nonneg v.x, sq_nonneg v.y, sq_nonneg v.z]

/-- C170: the circumcentre is a point of the plane of the triangle which is equally far from its corners. -/
theorem c170_circumcentre (p0 p1 p2 : V3) (h : Triangle p0 p1 p2) :
    ∃ p, circumcentre p0 p1 p2 = some p ∧ Coplanar p p0 p1 p2 ∧ Dist2 p p0 = Dist2 p p1 ∧ Dist2 p p0 = Dist2 p p2 := by
  have hD := norm2_ne h
  unfold circumcentre
  simp only
  rw [if_neg (by simpa using hD)]
  refine ⟨_, rfl, ?_, ?_, ?_⟩
  · set a := sub p1 p0 with ha
    set b := sub p2 p0 with hb
    refine ⟨(norm2 a * norm2 b - norm2 b * dot a b) / (2 * norm2 (cross a b)),
      (norm2 a * norm2 b - norm2 a * dot a b) / (2 * norm2 (cross a b)), ?_⟩
    have e1 : p1.x - p0.x = a.x := rfl
    have e2 : p1.y - p0.y = a.y := rfl
    have e3 : p1.z - p0.z = a.z := rfl
    have f1 : p2.x - p0.x = b.x := rfl
    have f2 : p2.y - p0.y = b.y := rfl
    have f3 : p2.z - p0.z = b.z := rfl
    rw [e1, e2, e3, f1, f2, f3]
    ext <;> simp only [add, divide] <;> field_simp <;> simp only [cross, sub, scale, norm2, dot] <;> ring
  all_goals
    set a := sub p1 p0 with ha
    set b := sub p2 p0 with hb
    have e1 : p1.x = p0.x + a.x := by rw [ha]; simp only [sub]; ring
    have e2 : p1.y = p0.y + a.y := by rw [ha]; simp only [sub]; ring
    have e3 : p1.z = p0.z + a.z := by rw [ha]; simp only [sub]; ring
    have f1 : p2.x = p0.x + b.x := by rw [hb]; simp only [sub]; ring
    have f2 : p2.y = p0.y + b.y := by rw [hb]; simp only [sub]; ring
    have f3 : p2.z = p0.z + b.z := by rw [hb]; simp only [sub]; ring
    set N := cross (sub (scale (norm2 a) b) (scale (norm2 b) a)) (cross a b) with hN
    set D := norm2 (cross a b) with hDef
    have ka : dot N a = norm2 a * D := by
      rw [hN, hDef]; simp only [cross, sub, scale, norm2, dot]; ring
    have kb : dot N b = norm2 b * D := by
      rw [hN, hDef]; simp only [cross, sub, scale, norm2, dot]; ring
    simp only [Dist2, add, divide, e1, e2, e3, f1, f2, f3]
    simp only [dot, norm2] at ka kb
    field_simp
    first
      | linear_combination (4 * D) * ka
      | linear_combination (4 * D) * kb

/-- C170: there is only one such point. -/
theorem c170_circumcentre_unique (p0 p1 p2 p q : V3) (h : Triangle p0 p1 p2) (hp : Coplanar p p0 p1 p2) (hq : Coplanar q p0 p1 p2)
    (p1e : Dist2 p p0 = Dist2 p p1) (p2e : Dist2 p p0 = Dist2 p p2) (q1e : Dist2 q p0 = Dist2 q p1)
    (q2e : Dist2 q p0 = Dist2 q p2) : p = q := by
  have hD := norm2_ne h
  obtain ⟨s, t, rfl⟩ := hp
  obtain ⟨s', t', rfl⟩ := hq
  set a := sub p1 p0 with ha
  set b := sub p2 p0 with hb
  have ea : a.x = p1.x - p0.x ∧ a.y = p1.y - p0.y ∧ a.z = p1.z - p0.z := ⟨rfl, rfl, rfl⟩
  have eb : b.x = p2.x - p0.x ∧ b.y = p2.y - p0.y ∧ b.z = p2.z - p0.z := ⟨rfl, rfl, rfl⟩
  -- the difference of the points is orthogonal to both sides
  have k1 : (s - s') * dot a a + (t - t') * dot a b = 0 := by
    simp only [Dist2] at p1e q1e
    simp only [dot, ea.1, ea.2.1, ea.2.2, eb.1, eb.2.1, eb.2.2]
    linear_combination (p1e - q1e) / 2
  have k2 : (s - s') * dot a b + (t - t') * dot b b = 0 := by
    simp only [Dist2] at p2e q2e
    simp only [dot, ea.1, ea.2.1, ea.2.2, eb.1, eb.2.1, eb.2.2]
    linear_combination (p2e - q2e) / 2
  have kD : norm2 (cross a b) = dot a a * dot b b - dot a b * dot a b := by
    simp only [norm2, cross, dot]; ring
  have hs : s - s' = 0 := by
    have : (s - s') * norm2 (cross a b) = 0 := by rw [kD]; linear_combination dot b b * k1 - dot a b * k2
    exact (mul_eq_zero.1 this).resolve_right hD
  have ht : t - t' = 0 := by
    have : (t - t') * norm2 (cross a b) = 0 := by rw [kD]; linear_combination dot a a * k2 - dot a b * k1
    exact (mul_eq_zero.1 this).resolve_right hD
  rw [sub_eq_zero.1 hs, sub_eq_zero.1 ht]

example : circumcentre ⟨0, 0, 0⟩ ⟨2, 0, 0⟩ ⟨0, 2, 0⟩ = some ⟨1, 1, 0⟩ := by
  have h : Triangle ⟨0, 0, 0⟩ ⟨2, 0, 0⟩ ⟨0, 2, 0⟩ := by
    unfold Triangle cross sub; intro e; have := congrArg V3.z e; norm_num at this
  obtain ⟨p, hp, hc, h1, h2⟩ := c170_circumcentre _ _ _ h
  rw [hp, c170_circumcentre_unique _ _ _ p ⟨1, 1, 0⟩ h hc ⟨1 / 2, 1 / 2, by norm_num⟩ h1 h2
    (by norm_num [Dist2]) (by norm_num [Dist2])]

/-! ### Coordinates in the parts of a triangle -/

/-- The combination of three points with given coordinates. -/
def Point (b : Bary) (p : V3 × V3 × V3) : V3 :=
  ⟨b.b0 * p.1.x + b.b1 * p.2.1.x + b.b2 * p.2.2.x, b.b0 * p.1.y + b.b1 * p.2.1.y + b.b2 * p.2.2.y,
    b.b0 * p.1.z + b.b1 * p.2.1.z + b.b2 * p.2.2.z⟩

/-- C170: the coordinates in a part of a triangle, whose corners are midpoints of its sides, are those of the same point, and their sum
is the same. -/
theorem c170_subdivide (b : Bary) (p : V3 × V3 × V3) (k : Nat) (hk : k < 4) :
    Point (barycentreSubdivide b k) (rawPart p k) = Point b p ∧
      (barycentreSubdivide b k).b0 + (barycentreSubdivide b k).b1 + (barycentreSubdivide b k).b2 = b.b0 + b.b1 + b.b2 := by
  have : k = 0 ∨ k = 1 ∨ k = 2 ∨ k = 3 := by omega
  rcases this with rfl | rfl | rfl | rfl <;> refine ⟨?_, ?_⟩ <;>
    simp only [barycentreSubdivide, rawPart, Point, scale, add] <;> first | (ext <;> simp only <;> ring) | ring

/-- C170: in the part which the locator chooses they are not negative. -/
theorem c170_subdivide_inside (b : Bary) (h0 : 0 ≤ b.b0) (h1 : 0 ≤ b.b1) (h2 : 0 ≤ b.b2) :
    0 ≤ (barycentreSubdivide b (subdivisionNumber b)).b0 ∧ 0 ≤ (barycentreSubdivide b (subdivisionNumber b)).b1 ∧
      0 ≤ (barycentreSubdivide b (subdivisionNumber b)).b2 := by
  rcases subdivisionNumber_cases b with ⟨a0, e⟩ | ⟨a0, a1, e⟩ | ⟨a0, a1, a2, e⟩ | ⟨a0, a1, a2, e⟩ <;>
    rw [e] <;> simp only [barycentreSubdivide] <;> refine ⟨?_, ?_, ?_⟩ <;> linarith

end

end Verif.Eustace.Geometry
