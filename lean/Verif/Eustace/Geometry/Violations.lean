import Verif.Eustace.Geometry.Spherical

/-!
C170: where coordinates by areas, and coordinates in parts, are not what they are taken for.
-/

namespace Verif.Eustace.Geometry

open Verif.Eustace.Locator V3
open scoped RealInnerProductSpace NNReal
open InnerProductGeometry

noncomputable section

/-- C170 fails at the corners of a triangle: coordinates by areas are not defined there. -/
theorem c170_corner_violated (p0 p1 p2 : V3) :
    barycentricSpherical p0 p1 p2 p0 = none ∧ barycentricSpherical p0 p1 p2 p1 = none ∧ barycentricSpherical p0 p1 p2 p2 = none := by
  have hself : ∀ p : V3, normalisedCross p p = none := by
    intro p
    unfold normalisedCross
    apply if_pos
    simp only [cross, len, dot]
    rw [show p.y * p.z - p.z * p.y = 0 by ring, show p.z * p.x - p.x * p.z = 0 by ring, show p.x * p.y - p.y * p.x = 0 by ring]
    simp
  have e1 : ∀ p q : V3, area p q p = none := by intro p q; unfold area; rw [hself]; split <;> simp_all
  have e2 : ∀ p q : V3, area q p p = none := by intro p q; unfold area; rw [hself]; split <;> simp_all
  refine ⟨?_, ?_, ?_⟩ <;> unfold barycentricSpherical <;> simp only [e1, e2] <;> split <;> simp_all

/-! ### The octant -/

/-- The triangle with corners on the three axes. -/
def octant : V3 × V3 × V3 := (⟨1, 0, 0⟩, ⟨0, 0, 1⟩, ⟨0, 1, 0⟩)

theorem octant_proper : Proper octant where
  u0 := by simp [octant, len, dot]
  u1 := by simp [octant, len, dot]
  u2 := by simp [octant, len, dot]
  clockwise := by simp [octant, det, dot, cross]

/-- A point of the octant near the middle of the line between two midpoints of sides, beyond it. -/
def beyond : V3 := ⟨20, 11, 11⟩

theorem octant_excess : Excess octant.1 octant.2.1 octant.2.2 = Real.pi / 2 := by
  have key : ∀ b a c : V3, len b ≠ 0 → dot (cross b a) (cross b c) = 0 → Corner b a c = Real.pi / 2 := by
    intro b a c hb h
    rw [← angle_tangent hb]
    rw [← inner_eq_zero_iff_angle_eq_pi_div_two, inner_E, h]
  unfold Excess octant
  rw [key _ _ _ (by simp [len, dot]) (by simp [dot, cross]), key _ _ _ (by simp [len, dot]) (by simp [dot, cross]),
    key _ _ _ (by simp [len, dot]) (by simp [dot, cross])]
  ring

/-- An eighth of the sphere. -/
example : area octant.1 octant.2.1 octant.2.2 = some (4 * Real.pi / 8) := by
  have apart : ∀ {a b : V3}, (cross a b).x ≠ 0 ∨ (cross a b).y ≠ 0 ∨ (cross a b).z ≠ 0 → Apart a b := by
    intro a b h e
    rw [e] at h
    simp at h
  rw [c170_area (apart (by simp [octant, cross])) (apart (by simp [octant, cross])) (apart (by simp [octant, cross])), octant_excess]
  congr 1
  ring

theorem corner_arccos {b a c : V3} (hb : len b ≠ 0) :
    Corner b a c = Real.arccos (dot (cross b a) (cross b c) / (len (cross b a) * len (cross b c))) := by
  rw [← angle_tangent hb, angle, inner_E, norm_E, norm_E]

theorem beyond_excess : Real.pi / 4 ≤ Excess octant.2.1 octant.2.2 beyond := by
  have hs : Real.sqrt 521 * Real.sqrt 521 = 521 := Real.mul_self_sqrt (by norm_num)
  have hs0 : 0 < Real.sqrt 521 := Real.sqrt_pos.2 (by norm_num)
  have a1 : Corner octant.2.1 octant.2.2 beyond = Real.arccos (11 / Real.sqrt 521) := by
    rw [corner_arccos (by simp [octant, len, dot])]
    congr 1
    simp only [octant, beyond, cross, dot, len]
    norm_num
  have a2 : Corner octant.2.2 octant.2.1 beyond = Real.arccos (11 / Real.sqrt 521) := by
    rw [corner_arccos (by simp [octant, len, dot])]
    congr 1
    simp only [octant, beyond, cross, dot, len]
    norm_num
  have a3 : Corner beyond octant.2.1 octant.2.2 = Real.arccos (-121 / 521) := by
    rw [corner_arccos (by simp only [beyond, len, dot]; norm_num)]
    congr 1
    simp only [octant, beyond, cross, dot, len]
    norm_num
  set θ := Real.arccos (11 / Real.sqrt 521) with hθ
  have hle : 11 / Real.sqrt 521 ≤ 1 := by
    rw [div_le_one hs0]; exact Real.le_sqrt_of_sq_le (by norm_num)
  have hcos : Real.cos θ = 11 / Real.sqrt 521 :=
    Real.cos_arccos (le_trans (by norm_num) (div_nonneg (by norm_num) hs0.le)) hle
  have hsin : Real.sin θ = 20 / Real.sqrt 521 := by
    rw [hθ, Real.sin_arccos, show 1 - (11 / Real.sqrt 521) ^ 2 = (20 / Real.sqrt 521) ^ 2 by
      rw [div_pow, div_pow, pow_two (Real.sqrt 521), hs]; norm_num]
    exact Real.sqrt_sq (div_nonneg (by norm_num) hs0.le)
  have hup : θ ≤ Real.pi / 2 := by rw [hθ, Real.arccos_le_pi_div_two]; exact div_nonneg (by norm_num) hs0.le
  have hlow : Real.pi / 4 ≤ θ := by
    rw [← Real.arccos_cos (x := Real.pi / 4) (by positivity) (by linarith [Real.pi_pos])]
    apply Real.arccos_le_arccos
    rw [Real.cos_pi_div_four, div_le_div_iff₀ hs0 (by norm_num)]
    nlinarith [Real.sqrt_nonneg 2, Real.mul_self_sqrt (show (0 : ℝ) ≤ 2 by norm_num),
      Real.sqrt_nonneg (521 : ℝ), Real.le_sqrt_of_sq_le (show (1.4 : ℝ) ^ 2 ≤ 2 by norm_num),
      Real.le_sqrt_of_sq_le (show (22 : ℝ) ^ 2 ≤ 521 by norm_num)]
  have hphi : 5 * Real.pi / 4 - 2 * θ ≤ Real.arccos (-121 / 521) := by
    rw [← Real.arccos_cos (x := 5 * Real.pi / 4 - 2 * θ) (by linarith [Real.pi_pos]) (by linarith [Real.pi_pos])]
    apply Real.arccos_le_arccos
    have e : 5 * Real.pi / 4 - 2 * θ = Real.pi + (Real.pi / 4 - 2 * θ) := by ring
    rw [e, Real.cos_add, Real.cos_pi, Real.sin_pi, Real.cos_sub, Real.cos_pi_div_four, Real.sin_pi_div_four, Real.cos_two_mul,
      Real.sin_two_mul, hcos, hsin]
    have e2 : 2 * (11 / Real.sqrt 521) ^ 2 - 1 = -279 / 521 := by
      rw [div_pow, pow_two (Real.sqrt 521), hs]; norm_num
    have e3 : 2 * (20 / Real.sqrt 521) * (11 / Real.sqrt 521) = 440 / 521 := by
      rw [show 2 * (20 / Real.sqrt 521) * (11 / Real.sqrt 521) = 440 / (Real.sqrt 521 * Real.sqrt 521) by field_simp; norm_num, hs]
    rw [e2, e3]
    have h2 : Real.sqrt 2 ≤ 1.5 := Real.sqrt_le_iff.2 ⟨by norm_num, by norm_num⟩
    linarith
  unfold Excess
  rw [a1, a2, a3]
  linarith

/-- C170 fails for the locator with coordinates by areas (the option `evaluation_method`): it chooses a part of a triangle in which the
point is not. -/
theorem c170_descent_violated : ∃ (p : V3 × V3 × V3) (v : V3) (b : Bary), Proper p ∧ InCone v p.1 p.2.1 p.2.2 ∧
    barycentricSpherical p.1 p.2.1 p.2.2 v = some b ∧ subdivisionNumber b = 0 ∧
    ¬ InCone v (part p 0).1 (part p 0).2.1 (part p 0).2.2 := by
  have hin : InCone beyond octant.1 octant.2.1 octant.2.2 :=
    ⟨20, 11, 11, by norm_num, by norm_num, by norm_num, by ext <;> simp [beyond, octant, add, scale]⟩
  have apart : ∀ {a b : V3}, (cross a b).x ≠ 0 ∨ (cross a b).y ≠ 0 ∨ (cross a b).z ≠ 0 → Apart a b := by
    intro a b h e
    rw [e] at h
    simp at h
  have h0 : Apart beyond octant.1 := apart (by simp [beyond, octant, cross])
  have h1 : Apart beyond octant.2.1 := apart (by simp [beyond, octant, cross])
  have h2 : Apart beyond octant.2.2 := apart (by simp [beyond, octant, cross])
  have h01 : Apart octant.1 octant.2.1 := apart (by simp [octant, cross])
  have h12 : Apart octant.2.1 octant.2.2 := apart (by simp [octant, cross])
  have h20 : Apart octant.2.2 octant.1 := apart (by simp [octant, cross])
  obtain ⟨b, hb, e0, e1, e2, n0, n1, n2, hs⟩ := c170_spherical octant_proper.clockwise.ne hin h0 h1 h2 h01 h12 h20
  refine ⟨octant, beyond, b, octant_proper, hin, hb, ?_, ?_⟩
  · have hx := beyond_excess
    have hhalf : 1 / 2 ≤ b.b0 := by
      rw [e0, octant_excess, le_div_iff₀ (by positivity)]
      linarith
    rcases subdivisionNumber_cases b with ⟨-, e⟩ | ⟨a0, -⟩ | ⟨a0, -⟩ | ⟨a0, -⟩
    · exact e
    all_goals exact absurd (by linarith) a0
  · rw [inCone_part octant_proper 0]
    rintro ⟨c0, c1, c2, g0, g1, g2, e⟩
    have hx := congrArg V3.x e
    have hy := congrArg V3.y e
    have hz := congrArg V3.z e
    simp only [beyond, rawPart, octant, add, scale] at hx hy hz
    norm_num at hx hy hz
    linarith

/-- C170 fails for coordinates in parts: those of a part whose corners are on the sphere, which is what the mesh and the locator use,
are others. -/
theorem c170_subdivide_violated : ∃ (p : V3 × V3 × V3) (v : V3), Proper p ∧ InCone v (part p 0).1 (part p 0).2.1 (part p 0).2.2 ∧
    barycentricPlanar (part p 0).1 (part p 0).2.1 (part p 0).2.2 v
      ≠ barycentreSubdivide (barycentricPlanar p.1 p.2.1 p.2.2 v) 0 := by
  set m := midOnSphere octant.1 octant.2.1 with hm
  have hlen : len (scale 0.5 (add octant.1 octant.2.1)) = Real.sqrt 2 / 2 := by
    simp only [octant, len, dot, scale, add]
    rw [show ((0.5 * (1 + 0)) * (0.5 * (1 + 0)) + (0.5 * (0 + 0)) * (0.5 * (0 + 0)) + (0.5 * (0 + 1)) * (0.5 * (0 + 1)) : ℝ)
      = 2 / (2 * 2) by norm_num, Real.sqrt_div (by norm_num), Real.sqrt_mul_self (by norm_num)]
  have hmm : m = ⟨1 / Real.sqrt 2, 0, 1 / Real.sqrt 2⟩ := by
    rw [hm]; unfold midOnSphere; simp only [hlen]
    simp only [octant, divide, scale, add]
    ext <;> simp only <;> field_simp <;> norm_num
  have s2 : 0 < Real.sqrt 2 := Real.sqrt_pos.2 (by norm_num)
  have hproper := part_proper octant_proper 0
  have e1 := bary_eq (c0 := 1) (c1 := 1) (c2 := 0) hproper.clockwise.ne (by norm_num) (by norm_num) (le_refl 0) (by norm_num)
  have e2 := bary_eq (c0 := 1 + 1 / Real.sqrt 2) (c1 := 1 / Real.sqrt 2) (c2 := 0) octant_proper.clockwise.ne (by positivity)
    (by positivity) (le_refl 0) (by positivity)
  refine ⟨octant, add octant.1 m, octant_proper, ⟨1, 1, 0, by norm_num, by norm_num, le_refl 0, ?_⟩, ?_⟩
  · simp only [part, ← hm, add, scale]; ext <;> simp
  · have v1 : add octant.1 m = add (add (scale 1 (part octant 0).1) (scale 1 (part octant 0).2.1)) (scale 0 (part octant 0).2.2) := by
      simp only [part, ← hm, add, scale]; ext <;> simp
    have v2 : add octant.1 m
        = add (add (scale (1 + 1 / Real.sqrt 2) octant.1) (scale (1 / Real.sqrt 2) octant.2.1)) (scale 0 octant.2.2) := by
      rw [hmm]; simp only [octant, add, scale]; ext <;> simp
    intro h
    rw [← v1] at e1
    rw [← v2] at e2
    rw [e1, e2] at h
    have := congrArg Bary.b1 h
    simp only [barycentreSubdivide] at this
    field_simp at this
    nlinarith [Real.mul_self_sqrt (show (0 : ℝ) ≤ 2 by norm_num), Real.lt_sqrt_of_sq_lt (show (1 : ℝ) ^ 2 < 2 by norm_num)]

end

end Verif.Eustace.Geometry
