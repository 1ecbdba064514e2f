import Verif.Eustace.Geometry.Props

/-!
C170: areas on the sphere, and coordinates by areas.
-/

namespace Verif.Eustace.Geometry

open Verif.Eustace.Locator V3
open scoped RealInnerProductSpace NNReal
open InnerProductGeometry

noncomputable section

/-! ### Specification -/

/-- A point as a vector of Euclidean space. -/
def E (v : V3) : EuclideanSpace ℝ (Fin 3) := !₂[v.x, v.y, v.z]

/-- The part of a vector which is orthogonal to another: the direction in which one leaves `b` on the great circle to `a`. -/
def Tangent (b a : EuclideanSpace ℝ (Fin 3)) : EuclideanSpace ℝ (Fin 3) := a - (⟪b, a⟫ / ⟪b, b⟫) • b

/-- The angle at `b` between the great circles to `a` and `c`. -/
def Corner (b a c : V3) : ℝ := angle (Tangent (E b) (E a)) (Tangent (E b) (E c))

/-- The area of a triangle on the unit sphere by Girard's theorem: the sum of its angles, less that of a plane triangle. -/
def Excess (a b c : V3) : ℝ := Corner a b c + Corner b a c + Corner c a b - Real.pi

/-! ### Angles between normals -/

theorem inner_E (a b : V3) : ⟪E a, E b⟫ = dot a b := by
  simp [E, PiLp.inner_apply, Fin.sum_univ_three, dot]
  ring

theorem norm_E (a : V3) : ‖E a‖ = len a := by
  rw [norm_eq_sqrt_real_inner, inner_E]; rfl

theorem E_ne {a : V3} (h : len a ≠ 0) : E a ≠ 0 := by
  rw [← norm_ne_zero_iff, norm_E]; exact h

theorem E_neg (a : V3) : E (scale (-1) a) = -E a := by
  ext i; fin_cases i <;> simp [E, scale]

theorem E_comb (s t : ℝ) (a b : V3) : E (add (scale s a) (scale t b)) = s • E a + t • E b := by
  ext i; fin_cases i <;> simp [E, scale, add]

theorem arccos_normals {u w : V3} (hu : len u ≠ 0) (hw : len w ≠ 0) :
    Real.arccos (-dot (divide u (len u)) (divide w (len w))) = angle (-E u) (E w) := by
  rw [angle, inner_neg_left, norm_neg, inner_E, norm_E, norm_E]
  congr 1
  simp only [dot, divide]
  field_simp

theorem angle_tangent {b : V3} (hb : len b ≠ 0) (a c : V3) : angle (E (cross b a)) (E (cross b c)) = Corner b a c := by
  have hbb : dot b b ≠ 0 := fun h => hb (by rw [len, h, Real.sqrt_zero])
  have hpos : 0 < dot b b := lt_of_le_of_ne (dot_self_nonneg b) (Ne.symm hbb)
  have key : ∀ x y : V3, ⟪E (cross b x), E (cross b y)⟫ = dot b b * ⟪Tangent (E b) (E x), Tangent (E b) (E y)⟫ := by
    intro x y
    simp only [Tangent, inner_sub_left, inner_sub_right, real_inner_smul_left, real_inner_smul_right, inner_E]
    field_simp
    simp only [dot, cross]
    ring
  have hn : ∀ x : V3, ‖E (cross b x)‖ = Real.sqrt (dot b b) * ‖Tangent (E b) (E x)‖ := by
    intro x
    rw [norm_eq_sqrt_real_inner, key, Real.sqrt_mul hpos.le, ← norm_eq_sqrt_real_inner]
  unfold Corner angle
  rw [key, hn, hn]
  congr 1
  rw [show Real.sqrt (dot b b) * ‖Tangent (E b) (E a)‖ * (Real.sqrt (dot b b) * ‖Tangent (E b) (E c)‖)
    = dot b b * (‖Tangent (E b) (E a)‖ * ‖Tangent (E b) (E c)‖) by
      rw [show ∀ r p q : ℝ, r * p * (r * q) = (r * r) * (p * q) by intros; ring, Real.mul_self_sqrt hpos.le]]
  exact mul_div_mul_left _ _ hbb

/-- Two points which are neither equal nor opposite. -/
def Apart (a b : V3) : Prop := cross a b ≠ ⟨0, 0, 0⟩

theorem Apart.len_ne {a b : V3} (h : Apart a b) : len (cross a b) ≠ 0 := fun e => h (eq_zero_of_len e)

theorem cross_swap (a b : V3) : cross a b = scale (-1) (cross b a) := by
  simp only [cross, scale]; ext <;> simp only <;> ring

theorem Apart.symm {a b : V3} (h : Apart a b) : Apart b a := by
  intro e
  apply h
  rw [cross_swap, e]
  simp [scale]

theorem Apart.left {a b : V3} (h : Apart a b) : len a ≠ 0 := by
  intro e
  apply h
  rw [eq_zero_of_len e]
  simp [cross]

theorem normalisedCross_some {a b : V3} (h : Apart a b) :
    normalisedCross a b = some (divide (cross a b) (len (cross a b))) := by
  unfold normalisedCross
  exact if_neg h.len_ne

/-- C170: the area of a triangle on the sphere is its spherical excess. -/
theorem c170_area {a b c : V3} (hab : Apart a b) (hbc : Apart b c) (hca : Apart c a) : area a b c = some (Excess a b c) := by
  unfold area
  rw [normalisedCross_some hab, normalisedCross_some hbc, normalisedCross_some hca]
  simp only
  unfold areaSpherical Excess
  rw [arccos_normals hab.len_ne hbc.len_ne, arccos_normals hbc.len_ne hca.len_ne, arccos_normals hca.len_ne hab.len_ne,
    ← E_neg, ← E_neg, ← E_neg, ← cross_swap, ← cross_swap, ← cross_swap, angle_tangent hbc.left, angle_tangent hca.left,
    angle_tangent hab.left]
  have e1 : Corner c b a = Corner c a b := angle_comm _ _
  have e2 : Corner a c b = Corner a b c := angle_comm _ _
  rw [e1, e2]
  congr 1
  ring

/-! ### The area is not negative -/

theorem three_angles {x y z : EuclideanSpace ℝ (Fin 3)} : Real.pi ≤ angle (-x) y + angle (-y) z + angle (-z) x := by
  have h := angle_le_angle_add_angle z (-y) x
  rw [angle_comm z (-y)] at h
  have e1 : angle (-y) x = angle (-x) y := by rw [← angle_neg_neg, neg_neg, angle_comm]
  have e2 : angle (-z) x = Real.pi - angle z x := angle_neg_left z x
  rw [e1] at h
  rw [e2]
  linarith

/-- C170: the excess of a triangle is not negative, whatever its corners. -/
theorem c170_nonneg {a b c : V3} (hab : Apart a b) (hbc : Apart b c) (hca : Apart c a) : 0 ≤ Excess a b c := by
  have := three_angles (x := E (cross a b)) (y := E (cross b c)) (z := E (cross c a))
  rw [← E_neg, ← E_neg, ← E_neg, ← cross_swap, ← cross_swap, ← cross_swap, angle_tangent hbc.left, angle_tangent hca.left,
    angle_tangent hab.left] at this
  have e1 : Corner c b a = Corner c a b := angle_comm _ _
  have e2 : Corner a c b = Corner a b c := angle_comm _ _
  rw [e1, e2] at this
  unfold Excess
  linarith

/-- C170: and it is positive if the corners are not on one great circle. -/
theorem c170_positive {a b c : V3} (h : det a b c ≠ 0) (hab : Apart a b) (hbc : Apart b c) (hca : Apart c a) : 0 < Excess a b c := by
  have hz := c170_nonneg hab hbc hca
  refine lt_of_le_of_ne hz fun h0 => h ?_
  -- equality in the triangle inequality
  have hy : (-E (cross b c)) ≠ 0 := neg_ne_zero.2 (E_ne hbc.len_ne)
  have heq : angle (E (cross c a)) (E (cross a b))
      = angle (E (cross c a)) (-E (cross b c)) + angle (-E (cross b c)) (E (cross a b)) := by
    have e1 : angle (E (cross c a)) (-E (cross b c)) = Corner c a b := by
      rw [← E_neg, ← cross_swap]; exact angle_tangent hca.left a b
    have e2 : angle (-E (cross b c)) (E (cross a b)) = Corner b a c := by
      rw [← angle_neg_neg, neg_neg, ← E_neg, ← cross_swap, angle_tangent hbc.left]; exact angle_comm _ _
    have e3 : angle (E (cross c a)) (E (cross a b)) = Real.pi - Corner a b c := by
      rw [← angle_tangent hab.left, cross_swap a c, E_neg, angle_comm (E (cross a b)), angle_neg_left]
      ring
    rw [e1, e2, e3]
    unfold Excess at h0
    linarith
  rw [angle_eq_angle_add_angle_iff hy] at heq
  have hdet : det (cross a b) (cross b c) (cross c a) = det a b c ^ 2 := by
    simp only [det, dot, cross]; ring
  have hzero : det (cross a b) (cross b c) (cross c a) = 0 := by
    rcases heq with h1 | h1
    · rw [angle_eq_pi_iff] at h1
      obtain ⟨-, r, -, hr⟩ := h1
      have hx := congrArg (· 0) hr
      have hy' := congrArg (· 1) hr
      have hz' := congrArg (· 2) hr
      simp [E] at hx hy' hz'
      simp only [det, dot]
      rw [show (cross (cross b c) (cross c a)).x = (cross b c).y * (cross c a).z - (cross b c).z * (cross c a).y from rfl,
        show (cross (cross b c) (cross c a)).y = (cross b c).z * (cross c a).x - (cross b c).x * (cross c a).z from rfl,
        show (cross (cross b c) (cross c a)).z = (cross b c).x * (cross c a).y - (cross b c).y * (cross c a).x from rfl,
        hx, hy', hz']
      ring
    · rw [Submodule.mem_span_pair] at h1
      obtain ⟨k, l, hkl⟩ := h1
      have hx := congrArg (· 0) hkl
      have hy' := congrArg (· 1) hkl
      have hz' := congrArg (· 2) hkl
      simp [E, NNReal.smul_def] at hx hy' hz'
      simp only [det, dot]
      rw [show (cross (cross b c) (cross c a)).x = (cross b c).y * (cross c a).z - (cross b c).z * (cross c a).y from rfl,
        show (cross (cross b c) (cross c a)).y = (cross b c).z * (cross c a).x - (cross b c).x * (cross c a).z from rfl,
        show (cross (cross b c) (cross c a)).z = (cross b c).x * (cross c a).y - (cross b c).y * (cross c a).x from rfl,
        show (cross b c).x = -(k * (cross c a).x + l * (cross a b).x) by linarith,
        show (cross b c).y = -(k * (cross c a).y + l * (cross a b).y) by linarith,
        show (cross b c).z = -(k * (cross c a).z + l * (cross a b).z) by linarith]
      ring
  rw [hdet] at hzero
  exact pow_eq_zero_iff (two_ne_zero) |>.1 hzero

/-! ### Parts of a triangle -/

/-- Angles add up where the middle direction is between the others. -/
theorem angle_between {x y z : EuclideanSpace ℝ (Fin 3)} {s t : ℝ} (hy : y ≠ 0) (hs : 0 ≤ s) (ht : 0 ≤ t) (h : y = s • x + t • z) :
    angle x z = angle x y + angle y z := by
  apply angle_eq_angle_add_add_angle_add_of_mem_span hy
  rw [Submodule.mem_span_pair]
  exact ⟨⟨s, hs⟩, ⟨t, ht⟩, by rw [h]; rfl⟩

/-- The angle of a corner is the sum of those of its two parts. -/
theorem corner_split {p q r v : V3} (hp : len p ≠ 0) (hv : Apart p v) {s t : ℝ} (hs : 0 ≤ s) (ht : 0 ≤ t)
    (h : cross p v = add (scale s (cross p q)) (scale t (cross p r))) : Corner p q r = Corner p q v + Corner p v r := by
  rw [← angle_tangent hp, ← angle_tangent hp, ← angle_tangent hp]
  exact angle_between (E_ne hv.len_ne) hs ht (by rw [h, E_comb])

/-- The three angles around a point. -/
theorem angles_around {x y z : EuclideanSpace ℝ (Fin 3)} {a b c : ℝ} (ha : 0 ≤ a) (hb : 0 < b) (hc : 0 ≤ c) (hy : y ≠ 0)
    (h : a • x + b • y + c • z = 0) : angle x y + angle y z + angle z x = 2 * Real.pi := by
  have hb' : b ≠ 0 := hb.ne'
  have e : -y = (a / b) • x + (c / b) • z := by
    have : b • (-y) = a • x + c • z := by
      rw [smul_neg, neg_eq_iff_add_eq_zero]
      rw [← h]; abel
    calc -y = (1 / b) • (b • (-y)) := by rw [smul_smul, one_div_mul_cancel hb', one_smul]
      _ = _ := by rw [this, smul_add, smul_smul, smul_smul, one_div_mul_eq_div, one_div_mul_eq_div]
  have := angle_between (neg_ne_zero.2 hy) (div_nonneg ha hb.le) (div_nonneg hc hb.le) e
  rw [angle_neg_right, angle_neg_left, angle_comm x z] at this
  linarith

/-- C170: the parts into which a point of a triangle divides it have together the area of the triangle. -/
theorem c170_parts {p0 p1 p2 v : V3} (hin : InCone v p0 p1 p2) (h0 : Apart v p0) (h1 : Apart v p1) (h2 : Apart v p2)
    (h01 : Apart p0 p1) (h12 : Apart p1 p2) (h20 : Apart p2 p0) :
    Excess p1 p2 v + Excess p2 p0 v + Excess p0 p1 v = Excess p0 p1 p2 := by
  obtain ⟨c0, c1, c2, g0, g1, g2, rfl⟩ := hin
  set v := add (add (scale c0 p0) (scale c1 p1)) (scale c2 p2) with hv
  have s0 : Corner p0 p1 p2 = Corner p0 p1 v + Corner p0 v p2 :=
    corner_split h01.left h0.symm g1 g2 (by rw [hv]; simp only [cross, add, scale]; ext <;> simp only <;> ring)
  have s1 : Corner p1 p0 p2 = Corner p1 p0 v + Corner p1 v p2 :=
    corner_split h12.left h1.symm g0 g2 (by rw [hv]; simp only [cross, add, scale]; ext <;> simp only <;> ring)
  have s2 : Corner p2 p0 p1 = Corner p2 p0 v + Corner p2 v p1 :=
    corner_split h20.left h2.symm g0 g1 (by rw [hv]; simp only [cross, add, scale]; ext <;> simp only <;> ring)
  have hsum : c0 • E (cross v p0) + c1 • E (cross v p1) + c2 • E (cross v p2) = 0 := by
    rw [hv]
    ext i
    fin_cases i <;> simp [E, cross, add, scale] <;> ring
  have hlv := h0.left
  have around : Corner v p0 p1 + Corner v p1 p2 + Corner v p2 p0 = 2 * Real.pi := by
    rw [← angle_tangent hlv, ← angle_tangent hlv, ← angle_tangent hlv]
    rcases g1.lt_or_eq with k1 | k1
    · exact angles_around g0 k1 g2 (E_ne h1.len_ne) hsum
    rcases g2.lt_or_eq with k2 | k2
    · have := angles_around g1 k2 g0 (E_ne h2.len_ne) (x := E (cross v p1)) (z := E (cross v p0)) (by rw [← hsum]; abel)
      linarith
    rcases g0.lt_or_eq with k0 | k0
    · have := angles_around g2 k0 g1 (E_ne h0.len_ne) (x := E (cross v p2)) (z := E (cross v p1)) (by rw [← hsum]; abel)
      linarith
    · exfalso
      apply h0
      rw [hv, ← k0, ← k1, ← k2]
      simp [cross, add, scale]
  have c1' : ∀ a b c : V3, Corner a b c = Corner a c b := fun a b c => angle_comm _ _
  unfold Excess
  linarith [c1' p1 p2 v, c1' p2 p1 v, c1' p0 p2 v]

/-- C170: coordinates by areas: for a point of a triangle which is not one of its corners they are the areas of the opposite parts as
fractions of the whole; none is negative, and their sum is one. -/
theorem c170_spherical {p0 p1 p2 v : V3} (hd : det p0 p1 p2 ≠ 0) (hin : InCone v p0 p1 p2) (h0 : Apart v p0) (h1 : Apart v p1)
    (h2 : Apart v p2) (h01 : Apart p0 p1) (h12 : Apart p1 p2) (h20 : Apart p2 p0) :
    ∃ b, barycentricSpherical p0 p1 p2 v = some b ∧ b.b0 = Excess p1 p2 v / Excess p0 p1 p2 ∧
      b.b1 = Excess p2 p0 v / Excess p0 p1 p2 ∧ b.b2 = Excess p0 p1 v / Excess p0 p1 p2 ∧
      0 ≤ b.b0 ∧ 0 ≤ b.b1 ∧ 0 ≤ b.b2 ∧ b.b0 + b.b1 + b.b2 = 1 := by
  have hpos := c170_positive hd h01 h12 h20
  have hparts := c170_parts hin h0 h1 h2 h01 h12 h20
  have n0 := c170_nonneg h12 h2.symm h1
  have n1 := c170_nonneg h20 h0.symm h2
  have n2 := c170_nonneg h01 h1.symm h0
  refine ⟨⟨Excess p1 p2 v / Excess p0 p1 p2, Excess p2 p0 v / Excess p0 p1 p2, Excess p0 p1 v / Excess p0 p1 p2⟩, ?_, rfl, rfl, rfl,
    div_nonneg n0 hpos.le, div_nonneg n1 hpos.le, div_nonneg n2 hpos.le, ?_⟩
  · unfold barycentricSpherical
    rw [c170_area h12 h2.symm h1, c170_area h20 h0.symm h2, c170_area h01 h1.symm h0]
    simp only
    rw [hparts, if_neg hpos.ne']
  · show Excess p1 p2 v / Excess p0 p1 p2 + Excess p2 p0 v / Excess p0 p1 p2 + Excess p0 p1 v / Excess p0 p1 p2 = 1
    rw [← add_div, ← add_div, hparts, div_self hpos.ne']

end

end Verif.Eustace.Geometry
