import Verif.Eustace.Locator.Props
import Mathlib.Algebra.BigOperators.Ring.Finset
import Mathlib.Algebra.BigOperators.Group.Finset.Piecewise
import Mathlib.Algebra.Order.BigOperators.Group.Finset

/-! Theorems about the design matrix, polar coordinates and the rotated mesh. -/

namespace Verif.Eustace.Locator

open Verif.Eustace.Mesh V3

noncomputable section

/-! ### C77: the design matrix -/

/-- A weighted sum over the columns of a row of the design matrix has three terms only. -/
theorem sum_three (N : Nat) {i0 i1 i2 : Nat} (h0 : i0 < N) (h1 : i1 < N) (h2 : i2 < N)
    (h01 : i0 ≠ i1) (h12 : i1 ≠ i2) (h20 : i2 ≠ i0) (w0 w1 w2 : ℝ) (f : Nat → ℝ) :
    ∑ j ∈ Finset.range N,
      (if j = i2 then w2 else if j = i1 then w1 else if j = i0 then w0 else 0) * f j =
      w0 * f i0 + w1 * f i1 + w2 * f i2 := by
  have e : ∀ j, (if j = i2 then w2 else if j = i1 then w1 else if j = i0 then w0 else 0) * f j =
      (if j = i0 then w0 * f i0 else 0) + (if j = i1 then w1 * f i1 else 0) +
        (if j = i2 then w2 * f i2 else 0) := by
    intro j
    by_cases a : j = i2
    · subst a
      rw [if_pos rfl, if_neg h20, if_neg (Ne.symm h12), if_pos rfl]; ring
    · by_cases b : j = i1
      · subst b
        rw [if_neg a, if_pos rfl, if_neg (Ne.symm h01), if_pos rfl, if_neg a]; ring
      · by_cases c : j = i0
        · subst c
          rw [if_neg a, if_neg b, if_pos rfl, if_pos rfl, if_neg b, if_neg a]; ring
        · rw [if_neg a, if_neg b, if_neg c, if_neg c, if_neg b, if_neg a]; ring
  rw [Finset.sum_congr rfl (fun j _ => e j), Finset.sum_add_distrib, Finset.sum_add_distrib,
    Finset.sum_ite_eq', Finset.sum_ite_eq', Finset.sum_ite_eq', if_pos (Finset.mem_range.2 h0),
    if_pos (Finset.mem_range.2 h1), if_pos (Finset.mem_range.2 h2)]

/-- **C77.**  Each row of the design matrix interpolates on one triangle of the mesh: the weights are
non-negative, vanish away from the corners of the triangle which contains the location, sum to one
over all points of the mesh, and the weighted sum of the points has the direction of the location. -/
theorem c77_interpolation (srt : Argsort) {pts : List V3} (hg : GoodPoints pts) {v : V3}
    (hv : v ≠ ⟨0, 0, 0⟩) (L : Nat) (hL : L ≤ 28) :
    ∃ s t, locate (build srt midOnSphere pts 0) v L = some s ∧
      t ∈ (build srt midOnSphere pts L).triangles ∧
      InCone v (corners (build srt midOnSphere pts L) t).1
        (corners (build srt midOnSphere pts L) t).2.1
        (corners (build srt midOnSphere pts L) t).2.2 ∧
      (∀ j, 0 ≤ designRow (build srt midOnSphere pts L) s L j) ∧
      (∀ j, j ≠ t.p0 → j ≠ t.p1 → j ≠ t.p2 →
        designRow (build srt midOnSphere pts L) s L j = 0) ∧
      ∑ j ∈ Finset.range (build srt midOnSphere pts L).points.length,
        designRow (build srt midOnSphere pts L) s L j = 1 ∧
      ∃ κ : ℝ, 0 < κ ∧
        κ * v.x = ∑ j ∈ Finset.range (build srt midOnSphere pts L).points.length,
          designRow (build srt midOnSphere pts L) s L j *
            ((build srt midOnSphere pts L).points.getD j default).x ∧
        κ * v.y = ∑ j ∈ Finset.range (build srt midOnSphere pts L).points.length,
          designRow (build srt midOnSphere pts L) s L j *
            ((build srt midOnSphere pts L).points.getD j default).y ∧
        κ * v.z = ∑ j ∈ Finset.range (build srt midOnSphere pts L).points.length,
          designRow (build srt midOnSphere pts L) s L j *
            ((build srt midOnSphere pts L).points.getD j default).z := by
  obtain ⟨s, t, hs, ht, hid, hpts, hloc⟩ := c31_locate srt hg hv L hL
  have hgood := good_build srt midOnSphere pts hg.num L hL
  have hmem := List.mem_of_getElem? ht
  obtain ⟨d01, d12, d20⟩ := tri_distinct hgood t hmem
  obtain ⟨l0, l1, l2⟩ := c29_points srt midOnSphere pts hg.num L hL t hmem
  have htd : (build srt midOnSphere pts L).triangles.getD (indexAtLevel s.id L) default = t := by
    rw [List.getD_eq_getElem?_getD, ht]; rfl
  have hrow : ∀ j, designRow (build srt midOnSphere pts L) s L j =
      if j = t.p2 then s.bary.b2 else if j = t.p1 then s.bary.b1 else
        if j = t.p0 then s.bary.b0 else 0 := by
    intro j
    unfold designRow
    simp only [htd]
  refine ⟨s, t, hs, hmem, hloc.inside, ?_, ?_, ?_, ?_⟩
  · intro j
    rw [hrow]
    obtain ⟨n0, n1, n2⟩ := hloc.nonneg
    split_ifs <;> first | assumption | exact le_refl _
  · intro j a b c
    rw [hrow, if_neg c, if_neg b, if_neg a]
  · have := sum_three _ l0 l1 l2 d01 d12 d20 s.bary.b0 s.bary.b1 s.bary.b2 (fun _ => 1)
    simp only [mul_one] at this
    rw [Finset.sum_congr rfl (fun j _ => hrow j), this]
    exact hloc.sum
  · obtain ⟨κ, hκ, e⟩ := hloc.point
    have ex := congrArg V3.x e
    have ey := congrArg V3.y e
    have ez := congrArg V3.z e
    simp only [add, scale, corners] at ex ey ez
    refine ⟨κ, hκ, ?_, ?_, ?_⟩
    · rw [Finset.sum_congr rfl (fun j _ => by rw [hrow j]),
        sum_three _ l0 l1 l2 d01 d12 d20 s.bary.b0 s.bary.b1 s.bary.b2
          (fun j => ((build srt midOnSphere pts L).points.getD j default).x)]
      exact ex
    · rw [Finset.sum_congr rfl (fun j _ => by rw [hrow j]),
        sum_three _ l0 l1 l2 d01 d12 d20 s.bary.b0 s.bary.b1 s.bary.b2
          (fun j => ((build srt midOnSphere pts L).points.getD j default).y)]
      exact ey
    · rw [Finset.sum_congr rfl (fun j _ => by rw [hrow j]),
        sum_three _ l0 l1 l2 d01 d12 d20 s.bary.b0 s.bary.b1 s.bary.b2
          (fun j => ((build srt midOnSphere pts L).points.getD j default).z)]
      exact ez

/-! ### C78: polar coordinates -/

theorem polar_unit (lat lon : ℝ) : dot (polarToCartesian lat lon) (polarToCartesian lat lon) = 1 := by
  simp only [polarToCartesian, dot]
  have h1 := Real.sin_sq_add_cos_sq (lat * (Real.pi / 180))
  have h2 := Real.sin_sq_add_cos_sq (lon * (Real.pi / 180))
  generalize Real.sin (lat * (Real.pi / 180)) = a at *
  generalize Real.cos (lat * (Real.pi / 180)) = b at *
  generalize Real.sin (lon * (Real.pi / 180)) = c at *
  generalize Real.cos (lon * (Real.pi / 180)) = d at *
  linear_combination h1 + b ^ 2 * h2

theorem polar_ne (lat lon : ℝ) : polarToCartesian lat lon ≠ ⟨0, 0, 0⟩ := by
  intro h
  have := polar_unit lat lon
  rw [h] at this
  simp [dot] at this

/-- **C78.**  Every latitude and longitude gives a point of the unit sphere. -/
theorem c78_unit (lat lon : ℝ) : len (polarToCartesian lat lon) = 1 := len_eq_one (polar_unit lat lon)

/-- **C78.**  Away from the poles conversion to cartesian coordinates and back gives the same
latitude and longitude, longitudes being taken in (-180, 180]. -/
theorem c78_polar_roundtrip (lat lon : ℝ) (h1 : -90 < lat) (h2 : lat < 90) (h3 : -180 < lon)
    (h4 : lon ≤ 180) : cartesianToPolar (polarToCartesian lat lon) = (lat, lon) := by
  have hpi := Real.pi_pos
  have hcos : 0 < Real.cos (lat * (Real.pi / 180)) := by
    apply Real.cos_pos_of_mem_Ioo
    constructor <;> nlinarith
  have hl := c78_unit lat lon
  unfold cartesianToPolar
  simp only
  rw [hl, div_one]
  have ha : Real.arcsin (polarToCartesian lat lon).z = lat * (Real.pi / 180) := by
    show Real.arcsin (Real.sin _) = _
    apply Real.arcsin_sin <;> nlinarith
  have hb : Complex.arg ⟨(polarToCartesian lat lon).x, (polarToCartesian lat lon).y⟩ =
      lon * (Real.pi / 180) := by
    have e : (⟨(polarToCartesian lat lon).x, (polarToCartesian lat lon).y⟩ : ℂ) =
        (Real.cos (lat * (Real.pi / 180)) : ℂ) *
          (Complex.cos ((lon * (Real.pi / 180) : ℝ) : ℂ) +
            Complex.sin ((lon * (Real.pi / 180) : ℝ) : ℂ) * Complex.I) := by
      rw [← Complex.ofReal_cos, ← Complex.ofReal_sin]
      apply Complex.ext
      · simp only [polarToCartesian, Complex.mul_re, Complex.add_re, Complex.add_im,
          Complex.ofReal_re, Complex.ofReal_im, Complex.I_re, Complex.I_im, Complex.mul_im]
        ring
      · simp only [polarToCartesian, Complex.mul_re, Complex.add_re, Complex.add_im,
          Complex.ofReal_re, Complex.ofReal_im, Complex.I_re, Complex.I_im, Complex.mul_im]
        ring
    rw [e]
    apply Complex.arg_mul_cos_add_sin_mul_I hcos
    constructor
    · nlinarith
    · nlinarith
  rw [ha, hb]
  have hne := hpi.ne'
  ext <;> simp only <;> field_simp

/-- **C78.**  Conversion to polar coordinates and back projects onto the unit sphere; in particular it
changes no point of the sphere, poles included. -/
theorem c78_cartesian_roundtrip (v : V3) (hv : v ≠ ⟨0, 0, 0⟩) :
    polarToCartesian (cartesianToPolar v).1 (cartesianToPolar v).2 = divide v (len v) := by
  have hpi := Real.pi_pos.ne'
  have hl := len_pos_of_ne hv
  have hsq : len v * len v = v.x * v.x + v.y * v.y + v.z * v.z := by
    unfold len; rw [Real.mul_self_sqrt (dot_self_nonneg v)]; rfl
  have e1 : (cartesianToPolar v).1 * (Real.pi / 180) = Real.arcsin (v.z / len v) := by
    simp only [cartesianToPolar]; field_simp
  have e2 : (cartesianToPolar v).2 * (Real.pi / 180) = Complex.arg ⟨v.x, v.y⟩ := by
    simp only [cartesianToPolar]; field_simp
  have hz1 : -1 ≤ v.z / len v := by
    rw [le_div_iff₀ hl]; nlinarith [mul_self_nonneg v.x, mul_self_nonneg v.y]
  have hz2 : v.z / len v ≤ 1 := by
    rw [div_le_iff₀ hl]; nlinarith [mul_self_nonneg v.x, mul_self_nonneg v.y]
  have hcos : Real.cos (Real.arcsin (v.z / len v)) = ‖(⟨v.x, v.y⟩ : ℂ)‖ / len v := by
    rw [Real.cos_arcsin, Complex.norm_def, Complex.normSq_mk]
    rw [← Real.sqrt_sq hl.le, ← Real.sqrt_div (by positivity [mul_self_nonneg v.x, mul_self_nonneg v.y])]
    congr 1
    rw [Real.sqrt_sq hl.le]
    field_simp
    nlinarith
  unfold polarToCartesian
  simp only
  rw [e1, e2, Real.sin_arcsin hz1 hz2, hcos]
  have hx := Complex.norm_mul_cos_arg (⟨v.x, v.y⟩ : ℂ)
  have hy := Complex.norm_mul_sin_arg (⟨v.x, v.y⟩ : ℂ)
  simp only at hx hy
  unfold divide
  ext
  · simp only; rw [← hx]; simp only [div_eq_mul_inv]; rw [hx]; linear_combination (len v)⁻¹ * hx
  · simp only; linear_combination (len v)⁻¹ * hy
  · rfl

/-! ### C79: faces at the poles -/

theorem ratio_sq : (goldenB / goldenA) * (goldenB / goldenA) = 1 - goldenB / goldenA := by
  have ha := goldenA_pos.ne'
  field_simp
  have := golden_ratio
  linarith

theorem angle_sin_cos :
    Real.sin interVertexAngle = 1 / Real.sqrt (1 + (1 - goldenB / goldenA) ^ 2) ∧
    Real.cos interVertexAngle =
      (1 - goldenB / goldenA) / Real.sqrt (1 + (1 - goldenB / goldenA) ^ 2) := by
  have hw : 0 ≤ 1 - goldenB / goldenA := by rw [← ratio_sq]; exact mul_self_nonneg _
  unfold interVertexAngle
  simp only
  have h10 : (1.0 : ℝ) = 1 := by norm_num
  rw [h10]
  generalize 1 - goldenB / goldenA = w at *
  have e : (1 : ℝ) + w * w = 1 + w ^ 2 := by ring
  rw [e]
  have hpos : 0 < 1 + w ^ 2 := by positivity
  have hs : 1 ≤ Real.sqrt (1 + w ^ 2) := by
    rw [Real.one_le_sqrt]; nlinarith [sq_nonneg w]
  have h1 : 1 / Real.sqrt (1 + w ^ 2) ≤ 1 := by rw [div_le_one (by linarith)]; exact hs
  have h2 : -1 ≤ 1 / Real.sqrt (1 + w ^ 2) := by
    have : 0 ≤ 1 / Real.sqrt (1 + w ^ 2) := by positivity
    linarith
  refine ⟨Real.sin_arcsin h2 h1, ?_⟩
  rw [Real.cos_arcsin]
  have : 1 - (1 / Real.sqrt (1 + w ^ 2)) ^ 2 = (w / Real.sqrt (1 + w ^ 2)) ^ 2 := by
    rw [div_pow, div_pow, Real.sq_sqrt hpos.le]
    field_simp
    ring
  rw [this, Real.sqrt_sq (by positivity)]

/-- **C79.**  With `face_centre_at_poles` the centre of triangle 4 lies on the positive and that of
triangle 7 on the negative z axis. -/
theorem c79_poles (srt : Argsort) :
    (∃ z : ℝ, 0 < z ∧ outward (corners (rotatedMesh srt 0) (baseTriangles.getD 4 default)) = ⟨0, 0, z⟩) ∧
    (∃ z : ℝ, z < 0 ∧ outward (corners (rotatedMesh srt 0) (baseTriangles.getD 7 default)) = ⟨0, 0, z⟩) := by
  obtain ⟨hs, hc⟩ := angle_sin_cos
  have hr := ratio_sq
  have ha := goldenA_pos
  have hb := goldenB_pos
  have hw : 0 ≤ 1 - goldenB / goldenA := by rw [← ratio_sq]; exact mul_self_nonneg _
  have hS : 0 < Real.sqrt (1 + (1 - goldenB / goldenA) ^ 2) := Real.sqrt_pos.2 (by positivity)
  have hba : goldenB = (goldenB / goldenA) * goldenA := by field_simp
  -- the x coordinate vanishes
  have hx : Real.cos interVertexAngle * (2 * goldenA + goldenB) =
      Real.sin interVertexAngle * goldenA := by
    rw [hs, hc]
    generalize Real.sqrt (1 + (1 - goldenB / goldenA) ^ 2) = S at *
    rw [div_mul_eq_mul_div, div_mul_eq_mul_div]
    congr 1
    generalize goldenB / goldenA = w at *
    rw [hba]
    linear_combination (-goldenA) * hr
  have hsp : 0 < Real.sin interVertexAngle := by rw [hs]; positivity
  have hcp : 0 ≤ Real.cos interVertexAngle := by rw [hc]; exact div_nonneg hw hS.le
  have hz : 0 < Real.sin interVertexAngle * (2 * goldenA + goldenB) +
      Real.cos interVertexAngle * goldenA := by
    have := mul_pos hsp (by linarith : 0 < 2 * goldenA + goldenB)
    have := mul_nonneg hcp ha.le
    linarith
  have hn : basePoints.length = 12 := rfl
  have e4 : corners (rotatedMesh srt 0) (baseTriangles.getD 4 default) =
      (rotateY interVertexAngle ⟨goldenA, goldenB, 0⟩, rotateY interVertexAngle ⟨goldenA, -goldenB, 0⟩,
        rotateY interVertexAngle ⟨goldenB, 0, goldenA⟩) := rfl
  have e7 : corners (rotatedMesh srt 0) (baseTriangles.getD 7 default) =
      (rotateY interVertexAngle ⟨-goldenA, -goldenB, 0⟩,
        rotateY interVertexAngle ⟨-goldenB, 0, -goldenA⟩,
        rotateY interVertexAngle ⟨-goldenA, goldenB, 0⟩) := rfl
  constructor
  · refine ⟨_, hz, ?_⟩
    rw [e4]
    simp only [outward, add, rotate_eq]
    ext <;> simp only <;> first | linarith | ring
  · refine ⟨-(_), neg_neg_of_pos hz, ?_⟩
    rw [e7]
    simp only [outward, add, rotate_eq]
    ext <;> simp only <;> first | linarith | ring

/-! ### Cases which meet the hypotheses -/

/-- The mesh of the global analysis at level 7 and the north pole. -/
example : ∃ s t, locate (sphereMesh stableArgsort 0) (polarToCartesian 90 0) 7 = some s ∧
    t ∈ (sphereMesh stableArgsort 7).triangles ∧ t.id = s.id := by
  obtain ⟨s, t, h1, h2, h3, _⟩ :=
    c31_locate stableArgsort good_plain (polar_ne 90 0) 7 (by omega)
  exact ⟨s, t, h1, List.mem_of_getElem? h2, h3⟩

/-- The same with faces at the poles, level 5. -/
example : ∃ s t, locate (rotatedMesh stableArgsort 0) (polarToCartesian (-12) 77) 5 = some s ∧
    t ∈ (rotatedMesh stableArgsort 5).triangles ∧ t.id = s.id := by
  obtain ⟨s, t, h1, h2, h3, _⟩ :=
    c31_locate stableArgsort good_poles (polar_ne (-12) 77) 5 (by omega)
  exact ⟨s, t, h1, List.mem_of_getElem? h2, h3⟩

/-- The sum of the corners lies in the interior of a triangle, so `c31_exact` applies to every
triangle of every mesh. -/
example (srt : Argsort) (L j : Nat) (t : Tri) (hL : L ≤ 28)
    (ht : (sphereMesh srt L).triangles[j]? = some t) :
    ∃ s, locate (sphereMesh srt 0) (outward (corners (sphereMesh srt L) t)) L = some s ∧
      s.id = t.id ∧ indexAtLevel s.id L = j := by
  have hne : outward (corners (sphereMesh srt L) t) ≠ ⟨0, 0, 0⟩ := by
    intro h
    have hd := (mesh_proper srt good_plain L hL j t ht).clockwise
    have e : ∀ p : V3 × V3 × V3, det p.1 p.2.1 p.2.2 = dot (outward p) (cross p.2.1 p.2.2) := by
      intro p; simp only [det, dot, cross, outward, add]; ring
    have h' : outward (corners (build srt midOnSphere basePoints L) t) = ⟨0, 0, 0⟩ := h
    rw [e, h'] at hd
    simp [dot] at hd
  refine c31_exact srt good_plain hne L hL ht ⟨1, 1, 1, one_pos, one_pos, one_pos, ?_⟩
  simp only [outward, add, scale, one_mul]
  rfl

end

end Verif.Eustace.Locator
