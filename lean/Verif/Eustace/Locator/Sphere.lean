import Verif.Eustace.Locator.Descend

/-! The icosahedron, plain and rotated: unit points, clockwise triangles which cover the sphere and do
not overlap. -/

namespace Verif.Eustace.Locator

open Verif.Eustace.Mesh V3

noncomputable section

/-- Corner coordinates of a triangle, from a list of points. -/
def cornersOf (pts : List V3) (t : Tri) : V3 × V3 × V3 :=
  (pts.getD t.p0 default, pts.getD t.p1 default, pts.getD t.p2 default)

/-- What is needed of the twelve points. -/
structure GoodPoints (pts : List V3) : Prop where
  num : pts.length = 12
  proper : ∀ t ∈ baseTriangles, Proper (cornersOf pts t)
  cover : ∀ v : V3, ∃ t ∈ baseTriangles,
    dot v (cross (cornersOf pts t).1 (cornersOf pts t).2.1) ≤ 0 ∧
    dot v (cross (cornersOf pts t).2.1 (cornersOf pts t).2.2) ≤ 0 ∧
    dot v (cross (cornersOf pts t).2.2 (cornersOf pts t).1) ≤ 0
  apart : ∀ v : V3, ∀ t ∈ baseTriangles, ∀ u ∈ baseTriangles,
    InOpenCone v (cornersOf pts t).1 (cornersOf pts t).2.1 (cornersOf pts t).2.2 →
    InCone v (cornersOf pts u).1 (cornersOf pts u).2.1 (cornersOf pts u).2.2 → t = u

theorem len_eq_one {v : V3} (h : dot v v = 1) : len v = 1 := by
  unfold len; rw [h]; exact Real.sqrt_one

theorem icosahedron_unit {a b : ℝ} (h : a * a + b * b = 1) :
    ∀ i < 12, len ((icosahedron a b).getD i default) = 1 := by
  intro i hi
  apply len_eq_one
  rcases i with _ | _ | _ | _ | _ | _ | _ | _ | _ | _ | _ | _ | i
  all_goals first
    | (simp only [icosahedron, List.getD_cons_zero, List.getD_cons_succ, dot]; linarith)
    | omega

theorem base_index : ∀ t ∈ baseTriangles, t.p0 < 12 ∧ t.p1 < 12 ∧ t.p2 < 12 := by decide

theorem base_proper {a b : ℝ} (ha : 0 < a) (hb : 0 < b) (h : a * a + b * b = 1) :
    ∀ t ∈ baseTriangles, Proper (cornersOf (icosahedron a b) t) := by
  intro t ht
  obtain ⟨h0, h1, h2⟩ := base_index t ht
  exact ⟨icosahedron_unit h _ h0, icosahedron_unit h _ h1, icosahedron_unit h _ h2,
    base_det ha hb t ht⟩

/-- Sum of the corners, the outward normal of the triangle. -/
def outward (p : V3 × V3 × V3) : V3 := add (add p.1 p.2.1) p.2.2

/-- Among the twelve points the corners of a triangle are furthest out along its normal. -/
theorem support {a b : ℝ} (ha : 0 < a) (hb : 0 < b) (h : a * a + b * b = 1)
    (hg : a * a = a * b + b * b) : ∀ t ∈ baseTriangles, ∀ i < 12,
    ((i = t.p0 ∨ i = t.p1 ∨ i = t.p2) →
      dot ((icosahedron a b).getD i default) (outward (cornersOf (icosahedron a b) t)) =
        1 + 2 * (a * b)) ∧
    (¬ (i = t.p0 ∨ i = t.p1 ∨ i = t.p2) →
      dot ((icosahedron a b).getD i default) (outward (cornersOf (icosahedron a b) t)) <
        1 + 2 * (a * b)) := by
  have hab : 0 < a * b := mul_pos ha hb
  have hbb : 0 < b * b := mul_pos hb hb
  intro t ht
  simp only [baseTriangles, List.map_cons, List.map_nil, List.mem_cons, List.not_mem_nil,
    or_false] at ht
  rcases ht with rfl | rfl | rfl | rfl | rfl | rfl | rfl | rfl | rfl | rfl | rfl | rfl | rfl | rfl |
    rfl | rfl | rfl | rfl | rfl | rfl <;>
  · intro i hi
    rcases i with _ | _ | _ | _ | _ | _ | _ | _ | _ | _ | _ | _ | i
    all_goals first
      | (exfalso; omega)
      | (refine ⟨fun _ => ?_, fun hn => absurd (by decide) hn⟩
         simp only [icosahedron, List.getD_cons_zero, List.getD_cons_succ, dot, outward, cornersOf,
           add]
         linarith)
      | (refine ⟨fun hn => absurd hn (by decide), fun _ => ?_⟩
         simp only [icosahedron, List.getD_cons_zero, List.getD_cons_succ, dot, outward, cornersOf,
           add]
         linarith)

theorem base_ne_of_corners : ∀ t ∈ baseTriangles, ∀ u ∈ baseTriangles,
    (t.p0 = u.p0 ∨ t.p0 = u.p1 ∨ t.p0 = u.p2) → (t.p1 = u.p0 ∨ t.p1 = u.p1 ∨ t.p1 = u.p2) →
    (t.p2 = u.p0 ∨ t.p2 = u.p1 ∨ t.p2 = u.p2) → t = u := by decide +kernel

theorem dot_comb (c0 c1 c2 : ℝ) (p0 p1 p2 n : V3) :
    dot (add (add (scale c0 p0) (scale c1 p1)) (scale c2 p2)) n =
      c0 * dot p0 n + c1 * dot p1 n + c2 * dot p2 n := by
  simp only [dot, add, scale]; ring

theorem base_apart {a b : ℝ} (ha : 0 < a) (hb : 0 < b) (h : a * a + b * b = 1)
    (hg : a * a = a * b + b * b) (v : V3) (t : Tri) (ht : t ∈ baseTriangles) (u : Tri)
    (hu : u ∈ baseTriangles)
    (h1 : InOpenCone v (cornersOf (icosahedron a b) t).1 (cornersOf (icosahedron a b) t).2.1
      (cornersOf (icosahedron a b) t).2.2)
    (h2 : InCone v (cornersOf (icosahedron a b) u).1 (cornersOf (icosahedron a b) u).2.1
      (cornersOf (icosahedron a b) u).2.2) : t = u := by
  obtain ⟨c0, c1, c2, g0, g1, g2, e⟩ := h1
  obtain ⟨d0, d1, d2, f0, f1, f2, e'⟩ := h2
  have S := support ha hb h hg
  obtain ⟨t0, t1, t2⟩ := base_index t ht
  obtain ⟨u0, u1, u2⟩ := base_index u hu
  have hle : ∀ w ∈ baseTriangles, ∀ i < 12, dot ((icosahedron a b).getD i default)
      (outward (cornersOf (icosahedron a b) w)) ≤ 1 + 2 * (a * b) := by
    intro w hw i hi
    by_cases hc : i = w.p0 ∨ i = w.p1 ∨ i = w.p2
    · exact ((S w hw i hi).1 hc).le
    · exact ((S w hw i hi).2 hc).le
  -- along the normal of `t`
  have A : dot v (outward (cornersOf (icosahedron a b) t)) = (c0 + c1 + c2) * (1 + 2 * (a * b)) := by
    rw [e, dot_comb]
    simp only [cornersOf] at *
    rw [(S t ht _ t0).1 (Or.inl rfl), (S t ht _ t1).1 (Or.inr (Or.inl rfl)),
      (S t ht _ t2).1 (Or.inr (Or.inr rfl))]
    ring
  have A' : dot v (outward (cornersOf (icosahedron a b) t)) ≤
      (d0 + d1 + d2) * (1 + 2 * (a * b)) := by
    rw [e', dot_comb]
    have := mul_le_mul_of_nonneg_left (hle t ht _ u0) f0
    have := mul_le_mul_of_nonneg_left (hle t ht _ u1) f1
    have := mul_le_mul_of_nonneg_left (hle t ht _ u2) f2
    simp only [cornersOf] at *
    linarith
  have B : dot v (outward (cornersOf (icosahedron a b) u)) = (d0 + d1 + d2) * (1 + 2 * (a * b)) := by
    rw [e', dot_comb]
    simp only [cornersOf] at *
    rw [(S u hu _ u0).1 (Or.inl rfl), (S u hu _ u1).1 (Or.inr (Or.inl rfl)),
      (S u hu _ u2).1 (Or.inr (Or.inr rfl))]
    ring
  rw [e, dot_comb] at B
  have l0 := mul_le_mul_of_nonneg_left (hle u hu _ t0) g0.le
  have l1 := mul_le_mul_of_nonneg_left (hle u hu _ t1) g1.le
  have l2 := mul_le_mul_of_nonneg_left (hle u hu _ t2) g2.le
  simp only [cornersOf] at *
  apply base_ne_of_corners t ht u hu
  · by_contra hc
    have := mul_lt_mul_of_pos_left ((S u hu _ t0).2 hc) g0
    linarith
  · by_contra hc
    have := mul_lt_mul_of_pos_left ((S u hu _ t1).2 hc) g1
    linarith
  · by_contra hc
    have := mul_lt_mul_of_pos_left ((S u hu _ t2).2 hc) g2
    linarith

theorem golden_ratio : goldenA * goldenA = goldenA * goldenB + goldenB * goldenB := by
  unfold goldenA goldenB
  simp only
  have hr : ((1.0 + Real.sqrt 5.0) * 0.5) * ((1.0 + Real.sqrt 5.0) * 0.5) =
      (1.0 + Real.sqrt 5.0) * 0.5 + 1.0 := by
    have h5 : Real.sqrt 5.0 * Real.sqrt 5.0 = 5 := by
      rw [Real.mul_self_sqrt (by norm_num)]; norm_num
    have h05 : (0.5 : ℝ) = 1 / 2 := by norm_num
    have h10 : (1.0 : ℝ) = 1 := by norm_num
    rw [h05, h10]
    linear_combination (1 / 4) * h5
  generalize (1.0 + Real.sqrt 5.0) * 0.5 = r at hr ⊢
  rw [div_mul_div_comm, div_mul_div_comm, div_mul_div_comm, ← add_div]
  congr 1
  have h10 : (1.0 : ℝ) = 1 := by norm_num
  rw [h10] at hr ⊢
  linarith

/-- The points of the unrotated icosahedron. -/
theorem good_plain : GoodPoints basePoints where
  num := rfl
  proper := base_proper goldenA_pos goldenB_pos golden_unit
  cover := cover goldenA_pos goldenB_pos
  apart := base_apart goldenA_pos goldenB_pos golden_unit golden_ratio

/-! ### Rotation -/

theorem rotate_eq (θ : ℝ) (p : V3) : rotateY θ p =
    ⟨Real.cos θ * p.x - Real.sin θ * p.z, p.y, Real.sin θ * p.x + Real.cos θ * p.z⟩ := by
  unfold rotateY
  ext <;> simp only <;> ring

theorem rotate_back (θ : ℝ) (p : V3) : rotateY θ (rotateY (-θ) p) = p := by
  simp only [rotate_eq, Real.cos_neg, Real.sin_neg]
  have := Real.sin_sq_add_cos_sq θ
  ext
  · simp only; linear_combination p.x * this
  · rfl
  · simp only; linear_combination p.z * this

theorem rotate_comb (θ : ℝ) (c0 c1 c2 : ℝ) (p0 p1 p2 : V3) :
    rotateY θ (add (add (scale c0 p0) (scale c1 p1)) (scale c2 p2)) =
      add (add (scale c0 (rotateY θ p0)) (scale c1 (rotateY θ p1))) (scale c2 (rotateY θ p2)) := by
  simp only [rotate_eq, add, scale]
  ext <;> simp only <;> ring

theorem rotate_dot (θ : ℝ) (p q : V3) : dot (rotateY θ p) (rotateY θ q) = dot p q := by
  simp only [rotate_eq, dot]
  have := Real.sin_sq_add_cos_sq θ
  linear_combination (p.x * q.x + p.z * q.z) * this

theorem rotate_cross (θ : ℝ) (p q : V3) :
    cross (rotateY θ p) (rotateY θ q) = rotateY θ (cross p q) := by
  simp only [rotate_eq, cross]
  have := Real.sin_sq_add_cos_sq θ
  ext
  · simp only; ring
  · simp only; linear_combination (p.z * q.x - p.x * q.z) * this
  · simp only; ring

theorem rotate_det (θ : ℝ) (p q r : V3) :
    det (rotateY θ p) (rotateY θ q) (rotateY θ r) = det p q r := by
  unfold det; rw [rotate_cross, rotate_dot]

theorem rotate_len (θ : ℝ) (p : V3) : len (rotateY θ p) = len p := by
  unfold len; rw [rotate_dot]

theorem rotate_inj (θ : ℝ) {p q : V3} (h : rotateY θ p = rotateY θ q) : p = q := by
  have h1 := congrArg (rotateY (-θ)) h
  have h2 : ∀ p, rotateY (-θ) (rotateY θ p) = p := by
    intro p
    have := rotate_back (-θ) p
    rwa [neg_neg] at this
  rwa [h2, h2] at h1

theorem rotate_inCone (θ : ℝ) {v p0 p1 p2 : V3} :
    InCone (rotateY θ v) (rotateY θ p0) (rotateY θ p1) (rotateY θ p2) ↔ InCone v p0 p1 p2 := by
  constructor
  · rintro ⟨c0, c1, c2, g0, g1, g2, e⟩
    exact ⟨c0, c1, c2, g0, g1, g2, rotate_inj θ (by rw [e, rotate_comb])⟩
  · rintro ⟨c0, c1, c2, g0, g1, g2, e⟩
    exact ⟨c0, c1, c2, g0, g1, g2, by rw [e, rotate_comb]⟩

theorem rotate_inOpenCone (θ : ℝ) {v p0 p1 p2 : V3} :
    InOpenCone (rotateY θ v) (rotateY θ p0) (rotateY θ p1) (rotateY θ p2) ↔
      InOpenCone v p0 p1 p2 := by
  constructor
  · rintro ⟨c0, c1, c2, g0, g1, g2, e⟩
    exact ⟨c0, c1, c2, g0, g1, g2, rotate_inj θ (by rw [e, rotate_comb])⟩
  · rintro ⟨c0, c1, c2, g0, g1, g2, e⟩
    exact ⟨c0, c1, c2, g0, g1, g2, by rw [e, rotate_comb]⟩

theorem rotate_corners (θ : ℝ) {pts : List V3} (hn : pts.length = 12) {t : Tri}
    (ht : t ∈ baseTriangles) : cornersOf (pts.map (rotateY θ)) t =
      (rotateY θ (cornersOf pts t).1, rotateY θ (cornersOf pts t).2.1,
        rotateY θ (cornersOf pts t).2.2) := by
  obtain ⟨h0, h1, h2⟩ := base_index t ht
  have key : ∀ i < 12, (pts.map (rotateY θ)).getD i default = rotateY θ (pts.getD i default) := by
    intro i hi
    rw [List.getD_eq_getElem _ _ (by rw [List.length_map]; omega),
      List.getD_eq_getElem _ _ (by omega), List.getElem_map]
  unfold cornersOf
  rw [key _ h0, key _ h1, key _ h2]

/-- Rotated points are as good as the plain ones. -/
theorem good_rotate (θ : ℝ) {pts : List V3} (h : GoodPoints pts) :
    GoodPoints (pts.map (rotateY θ)) where
  num := by rw [List.length_map, h.num]
  proper := by
    intro t ht
    rw [rotate_corners θ h.num ht]
    have := h.proper t ht
    exact ⟨by rw [rotate_len]; exact this.u0, by rw [rotate_len]; exact this.u1,
      by rw [rotate_len]; exact this.u2, by rw [rotate_det]; exact this.clockwise⟩
  cover := by
    intro v
    obtain ⟨t, ht, hc⟩ := h.cover (rotateY (-θ) v)
    refine ⟨t, ht, ?_⟩
    rw [rotate_corners θ h.num ht]
    simp only
    rw [rotate_cross, rotate_cross, rotate_cross]
    have hv : v = rotateY θ (rotateY (-θ) v) := (rotate_back θ v).symm
    generalize rotateY (-θ) v = w at hv hc
    subst hv
    rw [rotate_dot, rotate_dot, rotate_dot]
    exact hc
  apart := by
    intro v t ht u hu h1 h2
    rw [rotate_corners θ h.num ht] at h1
    rw [rotate_corners θ h.num hu] at h2
    have hv : v = rotateY θ (rotateY (-θ) v) := (rotate_back θ v).symm
    generalize rotateY (-θ) v = w at hv
    subst hv
    exact h.apart w t ht u hu ((rotate_inOpenCone θ).1 h1) ((rotate_inCone θ).1 h2)

/-- The points used with `face_centre_at_poles`. -/
theorem good_poles : GoodPoints (basePoints.map (rotateY interVertexAngle)) :=
  good_rotate _ good_plain

end

end Verif.Eustace.Locator
