import Verif.Eustace.SphereSpde.Spec
import Verif.Eustace.Linear.Lemmas
import Verif.Eustace.Locator.Design
import Verif.Eustace.Mesh.Topology
import Mathlib.Tactic.LinearCombination
import Mathlib.Tactic.FieldSimp

/-!
C45: the matrices built from the triangles.
-/

namespace Verif.Eustace.SphereSpde

open Matrix Verif.Eustace.Linear Verif.Eustace.Mesh Verif.Eustace.Locator Verif.Eustace.Locator.V3

noncomputable section

theorem valueAt_sum {n : Nat} (x : Vec n) (k : Nat) : ∑ i : Fin n, (if k = i.val then x i else 0) = valueAt x k := by
  unfold valueAt
  split
  · next h =>
    rw [Finset.sum_eq_single ⟨k, h⟩]
    · simp
    · intro b _ hb
      rw [if_neg]
      intro e; exact hb (Fin.ext e.symm)
    · intro h'; exact absurd (Finset.mem_univ _) h'
  · next h =>
    refine Finset.sum_eq_zero fun i _ => ?_
    rw [if_neg]
    intro e; exact h (e ▸ i.isLt)

/-- A matrix built from triplets, as a bilinear form. -/
theorem coo_form {n : Nat} (ts : List (Nat × Nat × ℝ)) (x y : Vec n) :
    x ⬝ᵥ (coo n ts *ᵥ y) = (ts.map fun t => valueAt x t.1 * t.2.2 * valueAt y t.2.1).sum := by
  induction ts with
  | nil => simp [coo, dotProduct, mulVec]
  | cons t ts ih =>
    have h : coo n (t :: ts) = Matrix.of (fun i j : Fin n => if t.1 = i.val ∧ t.2.1 = j.val then t.2.2 else 0) + coo n ts := by
      ext i j; simp [coo]
    rw [h, add_mulVec, dotProduct_add, ih, List.map_cons, List.sum_cons]
    congr 1
    rw [← valueAt_sum x, ← valueAt_sum y, Finset.sum_mul, Finset.sum_mul]
    simp only [dotProduct, mulVec, Matrix.of_apply, Finset.mul_sum]
    refine Finset.sum_congr rfl fun i _ => Finset.sum_congr rfl fun j _ => ?_
    by_cases h1 : t.1 = i.val <;> by_cases h2 : t.2.1 = j.val <;> simp [h1, h2]
    ring

theorem flatMap_sum {α β : Type} (f : α → List β) (g : β → ℝ) (l : List α) :
    ((l.flatMap f).map g).sum = (l.map fun a => ((f a).map g).sum).sum := by
  induction l with
  | nil => rfl
  | cons a l ih => simp [ih]

/-! ### Geometry of one triangle -/

theorem lagrange (u w : V3) : dot (cross u w) (cross u w) = dot u u * dot w w - dot u w ^ 2 := by
  simp only [V3.dot, V3.cross]; ring

theorem area_eq (p : V3 × V3 × V3) : triangleArea p = gramArea p := by
  simp only [triangleArea, gramArea, V3.len, lagrange]
  norm_num
  ring

theorem gram_nonneg (u w : V3) : 0 ≤ dot u u * dot w w - dot u w ^ 2 := by
  rw [← lagrange]; exact dot_self_nonneg _

theorem area_sq (p : V3 × V3 × V3) : 4 * gramArea p ^ 2 =
    dot (sub p.2.1 p.1) (sub p.2.1 p.1) * dot (sub p.2.2 p.1) (sub p.2.2 p.1) -
      dot (sub p.2.1 p.1) (sub p.2.2 p.1) ^ 2 := by
  have := Real.sq_sqrt (gram_nonneg (sub p.2.1 p.1) (sub p.2.2 p.1))
  unfold gramArea
  rw [div_pow, this]; ring

/-- Every choice of values at the corners has a gradient when the triangle is not degenerate. -/
theorem gradient_exists {p : V3 × V3 × V3} (h : 0 < gramArea p) (x0 x1 x2 : ℝ) : ∃ g, IsGradient p x0 x1 x2 g := by
  have hD := area_sq p
  have hpos : 0 < 4 * gramArea p ^ 2 := by positivity
  generalize hu : sub p.2.1 p.1 = u at hD
  generalize hw : sub p.2.2 p.1 = w at hD
  rw [hD] at hpos
  have hne := hpos.ne'
  generalize hDD : dot u u * dot w w - dot u w ^ 2 = D at hne
  refine ⟨add (scale (((x1 - x0) * dot w w - (x2 - x0) * dot u w) / D) u)
    (scale (((x2 - x0) * dot u u - (x1 - x0) * dot u w) / D) w), ⟨_, _, by rw [hu, hw]⟩, ?_, ?_⟩
  · rw [hu]
    have e : ∀ a b, dot (add (scale a u) (scale b w)) u = a * dot u u + b * dot u w := by
      intro a b; simp only [V3.dot, V3.add, V3.scale]; ring
    rw [e]
    field_simp
    rw [← hDD]; ring
  · rw [hw]
    have e : ∀ a b, dot (add (scale a u) (scale b w)) w = a * dot u w + b * dot w w := by
      intro a b; simp only [V3.dot, V3.add, V3.scale]; ring
    rw [e]
    field_simp
    rw [← hDD]; ring

/-- The combination of the edges which the stiffness matrix takes the length of. -/
theorem edges_gradient {p : V3 × V3 × V3} {x0 x1 x2 : ℝ} {g : V3} (h : IsGradient p x0 x1 x2 g) (hA : 0 < gramArea p) :
    let e := triangleEdges p
    let s := add (add (scale x0 e.1) (scale x1 e.2.1)) (scale x2 e.2.2)
    1 / (4 * gramArea p) * dot s s = gramArea p * dot g g := by
  obtain ⟨⟨a, b, hg⟩, h1, h2⟩ := h
  have hD := area_sq p
  have hs : add (add (scale x0 (triangleEdges p).1) (scale x1 (triangleEdges p).2.1)) (scale x2 (triangleEdges p).2.2) =
      sub (scale (x2 - x0) (sub p.2.1 p.1)) (scale (x1 - x0) (sub p.2.2 p.1)) := by
    simp only [triangleEdges, V3.add, V3.scale, V3.sub]
    ext <;> simp only <;> ring
  simp only
  rw [hs]
  generalize hu : sub p.2.1 p.1 = u at *
  generalize hw : sub p.2.2 p.1 = w at *
  have e1 : a * dot u u + b * dot u w = x1 - x0 := by
    rw [← h1, hg]; simp only [V3.dot, V3.add, V3.scale]; ring
  have e2 : a * dot u w + b * dot w w = x2 - x0 := by
    rw [← h2, hg]; simp only [V3.dot, V3.add, V3.scale]; ring
  have e3 : dot g g = a * (x1 - x0) + b * (x2 - x0) := by
    rw [← h1, ← h2]
    conv_lhs => rw [hg]
    conv_rhs => rw [hg]
    simp only [V3.dot, V3.add, V3.scale]; ring
  have e4 : dot (sub (scale (x2 - x0) u) (scale (x1 - x0) w)) (sub (scale (x2 - x0) u) (scale (x1 - x0) w)) =
      (x2 - x0) ^ 2 * dot u u - 2 * (x1 - x0) * (x2 - x0) * dot u w + (x1 - x0) ^ 2 * dot w w := by
    simp only [V3.dot, V3.sub, V3.scale]; ring
  have e5 : dot (sub (scale (x2 - x0) u) (scale (x1 - x0) w)) (sub (scale (x2 - x0) u) (scale (x1 - x0) w)) =
      4 * gramArea p ^ 2 * dot g g := by
    rw [e4, e3, hD, ← e1, ← e2]; ring
  rw [e5]
  field_simp

/-! ### Mass and stiffness as forms -/

theorem mass_form (m : Mesh V3) (x y : Vec m.points.length) : x ⬝ᵥ (buildCTilde m *ᵥ y) =
    (m.triangles.map fun t => gramArea (corners m t) / 3 *
      (valueAt x t.p0 * valueAt y t.p0 + valueAt x t.p1 * valueAt y t.p1 + valueAt x t.p2 * valueAt y t.p2)).sum := by
  rw [buildCTilde, coo_form, flatMap_sum]
  congr 1
  refine List.map_congr_left fun t _ => ?_
  simp only [massEntries, area_eq, List.map_cons, List.map_nil, List.sum_cons, List.sum_nil]
  have : (3.0 : ℝ) = 3 := by norm_num
  rw [this]; ring

theorem stiffness_form (m : Mesh V3) (x y : Vec m.points.length) : x ⬝ᵥ (buildG m *ᵥ y) =
    (m.triangles.map fun t =>
      let e := triangleEdges (corners m t)
      1 / (4 * gramArea (corners m t)) *
        dot (add (add (scale (valueAt x t.p0) e.1) (scale (valueAt x t.p1) e.2.1)) (scale (valueAt x t.p2) e.2.2))
          (add (add (scale (valueAt y t.p0) e.1) (scale (valueAt y t.p1) e.2.1)) (scale (valueAt y t.p2) e.2.2))).sum := by
  rw [buildG, coo_form, flatMap_sum]
  congr 1
  refine List.map_congr_left fun t _ => ?_
  simp only [stiffnessEntries, area_eq, List.map_cons, List.map_nil, List.sum_cons, List.sum_nil]
  have h1 : (1.0 : ℝ) = 1 := by norm_num
  have h4 : (4.0 : ℝ) = 4 := by norm_num
  rw [h1, h4]
  simp only [V3.dot, V3.add, V3.scale]
  ring

/-- **C45.**  The quadratic form of the stiffness matrix is the integral of the squared gradient of the piecewise linear
function with the given values at the points. -/
theorem c45_roughness {m : Mesh V3} (hm : Sound m) (x : Vec m.points.length) (g : Tri → V3)
    (hg : ∀ t ∈ m.triangles, IsGradient (corners m t) (valueAt x t.p0) (valueAt x t.p1) (valueAt x t.p2) (g t)) :
    quad (buildG m) x = (m.triangles.map fun t => gramArea (corners m t) * dot (g t) (g t)).sum := by
  rw [quad, stiffness_form]
  congr 1
  refine List.map_congr_left fun t ht => ?_
  exact edges_gradient (hg t ht) (hm.area t ht)

theorem coo_symm {n : Nat} {A : Mat n} (h : ∀ x y : Vec n, x ⬝ᵥ (A *ᵥ y) = y ⬝ᵥ (A *ᵥ x)) : Aᵀ = A := by
  ext i j
  have := h (Pi.single j 1) (Pi.single i 1)
  simpa [mulVec_single_one, single_one_dotProduct] using this

theorem stiffness_symm (m : Mesh V3) : (buildG m)ᵀ = buildG m := by
  refine coo_symm fun x y => ?_
  rw [stiffness_form, stiffness_form]
  congr 1
  refine List.map_congr_left fun t _ => ?_
  simp only [V3.dot, V3.add, V3.scale]; ring

theorem mass_symm (m : Mesh V3) : (buildCTilde m)ᵀ = buildCTilde m := by
  refine coo_symm fun x y => ?_
  rw [mass_form, mass_form]
  congr 1
  refine List.map_congr_left fun t _ => ?_
  ring

theorem list_sum_nonneg {l : List ℝ} (h : ∀ a ∈ l, 0 ≤ a) : 0 ≤ l.sum := by
  induction l with
  | nil => simp
  | cons a l ih =>
    rw [List.sum_cons]
    exact add_nonneg (h a (by simp)) (ih fun b hb => h b (by simp [hb]))

theorem list_sum_pos {l : List ℝ} (h : ∀ a ∈ l, 0 ≤ a) {a : ℝ} (ha : a ∈ l) (hp : 0 < a) : 0 < l.sum := by
  induction l with
  | nil => simp at ha
  | cons b l ih =>
    rw [List.sum_cons]
    have hl := list_sum_nonneg fun c hc => h c (List.mem_cons_of_mem _ hc)
    rcases List.mem_cons.1 ha with rfl | ha
    · linarith
    · have := ih (fun c hc => h c (List.mem_cons_of_mem _ hc)) ha
      have := h b (by simp)
      linarith

/-- **C45.**  The stiffness matrix is symmetric and positive semi-definite. -/
theorem c45_stiffness_posSemidef {m : Mesh V3} (hm : Sound m) : (buildG m).PosSemidef := by
  refine PosSemidef.of_dotProduct_mulVec_nonneg (by rw [IsHermitian, conjTranspose_eq_transpose_of_trivial, stiffness_symm]) ?_
  intro x
  rw [star_trivial, stiffness_form]
  apply list_sum_nonneg
  intro a ha
  obtain ⟨t, ht, rfl⟩ := List.mem_map.1 ha
  exact mul_nonneg (by have := hm.area t ht; positivity) (dot_self_nonneg _)

/-- **C45.**  A constant field has no roughness: the rows of the stiffness matrix sum to zero. -/
theorem c45_row_sums {m : Mesh V3} (hm : Sound m) (c : ℝ) : buildG m *ᵥ (fun _ => c) = 0 := by
  have : ∀ x : Vec m.points.length, x ⬝ᵥ (buildG m *ᵥ fun _ => c) = 0 := by
    intro x
    rw [stiffness_form]
    rw [show (0 : ℝ) = (m.triangles.map fun _ => (0 : ℝ)).sum by simp]
    congr 1
    refine List.map_congr_left fun t ht => ?_
    obtain ⟨h0, h1, h2⟩ := hm.inside t ht
    simp only [valueAt, h0, h1, h2, dif_pos, triangleEdges, V3.dot, V3.add, V3.scale, V3.sub]
    ring
  funext i
  have h := this (Pi.single i 1)
  rwa [single_one_dotProduct] at h

theorem mass_diagonal (m : Mesh V3) {i j : Fin m.points.length} (h : i ≠ j) : buildCTilde m i j = 0 := by
  have e : buildCTilde m i j = Pi.single i 1 ⬝ᵥ (buildCTilde m *ᵥ Pi.single j 1) := by
    simp [mulVec_single_one, single_one_dotProduct]
  rw [e, mass_form]
  rw [show (0 : ℝ) = (m.triangles.map fun _ => (0 : ℝ)).sum by simp]
  congr 1
  refine List.map_congr_left fun t _ => ?_
  have : ∀ k, valueAt (Pi.single i (1 : ℝ)) k * valueAt (Pi.single j (1 : ℝ)) k = 0 := by
    intro k
    unfold valueAt
    split
    · next hk =>
      by_cases hi : (⟨k, hk⟩ : Fin _) = i
      · rw [hi, Pi.single_eq_of_ne h, mul_zero]
      · rw [Pi.single_eq_of_ne hi, zero_mul]
    · simp
  rw [this, this, this]; ring

theorem mass_pos {m : Mesh V3} (hm : Sound m) (i : Fin m.points.length) : 0 < buildCTilde m i i := by
  have e : buildCTilde m i i = Pi.single i 1 ⬝ᵥ (buildCTilde m *ᵥ Pi.single i 1) := by
    simp [mulVec_single_one, single_one_dotProduct]
  rw [e, mass_form]
  obtain ⟨t, ht, hi⟩ := hm.used i i.isLt
  refine list_sum_pos ?_ (List.mem_map.2 ⟨t, ht, rfl⟩) ?_
  · intro a ha
    obtain ⟨u, hu, rfl⟩ := List.mem_map.1 ha
    have := hm.area u hu
    refine mul_nonneg (by positivity) (add_nonneg (add_nonneg ?_ ?_) ?_) <;> exact mul_self_nonneg _
  · have := hm.area t ht
    have hv : valueAt (Pi.single i (1 : ℝ)) i.val = 1 := by
      unfold valueAt; rw [dif_pos i.isLt]; simp
    refine mul_pos (by positivity) ?_
    have q0 := mul_self_nonneg (valueAt (Pi.single i (1 : ℝ)) t.p0)
    have q1 := mul_self_nonneg (valueAt (Pi.single i (1 : ℝ)) t.p1)
    have q2 := mul_self_nonneg (valueAt (Pi.single i (1 : ℝ)) t.p2)
    rcases hi with h | h | h <;> rw [← h, hv] at * <;> linarith

/-- **C45.**  The mass matrix is diagonal with positive entries, and they add up to the area of the mesh. -/
theorem c45_mass {m : Mesh V3} (hm : Sound m) :
    (∀ i j, i ≠ j → buildCTilde m i j = 0) ∧ (∀ i, 0 < buildCTilde m i i) ∧
    ∑ i, buildCTilde m i i = (m.triangles.map fun t => gramArea (corners m t)).sum := by
  refine ⟨fun i j h => mass_diagonal m h, mass_pos hm, ?_⟩
  have e : ∑ i, buildCTilde m i i = (fun _ => 1) ⬝ᵥ (buildCTilde m *ᵥ fun _ => 1) := by
    simp only [dotProduct, mulVec, one_mul, mul_one]
    refine Finset.sum_congr rfl fun i _ => ?_
    rw [Finset.sum_eq_single i (fun j _ hj => mass_diagonal m hj.symm) (fun h => absurd (Finset.mem_univ _) h)]
  rw [e, mass_form]
  congr 1
  refine List.map_congr_left fun t ht => ?_
  obtain ⟨h0, h1, h2⟩ := hm.inside t ht
  simp only [valueAt, h0, h1, h2, dif_pos]
  ring

/-- **C45.**  The meshes which the code builds are sound, at every level which 64 bit identifiers allow. -/
theorem c45_mesh (srt : Argsort) {pts : List V3} (hg : GoodPoints pts) (L : Nat) (hL : L ≤ 28) :
    Sound (build srt midOnSphere pts L) where
  inside := c29_points srt midOnSphere pts hg.num L hL
  used := by
    intro k hk
    have h := c75_degree srt midOnSphere pts hg.num L hL k hk
    have hpos : 0 < degree (build srt midOnSphere pts L).triangles k := by rw [h]; split <;> omega
    obtain ⟨t, ht⟩ := List.length_pos_iff_exists_mem.1 hpos
    rw [List.mem_filter] at ht
    exact ⟨t, ht.1, by simpa using ht.2⟩
  area := by
    intro t ht
    have h := (c76_proper srt hg L hL t ht).2.2.2
    generalize corners (build srt midOnSphere pts L) t = p at h
    have hne : cross (sub p.2.1 p.1) (sub p.2.2 p.1) ≠ ⟨0, 0, 0⟩ := by
      intro hc
      have : dot p.1 (cross p.2.1 p.2.2) = dot p.1 (cross (sub p.2.1 p.1) (sub p.2.2 p.1)) := by
        simp only [V3.dot, V3.cross, V3.sub]; ring
      rw [this, hc] at h
      simp [dot] at h
    rw [← area_eq]
    unfold triangleArea
    have := len_pos_of_ne hne
    simp only
    positivity

end

end Verif.Eustace.SphereSpde
