import Verif.Eustace.SphereView.Lemmas

/-!
C102: the matrices of a view are those of its own region.
-/

namespace Verif.Eustace.SphereView

open Matrix Verif.Eustace.Linear Verif.Eustace.Mesh Verif.Eustace.Locator Verif.Eustace.Locator.V3 Verif.Eustace.SphereSpde

noncomputable section

theorem any_false {α : Type} {l : List α} {p : α → Bool} (h : ∀ x ∈ l, p x = false) : l.any p = false := by
  rw [List.any_eq_false]; intro x hx; rw [h x hx]; simp

/-- The stiffness matrix of a view, without the check of indices. -/
def rawG (m : Mesh V3) (a : List Nat) : Mat (size m a) :=
  coo _ (((viewTriangles m a).flatMap (viewStiffnessEntries m a)).map fun t => (t.1.toNat, t.2.1.toNat, t.2.2))

/-- The mass matrix of a view, without the check of indices. -/
def rawC (m : Mesh V3) (a : List Nat) : Mat (size m a) :=
  coo _ (((viewTriangles m a).flatMap (viewMassEntries m a)).map fun t => (t.1.toNat, t.2.1.toNat, t.2.2))

theorem viewG_ok (m : Mesh V3) (a : List Nat) : viewG m a = .ok (rawG m a) := by
  rw [viewG, cooChecked, if_neg, rawG]
  rw [Bool.not_eq_true]
  apply any_false
  intro x hx
  obtain ⟨t, ht, hx⟩ := List.mem_flatMap.1 hx
  obtain ⟨h0, h1, h2⟩ := active_of_mem ht
  have h0 := index_nonneg h0
  have h1 := index_nonneg h1
  have h2 := index_nonneg h2
  simp only [viewStiffnessEntries, List.mem_cons, List.not_mem_nil, or_false] at hx
  rcases hx with rfl | rfl | rfl | rfl | rfl | rfl | rfl | rfl | rfl <;>
    simp only [Bool.or_eq_false_iff, decide_eq_false_iff_not, not_lt] <;> exact ⟨by assumption, by assumption⟩

theorem viewCTilde_ok (m : Mesh V3) (a : List Nat) : viewCTilde m a = .ok (rawC m a) := by
  rw [viewCTilde, cooChecked, if_neg, rawC]
  rw [Bool.not_eq_true]
  apply any_false
  intro x hx
  obtain ⟨t, ht, hx⟩ := List.mem_flatMap.1 hx
  obtain ⟨h0, h1, h2⟩ := active_of_mem ht
  have h0 := index_nonneg h0
  have h1 := index_nonneg h1
  have h2 := index_nonneg h2
  simp only [viewMassEntries, List.mem_cons, List.not_mem_nil, or_false] at hx
  rcases hx with rfl | rfl | rfl <;>
    simp only [Bool.or_eq_false_iff, decide_eq_false_iff_not, not_lt] <;> exact ⟨by assumption, by assumption⟩

/-! ### Forms -/

/-- What one triangle gives to the form of the stiffness matrix. -/
def roughTerm (m : Mesh V3) (x y : Vec m.points.length) (t : Tri) : ℝ :=
  let e := triangleEdges (corners m t)
  1 / (4 * gramArea (corners m t)) *
    dot (add (add (scale (valueAt x t.p0) e.1) (scale (valueAt x t.p1) e.2.1)) (scale (valueAt x t.p2) e.2.2))
      (add (add (scale (valueAt y t.p0) e.1) (scale (valueAt y t.p1) e.2.1)) (scale (valueAt y t.p2) e.2.2))

/-- What one triangle gives to the form of the mass matrix. -/
def massTerm (m : Mesh V3) (x y : Vec m.points.length) (t : Tri) : ℝ :=
  gramArea (corners m t) / 3 *
    (valueAt x t.p0 * valueAt y t.p0 + valueAt x t.p1 * valueAt y t.p1 + valueAt x t.p2 * valueAt y t.p2)

theorem rawG_form {m : Mesh V3} (hm : Sound m) (a : List Nat) (x y : Vec m.points.length) :
    (vertexMappings m a *ᵥ x) ⬝ᵥ (rawG m a *ᵥ (vertexMappings m a *ᵥ y)) =
      ((viewTriangles m a).map (roughTerm m x y)).sum := by
  rw [rawG, coo_form, List.map_map, flatMap_sum]
  congr 1
  refine List.map_congr_left fun t ht => ?_
  obtain ⟨h0, h1, h2⟩ := active_of_mem ht
  simp only [viewStiffnessEntries, area_eq, List.map_cons, List.map_nil, List.sum_cons, List.sum_nil, Function.comp,
    map_value hm _ h0, map_value hm _ h1, map_value hm _ h2, roughTerm]
  have h1 : (1.0 : ℝ) = 1 := by norm_num
  have h4 : (4.0 : ℝ) = 4 := by norm_num
  rw [h1, h4]
  simp only [V3.dot, V3.add, V3.scale]
  ring

theorem rawC_form {m : Mesh V3} (hm : Sound m) (a : List Nat) (x y : Vec m.points.length) :
    (vertexMappings m a *ᵥ x) ⬝ᵥ (rawC m a *ᵥ (vertexMappings m a *ᵥ y)) =
      ((viewTriangles m a).map (massTerm m x y)).sum := by
  rw [rawC, coo_form, List.map_map, flatMap_sum]
  congr 1
  refine List.map_congr_left fun t ht => ?_
  obtain ⟨h0, h1, h2⟩ := active_of_mem ht
  simp only [viewMassEntries, area_eq, List.map_cons, List.map_nil, List.sum_cons, List.sum_nil, Function.comp,
    map_value hm _ h0, map_value hm _ h1, map_value hm _ h2, massTerm]
  have : (3.0 : ℝ) = 3 := by norm_num
  rw [this]; ring

theorem full_form (m : Mesh V3) (x y : Vec m.points.length) :
    x ⬝ᵥ (buildG m *ᵥ y) = (m.triangles.map (roughTerm m x y)).sum := stiffness_form m x y

theorem full_mass_form (m : Mesh V3) (x y : Vec m.points.length) :
    x ⬝ᵥ (buildCTilde m *ᵥ y) = (m.triangles.map (massTerm m x y)).sum := mass_form m x y

theorem back_map {m : Mesh V3} (hm : Sound m) {a : List Nat} (x : Vec (size m a)) :
    vertexMappings m a *ᵥ ((vertexMappings m a)ᵀ *ᵥ x) = x := by
  rw [mulVec_mulVec, map_map hm, one_mulVec]

theorem rawG_local {m : Mesh V3} (hm : Sound m) (a : List Nat) (x y : Vec (size m a)) : x ⬝ᵥ (rawG m a *ᵥ y) =
    ((viewTriangles m a).map (roughTerm m ((vertexMappings m a)ᵀ *ᵥ x) ((vertexMappings m a)ᵀ *ᵥ y))).sum := by
  rw [← rawG_form hm, back_map hm, back_map hm]

theorem rawC_local {m : Mesh V3} (hm : Sound m) (a : List Nat) (x y : Vec (size m a)) : x ⬝ᵥ (rawC m a *ᵥ y) =
    ((viewTriangles m a).map (massTerm m ((vertexMappings m a)ᵀ *ᵥ x) ((vertexMappings m a)ᵀ *ᵥ y))).sum := by
  rw [← rawC_form hm, back_map hm, back_map hm]

theorem back_value {m : Mesh V3} (hm : Sound m) {a : List Nat} (x : Vec (size m a)) (c : Fin (size m a)) :
    valueAt ((vertexMappings m a)ᵀ *ᵥ x) (activeVertices m a)[c.val] = x c := by
  have hc := active_lt hm (List.getElem_mem c.isLt)
  rw [valueAt, dif_pos hc, map_back a x c ⟨_, hc⟩ rfl]

theorem back_const {m : Mesh V3} (hm : Sound m) {a : List Nat} (r : ℝ) {k : Nat} (hk : k ∈ activeVertices m a) :
    valueAt ((vertexMappings m a)ᵀ *ᵥ fun _ => r) k = r := by
  obtain ⟨c, hc, rfl⟩ := List.getElem_of_mem hk
  exact back_value hm (fun _ => r) ⟨c, hc⟩

theorem roughTerm_comm (m : Mesh V3) (x y : Vec m.points.length) (t : Tri) : roughTerm m x y t = roughTerm m y x t := by
  simp only [roughTerm, V3.dot, V3.add, V3.scale]; ring

theorem massTerm_comm (m : Mesh V3) (x y : Vec m.points.length) (t : Tri) : massTerm m x y t = massTerm m y x t := by
  simp only [massTerm]; ring

theorem roughTerm_nonneg {m : Mesh V3} (hm : Sound m) (x : Vec m.points.length) {t : Tri} (ht : t ∈ m.triangles) :
    0 ≤ roughTerm m x x t :=
  mul_nonneg (by have := hm.area t ht; positivity) (dot_self_nonneg _)

theorem massTerm_nonneg {m : Mesh V3} (hm : Sound m) (x : Vec m.points.length) {t : Tri} (ht : t ∈ m.triangles) :
    0 ≤ massTerm m x x t := by
  have := hm.area t ht
  refine mul_nonneg (by positivity) (add_nonneg (add_nonneg ?_ ?_) ?_) <;> exact mul_self_nonneg _

/-! ### Properties of the two matrices -/

theorem rawG_posSemidef {m : Mesh V3} (hm : Sound m) (a : List Nat) : (rawG m a).PosSemidef := by
  refine PosSemidef.of_dotProduct_mulVec_nonneg ?_ ?_
  · rw [IsHermitian, conjTranspose_eq_transpose_of_trivial]
    refine coo_symm fun x y => ?_
    rw [rawG_local hm, rawG_local hm]
    congr 1
    exact List.map_congr_left fun t _ => roughTerm_comm _ _ _ _
  · intro x
    rw [star_trivial, rawG_local hm]
    apply list_sum_nonneg
    intro b hb
    obtain ⟨t, ht, rfl⟩ := List.mem_map.1 hb
    exact roughTerm_nonneg hm _ (viewTriangles_mem ht)

theorem rawC_diagonal {m : Mesh V3} (hm : Sound m) (a : List Nat) {i j : Fin (size m a)} (h : i ≠ j) : rawC m a i j = 0 := by
  have e : rawC m a i j = Pi.single i 1 ⬝ᵥ (rawC m a *ᵥ Pi.single j 1) := by
    simp [mulVec_single_one, single_one_dotProduct]
  rw [e, rawC_local hm]
  rw [show (0 : ℝ) = ((viewTriangles m a).map fun _ => (0 : ℝ)).sum by simp]
  congr 1
  refine List.map_congr_left fun t ht => ?_
  have : ∀ k, k ∈ activeVertices m a → valueAt ((vertexMappings m a)ᵀ *ᵥ Pi.single i (1 : ℝ)) k *
      valueAt ((vertexMappings m a)ᵀ *ᵥ Pi.single j (1 : ℝ)) k = 0 := by
    intro k hk
    obtain ⟨c, hc, rfl⟩ := List.getElem_of_mem hk
    rw [back_value hm _ ⟨c, hc⟩, back_value hm _ ⟨c, hc⟩]
    by_cases hi : (⟨c, hc⟩ : Fin _) = i
    · rw [hi, Pi.single_eq_of_ne h, mul_zero]
    · rw [Pi.single_eq_of_ne hi, zero_mul]
  obtain ⟨h0, h1, h2⟩ := active_of_mem ht
  rw [massTerm, this _ h0, this _ h1, this _ h2]; ring

theorem rawC_pos {m : Mesh V3} (hm : Sound m) (a : List Nat) (i : Fin (size m a)) : 0 < rawC m a i i := by
  have e : rawC m a i i = Pi.single i 1 ⬝ᵥ (rawC m a *ᵥ Pi.single i 1) := by
    simp [mulVec_single_one, single_one_dotProduct]
  rw [e, rawC_local hm]
  obtain ⟨j, hj, t, ht, hi⟩ := mem_active.1 (List.getElem_mem i.isLt)
  refine list_sum_pos ?_ (List.mem_map.2 ⟨t, mem_viewTriangles.2 ⟨j, hj, ht⟩, rfl⟩) ?_
  · intro b hb
    obtain ⟨u, hu, rfl⟩ := List.mem_map.1 hb
    exact massTerm_nonneg hm _ (viewTriangles_mem hu)
  · have := hm.area t (List.mem_of_getElem? ht)
    have hv := back_value hm (Pi.single i (1 : ℝ)) i
    rw [Pi.single_eq_same] at hv
    unfold massTerm
    refine mul_pos (by positivity) ?_
    generalize (vertexMappings m a)ᵀ *ᵥ Pi.single i (1 : ℝ) = X at hv
    have q0 := mul_self_nonneg (valueAt X t.p0)
    have q1 := mul_self_nonneg (valueAt X t.p1)
    have q2 := mul_self_nonneg (valueAt X t.p2)
    rcases hi with h | h | h <;> rw [h] at hv <;> rw [hv] at * <;> linarith

/-- A precision built from a positive diagonal mass matrix and a stiffness matrix is positive definite. -/
theorem native_posDef {n : Nat} {C G : Mat n} (hd : ∀ i j, i ≠ j → C i j = 0) (hp : ∀ i, 0 < C i i) (hG : G.PosSemidef)
    {kappa tau : Vec n} (hk : ∀ i, kappa i ≠ 0) (ht : ∀ i, tau i ≠ 0) (alpha : Nat) :
    (nativeOf C G (Matrix.diagonal kappa) (Matrix.diagonal tau) alpha).PosDef := by
  have hdiag : C = Matrix.diagonal fun i => C i i := by
    ext i j
    by_cases h : i = j
    · subst h; rw [Matrix.diagonal_apply_eq]
    · rw [Matrix.diagonal_apply_ne _ h, hd i j h]
  have hC : C.PosDef := by rw [hdiag, posDef_diagonal_iff]; exact hp
  have hinv : inverseDiagonal C = C⁻¹ := by
    symm
    refine inv_eq_left_inv ?_
    conv_lhs => rw [hdiag]
    rw [inverseDiagonal, Matrix.diagonal_mul_diagonal, ← Matrix.diagonal_one]
    congr 1
    funext i
    have := hp i
    rw [Matrix.diagonal_apply_eq]
    have h1 : (1.0 : ℝ) = 1 := by norm_num
    rw [h1]; field_simp
  have unit : ∀ {v : Vec n}, (∀ i, v i ≠ 0) → IsUnit (Matrix.diagonal v) := by
    intro v hv
    rw [Matrix.isUnit_iff_isUnit_det, det_diagonal, isUnit_iff_ne_zero, Finset.prod_ne_zero_iff]
    exact fun i _ => hv i
  have hK : (Matrix.diagonal kappa * C * Matrix.diagonal kappa + G).PosDef := by
    refine PosDef.add_posSemidef ?_ hG
    have := congruence hC (B := Matrix.diagonal kappa) (unit hk)
    rwa [diagonal_transpose] at this
  unfold nativeOf
  simp only
  rw [hinv]
  split
  · have := congruence (powerLoop_posDef hC hK (rounds 4 alpha) _ (square_posDef hC hK)) (unit ht)
    rwa [diagonal_transpose] at this
  · have := congruence (powerLoop_posDef hC hK (rounds 3 alpha) _ hK) (unit ht)
    rwa [diagonal_transpose] at this

/-! ### C102 -/

/-- **C102.**  The points of a view are the corners of its triangles, each once and in increasing order, and reading a
field through the mapping matrix gives its values there. -/
theorem c102_numbering {m : Mesh V3} (hm : Sound m) (region : List Nat) :
    (activeVertices m region).Pairwise (· < ·) ∧ (∀ k, k ∈ activeVertices m region ↔ InRegion m region k) ∧
    (∀ (x : Vec m.points.length) (c : Fin (size m region)),
      (vertexMappings m region *ᵥ x) c = valueAt x (activeVertices m region)[c.val]) ∧
    vertexMappings m region * (vertexMappings m region)ᵀ = 1 :=
  ⟨active_sorted m region, fun _ => mem_active, map_at hm region, map_map hm region⟩

/-- **C102.**  The stiffness matrix of a view is never refused, and its quadratic form is the integral of the squared
gradient over the triangles of the view alone. -/
theorem c102_roughness {m : Mesh V3} (hm : Sound m) (region : List Nat) :
    ∃ G, viewG m region = .ok G ∧ G.PosSemidef ∧
      ∀ (x : Vec m.points.length) (g : Tri → V3),
        (∀ i ∈ region, ∀ t, m.triangles[i]? = some t →
          IsGradient (corners m t) (valueAt x t.p0) (valueAt x t.p1) (valueAt x t.p2) (g t)) →
        quad G (vertexMappings m region *ᵥ x) =
          (region.map fun i => match m.triangles[i]? with
            | some t => gramArea (corners m t) * dot (g t) (g t)
            | none => 0).sum := by
  refine ⟨rawG m region, viewG_ok m region, rawG_posSemidef hm region, ?_⟩
  intro x g hg
  rw [quad, rawG_form hm]
  unfold viewTriangles gather
  clear *- hg hm
  induction region with
  | nil => rfl
  | cons i l ih =>
    have ih := ih fun j hj => hg j (List.mem_cons_of_mem _ hj)
    rw [List.filterMap_cons, List.map_cons, List.sum_cons, ← ih]
    cases ht : m.triangles[i]? with
    | none => simp
    | some t =>
      rw [List.map_cons, List.sum_cons]
      congr 1
      exact edges_gradient (hg i (by simp) t ht) (hm.area t (List.mem_of_getElem? ht))

/-- **C102.**  A constant field has no roughness on a view: nothing is fixed at the boundary. -/
theorem c102_free_boundary {m : Mesh V3} (hm : Sound m) (region : List Nat) (r : ℝ) :
    ∃ G, viewG m region = .ok G ∧ G *ᵥ (fun _ => r) = 0 := by
  refine ⟨rawG m region, viewG_ok m region, ?_⟩
  have : ∀ x, x ⬝ᵥ (rawG m region *ᵥ fun _ => r) = 0 := by
    intro x
    rw [rawG_local hm, show (0 : ℝ) = ((viewTriangles m region).map fun _ => (0 : ℝ)).sum by simp]
    congr 1
    refine List.map_congr_left fun t ht => ?_
    obtain ⟨h0, h1, h2⟩ := active_of_mem ht
    simp only [roughTerm, back_const hm r h0, back_const hm r h1, back_const hm r h2, triangleEdges, V3.dot, V3.add,
      V3.scale, V3.sub]
    ring
  funext i
  have h := this (Pi.single i 1)
  rwa [single_one_dotProduct] at h

/-- **C102.**  The mass matrix of a view is diagonal and positive, and adds up to the area of the view. -/
theorem c102_mass {m : Mesh V3} (hm : Sound m) (region : List Nat) :
    ∃ C, viewCTilde m region = .ok C ∧ (∀ i j, i ≠ j → C i j = 0) ∧ (∀ i, 0 < C i i) ∧
      ∑ i, C i i = (region.map fun i => match m.triangles[i]? with
        | some t => gramArea (corners m t)
        | none => 0).sum := by
  refine ⟨rawC m region, viewCTilde_ok m region, fun i j h => rawC_diagonal hm region h, rawC_pos hm region, ?_⟩
  have e : ∑ i, rawC m region i i = (fun _ => 1) ⬝ᵥ (rawC m region *ᵥ fun _ => 1) := by
    simp only [dotProduct, mulVec, one_mul, mul_one]
    refine Finset.sum_congr rfl fun i _ => ?_
    rw [Finset.sum_eq_single i (fun j _ hj => rawC_diagonal hm region hj.symm) (fun h => absurd (Finset.mem_univ _) h)]
  have h2 : (viewTriangles m region).map (massTerm m ((vertexMappings m region)ᵀ *ᵥ fun _ => 1)
      ((vertexMappings m region)ᵀ *ᵥ fun _ => 1)) = (viewTriangles m region).map fun t => gramArea (corners m t) := by
    refine List.map_congr_left fun t ht => ?_
    obtain ⟨h0, h1, h2⟩ := active_of_mem ht
    rw [massTerm, back_const hm 1 h0, back_const hm 1 h1, back_const hm 1 h2]
    ring
  rw [e, rawC_local hm, h2]
  unfold viewTriangles gather
  clear *-
  induction region with
  | nil => rfl
  | cons i l ih =>
    rw [List.filterMap_cons, List.map_cons, List.sum_cons, ← ih]
    cases m.triangles[i]? <;> simp

/-- **C102.**  The precision of a view is symmetric positive definite, for every set of triangles, every order above one
and all parameters. -/
theorem c102_precision {m : Mesh V3} (hm : Sound m) (region : List Nat) {p : Nat} (theta : Vec p) {alpha : Nat}
    (ha : 2 ≤ alpha) (sigma rho : Matrix (Fin (size m region)) (Fin p) ℝ) :
    ∃ Q, viewBuildQ m region theta alpha sigma rho = .ok Q ∧ Q.PosDef := by
  refine ⟨_, ?_, native_posDef (fun i j h => rawC_diagonal hm region h) (rawC_pos hm region) (rawG_posSemidef hm region)
    (kappa := kappaOf theta alpha rho) (tau := tauOf theta alpha sigma rho) (fun i => (Real.exp_pos _).ne')
    (fun i => (Real.exp_pos _).ne') alpha⟩
  unfold viewBuildQ
  rw [if_neg (by omega), viewCTilde_ok, viewG_ok]

theorem native_two {n : Nat} {C : Mat n} (hd : ∀ i j, i ≠ j → C i j = 0) (hp : ∀ i, 0 < C i i) (G kappa tau : Mat n) :
    nativeOf C G kappa tau 2 = tau * ((kappa * C * kappa + G) * C⁻¹ * (kappa * C * kappa + G)) * tau := by
  have hdiag : C = Matrix.diagonal fun i => C i i := by
    ext i j
    by_cases h : i = j
    · subst h; rw [Matrix.diagonal_apply_eq]
    · rw [Matrix.diagonal_apply_ne _ h, hd i j h]
  have hinv : inverseDiagonal C = C⁻¹ := by
    symm
    refine inv_eq_left_inv ?_
    conv_lhs => rw [hdiag]
    rw [inverseDiagonal, Matrix.diagonal_mul_diagonal, ← Matrix.diagonal_one]
    congr 1
    funext i
    have := hp i
    rw [Matrix.diagonal_apply_eq]
    have h1 : (1.0 : ℝ) = 1 := by norm_num
    rw [h1]; field_simp
  unfold nativeOf
  simp only
  rw [hinv, if_pos (by norm_num), show rounds 4 2 = 0 from rfl, powerLoop]

/-- **C102.**  For the order 2 the precision of a view is that of Lindgren and Rue on its region: with the mass and stiffness
matrices of the view, `T K C⁻¹ K T` where `K = κ C κ + G`, `κ = √8 / ρ` and `σ² = 1 / (4 π κ² τ²)` at every point. -/
theorem c102_operator {m : Mesh V3} (hm : Sound m) (region : List Nat) {p : Nat} (theta : Vec p)
    (sigma rho : Matrix (Fin (size m region)) (Fin p) ℝ) :
    ∃ C G Q, viewCTilde m region = .ok C ∧ viewG m region = .ok G ∧ viewBuildQ m region theta 2 sigma rho = .ok Q ∧
      ∃ kappa tau : Vec (size m region),
        (∀ i, kappa i = Real.sqrt 8 / Real.exp ((rho *ᵥ theta) i)) ∧
        (∀ i, 0 < tau i ∧ Real.exp ((sigma *ᵥ theta) i) ^ 2 = 1 / (4 * Real.pi * kappa i ^ 2 * tau i ^ 2)) ∧
        Q = Matrix.diagonal tau * ((Matrix.diagonal kappa * C * Matrix.diagonal kappa + G) * C⁻¹ *
          (Matrix.diagonal kappa * C * Matrix.diagonal kappa + G)) * Matrix.diagonal tau := by
  refine ⟨rawC m region, rawG m region, nativeOf (rawC m region) (rawG m region) (Matrix.diagonal (kappaOf theta 2 rho))
    (Matrix.diagonal (tauOf theta 2 sigma rho)) 2, viewCTilde_ok m region, viewG_ok m region, ?_, kappaOf theta 2 rho,
    tauOf theta 2 sigma rho, ?_, ?_, native_two (fun i j h => rawC_diagonal hm region h) (rawC_pos hm region) _ _ _⟩
  · unfold viewBuildQ
    rw [if_neg (by norm_num), viewCTilde_ok, viewG_ok]
  · intro i
    have h := (c87_parameters theta (le_refl 2) sigma rho i).1
    rw [h]; norm_num
  · intro i
    have h := (c87_parameters theta (le_refl 2) sigma rho i).2
    refine ⟨Real.exp_pos _, ?_⟩
    rw [h]
    have e1 : ((2 : Nat) : ℝ) - 1 = 1 := by norm_num
    have e2 : Real.Gamma ((2 : Nat) : ℝ) = 1 := by
      have := Real.Gamma_nat_eq_factorial 1
      norm_num at this ⊢
    rw [e1, e2, Real.Gamma_one, one_mul, mul_one, show (2 : ℝ) = ((2 : Nat) : ℝ) by norm_num, Real.rpow_natCast]

/-- **C102.**  The stationary precision of a view has the same standard deviation and range at all its points. -/
theorem c102_stationary {m : Mesh V3} (hm : Sound m) (region : List Nat) (logSigma logRho : ℝ) :
    ∃ C G Q, viewCTilde m region = .ok C ∧ viewG m region = .ok G ∧
      viewBuildQStationary m region logSigma logRho 2 = .ok Q ∧
      ∃ kappa tau : ℝ, kappa = Real.sqrt 8 / Real.exp logRho ∧ 0 < tau ∧
        Real.exp logSigma ^ 2 = 1 / (4 * Real.pi * kappa ^ 2 * tau ^ 2) ∧
        Q = tau ^ 2 • ((kappa ^ 2 • C + G) * C⁻¹ * (kappa ^ 2 • C + G)) := by
  obtain ⟨C, G, Q, hC, hG, hQ, kappa, tau, hk, ht, e⟩ := c102_operator hm region ![logSigma, logRho]
    (sigmaStationary _) (rhoStationary _)
  refine ⟨C, G, Q, hC, hG, hQ, Real.sqrt 8 / Real.exp logRho,
    Real.sqrt (1 / (4 * Real.pi * (Real.sqrt 8 / Real.exp logRho) ^ 2 * Real.exp logSigma ^ 2)), rfl, ?_, ?_, ?_⟩
  · have := Real.pi_pos
    positivity
  · have := Real.pi_pos
    rw [Real.sq_sqrt (by positivity)]
    field_simp
  · have hkappa : Matrix.diagonal kappa = (Real.sqrt 8 / Real.exp logRho) • (1 : Mat (size m region)) := by
      rw [← Matrix.diagonal_one, ← Matrix.diagonal_smul]
      congr 1
      funext i
      rw [hk i, (c87_stationary _ _ i).2]; simp
    have htau : Matrix.diagonal tau = (Real.sqrt (1 / (4 * Real.pi * (Real.sqrt 8 / Real.exp logRho) ^ 2 *
        Real.exp logSigma ^ 2))) • (1 : Mat (size m region)) := by
      rw [← Matrix.diagonal_one, ← Matrix.diagonal_smul]
      congr 1
      funext i
      have h := (ht i).2
      rw [hk i, (c87_stationary _ _ i).1, (c87_stationary _ _ i).2] at h
      have h1 := (ht i).1
      rw [Pi.smul_apply, smul_eq_mul, mul_one, h]
      symm
      rw [Real.sqrt_eq_iff_mul_self_eq (by have := Real.pi_pos; positivity) h1.le]
      have := Real.pi_pos
      field_simp
    rw [e, hkappa, htau]
    simp only [Matrix.smul_mul, Matrix.mul_smul, Matrix.one_mul, Matrix.mul_one, smul_smul, ← pow_two]

/-- **C102.**  The map to the triangles of a view picks the values of its triangles. -/
theorem c102_triangles {m : Mesh V3} {region : List Nat} (hv : Valid m region) (x : Vec m.triangles.length)
    (i : Fin region.length) : (triangulationMappings m region *ᵥ x) i = valueAt x region[i.val] := by
  have h := hv _ (List.getElem_mem i.isLt)
  rw [valueAt, dif_pos h, mulVec, dotProduct, Finset.sum_eq_single ⟨_, h⟩]
  · simp [triangulationMappings]
  · intro j _ hj
    rw [triangulationMappings, Matrix.of_apply, if_neg, zero_mul]
    intro e; exact hj (Fin.ext e.symm)
  · intro h'; exact absurd (Finset.mem_univ _) h'

theorem form_ext {n : Nat} {A B : Mat n} (h : ∀ x y : Vec n, x ⬝ᵥ (A *ᵥ y) = x ⬝ᵥ (B *ᵥ y)) : A = B := by
  ext i j
  have := h (Pi.single i 1) (Pi.single j 1)
  simpa [mulVec_single_one, single_one_dotProduct] using this

theorem lifted_form {m : Mesh V3} (a : List Nat) (A : Mat (size m a)) (x y : Vec m.points.length) :
    x ⬝ᵥ (((vertexMappings m a)ᵀ * A * vertexMappings m a) *ᵥ y) =
      (vertexMappings m a *ᵥ x) ⬝ᵥ (A *ᵥ (vertexMappings m a *ᵥ y)) := by
  rw [← mulVec_mulVec, ← mulVec_mulVec, dotProduct_mulVec, vecMul_transpose]

theorem sum_form {n : Nat} {α : Type} (f : α → Mat n) (l : List α) (x y : Vec n) :
    x ⬝ᵥ ((l.map f).sum *ᵥ y) = (l.map fun a => x ⬝ᵥ (f a *ᵥ y)).sum := by
  induction l with
  | nil => simp
  | cons a l ih => simp [add_mulVec, dotProduct_add, ih]

theorem parts_sum {m : Mesh V3} (f : Tri → ℝ) (parts : List (List Nat))
    (hp : parts.flatten.Perm (List.range m.triangles.length)) :
    (parts.map fun a => ((viewTriangles m a).map f).sum).sum = (m.triangles.map f).sum := by
  have h1 : (parts.map fun a => ((viewTriangles m a).map f).sum).sum = ((gather m.triangles parts.flatten).map f).sum := by
    clear hp
    induction parts with
    | nil => rfl
    | cons a l ih =>
      rw [List.map_cons, List.sum_cons, ih, List.flatten_cons]
      simp [gather, viewTriangles]
  rw [h1]
  exact ((gather_perm _ _ hp).map f).sum_eq

/-- **C102.**  When the triangles of the mesh are shared out among views, the matrices of the views, put at their places
and added, are the matrices of the whole sphere. -/
theorem c102_assembly {m : Mesh V3} (hm : Sound m) (parts : List (List Nat))
    (hp : parts.flatten.Perm (List.range m.triangles.length)) :
    ∃ C G : (a : List Nat) → Mat (size m a),
      (∀ a, viewCTilde m a = .ok (C a) ∧ viewG m a = .ok (G a)) ∧
      (parts.map fun a => (vertexMappings m a)ᵀ * C a * vertexMappings m a).sum = buildCTilde m ∧
      (parts.map fun a => (vertexMappings m a)ᵀ * G a * vertexMappings m a).sum = buildG m := by
  refine ⟨rawC m, rawG m, fun a => ⟨viewCTilde_ok m a, viewG_ok m a⟩, ?_, ?_⟩
  · refine form_ext fun x y => ?_
    rw [sum_form, full_mass_form, ← parts_sum _ parts hp]
    congr 1
    exact List.map_congr_left fun a _ => by rw [lifted_form, rawC_form hm]
  · refine form_ext fun x y => ?_
    rw [sum_form, full_form, ← parts_sum _ parts hp]
    congr 1
    exact List.map_congr_left fun a _ => by rw [lifted_form, rawG_form hm]

/-! ### Rows of interior points -/

theorem roughTerm_zero {m : Mesh V3} (x y : Vec m.points.length) {t : Tri}
    (h0 : valueAt x t.p0 = 0) (h1 : valueAt x t.p1 = 0) (h2 : valueAt x t.p2 = 0) : roughTerm m x y t = 0 := by
  simp only [roughTerm, h0, h1, h2, V3.dot, V3.add, V3.scale]; ring

theorem massTerm_zero {m : Mesh V3} (x y : Vec m.points.length) {t : Tri}
    (h0 : valueAt x t.p0 = 0) (h1 : valueAt x t.p1 = 0) (h2 : valueAt x t.p2 = 0) : massTerm m x y t = 0 := by
  simp only [massTerm, h0, h1, h2]; ring

theorem gather_sum_outside {ts : List Tri} (f : Tri → ℝ) {region : List Nat} (hn : region.Nodup)
    (hv : ∀ i ∈ region, i < ts.length) (hz : ∀ i t, ts[i]? = some t → i ∉ region → f t = 0) :
    ((gather ts region).map f).sum = (ts.map f).sum := by
  classical
  let rest := (List.range ts.length).filter fun i => i ∉ region
  have hperm : (region ++ rest).Perm (List.range ts.length) := by
    refine (List.perm_ext_iff_of_nodup ?_ List.nodup_range).2 ?_
    · rw [List.nodup_append]
      refine ⟨hn, List.nodup_range.filter _, ?_⟩
      intro a ha b hb e
      subst e
      rw [List.mem_filter] at hb
      simpa [ha] using hb.2
    · intro i
      simp only [List.mem_append, rest, List.mem_filter, List.mem_range, decide_eq_true_eq]
      constructor
      · rintro (h | h)
        · exact hv i h
        · exact h.1
      · intro h
        by_cases hi : i ∈ region
        · exact .inl hi
        · exact .inr ⟨h, hi⟩
  have h1 := ((gather_perm ts _ hperm).map f).sum_eq
  rw [← h1]
  have h2 : gather ts (region ++ rest) = gather ts region ++ gather ts rest := by simp [gather]
  rw [h2, List.map_append, List.sum_append]
  have h3 : ((gather ts rest).map f).sum = 0 := by
    rw [show (0 : ℝ) = ((gather ts rest).map fun _ => (0 : ℝ)).sum by simp]
    congr 1
    refine List.map_congr_left fun t ht => ?_
    obtain ⟨i, hi, ht⟩ := List.mem_filterMap.1 ht
    rw [List.mem_filter] at hi
    exact hz i t ht (by simpa using hi.2)
  rw [h3, add_zero]

theorem map_single {m : Mesh V3} (hm : Sound m) (a : List Nat) (c : Fin (size m a)) (k : Fin m.points.length)
    (hk : (activeVertices m a)[c.val] = k.val) : vertexMappings m a *ᵥ Pi.single k (1 : ℝ) = Pi.single c 1 := by
  funext d
  have hd := active_lt hm (List.getElem_mem d.isLt)
  rw [map_at hm, valueAt, dif_pos hd, Pi.single_apply, Pi.single_apply]
  congr 1
  rw [Fin.ext_iff, Fin.ext_iff]
  simp only
  rw [← hk, (active_nodup m a).getElem_inj_iff]

theorem single_value {n : Nat} (k : Fin n) {j : Nat} (h : j ≠ k.val) : valueAt (Pi.single k (1 : ℝ)) j = 0 := by
  unfold valueAt
  split
  · next hj => exact Pi.single_eq_of_ne (fun e => h (by rw [← e])) _
  · rfl

/-- **C102.**  At a point all of whose triangles belong to the view, the rows of the matrices are those of the whole
sphere: the boundary of a view changes only the points on it. -/
theorem c102_interior {m : Mesh V3} (hm : Sound m) {region : List Nat} (hn : region.Nodup) (hv : Valid m region) :
    ∃ C G, viewCTilde m region = .ok C ∧ viewG m region = .ok G ∧
      ∀ (c d : Fin (size m region)) (k l : Fin m.points.length), (activeVertices m region)[c.val] = k.val →
        (activeVertices m region)[d.val] = l.val → Interior m region k.val →
        C c d = buildCTilde m k l ∧ G c d = buildG m k l := by
  refine ⟨rawC m region, rawG m region, viewCTilde_ok m region, viewG_ok m region, ?_⟩
  intro c d k l hc hd hi
  have key : ∀ {n : Nat} (A : Mat n) (i j : Fin n), A i j = Pi.single i 1 ⬝ᵥ (A *ᵥ Pi.single j 1) := by
    intro n A i j; simp [mulVec_single_one, single_one_dotProduct]
  have hz : ∀ i t, m.triangles[i]? = some t → i ∉ region → valueAt (Pi.single k (1 : ℝ)) t.p0 = 0 ∧
      valueAt (Pi.single k (1 : ℝ)) t.p1 = 0 ∧ valueAt (Pi.single k (1 : ℝ)) t.p2 = 0 := by
    intro i t ht hir
    have hne : ¬ (k.val = t.p0 ∨ k.val = t.p1 ∨ k.val = t.p2) := fun h => hir (hi i t ht h)
    push Not at hne
    exact ⟨single_value k hne.1.symm, single_value k hne.2.1.symm, single_value k hne.2.2.symm⟩
  constructor
  · rw [key (rawC m region) c d, key (buildCTilde m) k l, ← map_single hm region c k hc, ← map_single hm region d l hd, rawC_form hm,
      full_mass_form]
    refine gather_sum_outside _ hn hv ?_
    intro i t ht hir
    obtain ⟨h0, h1, h2⟩ := hz i t ht hir
    exact massTerm_zero _ _ h0 h1 h2
  · rw [key (rawG m region) c d, key (buildG m) k l, ← map_single hm region c k hc, ← map_single hm region d l hd, rawG_form hm, full_form]
    refine gather_sum_outside _ hn hv ?_
    intro i t ht hir
    obtain ⟨h0, h1, h2⟩ := hz i t ht hir
    exact roughTerm_zero _ _ h0 h1 h2

end

end Verif.Eustace.SphereView
