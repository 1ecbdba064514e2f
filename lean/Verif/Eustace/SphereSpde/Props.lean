import Verif.Eustace.SphereSpde.Fem
import Mathlib.Analysis.Matrix.PosDef
import Mathlib.Data.Real.StarOrdered

/-!
C45 (positive definite precision), C46 (order of the operator) and C87 (meaning of the parameters).
-/

namespace Verif.Eustace.SphereSpde

open Matrix Verif.Eustace.Linear Verif.Eustace.Mesh Verif.Eustace.Locator Verif.Eustace.Locator.V3

noncomputable section

/-! ### C45: only constants have no roughness -/

theorem flat_triangle {p : V3 × V3 × V3} (hA : 0 < gramArea p) {x0 x1 x2 : ℝ}
    (h : dot (V3.add (V3.add (V3.scale x0 (triangleEdges p).1) (V3.scale x1 (triangleEdges p).2.1))
      (V3.scale x2 (triangleEdges p).2.2))
      (V3.add (V3.add (V3.scale x0 (triangleEdges p).1) (V3.scale x1 (triangleEdges p).2.1))
      (V3.scale x2 (triangleEdges p).2.2)) = 0) : x1 = x0 ∧ x2 = x0 := by
  obtain ⟨g, hg⟩ := gradient_exists hA x0 x1 x2
  have h1 := edges_gradient hg hA
  simp only at h1
  rw [h, mul_zero] at h1
  have h2 : dot g g = 0 := by
    rcases mul_eq_zero.1 h1.symm with h | h
    · exact absurd h hA.ne'
    · exact h
  have hz : g = ⟨0, 0, 0⟩ := by
    apply eq_zero_of_len
    unfold V3.len
    rw [h2, Real.sqrt_zero]
  have a := hg.first
  have b := hg.second
  rw [hz] at a b
  simp only [V3.dot, zero_mul, add_zero] at a b
  constructor <;> linarith

theorem list_sum_zero {l : List ℝ} (h : ∀ a ∈ l, 0 ≤ a) (hs : l.sum = 0) : ∀ a ∈ l, a = 0 := by
  intro a ha
  by_contra hne
  have := list_sum_pos h ha (lt_of_le_of_ne (h a ha) (Ne.symm hne))
  linarith

/-- **C45.**  On a connected mesh only constant fields have no roughness. -/
theorem c45_kernel {m : Mesh V3} (hm : Sound m) (hc : Connected m.triangles) (x : Vec m.points.length)
    (hx : quad (buildG m) x = 0) : ∀ i j, x i = x j := by
  rw [quad, stiffness_form] at hx
  have hz := list_sum_zero (by
    intro a ha
    obtain ⟨t, ht, rfl⟩ := List.mem_map.1 ha
    exact mul_nonneg (by have := hm.area t ht; positivity) (dot_self_nonneg _)) hx
  have hflat : ∀ t ∈ m.triangles, valueAt x t.p1 = valueAt x t.p0 ∧ valueAt x t.p2 = valueAt x t.p0 := by
    intro t ht
    have h := hz _ (List.mem_map.2 ⟨t, ht, rfl⟩)
    have hA := hm.area t ht
    rcases mul_eq_zero.1 h with h | h
    · exact absurd h (by positivity)
    · exact flat_triangle hA h
  have hside : ∀ t ∈ m.triangles, ∀ s ∈ t.sides, valueAt x s.1 = valueAt x t.p0 ∧ valueAt x s.2 = valueAt x t.p0 := by
    intro t ht s hs
    obtain ⟨h1, h2⟩ := hflat t ht
    simp only [Tri.sides, List.mem_cons, List.not_mem_nil, or_false] at hs
    rcases hs with rfl | rfl | rfl
    · exact ⟨rfl, h1⟩
    · exact ⟨h1, h2⟩
    · exact ⟨h2, rfl⟩
  have hadj : ∀ t u, Adjacent m.triangles t u → valueAt x t.p0 = valueAt x u.p0 := by
    rintro t u ⟨ht, hu, s, hs1, hs2⟩
    rw [← (hside t ht s hs1).1, ← (hside u hu _ hs2).2]
  have hwalk : ∀ t u, Relation.ReflTransGen (Adjacent m.triangles) t u → valueAt x t.p0 = valueAt x u.p0 := by
    intro t u h
    induction h with
    | refl => rfl
    | tail _ h ih => rw [ih, hadj _ _ h]
  have hpt : ∀ i : Fin m.points.length, ∃ t ∈ m.triangles, x i = valueAt x t.p0 := by
    intro i
    obtain ⟨t, ht, hi⟩ := hm.used i i.isLt
    refine ⟨t, ht, ?_⟩
    have hv : x i = valueAt x i.val := by unfold valueAt; rw [dif_pos i.isLt]
    obtain ⟨h1, h2⟩ := hflat t ht
    rw [hv]
    rcases hi with h | h | h <;> rw [h]
    · exact h1
    · exact h2
  intro i j
  obtain ⟨t, ht, h1⟩ := hpt i
  obtain ⟨u, hu, h2⟩ := hpt j
  rw [h1, h2]
  exact hwalk t u (hc t ht u hu)

/-! ### C45: positive definite precision -/

theorem inverse_diagonal {m : Mesh V3} (hm : Sound m) : inverseDiagonal (buildCTilde m) = (buildCTilde m)⁻¹ := by
  have hd : buildCTilde m = Matrix.diagonal fun i => buildCTilde m i i := by
    ext i j
    by_cases h : i = j
    · subst h; rw [Matrix.diagonal_apply_eq]
    · rw [Matrix.diagonal_apply_ne _ h, mass_diagonal m h]
  symm
  refine inv_eq_left_inv ?_
  conv_lhs => rw [hd]
  rw [inverseDiagonal, Matrix.diagonal_mul_diagonal, ← Matrix.diagonal_one]
  congr 1
  funext i
  have := mass_pos hm i
  rw [Matrix.diagonal_apply_eq]
  have h1 : (1.0 : ℝ) = 1 := by norm_num
  rw [h1]; field_simp

theorem mass_posDef {m : Mesh V3} (hm : Sound m) : (buildCTilde m).PosDef := by
  have hd : buildCTilde m = Matrix.diagonal fun i => buildCTilde m i i := by
    ext i j
    by_cases h : i = j
    · subst h; rw [Matrix.diagonal_apply_eq]
    · rw [Matrix.diagonal_apply_ne _ h, mass_diagonal m h]
  rw [hd, posDef_diagonal_iff]
  exact mass_pos hm

theorem congruence {n : Nat} {A B : Mat n} (hA : A.PosDef) (hB : IsUnit B) : (B * A * Bᵀ).PosDef := by
  have := hA.mul_mul_conjTranspose_same (B := B) (by
    rw [Matrix.vecMul_injective_iff_isUnit]; exact hB)
  rwa [conjTranspose_eq_transpose_of_trivial] at this

theorem operator_posDef {m : Mesh V3} (hm : Sound m) {kappa : Vec m.points.length} (hk : ∀ i, kappa i ≠ 0) :
    (Matrix.diagonal kappa * buildCTilde m * Matrix.diagonal kappa + buildG m).PosDef := by
  refine PosDef.add_posSemidef ?_ (c45_stiffness_posSemidef hm)
  have := congruence (mass_posDef hm) (B := Matrix.diagonal kappa) (by
    rw [Matrix.isUnit_iff_isUnit_det, det_diagonal, isUnit_iff_ne_zero, Finset.prod_ne_zero_iff]
    exact fun i _ => hk i)
  rwa [diagonal_transpose] at this

theorem symm_of_posDef {n : Nat} {A : Mat n} (h : A.PosDef) : Aᵀ = A := by
  have := h.isHermitian
  rwa [IsHermitian, conjTranspose_eq_transpose_of_trivial] at this

theorem round_posDef {n : Nat} {C K Q : Mat n} (hC : C.PosDef) (hK : K.PosDef) (hQ : Q.PosDef) :
    (K * C⁻¹ * Q * C⁻¹ * K).PosDef := by
  have := congruence hQ (B := K * C⁻¹) (hK.isUnit.mul hC.inv.isUnit)
  rwa [transpose_mul, symm_of_posDef hK, symm_of_posDef hC.inv, ← Matrix.mul_assoc] at this

theorem powerLoop_posDef {n : Nat} {C K : Mat n} (hC : C.PosDef) (hK : K.PosDef) : ∀ (k : Nat) (Q : Mat n), Q.PosDef →
    (powerLoop K C⁻¹ k Q).PosDef
  | 0, _, hQ => hQ
  | k + 1, _, hQ => powerLoop_posDef hC hK k _ (round_posDef hC hK hQ)

theorem square_posDef {n : Nat} {C K : Mat n} (hC : C.PosDef) (hK : K.PosDef) : (K * C⁻¹ * K).PosDef := by
  have := congruence hC.inv (B := K) hK.isUnit
  rwa [symm_of_posDef hK] at this

/-- **C45.**  The precision matrix is symmetric positive definite for every order, and every `kappa` and `tau` which are
nowhere zero. -/
theorem c45_posDef {m : Mesh V3} (hm : Sound m) {kappa tau : Vec m.points.length} (hk : ∀ i, kappa i ≠ 0)
    (ht : ∀ i, tau i ≠ 0) (alpha : Nat) :
    (buildQNative m (Matrix.diagonal kappa) (Matrix.diagonal tau) alpha).PosDef := by
  have hC := mass_posDef hm
  have hK := operator_posDef hm hk
  unfold buildQNative nativeOf
  simp only
  rw [inverse_diagonal hm]
  have hu : IsUnit (Matrix.diagonal tau) := by
    rw [Matrix.isUnit_iff_isUnit_det, det_diagonal, isUnit_iff_ne_zero, Finset.prod_ne_zero_iff]
    exact fun i _ => ht i
  split
  · have := congruence (powerLoop_posDef hC hK (rounds 4 alpha) _ (square_posDef hC hK)) hu
    rwa [diagonal_transpose] at this
  · have := congruence (powerLoop_posDef hC hK (rounds 3 alpha) _ hK) hu
    rwa [diagonal_transpose] at this

/-- **C45.**  On every mesh which the code builds, `build_Q` succeeds for every order above one and gives a symmetric
positive definite matrix, whatever the parameters and their design. -/
theorem c45_buildQ (srt : Argsort) {pts : List V3} (hg : GoodPoints pts) (L : Nat) (hL : L ≤ 28) {p : Nat} (theta : Vec p)
    {alpha : Nat} (ha : 2 ≤ alpha)
    (sigma rho : Matrix (Fin (build srt midOnSphere pts L).points.length) (Fin p) ℝ) :
    ∃ Q, buildQ (build srt midOnSphere pts L) theta alpha sigma rho = .ok Q ∧ Q.PosDef := by
  refine ⟨_, if_neg (by omega), c45_posDef (c45_mesh srt hg L hL) ?_ ?_ alpha⟩
  · exact fun i => (Real.exp_pos _).ne'
  · exact fun i => (Real.exp_pos _).ne'

/-! ### C46: the order of the operator -/

theorem powerLoop_order {n : Nat} (C K : Mat n) : ∀ (k a : Nat),
    powerLoop K C⁻¹ k (orderPrecision C K a) = orderPrecision C K (a + 2 * k)
  | 0, a => rfl
  | k + 1, a => by
    rw [powerLoop]
    have : K * C⁻¹ * orderPrecision C K a * C⁻¹ * K = orderPrecision C K (a + 2) := rfl
    rw [this, powerLoop_order C K k (a + 2)]
    congr 1; ring

theorem order_two {n : Nat} {C : Mat n} (hC : IsUnit C.det) (K : Mat n) : orderPrecision C K 2 = K * C⁻¹ * K := by
  show K * C⁻¹ * C * C⁻¹ * K = K * C⁻¹ * K
  rw [Matrix.mul_assoc K C⁻¹ C, nonsing_inv_mul _ hC, Matrix.mul_one]

/-- The order of the precision which the code builds when asked for `alpha`. -/
def orderBuilt (alpha : Nat) : Nat := if alpha = 0 then 2 else if alpha ≤ 2 then alpha else alpha - 2

/-- What the loops compute: above two, the precision of an order which is too low by two. -/
theorem native_order {m : Mesh V3} (hm : Sound m) (kappa tau : Mat m.points.length) (alpha : Nat) :
    buildQNative m kappa tau alpha =
      tau * orderPrecision (buildCTilde m) (kappa * buildCTilde m * kappa + buildG m) (orderBuilt alpha) * tau := by
  have hu : IsUnit (buildCTilde m).det := (mass_posDef hm).det_pos.ne'.isUnit
  unfold buildQNative nativeOf
  simp only
  rw [inverse_diagonal hm]
  generalize kappa * buildCTilde m * kappa + buildG m = K
  have h1 : K = orderPrecision (buildCTilde m) K 1 := rfl
  split
  · rw [← order_two hu, powerLoop_order]
    congr 3
    unfold orderBuilt rounds
    split_ifs <;> omega
  · conv_lhs => enter [1, 2, 4]; rw [h1]
    rw [powerLoop_order]
    congr 3
    unfold orderBuilt rounds
    split_ifs <;> omega

/-- **C46, the part which holds.**  For orders one and two the precision is that of the order asked for.  Missing: all
orders above two. -/
theorem c46_order_partial {m : Mesh V3} (hm : Sound m) (kappa tau : Mat m.points.length) {alpha : Nat} (h1 : 1 ≤ alpha)
    (h2 : alpha ≤ 2) : buildQNative m kappa tau alpha =
      tau * orderPrecision (buildCTilde m) (kappa * buildCTilde m * kappa + buildG m) alpha * tau := by
  rw [native_order hm]
  congr 3
  unfold orderBuilt
  split_ifs <;> omega

/-- A constant field is an eigenvector of the operator. -/
theorem order_const {m : Mesh V3} (hm : Sound m) (k : ℝ) : ∀ alpha,
    orderPrecision (buildCTilde m) (Matrix.diagonal (fun _ => k) * buildCTilde m * Matrix.diagonal (fun _ => k) + buildG m)
      alpha *ᵥ (fun _ => 1) = (k * k) ^ alpha • (buildCTilde m *ᵥ fun _ => 1) := by
  have hu : IsUnit (buildCTilde m).det := (mass_posDef hm).det_pos.ne'.isUnit
  have hK : (Matrix.diagonal (fun _ => k) * buildCTilde m * Matrix.diagonal (fun _ => k) + buildG m) *ᵥ (fun _ => 1) =
      (k * k) • (buildCTilde m *ᵥ fun _ => 1) := by
    have hd : (Matrix.diagonal fun _ : Fin m.points.length => k) = k • (1 : Mat m.points.length) := by
      rw [← Matrix.diagonal_one, ← Matrix.diagonal_smul]; congr 1; funext i; simp
    rw [add_mulVec, c45_row_sums hm, add_zero, hd]
    simp only [Matrix.smul_mul, Matrix.mul_smul, Matrix.one_mul, Matrix.mul_one, smul_mulVec, smul_smul]
  generalize Matrix.diagonal (fun _ => k) * buildCTilde m * Matrix.diagonal (fun _ => k) + buildG m = K at hK
  intro alpha
  induction alpha using Nat.strong_induction_on with
  | _ alpha ih =>
    match alpha, ih with
    | 0, _ => simp [orderPrecision]
    | 1, _ => simpa [orderPrecision] using hK
    | a + 2, ih =>
      have hC : (buildCTilde m)⁻¹ *ᵥ (buildCTilde m *ᵥ fun _ => 1) = fun _ => 1 := by
        rw [mulVec_mulVec, nonsing_inv_mul _ hu, one_mulVec]
      show (K * (buildCTilde m)⁻¹ * orderPrecision _ K a * (buildCTilde m)⁻¹ * K) *ᵥ (fun _ => 1) = _
      rw [← mulVec_mulVec, hK, mulVec_smul, ← mulVec_mulVec, hC, ← mulVec_mulVec, ih a (by omega), mulVec_smul,
        ← mulVec_mulVec, hC, hK, smul_smul, smul_smul]
      congr 1; ring

/-- **C46 fails.**  On every mesh with at least one point, asking for order four gives exactly the precision of order
two, and this is not the precision of order four unless `kappa` is one: the loops start at four (and three) but the
bound `alpha` is not included. -/
theorem c46_order_violated {m : Mesh V3} (hm : Sound m) (hne : 0 < m.points.length) {k : ℝ} (hk : 0 < k) (hk1 : k ≠ 1) :
    (∀ kappa tau, buildQNative m kappa tau 4 = buildQNative m kappa tau 2) ∧
    (∀ kappa tau, buildQNative m kappa tau 3 = buildQNative m kappa tau 1) ∧
    buildQNative m (Matrix.diagonal fun _ => k) 1 4 ≠
      orderPrecision (buildCTilde m)
        (Matrix.diagonal (fun _ => k) * buildCTilde m * Matrix.diagonal (fun _ => k) + buildG m) 4 := by
  refine ⟨fun kappa tau => by rw [native_order hm, native_order hm]; rfl,
    fun kappa tau => by rw [native_order hm, native_order hm]; rfl, ?_⟩
  intro h
  rw [native_order hm, Matrix.one_mul, Matrix.mul_one, show orderBuilt 4 = 2 from rfl] at h
  have h2 := congrArg (fun M => (M *ᵥ fun _ => (1 : ℝ)) ⟨0, hne⟩) h
  simp only [order_const hm, Pi.smul_apply, smul_eq_mul] at h2
  have hpos : 0 < (buildCTilde m *ᵥ fun _ => (1 : ℝ)) ⟨0, hne⟩ := by
    simp only [mulVec, dotProduct, mul_one]
    rw [Finset.sum_eq_single ⟨0, hne⟩ (fun j _ hj => mass_diagonal m hj.symm) (fun h => absurd (Finset.mem_univ _) h)]
    exact mass_pos hm _
  have h3 := mul_right_cancel₀ hpos.ne' h2
  have h4 : (k * k) ^ 2 = 1 := by
    have : (k * k) ^ 4 = (k * k) ^ 2 * (k * k) ^ 2 := by ring
    rw [this] at h3
    have hp : (k * k) ^ 2 ≠ 0 := by positivity
    exact (mul_left_cancel₀ hp (by rw [mul_one]; exact h3)).symm
  have h5 : k ^ 4 = 1 := by rw [← h4]; ring
  exact hk1 ((pow_eq_one_iff_of_nonneg hk.le (by norm_num)).1 h5)

/-! ### C87: the meaning of the parameters -/

theorem nu_eq (alpha : Nat) : nuOf alpha = alpha - 1 := by unfold nuOf; norm_num

theorem nu_pos {alpha : Nat} (h : 2 ≤ alpha) : 0 < nuOf alpha := by
  rw [nu_eq]
  have : (2 : ℝ) ≤ alpha := by exact_mod_cast h
  linarith

/-- **C87.**  At every point the operator scale and the field scale are those which Lindgren and Rue give for standard
deviation `sigma` and range `rho`: `kappa = sqrt(8 nu) / rho` and
`sigma² = Γ(nu) / (Γ(alpha) 4π kappa^(2 nu) tau²)`, where the logarithms of `sigma` and `rho` are the design matrices
applied to the parameters. -/
theorem c87_parameters {n p : Nat} (theta : Vec p) {alpha : Nat} (h : 2 ≤ alpha) (sigma rho : Matrix (Fin n) (Fin p) ℝ)
    (i : Fin n) :
    let nu : ℝ := alpha - 1
    let s := Real.exp ((sigma *ᵥ theta) i)
    let r := Real.exp ((rho *ᵥ theta) i)
    let kappa := kappaOf theta alpha rho i
    let tau := tauOf theta alpha sigma rho i
    kappa = Real.sqrt (8 * nu) / r ∧
    s ^ 2 = Real.Gamma nu / (Real.Gamma alpha * (4 * Real.pi) * kappa ^ (2 * nu) * tau ^ 2) := by
  have hnu := nu_pos h
  rw [nu_eq] at hnu
  simp only
  have hsqrt : Real.exp (b0Kappa alpha) = Real.sqrt (8 * (alpha - 1)) := by
    unfold b0Kappa
    simp only
    rw [nu_eq, show (8.0 : ℝ) = 8 by norm_num, show (2.0 : ℝ) = 2 by norm_num, show (0.0 : ℝ) = 0 by norm_num, sub_zero,
      Real.sqrt_eq_rpow, Real.rpow_def_of_pos (by positivity)]
    congr 1; ring
  constructor
  · unfold kappaOf kappaDesign
    rw [Real.exp_add, hsqrt, neg_mulVec, Pi.neg_apply, Real.exp_neg]
    rfl
  · have hG1 := Real.Gamma_pos_of_pos hnu
    have hG2 : 0 < Real.Gamma alpha := Real.Gamma_pos_of_pos (by
      have : (2 : ℝ) ≤ alpha := by exact_mod_cast h
      linarith)
    have hpi := Real.pi_pos
    have ht : tauOf theta alpha sigma rho i ^ 2 =
        Real.Gamma (alpha - 1) / (Real.Gamma alpha * (4 * Real.pi)) *
          Real.exp (- 2 * (alpha - 1) * b0Kappa alpha - 2 * (sigma *ᵥ theta) i + 2 * (alpha - 1) * (rho *ᵥ theta) i) := by
      unfold tauOf b0Tau tauDesign kappaDesign
      simp only
      rw [nu_eq, show (0.5 : ℝ) * 2 = 1 by norm_num, Real.rpow_one, show (0.0 : ℝ) = 0 by norm_num,
        show (0.5 : ℝ) = 1 / 2 by norm_num, ← Real.exp_log (show 0 < Real.Gamma ((alpha : ℝ) - 1) /
          (Real.Gamma alpha * (4 * Real.pi)) by positivity), ← Real.exp_add, ← Real.exp_nat_mul]
      congr 1
      rw [Real.log_exp, sub_mulVec, neg_mulVec, smul_mulVec, neg_mulVec]
      simp only [Pi.sub_apply, Pi.neg_apply, Pi.smul_apply, smul_eq_mul]
      push_cast
      ring
    have hk : kappaOf theta alpha rho i ^ (2 * ((alpha : ℝ) - 1)) =
        Real.exp (2 * (alpha - 1) * b0Kappa alpha - 2 * (alpha - 1) * (rho *ᵥ theta) i) := by
      unfold kappaOf kappaDesign
      rw [← Real.exp_mul, neg_mulVec, Pi.neg_apply]
      congr 1; ring
    have he : Real.exp (2 * (alpha - 1) * b0Kappa alpha - 2 * (alpha - 1) * (rho *ᵥ theta) i) *
        Real.exp (- 2 * (alpha - 1) * b0Kappa alpha - 2 * (sigma *ᵥ theta) i + 2 * (alpha - 1) * (rho *ᵥ theta) i) *
        Real.exp ((sigma *ᵥ theta) i) ^ 2 = 1 := by
      rw [← Real.exp_nat_mul, ← Real.exp_add, ← Real.exp_add, Real.exp_eq_one_iff]
      push_cast; ring
    rw [hk, ht, eq_div_iff (by positivity)]
    generalize Real.exp (2 * (alpha - 1) * b0Kappa alpha - 2 * (alpha - 1) * (rho *ᵥ theta) i) = A at he
    generalize Real.exp (- 2 * (alpha - 1) * b0Kappa alpha - 2 * (sigma *ᵥ theta) i +
      2 * (alpha - 1) * (rho *ᵥ theta) i) = B at he
    field_simp
    linear_combination he

/-- **C87.**  For the stationary model the two numbers are the logarithms of standard deviation and range, at every
point. -/
theorem c87_stationary {n : Nat} (logSigma logRho : ℝ) (i : Fin n) :
    (sigmaStationary n *ᵥ ![logSigma, logRho]) i = logSigma ∧ (rhoStationary n *ᵥ ![logSigma, logRho]) i = logRho := by
  have : (1.0 : ℝ) = 1 := by norm_num
  constructor <;> simp [sigmaStationary, rhoStationary, mulVec, dotProduct, Fin.sum_univ_two, this]

/-- **C87.**  For the expanded model every point has its own pair. -/
theorem c87_expanded {n : Nat} (logSigma logRho : Vec n) (i : Fin n) :
    (sigmaExpanded n *ᵥ Fin.addCases logSigma logRho) i = logSigma i ∧
    (rhoExpanded n *ᵥ Fin.addCases logSigma logRho) i = logRho i := by
  constructor <;>
    simp only [sigmaExpanded, rhoExpanded, mulVec, dotProduct, Fin.sum_univ_add, Matrix.of_apply, Fin.addCases_left,
      Fin.addCases_right, zero_mul, Finset.sum_const_zero, add_zero, zero_add] <;>
    simp

/-- **C87.**  Multiplying the standard deviation by `exp c` divides the precision by its square. -/
theorem c87_scale (m : Mesh V3) (logSigma logRho c : ℝ) {alpha : Nat} {Q : Mat m.points.length}
    (hQ : buildQStationary m logSigma logRho alpha = .ok Q) :
    buildQStationary m (logSigma + c) logRho alpha = .ok (Real.exp (-2 * c) • Q) := by
  unfold buildQStationary buildQ at *
  split at hQ
  · cases hQ
  · next h =>
    rw [if_neg h]
    injection hQ with hQ
    rw [← hQ]
    congr 1
    have hk : kappaOf ![logSigma + c, logRho] alpha (rhoStationary m.points.length) =
        kappaOf ![logSigma, logRho] alpha (rhoStationary m.points.length) := by
      funext i
      unfold kappaOf kappaDesign
      rw [neg_mulVec, neg_mulVec, Pi.neg_apply, Pi.neg_apply, (c87_stationary _ _ i).2, (c87_stationary _ _ i).2]
    have ht : Matrix.diagonal (tauOf ![logSigma + c, logRho] alpha (sigmaStationary m.points.length)
          (rhoStationary m.points.length)) =
        Real.exp (-c) • Matrix.diagonal (tauOf ![logSigma, logRho] alpha (sigmaStationary m.points.length)
          (rhoStationary m.points.length)) := by
      rw [← Matrix.diagonal_smul]
      congr 1
      funext i
      rw [Pi.smul_apply, smul_eq_mul]
      unfold tauOf tauDesign kappaDesign
      rw [← Real.exp_add]
      congr 1
      simp only [sub_mulVec, neg_mulVec, smul_mulVec, Pi.sub_apply, Pi.neg_apply, Pi.smul_apply,
        (c87_stationary _ _ i).2, (c87_stationary _ _ i).1]
      ring
    unfold buildQNative nativeOf
    simp only
    rw [hk, ht]
    simp only [Matrix.smul_mul, Matrix.mul_smul, smul_smul, ← Real.exp_add]
    congr 2; ring

/-! ### The hypotheses can be met -/

example : Sound (sphereMesh stableArgsort 3) ∧ 0 < (sphereMesh stableArgsort 3).points.length := by
  refine ⟨c45_mesh stableArgsort good_plain 3 (by norm_num), ?_⟩
  rw [sphereMesh, (c28_counts stableArgsort midOnSphere basePoints rfl 3).1]
  norm_num

example : ∀ i : Fin (sphereMesh stableArgsort 3).points.length, (fun _ => (2 : ℝ)) i ≠ 0 := fun _ => by norm_num

example : Connected (sphereMesh stableArgsort 3).triangles :=
  c29_connected stableArgsort midOnSphere basePoints rfl 3 (by norm_num)

end

end Verif.Eustace.SphereSpde
