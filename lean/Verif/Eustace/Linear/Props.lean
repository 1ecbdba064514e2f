import Verif.Eustace.Linear.Lemmas
import Mathlib.Algebra.QuadraticDiscriminant
import Mathlib.Analysis.Matrix.Order

/-! Theorems C32, C33, C37, C38 and C80 about the linear system and its solution. -/

namespace Verif.Eustace.Linear

open Matrix

variable {n : Nat}

/-- C32: the state computed from the accumulated updates is the only minimiser of prior misfit plus
observation misfit. -/
theorem c32_minimiser (Q : Mat n) (bs : List (Batch n)) (hQ : Q.PosDef)
    (hR : ∀ b ∈ bs, b.R.PosSemidef) (x : Vec n)
    (hx : x ≠ (systemOf Q bs).maximumAPosteriori) :
    cost Q bs (systemOf Q bs).maximumAPosteriori < cost Q bs x := by
  have hA := posterior_posDef Q bs hQ hR
  have hs : ∀ b ∈ bs, b.Rᵀ = b.R := fun b hb => sym_of_herm (hR b hb).1
  rw [cost_expand Q bs hs, cost_expand Q bs hs x, square_complete hA _ x]
  have : 0 < quad (systemOf Q bs).posteriorPrecision
      (x - solveA (systemOf Q bs).posteriorPrecision (systemOf Q bs).measurement.vector) :=
    quad_pos hA (sub_ne_zero.2 hx)
  simp only [System.maximumAPosteriori] at *
  linarith

/-- C32: the size of the excess cost is the quadratic form of the posterior precision, so the posterior
precision is the curvature of the cost. -/
theorem c32_curvature (Q : Mat n) (bs : List (Batch n)) (hQ : Q.PosDef)
    (hR : ∀ b ∈ bs, b.R.PosSemidef) (x : Vec n) :
    cost Q bs x = cost Q bs (systemOf Q bs).maximumAPosteriori +
      quad (systemOf Q bs).posteriorPrecision (x - (systemOf Q bs).maximumAPosteriori) := by
  have hA := posterior_posDef Q bs hQ hR
  have hs : ∀ b ∈ bs, b.Rᵀ = b.R := fun b hb => sym_of_herm (hR b hb).1
  rw [cost_expand Q bs hs x, cost_expand Q bs hs (systemOf Q bs).maximumAPosteriori,
    square_complete hA _ x]
  simp only [System.maximumAPosteriori]
  ring

/-- Only the upper triangle reaches the solver, so without symmetry the wrong system is solved. -/
theorem c32_unsymmetric_violated : ∃ (A : Mat 2) (b : Vec 2), A.det ≠ 0 ∧ A *ᵥ solveA A b ≠ b := by
  refine ⟨!![1, 1; 0, 1], ![1, 0], by simp [det_fin_two], ?_⟩
  intro h
  have hf : fromUpper !![(1 : ℝ), 1; 0, 1] = !![1, 1; 1, 1] := by
    ext i j; fin_cases i <;> fin_cases j <;> simp [fromUpper]
  have hz : (!![(1 : ℝ), 1; 1, 1])⁻¹ = 0 := by
    rw [inv_def, det_fin_two]; simp
  rw [solveA, hf, hz] at h
  have := congrFun h 0
  simp at this

/-- C33: the order in which batches are appended is irrelevant. -/
theorem c33_order (Q : Mat n) {as bs : List (Batch n)} (h : as.Perm bs) :
    systemOf Q as = systemOf Q bs := by
  rw [systemOf_eq, systemOf_eq, (h.map _).sum_eq, (h.map _).sum_eq]

theorem createFromSystem_stack {a b : Nat} (Ja : Matrix (Fin a) (Fin n) ℝ)
    (Jb : Matrix (Fin b) (Fin n) ℝ) (Ra : Mat a) (Rb : Mat b) (ya : Vec a) (yb : Vec b) :
    createFromSystem (stackRows Ja Jb) (blockDiag Ra Rb) (stackVec ya yb) =
      (createFromSystem Ja Ra ya).append (createFromSystem Jb Rb yb) := by
  simp only [createFromSystem, Update.append, Update.mk.injEq]
  constructor
  · ext i k
    simp [mul_apply, Fin.sum_univ_add, stackRows, blockDiag]
  · ext i
    simp [mul_apply, mulVec, dotProduct, Fin.sum_univ_add, stackRows, blockDiag, stackVec]

theorem stack_update (a b : Batch n) : (a.stack b).update = a.update.append b.update :=
  createFromSystem_stack a.J b.J a.R b.R a.y b.y

/-- C33: two batches processed one after the other give the system of all their observations
processed at once, wherever they are in the sequence. -/
theorem c33_at_once (Q : Mat n) (as cs : List (Batch n)) (a b : Batch n) :
    systemOf Q (as ++ a.stack b :: cs) = systemOf Q (as ++ a :: b :: cs) := by
  rw [systemOf_eq, systemOf_eq]
  simp [stack_update, Update.append, add_assoc]

theorem quad_stack {a b : Nat} (Ja : Matrix (Fin a) (Fin n) ℝ)
    (Jb : Matrix (Fin b) (Fin n) ℝ) (Ra : Mat a) (Rb : Mat b) (ya : Vec a) (yb : Vec b) (x : Vec n) :
    quad (blockDiag Ra Rb) (stackVec ya yb - stackRows Ja Jb *ᵥ x) =
      quad Ra (ya - Ja *ᵥ x) + quad Rb (yb - Jb *ᵥ x) := by
  simp [quad, mulVec, dotProduct, Fin.sum_univ_add, stackRows, blockDiag, stackVec]

/-- The misfit of two batches together is the sum of their misfits: stacking is the right meaning of
"at once". -/
theorem c33_stack_misfit (a b : Batch n) (x : Vec n) :
    (a.stack b).misfit x = a.misfit x + b.misfit x :=
  quad_stack a.J b.J a.R b.R a.y b.y x

/-! ### Sampling and marginal standard deviations -/

theorem factor_unit {A : Mat n} (hA : A.PosDef) (f : Factor A) : IsUnit f.L.det := by
  have h := f.factor
  rw [fromUpper_symm (sym_of_herm hA.1)] at h
  have hd := congrArg det h
  rw [det_mul, det_transpose] at hd
  have : A.det ≠ 0 := hA.det_pos.ne'
  rw [isUnit_iff_ne_zero]
  intro h0
  rw [h0, mul_zero] at hd
  exact this hd.symm

theorem factor_inverse {A : Mat n} (hA : A.PosDef) (f : Factor A) : (f.Lᵀ)⁻¹ * f.L⁻¹ = A⁻¹ := by
  have h := f.factor
  rw [fromUpper_symm (sym_of_herm hA.1)] at h
  have h2 := Matrix.mul_inv_rev f.L f.Lᵀ
  rw [h] at h2
  exact h2.symm

open scoped MatrixOrder in
/-- A factor exists for every positive definite matrix. -/
theorem factor_exists {A : Mat n} (hA : A.PosDef) : Nonempty (Factor A) := by
  obtain ⟨B, hB⟩ := CStarAlgebra.nonneg_iff_eq_star_mul_self.mp hA.posSemidef.nonneg
  refine ⟨⟨Bᵀ, ?_⟩⟩
  rw [fromUpper_symm (sym_of_herm hA.1), hB, star_eq_conjTranspose,
    conjTranspose_eq_transpose_of_trivial, transpose_transpose]

/-- C38: the quadratic form of a sample is that of its white noise. -/
theorem c38_form {s : System n} (hA : s.posteriorPrecision.PosDef) (f : Factor s.posteriorPrecision)
    (w : Vec n) : quad s.posteriorPrecision (whiteNoiseToPosterior f w) = w ⬝ᵥ w := by
  have hu := factor_unit hA f
  have hs := sym_of_herm hA.1
  have h := f.factor
  rw [fromUpper_symm hs] at h
  have hb : f.Lᵀ *ᵥ whiteNoiseToPosterior f w = w := by
    rw [whiteNoiseToPosterior, Factor.backward, mulVec_mulVec, mul_nonsing_inv _ (by rwa [det_transpose]),
      one_mulVec]
  rw [quad, ← h, ← mulVec_mulVec, hb, dotProduct_mulVec, ← mulVec_transpose, hb]

/-- C38: samples have the posterior covariance.  The columns of the transformation are the samples
made from the unit vectors; their outer products add up to the inverse of the posterior precision. -/
theorem c38_covariance {s : System n} (hA : s.posteriorPrecision.PosDef)
    (f : Factor s.posteriorPrecision) (i k : Fin n) :
    ∑ j, whiteNoiseToPosterior f (unit j) i * whiteNoiseToPosterior f (unit j) k =
      s.posteriorPrecision⁻¹ i k := by
  rw [← factor_inverse hA f]
  have hc : ∀ i j, whiteNoiseToPosterior f (unit j) i = (f.Lᵀ)⁻¹ i j := by
    intro i j
    simp [whiteNoiseToPosterior, Factor.backward, unit, mulVec, dotProduct]
  simp only [hc, mul_apply]
  refine Finset.sum_congr rfl fun j _ => ?_
  rw [← Matrix.transpose_nonsing_inv]
  rfl

/-- C38: a sample is a linear function of its white noise, so it has mean zero: the mean has to be
added by the caller. -/
theorem c38_linear {s : System n} (f : Factor s.posteriorPrecision) (c : ℝ) (v w : Vec n) :
    whiteNoiseToPosterior f (c • v + w) =
      c • whiteNoiseToPosterior f v + whiteNoiseToPosterior f w := by
  simp [whiteNoiseToPosterior, Factor.backward, mulVec_add, mulVec_smul]

theorem columnSquares_eq {A : Mat n} (hA : A.PosDef) (f : Factor A) (j : Fin n) :
    f.columnSquares j = A⁻¹ j j := by
  rw [← factor_inverse hA f]
  have hc : ∀ i, f.forward (unit j) i = f.L⁻¹ i j := by
    intro i
    simp [Factor.forward, unit, mulVec, dotProduct]
  simp only [Factor.columnSquares, hc, mul_apply]
  refine Finset.sum_congr rfl fun i _ => ?_
  rw [← Matrix.transpose_nonsing_inv]
  rfl

theorem diagLoop_spec {A : Mat n} (f : Factor A) (b : Nat) (hb : 0 < b) :
    ∀ (fuel counter : Nat) (d : Vec n), n ≤ counter + fuel →
      (∀ j : Fin n, j.val < counter → d j = f.columnSquares j) →
      f.diagLoop b fuel counter d = some fun j => f.columnSquares j := by
  intro fuel
  induction fuel with
  | zero =>
    intro counter d hn hd
    have : ¬ counter < n := by omega
    unfold Factor.diagLoop
    rw [if_neg this]
    congr 1
    funext j
    exact hd j (by have := j.isLt; omega)
  | succ fuel ih =>
    intro counter d hn hd
    unfold Factor.diagLoop
    split
    · simp only
      apply ih
      · omega
      · intro j hj
        by_cases hc : j.val < counter
        · have hnot : ∀ m, ¬ (counter ≤ j.val ∧ j.val < m) := by intro m h; omega
          simp only [Factor.block]
          rw [if_neg (hnot _)]
          exact hd j hc
        · simp only [Factor.block]
          rw [if_pos]
          refine ⟨by omega, ?_⟩
          split
          · omega
          · exact j.isLt
    · congr 1
      funext j
      exact hd j (by have := j.isLt; omega)

/-- C38: `diag_inv_A` ends after at most `n` rounds and returns the diagonal of the inverse, whatever
the block size. -/
theorem c38_diagonal {A : Mat n} (hA : A.PosDef) (f : Factor A) (blocksize : Option Nat)
    (hb : blocksize ≠ some 0) (fuel : Nat) (hf : n ≤ fuel) :
    f.diagInv blocksize fuel = some fun j => A⁻¹ j j := by
  cases blocksize with
  | none =>
    simp only [Factor.diagInv, Option.some.injEq]
    funext j
    exact columnSquares_eq hA f j
  | some b =>
    have hb' : 0 < b := by
      rcases Nat.eq_zero_or_pos b with h | h
      · exact absurd (by rw [h]) hb
      · exact h
    simp only [Factor.diagInv]
    rw [diagLoop_spec f b hb' fuel 0 0 (by omega) (by intro j hj; omega)]
    congr 1
    funext j
    exact columnSquares_eq hA f j

/-- With block size zero the loop never ends. -/
theorem c38_blocksize_zero_violated {A : Mat n} (f : Factor A) (hn : 0 < n) (fuel : Nat) :
    f.diagInv (some 0) fuel = none := by
  have : ∀ (fuel : Nat) (d : Vec n), f.diagLoop 0 fuel 0 d = none := by
    intro fuel
    induction fuel with
    | zero => intro d; unfold Factor.diagLoop; rw [if_pos hn]
    | succ fuel ih => intro d; unfold Factor.diagLoop; rw [if_pos hn]; exact ih _
  exact this fuel 0

/-- C38: the reported marginal standard deviation is the square root of the posterior variance. -/
theorem c38_marginal_std {s : System n} (hA : s.posteriorPrecision.PosDef)
    (f : Factor s.posteriorPrecision) (fuel : Nat) (hf : n ≤ fuel) :
    marginalStd f fuel = some fun j => Real.sqrt (s.posteriorPrecision⁻¹ j j) := by
  rw [marginalStd, c38_diagonal hA f _ (by simp) fuel hf]
  rfl

/-! ### Posterior against prior -/

/-- Twice a linear form minus a quadratic form is largest at the solution. -/
theorem variational {A : Mat n} (hA : A.PosDef) (a x : Vec n) :
    2 * (x ⬝ᵥ a) - quad A x ≤ outputVariance A⁻¹ a := by
  have h := square_complete hA a x
  have h0 := quad_nonneg hA.posSemidef (x - solveA A a)
  have hz := solveA_spec hA a
  have e : quad A (solveA A a) = solveA A a ⬝ᵥ a := by rw [quad, hz]
  have e2 : outputVariance A⁻¹ a = solveA A a ⬝ᵥ a := by
    rw [outputVariance, solveA, fromUpper_symm (sym_of_herm hA.1), dotProduct_comm]
  rw [e2]
  linarith

theorem variational_eq {A : Mat n} (hA : A.PosDef) (a : Vec n) :
    outputVariance A⁻¹ a = 2 * (solveA A a ⬝ᵥ a) - quad A (solveA A a) := by
  have hz := solveA_spec hA a
  have e : quad A (solveA A a) = solveA A a ⬝ᵥ a := by rw [quad, hz]
  have e2 : outputVariance A⁻¹ a = solveA A a ⬝ᵥ a := by
    rw [outputVariance, solveA, fromUpper_symm (sym_of_herm hA.1), dotProduct_comm]
  rw [e2, e]; ring

theorem variance_mono {P Q : Mat n} (hP : P.PosDef) (hQ : Q.PosDef)
    (h : ∀ x, quad Q x ≤ quad P x) (a : Vec n) : outputVariance P⁻¹ a ≤ outputVariance Q⁻¹ a := by
  rw [variational_eq hP]
  have := variational hQ a (solveA P a)
  have := h (solveA P a)
  linarith

/-- C37: for every linear output the posterior variance is at most the prior variance. -/
theorem c37_variance (Q : Mat n) (bs : List (Batch n)) (hQ : Q.PosDef)
    (hR : ∀ b ∈ bs, b.R.PosSemidef) (a : Vec n) :
    outputVariance (systemOf Q bs).posteriorPrecision⁻¹ a ≤ outputVariance Q⁻¹ a := by
  apply variance_mono (posterior_posDef Q bs hQ hR) hQ
  intro x
  rw [systemOf_eq]
  simp only [System.posteriorPrecision, quad_add_matrix]
  have := quad_nonneg (information_psd bs hR) x
  linarith

/-- C37: further observations never increase the variance of an output. -/
theorem c37_more_data (Q : Mat n) (as bs : List (Batch n)) (hQ : Q.PosDef)
    (hR : ∀ b ∈ as ++ bs, b.R.PosSemidef) (a : Vec n) :
    outputVariance (systemOf Q (as ++ bs)).posteriorPrecision⁻¹ a ≤
      outputVariance (systemOf Q as).posteriorPrecision⁻¹ a := by
  have ha : ∀ b ∈ as, b.R.PosSemidef := fun b hb => hR b (by simp [hb])
  have hb : ∀ b ∈ bs, b.R.PosSemidef := fun b hb => hR b (by simp [hb])
  apply variance_mono (posterior_posDef Q _ hQ hR) (posterior_posDef Q _ hQ ha)
  intro x
  rw [systemOf_eq, systemOf_eq]
  simp only [System.posteriorPrecision, quad_add_matrix, List.map_append, List.sum_append]
  have := quad_nonneg (information_psd bs hb) x
  linarith

theorem variance_unit (S : Mat n) (j : Fin n) : outputVariance S (unit j) = S j j := by
  simp [outputVariance, unit, dotProduct, mulVec]

theorem inv_diag_nonneg {A : Mat n} (hA : A.PosDef) (j : Fin n) : 0 ≤ A⁻¹ j j := by
  have := variational hA (unit j) 0
  rw [variance_unit] at this
  simpa [quad] using this

/-- C37: the marginal standard deviation of every state parameter is at most its prior value. -/
theorem c37_std (Q : Mat n) (bs : List (Batch n)) (hQ : Q.PosDef)
    (hR : ∀ b ∈ bs, b.R.PosSemidef) (f : Factor (systemOf Q bs).posteriorPrecision)
    (g : Factor (System.new Q).posteriorPrecision) (fuel : Nat) (hf : n ≤ fuel) :
    ∃ post prior, marginalStd f fuel = some post ∧ marginalStd g fuel = some prior ∧
      ∀ j, 0 ≤ post j ∧ post j ≤ prior j := by
  have hg : (System.new Q).posteriorPrecision = Q := by
    simp [System.posteriorPrecision, System.new, createBlank]
  refine ⟨_, _, c38_marginal_std (posterior_posDef Q bs hQ hR) f fuel hf,
    c38_marginal_std (by rw [hg]; exact hQ) g fuel hf, fun j => ⟨Real.sqrt_nonneg _, ?_⟩⟩
  apply Real.sqrt_le_sqrt
  rw [hg, ← variance_unit (systemOf Q bs).posteriorPrecision⁻¹ j, ← variance_unit Q⁻¹ j]
  exact c37_variance Q bs hQ hR (unit j)

/-- C37: the climatology fraction lies between 0 and 1, provided that the weights of the design and of
the averaging are not negative and that the prior standard deviations are exact (the code estimates
them from a thousand samples). -/
theorem c37_fraction_partial {c m : Nat} (w : Matrix (Fin c) (Fin m) ℝ) (A : Matrix (Fin m) (Fin n) ℝ)
    (hw : ∀ i j, 0 ≤ w i j) (hA : ∀ i j, 0 ≤ A i j) (post prior : Vec n)
    (h : ∀ j, 0 ≤ post j ∧ post j ≤ prior j) (i : Fin c) :
    0 ≤ climatologyFraction w A post prior i ∧ climatologyFraction w A post prior i ≤ 1 := by
  have habs : A.map abs = A := by
    ext i j; simp [abs_of_nonneg (hA i j)]
  have h0 : 0 ≤ (w *ᵥ designFunction A post true) i := by
    simp only [designFunction, habs, if_true, mulVec, dotProduct]
    exact Finset.sum_nonneg fun j _ => mul_nonneg (hw i j)
      (Finset.sum_nonneg fun k _ => mul_nonneg (hA j k) (h k).1)
  have h1 : (w *ᵥ designFunction A post true) i ≤ (w *ᵥ designFunction A prior false) i := by
    simp only [designFunction, habs, if_true, mulVec, dotProduct, Bool.false_eq_true, if_false]
    exact Finset.sum_le_sum fun j _ => mul_le_mul_of_nonneg_left
      (Finset.sum_le_sum fun k _ => mul_le_mul_of_nonneg_left (h k).2 (hA j k)) (hw i j)
  refine ⟨div_nonneg (mul_self_nonneg _) (mul_self_nonneg _), ?_⟩
  exact div_le_one_of_le₀ (mul_self_le_mul_self h0 h1) (mul_self_nonneg _)

theorem inv_diagonal_two (a b : ℝ) (ha : a ≠ 0) (hb : b ≠ 0) :
    (!![a, 0; 0, b] : Mat 2)⁻¹ = !![a⁻¹, 0; 0, b⁻¹] := by
  apply inv_eq_right_inv
  ext i j
  fin_cases i <;> fin_cases j <;> simp [mul_apply, ha, hb]

theorem posDef_diag_two (a b : ℝ) (ha : 0 < a) (hb : 0 < b) : (!![a, 0; 0, b] : Mat 2).PosDef := by
  have : (!![a, 0; 0, b] : Mat 2) = diagonal ![a, b] := by
    ext i j; fin_cases i <;> fin_cases j <;> simp
  rw [this, posDef_diagonal_iff]
  intro i; fin_cases i <;> simp [ha, hb]

/-- C37: the prior field is not rectified as the posterior field is, so a design with weights of both
signs gives a climatology fraction above one: here 9, without any data. -/
theorem c37_fraction_violated : ∃ (Q : Mat 2) (A : Matrix (Fin 1) (Fin 2) ℝ), Q.PosDef ∧
    ∀ (f g : Factor (System.new Q).posteriorPrecision) (fuel : Nat), 2 ≤ fuel →
      ∃ post prior, marginalStd f fuel = some post ∧ marginalStd g fuel = some prior ∧
        climatologyFraction (1 : Mat 1) A post prior 0 = 9 := by
  refine ⟨!![1 / 4, 0; 0, 1], !![1, -1], posDef_diag_two _ _ (by norm_num) (by norm_num), ?_⟩
  intro f g fuel hf
  have hg : (System.new (!![1 / 4, 0; 0, 1] : Mat 2)).posteriorPrecision = !![1 / 4, 0; 0, 1] := by
    simp [System.posteriorPrecision, System.new, createBlank]
  have hp : (System.new (!![1 / 4, 0; 0, 1] : Mat 2)).posteriorPrecision.PosDef := by
    rw [hg]; exact posDef_diag_two _ _ (by norm_num) (by norm_num)
  refine ⟨_, _, c38_marginal_std hp f fuel hf, c38_marginal_std hp g fuel hf, ?_⟩
  have hi := inv_diagonal_two (1 / 4) 1 (by norm_num) (by norm_num)
  rw [hg, hi]
  have h4 : Real.sqrt 4 = 2 := by
    rw [show (4 : ℝ) = 2 * 2 by norm_num]; exact Real.sqrt_mul_self (by norm_num)
  simp only [climatologyFraction, designFunction, one_mulVec]
  simp [mulVec, dotProduct, Fin.sum_univ_two, h4]
  norm_num

/-! ### Reported uncertainty of an output -/

/-- Covariances are bounded by standard deviations. -/
theorem abs_cov_le {S : Mat n} (hS : S.PosSemidef) (i j : Fin n) :
    |S i j| ≤ Real.sqrt (S i i) * Real.sqrt (S j j) := by
  have hs := sym_of_herm hS.1
  have hsym : S j i = S i j := congrFun (congrFun hs i) j
  have hq : ∀ t : ℝ, 0 ≤ S i i * (t * t) + 2 * S i j * t + S j j := by
    intro t
    have h := quad_nonneg hS (t • unit i + unit j)
    rw [quad_add hs] at h
    have e1 : quad S (t • unit i) = S i i * (t * t) := by
      have := variance_unit S i
      simp only [outputVariance] at this
      simp only [quad, mulVec_smul, smul_dotProduct, dotProduct_smul, smul_eq_mul, this]
      ring
    have e2 : quad S (unit j) = S j j := variance_unit S j
    have e3 : unit j ⬝ᵥ (S *ᵥ (t • unit i)) = t * S i j := by
      simp only [mulVec_smul, dotProduct_smul, smul_eq_mul]
      congr 1
      simp [unit, mulVec, dotProduct, hsym]
    rw [e1, e2, e3] at h
    linarith
  have hd := discrim_le_zero hq
  simp only [discrim] at hd
  have hii : 0 ≤ S i i := hS.diag_nonneg
  rw [← Real.sqrt_mul hii]
  apply Real.abs_le_sqrt
  nlinarith

/-- C80: the reported uncertainty of an output, the absolute design weights applied to the marginal
standard deviations, is never below the standard deviation of the output. -/
theorem c80_conservative {m : Nat} {S : Mat n} (hS : S.PosSemidef) (A : Matrix (Fin m) (Fin n) ℝ)
    (i : Fin m) :
    Real.sqrt (outputVariance S (A i)) ≤
      designFunction A (fun j => Real.sqrt (S j j)) true i := by
  apply Real.sqrt_le_iff.2
  have hn : 0 ≤ designFunction A (fun j => Real.sqrt (S j j)) true i := by
    simp only [designFunction, if_true, mulVec, dotProduct]
    exact Finset.sum_nonneg fun j _ => mul_nonneg (abs_nonneg _) (Real.sqrt_nonneg _)
  refine ⟨hn, ?_⟩
  simp only [designFunction, if_true, outputVariance, mulVec, dotProduct, map_apply]
  rw [sq, Finset.sum_mul_sum]
  refine Finset.sum_le_sum fun j _ => ?_
  rw [Finset.mul_sum]
  refine Finset.sum_le_sum fun k _ => ?_
  have h := abs_cov_le hS j k
  calc A i j * (S j k * A i k) ≤ |A i j * (S j k * A i k)| := le_abs_self _
    _ = |A i j| * |A i k| * |S j k| := by rw [abs_mul, abs_mul]; ring
    _ ≤ |A i j| * |A i k| * (Real.sqrt (S j j) * Real.sqrt (S k k)) :=
        mul_le_mul_of_nonneg_left h (mul_nonneg (abs_nonneg _) (abs_nonneg _))
    _ = |A i j| * Real.sqrt (S j j) * (|A i k| * Real.sqrt (S k k)) := by ring

/-- C80: without rectification the reported value can be zero although the output is uncertain. -/
theorem c80_unrectified_violated : ∃ (S : Mat 2) (A : Matrix (Fin 1) (Fin 2) ℝ), S.PosSemidef ∧
    designFunction A (fun j => Real.sqrt (S j j)) false 0 < Real.sqrt (outputVariance S (A 0)) := by
  refine ⟨!![1, 0; 0, 1], !![1, -1], (posDef_diag_two 1 1 (by norm_num) (by norm_num)).posSemidef, ?_⟩
  have h : 0 < Real.sqrt 2 := Real.sqrt_pos.2 (by norm_num)
  simp [designFunction, outputVariance, mulVec, dotProduct, Fin.sum_univ_two]

/-! ### Concrete cases meeting the hypotheses -/

/-- A prior and a batch of one observation of the sum of two parameters. -/
def exampleBatch : Batch 2 := ⟨1, !![1, 1], !![4], ![3]⟩

example : (!![2, 0; 0, 1] : Mat 2).PosDef ∧ ∀ b ∈ [exampleBatch], b.R.PosSemidef := by
  refine ⟨posDef_diag_two 2 1 (by norm_num) (by norm_num), ?_⟩
  intro b hb
  rw [List.mem_singleton] at hb
  subst hb
  have : (exampleBatch.R) = diagonal (fun _ : Fin 1 => (4 : ℝ)) := by
    ext i j
    have hi : i = (0 : Fin 1) := Subsingleton.elim (α := Fin 1) _ _
    have hj : j = (0 : Fin 1) := Subsingleton.elim (α := Fin 1) _ _
    subst hi hj
    simp [exampleBatch]
  rw [this]
  exact (posDef_diagonal_iff.2 fun _ => by norm_num).posSemidef

example : Nonempty (Factor (!![2, 0; 0, 1] : Mat 2)) :=
  factor_exists (posDef_diag_two 2 1 (by norm_num) (by norm_num))

end Verif.Eustace.Linear
