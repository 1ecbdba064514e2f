import Verif.Eustace.CostFunction.Derivative
import Verif.Eustace.Qinv.Cancel

/-!
C86: a case which meets the hypotheses of the derivative, and one where an entry of the factor cancels so that
`cost_derivative` is not the derivative.
-/

namespace Verif.Eustace.CostFunction

open Matrix Verif.Eustace.Linear Verif.Eustace.Qinv

/-! ### A closed pattern -/

/-- A precision proportional to the square of its parameter. -/
noncomputable def fullQ (θ : Vec 1) : Mat 3 := (θ 0) ^ 2 • (fullL * fullLᵀ)

/-- An increment of three times the prior, with some information. -/
noncomputable def fullReplicate : Replicate 3 := ⟨fun _ => 1, fun _ => 2, fun _ => 5, (3 : ℝ) • (fullL * fullLᵀ)⟩

/-- Factorisation of the prior. -/
noncomputable def fullPrior : Solver (fullQ fun _ => 1) :=
  ⟨{ fullCholmod with factor := by simp [fullQ, fullCholmod] }, fullSigma⟩

theorem full_double : (2 : ℝ) • fullL * ((2 : ℝ) • fullL)ᵀ = (fullQ fun _ => 1) + fullReplicate.qIncrement := by
  simp only [fullQ, fullReplicate, transpose_smul, Matrix.smul_mul, Matrix.mul_smul, smul_smul]
  ext i j
  simp
  ring

/-- Factorisation of the posterior. -/
noncomputable def fullPosterior : Solver ((fullQ fun _ => 1) + fullReplicate.qIncrement) where
  cholmod := {
    L := (2 : ℝ) • fullL
    p := 1
    lower := fun i j h => by
      have : fullL i j = 0 := fullCholmod.lower i j h
      rw [Matrix.smul_apply, this, smul_zero]
    diagonal := fun i => by
      have := fullCholmod.diagonal i
      have h2 : fullCholmod.L i i = fullL i i := rfl
      rw [h2] at this
      rw [Matrix.smul_apply, smul_eq_mul]
      positivity
    factor := by rw [full_double]; simp
    csc := ⟨fun _ => 2, fullCholmod.csc.indices, fullCholmod.csc.indptr⟩
    stored := fullCholmod.stored
    layout := fullCholmod.layout
    value := fun j q h1 h2 i hi => by
      have : (1 : ℝ) = fullL i j := fullCholmod.value j q h1 h2 i hi
      rw [Matrix.smul_apply, ← this, smul_eq_mul]
      norm_num
    keeps := fun i j h => fullCholmod.keeps i j fun h0 => h (by
      have : fullL i j = 0 := h0
      rw [Matrix.smul_apply, this, smul_zero])
    triangle := fullCholmod.triangle }
  sigma := ⟨fullSigma.indices, fullSigma.indptr, by
    have : sumPattern ((2 : ℝ) • fullL) = sumPattern fullL := by
      funext i j
      unfold sumPattern
      rw [Matrix.smul_apply, Matrix.smul_apply, smul_eq_mul, smul_eq_mul, ← mul_add]
      simp
    show Layout 3 fullSigma.indices fullSigma.indptr (sumPattern ((2 : ℝ) • fullL))
    rw [this]
    exact fullSigma.layout⟩

theorem full_closed : Closed fullL := by
  intro i j k hij hjk
  revert hij hjk
  unfold fullL
  fin_cases i <;> fin_cases j <;> fin_cases k <;> simp

theorem full_posDef : (fullL * fullLᵀ).PosDef := by
  have hd : fullL.det ≠ 0 := by
    rw [det_of_lowerTriangular fullL (fun a b hab => fullCholmod.lower a b hab)]
    exact Finset.prod_ne_zero_iff.2 fun i _ => (fullCholmod.diagonal i).ne'
  have := PosDef.mul_conjTranspose_self fullL (by
    rw [vecMul_injective_iff_isUnit, isUnit_iff_isUnit_det]
    exact hd.isUnit)
  simpa [conjTranspose_eq_transpose_of_trivial] using this

theorem full_entries (i j : Fin 3) : 0 < (fullL * fullLᵀ) i j := by
  rw [mul_apply]
  simp only [transpose_apply, fullL, Fin.sum_univ_three]
  fin_cases i <;> fin_cases j <;> simp <;> norm_num

example : ∃ g, costDerivative (fullQ fun _ => 1) (fun _ => (2 : ℝ) • (fullL * fullLᵀ)) fullReplicate fullPrior fullPosterior = .ok g ∧
    ∀ j, HasDerivAt (fun t => costFunction (fullQ (Function.update (fun _ => 1) j t)) fullReplicate) (g j) 1 := by
  have h1 : (fullQ fun _ => 1) = fullL * fullLᵀ := by simp [fullQ]
  have hP : ((fullQ fun _ => 1) + fullReplicate.qIncrement).PosDef := by
    rw [h1]
    refine full_posDef.add_posSemidef ?_
    exact full_posDef.posSemidef.smul (by norm_num)
  refine c86_derivative (θ := fun _ => 1) (fun j a b => ?_) fullReplicate (by rw [h1]; exact full_posDef) hP fullPrior fullPosterior
    full_closed ?_ ?_
  · have hj : j = 0 := Subsingleton.elim _ _
    subst hj
    have := ((hasDerivAt_pow 2 (1 : ℝ)).mul_const ((fullL * fullLᵀ) a b))
    simpa [fullQ] using this
  · intro i j k hij hjk a b
    have a' : fullL j i ≠ 0 := fun e => a (by show ((2 : ℝ) • fullL) j i = 0; rw [Matrix.smul_apply, e, smul_zero])
    have b' : fullL k i ≠ 0 := fun e => b (by show ((2 : ℝ) • fullL) k i = 0; rw [Matrix.smul_apply, e, smul_zero])
    have := full_closed i j k hij hjk a' b'
    show ((2 : ℝ) • fullL) k j ≠ 0
    rw [Matrix.smul_apply, smul_eq_mul]
    exact mul_ne_zero two_ne_zero this
  · intro j a b _
    rw [h1]
    refine ⟨(full_entries b a).ne', ?_⟩
    have := full_entries b a
    simp only [fullReplicate, Matrix.add_apply]
    rw [Matrix.smul_apply, smul_eq_mul]
    positivity

/-! ### A cancelled entry -/

/-- Arrays of twice the factor with a cancelled entry. -/
noncomputable def doubleCsc : Csc where
  data p := [2, 2, 2, 2, 0, 2, 2, 2, 2].getD p 0
  indices := cancelCsc.indices
  indptr := cancelCsc.indptr

theorem double_columns : ∃ data, columns doubleCsc cancelIndices cancelIndptr 4 (fun _ => 0) = .ok data ∧
    data 2 = -1 / 2 ∧ data 6 = -1 / 2 := by
  have h0 : (fun _ => 0 : Nat → ℝ) = held [0,0,0,0,0,0,0,0,0,0,0,0] := by
    funext p
    unfold held
    rcases Nat.lt_or_ge p 12 with h | h
    · interval_cases p <;> rfl
    · rw [List.getD_eq_getElem?_getD, List.getElem?_eq_none (by simpa using h)]
      rfl
  have c3 : column doubleCsc cancelIndices cancelIndptr 3 3 (held [0,0,0,0,0,0,0,0,0,0,0,0]) =
      .ok (held [0,0,0,0,0,0,0,0,0,0,0,1/4]) := by
    simp [column, cell, mergeLoop, mergeStep, skip, findRow, doubleCsc, cancelCsc, cancelIndices, cancelIndptr, held_set]
    norm_num
  have c2 : column doubleCsc cancelIndices cancelIndptr 2 3 (held [0,0,0,0,0,0,0,0,0,0,0,1/4]) =
      .ok (held [0,0,0,0,0,0,0,1/2,-1/4,0,-1/4,1/4]) := by
    simp [column, cell, mergeLoop, mergeStep, skip, findRow, doubleCsc, cancelCsc, cancelIndices, cancelIndptr, held_set, held]
    norm_num
  have c1 : column doubleCsc cancelIndices cancelIndptr 1 3 (held [0,0,0,0,0,0,0,1/2,-1/4,0,-1/4,1/4]) =
      .ok (held [0,0,0,0,1/2,-1/4,0,1/2,-1/4,-1/4,-1/4,1/4]) := by
    simp [column, cell, mergeLoop, mergeStep, skip, findRow, doubleCsc, cancelCsc, cancelIndices, cancelIndptr, held_set, held]
    norm_num
  have c0 : ∃ data, column doubleCsc cancelIndices cancelIndptr 0 3 (held [0,0,0,0,1/2,-1/4,0,1/2,-1/4,-1/4,-1/4,1/4]) = .ok data ∧
      data 2 = -1 / 2 ∧ data 6 = -1 / 2 := by
    simp [column, cell, mergeLoop, mergeStep, skip, findRow, doubleCsc, cancelCsc, cancelIndices, cancelIndptr, held_set, held]
    norm_num
  rw [h0]
  obtain ⟨data, h1, h2⟩ := c0
  refine ⟨data, ?_, h2⟩
  have e3 : cancelIndptr (3 + 1) - cancelIndptr 3 = 3 := rfl
  have e2 : cancelIndptr (2 + 1) - cancelIndptr 2 = 3 := rfl
  have e1 : cancelIndptr (1 + 1) - cancelIndptr 1 = 3 := rfl
  have e0 : cancelIndptr (0 + 1) - cancelIndptr 0 = 3 := rfl
  simp only [columns, e3, e2, e1, e0, c3, c2, c1, h1]

/-- The prior precision. -/
noncomputable def cancelQ : Mat 4 := cancelL * cancelLᵀ

/-- No set point, no prior mean, no information vector. -/
noncomputable def cancelReplicate : Replicate 4 := ⟨0, 0, 0, (3 : ℝ) • cancelQ⟩

theorem cancel_double : (2 : ℝ) • cancelL * ((2 : ℝ) • cancelL)ᵀ = cancelQ + cancelReplicate.qIncrement := by
  simp only [cancelQ, cancelReplicate, transpose_smul, Matrix.smul_mul, Matrix.mul_smul, smul_smul]
  ext i j
  simp
  ring

/-- Factorisation of the prior. -/
def cancelPrior : Solver cancelQ := ⟨cancelCholmod, cancelSigma⟩

/-- Factorisation of the posterior. -/
noncomputable def cancelPosterior : Solver (cancelQ + cancelReplicate.qIncrement) where
  cholmod := {
    L := (2 : ℝ) • cancelL
    p := 1
    lower := fun i j h => by
      have : cancelL i j = 0 := cancelCholmod.lower i j h
      rw [Matrix.smul_apply, this, smul_zero]
    diagonal := fun i => by
      have := cancelCholmod.diagonal i
      have h2 : cancelCholmod.L i i = cancelL i i := rfl
      rw [h2] at this
      rw [Matrix.smul_apply, smul_eq_mul]
      positivity
    factor := by rw [cancel_double]; simp
    csc := doubleCsc
    stored := cancelStored
    layout := cancel_layout
    value := fun j q h1 h2 i hi => by
      have h3 : cancelCsc.data q = cancelL i j := cancelCholmod.value j q h1 h2 i hi
      have hq : q < 9 := by
        refine lt_of_lt_of_le h2 ?_
        fin_cases j <;> simp [doubleCsc, cancelCsc]
      rw [Matrix.smul_apply, ← h3, smul_eq_mul]
      interval_cases q <;> simp [doubleCsc, cancelCsc]
    keeps := fun i j h => cancelCholmod.keeps i j fun h0 => h (by
      have : cancelL i j = 0 := h0
      rw [Matrix.smul_apply, this, smul_zero])
    triangle := cancelCholmod.triangle }
  sigma := ⟨cancelIndices, cancelIndptr, by
    have : sumPattern ((2 : ℝ) • cancelL) = sumPattern cancelL := by
      funext i j
      unfold sumPattern
      rw [Matrix.smul_apply, Matrix.smul_apply, smul_eq_mul, smul_eq_mul, ← mul_add]
      simp
    show Layout 4 cancelIndices cancelIndptr (sumPattern ((2 : ℝ) • cancelL))
    rw [this]
    exact cancelSigma.layout⟩

theorem cancel_posDef : cancelQ.PosDef := by
  have hd : cancelL.det ≠ 0 := by
    rw [det_of_lowerTriangular cancelL (fun a b hab => cancelCholmod.lower a b hab)]
    exact Finset.prod_ne_zero_iff.2 fun i _ => (cancelCholmod.diagonal i).ne'
  have := PosDef.mul_conjTranspose_self cancelL (by
    rw [vecMul_injective_iff_isUnit, isUnit_iff_isUnit_det]
    exact hd.isUnit)
  simpa [conjTranspose_eq_transpose_of_trivial, cancelQ] using this

theorem cancelQ_eq : cancelQ = !![1, 1, 1, 0; 1, 2, 1, 1; 1, 1, 2, 1; 0, 1, 1, 3] := by
  ext i j
  rw [cancelQ, mul_apply]
  simp only [transpose_apply, cancelL, Fin.sum_univ_four]
  fin_cases i <;> fin_cases j <;> simp <;> norm_num

/-- The derivative of the precision: entries (0, 2) and (2, 0), where the precision has entries too. -/
def cancelD : Mat 4 := !![0, 0, 1, 0; 0, 0, 0, 0; 1, 0, 0, 0; 0, 0, 0, 0]

theorem cancel_entries (data : Nat → ℝ) :
    ((permutation 1)ᵀ * Csc.toMatrix ⟨data, cancelIndices, cancelIndptr⟩ 4 * permutation 1 : Mat 4) 2 0 = data 2 ∧
    ((permutation 1)ᵀ * Csc.toMatrix ⟨data, cancelIndices, cancelIndptr⟩ 4 * permutation 1 : Mat 4) 0 2 = data 6 := by
  rw [permutation_conj, permutation_conj]
  constructor
  · have : Csc.toMatrix ⟨data, cancelIndices, cancelIndptr⟩ 4 2 0 =
        ∑ q ∈ Finset.Ico 0 3, if cancelIndices q = 2 then data q else 0 := rfl
    refine Eq.trans this ?_
    simp [Finset.sum_range_succ, cancelIndices]
  · have : Csc.toMatrix ⟨data, cancelIndices, cancelIndptr⟩ 4 0 2 =
        ∑ q ∈ Finset.Ico 6 9, if cancelIndices q = 0 then data q else 0 := rfl
    refine Eq.trans this ?_
    rw [Finset.sum_Ico_eq_sum_range]
    simp [Finset.sum_range_succ, cancelIndices]

theorem cancel_trace (S : Mat 4) : traceIQdQ S cancelD = S 0 2 + S 2 0 := by
  simp [traceIQdQ, cancelD, mul_apply, Fin.sum_univ_four]

/-- C86: if an entry of the factor cancels, `cost_derivative` is not the derivative: here 3/2 instead of 9/4. -/
theorem c86_cancellation_violated : ∃ (Q D : Mat 4) (r : Replicate 4) (s₀ : Solver Q) (s₁ : Solver (Q + r.qIncrement))
    (g : Vec 1), Q.PosDef ∧ r.qIncrement.PosDef ∧ (∀ a b, D a b ≠ 0 → Q b a ≠ 0 ∧ (Q + r.qIncrement) b a ≠ 0) ∧
    costDerivative Q (fun _ : Fin 1 => D) r s₀ s₁ = .ok g ∧ g 0 = 3 / 2 ∧
    HasDerivAt (fun t : ℝ => costFunction (Q + t • D) r) (9 / 4) 0 := by
  obtain ⟨d₀, h0, a0, b0⟩ := cancel_columns
  obtain ⟨d₁, h1, a1, b1⟩ := double_columns
  have q0 : qInv cancelPrior.cholmod cancelPrior.sigma = .ok
      ((permutation 1)ᵀ * Csc.toMatrix ⟨d₀, cancelIndices, cancelIndptr⟩ 4 * permutation 1) := by
    have : columns cancelPrior.cholmod.csc cancelPrior.sigma.indices cancelPrior.sigma.indptr 4 (fun _ => 0) = .ok d₀ := h0
    unfold qInv
    rw [this]
    rfl
  have q1 : qInv cancelPosterior.cholmod cancelPosterior.sigma = .ok
      ((permutation 1)ᵀ * Csc.toMatrix ⟨d₁, cancelIndices, cancelIndptr⟩ 4 * permutation 1) := by
    have : columns cancelPosterior.cholmod.csc cancelPosterior.sigma.indices cancelPosterior.sigma.indptr 4 (fun _ => 0) =
      .ok d₁ := h1
    unfold qInv
    rw [this]
    rfl
  have hinc : cancelReplicate.qIncrement.PosDef := cancel_posDef.smul (by norm_num)
  have hP : (cancelQ + cancelReplicate.qIncrement).PosDef := cancel_posDef.add hinc
  have hmean : posteriorMean cancelQ cancelReplicate = 0 := by simp [posteriorMean, solve, cancelReplicate]
  have hterm : ∀ S₀ S₁ : Mat 4, derivativeTerm cancelQ cancelReplicate S₀ S₁ cancelD =
      (traceIQdQ S₁ cancelD - traceIQdQ S₀ cancelD) / 2 := by
    intro S₀ S₁
    have h00 : (0.0 : ℝ) = 0 := by norm_num
    simp only [derivativeTerm, hmean, gaussianLoglikelihoodDerivative, h00]
    simp [cancelReplicate, solve]
    ring
  refine ⟨cancelQ, cancelD, cancelReplicate, cancelPrior, cancelPosterior, fun _ => 3 / 2, cancel_posDef, hinc, ?_, ?_, ?_, ?_⟩
  · intro a b
    have : (cancelQ + cancelReplicate.qIncrement) b a = 4 * cancelQ b a := by
      simp [cancelReplicate]; ring
    rw [this, cancelQ_eq]
    fin_cases a <;> fin_cases b <;> simp [cancelD]
  · rw [costDerivative, q0]
    simp only
    rw [q1]
    refine congrArg Except.ok (funext fun j => ?_)
    rw [hterm, cancel_trace, cancel_trace, (cancel_entries d₀).1, (cancel_entries d₀).2, (cancel_entries d₁).1,
      (cancel_entries d₁).2, a0, b0, a1, b1]
    norm_num
  · rfl
  · have hA : HasMatrixDeriv (fun t : ℝ => cancelQ + t • cancelD) cancelD 0 := by
      intro i j
      have := (((hasDerivAt_id (0 : ℝ)).mul_const (cancelD i j)).const_add (cancelQ i j))
      simpa using this
    have hi0 : cancelQ⁻¹ = !![7, -3, -3, 2; -3, 2, 1, -1; -3, 1, 2, -1; 2, -1, -1, 1] := by
      apply inv_eq_left_inv
      rw [cancelQ_eq]
      ext i j
      fin_cases i <;> fin_cases j <;> simp [mul_apply, Fin.sum_univ_succ] <;> norm_num
    have hi1 : (cancelQ + cancelReplicate.qIncrement)⁻¹ = (1 / 4 : ℝ) • cancelQ⁻¹ := by
      apply inv_eq_left_inv
      have : cancelQ + cancelReplicate.qIncrement = (4 : ℝ) • cancelQ := by
        simp only [cancelReplicate]
        ext i j
        simp
        ring
      rw [this, Matrix.smul_mul, Matrix.mul_smul, smul_smul,
        nonsing_inv_mul _ ((isUnit_iff_isUnit_det _).1 cancel_posDef.isUnit)]
      norm_num
    have e0 : cancelQ + (0 : ℝ) • cancelD = cancelQ := by simp
    have := derivativeTerm_deriv hA cancelReplicate (by rw [e0]; exact cancel_posDef) (by rw [e0]; exact hP)
      (S₀ := cancelQ⁻¹) (S₁ := (cancelQ + cancelReplicate.qIncrement)⁻¹) (by rw [e0]; rfl) (by rw [e0]; rfl)
    rw [e0, hterm, cancel_trace, cancel_trace, hi1, hi0] at this
    refine this.congr_deriv ?_
    simp
    norm_num

end Verif.Eustace.CostFunction
