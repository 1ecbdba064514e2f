import Verif.Eustace.Qinv.MarginalModel
import Mathlib.LinearAlgebra.Matrix.PosDef
import Mathlib.Algebra.Order.BigOperators.Group.Finset
import Mathlib.Tactic.FinCases
import Mathlib.Tactic.NormNum
import Mathlib.Tactic.Linarith
import Mathlib.Tactic.Positivity

/-!
C187: variances from a partial inverse.
-/

namespace Verif.Eustace.Qinv

open Matrix

variable {m n : Type} [Fintype m] [Fintype n]

/-- Specification: `P` has the entries of `G` at the places of `S` and zeros elsewhere. -/
def PartOf (G P : Matrix n n ℝ) (S : Set (n × n)) : Prop :=
  ∀ i j, ((i, j) ∈ S → P i j = G i j) ∧ ((i, j) ∉ S → P i j = 0)

/-- Specification: the variance of `Σ a i * x i` when the covariance of `x` is `G`. -/
def variance (G : Matrix n n ℝ) (a : n → ℝ) : ℝ := ∑ i, ∑ j, a i * G i j * a j

theorem diag_eq (G : Matrix n n ℝ) (A : Matrix m n ℝ) (k : m) :
    (A * G * Aᵀ).diag k = variance G (A k) := by
  simp only [Matrix.diag_apply, Matrix.mul_apply, Matrix.transpose_apply, variance, Finset.sum_mul]
  rw [Finset.sum_comm]

/-- Specification: in the product of `A` with itself nothing cancels. -/
def NoCancel (A : Matrix m n ℝ) : Prop := ∀ k i j, A k i ≠ 0 → A k j ≠ 0 → (∑ l, A l i * A l j) ≠ 0

theorem noCancel_of_nonneg {A : Matrix m n ℝ} (h : ∀ k i, 0 ≤ A k i) : NoCancel A := by
  intro k i j hi hj hs
  have hp : 0 < A k i * A k j := by
    have a := lt_of_le_of_ne (h k i) (Ne.symm hi)
    have b := lt_of_le_of_ne (h k j) (Ne.symm hj)
    positivity
  have := Finset.single_le_sum (f := fun l => A l i * A l j) (fun l _ => mul_nonneg (h l i) (h l j))
    (Finset.mem_univ k)
  linarith

/-- C187: without `A` the result has the variances of the latent variables, if the pattern has the diagonal. -/
theorem c187_nodes (G P : Matrix n n ℝ) (S : Set (n × n)) (hP : PartOf G P S) (hd : ∀ i, (i, i) ∈ S) :
    marginal (m := m) P none = .ok (.inr fun i => G i i) := by
  unfold marginal marginalWith
  refine congrArg (fun v => Except.ok (Sum.inr v)) ?_
  funext i
  exact (hP i i).1 (hd i)

/-- C187 (violation): with `A` the function always ends with NameError, whatever the matrices. -/
theorem c187_import_violated (P : Matrix n n ℝ) (A : Matrix m n ℝ) : marginal P (some A) = .error .nameError := by
  simp [marginal, marginalWith]

/-- C187: were `scipy` imported, whatever is returned would be the variances of the rows of `A`, provided that nothing
cancels in `Aᵀ A`.  Missing: matrices in which something cancels, for which it is false (`c187_cancel_violated`). -/
theorem c187_points_partial (G P : Matrix n n ℝ) (S : Set (n × n)) (hP : PartOf G P S) (A : Matrix m n ℝ)
    (hA : NoCancel A) (v : (m → ℝ) ⊕ (n → ℝ)) (h : marginalWith true P (some A) = .ok v) :
    v = .inl fun k => variance G (A k) := by
  unfold marginalWith at h
  simp only [Bool.true_eq_false, if_false] at h
  split at h
  · rename_i hs
    injection h with h
    rw [← h]
    refine congrArg Sum.inl ?_
    funext k
    rw [diag_eq]
    unfold variance
    refine Finset.sum_congr rfl fun i _ => Finset.sum_congr rfl fun j _ => ?_
    by_cases hi : A k i = 0
    · simp [hi]
    by_cases hj : A k j = 0
    · simp [hj]
    have hp : P i j ≠ 0 := by
      have : (i, j) ∈ findSet (Aᵀ * A) := by
        simp only [findSet, Set.mem_setOf_eq, Matrix.mul_apply, Matrix.transpose_apply]
        exact hA k i j hi hj
      exact hs this
    have hS : (i, j) ∈ S := by
      by_contra hc
      exact hp ((hP i j).2 hc)
    rw [(hP i j).1 hS]
  · cases h

/-- C187: were `scipy` imported, variances at points inside the triangles (weights which are not negative) would be
right, or refused. -/
theorem c187_weights (G P : Matrix n n ℝ) (S : Set (n × n)) (hP : PartOf G P S) (A : Matrix m n ℝ)
    (hA : ∀ k i, 0 ≤ A k i) :
    marginalWith true P (some A) = .ok (.inl fun k => variance G (A k))
      ∨ marginalWith true P (some A) = .error .other
        ∧ ∃ k i j, A k i ≠ 0 ∧ A k j ≠ 0 ∧ P i j = 0 := by
  by_cases hs : findSet (Aᵀ * A) ⊆ findSet P
  · left
    have h : marginalWith true P (some A) = .ok (.inl (A * P * Aᵀ).diag) := by simp [marginalWith, hs]
    rw [h, c187_points_partial G P S hP A (noCancel_of_nonneg hA) _ h]
  · right
    refine ⟨by simp [marginalWith, hs], ?_⟩
    rw [Set.not_subset] at hs
    obtain ⟨⟨i, j⟩, h1, h2⟩ := hs
    simp only [findSet, Set.mem_setOf_eq, Matrix.mul_apply, Matrix.transpose_apply, not_not] at h1 h2
    obtain ⟨k, _, hk⟩ := Finset.exists_ne_zero_of_sum_ne_zero h1
    exact ⟨k, i, j, left_ne_zero_of_mul hk, right_ne_zero_of_mul hk, h2⟩

/-- C187: with all pairs of vertices which some row uses in the pattern, and no correlation exactly zero there, such
points are never refused. -/
theorem c187_accepted (G P : Matrix n n ℝ) (S : Set (n × n)) (hP : PartOf G P S) (A : Matrix m n ℝ)
    (hA : ∀ k i, 0 ≤ A k i) (hS : ∀ k i j, A k i ≠ 0 → A k j ≠ 0 → (i, j) ∈ S ∧ G i j ≠ 0) :
    marginalWith true P (some A) = .ok (.inl fun k => variance G (A k)) := by
  rcases c187_weights G P S hP A hA with h | ⟨_, k, i, j, hi, hj, h0⟩
  · exact h
  · obtain ⟨s, g⟩ := hS k i j hi hj
    rw [(hP i j).1 s] at h0
    exact absurd h0 g

/-- A precision matrix: two variables, each next to a third. -/
def chainQ : Matrix (Fin 3) (Fin 3) ℝ := !![2, 0, -1; 0, 2, -1; -1, -1, 2]

/-- Its inverse. -/
noncomputable def chainG : Matrix (Fin 3) (Fin 3) ℝ := !![3/4, 1/4, 1/2; 1/4, 3/4, 1/2; 1/2, 1/2, 1]

/-- Its inverse at the places where it or its factor have entries. -/
noncomputable def chainP : Matrix (Fin 3) (Fin 3) ℝ := !![3/4, 0, 1/2; 0, 3/4, 1/2; 1/2, 1/2, 1]

/-- The places. -/
def chainS : Set (Fin 3 × Fin 3) := {p | p ≠ (0, 1) ∧ p ≠ (1, 0)}

/-- Sum and difference of the first two variables. -/
def sumDiff : Matrix (Fin 2) (Fin 3) ℝ := !![1, 1, 0; 1, -1, 0]

theorem chain_part : PartOf chainG chainP chainS := by
  intro i j
  fin_cases i <;> fin_cases j <;> simp [chainG, chainP, chainS]

theorem chain_inverse : chainQ * chainG = 1 := by
  ext i j
  fin_cases i <;> fin_cases j <;> (simp [chainQ, chainG, Matrix.mul_apply, Fin.sum_univ_three]; try norm_num)

/-- The pattern of `chainQ` is that of `chainS`, and its factor has no more entries. -/
theorem chain_pattern (i j : Fin 3) : chainQ i j ≠ 0 ↔ (i, j) ∈ chainS := by
  fin_cases i <;> fin_cases j <;> simp [chainQ, chainS]

/-- C187 (violation): the test whether the entries suffice looks at `Aᵀ A`, in which entries may cancel: for the sum
and the difference of two variables it accepts, and the variance of the sum is 3/2 instead of 2. -/
theorem c187_cancel_violated :
    (∃ v, marginalWith true chainP (some sumDiff) = .ok (.inl v) ∧ v 0 = 3 / 2)
      ∧ variance chainG (sumDiff 0) = 2 := by
  constructor
  · refine ⟨(sumDiff * chainP * sumDiffᵀ).diag, ?_, ?_⟩
    · have hs : findSet (sumDiffᵀ * sumDiff) ⊆ findSet chainP := by
        rintro ⟨i, j⟩ h
        simp only [findSet, Set.mem_setOf_eq, Matrix.mul_apply, Matrix.transpose_apply, Fin.sum_univ_two] at h ⊢
        fin_cases i <;> fin_cases j <;> simp [sumDiff, chainP] at h ⊢
      simp [marginalWith, hs]
    · rw [diag_eq]
      simp [variance, sumDiff, chainP, Fin.sum_univ_three]
      norm_num
  · simp [variance, sumDiff, chainG, Fin.sum_univ_three]
    norm_num

/-- A point between the first and the third variable. -/
noncomputable def between : Matrix (Fin 1) (Fin 3) ℝ := !![1/4, 0, 3/4]

/-- The hypotheses of `c187_accepted`. -/
example : marginalWith true chainP (some between) = .ok (.inl fun k => variance chainG (between k)) :=
  c187_accepted chainG chainP chainS chain_part between
    (by intro k i; fin_cases k; fin_cases i <;> norm_num [between])
    (by intro k i j; fin_cases k; fin_cases i <;> fin_cases j <;> norm_num [between, chainS, chainG])

/-- A point between the first and the second variable is refused. -/
example : marginalWith true chainP (some (!![1/2, 1/2, 0] : Matrix (Fin 1) (Fin 3) ℝ)) = .error .other := by
  have hs : ¬ findSet ((!![1/2, 1/2, 0] : Matrix (Fin 1) (Fin 3) ℝ)ᵀ * (!![1/2, 1/2, 0] : Matrix (Fin 1) (Fin 3) ℝ))
      ⊆ findSet chainP := by
    intro h
    have := h (a := (0, 1)) (by simp [findSet, Matrix.mul_apply])
    simp [findSet, chainP] at this
  unfold marginalWith
  simp only [Bool.true_eq_false, if_false]
  exact if_neg hs

example : marginal (m := Fin 1) chainP none = .ok (.inr fun i => chainG i i) :=
  c187_nodes chainG chainP chainS chain_part (by intro i; fin_cases i <;> simp [chainS])

end Verif.Eustace.Qinv
