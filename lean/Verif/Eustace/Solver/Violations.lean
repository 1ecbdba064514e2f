import Mathlib.Data.Real.StarOrdered
import Verif.Eustace.Solver.Props

namespace Verif.Eustace.Solver

open Matrix Verif.Eustace.Linear

/-- **C172.**  From the sparse matrix to the result: if the matrix is symmetric and positive definite, then, whatever the order of unknowns
which the library chooses, `solve_A` gives for each right-hand side the solution of the system. -/
theorem c172_solution (A : Csr) (n : ℕ) (hr : A.rows.length = n) (hw : A.width = n) (he : ∀ row ∈ A.rows, row ≠ [])
    (hA : (A.dense n).PosDef) (hsize : ∀ U, construct A true true = .ok U → U.rows.flatten.length < 2 ^ 31) (hn : n < 2 ^ 31) :
    ∃ U, construct A true true = .ok U ∧ ∀ (f : Ordered (nativeMatrix U n)) (b : Rhs), b.rows = n →
      b.Suitable → ∃ x, solve f.solution b = .ok x ∧
        ∀ j, j < b.columns → A.dense n *ᵥ (fun i => x.at i j) = fun i : Fin _ => b.value i j := by
  have hsym : (A.dense n)ᵀ = A.dense n := by
    have h := hA.isHermitian
    rw [IsHermitian, conjTranspose_eq_transpose_of_trivial] at h
    exact h
  obtain ⟨U, h1, -, h2, -⟩ := c172_matrix A n hr hw he hsym
  refine ⟨U, h1, ?_⟩
  intro f b hb hform
  obtain ⟨x, hx, -, -, -, hval⟩ := c172_columns f.solution b hb hform
  refine ⟨x, hx, ?_⟩
  intro j hj
  have hcol : (fun i : Fin n => x.at i j) = (A.dense n)⁻¹ *ᵥ fun l : Fin n => b.value l j := by
    funext i
    rw [hval i j hj, Ordered.solution, h2 (hsize U h1) hn]
  rw [hcol, mulVec_mulVec, mul_nonsing_inv _ (isUnit_iff_ne_zero.2 hA.det_pos.ne'), one_mulVec]

/-! ### A case which meets the hypotheses -/

/-- The matrix with rows 2, 1 and 1, 1; the entry at the lower left is stored in two parts, and the first row is not in order. -/
noncomputable def small : Csr := ⟨[[(1, 1), (0, 2)], [(0, 1 / 2), (1, 1), (0, 1 / 2)]], 2⟩

theorem small_dense : small.dense 2 = !![2, 1; 1, 1] := by
  ext i j
  fin_cases i <;> fin_cases j <;> norm_num [Csr.dense, small, entry]

theorem small_posDef : (small.dense 2).PosDef := by
  have h : small.dense 2 = (!![1, 0; 1, 1] : Mat 2)ᴴ * !![1, 0; 1, 1] := by
    rw [small_dense]
    ext i j
    fin_cases i <;> fin_cases j <;> norm_num [Matrix.mul_apply, Fin.sum_univ_two, conjTranspose_apply]
  rw [h]
  refine PosDef.conjTranspose_mul_self _ ?_
  intro x y hxy
  have h0 := congrFun hxy 0
  have h1 := congrFun hxy 1
  simp [mulVec, dotProduct, Fin.sum_univ_two] at h0 h1
  funext i
  fin_cases i
  · exact h0
  · simp only [h0] at h1
    simpa using h1

theorem small_triu : triu small = ⟨[[(0, 2), (1, 1)], [(1, 1)]], 2⟩ := by
  have h0 : triuRow 0 [(1, (1 : ℝ)), (0, 2)] = [(0, 2), (1, 1)] := by
    norm_num [triuRow, entry]
  have h1 : triuRow 1 [(0, (1 / 2 : ℝ)), (1, 1), (0, 1 / 2)] = [(1, 1)] := by
    norm_num [triuRow, entry]
  simp [triu, small] at h0 h1 ⊢
  exact ⟨h0, h1⟩

example : ∃ U, construct small true true = .ok U ∧ ∀ (f : Ordered (nativeMatrix U 2)) (b : Rhs), b.rows = 2 →
      b.Suitable → ∃ x, solve f.solution b = .ok x ∧
        ∀ j, j < b.columns → small.dense 2 *ᵥ (fun i => x.at i j) = fun i : Fin _ => b.value i j := by
  refine c172_solution small 2 rfl rfl ?_ small_posDef ?_ (by norm_num)
  · intro row hrow
    simp [small] at hrow
    rcases hrow with rfl | rfl <;> simp
  · intro U hU
    obtain rfl : triu small = U := by simpa [construct, small] using hU
    rw [small_triu]
    norm_num

/-- A factorisation of that matrix in the reverse order. -/
def reversed : Ordered (!![2, 1; 1, 1] : Mat 2) where
  order := Equiv.swap 0 1
  L := !![1, 0; 1, 1]
  lower := by
    intro i j h
    fin_cases i <;> fin_cases j <;> simp at h ⊢
  factor := by
    ext i j
    fin_cases i <;> fin_cases j <;> norm_num [Matrix.mul_apply, Fin.sum_univ_two]

/-! ### Violations -/

/-- **C172, violated.**  A right-hand side in one dimension which is a part of a larger array, such as a column of a table, is read without
its stride: the result is the solution for other numbers. -/
theorem c172_stride_violated : (∀ (n : ℕ) (native : Native n) (memory : ℤ → ℝ) (s : ℤ), ∃ x,
      solve native (.dense (.one n memory s) true) = .ok x ∧ ∀ i : Fin n, x.at i 0 = native (fun l => memory l) i) ∧
    ∃ (b : NdArray) (x : NdArray), (∀ f : Ordered (1 : Mat 2), solve f.solution (.dense b true) = .ok x) ∧
      (1 : Mat 2) *ᵥ (fun i => x.at i 0) ≠ fun i : Fin 2 => b.at i 0 := by
  have first : ∀ (n : ℕ) (native : Native n) (memory : ℤ → ℝ) (s : ℤ), ∃ x,
      solve native (.dense (.one n memory s) true) = .ok x ∧ ∀ i : Fin n, x.at i 0 = native (fun l => memory l) i := by
    intro n native memory s
    refine ⟨callPardiso native (.one n memory s), by simp [solve, Rhs.rows, NdArray.rows, Rhs.todense, asFortran], ?_⟩
    intro i
    simp [callPardiso, NdArray.at]
  refine ⟨first, .one 2 (fun a => a) 2, callPardiso (fun b : Vec 2 => b) (.one 2 (fun a => a) 2), ?_, ?_⟩
  · intro f
    have hf : f.solution = fun b => b := by
      funext b
      rw [Ordered.solution, inv_one, one_mulVec]
    rw [hf]
    simp [solve, Rhs.rows, NdArray.rows, Rhs.todense, asFortran]
  · intro h
    rw [one_mulVec] at h
    have h1 := congrFun h 1
    simp [callPardiso, NdArray.at] at h1

/-- **C172, violated.**  With 2³¹ entries or more the indices have 64 bits, but are read as if they had 32: the first row is empty for the
library, whatever the matrix is. -/
theorem c172_wide_violated (A : Csr) (n : ℕ) (h0 : 0 < n) (hA : (A.dense n).PosDef)
    (hwide : 2 ^ 31 ≤ (triu A).rows.flatten.length) : nativeMatrix (triu A) n ≠ A.dense n := by
  have ha : ∀ index, asInt32 (triu A) index = index.flatMap halves := by
    intro index
    rw [asInt32, if_neg]
    omega
  have hp : ∃ t, indptr (triu A) = 0 :: t := by
    rw [indptr]
    cases (triu A).rows.map List.length with
    | nil => exact ⟨[], rfl⟩
    | cons x l => exact ⟨_, List.scanl_cons⟩
  obtain ⟨t, ht⟩ := hp
  have hh : halves 0 = [0, 0] := by decide
  have hi : asInt32 (triu A) (indptr (triu A)) = 0 :: 0 :: t.flatMap halves := by
    rw [ha, ht, List.flatMap_cons, hh]
    rfl
  have hz : ∀ j, nativeUpper (asInt32 (triu A) (indptr (triu A))) (asInt32 (triu A) (indices (triu A))) (values (triu A)) 0 j = 0 := by
    intro j
    rw [nativeUpper, hi]
    have : ∀ (l : List ℕ) (q : ℕ → Prop) [DecidablePred q], (∀ p, ¬q p) → l.filter (fun p => decide (q p)) = [] := by
      intro l q _ hq
      rw [List.filter_eq_nil_iff]
      intro p _
      simpa using hq p
    rw [this]
    · rfl
    · intro p h
      have h2 := h.2.1
      simp at h2
      omega
  intro heq
  have hd : 0 < A.dense n ⟨0, h0⟩ ⟨0, h0⟩ := hA.diag_pos
  rw [← heq] at hd
  simp only [nativeMatrix, fromUpper, of_apply, le_refl, if_true] at hd
  rw [hz] at hd
  exact lt_irrefl _ hd

/-- The identity as a sparse matrix. -/
def identity (n : ℕ) : Csr := ⟨(List.range n).map fun i => [(i, 1)], n⟩

theorem identity_dense (n : ℕ) : (identity n).dense n = 1 := by
  ext i j
  by_cases h : i = j
  · subst h
    simp [Csr.dense, identity, entry]
  · have h' : ¬(i : ℕ) = j := fun e => h (Fin.ext e)
    simp [Csr.dense, identity, entry, h, h']

theorem identity_size (n : ℕ) : (triu (identity n)).rows.flatten.length = n := by
  have h : ∀ i : ℕ, (triuRow i [(i, (1 : ℝ))]).length = 1 := by
    intro i
    simp [triuRow]
  rw [List.length_flatten, triu, List.map_map]
  have e : ((identity n).rows.zipIdx.map (List.length ∘ fun r => triuRow r.2 r.1)) = List.replicate n 1 := by
    apply List.ext_getElem
    · simp [identity]
    · intro i h1 h2
      simp [identity, h]
  rw [e]
  simp

example (n : ℕ) (hn : n = 2 ^ 31) : nativeMatrix (triu (identity n)) n ≠ (identity n).dense n := by
  refine c172_wide_violated _ _ (by rw [hn]; norm_num) ?_ (by rw [identity_size, hn])
  rw [identity_dense]
  exact PosDef.one

/-- **C172, violated.**  An empty row is not reported as such: the message names what is not defined. -/
theorem c172_empty_row_violated (A : Csr) (h : A.rows.length = A.width) (he : [] ∈ A.rows) (f : Bool) :
    construct A true f = .error .nameError := by
  have h' : A.rows.any List.isEmpty = true := List.any_eq_true.2 ⟨[], he, rfl⟩
  simp [construct, h, h']

/-- **C172, violated.**  The factor `L` of `A = L Lᵀ` with which `Lᵀ x = b` is solved is not triangular, if the library takes unknowns in
another order. -/
theorem c172_triangular_violated : ∃ (M : Mat 2) (f : Ordered M), M.PosDef ∧
    ∀ T : Mat 2, (∀ i j, i < j → T i j = 0) → T * Tᵀ = M → ∃ b, Tᵀ *ᵥ f.backward b ≠ b := by
  refine ⟨_, reversed, ?_, ?_⟩
  · rw [← small_dense]
    exact small_posDef
  · intro T hT hM
    by_contra hcon
    push Not at hcon
    have hu : IsUnit (!![1, 0; 1, 1] : Mat 2)ᵀ.det := by
      rw [det_transpose, det_fin_two_of]
      norm_num
    have hx : reversed.backward ![1, 1] = ![1, 0] := by
      have e : (!![1, 0; 1, 1] : Mat 2)ᵀ⁻¹ *ᵥ ![1, 1] = ![0, 1] := by
        have e' : (!![1, 0; 1, 1] : Mat 2)ᵀ *ᵥ ![0, 1] = ![1, 1] := by
          funext i
          fin_cases i <;> norm_num [mulVec, dotProduct, Fin.sum_univ_two]
        have e2 := congrArg (fun v => (!![1, 0; 1, 1] : Mat 2)ᵀ⁻¹ *ᵥ v) e'
        simp only [mulVec_mulVec, nonsing_inv_mul _ hu, one_mulVec] at e2
        exact e2.symm
      funext i
      rw [Ordered.backward]
      change ((!![1, 0; 1, 1] : Mat 2)ᵀ⁻¹ *ᵥ ![1, 1]) ((Equiv.swap 0 1).symm i) = _
      rw [e]
      fin_cases i <;> simp
    have h := congrFun (hcon ![1, 1]) 1
    rw [hx] at h
    have h01 := hT 0 1 (by decide)
    simp [mulVec, dotProduct, Fin.sum_univ_two, h01] at h

end Verif.Eustace.Solver
