import Verif.Eustace.Qinv.Props
import Mathlib.Tactic.IntervalCases
import Mathlib.Data.Fin.VecNotation
import Mathlib.LinearAlgebra.Matrix.Notation
import Mathlib.Analysis.Matrix.Order

/-!
What happens if an entry of the factor is zero by cancellation (C44).
-/

namespace Verif.Eustace.Qinv

open Matrix Verif.Eustace.Linear

/-- A factor with a zero at (2, 1) although both other entries of column 0 are there. -/
def cancelL : Mat 4 := !![1, 0, 0, 0; 1, 1, 0, 0; 1, 0, 1, 0; 0, 1, 1, 1]

/-- The arrays which the factorisation gives: the entry (2, 1) is stored. -/
def cancelCsc : Csc where
  data p := [1, 1, 1, 1, 0, 1, 1, 1, 1].getD p 0
  indices p := [0, 1, 2, 1, 2, 3, 2, 3, 3].getD p 0
  indptr p := [0, 3, 6, 8, 9].getD p 0

/-- Rows of the pattern of the sum: the entry (2, 1) is not stored. -/
def cancelIndices (p : Nat) : Nat := [0, 1, 2, 0, 1, 3, 0, 2, 3, 1, 2, 3].getD p 0

/-- Starts of its columns. -/
def cancelIndptr (p : Nat) : Nat := [0, 3, 6, 9, 12].getD p 0

/-- Entries kept by the factorisation. -/
def cancelStored (i j : Fin 4) : Prop := (i.val, j.val) ∈ [(0, 0), (1, 0), (2, 0), (1, 1), (2, 1), (3, 1), (2, 2), (3, 2), (3, 3)]

instance : DecidableRel cancelStored := fun i j => by unfold cancelStored; infer_instance

/-- Values held in a list. -/
def held (l : List ℝ) (p : Nat) : ℝ := l.getD p 0

theorem held_set (l : List ℝ) (k : Nat) (v : ℝ) (h : k < l.length) :
    Function.update (held l) k v = held (l.set k v) := by
  funext p
  unfold held
  by_cases e : p = k
  · subst e
    simp [h]
  · rw [Function.update_of_ne e]
    simp [List.getD, List.getElem?_set, Ne.symm e]

theorem cancel_columns : ∃ data, columns cancelCsc cancelIndices cancelIndptr 4 (fun _ => 0) = .ok data ∧
    data 2 = -2 ∧ data 6 = -2 := by
  have h0 : (fun _ => 0 : Nat → ℝ) = held [0,0,0,0,0,0,0,0,0,0,0,0] := by
    funext p
    unfold held
    rcases Nat.lt_or_ge p 12 with h | h
    · interval_cases p <;> rfl
    · rw [List.getD_eq_getElem?_getD, List.getElem?_eq_none (by simpa using h)]
      rfl
  have c3 : column cancelCsc cancelIndices cancelIndptr 3 3 (held [0,0,0,0,0,0,0,0,0,0,0,0]) =
      .ok (held [0,0,0,0,0,0,0,0,0,0,0,1]) := by
    simp [column, cell, mergeLoop, mergeStep, skip, findRow, cancelCsc, cancelIndices, cancelIndptr, held_set]
    norm_num
  have c2 : column cancelCsc cancelIndices cancelIndptr 2 3 (held [0,0,0,0,0,0,0,0,0,0,0,1]) =
      .ok (held [0,0,0,0,0,0,0,2,-1,0,-1,1]) := by
    simp [column, cell, mergeLoop, mergeStep, skip, findRow, cancelCsc, cancelIndices, cancelIndptr, held_set, held]
    norm_num
  have c1 : column cancelCsc cancelIndices cancelIndptr 1 3 (held [0,0,0,0,0,0,0,2,-1,0,-1,1]) =
      .ok (held [0,0,0,0,2,-1,0,2,-1,-1,-1,1]) := by
    simp [column, cell, mergeLoop, mergeStep, skip, findRow, cancelCsc, cancelIndices, cancelIndptr, held_set, held]
    norm_num
  have c0 : ∃ data, column cancelCsc cancelIndices cancelIndptr 0 3 (held [0,0,0,0,2,-1,0,2,-1,-1,-1,1]) = .ok data ∧
      data 2 = -2 ∧ data 6 = -2 := by
    simp [column, cell, mergeLoop, mergeStep, skip, findRow, cancelCsc, cancelIndices, cancelIndptr, held_set, held]
    norm_num
  rw [h0]
  obtain ⟨data, h1, h2⟩ := c0
  refine ⟨data, ?_, h2⟩
  have e3 : cancelIndptr (3 + 1) - cancelIndptr 3 = 3 := rfl
  have e2 : cancelIndptr (2 + 1) - cancelIndptr 2 = 3 := rfl
  have e1 : cancelIndptr (1 + 1) - cancelIndptr 1 = 3 := rfl
  have e0 : cancelIndptr (0 + 1) - cancelIndptr 0 = 3 := rfl
  simp only [columns, e3, e2, e1, e0, c3, c2, c1, h1]

/-- A layout from facts which can be computed. -/
theorem layout_of {n N : Nat} {sI sP : Nat → Nat} {pat : Fin n → Fin n → Prop} (hN : ∀ j : Fin n, sP (j + 1) ≤ N)
    (h1 : ∀ j : Fin n, ∀ p q : Fin N, sP j ≤ p → p < q → q < sP (j + 1) → sI p < sI q)
    (h2 : ∀ j : Fin n, ∀ p : Fin N, sP j ≤ p → p < sP (j + 1) → ∃ i : Fin n, sI p = i ∧ pat i j)
    (h3 : ∀ i j : Fin n, pat i j → ∃ p : Fin N, sP j ≤ p ∧ p < sP (j + 1) ∧ sI p = i)
    (h4 : sP 0 = 0) (h5 : ∀ j : Fin n, sP j ≤ sP (j + 1)) : Layout n sI sP pat where
  sorted j p q a b c := by
    have := hN j
    exact h1 j ⟨p, by omega⟩ ⟨q, by omega⟩ a b c
  row j p a b := by
    have := hN j
    exact h2 j ⟨p, by omega⟩ a b
  position i j h := by
    obtain ⟨p, hp⟩ := h3 i j h
    exact ⟨p, hp⟩
  start := h4
  mono := h5

theorem cancel_layout : Layout 4 cancelCsc.indices cancelCsc.indptr cancelStored :=
  layout_of (N := 9) (by decide) (by decide) (by decide) (by decide) rfl (by decide)

/-- The pattern of the sum, in a form that can be computed. -/
def cancelPattern (i j : Fin 4) : Prop := (i.val, j.val) ∈
  [(0, 0), (1, 0), (2, 0), (0, 1), (1, 1), (3, 1), (0, 2), (2, 2), (3, 2), (1, 3), (2, 3), (3, 3)]

instance : DecidableRel cancelPattern := fun i j => by unfold cancelPattern; infer_instance

theorem cancel_sum : sumPattern cancelL = cancelPattern := by
  funext i j
  unfold sumPattern cancelL cancelPattern
  fin_cases i <;> fin_cases j <;> simp

/-- The factorisation. -/
def cancelCholmod : Cholmod (cancelL * cancelLᵀ) where
  L := cancelL
  p := 1
  lower i j h := by revert h; unfold cancelL; fin_cases i <;> fin_cases j <;> simp
  diagonal i := by unfold cancelL; fin_cases i <;> simp
  factor := by simp
  csc := cancelCsc
  stored := cancelStored
  layout := cancel_layout
  value j q h1 h2 i hi := by
    have hq : q < 9 := by
      refine lt_of_lt_of_le h2 ?_
      fin_cases j <;> simp [cancelCsc]
    have key : ∀ q : Fin 9, ∀ i j : Fin 4, cancelCsc.indptr j ≤ q → q < cancelCsc.indptr (j + 1) →
        cancelCsc.indices q = i → (q.val, i, j) ∈ [(0, 0, 0), (1, 1, 0), (2, 2, 0), (3, 1, 1), (4, 2, 1), (5, 3, 1),
          (6, 2, 2), (7, 3, 2), ((8 : Nat), (3 : Fin 4), (3 : Fin 4))] := by decide
    have := key ⟨q, hq⟩ i j h1 h2 hi
    simp only [List.mem_cons, List.not_mem_nil, or_false, Prod.mk.injEq] at this
    rcases this with ⟨rfl, rfl, rfl⟩ | ⟨rfl, rfl, rfl⟩ | ⟨rfl, rfl, rfl⟩ | ⟨rfl, rfl, rfl⟩ | ⟨rfl, rfl, rfl⟩ |
      ⟨rfl, rfl, rfl⟩ | ⟨rfl, rfl, rfl⟩ | ⟨rfl, rfl, rfl⟩ | ⟨rfl, rfl, rfl⟩ <;> rfl
  keeps i j h := by
    revert h; unfold cancelL cancelStored; fin_cases i <;> fin_cases j <;> simp
  triangle := by decide

/-- The pattern of the result. -/
def cancelSigma : Sigma cancelL where
  indices := cancelIndices
  indptr := cancelIndptr
  layout := by
    rw [cancel_sum]
    exact layout_of (N := 12) (by decide) (by decide) (by decide) (by decide) rfl (by decide)

/-- C44: if an entry of the factor cancels, the result is wrong even where the matrix is not zero: here the entry (2, 0)
is -2 instead of -3. -/
theorem c44_cancellation_violated : ∃ (Q : Mat 4) (f : Cholmod Q) (s : Sigma f.L) (S : Mat 4), Q.PosDef ∧
    qInv f s = .ok S ∧ Q 2 0 ≠ 0 ∧ S 2 0 = -2 ∧ Q⁻¹ 2 0 = -3 := by
  obtain ⟨data, h1, h2, -⟩ := cancel_columns
  have hq : qInv cancelCholmod cancelSigma = .ok
      ((permutation 1)ᵀ * Csc.toMatrix ⟨data, cancelIndices, cancelIndptr⟩ 4 * permutation 1) := by
    have : columns cancelCholmod.csc cancelSigma.indices cancelSigma.indptr 4 (fun _ => 0) = .ok data := h1
    unfold qInv
    rw [this]
    rfl
  refine ⟨cancelL * cancelLᵀ, cancelCholmod, cancelSigma, _, ?_, hq, ?_, ?_, ?_⟩
  · have hd : cancelL.det ≠ 0 := by
      rw [det_of_lowerTriangular cancelL (fun a b hab => cancelCholmod.lower a b hab)]
      exact Finset.prod_ne_zero_iff.2 fun i _ => (cancelCholmod.diagonal i).ne'
    have := PosDef.mul_conjTranspose_self cancelL (by
      rw [vecMul_injective_iff_isUnit, isUnit_iff_isUnit_det]
      exact hd.isUnit)
    simpa [conjTranspose_eq_transpose_of_trivial] using this
  · simp [cancelL, mul_apply, Fin.sum_univ_succ]
  · rw [permutation_conj]
    have : Csc.toMatrix ⟨data, cancelIndices, cancelIndptr⟩ 4 2 0 = data 2 := by
      have : Csc.toMatrix ⟨data, cancelIndices, cancelIndptr⟩ 4 2 0 =
        ∑ q ∈ Finset.Ico 0 3, if cancelIndices q = 2 then data q else 0 := rfl
      rw [this]
      simp [Finset.sum_range_succ, cancelIndices]
    exact this.trans h2
  · have : (cancelL * cancelLᵀ)⁻¹ = !![7, -3, -3, 2; -3, 2, 1, -1; -3, 1, 2, -1; 2, -1, -1, 1] := by
      have hq0 : cancelL * cancelLᵀ = !![1, 1, 1, 0; 1, 2, 1, 1; 1, 1, 2, 1; 0, 1, 1, 3] := by
        ext i j
        rw [mul_apply]
        simp only [transpose_apply, cancelL, Fin.sum_univ_four]
        fin_cases i <;> fin_cases j <;> simp <;> norm_num
      apply inv_eq_left_inv
      rw [hq0]
      ext i j
      fin_cases i <;> fin_cases j <;> simp [mul_apply, Fin.sum_univ_succ] <;> norm_num
    rw [this]
    rfl

/-! ### A case with a closed pattern -/

/-- A factor without zeros below the diagonal. -/
def fullL : Mat 3 := !![1, 0, 0; 1, 1, 0; 1, 1, 1]

/-- Its factorisation. -/
def fullCholmod : Cholmod (fullL * fullLᵀ) where
  L := fullL
  p := 1
  lower i j h := by revert h; unfold fullL; fin_cases i <;> fin_cases j <;> simp
  diagonal i := by unfold fullL; fin_cases i <;> simp
  factor := by simp
  csc := ⟨fun _ => 1, fun p => [0, 1, 2, 1, 2, 2].getD p 0, fun p => [0, 3, 5, 6].getD p 0⟩
  stored i j := j ≤ i
  layout := layout_of (N := 6) (by decide) (by decide) (by decide) (by decide) rfl (by decide)
  value j q h1 h2 i hi := by
    have hq : q < 6 := by
      refine lt_of_lt_of_le h2 ?_
      fin_cases j <;> simp
    have key : ∀ q : Fin 6, ∀ i j : Fin 3, [0, 3, 5, 6].getD j 0 ≤ q.val → q.val < [0, 3, 5, 6].getD (j + 1) 0 →
        [0, 1, 2, 1, 2, 2].getD q 0 = i.val → j ≤ i := by decide
    have := key ⟨q, hq⟩ i j h1 h2 hi
    revert this
    fin_cases i <;> fin_cases j <;> simp [fullL]
  keeps i j := by unfold fullL; fin_cases i <;> fin_cases j <;> simp
  triangle i j h := h

/-- The pattern of the result. -/
def fullSigma : Sigma fullL where
  indices p := [0, 1, 2, 0, 1, 2, 0, 1, 2].getD p 0
  indptr p := [0, 3, 6, 9].getD p 0
  layout := by
    have : sumPattern fullL = fun _ _ => True := by
      funext i j
      unfold sumPattern fullL
      fin_cases i <;> fin_cases j <;> simp
    rw [this]
    exact layout_of (N := 9) (by decide) (by decide) (by decide) (by decide) rfl (by decide)

example : ∃ S, qInv fullCholmod fullSigma = .ok S ∧ ∀ a, S a a = (fullL * fullLᵀ)⁻¹ a a := by
  obtain ⟨S, h1, -, h2⟩ := c44_entries fullCholmod fullSigma (by
    intro i j k hij hjk
    show fullL j i ≠ 0 → fullL k i ≠ 0 → fullL k j ≠ 0
    revert hij hjk
    unfold fullL
    fin_cases i <;> fin_cases j <;> fin_cases k <;> simp)
  exact ⟨S, h1, h2⟩

end Verif.Eustace.Qinv
