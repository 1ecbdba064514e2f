import Verif.Eustace.Elements.Model
import Verif.Eustace.Linear.Deriv
import Mathlib.LinearAlgebra.Matrix.PosDef
import Mathlib.LinearAlgebra.Matrix.Kronecker
import Mathlib.Analysis.Matrix.Order
import Mathlib.Data.Real.StarOrdered
import Mathlib.Tactic.Linarith
import Mathlib.Tactic.Ring
import Mathlib.Algebra.BigOperators.Intervals

/-!
Positive definite arrays and derivatives of arrays.
-/

namespace Verif.Eustace.Elements

open Verif Finset Matrix

noncomputable section

/-- The quadratic form of an array with `n` rows and columns. -/
def form (n : Nat) (A : Arr) (x : Nat → ℝ) : ℝ := ∑ i ∈ range n, ∑ j ∈ range n, x i * A.get i j * x j

/-- An array with `n` rows and columns, symmetric and positive definite. -/
structure Pos (n : Nat) (A : Arr) : Prop where
  rows : A.rows = n
  cols : A.cols = n
  symm : ∀ i < n, ∀ j < n, A.get i j = A.get j i
  pos : ∀ x : Nat → ℝ, (∃ i < n, x i ≠ 0) → 0 < form n A x

/-- As a matrix. -/
def toMatrix (n : Nat) (A : Arr) : Matrix (Fin n) (Fin n) ℝ := Matrix.of fun i j => A.get i j

theorem form_eq (n : Nat) (A : Arr) (x : Nat → ℝ) :
    form n A x = (fun i : Fin n => x i) ⬝ᵥ (toMatrix n A *ᵥ fun i => x i) := by
  unfold form
  rw [Finset.sum_range]
  simp only [dotProduct, mulVec, toMatrix, Matrix.of_apply]
  apply Finset.sum_congr rfl
  intro i _
  rw [Finset.sum_range, Finset.mul_sum]
  apply Finset.sum_congr rfl
  intro j _
  ring

theorem pos_iff (n : Nat) (A : Arr) : Pos n A ↔ A.rows = n ∧ A.cols = n ∧ (toMatrix n A).PosDef := by
  constructor
  · intro h
    refine ⟨h.rows, h.cols, PosDef.of_dotProduct_mulVec_pos ?_ ?_⟩
    · ext i j
      simp only [conjTranspose_apply, toMatrix, Matrix.of_apply, star_trivial]
      exact h.symm _ j.isLt _ i.isLt
    · intro x hx
      have : ∃ i, x i ≠ 0 := by
        by_contra hne
        apply hx
        funext i
        by_contra hi
        exact hne ⟨i, hi⟩
      obtain ⟨i, hi⟩ := this
      have := h.pos (fun k => if hk : k < n then x ⟨k, hk⟩ else 0) ⟨i, i.isLt, by simpa using hi⟩
      rw [form_eq] at this
      simpa using this
  · rintro ⟨hr, hc, hp⟩
    refine ⟨hr, hc, ?_, ?_⟩
    · intro i hi j hj
      have := congrFun (congrFun hp.isHermitian ⟨j, hj⟩) ⟨i, hi⟩
      simpa [toMatrix, conjTranspose_apply] using this
    · rintro x ⟨i, hi, hx⟩
      rw [form_eq]
      have := hp.dotProduct_mulVec_pos (x := fun i : Fin n => x i) (by
        intro h
        exact hx (congrFun h ⟨i, hi⟩))
      simpa using this

theorem pos_ofMatrix {n : Nat} {M : Matrix (Fin n) (Fin n) ℝ} (h : M.PosDef) : Pos n (Arr.ofMatrix M) := by
  rw [pos_iff]
  refine ⟨rfl, rfl, ?_⟩
  have : toMatrix n (Arr.ofMatrix M) = M := by
    ext i j
    simp [toMatrix, Arr.ofMatrix]
  rwa [this]

theorem pos_scalar (n : Nat) {v : ℝ} (h : 0 < v) : Pos n (Arr.scalar n v) := by
  rw [pos_iff]
  refine ⟨rfl, rfl, ?_⟩
  have : toMatrix n (Arr.scalar n v) = Matrix.diagonal fun _ => v := by
    ext i j
    simp [toMatrix, Arr.scalar, Matrix.diagonal_apply, Fin.ext_iff]
  rw [this, posDef_diagonal_iff]
  exact fun _ => h

theorem pos_kron {m n : Nat} {A B : Arr} (hA : Pos m A) (hB : Pos n B) : Pos (m * n) (Arr.kron A B) := by
  have h := (((pos_iff m A).mp hA).2.2).kronecker ((pos_iff n B).mp hB).2.2
  rw [pos_iff]
  refine ⟨by simp [Arr.kron, hA.rows, hB.rows], by simp [Arr.kron, hA.cols, hB.cols], ?_⟩
  have : toMatrix (m * n) (Arr.kron A B) =
      (Matrix.kroneckerMap (· * ·) (toMatrix m A) (toMatrix n B)).submatrix finProdFinEquiv.symm finProdFinEquiv.symm := by
    ext i j
    simp only [toMatrix, Matrix.of_apply, Arr.kron, Matrix.submatrix_apply, Matrix.kroneckerMap_apply, hB.rows, hB.cols]
    rfl
  rw [this]
  exact h.submatrix finProdFinEquiv.symm.injective

/-! ### Blocks along the diagonal -/

theorem sum_split (m n : Nat) (f : Nat → ℝ) : ∑ i ∈ range (m + n), f i = ∑ i ∈ range m, f i + ∑ i ∈ range n, f (m + i) :=
  Finset.sum_range_add f m n

theorem along_head (A : Arr) (rest : List Arr) {i j : Nat} (hi : i < A.rows) (hj : j < A.cols) :
    Arr.along (A :: rest) i j = A.get i j := by
  rw [Arr.along, if_pos ⟨hi, hj⟩]

theorem along_tail (A : Arr) (rest : List Arr) (i j : Nat) :
    Arr.along (A :: rest) (A.rows + i) (A.cols + j) = Arr.along rest i j := by
  rw [Arr.along, if_neg (by omega), if_pos ⟨by omega, by omega⟩, Nat.add_sub_cancel_left, Nat.add_sub_cancel_left]

theorem along_upper (A : Arr) (rest : List Arr) {i : Nat} (j : Nat) (hi : i < A.rows) :
    Arr.along (A :: rest) i (A.cols + j) = 0 := by
  rw [Arr.along, if_neg (by omega), if_neg (by omega)]

theorem along_lower (A : Arr) (rest : List Arr) (i : Nat) {j : Nat} (hj : j < A.cols) :
    Arr.along (A :: rest) (A.rows + i) j = 0 := by
  rw [Arr.along, if_neg (by omega), if_neg (by omega)]

/-- The quadratic form of blocks along the diagonal is the sum of the quadratic forms of the blocks, each at its own slice. -/
theorem form_along (n total : Nat) (A : Arr) (rest : List Arr) (hr : A.rows = n) (hc : A.cols = n) (x : Nat → ℝ) :
    form (n + total) ⟨n + total, n + total, Arr.along (A :: rest)⟩ x =
      form n A x + form total ⟨total, total, Arr.along rest⟩ fun i => x (n + i) := by
  unfold form
  rw [sum_split]
  simp only [sum_split n total]
  congr 1
  · apply Finset.sum_congr rfl
    intro i hi
    have hi' : i < n := by simpa using hi
    rw [show ∑ j ∈ range total, x i * Arr.along (A :: rest) i (n + j) * x (n + j) = 0 from ?_, add_zero]
    · apply Finset.sum_congr rfl
      intro j hj
      have hj' : j < n := by simpa using hj
      rw [along_head A rest (by omega) (by omega)]
    · apply Finset.sum_eq_zero
      intro j _
      have := along_upper A rest (i := i) j (by omega)
      rw [hc] at this
      rw [this]; ring
  · apply Finset.sum_congr rfl
    intro i _
    rw [show ∑ j ∈ range n, x (n + i) * Arr.along (A :: rest) (n + i) j * x j = 0 from ?_, zero_add]
    · apply Finset.sum_congr rfl
      intro j _
      have := along_tail A rest i j
      rw [hr, hc] at this
      rw [this]
    · apply Finset.sum_eq_zero
      intro j hj
      have hj' : j < n := by simpa using hj
      have := along_lower A rest i (j := j) (by omega)
      rw [hr] at this
      rw [this]; ring

theorem pos_along (ns : List Nat) (As : List Arr) (h : List.Forall₂ Pos ns As) :
    Pos ns.sum ⟨ns.sum, ns.sum, Arr.along As⟩ := by
  induction h with
  | nil => exact ⟨rfl, rfl, by simp, by simp⟩
  | @cons n A ns As hA _ ih =>
    simp only [List.sum_cons]
    refine ⟨rfl, rfl, ?_, ?_⟩
    · intro i hi j hj
      simp only
      by_cases h1 : i < n
      · by_cases h2 : j < n
        · rw [along_head _ _ (by rw [hA.rows]; exact h1) (by rw [hA.cols]; exact h2),
            along_head _ _ (by rw [hA.rows]; exact h2) (by rw [hA.cols]; exact h1), hA.symm i h1 j h2]
        · obtain ⟨j, rfl⟩ := Nat.exists_eq_add_of_le (not_lt.mp h2)
          have e1 := along_upper A As (i := i) j (by rw [hA.rows]; exact h1)
          have e2 := along_lower A As j (j := i) (by rw [hA.cols]; exact h1)
          rw [hA.cols] at e1
          rw [hA.rows] at e2
          rw [e1, e2]
      · obtain ⟨i, rfl⟩ := Nat.exists_eq_add_of_le (not_lt.mp h1)
        by_cases h2 : j < n
        · have e1 := along_upper A As (i := j) i (by rw [hA.rows]; exact h2)
          have e2 := along_lower A As i (j := j) (by rw [hA.cols]; exact h2)
          rw [hA.cols] at e1
          rw [hA.rows] at e2
          rw [e1, e2]
        · obtain ⟨j, rfl⟩ := Nat.exists_eq_add_of_le (not_lt.mp h2)
          have e1 := along_tail A As i j
          have e2 := along_tail A As j i
          rw [hA.rows, hA.cols] at e1 e2
          rw [e1, e2]
          exact ih.symm i (by omega) j (by omega)
    · rintro x ⟨i, hi, hx⟩
      rw [form_along n ns.sum A As hA.rows hA.cols]
      have nonneg : ∀ (k : Nat) (B : Arr) (y : Nat → ℝ), Pos k B → 0 ≤ form k B y := by
        intro k B y hB
        by_cases hy : ∃ i < k, y i ≠ 0
        · exact (hB.pos y hy).le
        · have hy' : ∀ i < k, y i = 0 := by
            intro i hi
            by_contra hne
            exact hy ⟨i, hi, hne⟩
          have : form k B y = 0 := by
            unfold form
            apply Finset.sum_eq_zero
            intro i hi
            apply Finset.sum_eq_zero
            intro j _
            rw [hy' i (by simpa using hi)]; ring
          rw [this]
      by_cases h1 : i < n
      · have := hA.pos x ⟨i, h1, hx⟩
        have := nonneg _ _ (fun i => x (n + i)) ih
        linarith
      · obtain ⟨i, rfl⟩ := Nat.exists_eq_add_of_le (not_lt.mp h1)
        have := ih.pos (fun i => x (n + i)) ⟨i, by omega, hx⟩
        have := nonneg _ _ x hA
        linarith

theorem blockDiag_eq (As : List Arr) (ns : List Nat) (hne : As ≠ [])
    (h : List.Forall₂ (fun n (A : Arr) => A.rows = n ∧ A.cols = n) ns As) :
    Arr.blockDiag As = .ok ⟨ns.sum, ns.sum, Arr.along As⟩ := by
  have h1 : As.map Arr.rows = ns := by
    clear hne
    induction h with
    | nil => rfl
    | cons h0 _ ih => simp [h0.1, ih]
  have h2 : As.map Arr.cols = ns := by
    clear hne h1
    induction h with
    | nil => rfl
    | cons h0 _ ih => simp [h0.2, ih]
  cases As with
  | nil => exact absurd rfl hne
  | cons A rest =>
    simp only [Arr.blockDiag]
    rw [h1, h2]

/-! ### Derivatives -/

/-- `D` is the derivative at `x`, entry by entry, of an array with `n` rows and columns. -/
structure HasArrDeriv (Q : ℝ → Arr) (D : Arr) (n : Nat) (x : ℝ) : Prop where
  rows : ∀ t, (Q t).rows = n
  cols : ∀ t, (Q t).cols = n
  rows' : D.rows = n
  cols' : D.cols = n
  entry : ∀ i j, HasDerivAt (fun t => (Q t).get i j) (D.get i j) x

theorem deriv_const (A : Arr) (n : Nat) (hr : A.rows = n) (hc : A.cols = n) (x : ℝ) :
    HasArrDeriv (fun _ => A) (Arr.zero n n) n x :=
  ⟨fun _ => hr, fun _ => hc, rfl, rfl, fun _ _ => hasDerivAt_const _ _⟩

theorem deriv_ofMatrix {n : Nat} {Q : ℝ → Matrix (Fin n) (Fin n) ℝ} {D : Matrix (Fin n) (Fin n) ℝ} {x : ℝ}
    (h : Linear.HasMatrixDeriv Q D x) : HasArrDeriv (fun t => Arr.ofMatrix (Q t)) (Arr.ofMatrix D) n x := by
  refine ⟨fun _ => rfl, fun _ => rfl, rfl, rfl, fun i j => ?_⟩
  simp only [Arr.ofMatrix]
  by_cases hij : i < n ∧ j < n
  · simp only [dif_pos hij]
    exact h _ _
  · simp only [dif_neg hij]
    exact hasDerivAt_const _ _

theorem deriv_kron_right {m n : Nat} {Q : ℝ → Arr} {D : Arr} {x : ℝ} (A : Arr) (hr : A.rows = m) (hc : A.cols = m)
    (h : HasArrDeriv Q D n x) : HasArrDeriv (fun t => Arr.kron A (Q t)) (Arr.kron A D) (m * n) x := by
  refine ⟨fun t => by simp [Arr.kron, hr, h.rows t], fun t => by simp [Arr.kron, hc, h.cols t],
    by simp [Arr.kron, hr, h.rows'], by simp [Arr.kron, hc, h.cols'], fun i j => ?_⟩
  simp only [Arr.kron, h.rows, h.cols, h.rows', h.cols']
  exact (h.entry _ _).const_mul _

theorem deriv_kron_left {m n : Nat} {Q : ℝ → Arr} {D : Arr} {x : ℝ} (B : Arr) (hr : B.rows = n) (hc : B.cols = n)
    (h : HasArrDeriv Q D m x) : HasArrDeriv (fun t => Arr.kron (Q t) B) (Arr.kron D B) (m * n) x := by
  refine ⟨fun t => by simp [Arr.kron, hr, h.rows t], fun t => by simp [Arr.kron, hc, h.cols t],
    by simp [Arr.kron, hr, h.rows'], by simp [Arr.kron, hc, h.cols'], fun i j => ?_⟩
  simp only [Arr.kron, h.rows, h.cols, h.rows', h.cols']
  exact (h.entry _ _).mul_const _

/-- A list of arrays with their derivatives. -/
inductive ListDeriv (x : ℝ) : List Nat → List (ℝ → Arr) → List Arr → Prop
  | nil : ListDeriv x [] [] []
  | cons {n ns Q Qs D Ds} : HasArrDeriv Q D n x → ListDeriv x ns Qs Ds → ListDeriv x (n :: ns) (Q :: Qs) (D :: Ds)

theorem deriv_along {x : ℝ} {ns : List Nat} {Qs : List (ℝ → Arr)} {Ds : List Arr} (h : ListDeriv x ns Qs Ds) :
    HasArrDeriv (fun t => ⟨ns.sum, ns.sum, Arr.along (Qs.map fun Q => Q t)⟩) ⟨ns.sum, ns.sum, Arr.along Ds⟩ ns.sum x := by
  refine ⟨fun _ => rfl, fun _ => rfl, rfl, rfl, ?_⟩
  induction h with
  | nil => intro i j; exact hasDerivAt_const _ _
  | @cons n ns Q Qs D Ds h0 _ ih =>
    intro i j
    simp only [List.map_cons, Arr.along, h0.rows, h0.cols, h0.rows', h0.cols']
    by_cases h1 : i < n ∧ j < n
    · simp only [if_pos h1]
      exact h0.entry i j
    · simp only [if_neg h1]
      by_cases h2 : n ≤ i ∧ n ≤ j
      · simp only [if_pos h2]
        exact ih _ _
      · simp only [if_neg h2]
        exact hasDerivAt_const _ _

theorem listDeriv_shapes {x : ℝ} {ns : List Nat} {Qs : List (ℝ → Arr)} {Ds : List Arr} (h : ListDeriv x ns Qs Ds) (t : ℝ) :
    List.Forall₂ (fun n (A : Arr) => A.rows = n ∧ A.cols = n) ns (Qs.map fun Q => Q t) ∧
      List.Forall₂ (fun n (A : Arr) => A.rows = n ∧ A.cols = n) ns Ds := by
  induction h with
  | nil => exact ⟨.nil, .nil⟩
  | cons h0 _ ih => exact ⟨.cons ⟨h0.rows t, h0.cols t⟩ ih.1, .cons ⟨h0.rows', h0.cols'⟩ ih.2⟩

theorem deriv_blockDiag {x : ℝ} {ns : List Nat} {Qs : List (ℝ → Arr)} {Ds : List Arr} (h : ListDeriv x ns Qs Ds)
    (hne : ns ≠ []) :
    ∃ (Q : ℝ → Arr) (D : Arr), (∀ t, Arr.blockDiag (Qs.map fun Q => Q t) = .ok (Q t)) ∧ Arr.blockDiag Ds = .ok D ∧
      HasArrDeriv Q D ns.sum x := by
  refine ⟨_, _, fun t => blockDiag_eq _ ns ?_ (listDeriv_shapes h t).1, blockDiag_eq _ ns ?_ (listDeriv_shapes h 0).2,
    deriv_along h⟩
  · cases h with
    | nil => exact absurd rfl hne
    | cons _ _ => simp
  · cases h with
    | nil => exact absurd rfl hne
    | cons _ _ => simp

end

end Verif.Eustace.Elements
