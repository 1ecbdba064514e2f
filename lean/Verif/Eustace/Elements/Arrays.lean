import Verif.Py
import Mathlib.Data.Real.Basic
import Mathlib.Algebra.BigOperators.Group.Finset.Basic
import Mathlib.LinearAlgebra.Matrix.Defs

/-!
The operations of numpy and scipy.sparse which the elements use, on arrays with a shape known only when the program runs.

Simplified: float64 is replaced by the reals; sparse formats are not distinguished; entries outside the shape are not used.
-/

namespace Verif.Eustace.Elements

open Verif Finset

noncomputable section

/-- A sparse matrix of scipy: shape and entries. -/
structure Arr where
  rows : Nat
  cols : Nat
  get : Nat → Nat → ℝ

namespace Arr

/-- A matrix of another part of the model. -/
def ofMatrix {m n : Nat} (M : Matrix (Fin m) (Fin n) ℝ) : Arr where
  rows := m
  cols := n
  get i j := if h : i < m ∧ j < n then M ⟨i, h.1⟩ ⟨j, h.2⟩ else 0

/-- `scipy.sparse.csc_matrix((m, n))`: a matrix of zeros. -/
def zero (m n : Nat) : Arr := ⟨m, n, fun _ _ => 0⟩

/-- `scipy.sparse.diags(numpy.repeat(value, n))`. -/
def scalar (n : Nat) (value : ℝ) : Arr := ⟨n, n, fun i j => if i = j then value else 0⟩

/-- `value * A`. -/
def scale (value : ℝ) (A : Arr) : Arr := ⟨A.rows, A.cols, fun i j => value * A.get i j⟩

/-- `numpy.abs(A)`. -/
def abs (A : Arr) : Arr := ⟨A.rows, A.cols, fun i j => |A.get i j|⟩

/-- `numpy.expand_dims(v, 1)`: a vector as a matrix of one column. -/
def column (v : List ℝ) : Arr := ⟨v.length, 1, fun i _ => v.getD i 0⟩

/-- `scipy.sparse.kron(A, B)`. -/
def kron (A B : Arr) : Arr where
  rows := A.rows * B.rows
  cols := A.cols * B.cols
  get i j := A.get (i / B.rows) (j / B.cols) * B.get (i % B.rows) (j % B.cols)

/-- `A.dot(x)` for a vector: the lengths have to agree. -/
def dot (A : Arr) (x : List ℝ) : Except PyErr (List ℝ) :=
  if x.length ≠ A.cols then .error .valueError
  else .ok ((List.range A.rows).map fun i => ∑ j ∈ Finset.range A.cols, A.get i j * x.getD j 0)

/-- Entries of matrices side by side. -/
def besides : List Arr → Nat → Nat → ℝ
  | [], _, _ => 0
  | A :: rest, i, j => if j < A.cols then A.get i j else besides rest i (j - A.cols)

/-- `scipy.sparse.hstack`: refused for an empty list and for different numbers of rows. -/
def hstack : List Arr → Except PyErr Arr
  | [] => .error .valueError
  | A :: rest =>
    if rest.all fun B => B.rows = A.rows then .ok ⟨A.rows, ((A :: rest).map Arr.cols).sum, besides (A :: rest)⟩
    else .error .valueError

/-- Entries of blocks along the diagonal. -/
def along : List Arr → Nat → Nat → ℝ
  | [], _, _ => 0
  | A :: rest, i, j =>
    if i < A.rows ∧ j < A.cols then A.get i j
    else if A.rows ≤ i ∧ A.cols ≤ j then along rest (i - A.rows) (j - A.cols)
    else 0

/-- `scipy.sparse.block_diag`: refused for an empty list. -/
def blockDiag : List Arr → Except PyErr Arr
  | [] => .error .valueError
  | A :: rest => .ok ⟨((A :: rest).map Arr.rows).sum, ((A :: rest).map Arr.cols).sum, along (A :: rest)⟩

end Arr

/-- A list of computations one after another: the first error stops. -/
def collect {α : Type} : List (Except PyErr α) → Except PyErr (List α)
  | [] => .ok []
  | .error e :: _ => .error e
  | .ok a :: rest =>
    match collect rest with
    | .error e => .error e
    | .ok l => .ok (a :: l)

end

end Verif.Eustace.Elements
