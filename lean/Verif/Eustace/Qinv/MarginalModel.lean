import Verif.Py
import Mathlib.LinearAlgebra.Matrix.Notation
import Mathlib.Data.Real.Basic
import Mathlib.Data.Matrix.Mul

/-!
Model of the variances from a partial inverse:
`/repo/src/eustace/analysis/advanced_standard/linalg/sparse.py` 38-63.

Simplified: float64 is replaced by the reals; sparse matrices are functions of their indices.
-/

namespace Verif.Eustace.Qinv

open Matrix

/-- `Set(zip(i, j))` for what `scipy.sparse.find` gives (sparse.py 49-52): the places whose value is not zero; entries
which are stored but zero are left out by `find`. -/
def findSet {m n : Type} (X : Matrix m n ℝ) : Set (m × n) := {p | X p.1 p.2 ≠ 0}

open Classical in
/-- `marginal_variance_Q_inv` (sparse.py 38-63) from the partial inverse `P` which `qinv.Q_inv` gives; `scipy` tells
whether the name `scipy` is known in the module.  The result is one number for each row of `A`, or for each
latent variable if there is no `A`. -/
noncomputable def marginalWith {m n : Type} [Fintype n] [Fintype m] (scipy : Bool) (P : Matrix n n ℝ) :
    Option (Matrix m n ℝ) → Except PyErr ((m → ℝ) ⊕ (n → ℝ))
  | none => .ok (.inr P.diag)
  | some A =>
    if scipy = false then .error .nameError
    else if findSet (Aᵀ * A) ⊆ findSet P then .ok (.inl (A * P * Aᵀ).diag)
    else .error .other

/-- The function as it is (sparse.py 3-4 and 38-63): only `numpy` and `qinv` are imported. -/
noncomputable def marginal {m n : Type} [Fintype n] [Fintype m] (P : Matrix n n ℝ) (A : Option (Matrix m n ℝ)) :
    Except PyErr ((m → ℝ) ⊕ (n → ℝ)) := marginalWith false P A

end Verif.Eustace.Qinv
