import Verif.Py
import Verif.Eustace.Linear.Model

/-!
Model of the partial inverse of a sparse matrix:
`/repo/src/eustace/analysis/advanced_standard/linalg/qinv.pyx` and its use in `linalg/sparse.py`.

Simplified throughout: float64 is replaced by the reals.  An index which would go below zero is an error here; in
the original it would be -1 and address the last element.
-/

namespace Verif.Eustace.Qinv

open Matrix Verif.Eustace.Linear

/-- The arrays of a compressed column matrix (qinv.pyx 51-53 and 60-62): the entries of column `j` are at the positions
`indptr j ≤ p < indptr (j + 1)`, each with its row `indices p` and value `data p`. -/
structure Csc where
  data : Nat → ℝ
  indices : Nat → Nat
  indptr : Nat → Nat

/-- `while (S_data_J_index > 0 and (L_indices[L_data_I_index] < S_indices[S_data_J_index])): S_data_J_index-= 1`
(qinv.pyx 94-95), with `k` for `L_indices[L_data_I_index]`. -/
def skip (indices : Nat → Nat) (k : Nat) : Nat → Nat
  | 0 => 0
  | p + 1 => if k < indices (p + 1) then skip indices k p else p + 1

/-- The body of the while loop over column `i` of the factor (qinv.pyx 94-100): new value and position in column
`j` of the result. -/
noncomputable def mergeStep (L : Csc) (sIndices : Nat → Nat) (sData : Nat → ℝ) (pL pS : Nat) (value : ℝ) :
    Except PyErr (ℝ × Nat) :=
  let q := skip sIndices (L.indices pL) pS
  if L.indices pL = sIndices q then
    match q with
    | 0 => .error .indexError
    | q' + 1 => .ok (value - L.data pL * sData (q' + 1), q')
  else .ok (value, q)

/-- `while L_indices[L_data_I_index] > i` (qinv.pyx 91-102): value and both positions at the end. -/
noncomputable def mergeLoop (L : Csc) (sIndices : Nat → Nat) (sData : Nat → ℝ) (i : Nat) :
    Nat → Nat → ℝ → Except PyErr (ℝ × Nat × Nat)
  | 0, pS, value => if i < L.indices 0 then .error .indexError else .ok (value, 0, pS)
  | pL + 1, pS, value =>
    if i < L.indices (pL + 1) then
      match mergeStep L sIndices sData (pL + 1) pS value with
      | .error e => .error e
      | .ok r => mergeLoop L sIndices sData i pL r.2 r.1
    else .ok (value, pL + 1, pS)

/-- `while S_indices[S_data_J_index] > i: S_data_J_index -= 1` (qinv.pyx 117-119). -/
def findRow (sIndices : Nat → Nat) (i : Nat) : Nat → Except PyErr Nat
  | 0 => if i < sIndices 0 then .error .indexError else .ok 0
  | p + 1 => if i < sIndices (p + 1) then findRow sIndices i p else .ok (p + 1)

/-- One entry of column `i` of the result at position `pI` (qinv.pyx 79-121). -/
noncomputable def cell (L : Csc) (sIndices sIndptr : Nat → Nat) (i pI : Nat) (sData : Nat → ℝ) :
    Except PyErr (Nat → ℝ) :=
  let j := sIndices pI
  if j < i then .ok sData
  else
    match mergeLoop L sIndices sData i (L.indptr (i + 1) - 1) (sIndptr (j + 1) - 1) 0.0 with
    | .error e => .error e
    | .ok (value, pL, pS) =>
      let value := if i = j then (value + 1.0 / L.data pL) / L.data pL else value / L.data pL
      let sData := Function.update sData pI value
      match findRow sIndices i pS with
      | .error e => .error e
      | .ok pS => .ok (Function.update sData pS value)

/-- The loop over the entries of column `i`, last one first (qinv.pyx 77). -/
noncomputable def column (L : Csc) (sIndices sIndptr : Nat → Nat) (i : Nat) :
    Nat → (Nat → ℝ) → Except PyErr (Nat → ℝ)
  | 0, sData => .ok sData
  | c + 1, sData =>
    match cell L sIndices sIndptr i (sIndptr i + c) sData with
    | .error e => .error e
    | .ok sData => column L sIndices sIndptr i c sData

/-- The loop over columns, last one first (qinv.pyx 74). -/
noncomputable def columns (L : Csc) (sIndices sIndptr : Nat → Nat) :
    Nat → (Nat → ℝ) → Except PyErr (Nat → ℝ)
  | 0, sData => .ok sData
  | i + 1, sData =>
    match column L sIndices sIndptr i (sIndptr (i + 1) - sIndptr i) sData with
    | .error e => .error e
    | .ok sData => columns L sIndices sIndptr i sData

/-- The matrix which the arrays stand for (`scipy.sparse.csc_matrix`, qinv.pyx 123): entries which occur at several
positions are added. -/
noncomputable def Csc.toMatrix (c : Csc) (n : Nat) : Mat n :=
  Matrix.of fun i j => ∑ p ∈ Finset.Ico (c.indptr j) (c.indptr (j + 1)), if c.indices p = i then c.data p else 0

/-- Entries of column `j` at the positions of a compressed matrix: rows in increasing order, exactly those of
`pattern`.  This is what `tocsc` and `sort_indices` are trusted to deliver (qinv.pyx 41-44, 57-58). -/
structure Layout (n : Nat) (indices indptr : Nat → Nat) (pattern : Fin n → Fin n → Prop) : Prop where
  sorted : ∀ j : Fin n, ∀ p q, indptr j ≤ p → p < q → q < indptr (j + 1) → indices p < indices q
  row : ∀ j : Fin n, ∀ p, indptr j ≤ p → p < indptr (j + 1) → ∃ i : Fin n, indices p = i ∧ pattern i j
  position : ∀ i j : Fin n, pattern i j → ∃ p, indptr j ≤ p ∧ p < indptr (j + 1) ∧ indices p = i
  start : indptr 0 = 0
  mono : ∀ j : Fin n, indptr j ≤ indptr (j + 1)

/-- `sksparse.cholmod.cholesky(Q)` and what is taken from it (qinv.pyx 36-46): lower triangular `L` and permutation `p`
with `L Lᵀ = P Q Pᵀ`, in sorted compressed columns.  `stored` says which entries the library keeps, among them entries
which happen to be zero. -/
structure Cholmod {n : Nat} (Q : Mat n) where
  L : Mat n
  p : Equiv.Perm (Fin n)
  lower : ∀ i j, i < j → L i j = 0
  diagonal : ∀ i, 0 < L i i
  factor : L * Lᵀ = Q.submatrix p p
  csc : Csc
  stored : Fin n → Fin n → Prop
  layout : Layout n csc.indices csc.indptr stored
  value : ∀ j : Fin n, ∀ q, csc.indptr j ≤ q → q < csc.indptr (j + 1) →
    ∀ i : Fin n, csc.indices q = i → csc.data q = L i j
  keeps : ∀ i j, L i j ≠ 0 → stored i j
  triangle : ∀ i j, stored i j → j ≤ i

/-- The pattern of `Sigma_tilde = Lp + Lp.T` (qinv.pyx 56): scipy keeps the entries of a sum which are not zero. -/
def sumPattern {n : Nat} (L : Mat n) (i j : Fin n) : Prop := L i j + L j i ≠ 0

/-- Arrays of the pattern of `Sigma_tilde` (qinv.pyx 56-62). -/
structure Sigma {n : Nat} (L : Mat n) where
  indices : Nat → Nat
  indptr : Nat → Nat
  layout : Layout n indices indptr (sumPattern L)

/-- The permutation matrix `P` (qinv.pyx 47): a one in row `r` and column `p[r]`. -/
def permutation {n : Nat} (p : Equiv.Perm (Fin n)) : Mat n := Matrix.of fun r c => if c = p r then 1 else 0

/-- `Q_inv` (qinv.pyx 11-125): `P.T * Sigma_tilde * P`. -/
noncomputable def qInv {n : Nat} {Q : Mat n} (f : Cholmod Q) (s : Sigma f.L) : Except PyErr (Mat n) :=
  match columns f.csc s.indices s.indptr n (fun _ => 0) with
  | .error e => .error e
  | .ok data => .ok ((permutation f.p)ᵀ * Csc.toMatrix ⟨data, s.indices, s.indptr⟩ n * permutation f.p)

/-- `trace_iQ_dQdp` (sparse.py 6-36) with a given partial inverse: `numpy.sum( (iQp * dQdp).diagonal() )`. -/
noncomputable def traceIQdQ {n : Nat} (iQp dQ : Mat n) : ℝ := ∑ i, (iQp * dQ) i i

end Verif.Eustace.Qinv
