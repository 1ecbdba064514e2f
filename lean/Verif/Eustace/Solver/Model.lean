import Mathlib.Data.List.Sort
import Verif.Py
import Verif.Eustace.Linear.Model

/-!
C172: the wrappers of native solvers: `linalg/pardisowrapper.py` and `linalg/extendedcholmodwrapper.py`
(`/repo/src/eustace/analysis/advanced_standard`).

In `Linear` the solver is a matrix operation.  Here is what lies between: the sparse matrix with its arrays of indices, the memory of the
right-hand sides, and the order of unknowns which the library chooses.

Simplified: numbers are real; memory is counted in elements, relative to the first element of an array; arrays have one or two
dimensions.  The native library itself is given from outside: `Native` says what it does with the memory it gets.
-/

namespace Verif.Eustace.Solver

open Matrix Verif.Eustace.Linear

/-- A sparse matrix of the class `csr_matrix` of scipy, by rows: for each row its stored entries (column, value), in the order in which
they are stored; columns may come twice. -/
structure Csr where
  rows : List (List (ℕ × ℝ))
  width : ℕ

/-- The entry of a matrix: the sum of what is stored for it. -/
def entry (row : List (ℕ × ℝ)) (j : ℕ) : ℝ := ((row.filter fun e => e.1 = j).map Prod.snd).sum

/-- The matrix which is meant. -/
def Csr.dense (A : Csr) (n : ℕ) : Mat n := Matrix.of fun i j => entry (A.rows.getD i []) j

/-- Row `i` of `scipy.sparse.triu(A, format='csr')` (pardisowrapper.py 161): entries on and above the diagonal; the conversion by way
of `coo_matrix` adds up entries which are stored twice and sorts by column. -/
def triuRow (i : ℕ) (row : List (ℕ × ℝ)) : List (ℕ × ℝ) :=
  let kept := row.filter fun e => i ≤ e.1
  ((kept.map Prod.fst).dedup.insertionSort (· ≤ ·)).map fun j => (j, entry kept j)

/-- `scipy.sparse.triu(A, format='csr')` (pardisowrapper.py 161). -/
def triu (A : Csr) : Csr := ⟨A.rows.zipIdx.map fun r => triuRow r.2 r.1, A.width⟩

/-- `A.indptr`. -/
def indptr (A : Csr) : List ℕ := (A.rows.map List.length).scanl (· + ·) 0

/-- `A.indices`. -/
def indices (A : Csr) : List ℕ := A.rows.flatten.map Prod.fst

/-- `A.data`. -/
def values (A : Csr) : List ℝ := A.rows.flatten.map Prod.snd

/-- The lower and upper half of an integer of 64 bits, each as an integer of 32 bits with a sign. -/
def halves (v : ℕ) : List ℤ :=
  let signed : ℕ → ℤ := fun w => if w < 2 ^ 31 then w else (w : ℤ) - 2 ^ 32
  [signed (v % 2 ^ 32), signed (v / 2 ^ 32 % 2 ^ 32)]

/-- `ia.ctypes.data_as(c_int32_p)` (pardisowrapper.py 361-362, 394-395): what the library finds in memory.  scipy takes integers of
64 bits for the indices if there are more than 2³¹ - 1 entries or columns; memory has the lower half first. -/
def asInt32 (A : Csr) (index : List ℕ) : List ℤ :=
  if A.rows.flatten.length ≤ 2 ^ 31 - 1 ∧ A.width ≤ 2 ^ 31 - 1 then index.map fun (v : ℕ) => (v : ℤ) else index.flatMap halves

/-- The entry of the upper triangle which the library reads from the three arrays, with indices from zero (IPARM_ZEROBASED,
line 368). -/
def nativeUpper (ia ja : List ℤ) (a : List ℝ) (i : ℕ) (j : ℕ) : ℝ :=
  (((List.range a.length).filter fun (p : ℕ) =>
    ia.getD i 0 ≤ (p : ℤ) ∧ (p : ℤ) < ia.getD (i + 1) 0 ∧ ja.getD p 0 = (j : ℤ)).map fun p => a.getD p 0).sum

/-- The symmetric matrix of type 2 (lines 82-83) which the library reads. -/
def nativeMatrix (U : Csr) (n : ℕ) : Mat n :=
  fromUpper (Matrix.of fun i j => nativeUpper (asInt32 U (indptr U)) (asInt32 U (indices U)) (values U) i j)

/-- `PardisoWrapper.__init__` (pardisowrapper.py 138-210): checks and the stored triangle.  The message for empty rows uses a name which is
not defined (line 152). -/
def construct (A : Csr) (isCsr isFloat64 : Bool) : Except PyErr Csr :=
  if A.rows.length ≠ A.width then .error .valueError
  else if !isCsr then .error .valueError
  else if A.rows.any List.isEmpty then .error .nameError
  else if !isFloat64 then .error .typeError
  else .ok (triu A)

/-- An array of numpy: memory from its first element on, numbers of elements and strides. -/
inductive NdArray where
  | one (n : ℕ) (memory : ℤ → ℝ) (stride : ℤ)
  | two (n k : ℕ) (memory : ℤ → ℝ) (stride0 stride1 : ℤ)

/-- `b.shape[0]`. -/
def NdArray.rows : NdArray → ℕ
  | .one n _ _ => n
  | .two n _ _ _ _ => n

/-- The number of right-hand sides (pardisowrapper.py 397). -/
def NdArray.columns : NdArray → ℕ
  | .one _ _ _ => 1
  | .two _ k _ _ _ => k

/-- The element `b[i]` or `b[i, j]`. -/
def NdArray.at (i j : ℕ) : NdArray → ℝ
  | .one _ memory s => memory (i * s)
  | .two _ _ memory s0 s1 => memory (i * s0 + j * s1)

/-- `b.ndim`. -/
def NdArray.ndim : NdArray → ℕ
  | .one _ _ _ => 1
  | .two _ _ _ _ _ => 2

/-- Right-hand sides: an array of numpy with numbers of 64 bits or not, or a sparse matrix. -/
inductive Rhs where
  | dense (b : NdArray) (isFloat64 : Bool)
  | sparse (n k : ℕ) (value : ℕ → ℕ → ℝ) (isFloat64 : Bool)

/-- `b.shape[0]`. -/
def Rhs.rows : Rhs → ℕ
  | .dense b _ => b.rows
  | .sparse n _ _ _ => n

/-- `b.todense()` (pardisowrapper.py 230-234): rows one after the other. -/
def Rhs.todense : Rhs → NdArray × Bool
  | .dense b f => (b, f)
  | .sparse n k value f => (.two n k (fun a => value (a.toNat / k) (a.toNat % k)) k 1, f)

/-- `numpy.asfortranarray(b)` if `b.ndim == 2` (pardisowrapper.py 236-238): a copy with columns one after the other, unless the array is
already so (strides of dimensions with one element are of no importance). -/
def asFortran : NdArray → NdArray
  | .one n memory s => .one n memory s
  | .two n k memory s0 s1 =>
    if (n ≤ 1 ∨ s0 = 1) ∧ (k ≤ 1 ∨ s1 = n) then .two n k memory s0 s1
    else .two n k (fun a => memory ((a.toNat % n : ℕ) * s0 + (a.toNat / n : ℕ) * s1)) 1 n

/-- What the library does with one right-hand side in a phase. -/
abbrev Native (n : ℕ) := Vec n → Vec n

/-- `_call_pardiso` (pardisowrapper.py 352-407) if there is no error: `x` has the shape of `b`; from the addresses of `b` and `x` on the
library takes columns of `n` numbers each.  The result is given by rows (line 407). -/
def callPardiso {n : ℕ} (native : Native n) (b : NdArray) : NdArray :=
  let column (memory : ℤ → ℝ) (j : ℕ) : Vec n := fun i => memory (i + j * n)
  let solved (memory : ℤ → ℝ) (i j : ℕ) : ℝ := if h : i < n then native (column memory j) ⟨i, h⟩ else 0
  match b with
  | .one m memory _ => .one m (fun a => solved memory a.toNat 0) 1
  | .two m k memory _ _ => .two m k (fun a => solved memory (a.toNat / k) (a.toNat % k)) k 1

/-- `solve_A` (pardisowrapper.py 212-247), `solve_backward_substitution` (lines 295-321) and `solve_forward_substitution` (lines 323-349),
which differ by the phase only; `return_like` (wrapper.py 21-31) leaves the result as it is, as it has the dimensions of `b`. -/
def solve {n : ℕ} (native : Native n) (b : Rhs) : Except PyErr NdArray :=
  if b.rows ≠ n then .error .valueError
  else
    let d := b.todense
    if !d.2 then .error .typeError else .ok (callPardiso native (asFortran d.1))

/-- A factorisation with an order of unknowns: row `i` of the factor is unknown `order i`. -/
structure Ordered {n : ℕ} (M : Mat n) where
  order : Equiv.Perm (Fin n)
  L : Mat n
  lower : ∀ i j, i < j → L i j = 0
  factor : L * Lᵀ = M.submatrix order order

/-- The phases of the library (pardisowrapper.py 88-95): solution; forward substitution, which takes the right-hand side in the order of the
unknowns and leaves the result in that of the factor; backward substitution, the reverse. -/
noncomputable def Ordered.solution {n : ℕ} {M : Mat n} (_ : Ordered M) : Native n := fun b => M⁻¹ *ᵥ b

@[inherit_doc Ordered.solution]
noncomputable def Ordered.forward {n : ℕ} {M : Mat n} (f : Ordered M) : Native n := fun b => f.L⁻¹ *ᵥ (b ∘ f.order)

@[inherit_doc Ordered.solution]
noncomputable def Ordered.backward {n : ℕ} {M : Mat n} (f : Ordered M) : Native n :=
  fun b => ((f.L)ᵀ⁻¹ *ᵥ b) ∘ f.order.symm

/-- `ExtendedCholmodWrapper.apply_P` (extendedcholmodwrapper.py 73-76). -/
def Ordered.applyP {n : ℕ} {M : Mat n} (f : Ordered M) (b : Vec n) : Vec n := b ∘ f.order

/-- `ExtendedCholmodWrapper.apply_Pt` (extendedcholmodwrapper.py 78-81). -/
def Ordered.applyPt {n : ℕ} {M : Mat n} (f : Ordered M) (b : Vec n) : Vec n := b ∘ f.order.symm

/-- `ExtendedCholmodWrapper.LLt_solve_Lt` (extendedcholmodwrapper.py 68-71). -/
noncomputable def Ordered.solveLt {n : ℕ} {M : Mat n} (f : Ordered M) (b : Vec n) : Vec n := (f.L)ᵀ⁻¹ *ᵥ b

/-- `ExtendedCholmodWrapper.solve_backward_substitution` (extendedcholmodwrapper.py 39-44). -/
noncomputable def Ordered.cholmodBackward {n : ℕ} {M : Mat n} (f : Ordered M) (b : Vec n) : Vec n :=
  f.applyPt (f.solveLt (f.applyP b))

end Verif.Eustace.Solver
