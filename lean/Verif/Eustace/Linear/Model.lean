import Mathlib.Data.Matrix.Mul
import Mathlib.Analysis.Real.Sqrt
import Mathlib.LinearAlgebra.Matrix.NonsingularInverse

/-!
Model of the linear system and its solution:
`/repo/src/eustace/analysis/advanced_standard/linalg/linearsystem.py` and the way it uses
`linalg/pardisowrapper.py`.

Simplified throughout: float64 is replaced by the reals, sparse storage formats (and the checks that
the format is CSR and that no row is empty) are left out, column vectors of shape `(n, 1)` are
functions on `Fin n`.
-/

namespace Verif.Eustace.Linear

open Matrix

/-- A square matrix over the state parameters. -/
abbrev Mat (n : Nat) := Matrix (Fin n) (Fin n) ℝ

/-- A state vector. -/
abbrev Vec (n : Nat) := Fin n → ℝ

/-- `MeasurementUpdate` (linearsystem.py 8-40). -/
structure Update (n : Nat) where
  precision : Mat n
  vector : Vec n

/-- `MeasurementUpdate.create_blank` (linearsystem.py 10-16). -/
def createBlank (n : Nat) : Update n := ⟨0, 0⟩

/-- `MeasurementUpdate.create_from_system_observations` (linearsystem.py 18-28). -/
def createFromSystem {m n : Nat} (jacobian : Matrix (Fin m) (Fin n) ℝ) (precision : Mat m)
    (relative : Vec m) : Update n :=
  let designObsPrecision := jacobianᵀ * precision
  ⟨designObsPrecision * jacobian, designObsPrecision *ᵥ relative⟩

/-- `append_measurement_update` (linearsystem.py 36-40). -/
def Update.append {n : Nat} (self new : Update n) : Update n :=
  ⟨self.precision + new.precision, self.vector + new.vector⟩

/-- `LinearSystem` (linearsystem.py 42-55): prior precision and measurement. -/
structure System (n : Nat) where
  prior : Mat n
  measurement : Update n

/-- `LinearSystem.__init__` (linearsystem.py 45-51). -/
def System.new {n : Nat} (prior : Mat n) : System n := ⟨prior, createBlank n⟩

/-- `LinearSystem.append_measurement_update` (linearsystem.py 53-55). -/
def System.append {n : Nat} (s : System n) (new : Update n) : System n :=
  { s with measurement := s.measurement.append new }

/-- `posterior_precision` (linearsystem.py 95). -/
def System.posteriorPrecision {n : Nat} (s : System n) : Mat n :=
  s.prior + s.measurement.precision

/-- The matrix which the solver library works with: only the upper triangle is handed over
(pardisowrapper.py 161) and it stands for a symmetric matrix (matrix type 2, line 83). -/
def fromUpper {n : Nat} (a : Mat n) : Mat n :=
  Matrix.of fun i j => if i ≤ j then a i j else a j i

/-- `cholesky` (pardisowrapper.py 133-210): the factorisation `A = L Lᵀ` made by the PARDISO
library, which is trusted.  The row permutation used by the library is part of `L`, so `L` is not
required to be triangular. -/
structure Factor {n : Nat} (a : Mat n) where
  L : Mat n
  factor : L * Lᵀ = fromUpper a

/-- `solve_A` (pardisowrapper.py 212-247). -/
noncomputable def solveA {n : Nat} (a : Mat n) (b : Vec n) : Vec n := (fromUpper a)⁻¹ *ᵥ b

/-- `solve_forward_substitution` (pardisowrapper.py 323-349): `L x = b`. -/
noncomputable def Factor.forward {n : Nat} {a : Mat n} (f : Factor a) (b : Vec n) : Vec n :=
  f.L⁻¹ *ᵥ b

/-- `solve_backward_substitution` (pardisowrapper.py 295-321): `Lᵀ x = b`. -/
noncomputable def Factor.backward {n : Nat} {a : Mat n} (f : Factor a) (b : Vec n) : Vec n :=
  (f.Lᵀ)⁻¹ *ᵥ b

/-- `LinearSystemSolution_Cholesky.maximum_a_posteriori` (linearsystem.py 101-104). -/
noncomputable def System.maximumAPosteriori {n : Nat} (s : System n) : Vec n :=
  solveA s.posteriorPrecision s.measurement.vector

/-- `white_noise_to_posterior_distribution` (linearsystem.py 117-120). -/
noncomputable def whiteNoiseToPosterior {n : Nat} {s : System n} (f : Factor s.posteriorPrecision)
    (variate : Vec n) : Vec n := f.backward variate

/-- Column `j` of the identity (pardisowrapper.py 259, 280). -/
def unit {n : Nat} (j : Fin n) : Vec n := fun i => if i = j then 1 else 0

/-- `numpy.multiply(x, x).sum(0)` for one column of the forward solve (pardisowrapper.py 264, 282-289). -/
noncomputable def Factor.columnSquares {n : Nat} {a : Mat n} (f : Factor a) (j : Fin n) : ℝ :=
  ∑ i, f.forward (unit j) i * f.forward (unit j) i

/-- The assignment to `inverse_diagonal[index_1:index_2]` (pardisowrapper.py 289). -/
noncomputable def Factor.block {n : Nat} {a : Mat n} (f : Factor a) (diag : Vec n)
    (index1 index2 : Nat) : Vec n :=
  fun j => if index1 ≤ j.val ∧ j.val < index2 then f.columnSquares j else diag j

/-- The loop `while counter < n` of `diag_inv_A` (pardisowrapper.py 273-291); `none` stands for a loop
which has not ended after `fuel` rounds. -/
noncomputable def Factor.diagLoop {n : Nat} {a : Mat n} (f : Factor a) (blocksize : Nat) :
    Nat → Nat → Vec n → Option (Vec n)
  | fuel, counter, diag =>
    if counter < n then
      match fuel with
      | 0 => none
      | fuel + 1 =>
        let index2 := if counter + blocksize < n then counter + blocksize else n
        f.diagLoop blocksize fuel (counter + blocksize) (f.block diag counter index2)
    else some diag

/-- `diag_inv_A` (pardisowrapper.py 249-293); `blocksize = none` is `max_blocksize=None`. -/
noncomputable def Factor.diagInv {n : Nat} {a : Mat n} (f : Factor a) (blocksize : Option Nat)
    (fuel : Nat) : Option (Vec n) :=
  match blocksize with
  | none => some fun j => f.columnSquares j
  | some b => f.diagLoop b fuel 0 0

/-- `marginal_std` (linearsystem.py 106-109) with the default block size 1000. -/
noncomputable def marginalStd {n : Nat} {s : System n} (f : Factor s.posteriorPrecision)
    (fuel : Nat) : Option (Vec n) :=
  (f.diagInv (some 1000) fuel).map fun d j => Real.sqrt (d j)

/-- `ElementLinearDesign.design_function` (element.py 136-142) for a design matrix `A`. -/
def designFunction {m n : Nat} (A : Matrix (Fin m) (Fin n) ℝ) (state : Vec n) (rectified : Bool) :
    Vec m :=
  if rectified then (A.map abs) *ᵥ state else A *ᵥ state

/-- `evaluate_climatology_fraction` for a unique spatial component (analysissystem.py 318-330): the
square of the area-averaged rectified posterior field (spatial.py 169-185, analysissystem.py 306-316)
over the square of the area-averaged prior field, which is not rectified (spatial.py 194-201).  `w`
holds the averaging weights of the `Regridder`, one row for each cell.  Simplified: division of zero by
zero gives zero here and nan in numpy. -/
noncomputable def climatologyFraction {c m n : Nat} (w : Matrix (Fin c) (Fin m) ℝ)
    (A : Matrix (Fin m) (Fin n) ℝ) (posteriorStd priorStd : Vec n) : Vec c := fun i =>
  ((w *ᵥ designFunction A posteriorStd true) i * (w *ᵥ designFunction A posteriorStd true) i) /
  ((w *ᵥ designFunction A priorStd false) i * (w *ᵥ designFunction A priorStd false) i)

end Verif.Eustace.Linear
