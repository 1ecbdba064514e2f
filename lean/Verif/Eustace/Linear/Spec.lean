import Verif.Eustace.Linear.Model
import Mathlib.LinearAlgebra.Matrix.PosDef

/-!
Specification for the linear system: the misfit which the solution should minimise, independent of the
way the code forms its updates.
-/

namespace Verif.Eustace.Linear

open Matrix

/-- The quadratic form of a matrix. -/
def quad {n : Nat} (M : Mat n) (x : Vec n) : ℝ := x ⬝ᵥ (M *ᵥ x)

/-- One batch of observations: `y = J x + error`, with error precision `R`. -/
structure Batch (n : Nat) where
  m : Nat
  J : Matrix (Fin m) (Fin n) ℝ
  R : Mat m
  y : Vec m

/-- Misfit between the batch and a state. -/
def Batch.misfit {n : Nat} (b : Batch n) (x : Vec n) : ℝ := quad b.R (b.y - b.J *ᵥ x)

/-- Twice the negative logarithm of the posterior density, up to a constant. -/
def cost {n : Nat} (Q : Mat n) (bs : List (Batch n)) (x : Vec n) : ℝ :=
  quad Q x + (bs.map fun b => b.misfit x).sum

/-- The update which the code makes from a batch. -/
def Batch.update {n : Nat} (b : Batch n) : Update n := createFromSystem b.J b.R b.y

/-- The linear system after all batches, one after another. -/
def systemOf {n : Nat} (Q : Mat n) (bs : List (Batch n)) : System n :=
  bs.foldl (fun s b => s.append b.update) (System.new Q)

/-- Rows one above the other. -/
def stackRows {a b n : Nat} (A : Matrix (Fin a) (Fin n) ℝ) (B : Matrix (Fin b) (Fin n) ℝ) :
    Matrix (Fin (a + b)) (Fin n) ℝ :=
  Matrix.of fun i j => Fin.addCases (fun i => A i j) (fun i => B i j) i

/-- Two blocks on the diagonal. -/
def blockDiag {a b : Nat} (A : Mat a) (B : Mat b) : Mat (a + b) :=
  Matrix.of fun i j =>
    Fin.addCases (fun i => Fin.addCases (fun j => A i j) (fun _ => 0) j)
      (fun i => Fin.addCases (fun _ => 0) (fun j => B i j) j) i

/-- One vector after the other. -/
def stackVec {a b : Nat} (x : Vec a) (y : Vec b) : Vec (a + b) := fun i => Fin.addCases x y i

/-- Two batches written as one: rows one above the other, no correlation between the two. -/
def Batch.stack {n : Nat} (a b : Batch n) : Batch n where
  m := a.m + b.m
  J := stackRows a.J b.J
  R := blockDiag a.R b.R
  y := stackVec a.y b.y

/-- Covariance of a linear output `a · x` when the state has covariance `S`. -/
def outputVariance {n : Nat} (S : Mat n) (a : Vec n) : ℝ := a ⬝ᵥ (S *ᵥ a)

end Verif.Eustace.Linear
