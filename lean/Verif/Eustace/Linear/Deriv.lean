import Verif.Eustace.Linear.Model
import Mathlib.Analysis.Calculus.Deriv.Mul
import Mathlib.Analysis.Calculus.Deriv.Add

/-!
Derivatives of matrices, entry by entry.
-/

namespace Verif.Eustace.Linear

open Matrix

/-- Derivative of a matrix, entry by entry. -/
def HasMatrixDeriv {m n : Nat} (A : ℝ → Matrix (Fin m) (Fin n) ℝ) (A' : Matrix (Fin m) (Fin n) ℝ) (t : ℝ) : Prop :=
  ∀ i j, HasDerivAt (fun s => A s i j) (A' i j) t

namespace HasMatrixDeriv

variable {l m n : Nat} {t : ℝ}

theorem const (A : Matrix (Fin m) (Fin n) ℝ) (t : ℝ) : HasMatrixDeriv (fun _ => A) 0 t :=
  fun _ _ => hasDerivAt_const _ _

theorem add {A B : ℝ → Matrix (Fin m) (Fin n) ℝ} {A' B' : Matrix (Fin m) (Fin n) ℝ} (hA : HasMatrixDeriv A A' t)
    (hB : HasMatrixDeriv B B' t) : HasMatrixDeriv (fun s => A s + B s) (A' + B') t :=
  fun i j => (hA i j).fun_add (hB i j)

theorem mul {A : ℝ → Matrix (Fin l) (Fin m) ℝ} {B : ℝ → Matrix (Fin m) (Fin n) ℝ} {A' : Matrix (Fin l) (Fin m) ℝ}
    {B' : Matrix (Fin m) (Fin n) ℝ} (hA : HasMatrixDeriv A A' t) (hB : HasMatrixDeriv B B' t) :
    HasMatrixDeriv (fun s => A s * B s) (A' * B t + A t * B') t := by
  intro i j
  simp only [mul_apply, Matrix.add_apply, ← Finset.sum_add_distrib]
  exact HasDerivAt.fun_sum fun k _ => (hA i k).fun_mul (hB k j)

theorem mul_const {A : ℝ → Matrix (Fin l) (Fin m) ℝ} {A' : Matrix (Fin l) (Fin m) ℝ} (hA : HasMatrixDeriv A A' t)
    (B : Matrix (Fin m) (Fin n) ℝ) : HasMatrixDeriv (fun s => A s * B) (A' * B) t := by
  have := hA.mul (const B t)
  rwa [Matrix.mul_zero, add_zero] at this

theorem const_mul (A : Matrix (Fin l) (Fin m) ℝ) {B : ℝ → Matrix (Fin m) (Fin n) ℝ} {B' : Matrix (Fin m) (Fin n) ℝ}
    (hB : HasMatrixDeriv B B' t) : HasMatrixDeriv (fun s => A * B s) (A * B') t := by
  have := (const A t).mul hB
  rwa [Matrix.zero_mul, zero_add] at this

theorem smul (c : ℝ) {A : ℝ → Matrix (Fin m) (Fin n) ℝ} {A' : Matrix (Fin m) (Fin n) ℝ} (hA : HasMatrixDeriv A A' t) :
    HasMatrixDeriv (fun s => c • A s) (c • A') t :=
  fun i j => (hA i j).const_mul c

theorem diagonal {d : ℝ → Vec n} {d' : Vec n} (h : ∀ i, HasDerivAt (fun s => d s i) (d' i) t) :
    HasMatrixDeriv (fun s => Matrix.diagonal (d s)) (Matrix.diagonal d') t := by
  intro i j
  by_cases hij : i = j
  · subst hij; simpa only [Matrix.diagonal_apply_eq] using h i
  · simp only [Matrix.diagonal_apply_ne _ hij]; exact hasDerivAt_const _ _

theorem congr_deriv {A : ℝ → Matrix (Fin m) (Fin n) ℝ} {A' B' : Matrix (Fin m) (Fin n) ℝ} (hA : HasMatrixDeriv A A' t)
    (h : A' = B') : HasMatrixDeriv A B' t := h ▸ hA

theorem transpose {A : ℝ → Matrix (Fin m) (Fin n) ℝ} {A' : Matrix (Fin m) (Fin n) ℝ} (hA : HasMatrixDeriv A A' t) :
    HasMatrixDeriv (fun s => (A s)ᵀ) A'ᵀ t := fun i j => hA j i

end HasMatrixDeriv

end Verif.Eustace.Linear
