import Verif.Eustace.CostFunction.Spec
import Verif.Eustace.Linear.Lemmas
import Mathlib.Analysis.Matrix.Order
import Mathlib.Analysis.SpecialFunctions.Gaussian.GaussianIntegral
import Mathlib.MeasureTheory.Integral.Pi

/-!
The integral of a multivariate normal density.
-/

namespace Verif.Eustace.CostFunction

open Matrix Verif.Eustace.Linear MeasureTheory
open scoped MatrixOrder

variable {n : Nat}

theorem integral_white : ∫ z : Vec n, Real.exp (-(1 / 2) * (z ⬝ᵥ z)) = Real.sqrt (2 * Real.pi) ^ n := by
  have h : ∀ z : Vec n, Real.exp (-(1 / 2) * (z ⬝ᵥ z)) = ∏ i, Real.exp (-(1 / 2) * z i ^ 2) := by
    intro z
    rw [← Real.exp_sum, dotProduct, Finset.mul_sum]
    congr 1
    exact Finset.sum_congr rfl fun i _ => by ring
  simp_rw [h]
  rw [integral_fintype_prod_volume_eq_pow (ι := Fin n) (fun t : ℝ => Real.exp (-(1 / 2) * t ^ 2)), integral_gaussian, Fintype.card_fin]
  congr 2
  ring

theorem integral_quad {P : Mat n} (hP : P.PosDef) :
    ∫ x : Vec n, Real.exp (-(1 / 2) * quad P x) = Real.sqrt (2 * Real.pi) ^ n / Real.sqrt P.det := by
  obtain ⟨B, hB⟩ := CStarAlgebra.nonneg_iff_eq_star_mul_self.mp hP.posSemidef.nonneg
  rw [star_eq_conjTranspose, conjTranspose_eq_transpose_of_trivial] at hB
  have hdet : P.det = B.det * B.det := by rw [hB, det_mul, det_transpose]
  have hne : B.det ≠ 0 := by
    intro h
    have := hP.det_pos
    rw [hdet, h] at this
    simp at this
  have hsqrt : Real.sqrt P.det = |B.det| := by rw [hdet, Real.sqrt_mul_self_eq_abs]
  have hq : ∀ x, quad P x = (toLin' B x) ⬝ᵥ (toLin' B x) := by
    intro x
    rw [toLin'_apply, quad, hB, ← mulVec_mulVec, dotProduct_mulVec, vecMul_transpose]
  have hm : Measurable (toLin' B : Vec n → Vec n) := (LinearMap.continuous_on_pi _).measurable
  have hc : Continuous fun z : Vec n => Real.exp (-(1 / 2) * (z ⬝ᵥ z)) := by
    unfold dotProduct
    fun_prop
  simp_rw [hq]
  rw [← integral_map (φ := (toLin' B : Vec n → Vec n)) (f := fun z : Vec n => Real.exp (-(1 / 2) * (z ⬝ᵥ z)))
    hm.aemeasurable hc.aestronglyMeasurable, Real.map_matrix_volume_pi_eq_smul_volume_pi hne, integral_smul_measure,
    integral_white, ENNReal.toReal_ofReal (abs_nonneg _), hsqrt, abs_inv]
  simp [div_eq_inv_mul]

theorem integral_quad_centre {P : Mat n} (hP : P.PosDef) (m : Vec n) :
    ∫ x : Vec n, Real.exp (-(1 / 2) * quad P (x - m)) = Real.sqrt (2 * Real.pi) ^ n / Real.sqrt P.det := by
  rw [integral_sub_right_eq_self (fun x : Vec n => Real.exp (-(1 / 2) * quad P x)) m, integral_quad hP]

/-- The density of the specification is that of a probability distribution. -/
theorem normalDensity_integral {P : Mat n} (hP : P.PosDef) (m : Vec n) : ∫ x : Vec n, normalDensity P m x = 1 := by
  unfold normalDensity
  rw [integral_const_mul, integral_quad_centre hP, Real.sqrt_div' _ (by positivity), Real.sqrt_eq_rpow ((2 * Real.pi) ^ n),
    ← Real.rpow_natCast, ← Real.rpow_mul (by positivity), mul_comm (n : ℝ), Real.rpow_mul (by positivity),
    ← Real.sqrt_eq_rpow, Real.rpow_natCast]
  have h1 : Real.sqrt P.det ≠ 0 := (Real.sqrt_pos.2 hP.det_pos).ne'
  have h2 : Real.sqrt (2 * Real.pi) ^ n ≠ 0 := by positivity
  field_simp

end Verif.Eustace.CostFunction
