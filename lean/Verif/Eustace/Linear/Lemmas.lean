import Verif.Eustace.Linear.Spec
import Mathlib.Analysis.Matrix.PosDef
import Mathlib.Tactic.Linarith
import Mathlib.Tactic.Ring
import Mathlib.Tactic.FieldSimp

/-! Algebra of quadratic forms. -/

namespace Verif.Eustace.Linear

open Matrix

variable {n : Nat}

theorem sym_of_herm {M : Mat n} (h : M.IsHermitian) : Mᵀ = M := by
  have := h.eq
  rwa [conjTranspose_eq_transpose_of_trivial] at this

theorem dot_symm {M : Mat n} (h : Mᵀ = M) (x y : Vec n) : x ⬝ᵥ (M *ᵥ y) = y ⬝ᵥ (M *ᵥ x) := by
  rw [dotProduct_mulVec, ← mulVec_transpose, h, dotProduct_comm]

theorem quad_nonneg {M : Mat n} (h : M.PosSemidef) (x : Vec n) : 0 ≤ quad M x := by
  have := h.dotProduct_mulVec_nonneg x
  simpa [quad] using this

theorem quad_pos {M : Mat n} (h : M.PosDef) {x : Vec n} (hx : x ≠ 0) : 0 < quad M x := by
  have := h.dotProduct_mulVec_pos hx
  simpa [quad] using this

theorem quad_add {M : Mat n} (h : Mᵀ = M) (x y : Vec n) :
    quad M (x + y) = quad M x + 2 * (y ⬝ᵥ (M *ᵥ x)) + quad M y := by
  simp only [quad, mulVec_add, add_dotProduct, dotProduct_add]
  rw [dot_symm h x y]
  ring

theorem quad_sub {M : Mat n} (h : Mᵀ = M) (x y : Vec n) :
    quad M (x - y) = quad M x - 2 * (y ⬝ᵥ (M *ᵥ x)) + quad M y := by
  simp only [quad, mulVec_sub, sub_dotProduct, dotProduct_sub]
  rw [dot_symm h x y]
  ring

theorem quad_add_matrix (M N : Mat n) (x : Vec n) : quad (M + N) x = quad M x + quad N x := by
  simp [quad, add_mulVec]

theorem fromUpper_symm {a : Mat n} (h : aᵀ = a) : fromUpper a = a := by
  ext i j
  simp only [fromUpper, Matrix.of_apply]
  split
  · rfl
  · exact congrFun (congrFun h i) j

/-- The misfit of one batch expanded around zero. -/
theorem misfit_expand (b : Batch n) (hR : b.Rᵀ = b.R) (x : Vec n) :
    b.misfit x = quad b.update.precision x - 2 * (x ⬝ᵥ b.update.vector) + quad b.R b.y := by
  rw [Batch.misfit, quad_sub hR]
  simp only [Batch.update, createFromSystem, quad]
  have h1 : (b.J *ᵥ x) ⬝ᵥ (b.R *ᵥ b.y) = x ⬝ᵥ ((b.Jᵀ * b.R) *ᵥ b.y) := by
    rw [← mulVec_mulVec, dotProduct_mulVec x, vecMul_transpose]
  have h2 : (b.J *ᵥ x) ⬝ᵥ (b.R *ᵥ (b.J *ᵥ x)) = x ⬝ᵥ ((b.Jᵀ * b.R * b.J) *ᵥ x) := by
    rw [← mulVec_mulVec, ← mulVec_mulVec, dotProduct_mulVec x, vecMul_transpose]
  rw [h1, h2]
  ring

theorem append_blank (u : Update n) : (createBlank n).append u = u := by
  simp [createBlank, Update.append]

theorem append_assoc (u v w : Update n) : (u.append v).append w = u.append (v.append w) := by
  simp [Update.append, add_assoc]

theorem append_comm (u v : Update n) : u.append v = v.append u := by
  simp [Update.append, add_comm]

/-- What has been accumulated after a list of updates. -/
theorem foldl_append (us : List (Update n)) (s : System n) :
    us.foldl System.append s =
      ⟨s.prior, us.foldl Update.append s.measurement⟩ := by
  induction us generalizing s with
  | nil => rfl
  | cons u us ih => simp [ih, System.append]

theorem foldl_sums (us : List (Update n)) (u : Update n) :
    us.foldl Update.append u =
      ⟨u.precision + (us.map Update.precision).sum, u.vector + (us.map Update.vector).sum⟩ := by
  induction us generalizing u with
  | nil => simp
  | cons v us ih => simp [ih, Update.append, add_assoc]

theorem systemOf_eq (Q : Mat n) (bs : List (Batch n)) :
    systemOf Q bs = ⟨Q, ((bs.map fun b : Batch n => b.update.precision).sum),
      ((bs.map fun b : Batch n => b.update.vector).sum)⟩ := by
  have h : systemOf Q bs = (bs.map Batch.update).foldl System.append (System.new Q) := by
    simp [systemOf, List.foldl_map]
  rw [h, foldl_append, foldl_sums]
  simp [System.new, createBlank, Function.comp_def]

theorem update_psd (b : Batch n) (h : b.R.PosSemidef) : b.update.precision.PosSemidef := by
  have := h.conjTranspose_mul_mul_same b.J
  simpa [Batch.update, createFromSystem, conjTranspose_eq_transpose_of_trivial] using this

theorem information_psd (bs : List (Batch n)) (h : ∀ b ∈ bs, b.R.PosSemidef) :
    ((bs.map fun b : Batch n => b.update.precision).sum).PosSemidef := by
  induction bs with
  | nil => simpa using (Matrix.PosSemidef.zero (n := Fin n) (R := ℝ))
  | cons b bs ih =>
    simp only [List.map_cons, List.sum_cons]
    exact (update_psd b (h b (by simp))).add (ih fun c hc => h c (by simp [hc]))

theorem posterior_posDef (Q : Mat n) (bs : List (Batch n)) (hQ : Q.PosDef)
    (h : ∀ b ∈ bs, b.R.PosSemidef) : (systemOf Q bs).posteriorPrecision.PosDef := by
  rw [systemOf_eq]
  exact hQ.add_posSemidef (information_psd bs h)

theorem cost_expand (Q : Mat n) (bs : List (Batch n)) (h : ∀ b ∈ bs, b.Rᵀ = b.R) (x : Vec n) :
    cost Q bs x = quad (systemOf Q bs).posteriorPrecision x
      - 2 * (x ⬝ᵥ (systemOf Q bs).measurement.vector)
      + (bs.map fun b => quad b.R b.y).sum := by
  rw [systemOf_eq]
  simp only [cost, System.posteriorPrecision, quad_add_matrix]
  have : (bs.map fun b => b.misfit x).sum =
      quad (bs.map fun b : Batch n => b.update.precision).sum x
      - 2 * (x ⬝ᵥ (bs.map fun b : Batch n => b.update.vector).sum) + (bs.map fun b => quad b.R b.y).sum := by
    induction bs with
    | nil => simp [quad]
    | cons b bs ih =>
      simp only [List.map_cons, List.sum_cons, quad_add_matrix, dotProduct_add]
      rw [ih fun c hc => h c (by simp [hc]), misfit_expand b (h b (by simp))]
      ring
  rw [this]; ring

/-- A positive definite system is solved exactly. -/
theorem solveA_spec {A : Mat n} (hA : A.PosDef) (b : Vec n) : A *ᵥ solveA A b = b := by
  have hs := sym_of_herm hA.1
  rw [solveA, fromUpper_symm hs, mulVec_mulVec, mul_nonsing_inv _ ((isUnit_iff_isUnit_det _).1 hA.isUnit),
    one_mulVec]

/-- Completing the square. -/
theorem square_complete {A : Mat n} (hA : A.PosDef) (b x : Vec n) :
    quad A x - 2 * (x ⬝ᵥ b) =
      quad A (solveA A b) - 2 * (solveA A b ⬝ᵥ b) + quad A (x - solveA A b) := by
  have h := solveA_spec hA b
  set z := solveA A b
  have hs := sym_of_herm hA.1
  have e : quad A x = quad A (z + (x - z)) := by congr 1; abel
  rw [e, quad_add hs, h]
  simp only [sub_dotProduct]
  ring

end Verif.Eustace.Linear
