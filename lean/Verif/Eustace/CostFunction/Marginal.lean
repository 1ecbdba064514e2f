import Verif.Eustace.CostFunction.Gaussian

/-!
C85: the cost function is the negative logarithm of the marginal likelihood of the observations, up to a constant
which does not depend on the prior precision.
-/

namespace Verif.Eustace.CostFunction

open Matrix Verif.Eustace.Linear MeasureTheory
open scoped MatrixOrder

variable {n : Nat}

/-- The increments which are stored for the observations `bs`. -/
def Replicate.Holds (r : Replicate n) (bs : List (Batch n)) : Prop :=
  r.qIncrement = (bs.map fun b => b.Jᵀ * b.R * b.J).sum ∧ r.iIncrement = (bs.map fun b => b.Jᵀ *ᵥ (b.R *ᵥ b.y)).sum

theorem holds_posDef {r : Replicate n} {bs : List (Batch n)} (h : r.Holds bs) (hR : ∀ b ∈ bs, b.R.PosSemidef)
    {Q : Mat n} (hQ : Q.PosDef) : (Q + r.qIncrement).PosDef := by
  rw [h.1]
  exact hQ.add_posSemidef (information_psd bs hR)

theorem misfit_sum {r : Replicate n} {bs : List (Batch n)} (h : r.Holds bs) (hR : ∀ b ∈ bs, b.Rᵀ = b.R) (x : Vec n) :
    (bs.map fun b => b.misfit x).sum =
      quad r.qIncrement x - 2 * (x ⬝ᵥ r.iIncrement) + (bs.map fun b => quad b.R b.y).sum := by
  rw [h.1, h.2]
  clear h
  induction bs with
  | nil => simp [quad]
  | cons b bs ih =>
    rw [List.map_cons, List.sum_cons, ih fun c hc => hR c (List.mem_cons_of_mem _ hc),
      misfit_expand b (hR b List.mem_cons_self)]
    simp only [List.map_cons, List.sum_cons, quad_add_matrix, dotProduct_add, Batch.update, createFromSystem, mulVec_mulVec]
    ring

theorem posteriorMean_spec {Q : Mat n} {r : Replicate n} (hP : (Q + r.qIncrement).PosDef) :
    (Q + r.qIncrement) *ᵥ posteriorMean Q r = Q *ᵥ r.priorMean + r.iIncrement := by
  rw [posteriorMean, solve, mulVec_mulVec, mul_nonsing_inv _ ((isUnit_iff_isUnit_det _).1 hP.isUnit), one_mulVec]

/-- Misfit plus departure from the prior, as departure from the posterior mean plus a constant. -/
theorem complete_square {r : Replicate n} {bs : List (Batch n)} (h : r.Holds bs) (hR : ∀ b ∈ bs, b.R.PosSemidef)
    {Q : Mat n} (hQ : Q.PosDef) (x s : Vec n) :
    (bs.map fun b => b.misfit x).sum + quad Q (x - r.priorMean) =
      quad (Q + r.qIncrement) (x - posteriorMean Q r) +
        ((bs.map fun b => b.misfit s).sum + quad Q (s - r.priorMean) - quad (Q + r.qIncrement) (s - posteriorMean Q r)) := by
  have hP := holds_posDef h hR hQ
  have hs := posteriorMean_spec hP
  have hR' : ∀ b ∈ bs, b.Rᵀ = b.R := fun b hb => sym_of_herm (hR b hb).1
  have key : ∀ z : Vec n, (bs.map fun b => b.misfit z).sum + quad Q (z - r.priorMean) -
      quad (Q + r.qIncrement) (z - posteriorMean Q r) =
      (bs.map fun b => quad b.R b.y).sum + quad Q r.priorMean - quad (Q + r.qIncrement) (posteriorMean Q r) := by
    intro z
    rw [misfit_sum h hR', quad_sub (sym_of_herm hQ.1), quad_sub (sym_of_herm hP.1),
      dot_symm (sym_of_herm hP.1) (posteriorMean Q r) z, hs, quad_add_matrix Q _ z, dotProduct_add,
      dot_symm (sym_of_herm hQ.1) r.priorMean z]
    ring
  have h1 := key x
  have h2 := key s
  linarith

theorem likelihood_eq (bs : List (Batch n)) (x : Vec n) :
    likelihood bs x = (bs.map fun b : Batch n => Real.sqrt (b.R.det / (2 * Real.pi) ^ b.m)).prod *
      Real.exp (-(1 / 2) * (bs.map fun b => b.misfit x).sum) := by
  induction bs with
  | nil => simp [likelihood]
  | cons b bs ih =>
    have : likelihood (b :: bs) x = normalDensity b.R (b.J *ᵥ x) b.y * likelihood bs x := by simp [likelihood]
    rw [this, ih, List.map_cons, List.map_cons, List.prod_cons, List.sum_cons, mul_add, Real.exp_add, normalDensity,
      Batch.misfit]
    ring

theorem exp_cost {Q : Mat n} (hQ : Q.PosDef) {r : Replicate n} (hP : (Q + r.qIncrement).PosDef) :
    Real.exp (-costFunction Q r) = Real.sqrt Q.det / Real.sqrt (Q + r.qIncrement).det *
      Real.exp (-(1 / 2) * (quad Q (r.priorMean - r.setPoint) -
        quad (Q + r.qIncrement) (posteriorMean Q r - r.setPoint))) := by
  have e : ∀ {A : Mat n}, A.PosDef → Real.sqrt A.det = Real.exp (1 / 2 * Real.log A.det) := by
    intro A hA
    rw [Real.sqrt_eq_rpow, Real.rpow_def_of_pos hA.det_pos]
    ring_nf
  rw [e hQ, e hP, ← Real.exp_sub, ← Real.exp_add]
  congr 1
  have h0 : (0.0 : ℝ) = 0 := by norm_num
  simp only [costFunction, gaussianLoglikelihood, logdet, quad, h0]
  ring

/-- C85: the marginal likelihood of the observations is `exp (- cost)` times their likelihood at the set point,
a number which does not depend on the prior. -/
theorem c85_marginal {r : Replicate n} {bs : List (Batch n)} (h : r.Holds bs) (hR : ∀ b ∈ bs, b.R.PosSemidef)
    {Q : Mat n} (hQ : Q.PosDef) :
    marginalLikelihood Q r.priorMean bs = Real.exp (-costFunction Q r) * likelihood bs r.setPoint := by
  have hP := holds_posDef h hR hQ
  have hsym : ∀ {A : Mat n} (u v : Vec n), quad A (u - v) = quad A (v - u) := by
    intro A u v
    rw [← neg_sub v u, quad, quad, mulVec_neg, neg_dotProduct, dotProduct_neg, neg_neg]
  have hint : ∀ x, likelihood bs x * normalDensity Q r.priorMean x =
      ((bs.map fun b : Batch n => Real.sqrt (b.R.det / (2 * Real.pi) ^ b.m)).prod *
        Real.sqrt (Q.det / (2 * Real.pi) ^ n) *
        Real.exp (-(1 / 2) * ((bs.map fun b => b.misfit r.setPoint).sum + quad Q (r.setPoint - r.priorMean) -
          quad (Q + r.qIncrement) (r.setPoint - posteriorMean Q r)))) *
        Real.exp (-(1 / 2) * quad (Q + r.qIncrement) (x - posteriorMean Q r)) := by
    intro x
    have := complete_square h hR hQ x r.setPoint
    rw [likelihood_eq, normalDensity]
    rw [mul_assoc _ (Real.exp _) (Real.exp _), ← Real.exp_add, ← mul_add, add_comm _ (quad (Q + _) _), ← this, mul_add,
      Real.exp_add]
    ring
  rw [marginalLikelihood]
  simp_rw [hint]
  rw [integral_const_mul, integral_quad_centre hP, exp_cost hQ hP, likelihood_eq, hsym r.priorMean,
    hsym (posteriorMean Q r)]
  have hpow : Real.sqrt (Q.det / (2 * Real.pi) ^ n) = Real.sqrt Q.det / Real.sqrt (2 * Real.pi) ^ n := by
    rw [Real.sqrt_div' _ (by positivity), Real.sqrt_eq_rpow ((2 * Real.pi) ^ n),
      ← Real.rpow_natCast, ← Real.rpow_mul (by positivity), mul_comm (n : ℝ), Real.rpow_mul (by positivity),
      ← Real.sqrt_eq_rpow, Real.rpow_natCast]
  have hs : -(1 / 2) * ((bs.map fun b => b.misfit r.setPoint).sum + quad Q (r.setPoint - r.priorMean) -
      quad (Q + r.qIncrement) (r.setPoint - posteriorMean Q r)) = -(1 / 2) * (quad Q (r.setPoint - r.priorMean) -
      quad (Q + r.qIncrement) (r.setPoint - posteriorMean Q r)) +
      -(1 / 2) * (bs.map fun b => b.misfit r.setPoint).sum := by ring
  rw [hs, Real.exp_add, hpow]
  have h2 : Real.sqrt (2 * Real.pi) ^ n ≠ 0 := by positivity
  field_simp

theorem likelihood_pos {bs : List (Batch n)} (hR : ∀ b ∈ bs, b.R.PosDef) (x : Vec n) : 0 < likelihood bs x := by
  rw [likelihood_eq]
  refine mul_pos (List.prod_pos fun a ha => ?_) (Real.exp_pos _)
  obtain ⟨b, hb, rfl⟩ := List.mem_map.1 ha
  have := (hR b hb).det_pos
  positivity

/-- C85: the logarithm of the marginal likelihood is minus the cost, up to the constant which the code neglects. -/
theorem c85_log {r : Replicate n} {bs : List (Batch n)} (h : r.Holds bs) (hR : ∀ b ∈ bs, b.R.PosDef)
    {Q : Mat n} (hQ : Q.PosDef) :
    costFunction Q r = - Real.log (marginalLikelihood Q r.priorMean bs) + Real.log (likelihood bs r.setPoint) := by
  rw [c85_marginal h (fun b hb => (hR b hb).posSemidef) hQ,
    Real.log_mul (Real.exp_pos _).ne' (likelihood_pos hR _).ne', Real.log_exp]
  ring

/-- C85: smaller cost means larger marginal likelihood. -/
theorem c85_order {r : Replicate n} {bs : List (Batch n)} (h : r.Holds bs) (hR : ∀ b ∈ bs, b.R.PosDef)
    {Q Q' : Mat n} (hQ : Q.PosDef) (hQ' : Q'.PosDef) :
    costFunction Q r ≤ costFunction Q' r ↔
      marginalLikelihood Q' r.priorMean bs ≤ marginalLikelihood Q r.priorMean bs := by
  rw [c85_marginal h (fun b hb => (hR b hb).posSemidef) hQ, c85_marginal h (fun b hb => (hR b hb).posSemidef) hQ',
    mul_le_mul_iff_left₀ (likelihood_pos hR _), Real.exp_le_exp, neg_le_neg_iff]

theorem replicateCost_eq (Q : Mat n) (rs : List (Replicate n)) :
    replicateCost Q rs = (rs.map fun r => costFunction Q r).sum := by
  have : ∀ (rs : List (Replicate n)) (a : ℝ),
      rs.foldl (fun cf r => cf + costFunction Q r) a = a + (rs.map fun r => costFunction Q r).sum := by
    intro rs
    induction rs with
    | nil => intro a; simp
    | cons r rs ih => intro a; rw [List.foldl_cons, ih, List.map_cons, List.sum_cons, add_assoc]
  rw [replicateCost, this, zero_add]

/-- C85 for replicates: all replicates together, independent of each other, with the likelihood at their set points. -/
theorem c85_replicates {data : List (Replicate n × List (Batch n))} (h : ∀ d ∈ data, d.1.Holds d.2)
    (hR : ∀ d ∈ data, ∀ b ∈ d.2, b.R.PosDef) {Q : Mat n} (hQ : Q.PosDef) :
    (data.map fun d => marginalLikelihood Q d.1.priorMean d.2).prod =
      Real.exp (-replicateCost Q (data.map Prod.fst)) * (data.map fun d => likelihood d.2 d.1.setPoint).prod := by
  rw [replicateCost_eq]
  induction data with
  | nil => simp
  | cons d data ih =>
    simp only [List.map_cons, List.prod_cons, List.sum_cons, List.map_map] at ih ⊢
    rw [ih (fun e he => h e (List.mem_cons_of_mem _ he)) (fun e he => hR e (List.mem_cons_of_mem _ he)),
      c85_marginal (h d List.mem_cons_self) (fun b hb => (hR d List.mem_cons_self b hb).posSemidef) hQ, neg_add,
      Real.exp_add]
    ring

/-- C85 for replicates: smaller cost means larger joint marginal likelihood. -/
theorem c85_replicates_order {data : List (Replicate n × List (Batch n))} (h : ∀ d ∈ data, d.1.Holds d.2)
    (hR : ∀ d ∈ data, ∀ b ∈ d.2, b.R.PosDef) {Q Q' : Mat n} (hQ : Q.PosDef) (hQ' : Q'.PosDef) :
    replicateCost Q (data.map Prod.fst) ≤ replicateCost Q' (data.map Prod.fst) ↔
      (data.map fun d => marginalLikelihood Q' d.1.priorMean d.2).prod ≤
        (data.map fun d => marginalLikelihood Q d.1.priorMean d.2).prod := by
  rw [c85_replicates h hR hQ, c85_replicates h hR hQ', mul_le_mul_iff_left₀, Real.exp_le_exp, neg_le_neg_iff]
  refine List.prod_pos fun a ha => ?_
  obtain ⟨d, hd, rfl⟩ := List.mem_map.1 ha
  exact likelihood_pos (hR d hd) _

/-- C85: which set point is used does not matter for the comparison of two priors. -/
theorem c85_set_point {r : Replicate n} {bs : List (Batch n)} (h : r.Holds bs) (hR : ∀ b ∈ bs, b.R.PosDef) (s : Vec n)
    {Q Q' : Mat n} (hQ : Q.PosDef) (hQ' : Q'.PosDef) :
    costFunction Q r - costFunction Q' r =
      costFunction Q { r with setPoint := s } - costFunction Q' { r with setPoint := s } := by
  have h' : ({ r with setPoint := s } : Replicate n).Holds bs := h
  rw [c85_log h hR hQ, c85_log h hR hQ', c85_log h' hR hQ, c85_log h' hR hQ']
  ring

/-- What `optimize` takes from storage belongs to the observations which were processed. -/
theorem replicateOf_holds (Q : Mat n) (bs : List (Batch n)) (state : Vec n) :
    (replicateOf (systemOf Q bs).measurement state).Holds bs := by
  rw [systemOf_eq]
  constructor
  · simp [replicateOf, Batch.update, createFromSystem]
  · simp [replicateOf, Batch.update, createFromSystem, mulVec_mulVec]

/-- Two observations of the sum of two variables. -/
def exampleBatch : Batch 2 := ⟨1, Matrix.of fun _ _ => 1, 1, fun _ => 3⟩

example (s : Vec 2) : marginalLikelihood (1 : Mat 2) 0 [exampleBatch, exampleBatch] =
    Real.exp (-costFunction 1 (replicateOf (systemOf 1 [exampleBatch, exampleBatch]).measurement s)) *
      likelihood [exampleBatch, exampleBatch] s :=
  c85_marginal (replicateOf_holds 1 _ s) (by simpa [exampleBatch] using PosDef.one.posSemidef) PosDef.one

end Verif.Eustace.CostFunction
