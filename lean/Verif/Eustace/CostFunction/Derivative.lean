import Verif.Eustace.CostFunction.Marginal
import Verif.Eustace.Linear.Deriv
import Verif.Eustace.Qinv.Props
import Mathlib.Analysis.Calculus.Deriv.Inv
import Mathlib.Analysis.Calculus.Deriv.Mul
import Mathlib.Analysis.Calculus.Deriv.Add
import Mathlib.Analysis.SpecialFunctions.Log.Deriv

/-!
C86: the derivative of the cost function.
-/

namespace Verif.Eustace.CostFunction

open Matrix Verif.Eustace.Linear Verif.Eustace.Qinv

variable {n : Nat}

theorem det_deriv {A : ℝ → Mat n} {A' : Mat n} {t : ℝ} (h : HasMatrixDeriv A A' t) :
    HasDerivAt (fun s => (A s).det) (trace ((A t).adjugate * A')) t := by
  have h1 : HasDerivAt (fun s => (A s).det)
      (∑ σ : Equiv.Perm (Fin n), ((Equiv.Perm.sign σ : ℤ) : ℝ) *
        ∑ k, (∏ i ∈ Finset.univ.erase k, A t (σ i) i) * A' (σ k) k) t := by
    simp only [det_apply']
    refine HasDerivAt.fun_sum fun σ _ => HasDerivAt.const_mul _ ?_
    have := HasDerivAt.fun_finset_prod (u := Finset.univ) (f := fun i s => A s (σ i) i) (f' := fun i => A' (σ i) i)
      (x := t) (fun i _ => h (σ i) i)
    simpa [smul_eq_mul] using this
  have h2 : (∑ σ : Equiv.Perm (Fin n), ((Equiv.Perm.sign σ : ℤ) : ℝ) *
        ∑ k, (∏ i ∈ Finset.univ.erase k, A t (σ i) i) * A' (σ k) k) = trace ((A t).adjugate * A') := by
    have : ∀ k, (∑ σ : Equiv.Perm (Fin n), ((Equiv.Perm.sign σ : ℤ) : ℝ) *
        ((∏ i ∈ Finset.univ.erase k, A t (σ i) i) * A' (σ k) k)) = ((A t).adjugate * A') k k := by
      intro k
      have e : ((A t).adjugate * A') k k = ((A t).adjugate *ᵥ fun i => A' i k) k := rfl
      rw [e, ← cramer_eq_adjugate_mulVec, cramer_apply, det_apply']
      refine Finset.sum_congr rfl fun σ _ => ?_
      rw [← Finset.prod_erase_mul Finset.univ _ (Finset.mem_univ k), updateCol_self]
      congr 2
      refine Finset.prod_congr rfl fun i hi => ?_
      rw [updateCol_ne (Finset.ne_of_mem_erase hi)]
    simp only [Finset.mul_sum]
    rw [Finset.sum_comm]
    simp only [this]
    rfl
  rwa [h2] at h1

theorem logdet_deriv {A : ℝ → Mat n} {A' : Mat n} {t : ℝ} (h : HasMatrixDeriv A A' t) (hd : (A t).det ≠ 0) :
    HasDerivAt (fun s => logdet (A s)) (trace ((A t)⁻¹ * A')) t := by
  have := (det_deriv h).log hd
  have e : trace ((A t)⁻¹ * A') = trace ((A t).adjugate * A') / (A t).det := by
    rw [inv_def, Ring.inverse_eq_inv', smul_mul, trace_smul, smul_eq_mul]
    ring
  rw [e]
  exact this

theorem inv_diff {A : ℝ → Mat n} {A' : Mat n} {t : ℝ} (h : HasMatrixDeriv A A' t) (hd : (A t).det ≠ 0) :
    ∃ B', HasMatrixDeriv (fun s => (A s)⁻¹) B' t := by
  have hadj : ∀ i j, ∃ d, HasDerivAt (fun s => (A s).adjugate i j) d t := by
    intro i j
    have hu : HasMatrixDeriv (fun s => updateRow (A s) j (Pi.single i 1)) (updateRow A' j 0) t := by
      intro a b
      by_cases haj : a = j
      · subst haj
        simp only [updateRow_self]
        exact hasDerivAt_const _ _
      · simp only [updateRow_ne haj]
        exact h a b
    simp only [adjugate_apply]
    exact ⟨_, det_deriv hu⟩
  choose D hD using hadj
  have hinv := (det_deriv h).fun_inv hd
  have hall : ∀ i j, ∃ d, HasDerivAt (fun s => (A s)⁻¹ i j) d t := by
    intro i j
    simp only [inv_def, Ring.inverse_eq_inv', Matrix.smul_apply, smul_eq_mul]
    exact ⟨_, hinv.fun_mul (hD i j)⟩
  choose B hB using hall
  exact ⟨B, hB⟩

theorem mulVec_deriv {m n : Nat} {A : ℝ → Matrix (Fin m) (Fin n) ℝ} {A' : Matrix (Fin m) (Fin n) ℝ} {v : ℝ → Vec n} {v' : Vec n}
    {t : ℝ} (h : HasMatrixDeriv A A' t) (hv : ∀ i, HasDerivAt (fun s => v s i) (v' i) t) (i : Fin m) :
    HasDerivAt (fun s => (A s *ᵥ v s) i) ((A' *ᵥ v t + A t *ᵥ v') i) t := by
  simp only [mulVec, dotProduct, Pi.add_apply, ← Finset.sum_add_distrib]
  exact HasDerivAt.fun_sum fun j _ => (h i j).fun_mul (hv j)

theorem dot_deriv {u v : ℝ → Vec n} {u' v' : Vec n} {t : ℝ} (hu : ∀ i, HasDerivAt (fun s => u s i) (u' i) t)
    (hv : ∀ i, HasDerivAt (fun s => v s i) (v' i) t) :
    HasDerivAt (fun s => u s ⬝ᵥ v s) (u' ⬝ᵥ v t + u t ⬝ᵥ v') t := by
  simp only [dotProduct, ← Finset.sum_add_distrib]
  exact HasDerivAt.fun_sum fun j _ => (hu j).fun_mul (hv j)

theorem const_deriv (c : Vec n) (t : ℝ) (i : Fin n) : HasDerivAt (fun _ : ℝ => c i) ((0 : Vec n) i) t :=
  hasDerivAt_const _ _

/-- The derivative of the posterior mean, as used in the code. -/
theorem mean_deriv {A : ℝ → Mat n} {A' : Mat n} {t : ℝ} (h : HasMatrixDeriv A A' t) (r : Replicate n)
    (hd : (A t + r.qIncrement).det ≠ 0) (i : Fin n) :
    HasDerivAt (fun s => posteriorMean (A s) r i)
      ((- solve (A t + r.qIncrement) (A' *ᵥ (posteriorMean (A t) r - r.priorMean))) i) t := by
  have hP : HasMatrixDeriv (fun s => A s + r.qIncrement) A' t := fun i j => (h i j).add_const _
  obtain ⟨B', hB⟩ := inv_diff hP hd
  have hi : ∀ i, HasDerivAt (fun s => (A s *ᵥ r.priorMean + r.iIncrement) i) ((A' *ᵥ r.priorMean) i) t := by
    intro i
    have := (mulVec_deriv h (const_deriv r.priorMean t) i).add_const (r.iIncrement i)
    simpa using this
  have hm : ∀ i, HasDerivAt (fun s => posteriorMean (A s) r i) _ t := fun i => mulVec_deriv hB hi i
  set m' : Vec n := fun i => (B' *ᵥ (A t *ᵥ r.priorMean + r.iIncrement) + (A t + r.qIncrement)⁻¹ *ᵥ (A' *ᵥ r.priorMean)) i
    with hm'
  have hm : ∀ i, HasDerivAt (fun s => posteriorMean (A s) r i) (m' i) t := hm
  have hne : ∀ᶠ s in nhds t, (A s + r.qIncrement).det ≠ 0 :=
    (det_deriv hP).continuousAt.eventually_ne hd
  have heq : A' *ᵥ posteriorMean (A t) r + (A t + r.qIncrement) *ᵥ m' = A' *ᵥ r.priorMean := by
    funext i
    have h1 := mulVec_deriv hP hm i
    have h2 : (fun s => ((A s + r.qIncrement) *ᵥ posteriorMean (A s) r) i) =ᶠ[nhds t]
        fun s => (A s *ᵥ r.priorMean + r.iIncrement) i := by
      filter_upwards [hne] with s hs
      rw [posteriorMean, solve, mulVec_mulVec, mul_nonsing_inv _ (isUnit_iff_ne_zero.2 hs), one_mulVec]
    exact (h1.unique ((hi i).congr_of_eventuallyEq h2))
  have hfin : m' = - solve (A t + r.qIncrement) (A' *ᵥ (posteriorMean (A t) r - r.priorMean)) := by
    have h3 : (A t + r.qIncrement) *ᵥ m' = - (A' *ᵥ (posteriorMean (A t) r - r.priorMean)) := by
      rw [mulVec_sub, ← heq]; abel
    have h4 : (A t + r.qIncrement)⁻¹ *ᵥ ((A t + r.qIncrement) *ᵥ m') = m' := by
      rw [mulVec_mulVec, nonsing_inv_mul _ (isUnit_iff_ne_zero.2 hd), one_mulVec]
    rw [← h4, h3, solve, mulVec_neg]
  rw [← hfin]
  exact hm i

/-- Derivative of the log likelihood of a departure with the exact inverse. -/
theorem loglikelihood_deriv {A : ℝ → Mat n} {A' : Mat n} {d : ℝ → Vec n} {d' : Vec n} {t : ℝ}
    (h : HasMatrixDeriv A A' t) (hd : ∀ i, HasDerivAt (fun s => d s i) (d' i) t) (hdet : (A t).det ≠ 0)
    (hs : (A t)ᵀ = A t) {iQp : Mat n} (ht : traceIQdQ iQp A' = trace ((A t)⁻¹ * A')) :
    HasDerivAt (fun s => gaussianLoglikelihood (d s) (A s)) (gaussianLoglikelihoodDerivative (d t) (A t) d' A' iQp) t := by
  have h1 := (logdet_deriv h hdet).const_mul 0.5
  have h2 := (dot_deriv hd (fun i => mulVec_deriv h hd i)).const_mul 0.5
  have h3 := ((h1.const_add (- 0.5 * n * Real.log (2.0 * Real.pi))).fun_sub h2)
  refine h3.congr_deriv ?_
  rw [gaussianLoglikelihoodDerivative, ht]
  have e : d t ⬝ᵥ (A' *ᵥ d t + A t *ᵥ d') = d t ⬝ᵥ (A' *ᵥ d t) + d' ⬝ᵥ (A t *ᵥ d t) := by
    rw [dotProduct_add, dot_symm hs (d t) d']
  rw [e]
  ring

/-- The derivative with exact traces. -/
theorem derivativeTerm_deriv {A : ℝ → Mat n} {A' : Mat n} {t : ℝ} (h : HasMatrixDeriv A A' t) (r : Replicate n)
    (hQ : (A t).PosDef) (hP : (A t + r.qIncrement).PosDef) {S₀ S₁ : Mat n}
    (h0 : traceIQdQ S₀ A' = trace ((A t)⁻¹ * A')) (h1 : traceIQdQ S₁ A' = trace ((A t + r.qIncrement)⁻¹ * A')) :
    HasDerivAt (fun s => costFunction (A s) r) (derivativeTerm (A t) r S₀ S₁ A') t := by
  have hPd : HasMatrixDeriv (fun s => A s + r.qIncrement) A' t := fun i j => (h i j).add_const _
  have a := loglikelihood_deriv h (const_deriv (r.priorMean - r.setPoint) t) hQ.det_pos.ne' (sym_of_herm hQ.1) h0
  have b := loglikelihood_deriv hPd (d := fun s => posteriorMean (A s) r - r.setPoint)
    (fun i => (mean_deriv h r hP.det_pos.ne' i).sub_const _) hP.det_pos.ne' (sym_of_herm hP.1) h1
  have c := ((a.const_sub (-(0.0 : ℝ))).fun_add b)
  refine c.congr_deriv ?_
  rw [derivativeTerm]
  have : (0.0 : ℝ) = 0 := by norm_num
  simp only [this]
  ring

theorem qInv_traces {p : Nat} {dQ : Fin p → Mat n} {Q : Mat n} (s : Solver Q) (hc : Closed s.cholmod.L)
    (hp : ∀ j a b, dQ j a b ≠ 0 → Q b a ≠ 0) :
    ∃ S, qInv s.cholmod s.sigma = .ok S ∧ ∀ j, traceIQdQ S (dQ j) = trace (Q⁻¹ * dQ j) := by
  obtain ⟨S, h1, -⟩ := c44_partial_inverse s.cholmod s.sigma hc
  refine ⟨S, h1, fun j => ?_⟩
  obtain ⟨S', h2, h3⟩ := c44_trace s.cholmod s.sigma hc (hp j)
  have : S = S' := by rw [h1] at h2; injection h2
  rw [this, h3]

/-- C86: what `cost_derivative` returns are the partial derivatives of `cost_function`, if the factor patterns are closed and
the derivatives of the precision have entries only where the precisions have. -/
theorem c86_derivative {p : Nat} {Qf : Vec p → Mat n} {θ : Vec p} {dQ : Fin p → Mat n}
    (hd : ∀ j, HasMatrixDeriv (fun t => Qf (Function.update θ j t)) (dQ j) (θ j)) (r : Replicate n)
    (hQ : (Qf θ).PosDef) (hP : (Qf θ + r.qIncrement).PosDef) (s₀ : Solver (Qf θ)) (s₁ : Solver (Qf θ + r.qIncrement))
    (hc₀ : Closed s₀.cholmod.L) (hc₁ : Closed s₁.cholmod.L)
    (hpat : ∀ j a b, dQ j a b ≠ 0 → Qf θ b a ≠ 0 ∧ (Qf θ + r.qIncrement) b a ≠ 0) :
    ∃ g, costDerivative (Qf θ) dQ r s₀ s₁ = .ok g ∧
      ∀ j, HasDerivAt (fun t => costFunction (Qf (Function.update θ j t)) r) (g j) (θ j) := by
  obtain ⟨S₀, h0, t0⟩ := qInv_traces s₀ hc₀ fun j a b h => (hpat j a b h).1
  obtain ⟨S₁, h1, t1⟩ := qInv_traces s₁ hc₁ fun j a b h => (hpat j a b h).2
  refine ⟨_, by rw [costDerivative, h0]; simp only; rw [h1], fun j => ?_⟩
  have := derivativeTerm_deriv (t := θ j) (hd j) r (by simpa using hQ) (by simpa using hP) (S₀ := S₀) (S₁ := S₁)
    (by simpa using t0 j) (by simpa using t1 j)
  simpa using this

/-- C86 for replicates. -/
theorem c86_replicates {p : Nat} {Qf : Vec p → Mat n} {θ : Vec p} {dQ : Fin p → Mat n}
    (hd : ∀ j, HasMatrixDeriv (fun t => Qf (Function.update θ j t)) (dQ j) (θ j)) (hQ : (Qf θ).PosDef)
    (s₀ : Solver (Qf θ)) (hc₀ : Closed s₀.cholmod.L) (rs : List ((r : Replicate n) × Solver (Qf θ + r.qIncrement)))
    (hP : ∀ r ∈ rs, (Qf θ + r.1.qIncrement).PosDef) (hc : ∀ r ∈ rs, Closed r.2.cholmod.L)
    (hpat₀ : ∀ j a b, dQ j a b ≠ 0 → Qf θ b a ≠ 0)
    (hpat : ∀ r ∈ rs, ∀ j a b, dQ j a b ≠ 0 → (Qf θ + r.1.qIncrement) b a ≠ 0) :
    ∃ g, replicateDerivative (Qf θ) dQ s₀ rs = .ok g ∧
      ∀ j, HasDerivAt (fun t => replicateCost (Qf (Function.update θ j t)) (rs.map Sigma.fst)) (g j) (θ j) := by
  obtain ⟨S₀, h0, t0⟩ := qInv_traces s₀ hc₀ hpat₀
  rw [replicateDerivative, h0]
  simp only
  have key : ∀ (rs : List ((r : Replicate n) × Solver (Qf θ + r.qIncrement))) (acc : Vec p)
      (F : Fin p → ℝ → ℝ), (∀ r ∈ rs, (Qf θ + r.1.qIncrement).PosDef) → (∀ r ∈ rs, Closed r.2.cholmod.L) →
      (∀ r ∈ rs, ∀ j a b, dQ j a b ≠ 0 → (Qf θ + r.1.qIncrement) b a ≠ 0) → (∀ j, HasDerivAt (F j) (acc j) (θ j)) →
      ∃ g, derivativeLoop (Qf θ) dQ S₀ rs acc = .ok g ∧
        ∀ j, HasDerivAt (fun t => F j t + replicateCost (Qf (Function.update θ j t)) (rs.map Sigma.fst)) (g j) (θ j) := by
    intro rs
    induction rs with
    | nil => intro acc F _ _ _ hF; exact ⟨acc, rfl, fun j => by simpa [replicateCost] using hF j⟩
    | cons r rs ih =>
      intro acc F hP hc hpat hF
      obtain ⟨r, s⟩ := r
      obtain ⟨S₁, h1, t1⟩ := qInv_traces s (hc ⟨r, s⟩ List.mem_cons_self) (hpat ⟨r, s⟩ List.mem_cons_self)
      obtain ⟨g, hg, hgd⟩ := ih (fun j => acc j + derivativeTerm (Qf θ) r S₀ S₁ (dQ j))
        (fun j t => F j t + costFunction (Qf (Function.update θ j t)) r)
        (fun q hq => hP q (List.mem_cons_of_mem _ hq)) (fun q hq => hc q (List.mem_cons_of_mem _ hq))
        (fun q hq => hpat q (List.mem_cons_of_mem _ hq)) (by
          intro j
          have := derivativeTerm_deriv (t := θ j) (hd j) r (by simpa using hQ)
            (by simpa using hP ⟨r, s⟩ List.mem_cons_self) (S₀ := S₀) (S₁ := S₁)
            (by simpa using t0 j) (by simpa using t1 j)
          exact (hF j).fun_add (by simpa using this))
      refine ⟨g, by rw [derivativeLoop, h1]; exact hg, fun j => ?_⟩
      have := hgd j
      simp only [replicateCost_eq, List.map_cons, List.sum_cons] at this ⊢
      simpa only [add_assoc] using this
  obtain ⟨g, hg, hgd⟩ := key rs 0 (fun _ _ => 0) hP hc hpat (fun j => hasDerivAt_const _ _)
  exact ⟨g, hg, fun j => by simpa using hgd j⟩

end Verif.Eustace.CostFunction
