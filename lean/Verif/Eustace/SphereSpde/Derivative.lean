import Verif.Eustace.SphereSpde.Props
import Verif.Eustace.Linear.Deriv
import Mathlib.Analysis.SpecialFunctions.ExpDeriv

/-!
C41 for the SPDE on the sphere: `build_dQdp` is the derivative of `build_Q`.
-/

namespace Verif.Eustace.SphereSpde

open Matrix Verif.Eustace.Linear Verif.Eustace.Mesh Verif.Eustace.Locator Verif.Eustace.Locator.V3

noncomputable section

theorem powerLoop_deriv {n : Nat} {K : ℝ → Mat n} {K' : Mat n} {t : ℝ} (invC : Mat n) (hK : HasMatrixDeriv K K' t) :
    ∀ (k : Nat) (Q : ℝ → Mat n) (Q' : Mat n), HasMatrixDeriv Q Q' t →
      HasMatrixDeriv (fun s => powerLoop (K s) invC k (Q s)) (derivativePowerLoop (K t) invC K' k Q' (Q t)).1 t ∧
      (derivativePowerLoop (K t) invC K' k Q' (Q t)).2 = powerLoop (K t) invC k (Q t)
  | 0, _, _, hQ => ⟨hQ, rfl⟩
  | k + 1, Q, Q', hQ => by
    refine powerLoop_deriv invC hK k (fun s => K s * invC * Q s * invC * K s) _ ?_
    refine ((((hK.mul_const invC).mul hQ).mul_const invC).mul hK).congr_deriv ?_
    simp only [Matrix.add_mul]

theorem native_deriv {n : Nat} (C G : Mat n) {kappa tau : ℝ → Mat n} {kappa' tau' : Mat n} {t : ℝ}
    (hk : HasMatrixDeriv kappa kappa' t) (ht : HasMatrixDeriv tau tau' t) (alpha : Nat) :
    HasMatrixDeriv (fun s => nativeOf C G (kappa s) (tau s) alpha)
      (derivativeNativeOf C G (kappa t) (tau t) kappa' tau' alpha) t := by
  have hK : HasMatrixDeriv (fun s => kappa s * C * kappa s + G) (kappa' * C * kappa t + kappa t * C * kappa') t := by
    refine (((hk.mul_const C).mul hk).add (HasMatrixDeriv.const G t)).congr_deriv ?_
    rw [add_zero]
  unfold nativeOf derivativeNativeOf
  simp only
  split
  · have h2 := (hK.mul_const (inverseDiagonal C)).mul hK
    have h := powerLoop_deriv (inverseDiagonal C) hK (rounds 4 alpha) _ _ h2
    refine ((ht.mul h.1).mul ht).congr_deriv ?_
    rw [h.2, Matrix.add_mul]
  · have h := powerLoop_deriv (inverseDiagonal C) hK (rounds 3 alpha) _ _ hK
    refine ((ht.mul h.1).mul ht).congr_deriv ?_
    rw [h.2, Matrix.add_mul]

theorem update_deriv {p : Nat} (theta : Vec p) (j k : Fin p) :
    HasDerivAt (fun s => Function.update theta j s k) (unitParameter j k) (theta j) := by
  unfold unitParameter
  by_cases h : k = j
  · subst h
    simp only [Function.update_self]
    have := hasDerivAt_id (theta k)
    rw [show (1.0 : ℝ) = 1 by norm_num]
    exact this
  · simp only [Function.update_of_ne h, Pi.zero_apply]
    exact hasDerivAt_const _ _

theorem design_deriv {n p : Nat} (A : Matrix (Fin n) (Fin p) ℝ) (theta : Vec p) (j : Fin p) (i : Fin n) :
    HasDerivAt (fun s => (A *ᵥ Function.update theta j s) i) ((A *ᵥ unitParameter j) i) (theta j) := by
  simp only [mulVec, dotProduct]
  exact HasDerivAt.fun_sum fun k _ => (update_deriv theta j k).const_mul _

/-- **C41 for the sphere.**  `build_dQdp` succeeds when `build_Q` does, and gives the derivative of its result with
respect to the chosen parameter. -/
theorem c41_sphere (m : Mesh V3) {p : Nat} (theta : Vec p) {alpha : Nat} (ha : 2 ≤ alpha)
    (sigma rho : Matrix (Fin m.points.length) (Fin p) ℝ) (j : Fin p) :
    ∃ (Q : ℝ → Mat m.points.length) (dQ : Mat m.points.length),
      (∀ s, buildQ m (Function.update theta j s) alpha sigma rho = .ok (Q s)) ∧
      buildDQdp m theta alpha sigma rho j = .ok dQ ∧ HasMatrixDeriv Q dQ (theta j) := by
  refine ⟨fun s => buildQNative m (Matrix.diagonal (kappaOf (Function.update theta j s) alpha rho))
    (Matrix.diagonal (tauOf (Function.update theta j s) alpha sigma rho)) alpha, _, fun s => if_neg (by omega),
    if_neg (by omega), ?_⟩
  have hk : HasMatrixDeriv (fun s => Matrix.diagonal (kappaOf (Function.update theta j s) alpha rho))
      (Matrix.diagonal fun i => (kappaDesign rho *ᵥ unitParameter j) i * kappaOf theta alpha rho i) (theta j) := by
    refine HasMatrixDeriv.diagonal fun i => ?_
    have := ((design_deriv (kappaDesign rho) theta j i).const_add (b0Kappa alpha)).exp
    rw [Function.update_eq_self] at this
    refine this.congr_deriv ?_
    rw [mul_comm]; rfl
  have ht : HasMatrixDeriv (fun s => Matrix.diagonal (tauOf (Function.update theta j s) alpha sigma rho))
      (Matrix.diagonal fun i => (tauDesign alpha sigma rho *ᵥ unitParameter j) i * tauOf theta alpha sigma rho i)
      (theta j) := by
    refine HasMatrixDeriv.diagonal fun i => ?_
    have := ((design_deriv (tauDesign alpha sigma rho) theta j i).const_add (b0Tau alpha)).exp
    rw [Function.update_eq_self] at this
    refine this.congr_deriv ?_
    rw [mul_comm]; rfl
  have h := native_deriv (buildCTilde m) (buildG m) hk ht alpha
  simp only [Function.update_eq_self] at h
  exact h

/-- Both are refused for orders up to one. -/
theorem c41_sphere_refused (m : Mesh V3) {p : Nat} (theta : Vec p) {alpha : Nat} (ha : alpha ≤ 1)
    (sigma rho : Matrix (Fin m.points.length) (Fin p) ℝ) (j : Fin p) :
    buildQ m theta alpha sigma rho = .error .valueError ∧ buildDQdp m theta alpha sigma rho j = .error .valueError :=
  ⟨if_pos (by omega), if_pos (by omega)⟩

/-- **C41 for the sphere**, stationary model: derivative with respect to the logarithm of the standard deviation (index
zero) and of the range (index one). -/
theorem c41_stationary (m : Mesh V3) (logSigma logRho : ℝ) {alpha : Nat} (ha : 2 ≤ alpha) :
    (∃ (Q : ℝ → Mat m.points.length) (dQ : Mat m.points.length),
      (∀ s, buildQStationary m s logRho alpha = .ok (Q s)) ∧
      buildDQdpStationary m logSigma logRho alpha 0 = .ok dQ ∧ HasMatrixDeriv Q dQ logSigma) ∧
    (∃ (Q : ℝ → Mat m.points.length) (dQ : Mat m.points.length),
      (∀ s, buildQStationary m logSigma s alpha = .ok (Q s)) ∧
      buildDQdpStationary m logSigma logRho alpha 1 = .ok dQ ∧ HasMatrixDeriv Q dQ logRho) := by
  constructor
  · obtain ⟨Q, dQ, h1, h2, h3⟩ := c41_sphere m ![logSigma, logRho] ha (sigmaStationary _) (rhoStationary _) 0
    refine ⟨Q, dQ, fun s => ?_, h2, h3⟩
    rw [← h1 s, buildQStationary]
    congr 1
    funext k; refine Fin.cases ?_ (fun k => ?_) k <;> simp
  · obtain ⟨Q, dQ, h1, h2, h3⟩ := c41_sphere m ![logSigma, logRho] ha (sigmaStationary _) (rhoStationary _) 1
    refine ⟨Q, dQ, fun s => ?_, h2, h3⟩
    rw [← h1 s, buildQStationary]
    congr 1
    funext k
    match k with
    | 0 => simp
    | 1 => simp

example : (2 : Nat) ≤ 2 ∧ (2 : Nat) ≤ 5 := by decide

end

end Verif.Eustace.SphereSpde
