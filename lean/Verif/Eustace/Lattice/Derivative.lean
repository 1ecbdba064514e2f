import Verif.Eustace.Lattice.Precision
import Verif.Eustace.Linear.Deriv
import Mathlib.Analysis.SpecialFunctions.ExpDeriv

/-!
C41 and C87 for lattices: `build_dQdp` against `build_Q`, and the meaning of the parameters.
-/

namespace Verif.Eustace.Lattice

open Matrix Verif.Eustace.Linear

noncomputable section

variable {D : Nat} {L : Lattice D}

theorem operator_deriv (L : Lattice D) (H : Multi D ℝ) (pairs : Fin D → Set (Multi D Nat × Multi D Nat))
    {kappa : ℝ → Mat L.size} {kappa' : Mat L.size} {t : ℝ} (hk : HasMatrixDeriv kappa kappa' t) :
    HasMatrixDeriv (fun s => operator L H pairs (kappa s)) (kappa' * 1 * kappa t + kappa t * 1 * kappa') t := by
  unfold operator
  refine ((((hk.mul_const 1).mul hk).add (HasMatrixDeriv.const _ t)).add (HasMatrixDeriv.const _ t)).congr_deriv ?_
  rw [add_zero, add_zero]

/-- Without periodic dimensions the derivative uses the same pairs as the precision. -/
theorem linked_sequential (hw : ∀ k, L.wrap k = false) : linkedPairs L = sequentialPairs L.n := by
  funext d
  unfold linkedPairs
  rw [hw d, if_neg (by simp)]

theorem update_deriv {p : Nat} (theta : Vec p) (j k : Fin p) :
    HasDerivAt (fun s => Function.update theta j s k) (if k = j then 1 else 0) (theta j) := by
  by_cases h : k = j
  · subst h
    simp only [Function.update_self, if_true]
    exact hasDerivAt_id (theta k)
  · simp only [Function.update_of_ne h, if_neg h]
    exact hasDerivAt_const _ _

theorem design_deriv {n p : Nat} (A : Matrix (Fin n) (Fin p) ℝ) (theta : Vec p) (j : Fin p) (i : Fin n) :
    HasDerivAt (fun s => (A *ᵥ Function.update theta j s) i) (A i j) (theta j) := by
  simp only [mulVec, dotProduct]
  refine (HasDerivAt.fun_sum fun k _ => (update_deriv theta j k).const_mul (A i k)).congr_deriv ?_
  simp

theorem kappa_deriv {n p : Nat} (theta : Vec p) (alpha : Nat) (rho : Matrix (Fin n) (Fin p) ℝ) (j : Fin p) :
    HasMatrixDeriv (fun s => Matrix.diagonal (kappaOf D (Function.update theta j s) alpha rho))
      (Matrix.diagonal fun i => kappaDesign rho i j * kappaOf D theta alpha rho i) (theta j) := by
  refine HasMatrixDeriv.diagonal fun i => ?_
  have := ((design_deriv (kappaDesign rho) theta j i).const_add (b0Kappa D alpha)).exp
  rw [Function.update_eq_self] at this
  refine this.congr_deriv ?_
  rw [mul_comm]; rfl

theorem tau_deriv {n p : Nat} (theta : Vec p) (alpha : Nat) (sigma rho : Matrix (Fin n) (Fin p) ℝ) (j : Fin p) :
    HasMatrixDeriv (fun s => Matrix.diagonal (tauOf D (Function.update theta j s) alpha sigma rho))
      (Matrix.diagonal fun i => tauDesign D alpha sigma rho i j * tauOf D theta alpha sigma rho i) (theta j) := by
  refine HasMatrixDeriv.diagonal fun i => ?_
  have := ((design_deriv (tauDesign D alpha sigma rho) theta j i).const_add (b0Tau D alpha)).exp
  rw [Function.update_eq_self] at this
  refine this.congr_deriv ?_
  rw [mul_comm]; rfl

/-- **C41 for lattices, partial.**  On a lattice without periodic dimensions `build_dQdp` gives the derivative of the result
of `build_Q` with respect to the chosen parameter.  Missing: periodic dimensions, for which this is false, see
`c41_periodic_violated`. -/
theorem c41_lattice_partial (hw : ∀ k, L.wrap k = false) (H : Multi D ℝ) {p : Nat} (theta : Vec p)
    (sigma rho : Matrix (Fin L.size) (Fin p) ℝ) {alpha : Nat} (ha : alpha = 1 ∨ alpha = 2) (hD : D < 2 * alpha) (j : Fin p) :
    ∃ (Q : ℝ → Mat L.size) (dQ : Mat L.size),
      (∀ s, buildQ L (Function.update theta j s) sigma rho alpha H = .ok (Q s)) ∧
      buildDQdp L theta sigma rho alpha H j = .ok dQ ∧ HasMatrixDeriv Q dQ (theta j) := by
  have hk := kappa_deriv (D := D) theta alpha rho j
  have ht := tau_deriv (D := D) theta alpha sigma rho j
  have hK := operator_deriv L H (linkedPairs L) hk
  unfold buildDQdp
  rw [if_neg (by omega)]
  unfold buildQ buildQNative buildDQdpNative
  simp only [← linked_sequential hw]
  rcases ha with rfl | rfl
  · rw [if_pos rfl]
    refine ⟨_, _, fun s => by rw [if_neg (by omega), if_neg (by omega)], rfl, ?_⟩
    refine (((ht.mul hK).mul ht).smul _).congr_deriv ?_
    simp only [Function.update_eq_self, Matrix.add_mul, Matrix.mul_add]
  · rw [if_neg (by omega), if_pos rfl]
    refine ⟨_, _, fun s => by rw [if_pos rfl], rfl, ?_⟩
    have hs := operator_symm L H (linkedPairs L)
    simp only [hs]
    refine (((ht.mul (hK.mul hK)).mul ht).smul _).congr_deriv ?_
    simp only [Function.update_eq_self, Matrix.add_mul, Matrix.mul_add, Matrix.mul_assoc, add_assoc]

/-- `build_Q` does not refuse orders for which the field has no variance, `build_dQdp` does. -/
theorem c41_lattice_check (H : Multi D ℝ) {p : Nat} (theta : Vec p) (sigma rho : Matrix (Fin L.size) (Fin p) ℝ) {alpha : Nat}
    (ha : alpha ≤ 2) (hD : 2 * alpha ≤ D) (j : Fin p) :
    (∃ Q, buildQ L theta sigma rho alpha H = .ok Q) ∧ buildDQdp L theta sigma rho alpha H j = .error .valueError := by
  refine ⟨?_, if_pos hD⟩
  unfold buildQ buildQNative
  simp only
  split
  · exact ⟨_, rfl⟩
  · rw [if_neg (by omega)]; exact ⟨_, rfl⟩

theorem stationary_designs {n : Nat} (alpha : Nat) (i : Fin n) :
    kappaDesign (rhoStationary n) i 0 = 0 ∧ tauDesign D alpha (sigmaStationary n) (rhoStationary n) i 0 = -1 := by
  constructor
  · simp [kappaDesign, rhoStationary]
  · simp [tauDesign, kappaDesign, sigmaStationary, rhoStationary]; norm_num

/-- No pair without wrapping joins first and last node of a periodic line of more than two nodes. -/
theorem sequential_corner (L : Lattice 1) (hn : 3 ≤ L.n 0) (H : Multi 1 ℝ) (a b : Fin L.size) (ha : a.val = 0)
    (hb : b.val + 1 = L.n 0) : neighbour L H (sequentialPairs L.n) a b = 0 := by
  have hr : ∀ i : Multi 1 Nat, ravelC L.n i = i 0 := by
    intro i
    simp [ravelC, ravelF, stride]
  unfold neighbour
  rw [show List.finRange 1 = [0] from rfl, List.foldl_cons, List.foldl_nil]
  unfold assign
  simp only [Matrix.of_apply, Matrix.zero_apply]
  rw [if_neg]
  rintro ⟨p, ⟨m, hm, h1, rfl⟩, h⟩
  simp only [hr, Function.update_self] at h
  rcases h with h | h <;> omega

/-- **C41 fails on periodic lattices.**  On every periodic line of three or more nodes the result of `build_dQdp` for the
logarithm of the standard deviation is not the derivative of `build_Q`: the link between last and first node is left out. -/
theorem c41_periodic_violated (L : Lattice 1) (hL : Proper L) (hw : L.wrap 0 = true) (hn : 3 ≤ L.n 0) {H : Multi 1 ℝ}
    (hH : H 0 ≠ 0) (logSigma logRho : ℝ) :
    ∃ (Q : ℝ → Mat L.size) (dQ : Mat L.size),
      (∀ s, buildQStationary L s logRho 1 H = .ok (Q s)) ∧ buildDQdpStationary L logSigma logRho 1 H 0 = .ok dQ ∧
      ¬ HasMatrixDeriv Q dQ logSigma := by
  set theta : Vec 2 := ![logSigma, logRho] with htheta
  have hup : ∀ s, (![s, logRho] : Vec 2) = Function.update theta 0 s := by
    intro s; funext k; fin_cases k <;> simp [htheta]
  set kappa := Matrix.diagonal (kappaOf 1 theta 1 (rhoStationary L.size)) with hkappa
  set tau := Matrix.diagonal (tauOf 1 theta 1 (sigmaStationary L.size) (rhoStationary L.size)) with htau
  set dkappa := Matrix.diagonal fun i => kappaDesign (rhoStationary L.size) i 0 * kappaOf 1 theta 1 (rhoStationary L.size) i
    with hdkappa
  set dtau := Matrix.diagonal fun i => tauDesign 1 1 (sigmaStationary L.size) (rhoStationary L.size) i 0 *
    tauOf 1 theta 1 (sigmaStationary L.size) (rhoStationary L.size) i with hdtau
  refine ⟨fun s => (∏ k, L.spacing k) •
      (Matrix.diagonal (tauOf 1 (Function.update theta 0 s) 1 (sigmaStationary _) (rhoStationary _)) *
      operator L H (linkedPairs L) (Matrix.diagonal (kappaOf 1 (Function.update theta 0 s) 1 (rhoStationary _))) *
      Matrix.diagonal (tauOf 1 (Function.update theta 0 s) 1 (sigmaStationary _) (rhoStationary _))),
    (∏ k, L.spacing k) • (dtau * operator L H (sequentialPairs L.n) kappa * tau +
      tau * (dkappa * 1 * kappa + kappa * 1 * dkappa) * tau + tau * operator L H (sequentialPairs L.n) kappa * dtau),
    fun s => ?_, ?_, ?_⟩
  · beta_reduce; rw [← hup]; rfl
  · rfl
  · intro h
    have hk := kappa_deriv (D := 1) theta 1 (rhoStationary L.size) 0
    have ht := tau_deriv (D := 1) theta 1 (sigmaStationary L.size) (rhoStationary L.size) 0
    have hK := operator_deriv L H (linkedPairs L) hk
    have htrue := ((ht.mul hK).mul ht).smul (∏ k, L.spacing k)
    have hsize : L.size = L.n 0 := by simp [Lattice.size]
    let a : Fin L.size := ⟨0, by omega⟩
    let b : Fin L.size := ⟨L.n 0 - 1, by omega⟩
    have hab : a ≠ b := by intro e; have : 0 = L.n 0 - 1 := congrArg Fin.val e; omega
    have hu := (h a b).unique (htrue a b)
    have hsq := sequential_corner L hn H a b rfl (by show L.n 0 - 1 + 1 = L.n 0; omega)
    have hlk : neighbour L H (linkedPairs L) a b ≠ 0 := by
      have hi : IsNode L (fun _ => 0) := fun k => by fin_cases k; show 0 < L.n 0; omega
      have hj : IsNode L (fun _ => L.n 0 - 1) := fun k => by fin_cases k; show L.n 0 - 1 < L.n 0; omega
      have hr : ∀ i : Multi 1 Nat, ravelC L.n i = i 0 := by
        intro i
        simp [ravelC, ravelF, stride]
      have ea : a = flat L hi := Fin.ext (by show 0 = ravelC L.n _; rw [hr])
      have eb : b = flat L hj := Fin.ext (by show L.n 0 - 1 = ravelC L.n _; rw [hr])
      have hne : (fun _ => 0 : Multi 1 Nat) ≠ (fun _ => L.n 0 - 1) := by
        intro e; have : 0 = L.n 0 - 1 := congrFun e 0; omega
      have := (c49_operator hL (H := H) (fun d => by fin_cases d; exact hH) (fun _ => 0) hi hj hne).1
      rw [← ea, ← eb, operator_off hab] at this
      refine this.2 ⟨hne, 0, Or.inr ⟨fun k hk => ?_, Or.inr ⟨hw, ?_, rfl⟩⟩⟩
      · fin_cases k; exact absurd rfl hk
      · show L.n 0 - 1 + 1 = L.n 0; omega
    have hs : ∏ k, L.spacing k ≠ 0 := Finset.prod_ne_zero_iff.2 fun k _ => (spacing_pos hL k).ne'
    have hta : ∀ c, tauOf 1 theta 1 (sigmaStationary L.size) (rhoStationary L.size) c ≠ 0 := fun c => Real.exp_ne_zero _
    simp only [Function.update_eq_self, ← hkappa, ← htau, ← hdkappa, ← hdtau, Matrix.smul_apply, Matrix.add_apply,
      smul_eq_mul] at hu
    have hdk : dkappa = 0 := by
      rw [hdkappa]
      simp only [(stationary_designs (D := 1) 1 _).1, zero_mul]
      exact Matrix.diagonal_zero
    rw [hdk] at hu
    simp only [Matrix.zero_mul, Matrix.mul_zero, add_zero, Matrix.zero_apply] at hu
    have hu := mul_left_cancel₀ hs hu
    rw [hdtau, htau] at hu
    simp only [mul_diagonal, diagonal_mul, hkappa, operator_off hab, hsq, (stationary_designs (D := 1) 1 _).2] at hu
    have h1 := hta a
    have h2 := hta b
    apply hlk
    have h3 : neighbour L H (linkedPairs L) a b * (tauOf 1 theta 1 (sigmaStationary L.size) (rhoStationary L.size) a *
        tauOf 1 theta 1 (sigmaStationary L.size) (rhoStationary L.size) b) = 0 := by
      linear_combination (1 / 2 : ℝ) * hu
    exact (mul_eq_zero.1 h3).resolve_right (mul_ne_zero h1 h2)

/-- A periodic line such as the annual cycle meets the hypotheses. -/
example : Proper (⟨![0], ![1], ![12], ![true]⟩ : Lattice 1) ∧ (⟨![0], ![1], ![12], ![true]⟩ : Lattice 1).wrap 0 = true := by
  refine ⟨fun k => ?_, rfl⟩
  fin_cases k; norm_num

/-! ### C87 for lattices -/

theorem nu_eq (D alpha : Nat) : nuOf D alpha = alpha - D / 2 := by unfold nuOf; norm_num

/-- **C87 for lattices.**  At every node `kappa = sqrt(8 nu) / rho` and
`sigma² = Γ(nu) / (Γ(alpha) (4π)^(D/2) kappa^(2 nu) tau²)` with `nu = alpha - D/2`, whenever this is positive. -/
theorem c87_lattice {n p : Nat} (D : Nat) (theta : Vec p) {alpha : Nat} (h : D < 2 * alpha)
    (sigma rho : Matrix (Fin n) (Fin p) ℝ) (i : Fin n) :
    let nu : ℝ := alpha - D / 2
    let s := Real.exp ((sigma *ᵥ theta) i)
    let r := Real.exp ((rho *ᵥ theta) i)
    let kappa := kappaOf D theta alpha rho i
    let tau := tauOf D theta alpha sigma rho i
    kappa = Real.sqrt (8 * nu) / r ∧
    s ^ 2 = Real.Gamma nu / (Real.Gamma alpha * (4 * Real.pi) ^ ((D : ℝ) / 2) * kappa ^ (2 * nu) * tau ^ 2) := by
  have ha : (D : ℝ) < 2 * alpha := by exact_mod_cast h
  have hnu : (0 : ℝ) < alpha - D / 2 := by linarith
  have hal : (0 : ℝ) < alpha := by
    have : 0 < alpha := by omega
    exact_mod_cast this
  simp only
  have hsqrt : Real.exp (b0Kappa D alpha) = Real.sqrt (8 * (alpha - D / 2)) := by
    unfold b0Kappa
    simp only
    rw [nu_eq, show (8.0 : ℝ) = 8 by norm_num, show (2.0 : ℝ) = 2 by norm_num, show (0.0 : ℝ) = 0 by norm_num, sub_zero,
      Real.sqrt_eq_rpow, Real.rpow_def_of_pos (by positivity)]
    congr 1; ring
  constructor
  · unfold kappaOf kappaDesign
    rw [Real.exp_add, hsqrt, neg_mulVec, Pi.neg_apply, Real.exp_neg]
    rfl
  · have hG1 := Real.Gamma_pos_of_pos hnu
    have hG2 : 0 < Real.Gamma alpha := Real.Gamma_pos_of_pos hal
    have hpi : 0 < (4 * Real.pi) ^ ((D : ℝ) / 2) := Real.rpow_pos_of_pos (by positivity) _
    have ht : tauOf D theta alpha sigma rho i ^ 2 =
        Real.Gamma (alpha - D / 2) / (Real.Gamma alpha * (4 * Real.pi) ^ ((D : ℝ) / 2)) *
          Real.exp (- 2 * (alpha - D / 2) * b0Kappa D alpha - 2 * (sigma *ᵥ theta) i +
            2 * (alpha - D / 2) * (rho *ᵥ theta) i) := by
      unfold tauOf b0Tau tauDesign kappaDesign
      simp only
      rw [nu_eq, show (0.5 : ℝ) * D = D / 2 by ring_nf, show (0.0 : ℝ) = 0 by norm_num,
        show (0.5 : ℝ) = 1 / 2 by norm_num, ← Real.exp_log (show 0 < Real.Gamma ((alpha : ℝ) - D / 2) /
          (Real.Gamma alpha * (4 * Real.pi) ^ ((D : ℝ) / 2)) by positivity), ← Real.exp_add, ← Real.exp_nat_mul]
      congr 1
      rw [Real.log_exp, sub_mulVec, neg_mulVec, smul_mulVec, neg_mulVec]
      simp only [Pi.sub_apply, Pi.neg_apply, Pi.smul_apply, smul_eq_mul]
      push_cast
      ring
    have hk : kappaOf D theta alpha rho i ^ (2 * ((alpha : ℝ) - D / 2)) =
        Real.exp (2 * (alpha - D / 2) * b0Kappa D alpha - 2 * (alpha - D / 2) * (rho *ᵥ theta) i) := by
      unfold kappaOf kappaDesign
      rw [← Real.exp_mul, neg_mulVec, Pi.neg_apply]
      congr 1; ring
    have he : Real.exp (2 * (alpha - D / 2) * b0Kappa D alpha - 2 * (alpha - D / 2) * (rho *ᵥ theta) i) *
        Real.exp (- 2 * (alpha - D / 2) * b0Kappa D alpha - 2 * (sigma *ᵥ theta) i +
          2 * (alpha - D / 2) * (rho *ᵥ theta) i) *
        Real.exp ((sigma *ᵥ theta) i) ^ 2 = 1 := by
      rw [← Real.exp_nat_mul, ← Real.exp_add, ← Real.exp_add, Real.exp_eq_one_iff]
      push_cast; ring
    rw [hk, ht, eq_div_iff (by positivity)]
    generalize Real.exp (2 * (alpha - D / 2) * b0Kappa D alpha - 2 * (alpha - D / 2) * (rho *ᵥ theta) i) = A at he
    generalize Real.exp (- 2 * (alpha - D / 2) * b0Kappa D alpha - 2 * (sigma *ᵥ theta) i +
      2 * (alpha - D / 2) * (rho *ᵥ theta) i) = B at he
    generalize Real.Gamma ((alpha : ℝ) - D / 2) = G at hG1
    field_simp
    linear_combination he

end

end Verif.Eustace.Lattice
