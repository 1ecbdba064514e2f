import Verif.Eustace.Elements.PriorProps
import Mathlib.Analysis.SpecialFunctions.ExpDeriv

/-!
C41: derivatives of prior precisions of all elements.
-/

namespace Verif.Eustace.Elements

open Verif Verif.Eustace.Mesh Verif.Eustace.Locator Verif.Eustace.Lattice Finset

noncomputable section

/-! ### Specification -/

mutual

/-- No periodic lattice, and no lattice of order zero (see `Lattice.c41_periodic_violated`). -/
def Smooth : Element → Prop
  | .latitudeSpline L _ alpha _ => (∀ k, L.wrap k = false) ∧ 1 ≤ alpha
  | .kronecker s => ∀ k, s.line.wrap k = false
  | .annualKronecker s => ∀ k, s.line.wrap k = false
  | .factor s => ∀ k, s.line.wrap k = false
  | .combination parts => SmoothAll parts
  | _ => True

def SmoothAll : List Element → Prop
  | [] => True
  | e :: rest => Smooth e ∧ SmoothAll rest

end

/-- The derivative which the prior gives for parameter `k` is that of the precision, as a function of this parameter. -/
def DerivAt (e : Element) (h : Hyper) : Prop :=
  ∀ p, e.prior h = .ok p → ∀ k < count h, ∃ (D : Arr) (Q : ℝ → Arr), p.derivative k = .ok D ∧
    (∀ t, ∃ p', e.prior (put h ((leaves h).set k t)) = .ok p' ∧ p'.precision = .ok (Q t)) ∧
    HasArrDeriv Q D p.size ((leaves h).getD k 0)

/-! ### Single elements -/

theorem deriv_scalar (n : Nat) (v : ℝ) :
    HasArrDeriv (fun t => Arr.scalar n (Real.exp (-2.0 * t))) (Arr.scalar n (-2.0 * Real.exp (-2.0 * v))) n v := by
  refine ⟨fun _ => rfl, fun _ => rfl, rfl, rfl, fun i j => ?_⟩
  simp only [Arr.scalar]
  by_cases h : i = j
  · simp only [if_pos h]
    have h1 : HasDerivAt (fun t : ℝ => -2.0 * t) (-2.0) v := by
      simpa using (hasDerivAt_id v).const_mul (-2.0)
    have h2 := h1.exp
    rwa [mul_comm] at h2
  · simp only [if_neg h]
    exact hasDerivAt_const _ _

theorem covariate_deriv (v : ℝ) (n k : Nat) (hk : k < 1) (e : Element)
    (he : ∀ v, e.prior (.covariate v) = .ok (covariatePrior v n)) :
    ∃ (D : Arr) (Q : ℝ → Arr), (covariatePrior v n).derivative k = .ok D ∧
      (∀ t, ∃ p', e.prior (put (.covariate v) ((leaves (.covariate v)).set k t)) = .ok p' ∧ p'.precision = .ok (Q t)) ∧
      HasArrDeriv Q D n ((leaves (.covariate v)).getD k 0) := by
  obtain rfl : k = 0 := by omega
  refine ⟨Arr.scalar n (-2.0 * Real.exp (-2.0 * v)), fun t => Arr.scalar n (Real.exp (-2.0 * t)),
    by simp only [covariatePrior, if_true], fun t => ⟨covariatePrior t n, ?_, rfl⟩, ?_⟩
  · simp [leaves, put, he]
  · simp only [leaves, List.getD_cons_zero]
    exact deriv_scalar n v

theorem sphere_deriv (m : Mesh V3) {p : Nat} (theta : Linear.Vec p) {alpha : Nat} (ha : 2 ≤ alpha)
    (sigma rho : Matrix (Fin m.points.length) (Fin p) ℝ) (j : Fin p) :
    ∃ (D : Arr) (Q : ℝ → Arr), arrOf (SphereSpde.buildDQdp m theta alpha sigma rho j) = .ok D ∧
      (∀ t, arrOf (SphereSpde.buildQ m (Function.update theta j t) alpha sigma rho) = .ok (Q t)) ∧
      HasArrDeriv Q D m.points.length (theta j) := by
  obtain ⟨Q, dQ, h1, h2, h3⟩ := SphereSpde.c41_sphere m theta ha sigma rho j
  exact ⟨_, _, by rw [h2]; rfl, fun t => by rw [h1 t]; rfl, deriv_ofMatrix h3⟩

theorem stationary_deriv (m : Mesh V3) (s r : ℝ) {alpha : Nat} (ha : 2 ≤ alpha) (k : Nat) (hk : k < 2) :
    ∃ (D : Arr) (Q : ℝ → Arr), sphereDerivative m s r alpha k = .ok D ∧
      (∀ t, arrOf (SphereSpde.buildQStationary m (([s, r].set k t).getD 0 0) (([s, r].set k t).getD 1 0) alpha) = .ok (Q t)) ∧
      HasArrDeriv Q D m.points.length ([s, r].getD k 0) := by
  obtain ⟨D, Q, h1, h2, h3⟩ := sphere_deriv m ![s, r] ha (SphereSpde.sigmaStationary _) (SphereSpde.rhoStationary _) ⟨k, hk⟩
  refine ⟨D, Q, ?_, fun t => ?_, ?_⟩
  · unfold sphereDerivative
    rw [dif_pos hk]
    exact h1
  · rw [← h2 t, SphereSpde.buildQStationary]
    congr 2
    funext i
    match k, hk with
    | 0, _ => fin_cases i <;> simp
    | 1, _ => fin_cases i <;> simp
  · have : (![s, r] : Fin 2 → ℝ) ⟨k, hk⟩ = [s, r].getD k 0 := by
      match k, hk with
      | 0, _ => rfl
      | 1, _ => rfl
    rw [← this]
    exact h3

theorem local_deriv (m : Mesh V3) (s r : ℝ) (k : Nat) (hk : k < 2) (e : Element)
    (he : ∀ s r, e.prior (.stationary s r) = .ok (localPrior m s r)) :
    ∃ (D : Arr) (Q : ℝ → Arr), (localPrior m s r).derivative k = .ok D ∧
      (∀ t, ∃ p', e.prior (put (.stationary s r) ((leaves (.stationary s r)).set k t)) = .ok p' ∧ p'.precision = .ok (Q t)) ∧
      HasArrDeriv Q D m.points.length ((leaves (.stationary s r)).getD k 0) := by
  obtain ⟨D, Q, h1, h2, h3⟩ := stationary_deriv m s r (alpha := 2) le_rfl k hk
  refine ⟨D, Q, ?_, fun t => ⟨localPrior m (([s, r].set k t).getD 0 0) (([s, r].set k t).getD 1 0), ?_, ?_⟩, ?_⟩
  · simp only [localPrior]
    exact h1
  · rw [leaves, put, he]
  · simp only [localPrior]
    exact h2 t
  · rw [leaves]
    exact h3

theorem line_general (L : Lattice 1) (hw : ∀ k, L.wrap k = false) {p : Nat} (theta : Linear.Vec p) {alpha : Nat}
    (ha : alpha = 1 ∨ alpha = 2) (H : Multi 1 ℝ) (sigma rho : Matrix (Fin L.size) (Fin p) ℝ) (j : Fin p) :
    ∃ (D : Arr) (Q : ℝ → Arr), arrOf (Lattice.buildDQdp L theta sigma rho alpha H j) = .ok D ∧
      (∀ t, arrOf (Lattice.buildQ L (Function.update theta j t) sigma rho alpha H) = .ok (Q t)) ∧
      HasArrDeriv Q D L.size (theta j) := by
  obtain ⟨Q, D, h1, h2, h3⟩ := c41_lattice_partial hw H theta sigma rho ha (by omega) j
  exact ⟨Arr.ofMatrix D, fun t => Arr.ofMatrix (Q t), by rw [h2]; rfl, fun t => by rw [h1 t]; rfl, deriv_ofMatrix h3⟩

theorem line_deriv (L : Lattice 1) (hw : ∀ k, L.wrap k = false) (s r : ℝ) {alpha : Nat} (ha : alpha = 1 ∨ alpha = 2)
    (H : Multi 1 ℝ) (k : Nat) (hk : k < 2) :
    ∃ (D : Arr) (Q : ℝ → Arr), lineDerivative L s r alpha H k = .ok D ∧
      (∀ t, arrOf (Lattice.buildQStationary L (([s, r].set k t).getD 0 0) (([s, r].set k t).getD 1 0) alpha H) = .ok (Q t)) ∧
      HasArrDeriv Q D L.size ([s, r].getD k 0) := by
  obtain ⟨D, Q, h1, h2, h3⟩ := line_general L hw ![s, r] ha H (sigmaStationary _) (rhoStationary _) ⟨k, hk⟩
  refine ⟨D, Q, ?_, fun t => ?_, ?_⟩
  · unfold lineDerivative
    rw [dif_pos hk]
    exact h1
  · have e : (![([s, r].set k t).getD 0 0, ([s, r].set k t).getD 1 0] : Linear.Vec 2) = Function.update ![s, r] ⟨k, hk⟩ t := by
      clear h1 h2 h3
      funext i
      match k, hk with
      | 0, _ => fin_cases i <;> simp
      | 1, _ => fin_cases i <;> simp
    unfold Lattice.buildQStationary
    rw [e]
    exact h2 t
  · have : (![s, r] : Fin 2 → ℝ) ⟨k, hk⟩ = [s, r].getD k 0 := by
      clear h1 h2 h3
      match k, hk with
      | 0, _ => rfl
      | 1, _ => rfl
    rw [← this]
    exact h3

theorem spline_deriv (L : Lattice 1) (span : Multi 1 ℝ) (alpha : Nat) (H : Multi 1 ℝ) (hw : ∀ k, L.wrap k = false)
    (ha : alpha = 1 ∨ alpha = 2) (s r : ℝ) (k : Nat) (hk : k < 2) :
    ∃ (D : Arr) (Q : ℝ → Arr), (latitudeSplinePrior L alpha H s r).derivative k = .ok D ∧
      (∀ t, ∃ p', (Element.latitudeSpline L span alpha H).prior (put (.stationary s r) ((leaves (.stationary s r)).set k t)) = .ok p' ∧
        p'.precision = .ok (Q t)) ∧
      HasArrDeriv Q D L.size ((leaves (.stationary s r)).getD k 0) := by
  obtain ⟨D, Q, h1, h2, h3⟩ := line_deriv L hw s r ha H k hk
  refine ⟨D, Q, ?_, fun t => ⟨latitudeSplinePrior L alpha H (([s, r].set k t).getD 0 0) (([s, r].set k t).getD 1 0), ?_, ?_⟩, ?_⟩
  · simp only [latitudeSplinePrior]
    exact h1
  · rw [leaves, put, Element.prior]
  · simp only [latitudeSplinePrior]
    exact h2 t
  · rw [leaves]
    exact h3

theorem kronecker_deriv (s : SpaceTime) (ha : 2 ≤ s.alpha) (hw : ∀ k, s.line.wrap k = false) (a b c : ℝ) (k : Nat) (hk : k < 3)
    (e : Element) (he : ∀ a b c, e.prior (.spaceTime a b c) = .ok (kroneckerPrior s a b c)) :
    ∃ (D : Arr) (Q : ℝ → Arr), (kroneckerPrior s a b c).derivative k = .ok D ∧
      (∀ t, ∃ p', e.prior (put (.spaceTime a b c) ((leaves (.spaceTime a b c)).set k t)) = .ok p' ∧
        p'.precision = .ok (Q t)) ∧
      HasArrDeriv Q D (s.mesh.points.length * s.line.size) ((leaves (.spaceTime a b c)).getD k 0) := by
  obtain ⟨T, hT, hTr, hTc, -⟩ := good_line s.line (Real.log 1.0) c (alpha := 1) (by omega) s.H
  obtain ⟨S, hS, hSr, hSc, -⟩ := good_sphere s.mesh ![a, b] ha (SphereSpde.sigmaStationary _) (SphereSpde.rhoStationary _)
  have hS' : arrOf (SphereSpde.buildQStationary s.mesh a b s.alpha) = .ok S := hS
  by_cases hk2 : k < 2
  · obtain ⟨D, Q, h1, h2, h3⟩ := stationary_deriv s.mesh a b ha k hk2
    refine ⟨Arr.kron T D, fun t => Arr.kron T (Q t), ?_, fun t => ?_, ?_⟩
    · simp only [kroneckerPrior]
      rw [if_pos hk2, h1, hT]
      rfl
    · refine ⟨_, by rw [leaves, put, he], ?_⟩
      simp only [kroneckerPrior]
      have h2' := h2 t
      match k, hk2 with
      | 0, _ =>
        simp only [List.set_cons_zero, List.getD_cons_zero, List.getD_cons_succ] at h2' ⊢
        rw [h2', hT]
        rfl
      | 1, _ =>
        simp only [List.set_cons_zero, List.set_cons_succ, List.getD_cons_zero, List.getD_cons_succ] at h2' ⊢
        rw [h2', hT]
        rfl
    · rw [Nat.mul_comm]
      have := deriv_kron_right T hTr hTc h3
      have e2 : (leaves (.spaceTime a b c)).getD k 0 = [a, b].getD k 0 := by
        match k, hk2 with
        | 0, _ => simp [leaves]
        | 1, _ => simp [leaves]
      rw [e2]
      exact this
  · obtain rfl : k = 2 := by omega
    obtain ⟨D, Q, h1, h2, h3⟩ := line_deriv s.line hw (Real.log 1.0) c (.inl rfl) s.H 1 (by omega)
    refine ⟨Arr.kron D S, fun t => Arr.kron (Q t) S, ?_, fun t => ?_, ?_⟩
    · simp only [kroneckerPrior]
      rw [if_neg (by omega), h1, hS']
      rfl
    · refine ⟨_, by rw [leaves, put, he], ?_⟩
      simp only [kroneckerPrior]
      have h2' := h2 t
      simp only [List.set_cons_zero, List.set_cons_succ, List.getD_cons_zero, List.getD_cons_succ] at h2' ⊢
      rw [h2', hS']
      rfl
    · rw [Nat.mul_comm]
      have := deriv_kron_left S hSr hSc h3
      simpa [leaves] using this

theorem factor_deriv (s : SpaceTime) (ha : s.alpha = 2) (hw : ∀ k, s.line.wrap k = false) (a b c : ℝ) (k : Nat) (hk : k < 3) :
    ∃ (D : Arr) (Q : ℝ → Arr), (factorPrior s a b c).derivative k = .ok D ∧
      (∀ t, ∃ p', (Element.factor s).prior (put (.spaceTime a b c) ((leaves (.spaceTime a b c)).set k t)) = .ok p' ∧
        p'.precision = .ok (Q t)) ∧
      HasArrDeriv Q D (s.mesh.points.length + s.line.size) ((leaves (.spaceTime a b c)).getD k 0) := by
  obtain ⟨T, hT, hTr, hTc, -⟩ := good_line s.line 0.0 c (alpha := s.alpha) (by omega) s.H
  obtain ⟨S, hS, hSr, hSc, -⟩ := good_sphere s.mesh ![a, b] (alpha := s.alpha) (by omega) (SphereSpde.sigmaStationary _)
    (SphereSpde.rhoStationary _)
  have hS' : arrOf (SphereSpde.buildQStationary s.mesh a b s.alpha) = .ok S := hS
  by_cases hk2 : k < 2
  · obtain ⟨D, Q, h1, h2, h3⟩ := stationary_deriv s.mesh a b (alpha := s.alpha) (by omega) k hk2
    have hl : ListDeriv ([a, b].getD k 0) [s.mesh.points.length, s.line.size] [Q, fun _ => T]
        [D, Arr.zero s.line.size s.line.size] := .cons h3 (.cons (deriv_const T _ hTr hTc _) .nil)
    obtain ⟨QQ, DD, g1, g2, g3⟩ := deriv_blockDiag hl (by simp)
    refine ⟨DD, QQ, ?_, fun t => ?_, ?_⟩
    · simp only [factorPrior]
      rw [if_pos hk2, h1]
      simpa [blocksOf, collect] using g2
    · refine ⟨_, by rw [leaves, put, Element.prior], ?_⟩
      simp only [factorPrior]
      have h2' := h2 t
      match k, hk2 with
      | 0, _ =>
        simp only [List.set_cons_zero, List.getD_cons_zero, List.getD_cons_succ] at h2' ⊢
        rw [h2', hT]
        simpa [blocksOf, collect] using g1 t
      | 1, _ =>
        simp only [List.set_cons_zero, List.set_cons_succ, List.getD_cons_zero, List.getD_cons_succ] at h2' ⊢
        rw [h2', hT]
        simpa [blocksOf, collect] using g1 t
    · have e2 : (leaves (.spaceTime a b c)).getD k 0 = [a, b].getD k 0 := by
        match k, hk2 with
        | 0, _ => simp [leaves]
        | 1, _ => simp [leaves]
      rw [e2]
      simpa using g3
  · obtain rfl : k = 2 := by omega
    obtain ⟨D, Q, h1, h2, h3⟩ := line_deriv s.line hw 0.0 c (.inr ha) s.H 1 (by omega)
    have hl : ListDeriv ([(0.0 : ℝ), c].getD 1 0) [s.mesh.points.length, s.line.size] [fun _ => S, Q]
        [Arr.zero s.mesh.points.length s.mesh.points.length, D] := .cons (deriv_const S _ hSr hSc _) (.cons h3 .nil)
    obtain ⟨QQ, DD, g1, g2, g3⟩ := deriv_blockDiag hl (by simp)
    refine ⟨DD, QQ, ?_, fun t => ?_, ?_⟩
    · simp only [factorPrior]
      rw [if_neg (by omega), h1]
      simpa [blocksOf, collect] using g2
    · refine ⟨_, by rw [leaves, put, Element.prior], ?_⟩
      simp only [factorPrior]
      have h2' := h2 t
      simp only [List.set_cons_zero, List.set_cons_succ, List.getD_cons_zero, List.getD_cons_succ] at h2' ⊢
      rw [h2', hS']
      simpa [blocksOf, collect] using g1 t
    · simpa [leaves] using g3

theorem nonstationary_deriv (m : Mesh V3) (s r : List ℝ) (hs : s.length = m.points.length) (hr : r.length = m.points.length)
    (k : Nat) (hk : k < (s ++ r).length) :
    ∃ (D : Arr) (Q : ℝ → Arr), (nonstationaryPrior m s r).derivative k = .ok D ∧
      (∀ t, ∃ p', (Element.nonstationary m).prior (put (.expanded s r) ((leaves (.expanded s r)).set k t)) = .ok p' ∧
        p'.precision = .ok (Q t)) ∧
      HasArrDeriv Q D m.points.length ((leaves (.expanded s r)).getD k 0) := by
  have hlen : (s ++ r).length = m.points.length + m.points.length := by simp [hs, hr]
  obtain ⟨D, Q, h1, h2, h3⟩ := sphere_deriv m (fun i : Fin (m.points.length + m.points.length) => (s ++ r).getD i.val 0)
    (alpha := 2) le_rfl (SphereSpde.sigmaExpanded _) (SphereSpde.rhoExpanded _) ⟨k, by omega⟩
  refine ⟨D, Q, ?_, fun t => ?_, h3⟩
  · simp only [nonstationaryPrior]
    rw [if_neg (by simp [hlen]), dif_pos (by omega)]
    exact h1
  · refine ⟨_, by rw [leaves, put, Element.prior], ?_⟩
    simp only [nonstationaryPrior, List.take_append_drop]
    rw [if_neg (by simp [hs, hr]), ← h2 t]
    congr 2
    funext i
    by_cases hi : i.val = k
    · subst hi
      rw [show (⟨i.val, by omega⟩ : Fin (m.points.length + m.points.length)) = i from rfl, Function.update_self]
      rw [List.length_append] at hk
      simp [List.getD, List.getElem?_set, hk]
    · rw [Function.update_of_ne (by simpa [Fin.ext_iff] using hi)]
      simp only [List.getD]
      rw [List.getElem?_set_ne (Ne.symm hi)]

theorem listDeriv_map {x : ℝ} {n : Nat} (l : List Nat) (f : ℝ → Nat → Except PyErr Arr) (df : Nat → Except PyErr Arr)
    (h : ∀ c ∈ l, ∃ (D : Arr) (Q : ℝ → Arr), df c = .ok D ∧ (∀ t, f t c = .ok (Q t)) ∧ HasArrDeriv Q D n x) :
    ∃ Qs Ds, (∀ t, collect (l.map (f t)) = .ok (Qs.map fun Q => Q t)) ∧ collect (l.map df) = .ok Ds ∧
      ListDeriv x (List.replicate l.length n) Qs Ds := by
  induction l with
  | nil => exact ⟨[], [], fun _ => rfl, rfl, .nil⟩
  | cons c rest ih =>
    obtain ⟨D, Q, h1, h2, h3⟩ := h c (by simp)
    obtain ⟨Qs, Ds, g1, g2, g3⟩ := ih fun d hd => h d (by simp [hd])
    refine ⟨Q :: Qs, D :: Ds, fun t => ?_, ?_, ?_⟩
    · simp [collect, h2 t, g1 t]
    · simp [collect, h1, g2]
    · rw [List.length_cons, List.replicate_succ]
      exact .cons h3 g3

theorem getD_set_self (l : List ℝ) (k : Nat) (t : ℝ) (h : k < l.length) : (l.set k t).getD k 0 = t := by
  simp [List.getD, List.getElem?_set, h]

theorem getD_set_ne (l : List ℝ) (k j : Nat) (t : ℝ) (h : j ≠ k) : (l.set k t).getD j 0 = l.getD j 0 := by
  simp only [List.getD]
  rw [List.getElem?_set_ne (Ne.symm h)]

theorem seasonal_deriv (m : Mesh V3) (n : Nat) (mean : Bool) (harmonics : List ℝ)
    (hl : 2 * (n + mean.toNat) ≤ harmonics.length) (hpos : 0 < seasonalCount n mean) (k : Nat) (hk : k < harmonics.length) :
    ∃ (D : Arr) (Q : ℝ → Arr), (seasonalPrior m n mean harmonics).derivative k = .ok D ∧
      (∀ t, ∃ p', (Element.seasonal m n mean).prior (put (.seasonal harmonics) ((leaves (.seasonal harmonics)).set k t)) = .ok p' ∧
        p'.precision = .ok (Q t)) ∧
      HasArrDeriv Q D (seasonalCount n mean * m.points.length) ((leaves (.seasonal harmonics)).getD k 0) := by
  obtain ⟨Qs, Ds, g1, g2, g3⟩ := listDeriv_map (x := harmonics.getD k 0) (n := m.points.length)
    (List.range (seasonalCount n mean)) (fun t => seasonalBlock m mean (harmonics.set k t))
    (seasonalDerivativeBlock m mean harmonics k) (by
      intro c hc
      have hidx := harmonicIndex_lt (n := n) (mean := mean) (component := c) (by simpa using hc)
      generalize hi : harmonicIndex mean c = i at hidx
      by_cases hki : k / 2 = i
      · obtain ⟨D, Q, h1, h2, h3⟩ := stationary_deriv m (harmonics.getD (2 * i) 0) (harmonics.getD (2 * i + 1) 0) (alpha := 2)
          le_rfl (k % 2) (by omega)
        refine ⟨D, Q, ?_, fun t => ?_, ?_⟩
        · unfold seasonalDerivativeBlock
          rw [hi, if_pos hki, harmonicParameters_ok (by omega)]
          exact h1
        · unfold seasonalBlock
          rw [hi, harmonicParameters_ok (by rw [List.length_set]; omega)]
          simp only
          rw [← h2 t]
          rcases Nat.mod_two_eq_zero_or_one k with h0 | h0
          · have e : k = 2 * i := by omega
            rw [h0]
            subst e
            rw [getD_set_self _ _ _ hk, getD_set_ne _ _ _ _ (by omega)]
            simp
          · have e : k = 2 * i + 1 := by omega
            rw [h0]
            subst e
            rw [getD_set_self _ _ _ hk, getD_set_ne _ _ _ _ (by omega)]
            simp
        · have e : [harmonics.getD (2 * i) 0, harmonics.getD (2 * i + 1) 0].getD (k % 2) 0 = harmonics.getD k 0 := by
            rcases Nat.mod_two_eq_zero_or_one k with h0 | h0
            · have e : k = 2 * i := by omega
              rw [h0, e]
              rfl
            · have e : k = 2 * i + 1 := by omega
              rw [h0, e]
              rfl
          rw [← e]
          exact h3
      · obtain ⟨A, hA, hAr, hAc, -⟩ := good_sphere m ![harmonics.getD (2 * i) 0, harmonics.getD (2 * i + 1) 0] (alpha := 2)
          le_rfl (SphereSpde.sigmaStationary _) (SphereSpde.rhoStationary _)
        refine ⟨Arr.zero m.points.length m.points.length, fun _ => A, ?_, fun t => ?_, deriv_const A _ hAr hAc _⟩
        · unfold seasonalDerivativeBlock
          rw [hi, if_neg hki]
        · unfold seasonalBlock
          rw [hi, harmonicParameters_ok (by rw [List.length_set]; omega)]
          simp only
          rw [getD_set_ne _ _ _ _ (by omega), getD_set_ne _ _ _ _ (by omega)]
          exact hA)
  obtain ⟨Q, D, f1, f2, f3⟩ := deriv_blockDiag g3 (by
    rw [List.length_range]
    intro h0
    rw [List.replicate_eq_nil_iff] at h0
    omega)
  refine ⟨D, Q, ?_, fun t => ?_, ?_⟩
  · simp only [seasonalPrior]
    rw [g2]
    exact f2
  · refine ⟨_, by rw [leaves, put, Element.prior], ?_⟩
    simp only [seasonalPrior]
    rw [g1 t]
    exact f1 t
  · rw [List.length_range, List.sum_replicate, smul_eq_mul] at f3
    exact f3

/-! ### Combinations -/

theorem zeros_deriv (x : ℝ) (parts : List Hyper) (priors : List Prior) (hl : parts.length = priors.length)
    (hg : ∀ p ∈ priors, ∃ c, Good p.size c p.precision) (off k : Nat) (hk : k < off) :
    ∃ Qs Ds, combinedDerivatives k (rangesFrom off (parts.map count)) priors = .ok Ds ∧
      (∀ t : ℝ, collect (priors.map Prior.precision) = .ok (Qs.map fun Q => Q t)) ∧
      ListDeriv x (priors.map Prior.size) Qs Ds := by
  induction parts generalizing priors off with
  | nil =>
    cases priors with
    | nil => exact ⟨[], [], rfl, fun _ => rfl, .nil⟩
    | cons _ _ => simp at hl
  | cons h parts ih =>
    cases priors with
    | nil => simp at hl
    | cons p priors =>
      obtain ⟨c, A, hA, hr, hc, -⟩ := hg p (by simp)
      obtain ⟨Qs, Ds, h1, h2, h3⟩ := ih priors (by simpa using hl) (fun q hq => hg q (by simp [hq])) (off + count h) (by omega)
      refine ⟨(fun _ => A) :: Qs, Arr.zero p.size p.size :: Ds, ?_, fun t => ?_, .cons (deriv_const A _ hr hc x) h3⟩
      · simp only [List.map_cons, rangesFrom, combinedDerivatives]
        rw [if_neg (by omega)]
        simp only [h1]
      · simp [collect, hA, h2 t]

theorem list_deriv (elements : List Element) (parts : List Hyper)
    (h : List.Forall₂ (fun e h => Fits e h ∧ Allowed e ∧ Balanced h ∧ DerivAt e h) elements parts) (priors : List Prior)
    (hp : priorsOf elements parts = .ok priors) (off k : Nat) (h1 : off ≤ k) (h2 : k < off + (leavesAll parts).length) :
    ∃ Qs Ds, combinedDerivatives k (rangesFrom off (parts.map count)) priors = .ok Ds ∧
      (∀ t, ∃ priors', priorsOf elements (putAll parts ((leavesAll parts).set (k - off) t)) = .ok priors' ∧
        collect (priors'.map Prior.precision) = .ok (Qs.map fun Q => Q t)) ∧
      ListDeriv ((leavesAll parts).getD (k - off) 0) (priors.map Prior.size) Qs Ds := by
  induction h generalizing priors off with
  | nil =>
    simp only [leavesAll, List.length_nil, add_zero] at h2
    omega
  | @cons e a elements parts he hrest ih =>
    simp only [priorsOf] at hp
    obtain ⟨hf, hal, hb, hd⟩ := he
    obtain ⟨p, hpe, hgood⟩ := precision_good e a hf hal
    rw [hpe] at hp
    simp only at hp
    cases hpr : priorsOf elements parts with
    | error err => rw [hpr] at hp; simp at hp
    | ok l =>
      rw [hpr] at hp
      simp only [Except.ok.injEq] at hp
      subst hp
      simp only [leavesAll, List.length_append] at h2
      have hca : (leaves a).length = count a := rfl
      by_cases hin : k < off + count a
      · -- the parameter is one of the first element
        obtain ⟨D, Q, d1, d2, d3⟩ := hd p hpe (k - off) (by omega)
        have hba : BalancedAll parts := by
          clear ih hpr h2
          induction hrest with
          | nil => simp [BalancedAll]
          | cons h0 _ ih2 =>
            simp only [BalancedAll]
            exact ⟨h0.2.2.1, ih2⟩
        have hfits : FitsAll elements parts ∧ AllowedAll elements := by
          clear ih hpr h2 hba
          induction hrest with
          | nil => simp [FitsAll, AllowedAll]
          | cons h0 _ ih2 =>
            refine ⟨?_, ?_⟩
            · simp only [FitsAll]
              exact ⟨h0.1, ih2.1⟩
            · simp only [AllowedAll]
              exact ⟨h0.2.1, ih2.2⟩
        obtain ⟨l', hl', hgl⟩ := precisions_good elements parts hfits.1 hfits.2
        rw [hpr] at hl'
        obtain rfl := Except.ok.inj hl'
        obtain ⟨Qs, Ds, z1, z2, z3⟩ := zeros_deriv ((leavesAll (a :: parts)).getD (k - off) 0) parts l
          (by rw [← hrest.length_eq, (priorsOf_forall₂ elements parts l hpr).length_eq]) (fun q hq => ⟨_, hgl q hq⟩)
          (off + count a) k hin
        refine ⟨Q :: Qs, D :: Ds, ?_, fun t => ?_, ?_⟩
        · simp only [List.map_cons, rangesFrom, combinedDerivatives]
          rw [if_pos ⟨h1, hin⟩, d1]
          simp only [z1]
        · obtain ⟨p', q1, q2⟩ := d2 t
          refine ⟨p' :: l, ?_, ?_⟩
          · have e1 : ((leaves a ++ leavesAll parts).set (k - off) t).take (count a) = (leaves a).set (k - off) t := by
              rw [List.set_append_left _ _ (by omega)]
              have : count a = ((leaves a).set (k - off) t).length := by rw [List.length_set]; rfl
              rw [this, List.take_left]
            have e2 : ((leaves a ++ leavesAll parts).set (k - off) t).drop (count a) = leavesAll parts := by
              rw [List.set_append_left _ _ (by omega)]
              have : count a = ((leaves a).set (k - off) t).length := by rw [List.length_set]; rfl
              rw [this, List.drop_left]
            simp only [leavesAll, putAll, priorsOf]
            rw [e1, e2, q1, putAll_leaves parts hba, hpr]
          · simp [collect, q2, z2 t]
        · simp only [List.map_cons]
          refine .cons ?_ z3
          have : (leavesAll (a :: parts)).getD (k - off) 0 = (leaves a).getD (k - off) 0 := by
            simp only [leavesAll]
            exact getD_append_left' _ _ _ (by omega)
          rw [this]
          exact d3
      · -- it is one of the others
        obtain ⟨Qs, Ds, g1, g2, g3⟩ := ih l hpr (off + count a) (by omega) (by omega)
        obtain ⟨A, hA, hAr, hAc, -⟩ := hgood
        refine ⟨(fun _ => A) :: Qs, Arr.zero p.size p.size :: Ds, ?_, fun t => ?_, ?_⟩
        · simp only [List.map_cons, rangesFrom, combinedDerivatives]
          rw [if_neg (by omega)]
          simp only [g1]
        · obtain ⟨l', q1, q2⟩ := g2 t
          refine ⟨p :: l', ?_, ?_⟩
          · have e0 : (leaves a ++ leavesAll parts).set (k - off) t =
                leaves a ++ (leavesAll parts).set (k - (off + count a)) t := by
              rw [List.set_append_right _ _ (by omega)]
              congr 2
              omega
            have e1 : (leaves a ++ (leavesAll parts).set (k - (off + count a)) t).take (count a) = leaves a := by
              rw [← hca, List.take_left]
            have e2 : (leaves a ++ (leavesAll parts).set (k - (off + count a)) t).drop (count a) =
                (leavesAll parts).set (k - (off + count a)) t := by
              rw [← hca, List.drop_left]
            simp only [leavesAll, putAll, priorsOf]
            rw [e0, e1, e2, put_leaves a hb, hpe, q1]
          · simp [collect, hA, q2]
        · simp only [List.map_cons]
          have : (leavesAll (a :: parts)).getD (k - off) 0 = (leavesAll parts).getD (k - (off + count a)) 0 := by
            simp only [leavesAll]
            have e : k - off = (leaves a).length + (k - (off + count a)) := by omega
            rw [e, getD_append_right']
          rw [this]
          exact .cons (deriv_const A _ hAr hAc _) g3

theorem combination_deriv (elements : List Element) (parts : List Hyper)
    (h : List.Forall₂ (fun e h => Fits e h ∧ Allowed e ∧ Balanced h ∧ DerivAt e h) elements parts) (hall : ProperAll parts)
    (priors : List Prior) (hp : priorsOf elements parts = .ok priors) (k : Nat) (hk : k < (leavesAll parts).length) :
    ∃ (D : Arr) (Q : ℝ → Arr), (combinedPrior parts priors).derivative k = .ok D ∧
      (∀ t, ∃ priors', priorsOf elements (putAll parts ((leavesAll parts).set k t)) = .ok priors' ∧
        (combinedPrior (putAll parts ((leavesAll parts).set k t)) priors').precision = .ok (Q t)) ∧
      HasArrDeriv Q D (combinedPrior parts priors).size ((leavesAll parts).getD k 0) := by
  obtain ⟨Qs, Ds, h1, h2, h3⟩ := list_deriv elements parts h priors hp 0 k (by omega) (by omega)
  have hne : priors.map Prior.size ≠ [] := by
    intro h0
    rw [List.map_eq_nil_iff] at h0
    subst h0
    have e1 := (priorsOf_forall₂ elements parts [] hp).length_eq
    rw [h.length_eq] at e1
    rw [List.length_eq_zero_iff.mp e1] at hk
    simp [leavesAll] at hk
  obtain ⟨Q, D, f1, f2, f3⟩ := deriv_blockDiag h3 hne
  refine ⟨D, Q, ?_, fun t => ?_, ?_⟩
  · simp only [combinedPrior]
    have e1 : elementRanges parts = .ok (rangesFrom 0 (parts.map count)) := by
      unfold elementRanges
      rw [getArrays_proper parts hall]
      simp only [List.map_map]
      rfl
    rw [e1]
    simp only [h1]
    exact f2
  · obtain ⟨priors', q1, q2⟩ := h2 t
    refine ⟨priors', q1, ?_⟩
    show blocksOf (priors'.map Prior.precision) = _
    unfold blocksOf
    rw [q2]
    exact f1 t
  · exact f3

mutual

theorem fits_balanced : ∀ e h, Fits e h → Balanced h
  | .bias _ _, h, hf => by cases h <;> simp [Fits, Balanced] at hf ⊢
  | .grandMean, h, hf => by cases h <;> simp [Fits, Balanced] at hf ⊢
  | .geography _, h, hf => by cases h <;> simp [Fits, Balanced] at hf ⊢
  | .latitudeHarmonics, h, hf => by
    cases h <;> simp only [Fits] at hf
    rename_i parts
    simp only [Balanced]
    obtain ⟨vs, rfl, -⟩ := covariateParts_ok parts hf.2
    clear hf
    induction vs with
    | nil => simp [BalancedAll]
    | cons v rest ih =>
      simp only [List.map_cons, BalancedAll, Balanced]
      exact ⟨trivial, ih⟩
  | .latitudeSpline _ _ _ _, h, hf => by cases h <;> simp [Fits, Balanced] at hf ⊢
  | .stationary _, h, hf => by cases h <;> simp [Fits, Balanced] at hf ⊢
  | .nonstationary m, h, hf => by
    cases h <;> simp only [Fits] at hf
    simp only [Balanced]
    rw [hf.1, hf.2]
  | .spatialBias _ _, h, hf => by cases h <;> simp [Fits, Balanced] at hf ⊢
  | .seasonal _ _ _, h, hf => by cases h <;> simp [Fits, Balanced] at hf ⊢
  | .kronecker _, h, hf => by cases h <;> simp [Fits, Balanced] at hf ⊢
  | .annualKronecker _, h, hf => by cases h <;> simp [Fits, Balanced] at hf ⊢
  | .factor _, h, hf => by cases h <;> simp [Fits, Balanced] at hf ⊢
  | .combination elements, h, hf => by
    cases h <;> simp only [Fits] at hf
    simp only [Balanced]
    exact fitsAll_balanced elements _ hf

theorem fitsAll_balanced : ∀ es hs, FitsAll es hs → BalancedAll hs
  | [], [], _ => by simp [BalancedAll]
  | [], _ :: _, hf => by simp [FitsAll] at hf
  | _ :: _, [], hf => by simp [FitsAll] at hf
  | e :: es, h :: hs, hf => by
    simp only [FitsAll] at hf
    simp only [BalancedAll]
    exact ⟨fits_balanced e h hf.1, fitsAll_balanced es hs hf.2⟩

end

theorem grandMean_deriv (v : ℝ) : DerivAt .grandMean (.covariate v) := by
  intro p hp k hk
  simp only [Element.prior, Except.ok.injEq] at hp
  subst hp
  exact covariate_deriv v 1 k hk _ fun v => by rw [Element.prior]

theorem harmonics_as_combination (vs : List ℝ) :
    priorsOf (vs.map fun _ => Element.grandMean) (vs.map Hyper.covariate) = covariateParts (vs.map Hyper.covariate) := by
  induction vs with
  | nil => rfl
  | cons v rest ih =>
    simp only [List.map_cons, priorsOf, covariateParts, Element.prior]
    rw [ih]

theorem putAll_covariates (vs : List ℝ) (w : List ℝ) (hw : w.length = vs.length) :
    putAll (vs.map Hyper.covariate) w = w.map Hyper.covariate := by
  induction vs generalizing w with
  | nil =>
    have : w = [] := by simpa using hw
    subst this
    rfl
  | cons v rest ih =>
    cases w with
    | nil => simp at hw
    | cons a w =>
      have : count (.covariate v) = 1 := rfl
      simp only [List.map_cons, putAll, this]
      rw [show (a :: w).drop 1 = w from rfl, ih w (by simpa using hw)]
      simp [put]

theorem leavesAll_covariates (vs : List ℝ) : leavesAll (vs.map Hyper.covariate) = vs := by
  induction vs with
  | nil => rfl
  | cons v rest ih => simp [leavesAll, leaves, ih]

mutual

theorem element_deriv : ∀ e h, Fits e h → Allowed e → Smooth e → Proper h → DerivAt e h
  | .bias group n, h, hf, _, _, _ => by
    cases h <;> simp only [Fits] at hf
    intro p hp k hk
    simp only [Element.prior, Except.ok.injEq] at hp
    subst hp
    exact covariate_deriv _ n k hk _ fun v => by rw [Element.prior]
  | .grandMean, h, hf, _, _, _ => by
    cases h <;> simp only [Fits] at hf
    exact grandMean_deriv _
  | .geography value, h, hf, _, _, _ => by
    cases h <;> simp only [Fits] at hf
    intro p hp k hk
    simp only [Element.prior, Except.ok.injEq] at hp
    subst hp
    exact covariate_deriv _ 1 k hk _ fun v => by rw [Element.prior]
  | .latitudeHarmonics, h, hf, _ha, _hs, hpr => by
    cases h <;> simp only [Fits] at hf
    rename_i parts
    obtain ⟨vs, rfl, -⟩ := covariateParts_ok parts hf.2
    have h4 : vs.length = 4 := by simpa using hf.1
    unfold Proper at hpr
    intro p hp k hk
    simp only [Element.prior] at hp
    rw [if_neg (by simp [h4, latitudeHarmonics])] at hp
    cases hc : covariateParts (vs.map Hyper.covariate) with
    | error err => rw [hc] at hp; simp at hp
    | ok priors =>
      rw [hc] at hp
      simp only [Except.ok.injEq] at hp
      subst hp
      obtain ⟨D, Q, h1, h2, h3⟩ := combination_deriv (vs.map fun _ => Element.grandMean) (vs.map Hyper.covariate) (by
        rw [List.forall₂_map_left_iff, List.forall₂_map_right_iff, List.forall₂_same]
        intro v _
        exact ⟨by simp [Fits], by simp [Allowed], by simp [Balanced], grandMean_deriv v⟩) hpr.1 priors
        (by rw [harmonics_as_combination, hc]) k hk
      refine ⟨D, Q, h1, fun t => ?_, h3⟩
      obtain ⟨priors', q1, q2⟩ := h2 t
      have hw : ((leavesAll (vs.map Hyper.covariate)).set k t).length = vs.length := by
        rw [leavesAll_covariates, List.length_set]
      refine ⟨_, ?_, q2⟩
      simp only [leaves, put]
      rw [putAll_covariates vs _ hw] at q1 ⊢
      simp only [Element.prior]
      rw [if_neg (by rw [List.length_map, hw, h4]; simp [latitudeHarmonics])]
      have e : vs.map (fun _ => Element.grandMean) =
          ((leavesAll (vs.map Hyper.covariate)).set k t).map fun _ => Element.grandMean := by
        apply List.ext_getElem
        · rw [List.length_map, List.length_map, hw]
        · intro i _ _
          simp
      rw [e, harmonics_as_combination] at q1
      rw [q1]
  | .latitudeSpline L span alpha H, h, hf, ha, hs, _hp => by
    cases h <;> simp only [Fits] at hf
    simp only [Allowed] at ha
    simp only [Smooth] at hs
    intro p hp k hk
    simp only [Element.prior, Except.ok.injEq] at hp
    subst hp
    exact spline_deriv L span alpha H hs.1 (by omega) _ _ k hk
  | .stationary m, h, hf, _ha, _hs, _hp => by
    cases h <;> simp only [Fits] at hf
    rename_i s r
    intro p hp k hk
    simp only [Element.prior, Except.ok.injEq] at hp
    subst hp
    exact local_deriv m s r k hk _ fun s r => by rw [Element.prior]
  | .nonstationary m, h, hf, _ha, _hs, _hp => by
    cases h <;> simp only [Fits] at hf
    rename_i s r
    intro p hp k hk
    simp only [Element.prior, Except.ok.injEq] at hp
    subst hp
    exact nonstationary_deriv m s r hf.1 hf.2 k hk
  | .spatialBias group m, h, hf, _ha, _hs, _hp => by
    cases h <;> simp only [Fits] at hf
    rename_i s r
    intro p hp k hk
    simp only [Element.prior, Except.ok.injEq] at hp
    subst hp
    exact local_deriv m s r k hk _ fun s r => by rw [Element.prior]
  | .seasonal m n mean, h, hf, ha, _, _ => by
    cases h <;> simp only [Fits] at hf
    simp only [Allowed] at ha
    intro p hp k hk
    simp only [Element.prior, Except.ok.injEq] at hp
    subst hp
    exact seasonal_deriv m n mean _ hf ha k hk
  | .kronecker s, h, hf, ha, hs, _ => by
    cases h <;> simp only [Fits] at hf
    simp only [Allowed] at ha
    simp only [Smooth] at hs
    intro p hp k hk
    simp only [Element.prior, Except.ok.injEq] at hp
    subst hp
    exact kronecker_deriv s ha hs _ _ _ k hk _ fun a b c => by rw [Element.prior]
  | .annualKronecker s, h, hf, ha, hs, _ => by
    cases h <;> simp only [Fits] at hf
    simp only [Allowed] at ha
    simp only [Smooth] at hs
    intro p hp k hk
    simp only [Element.prior, Except.ok.injEq] at hp
    subst hp
    exact kronecker_deriv s ha hs _ _ _ k hk _ fun a b c => by rw [Element.prior]
  | .factor s, h, hf, ha, hs, _ => by
    cases h <;> simp only [Fits] at hf
    simp only [Allowed] at ha
    simp only [Smooth] at hs
    intro p hp k hk
    simp only [Element.prior, Except.ok.injEq] at hp
    subst hp
    exact factor_deriv s ha hs _ _ _ k hk
  | .combination elements, h, hf, ha, hs, hpr => by
    cases h <;> simp only [Fits] at hf
    rename_i parts
    simp only [Allowed] at ha
    simp only [Smooth] at hs
    unfold Proper at hpr
    intro p hp k hk
    simp only [Element.prior] at hp
    cases hc : priorsOf elements parts with
    | error err => rw [hc] at hp; simp at hp
    | ok priors =>
      rw [hc] at hp
      simp only [Except.ok.injEq] at hp
      subst hp
      obtain ⟨D, Q, h1, h2, h3⟩ := combination_deriv elements parts (elements_deriv elements parts hf ha.2 hs hpr.1) hpr.1 priors hc
        k hk
      refine ⟨D, Q, h1, fun t => ?_, h3⟩
      obtain ⟨priors', q1, q2⟩ := h2 t
      refine ⟨_, ?_, q2⟩
      simp only [leaves, put, Element.prior]
      rw [q1]

theorem elements_deriv : ∀ es hs, FitsAll es hs → AllowedAll es → SmoothAll es → ProperAll hs →
    List.Forall₂ (fun e h => Fits e h ∧ Allowed e ∧ Balanced h ∧ DerivAt e h) es hs
  | [], [], _, _, _, _ => .nil
  | [], _ :: _, hf, _, _, _ => by simp [FitsAll] at hf
  | _ :: _, [], hf, _, _, _ => by simp [FitsAll] at hf
  | e :: es, h :: hs, hf, ha, hsm, hp => by
    simp only [FitsAll] at hf
    simp only [AllowedAll] at ha
    simp only [SmoothAll] at hsm
    unfold ProperAll at hp
    exact .cons ⟨hf.1, ha.1, fits_balanced e h hf.1, element_deriv e h hf.1 ha.1 hsm.1 hp.1⟩
      (elements_deriv es hs hf.2 ha.2 hsm.2 hp.2)

end

/-- **C41 for all elements** without periodic lattices: for each hyperparameter, in the order of `get_array`, the derivative
which the prior gives is the derivative of the precision matrix, entry by entry, as a function of the value which is set by
`set_array` at that place.  For periodic lattices see `Lattice.c41_periodic_violated`. -/
theorem c41_elements_partial (e : Element) (h : Hyper) (hf : Fits e h) (ha : Allowed e) (hs : Smooth e) (hp : Proper h) :
    ∃ p v, e.prior h = .ok p ∧ getArray h = .ok v ∧ ∀ k < v.length, ∃ (D : Arr) (Q : ℝ → Arr), p.derivative k = .ok D ∧
      (∀ t, ∃ h' p', setArray h (v.set k t) = .ok h' ∧ e.prior h' = .ok p' ∧ p'.precision = .ok (Q t)) ∧
      p.precision = .ok (Q (v.getD k 0)) ∧ HasArrDeriv Q D p.size (v.getD k 0) := by
  obtain ⟨p, h1, -⟩ := precision_good e h hf ha
  refine ⟨p, leaves h, h1, getArray_proper h hp, ?_⟩
  intro k hk
  obtain ⟨D, Q, d1, d2, d3⟩ := element_deriv e h hf ha hs hp p h1 k hk
  refine ⟨D, Q, d1, fun t => ?_, ?_, d3⟩
  · obtain ⟨p', q1, q2⟩ := d2 t
    exact ⟨_, p', setArray_proper h _ hp (by rw [List.length_set]; rfl), q1, q2⟩
  · obtain ⟨p', q1, q2⟩ := d2 ((leaves h).getD k 0)
    have e1 : (leaves h).set k ((leaves h).getD k 0) = leaves h := by
      have hk' : k < (leaves h).length := hk
      apply List.ext_getElem
      · simp
      · intro i h1 h2
        rw [List.getElem_set]
        split
        · subst_vars
          simp [List.getD, h2]
        · rfl
    rw [e1, put_leaves h (fits_balanced e h hf), h1] at q1
    obtain rfl := Except.ok.inj q1
    exact q2

/-- A combination with a seasonal field, a space-time element and a part which is a combination meets the hypotheses. -/
example (m : Mesh V3) (L : Lattice 1) (hw : ∀ k, L.wrap k = false) (span H : Multi 1 ℝ) :
    Fits (.combination [.seasonal m 2 true, .kronecker ⟨m, 2, L, span, H⟩, .combination [.grandMean, .stationary m]])
      (.combination [.seasonal [1, 2, 3, 4, 5, 6], .spaceTime 1 2 3, .combination [.covariate 4, .stationary 5 6]]) ∧
    Allowed (.combination [.seasonal m 2 true, .kronecker ⟨m, 2, L, span, H⟩, .combination [.grandMean, .stationary m]]) ∧
    Smooth (.combination [.seasonal m 2 true, .kronecker ⟨m, 2, L, span, H⟩, .combination [.grandMean, .stationary m]]) ∧
    Proper (.combination [.seasonal [1, 2, 3, 4, 5, 6], .spaceTime 1 2 3, .combination [.covariate 4, .stationary 5 6]]) := by
  simp [Fits, FitsAll, Allowed, AllowedAll, Smooth, SmoothAll, Proper, ProperAll, count, leaves, leavesAll, seasonalCount, hw]

end

end Verif.Eustace.Elements
