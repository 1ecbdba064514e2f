import Verif.Eustace.Fit.Props

/-!
C173: a case which meets the hypotheses, and where the optimisation falls short.
-/

namespace Verif.Eustace.Fit

open Verif Matrix Verif.Eustace.Linear Verif.Eustace.Qinv Verif.Eustace.CostFunction Verif.Eustace.Components
open Verif.Eustace.Elements (Hyper getArray setArray put leaves count Proper)

noncomputable section

/-! ### One state parameter -/

theorem one_layout (pattern : Fin 1 → Fin 1 → Prop) (h : pattern 0 0) : Layout 1 (fun _ => 0) id pattern where
  sorted j p q h1 h2 h3 := by
    have : (j : Nat) = 0 := by omega
    simp only [id, this] at h1 h3
    omega
  row j p h1 h2 := ⟨0, rfl, by rw [Subsingleton.elim j 0]; exact h⟩
  position i j _ := ⟨j, le_refl _, Nat.lt_succ_self _, by rw [Subsingleton.elim i 0]; rfl⟩
  start := rfl
  mono j := Nat.le_succ _

/-- The factorisation of a positive number. -/
def oneSolver (P : Mat 1) (hP : 0 < P 0 0) : Solver P where
  cholmod :=
    { L := Matrix.of fun _ _ => Real.sqrt (P 0 0)
      p := 1
      lower := fun i j h => absurd h (by rw [Subsingleton.elim i j]; exact lt_irrefl _)
      diagonal := fun _ => Real.sqrt_pos.2 hP
      factor := by
        ext i j
        rw [Subsingleton.elim i 0, Subsingleton.elim j 0]
        simp [Matrix.mul_apply, Real.mul_self_sqrt hP.le]
      csc := ⟨fun _ => Real.sqrt (P 0 0), fun _ => 0, id⟩
      stored := fun _ _ => True
      layout := one_layout _ trivial
      value := fun _ _ _ _ _ _ => rfl
      keeps := fun _ _ _ => trivial
      triangle := fun i j _ => (Subsingleton.elim j i).le }
  sigma :=
    { indices := fun _ => 0
      indptr := id
      layout := one_layout _ (by simp only [sumPattern, Matrix.of_apply]; have := Real.sqrt_pos.2 hP; positivity) }

open Classical in
/-- Factorisation of numbers: those which are not positive are refused. -/
def oneCholesky (P : Mat 1) : Except PyErr (Solver P) :=
  if hP : 0 < P 0 0 then .ok (oneSolver P hP) else .error .other

theorem oneCholesky_ok (P : Mat 1) (hP : 0 < P 0 0) : ∃ s, oneCholesky P = .ok s ∧ Closed s.cholmod.L :=
  ⟨oneSolver P hP, dif_pos hP, fun i j _ h => absurd h (by rw [Subsingleton.elim i j]; exact lt_irrefl _)⟩

/-- A grand mean with one hyperparameter. -/
def one (v : ℝ) : Hyper := .covariate v

theorem one_precision (v : ℝ) (w : List ℝ) (i j : Fin 1) :
    precisionAt .grandMean 1 (one v) w i j = Real.exp (-2.0 * w.getD 0 0) := by
  rw [Subsingleton.elim i j]
  have e : (ofElement .grandMean 1).precision (put (one v) w) =
      .ok (Elements.toMatrix 1 (Elements.Arr.scalar 1 (Real.exp (-2.0 * w.getD 0 0)))) := by
    have h1 : Elements.Element.prior .grandMean (put (one v) w) = .ok (Elements.covariatePrior (w.getD 0 0) 1) := by
      rw [one, put, Elements.Element.prior]
    rw [ofElement]
    simp only
    rw [h1]
    rfl
  rw [precisionAt, e]
  simp only [okay, Elements.toMatrix, Elements.Arr.scalar, Matrix.of_apply, if_true]

theorem one_regular (v : ℝ) (rs : List (Replicate 1)) (hi : ∀ r ∈ rs, r.qIncrement.PosSemidef) :
    Regular (ofElement .grandMean 1) oneCholesky rs (one v) (precisionAt .grandMean 1 (one v))
      (derivativeAt .grandMean 1 (one v)) := by
  have hpos : ∀ w, 0 < precisionAt .grandMean 1 (one v) w 0 0 := fun w => by rw [one_precision]; exact Real.exp_pos _
  have hpos' : ∀ w, ∀ r ∈ rs, 0 < (precisionAt .grandMean 1 (one v) w + r.qIncrement) 0 0 := fun w r hr =>
    add_pos_of_pos_of_nonneg (hpos w) ((hi r hr).diag_nonneg)
  refine c173_elements .grandMean (one v) ⟨[], 0, 0, fun _ => none, fun _ _ _ => 0⟩ (by simp [one, Elements.Fits])
    (by simp [Elements.Allowed]) (by simp [Elements.Smooth]) (by simp [Elements.Solid])
    (by simp [one, Proper]) 1 (by rw [Elements.Element.design]; rfl) oneCholesky rs hi
    (fun w _ => oneCholesky_ok _ (hpos w)) (fun w _ r hr => oneCholesky_ok _ (hpos' w r hr)) fun w _ k _ a b _ => ?_
  rw [Subsingleton.elim a 0, Subsingleton.elim b 0]
  exact ⟨(hpos w).ne', fun r hr => (hpos' w r hr).ne'⟩

/-! ### One day with one observation -/

/-- An observation of zero. -/
def oneBatch : Batch 1 := ⟨1, 1, 1, 0⟩

/-- What is stored for it. -/
def oneUpdate : Update 1 := createFromSystem (1 : Mat 1) 1 0

/-- Storage with this day, whose state is zero. -/
def oneStorage : Storage 1 := ⟨none, none, [(some 0, some oneUpdate)], fun _ => some 0, fun _ => none⟩

theorem one_gather : gather oneStorage.states oneStorage.measurement = .ok [replicateOf oneUpdate 0] := rfl

theorem one_stored : List.Forall₂ (Stored oneStorage.states) oneStorage.measurement [[oneBatch]] := by
  refine .cons ⟨0, oneUpdate, 0, rfl, rfl, ?_⟩ .nil
  constructor
  · simp [replicateOf, oneUpdate, createFromSystem, oneBatch]
  · simp [replicateOf, oneUpdate, createFromSystem, oneBatch]

theorem one_increment : (replicateOf oneUpdate 0).qIncrement = 1 := by
  simp [replicateOf, oneUpdate, createFromSystem]

theorem one_increments : ∀ r ∈ [replicateOf oneUpdate 0], r.qIncrement.PosSemidef := by
  intro r hr
  rw [List.mem_singleton.1 hr, one_increment]
  exact PosDef.one.posSemidef

open Classical in
/-- A minimiser which tries one step, with `success` or without. -/
def oneStep (success : Bool) (x : List ℝ) : Minimiser :=
  .gradient x fun _ => .cost x fun a => .cost (x.map (· - 1)) fun b =>
    .callback (x.map (· - 1)) (if b ≤ a then .done success (x.map (· - 1)) else .done false x)

theorem oneStep_sized (success : Bool) (x : List ℝ) : (oneStep success x).Sized x.length := by
  refine ⟨rfl, fun _ => ⟨rfl, fun a => ⟨by simp, fun b => ?_⟩⟩⟩
  simp only [Minimiser.Sized]
  split <;> simp [Minimiser.Sized]

theorem oneStep_descends (success : Bool) : Descends (oneStep success) := by
  intro f g x h
  simp only [oneStep, Minimiser.against] at h ⊢
  by_cases hle : f (x.map (· - 1)) ≤ f x
  · simp only [if_pos hle, Minimiser.against] at h ⊢
    exact hle
  · simp [if_neg hle, Minimiser.against] at h

/-- The hypotheses of `c173_likelihood` are met. -/
example : ∃ h' values, optimizeComponent (ofElement .grandMean 1) oneCholesky (oneStep true) oneStorage (one 1) true =
      .ok (h', some values) ∧
    jointLikelihood (precisionAt .grandMean 1 (one 1) [1]) [[oneBatch]] ≤
      jointLikelihood (precisionAt .grandMean 1 (one 1) values) [[oneBatch]] := by
  obtain ⟨h', values, h1, -, -, h2⟩ := c173_likelihood (c := ofElement .grandMean 1) (cholesky := oneCholesky) (h := one 1)
    (Q := precisionAt .grandMean 1 (one 1)) (D := derivativeAt .grandMean 1 (one 1)) (by simp [one, Elements.Balanced]) (oneStep true)
    (oneStep_descends true) (oneStep_sized true _) oneStorage [[oneBatch]] one_stored
    (by simpa [oneBatch] using (PosDef.one : (1 : Mat 1).PosDef))
    (fun rs hrs => by rw [one_gather] at hrs; obtain rfl := Except.ok.inj hrs; exact one_regular 1 _ one_increments)
  exact ⟨h', values, h1, h2⟩

open Classical in
/-- A minimiser which only looks whether the derivatives are within the tolerance. -/
def look (tolerance : ℝ) (x : List ℝ) : Minimiser :=
  .gradient x fun g => .done (decide (∀ v ∈ g, |v| ≤ tolerance)) x

/-- The hypotheses of `c173_settled` are met. -/
example (tolerance : ℝ) : Settles tolerance (look tolerance) ∧ ∀ x, (look tolerance x).Sized x.length := by
  refine ⟨fun f g x h => ?_, fun x => ⟨rfl, fun _ => rfl⟩⟩
  simpa [look, Minimiser.against] using h

/-! ### What falls short -/

theorem one_cost (v : ℝ) : replicateCost (precisionAt .grandMean 1 (one 1) [v]) [replicateOf oneUpdate 0] =
    0.5 * Real.log (Real.exp (-2.0 * v) + 1) - 0.5 * Real.log (Real.exp (-2.0 * v)) := by
  have hd : (precisionAt .grandMean 1 (one 1) [v]).det = Real.exp (-2.0 * v) := by
    rw [Matrix.det_fin_one, one_precision]
    rfl
  have hd' : (precisionAt .grandMean 1 (one 1) [v] + 1).det = Real.exp (-2.0 * v) + 1 := by
    rw [Matrix.det_fin_one, Matrix.add_apply, one_precision]
    simp
  have hv : (replicateOf oneUpdate (0 : Vec 1)).iIncrement = 0 := by simp [replicateOf, oneUpdate, createFromSystem]
  have hm : posteriorMean (precisionAt .grandMean 1 (one 1) [v]) (replicateOf oneUpdate 0) = 0 := by
    rw [posteriorMean, hv]
    simp [replicateOf, solve]
  rw [replicateCost_eq]
  simp only [List.map_cons, List.map_nil, List.sum_cons, List.sum_nil, add_zero]
  rw [costFunction]
  simp only [hm, one_increment]
  simp only [replicateOf, gaussianLoglikelihood, logdet, hd, hd', sub_zero, mulVec_zero, dotProduct_zero]
  norm_num
  ring

/-- C173 fails where the minimiser stops at its limit of twenty steps: the values are those at the start, although it had found
some which make the observations more likely, and the file is the same as for a minimiser which succeeds at the start. -/
theorem c173_progress_violated : ∃ (h h' : Hyper) (x : List ℝ),
    optimize (ofElement .grandMean 1) oneCholesky (oneStep false) oneStorage h = .ok (h', [[1], x]) ∧
      optimizeComponent (ofElement .grandMean 1) oneCholesky (oneStep false) oneStorage h true = .ok (h', some [1]) ∧
      jointLikelihood (precisionAt .grandMean 1 h [1]) [[oneBatch]] < jointLikelihood (precisionAt .grandMean 1 h x) [[oneBatch]] ∧
      optimizeComponent (ofElement .grandMean 1) oneCholesky (fun x => .done true x) oneStorage h true = .ok (h', some [1]) := by
  have R := one_regular 1 _ one_increments
  have hl : leaves (one 1) = [1] := by simp [one, leaves]
  have hlt : replicateCost (precisionAt .grandMean 1 (one 1) [0]) [replicateOf oneUpdate 0] <
      replicateCost (precisionAt .grandMean 1 (one 1) [1]) [replicateOf oneUpdate 0] := by
    rw [one_cost, one_cost, Real.log_exp, Real.log_exp]
    have h1 : Real.log (Real.exp (-2.0 * 0) + 1) < Real.log (Real.exp (-2.0 * 1) + 1) + 2 := by
      rw [← Real.log_exp 2, ← Real.log_mul (by positivity) (by positivity)]
      apply Real.log_lt_log (by positivity)
      rw [add_mul, ← Real.exp_add]
      norm_num
      linarith [Real.add_one_lt_exp (x := 2) (by norm_num)]
    norm_num at h1 ⊢
    linarith
  obtain ⟨h', a1, a2, -, a3, -⟩ := c173_kept R (by simp [one, Elements.Balanced]) (oneStep false) (oneStep_sized false _) oneStorage one_gather
    false [0] [[0]] (by
      rw [hl]
      simp only [oneStep, Minimiser.against, List.map_cons, List.map_nil, sub_self]
      rw [if_pos hlt.le]
      rfl)
  obtain ⟨h'', b1, b2, -, b3, -⟩ := c173_kept R (by simp [one, Elements.Balanced]) (fun x => .done true x) rfl oneStorage one_gather
    true [1] [] (by rw [hl]; rfl)
  rw [hl] at a1 a2 a3 b1 b2 b3
  simp only [if_true] at b2 b3
  simp only [Bool.false_eq_true, if_false] at a2 a3
  have hh : h'' = h' := by rw [a2] at b2; exact (Except.ok.inj b2).symm
  refine ⟨one 1, h', [0], a1, a3, ?_, hh ▸ b3⟩
  have hf : List.Forall₂ (fun (r : Replicate 1) bs => r.priorMean = 0 ∧ r.Holds bs) [replicateOf oneUpdate 0] [[oneBatch]] := by
    obtain ⟨rs, h1, h2⟩ := gather_ok _ one_stored
    rw [one_gather] at h1
    obtain rfl := Except.ok.inj h1
    exact h2
  have hR : ∀ bs ∈ [[oneBatch]], ∀ b ∈ bs, b.R.PosDef := by simpa [oneBatch] using (PosDef.one : (1 : Mat 1).PosDef)
  exact lt_of_not_ge fun hge => absurd ((cost_order hf hR (R.posDef [1] rfl) (R.posDef [0] rfl)).2 hge) (not_le.2 hlt)

/-- C173 fails for days without observations: as soon as one day has none, nothing is optimised and no file written. -/
theorem c173_empty_day_violated {n : Nat} (c : PriorOf n) (cholesky : (Q : Mat n) → Except PyErr (Solver Q))
    (minimize : List ℝ → Minimiser) (st : Storage n) (h : Hyper) (file : Bool) (t : Option Int)
    (ht : (t, none) ∈ st.measurement) : ∃ e, optimizeComponent c cholesky minimize st h file = .error e := by
  have : gather st.states st.measurement = .error .attributeError := by
    generalize st.measurement = ms at ht
    induction ms with
    | nil => simp at ht
    | cons m ms ih =>
      rcases List.mem_cons.1 ht with rfl | hm
      · rfl
      · obtain ⟨a, b⟩ := m
        cases b with
        | none => rfl
        | some u =>
          cases a with
          | none => rfl
          | some a =>
            rw [gather]
            cases st.states a with
            | none => rfl
            | some x => simp only; rw [ih hm]
  exact ⟨.attributeError, by rw [optimizeComponent, optimize, this]⟩

end

end Verif.Eustace.Fit
