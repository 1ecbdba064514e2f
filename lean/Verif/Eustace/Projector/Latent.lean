import Verif.Eustace.Projector.Props

/-! C111: checks of latent variables. -/

namespace Verif.Eustace.Projector

open Verif Verif.Eustace.Elements Verif.Eustace.Storage

noncomputable section

/-- C111: the constraint of each latent variable is between nought and one, and is below a threshold between nought and one just
when the variance of the draws is more than the rest of the variance of the prior draws. -/
theorem c111_constraint (samples prior : Arr) (i : Nat) (hi : i < samples.rows) :
    (constraint samples prior).length = samples.rows ∧
    0 ≤ (constraint samples prior).getD i 0 ∧ (constraint samples prior).getD i 0 ≤ 1 ∧
    ∀ threshold, 0 < threshold → 0 < std (rowOf prior i) → ((constraint samples prior).getD i 0 < threshold ↔
      (1 - threshold) * std (rowOf prior i) ^ 2 < std (rowOf samples i) ^ 2) := by
  have h1 : (constraint samples prior).getD i 0 = 1 - min (std (rowOf samples i) ^ 2 / std (rowOf prior i) ^ 2) 1 := by
    unfold constraint
    rw [getD_map' _ _ i (by simpa using hi) 0]
    simp [List.getD, hi]
  refine ⟨by simp [constraint], ?_, ?_, ?_⟩
  · rw [h1]
    have := min_le_right (std (rowOf samples i) ^ 2 / std (rowOf prior i) ^ 2) 1
    linarith
  · rw [h1]
    have := le_min (show 0 ≤ std (rowOf samples i) ^ 2 / std (rowOf prior i) ^ 2 by positivity) zero_le_one
    linarith
  · intro threshold h2 h3
    rw [h1, ← lt_div_iff₀ (by positivity)]
    constructor
    · intro h4
      have : 1 - threshold < min (std (rowOf samples i) ^ 2 / std (rowOf prior i) ^ 2) 1 := by linarith
      exact (lt_min_iff.1 this).1
    · intro h4
      have : 1 - threshold < min (std (rowOf samples i) ^ 2 / std (rowOf prior i) ^ 2) 1 := lt_min h4 (by linarith)
      linarith

/-- C111 for weights which are not negative: a cell is flagged just when some variable without enough constraint has a weight
in it. -/
theorem c111_flags_partial (A : Arr) (constraints : List ℝ) (threshold : ℝ) (h : constraints.length = A.cols)
    (hn : ∀ i < A.rows, ∀ j < A.cols, 0 ≤ A.get i j) :
    ∃ flags, constraintStatistic A constraints threshold = .ok flags ∧ flags.length = A.rows ∧
      ∀ i < A.rows, (flags.getD i false = true ↔ ∃ j < A.cols, constraints.getD j 0 < threshold ∧ A.get i j ≠ 0) := by
  classical
  unfold constraintStatistic Arr.dot
  simp only [List.length_map, h, ne_eq, not_true_eq_false, if_false]
  refine ⟨_, rfl, by simp, fun i hi => ?_⟩
  rw [List.map_map, getD_map' _ _ i (by simpa using hi) 0]
  have h0 : (List.range A.rows).getD i 0 = i := by simp [List.getD, hi]
  rw [h0]
  simp only [Function.comp_apply, decide_eq_true_eq]
  have hind : ∀ j < A.cols, (constraints.map fun c => if c < threshold then (1 : ℝ) else 0).getD j 0 =
      if constraints.getD j 0 < threshold then 1 else 0 := by
    intro j hj
    exact getD_map' _ constraints j (by rw [h]; exact hj) 0 0
  have hterm : ∀ j ∈ Finset.range A.cols, 0 ≤ A.get i j * (constraints.map fun c => if c < threshold then (1 : ℝ) else 0).getD j 0 := by
    intro j hj
    have hj := Finset.mem_range.1 hj
    rw [hind j hj]
    refine mul_nonneg (hn i hi j hj) ?_
    split <;> norm_num
  constructor
  · intro hpos
    obtain ⟨j, hj, hne⟩ := Finset.exists_ne_zero_of_sum_ne_zero (ne_of_gt hpos)
    have hj := Finset.mem_range.1 hj
    rw [hind j hj] at hne
    refine ⟨j, hj, ?_, left_ne_zero_of_mul hne⟩
    by_contra hc
    rw [if_neg hc] at hne
    simp at hne
  · rintro ⟨j, hj, h1, h2⟩
    refine Finset.sum_pos' hterm ⟨j, Finset.mem_range.2 hj, ?_⟩
    rw [hind j hj, if_pos h1, mul_one]
    exact lt_of_le_of_ne (hn i hi j hj) (Ne.symm h2)

/-- The hypotheses of `c111_flags_partial` are met with both outcomes. -/
example : ∃ flags, constraintStatistic ⟨2, 2, fun i j => if i = 0 ∧ j = 0 then 1 else if i = 1 ∧ j = 1 then 1 else 0⟩ [0.1, 0.9] 0.2 =
    .ok flags ∧ flags.getD 0 false = true ∧ flags.getD 1 false ≠ true := by
  obtain ⟨flags, h1, -, h2⟩ := c111_flags_partial ⟨2, 2, fun i j => if i = 0 ∧ j = 0 then 1 else if i = 1 ∧ j = 1 then 1 else 0⟩
    [0.1, 0.9] 0.2 rfl (by intro i _ j _; dsimp only; split_ifs <;> norm_num)
  refine ⟨flags, h1, (h2 0 (by norm_num)).2 ⟨0, by norm_num, by norm_num, by norm_num⟩, fun hc => ?_⟩
  obtain ⟨j, hj, h3, h4⟩ := (h2 1 (by norm_num)).1 hc
  have hj : j < 2 := hj
  interval_cases j
  · norm_num at h4
  · norm_num at h3

/-- One cell at latitude 60. -/
def northCell : Grid := ⟨[60], [0], (1, 1), (1, 1), 1⟩

/-- The harmonics of latitude with any solution. -/
def harmonicsComponent (solution : Solution) : Component := ⟨.latitudeHarmonics, solution⟩

theorem harmonics_size (w : World) : stateSize w .latitudeHarmonics = 4 := by
  simp only [stateSize, Element.design, latitudeHarmonicsDesign, linearDesign]
  rfl

theorem harmonics_value (w : World) (t : Int) (x : List ℝ) (hx : x.length = 4) :
    placeValue w .latitudeHarmonics t x (60, 0) =
      -(1 / 2) * x.getD 0 0 + Real.sqrt 3 / 2 * x.getD 1 0 - 1 / 2 * x.getD 2 0 - Real.sqrt 3 / 2 * x.getD 3 0 := by
  have e2 : (60 : ℝ) * (Real.pi / 180.0) * 2.0 = Real.pi - Real.pi / 3 := by norm_num; ring
  have e4 : (60 : ℝ) * (Real.pi / 180.0) * 4.0 = Real.pi / 3 + Real.pi := by norm_num; ring
  have hA : Arr.hstack (latitudeHarmonics.map fun f => Arr.column ((gridObs w t [60] [0]).locations.map fun l => f l.1)) =
      .ok ⟨1, 4, Arr.besides (latitudeHarmonics.map fun f => Arr.column ((gridObs w t [60] [0]).locations.map fun l => f l.1))⟩ := by
    simp [latitudeHarmonics, Arr.hstack, gridObs, Regrid.gridLocations, Arr.column]
  unfold placeValue
  rw [atPlace_eq]
  simp only [Element.design, latitudeHarmonicsDesign, linearDesign, hA, applyTo, Arr.dot, hx, ne_eq, not_true_eq_false, if_false,
    reduceCtorEq]
  rw [getD_map' _ _ 0 (by simp) 0]
  simp [Finset.sum_range_succ, latitudeHarmonics, Arr.besides, Arr.column, gridObs, Regrid.gridLocations, latitudeFunction, e2, e4]
  ring

/-- C111 fails with negative weights: for the harmonics of latitude none of which has any constraint, the cell at latitude 60
depends on each of them and is not flagged, as their weights add to minus one. -/
theorem c111_missed_violated (w : World) (t : Int) (solution : Solution) :
    ∃ p A, ({ northCell.projector t with component := some (harmonicsComponent solution) } : Projector).evaluateDesign w = .ok p ∧
      p.design = some A ∧ A.rows = 1 ∧ A.cols = 4 ∧ (∀ j < 4, A.get 0 j ≠ 0) ∧
      constraintStatistic A [0, 0, 0, 0] 0.2 = .ok [false] := by
  obtain ⟨A, h1, h2, h3, h4⟩ := c110_cells w { northCell.projector t with component := some (harmonicsComponent solution) }
    (harmonicsComponent solution) rfl Nat.one_pos Nat.one_pos (by intro l _; simp [harmonicsComponent, Usable])
  have hrows : A.rows = 1 := h2
  have hcols : A.cols = 4 := by rw [h3]; exact harmonics_size w
  have hvalue : ∀ x : List ℝ, x.length = 4 → ∑ j ∈ Finset.range 4, A.get 0 j * x.getD j 0 =
      -(1 / 2) * x.getD 0 0 + Real.sqrt 3 / 2 * x.getD 1 0 - 1 / 2 * x.getD 2 0 - Real.sqrt 3 / 2 * x.getD 3 0 := by
    intro x hx
    obtain ⟨Y, h5, -, -, h6⟩ := h4 ⟨4, 1, fun j _ => x.getD j 0⟩ (harmonics_size w).symm
    have h7 := h6 0 (by rw [hrows]; norm_num) 0
    rw [mul_times A _ (by rw [hcols])] at h5
    have hY := (Except.ok.inj h5).symm
    subst hY
    simp only [times, hcols] at h7
    rw [h7]
    have hc : column ⟨4, 1, fun j _ => x.getD j 0⟩ 0 = x := by
      unfold column
      apply List.ext_getElem
      · simp [hx]
      · intro j ha hb
        simp [List.getD, hb]
    rw [hc, ← harmonics_value w t x hx]
    have := Regrid.c62_one_point (placeValue w .latitudeHarmonics t x) 1 1 60 0 (by norm_num)
    exact this
  refine ⟨_, A, h1, rfl, hrows, hcols, ?_, ?_⟩
  · have hs : (0 : ℝ) < Real.sqrt 3 := Real.sqrt_pos.2 (by norm_num)
    intro j hj
    interval_cases j
    · have := hvalue [1, 0, 0, 0] rfl
      simp [Finset.sum_range_succ] at this
      rw [this]; norm_num
    · have := hvalue [0, 1, 0, 0] rfl
      simp [Finset.sum_range_succ] at this
      rw [this]; positivity
    · have := hvalue [0, 0, 1, 0] rfl
      simp [Finset.sum_range_succ] at this
      rw [this]; norm_num
    · have := hvalue [0, 0, 0, 1] rfl
      simp [Finset.sum_range_succ] at this
      rw [this]
      have : 0 < Real.sqrt 3 / 2 := by positivity
      linarith
  · have h8 := hvalue [1, 1, 1, 1] rfl
    have h9 : (([0, 0, 0, 0] : List ℝ).map fun c => if c < 0.2 then (1 : ℝ) else 0) = [1, 1, 1, 1] := by norm_num
    unfold constraintStatistic Arr.dot
    rw [h9, hcols, hrows]
    simp only [List.range_one, List.map_cons, List.map_nil]
    simp only [List.length_cons, List.length_nil, ne_eq, not_true_eq_false, if_false, Nat.reduceAdd]
    rw [h8]
    norm_num
    linarith

end

end Verif.Eustace.Projector
