import Verif.Eustace.Projector.Days
import Verif.Eustace.Definitions.Props

/-! C110: what is written for each day. -/

namespace Verif.Eustace.Projector

open Verif Verif.Eustace.Elements Verif.Eustace.Storage

noncomputable section

/-! ### Specification -/

/-- Number of cells of a grid. -/
def Grid.size (g : Grid) : Nat := (Regrid.gridLocations g.latitudes g.longitudes).length

/-- The average over cell `i` of the values of an element at a time for a state. -/
def cellValue (w : World) (g : Grid) (e : Element) (time : Int) (x : List ℝ) (i : Nat) : ℝ :=
  Regrid.cellAverage (placeValue w e time x) g.resolution.1 g.resolution.2 g.sampling.1 g.sampling.2
    ((Regrid.gridLocations g.latitudes g.longitudes).getD i (0, 0)).1
    ((Regrid.gridLocations g.latitudes g.longitudes).getD i (0, 0)).2

/-- The mean square over draws of the values in cell `i`. -/
def meanSquare (w : World) (g : Grid) (e : Element) (time : Int) (S : Arr) (i : Nat) : ℝ :=
  (∑ k ∈ Finset.range S.cols, cellValue w g e time (column S k) i ^ 2) / S.cols

/-- The fields of an element for a day, a state, draws of its error and draws of its prior. -/
structure IsFields (w : World) (g : Grid) (e : Element) (time : Int) (x S P : Arr) (indices : List Nat) (capped : Bool)
    (f : Fields) : Prop where
  shapes : f.expected.rows = g.size ∧ f.uncertainty.rows = g.size ∧ f.samples.rows = g.size ∧ f.unconstraint.rows = g.size ∧
    f.samples.cols = indices.length
  expected : ∀ i < g.size, f.expected.get i 0 = cellValue w g e time (column x 0) i
  uncertainty : ∀ i < g.size, f.uncertainty.get i 0 = Real.sqrt (meanSquare w g e time S i)
  samples : ∀ i < g.size, ∀ k < indices.length, f.samples.get i k =
    cellValue w g e time (column x 0) i + cellValue w g e time (column S (indices.getD k 0)) i
  unconstraint : ∀ i < g.size, f.unconstraint.get i 0 =
    if capped then min (meanSquare w g e time S i / meanSquare w g e time P i) 1
    else meanSquare w g e time S i / meanSquare w g e time P i

/-- A grid whose cells have points, with at most as many blocks as cells. -/
structure Grid.Sound (g : Grid) : Prop where
  latitude : 0 < g.sampling.1
  longitude : 0 < g.sampling.2
  blocks : 0 < g.blocking
  few : g.blocking ≤ g.size

/-- A component whose solution has been computed for a day: state, draws and draws of the prior have the size of its element. -/
structure Solved (w : World) (g : Grid) (c : Component) (time : Int) (indices : List Nat) (x S P : Arr) : Prop where
  evaluable : Evaluable w c.element (pointsIn g.latitudes g.longitudes g.resolution g.sampling)
  state : readQuantity .state time c.solution = .ok (some x)
  sample : readQuantity .sample time c.solution = .ok (some S)
  prior : readQuantity .priorSample time c.solution = .ok (some P)
  sizes : x.rows = stateSize w c.element ∧ S.rows = stateSize w c.element ∧ P.rows = stateSize w c.element
  draws : ∀ k ∈ indices, k < S.cols

/-! ### Fields -/

/-- A projector for a day with what has been read for it. -/
def loaded (g : Grid) (time : Int) (c : Component) (x S P : Arr) (design : Option Arr) : Projector :=
  { g.projector time with component := some c, state := some x, samples := some S, prior := some P, design := design }

section

variable (g : Grid) (time : Int) (c : Component) (x S P : Arr) (design : Option Arr)

theorem loaded_state : (loaded g time c x S P design).state = some x := rfl
theorem loaded_samples : (loaded g time c x S P design).samples = some S := rfl
theorem loaded_prior : (loaded g time c x S P design).prior = some P := rfl
theorem loaded_design : (loaded g time c x S P design).design = design := rfl

end

theorem rms_sq (n : Nat) (f : Nat → ℝ) :
    rms ((List.range n).map f) = Real.sqrt ((∑ k ∈ Finset.range n, f k ^ 2) / n) := by
  unfold rms
  rw [List.map_map, Regrid.sum_range, List.length_map, List.length_range]
  rfl

theorem meanSquare_nonneg (w : World) (g : Grid) (e : Element) (time : Int) (S : Arr) (i : Nat) : 0 ≤ meanSquare w g e time S i := by
  unfold meanSquare
  exact div_nonneg (Finset.sum_nonneg fun k _ => sq_nonneg _) (Nat.cast_nonneg _)

/-- A projector with its design matrix and solution. -/
theorem fields_of (w : World) (g : Grid) (hg : g.Sound) (c : Component) (time : Int) (indices : List Nat) (x S P : Arr)
    (hs : Solved w g c time indices x S P) (capped : Bool) :
    ∃ p f, single w g c time = .ok p ∧ slowStep w g c time none = .ok p ∧ p.fields indices capped = .ok f ∧
      IsFields w g c.element time x S P indices capped f := by
  have hset : (g.projector time).setComponent c false = .ok (loaded g time c x S P none) := by
    unfold Projector.setComponent
    have : (g.projector time).time = time := rfl
    simp only [this, hs.state, hs.sample, hs.prior]
    rfl
  obtain ⟨A, h1, h2, h3, h4⟩ := c110_cells w (loaded g time c x S P none) c rfl hg.latitude hg.longitude
    hs.evaluable
  have hrows : A.rows = g.size := h2
  refine ⟨(loaded g time c x S P (some A)),
    ?_⟩
  have hsingle : single w g c time = .ok (loaded g time c x S P (some A)) := by
    unfold single
    rw [hset]
    exact h1
  have hslow : slowStep w g c time none = .ok (loaded g time c x S P (some A)) := by
    unfold slowStep known
    dsimp only
    rw [hset]
    exact h1
  obtain ⟨Y, h5, h6, h7, h8⟩ := h4 x hs.sizes.1
  -- statistics of draws
  have hstat : ∀ T : Arr, T.rows = stateSize w c.element → ∃ y, (loaded g time c x S P (some A)).statistic rms T =
        .ok y ∧ y.rows = A.rows ∧ y.cols = 1 ∧ ∀ i < A.rows, y.get i 0 = Real.sqrt (meanSquare w g c.element time T i) := by
    intro T hT
    obtain ⟨y, h9, h10, h11, h12⟩ := c110_blocks (loaded g time c x S P (some A)) A T rfl (by rw [h3, hT]) hg.blocks
      (by rw [hrows]; exact hg.few) rms
    refine ⟨y, h9, h10, h11, fun i hi => ?_⟩
    obtain ⟨Z, h13, -, -, h14⟩ := h4 T hT
    rw [mul_times A T (by rw [h3, hT])] at h13
    have hZ : Z = times A T := (Except.ok.inj h13).symm
    subst hZ
    rw [h12 i hi, rms_sq]
    unfold meanSquare
    congr 2
    apply Finset.sum_congr rfl
    intro k _
    have := h14 i hi k
    simp only [times] at this
    rw [this]
    rfl
  obtain ⟨u, h9, h10, -, h11⟩ := hstat S hs.sizes.2.1
  obtain ⟨v, h12, h13, -, h14⟩ := hstat P hs.sizes.2.2
  have hcols : selectColumns S indices = .ok ⟨S.rows, indices.length, fun i j => S.get i (indices.getD j 0)⟩ := by
    unfold selectColumns
    rw [if_pos]
    rw [List.all_eq_true]
    intro k hk
    simpa using hs.draws k hk
  obtain ⟨V, h15, h16, h17, h18⟩ := h4 ⟨S.rows, indices.length, fun i j => S.get i (indices.getD j 0)⟩ hs.sizes.2.1
  refine ⟨⟨Y, u, ⟨V.rows, V.cols, fun i j => V.get i j + Y.get i 0⟩, ratio capped u v⟩, hsingle, hslow, ?_, ?_⟩
  · unfold Projector.fields
    have e1 : (loaded g time c x S P (some A)).expected = .ok (some Y) := by
      simp only [Projector.expected, loaded_state, loaded_design, h5]
    have e2 : (loaded g time c x S P (some A)).sampleDeviation false = .ok (some u) := by
      simp only [Projector.sampleDeviation, loaded_state, loaded_samples, loaded_prior, Bool.false_eq_true, if_false, h9]
    have e3 : (loaded g time c x S P (some A)).sampleDeviation true = .ok (some v) := by
      simp only [Projector.sampleDeviation, loaded_state, loaded_samples, loaded_prior, if_true, h12]
    have e4 : (loaded g time c x S P (some A)).sampleValues (some indices) = .ok (some V) := by
      simp only [Projector.sampleValues, loaded_samples, loaded_design, chosen, hcols, h15]
    have e5 : addColumn V Y = .ok ⟨V.rows, V.cols, fun i j => V.get i j + Y.get i 0⟩ := by
      unfold addColumn
      rw [if_neg (by rw [h16, h6]; simp)]
    simp only [e1, e2, e3, e4, present, e5]
  · refine ⟨⟨h6.trans hrows, h10.trans hrows, h16.trans hrows, h10.trans hrows, h17⟩, ?_, ?_, ?_, ?_⟩
    · intro i hi
      exact h8 i (by rw [hrows]; exact hi) 0
    · intro i hi
      exact h11 i (by rw [hrows]; exact hi)
    · intro i hi k hk
      show V.get i k + Y.get i 0 = _
      rw [h18 i (by rw [hrows]; exact hi) k, h8 i (by rw [hrows]; exact hi) 0, add_comm]
      rfl
    · intro i hi
      show (if capped then min (u.get i 0 ^ 2 / v.get i 0 ^ 2) 1 else u.get i 0 ^ 2 / v.get i 0 ^ 2) = _
      rw [h11 i (by rw [hrows]; exact hi), h14 i (by rw [hrows]; exact hi), Real.sq_sqrt (meanSquare_nonneg _ _ _ _ _ _),
        Real.sq_sqrt (meanSquare_nonneg _ _ _ _ _ _)]

/-- What is written for a day, from the solutions of the three components. -/
structure IsOutput (w : World) (g : Grid) (indices : List Nat) (a b c : Component) (time : Int) (capped : Bool)
    (xa Sa Pa xb Sb Pb xc Sc Pc : Arr) (o : Output) : Prop where
  climatology : IsFields w g a.element time xa Sa Pa indices capped o.climatology
  largeScale : IsFields w g b.element time xb Sb Pb indices capped o.largeScale
  localScale : IsFields w g c.element time xc Sc Pc indices capped o.localScale
  shapes : o.tas.rows = g.size ∧ o.uncertainty.rows = g.size ∧ o.influence.rows = g.size ∧ o.ensemble.rows = g.size ∧
    o.ensemble.cols = indices.length
  tas : ∀ i < g.size, o.tas.get i 0 = cellValue w g a.element time (column xa 0) i + cellValue w g b.element time (column xb 0) i +
    cellValue w g c.element time (column xc 0) i
  uncertainty : ∀ i < g.size, o.uncertainty.get i 0 ^ 2 = meanSquare w g a.element time Sa i + meanSquare w g b.element time Sb i +
    meanSquare w g c.element time Sc i ∧ 0 ≤ o.uncertainty.get i 0
  ensemble : ∀ i < g.size, ∀ k < indices.length, o.ensemble.get i k = o.tas.get i 0 +
    (cellValue w g a.element time (column Sa (indices.getD k 0)) i + cellValue w g b.element time (column Sb (indices.getD k 0)) i +
      cellValue w g c.element time (column Sc (indices.getD k 0)) i)
  influence : ∀ i < g.size, o.influence.get i 0 = 1 - o.localScale.unconstraint.get i 0

theorem combine_output (w : World) (g : Grid) (indices : List Nat) (a b c : Component) (time : Int) (capped : Bool)
    (xa Sa Pa xb Sb Pb xc Sc Pc : Arr) (fa fb fc : Fields) (ha : IsFields w g a.element time xa Sa Pa indices capped fa)
    (hb : IsFields w g b.element time xb Sb Pb indices capped fb) (hc : IsFields w g c.element time xc Sc Pc indices capped fc) :
    IsOutput w g indices a b c time capped xa Sa Pa xb Sb Pb xc Sc Pc (combine fa fb fc) := by
  refine ⟨ha, hb, hc, ⟨ha.shapes.1, ha.shapes.2.1, hc.shapes.2.2.2.1, ha.shapes.2.2.1, ha.shapes.2.2.2.2⟩, ?_, ?_, ?_, ?_⟩
  · intro i hi
    show fa.expected.get i 0 + fb.expected.get i 0 + fc.expected.get i 0 = _
    rw [ha.expected i hi, hb.expected i hi, hc.expected i hi]
  · intro i hi
    show Real.sqrt _ ^ 2 = _ ∧ 0 ≤ Real.sqrt _
    refine ⟨?_, Real.sqrt_nonneg _⟩
    rw [Real.sq_sqrt (by positivity), ha.uncertainty i hi, hb.uncertainty i hi, hc.uncertainty i hi,
      Real.sq_sqrt (meanSquare_nonneg _ _ _ _ _ _), Real.sq_sqrt (meanSquare_nonneg _ _ _ _ _ _),
      Real.sq_sqrt (meanSquare_nonneg _ _ _ _ _ _)]
  · intro i hi k hk
    show fa.samples.get i k + fb.samples.get i k + fc.samples.get i k =
      fa.expected.get i 0 + fb.expected.get i 0 + fc.expected.get i 0 + _
    rw [ha.samples i hi k hk, hb.samples i hi k hk, hc.samples i hi k hk, ha.expected i hi, hb.expected i hi, hc.expected i hi]
    ring
  · intro i hi
    rfl

/-- C110: the output for many days.  For each day the temperature of a cell is the sum over the three components of the average
over the cell of their values for the states stored for that day; the square of the uncertainty is the sum of the mean squares of
the draws; each member of the ensemble is the temperature plus the draws. -/
theorem c110_batch (w : World) (g : Grid) (hg : g.Sound) (indices : List Nat) (a b c : Component) (ha : IndexFree a)
    (hb : IndexFree b) (hc : Timeless c.element) (xa Sa Pa xb Sb Pb xc Sc Pc : Int → Arr) (days : List Int)
    (sa : ∀ t ∈ days, Solved w g a t indices (xa t) (Sa t) (Pa t)) (sb : ∀ t ∈ days, Solved w g b t indices (xb t) (Sb t) (Pb t))
    (sc : ∀ t ∈ days, Solved w g c t indices (xc t) (Sc t) (Pc t)) :
    ∃ os, outputGridBatch w g indices a b c days = .ok os ∧ List.Forall₂ (fun t o =>
      IsOutput w g indices a b c t true (xa t) (Sa t) (Pa t) (xb t) (Sb t) (Pb t) (xc t) (Sc t) (Pc t) o) days os := by
  rw [c110_days w g indices a b c ha hb hc]
  induction days with
  | nil => exact ⟨[], rfl, .nil⟩
  | cons t rest ih =>
    obtain ⟨os, h1, h2⟩ := ih (fun t h => sa t (by simp [h])) (fun t h => sb t (by simp [h])) fun t h => sc t (by simp [h])
    obtain ⟨p, fa, -, h3, h4, h5⟩ := fields_of w g hg a t indices _ _ _ (sa t (by simp)) true
    obtain ⟨q, fb, -, h6, h7, h8⟩ := fields_of w g hg b t indices _ _ _ (sb t (by simp)) true
    obtain ⟨r, fc, h9, -, h10, h11⟩ := fields_of w g hg c t indices _ _ _ (sc t (by simp)) true
    have hl : localStep w g c t none = .ok r := h9
    refine ⟨combine fa fb fc :: os, ?_, .cons (combine_output w g indices a b c t true _ _ _ _ _ _ _ _ _ fa fb fc h5 h8 h11) h2⟩
    unfold eachDay
    have : outputGridBatch w g indices a b c [t] = .ok [combine fa fb fc] := by
      simp only [outputGridBatch, batchLoop, h3, h4, h6, h7, hl, h10]
    simp only [this, h1]
    rfl

/-- C110: the influence of observations which the batch writes is between nought and one, whatever the draws are. -/
theorem c110_influence (w : World) (g : Grid) (indices : List Nat) (a b c : Component) (time : Int)
    (xa Sa Pa xb Sb Pb xc Sc Pc : Arr) (o : Output)
    (h : IsOutput w g indices a b c time true xa Sa Pa xb Sb Pb xc Sc Pc o) (i : Nat) (hi : i < g.size) :
    0 ≤ o.influence.get i 0 ∧ o.influence.get i 0 ≤ 1 ∧
      (o.influence.get i 0 = 0 ↔ 1 ≤ meanSquare w g c.element time Sc i / meanSquare w g c.element time Pc i) := by
  rw [h.influence i hi, h.localScale.unconstraint i hi, if_pos rfl]
  have h1 : 0 ≤ meanSquare w g c.element time Sc i / meanSquare w g c.element time Pc i :=
    div_nonneg (meanSquare_nonneg _ _ _ _ _ _) (meanSquare_nonneg _ _ _ _ _ _)
  refine ⟨?_, ?_, ?_⟩
  · have := min_le_right (meanSquare w g c.element time Sc i / meanSquare w g c.element time Pc i) 1
    linarith
  · have := le_min h1 zero_le_one
    linarith
  · constructor
    · intro h2
      have : min (meanSquare w g c.element time Sc i / meanSquare w g c.element time Pc i) 1 = 1 := by linarith
      exact min_eq_right_iff.1 this
    · intro h2
      rw [min_eq_right h2]
      ring

/-- C110: `output_grid` writes for one day what the batch writes, but for the ratio of variances, which it does not limit. -/
theorem c110_single (w : World) (g : Grid) (hg : g.Sound) (indices : List Nat) (a b c : Component)
    (xa Sa Pa xb Sb Pb xc Sc Pc : Arr) (t : Int) (sa : Solved w g a t indices xa Sa Pa) (sb : Solved w g b t indices xb Sb Pb)
    (sc : Solved w g c t indices xc Sc Pc) :
    ∃ o, outputGrid w g indices a b c t = .ok o ∧ IsOutput w g indices a b c t false xa Sa Pa xb Sb Pb xc Sc Pc o := by
  obtain ⟨p, fa, h3, -, h4, h5⟩ := fields_of w g hg a t indices _ _ _ sa false
  obtain ⟨q, fb, h6, -, h7, h8⟩ := fields_of w g hg b t indices _ _ _ sb false
  obtain ⟨r, fc, h9, -, h10, h11⟩ := fields_of w g hg c t indices _ _ _ sc false
  refine ⟨combine fa fb fc, ?_, combine_output w g indices a b c t false _ _ _ _ _ _ _ _ _ fa fb fc h5 h8 h11⟩
  simp only [outputGrid, h3, h4, h6, h7, h9, h10]

/-! ### Uncertainty -/

/-- The value in a cell is linear in the state. -/
theorem cell_linear (w : World) (g : Grid) (e : Element) (time : Int)
    (he : Evaluable w e (pointsIn g.latitudes g.longitudes g.resolution g.sampling)) :
    ∃ α : Nat → Nat → ℝ, ∀ i < g.size, ∀ x : List ℝ, x.length = stateSize w e →
      cellValue w g e time x i = ∑ j ∈ Finset.range (stateSize w e), α i j * x.getD j 0 := by
  obtain ⟨r, hr⟩ := rows_at w e time
  refine ⟨fun i j => Regrid.cellAverage (fun z => r z j) g.resolution.1 g.resolution.2 g.sampling.1 g.sampling.2
    ((Regrid.gridLocations g.latitudes g.longitudes).getD i (0, 0)).1
    ((Regrid.gridLocations g.latitudes g.longitudes).getD i (0, 0)).2, ?_⟩
  intro i hi x hx
  have hcell : (Regrid.gridLocations g.latitudes g.longitudes).getD i (0, 0) ∈ Regrid.gridLocations g.latitudes g.longitudes := by
    have hi' : i < (Regrid.gridLocations g.latitudes g.longitudes).length := hi
    simp only [List.getD, List.getElem?_eq_getElem hi', Option.getD_some]
    exact List.getElem_mem _
  rw [average_sum]
  apply average_congr
  intro a ha b hb
  obtain ⟨h1, h2⟩ := mem_cells hcell
  refine (hr [(Regrid.part ((Regrid.gridLocations g.latitudes g.longitudes).getD i (0, 0)).1 g.resolution.1 g.sampling.1 a,
    Regrid.part ((Regrid.gridLocations g.latitudes g.longitudes).getD i (0, 0)).2 g.resolution.2 g.sampling.2 b)] ?_).2 _
    (by simp) x hx
  refine usable_time w 0 time _ _ (fun _ h => h) _ (he _ ?_)
  intro z hz
  rw [List.mem_singleton] at hz
  subst hz
  exact ⟨_, h1, _, h2, a, ha, b, hb, rfl⟩

/-- C110: when the mean products of the draws are those of a covariance matrix, the mean square of the values of the draws in a
cell is the variance of the value in the cell: with the weights of the state in the cell on both sides of the matrix. -/
theorem c110_variance (w : World) (g : Grid) (e : Element) (time : Int)
    (he : Evaluable w e (pointsIn g.latitudes g.longitudes g.resolution g.sampling)) (S : Arr) (hS : S.rows = stateSize w e)
    (C : Nat → Nat → ℝ) (hC : ∀ j < S.rows, ∀ j' < S.rows, (∑ k ∈ Finset.range S.cols, S.get j k * S.get j' k) / S.cols = C j j') :
    ∃ α : Nat → Nat → ℝ,
      (∀ i < g.size, ∀ x : List ℝ, x.length = stateSize w e →
        cellValue w g e time x i = ∑ j ∈ Finset.range (stateSize w e), α i j * x.getD j 0) ∧
      ∀ i < g.size, meanSquare w g e time S i =
        ∑ j ∈ Finset.range (stateSize w e), ∑ j' ∈ Finset.range (stateSize w e), α i j * C j j' * α i j' := by
  obtain ⟨α, hα⟩ := cell_linear w g e time he
  refine ⟨α, hα, fun i hi => ?_⟩
  have hcol : ∀ k, ∀ j < stateSize w e, (column S k).getD j 0 = S.get j k := by
    intro k j hj
    unfold column
    rw [getD_map' _ _ j (by simp [hS, hj]) 0]
    simp [List.getD, hS, hj]
  have hval : ∀ k, cellValue w g e time (column S k) i = ∑ j ∈ Finset.range (stateSize w e), α i j * S.get j k := by
    intro k
    rw [hα i hi _ (by simp [column, hS])]
    apply Finset.sum_congr rfl
    intro j hj
    rw [hcol k j (Finset.mem_range.1 hj)]
  unfold meanSquare
  have h1 : ∑ k ∈ Finset.range S.cols, cellValue w g e time (column S k) i ^ 2 =
      ∑ j ∈ Finset.range (stateSize w e), ∑ j' ∈ Finset.range (stateSize w e),
        α i j * (∑ k ∈ Finset.range S.cols, S.get j k * S.get j' k) * α i j' := by
    have h2 : ∀ k, cellValue w g e time (column S k) i ^ 2 = ∑ j ∈ Finset.range (stateSize w e),
        ∑ j' ∈ Finset.range (stateSize w e), α i j * (S.get j k * S.get j' k) * α i j' := by
      intro k
      rw [hval, pow_two, Finset.sum_mul]
      apply Finset.sum_congr rfl
      intro j _
      rw [Finset.mul_sum]
      apply Finset.sum_congr rfl
      intro j' _
      ring
    simp only [h2]
    rw [Finset.sum_comm]
    apply Finset.sum_congr rfl
    intro j _
    rw [Finset.sum_comm]
    apply Finset.sum_congr rfl
    intro j' _
    rw [Finset.mul_sum, Finset.sum_mul]
  rw [h1, Finset.sum_div]
  apply Finset.sum_congr rfl
  intro j hj
  rw [Finset.sum_div]
  apply Finset.sum_congr rfl
  intro j' hj'
  rw [← hC j (by rw [hS]; exact Finset.mem_range.1 hj) j' (by rw [hS]; exact Finset.mem_range.1 hj')]
  ring

/-- C110: the deviation about nought is never less than the standard deviation: its square is larger by the square of the mean of
the draws. -/
theorem c110_deviation (row : List ℝ) (h : row ≠ []) : rms row ^ 2 = std row ^ 2 + (row.sum / row.length) ^ 2 := by
  have hl : (row.length : ℝ) ≠ 0 := by
    have : row.length ≠ 0 := fun hz => h (List.length_eq_zero_iff.1 hz)
    exact_mod_cast this
  have hsum : ∀ (l : List ℝ) (m : ℝ), (l.map fun x => (x - m) ^ 2).sum =
      (l.map fun x => x ^ 2).sum - 2 * m * l.sum + l.length * m ^ 2 := by
    intro l m
    induction l with
    | nil => simp
    | cons x rest ih =>
      simp only [List.map_cons, List.sum_cons, ih, List.length_cons]
      push_cast
      ring
  have hn : ∀ f : ℝ → ℝ, 0 ≤ (row.map fun x => f x ^ 2).sum := by
    intro f
    apply List.sum_nonneg
    intro y hy
    obtain ⟨x, -, rfl⟩ := List.mem_map.1 hy
    exact sq_nonneg _
  unfold rms std
  rw [Real.sq_sqrt (div_nonneg (hn fun x => x) (Nat.cast_nonneg _)),
    Real.sq_sqrt (div_nonneg (hn fun x => x - row.sum / row.length) (Nat.cast_nonneg _)), hsum]
  field_simp
  ring

/-! ### The other way to average -/

/-- C110: the expected value of a projector is what the `Regridder` computes from the values of the component at places, for
increasing latitudes and a resolution which is the spacing of the grid. -/
theorem c110_regridder (w : World) (g : Grid) (e : Element) (time : Int) (x S P : Arr) (indices : List Nat) (capped : Bool)
    (f : Fields) (hf : IsFields w g e time x S P indices capped f) (argsort : List ℝ → List Nat) (ha : Regrid.Sorts argsort)
    (r : Regrid.Regridder) (hlat : 0 < r.nlat) (hlon : 0 < r.nlon) (hb : 0 < r.blocking) (hne : r.latitudes ≠ [])
    (hs : r.latitudes.Pairwise (· < ·)) (h1 : r.latitudes = g.latitudes) (h2 : r.longitudes = g.longitudes)
    (h3 : (r.nlat, r.nlon) = g.sampling) (h4 : (r.latitudeSpacing, r.longitudeSpacing) = g.resolution) (s : Regrid.Solution)
    (hv : s.value = placeValue w e time (column x 0)) :
    r.compute argsort "MAP" s = .ok ((List.range g.size).map fun i => f.expected.get i 0) := by
  rw [Regrid.c62_average argsort ha r hlat hlon hb hne hs "MAP" s s.value (by simp [Regrid.Solution.field])]
  congr 1
  have h5 : ∀ (lats lons : List ℝ) (F : ℝ × ℝ → ℝ) (u v : ℝ) (n m : Nat), Regrid.averages F u v n m lats lons =
      (Regrid.gridLocations lats lons).map fun q => Regrid.cellAverage F u v n m q.1 q.2 := by
    intro lats lons F u v n m
    unfold Regrid.averages Regrid.gridLocations
    rw [List.map_flatMap]
    congr 1
    funext a
    rw [List.map_map]
    rfl
  rw [h5, h1, h2, hv]
  apply List.ext_getElem
  · simp [Grid.size]
  · intro i hi1 hi2
    rw [List.length_map] at hi1
    simp only [List.getElem_map, List.getElem_range]
    rw [hf.expected i hi1]
    unfold cellValue
    rw [← h3, ← h4]
    simp [List.getD, List.getElem?_eq_getElem hi1]

/-! ### Definitions of the analysis -/

theorem timelessAll_of {l : List Element} (h : ∀ e ∈ l, Timeless e) : TimelessAll l := by
  induction l with
  | nil => trivial
  | cons e rest ih => exact ⟨h e (by simp), ih fun e he => h e (by simp [he])⟩

/-- C110: the local definitions of the analysis know no time, so that `c110_days` and `c110_batch` apply to them. -/
theorem c110_local (srt : Mesh.Argsort) (biasTerms : Bool) (groups : List String) (values : List ℝ) :
    Timeless (Definitions.localDefinition srt biasTerms groups).element ∧
    Timeless (Definitions.expandedDefinition srt biasTerms groups values).element := by
  constructor
  · simp only [Definitions.localDefinition, Timeless]
    refine ⟨trivial, timelessAll_of ?_⟩
    intro e he
    obtain ⟨p, hp, rfl⟩ := List.mem_map.1 he
    obtain ⟨g, -, h⟩ := Definitions.mem_terms hp
    unfold Definitions.localBias at h
    split at h
    · simp only [List.mem_cons, List.not_mem_nil, or_false] at h
      rcases h with rfl | rfl <;> simp [Timeless]
    · split at h
      · simp only [List.mem_cons, List.not_mem_nil, or_false] at h
        subst h
        simp [Timeless]
      · split at h
        · simp only [List.mem_cons, List.not_mem_nil, or_false] at h
          rcases h with rfl | rfl <;> simp [Timeless]
        · simp at h
  · simp only [Definitions.expandedDefinition, Timeless]
    refine ⟨trivial, timelessAll_of ?_⟩
    intro e he
    obtain ⟨p, hp, rfl⟩ := List.mem_map.1 he
    obtain ⟨g, -, h⟩ := Definitions.mem_terms hp
    unfold Definitions.nonstationaryBias at h
    split at h
    · simp only [List.mem_cons, List.not_mem_nil, or_false] at h
      subst h
      simp [Timeless]
    · split at h
      · simp only [List.mem_cons, List.not_mem_nil, or_false] at h
        subst h
        simp [Timeless]
      · simp at h

/-- C110: a projector which was saved and loaded has no solution, and gives the same fields as before once its component is set
and its design matrix kept. -/
theorem c110_saved (p : Projector) (c : Component) :
    p.saved.expected = .ok none ∧ p.saved.sampleValues none = .ok none ∧
      p.saved.setComponent c true = p.setComponent c true := ⟨rfl, rfl, by
  unfold Projector.setComponent Projector.saved Projector.init
  rfl⟩

/-- C110: after the component or the time was changed without keeping the design matrix, a projector refuses to give values: no field
is made with the design matrix of another time or component. -/
theorem c110_refuses (p q : Projector) (c : Component) (x : Arr) (hx : q.state = some x)
    (h : p.setComponent c false = .ok q ∨ ∃ t, q = p.updateTimeIndex t false) : q.expected = .error .attributeError := by
  have hd : q.design = none := by
    rcases h with h | ⟨t, rfl⟩
    · unfold Projector.setComponent at h
      split at h
      · cases h
      · split at h
        · cases h
        · split at h
          · cases h
          · cases h; rfl
    · rfl
  unfold Projector.expected
  rw [hx, hd]

/-! ### A grid of one cell -/

/-- One cell around the place (0, 0). -/
def oneCell : Grid := ⟨[0], [0], (1, 1), (1, 1), 1⟩

theorem oneCell_sound : oneCell.Sound := ⟨by simp [oneCell], by simp [oneCell], by simp [oneCell], by
  simp [oneCell, Grid.size, Regrid.gridLocations]⟩

theorem oneCell_size : oneCell.size = 1 := rfl

def number (x : ℝ) : Arr := ⟨1, 1, fun _ _ => x⟩

/-- A mean with a state, one draw and one draw of the prior. -/
def meanReads (x s p : ℝ) : Quantity → Except PyErr (Option Arr)
  | .state => .ok (some (number x))
  | .sample => .ok (some (number s))
  | .priorSample => .ok (some (number p))
  | .marginalStd => .ok none

def meanComponent (x s p : ℝ) : Component := ⟨.grandMean, .indexFree (meanReads x s p)⟩

/-- A mean with a state for each day. -/
def dailyComponent (x : Int → ℝ) : Component := ⟨.grandMean, .timeIndexed fun q t => meanReads (x t) 1 1 q⟩

theorem mean_evaluable (w : World) (places : Set (ℝ × ℝ)) : Evaluable w .grandMean places := by
  intro l _
  simp [Usable]

theorem mean_solved (w : World) (x s p : ℝ) (t : Int) :
    Solved w oneCell (meanComponent x s p) t [0] (number x) (number s) (number p) :=
  ⟨mean_evaluable w _, rfl, rfl, rfl, ⟨rfl, rfl, rfl⟩, by simp [number]⟩

theorem daily_solved (w : World) (x : Int → ℝ) (t : Int) :
    Solved w oneCell (dailyComponent x) t [0] (number (x t)) (number 1) (number 1) :=
  ⟨mean_evaluable w _, rfl, rfl, rfl, ⟨rfl, rfl, rfl⟩, by simp [number]⟩

theorem mean_value (w : World) (t : Int) (x : ℝ) : cellValue w oneCell .grandMean t (column (number x) 0) 0 = x := by
  have h1 : ∀ p, placeValue w .grandMean t (column (number x) 0) p = x := by
    intro p
    simp [placeValue, atPlace, Element.design, grandMeanDesign, linearDesign, applyTo, Arr.dot, column, number, gridObs,
      Regrid.gridLocations]
  have h2 : placeValue w .grandMean t (column (number x) 0) = fun _ => x := funext h1
  unfold cellValue
  rw [h2]
  have h3 : ((Regrid.gridLocations oneCell.latitudes oneCell.longitudes).getD 0 (0, 0)).1 = 0 := rfl
  have h4 : oneCell.sampling = (1, 1) := rfl
  rw [h3, h4]
  exact Regrid.c62_one_point (fun _ => x) _ _ 0 _ (by norm_num)

theorem mean_square (w : World) (t : Int) (s : ℝ) : meanSquare w oneCell .grandMean t (number s) 0 = s ^ 2 := by
  unfold meanSquare
  have : (number s).cols = 1 := rfl
  rw [this, Finset.sum_range_one, mean_value]
  simp

/-- The hypotheses of `c110_batch` are met: two days with a local component of its own state on each. -/
example (w : World) : ∃ o o', outputGridBatch w oneCell [0] (meanComponent 280 1 2) (meanComponent 3 1 1)
    (dailyComponent fun t => t) [5, 6] = .ok [o, o'] ∧ o.tas.get 0 0 = 288 ∧ o'.tas.get 0 0 = 289 := by
  obtain ⟨os, h1, h2⟩ := c110_batch w oneCell oneCell_sound [0] (meanComponent 280 1 2) (meanComponent 3 1 1)
    (dailyComponent fun t => t) ⟨_, rfl⟩ ⟨_, rfl⟩ (by simp [dailyComponent, Timeless]) _ _ _ _ _ _ _ _ _ [5, 6]
    (fun t _ => mean_solved w 280 1 2 t) (fun t _ => mean_solved w 3 1 1 t) (fun t _ => daily_solved w (fun t => t) t)
  cases h2 with
  | cons ha h2 =>
    cases h2 with
    | cons hb h2 =>
      cases h2
      refine ⟨_, _, h1, ?_, ?_⟩
      · rw [ha.tas 0 (by simp [oneCell_size])]
        simp only [meanComponent, dailyComponent, mean_value]
        norm_num
      · rw [hb.tas 0 (by simp [oneCell_size])]
        simp only [meanComponent, dailyComponent, mean_value]
        norm_num

/-- C110 fails for the fraction which `output_grid` writes: a ratio of variances of draws may exceed one. -/
theorem c110_fraction_violated (w : World) (t : Int) : ∃ o, outputGrid w oneCell [0] (meanComponent 280 1 2) (meanComponent 3 1 1)
    (meanComponent 0 2 1) t = .ok o ∧ o.localScale.unconstraint.get 0 0 = 4 := by
  obtain ⟨o, h1, h2⟩ := c110_single w oneCell oneCell_sound [0] (meanComponent 280 1 2) (meanComponent 3 1 1)
    (meanComponent 0 2 1) _ _ _ _ _ _ _ _ _ t (mean_solved w 280 1 2 t) (mean_solved w 3 1 1 t) (mean_solved w 0 2 1 t)
  refine ⟨o, h1, ?_⟩
  rw [h2.localScale.unconstraint 0 (by simp [oneCell_size])]
  simp only [meanComponent, mean_square, Bool.false_eq_true, if_false]
  norm_num

/-- C110 fails for a component with a state for each day when only the time of its projector is changed, as is done for the
climatology and the large scale component: the projector goes on with the state of the first day. -/
theorem c110_stale_violated (w : World) : ∃ p q q' y y', slowStep w oneCell (dailyComponent fun t => t) 0 none = .ok p ∧
    slowStep w oneCell (dailyComponent fun t => t) 1 (some p) = .ok q ∧ q.time = 1 ∧ q.expected = .ok (some y) ∧ y.get 0 0 = 0 ∧
    slowStep w oneCell (dailyComponent fun t => t) 1 none = .ok q' ∧ q'.expected = .ok (some y') ∧ y'.get 0 0 = 1 := by
  have hset : ∀ t, (oneCell.projector t).setComponent (dailyComponent fun t => t) false = .ok (loaded oneCell t (dailyComponent fun t => t)
      (number t) (number 1) (number 1) none) := fun t => rfl
  have hcells : ∀ (t t' : Int), ∃ A, (loaded oneCell t (dailyComponent fun t => t) (number t') (number 1) (number 1)
      none).evaluateDesign w = .ok (loaded oneCell t (dailyComponent fun t => t) (number t') (number 1) (number 1) (some A)) ∧
      ∃ Y, mul A (number t') = .ok Y ∧ Y.get 0 0 = t' := by
    intro t t'
    obtain ⟨A, h1, h2, h3, h4⟩ := c110_cells w (loaded oneCell t (dailyComponent fun t => t) (number t') (number 1)
      (number 1) none) (dailyComponent fun t => t) rfl oneCell_sound.latitude oneCell_sound.longitude
      (mean_evaluable w _)
    obtain ⟨Y, h5, -, -, h6⟩ := h4 (number t') rfl
    refine ⟨A, h1, Y, h5, ?_⟩
    rw [h6 0 (by rw [h2]; exact Nat.one_pos) 0]
    exact mean_value w t t'
  obtain ⟨A, h1, -⟩ := hcells 0 0
  obtain ⟨B, h2, Y, h3, h4⟩ := hcells 1 0
  obtain ⟨B', h5, Y', h6, h7⟩ := hcells 1 1
  refine ⟨_, _, _, Y, Y', h1, h2, rfl, ?_, by simpa using h4, h5, ?_, by simpa using h7⟩
  · simp only [Projector.expected, loaded_state, loaded_design, h3]
  · simp only [Projector.expected, loaded_state, loaded_design, h6]

end

end Verif.Eustace.Projector
