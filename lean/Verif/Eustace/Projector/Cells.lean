import Verif.Eustace.Projector.Rows
import Verif.Eustace.Regrid.Props

/-! The design matrix of a projector gives averages over cells. -/

namespace Verif.Eustace.Projector

open Verif Verif.Eustace.Elements

noncomputable section

/-! ### Specification -/

/-- A single place on a day, without biases. -/
def atPlace (w : World) (time : Int) (place : ℝ × ℝ) : Obs := ⟨[place], time, w.decimalYear time, fun _ => none, w.sphereRow⟩

/-- The value which the design function of an element gives at a single place and time for a state. -/
def placeValue (w : World) (e : Element) (time : Int) (x : List ℝ) (place : ℝ × ℝ) : ℝ :=
  match (e.design (atPlace w time place)).function (some x) none with
  | .ok v => v.getD 0 0
  | .error _ => 0

/-- A column of an array. -/
def column (A : Arr) (k : Nat) : List ℝ := (List.range A.rows).map fun j => A.get j k

/-- The number of state parameters of an element. -/
def stateSize (w : World) (e : Element) : Nat := (e.design (gridObs w 0 [] [])).size

/-- The points at which an element is evaluated: the centres of parts of cells. -/
def pointsIn (latitudes longitudes : List ℝ) (resolution : ℝ × ℝ) (sampling : Nat × Nat) : Set (ℝ × ℝ) :=
  {q | ∃ x ∈ latitudes, ∃ y ∈ longitudes, ∃ a < sampling.1, ∃ b < sampling.2,
    q = (Regrid.part x resolution.1 sampling.1 a, Regrid.part y resolution.2 sampling.2 b)}

/-- An element which can be evaluated at every point of a set: it has no factors and a value of each geographical covariate. -/
def Evaluable (w : World) (e : Element) (places : Set (ℝ × ℝ)) : Prop :=
  ∀ l : List (ℝ × ℝ), (∀ q ∈ l, q ∈ places) → Usable (moved (gridObs w 0 [] []) l) e

/-! ### Lemmas -/

theorem atPlace_eq (w : World) (time : Int) (place : ℝ × ℝ) : atPlace w time place = gridObs w time [place.1] [place.2] := rfl

theorem gridObs_moved (w : World) (time : Int) (latitudes longitudes : List ℝ) :
    gridObs w time latitudes longitudes = moved (gridObs w time [] []) (Regrid.gridLocations latitudes longitudes) := rfl

mutual

theorem usable_time (w : World) (t t' : Int) (l l' : List (ℝ × ℝ)) (hl : ∀ q ∈ l', q ∈ l) : ∀ e : Element,
    Usable (moved (gridObs w t [] []) l) e → Usable (moved (gridObs w t' [] []) l') e
  | .bias _ _, _ => by simp [Usable, moved, gridObs]
  | .geography value, h => by
    simp only [Usable, moved] at h ⊢
    exact fun q hq => h q (hl q hq)
  | .factor _, h => by simp [Usable] at h
  | .combination parts, h => by
    simp only [Usable] at h ⊢
    exact ⟨h.1, usable_times w t t' l l' hl parts h.2⟩
  | .grandMean, _ => by simp [Usable]
  | .latitudeHarmonics, _ => by simp [Usable]
  | .latitudeSpline _ _ _ _, _ => by simp [Usable]
  | .stationary _, _ => by simp [Usable]
  | .nonstationary _, _ => by simp [Usable]
  | .spatialBias _ _, _ => by simp [Usable]
  | .seasonal _ _ _, _ => by simp [Usable]
  | .kronecker _, _ => by simp [Usable]
  | .annualKronecker _, _ => by simp [Usable]

theorem usable_times (w : World) (t t' : Int) (l l' : List (ℝ × ℝ)) (hl : ∀ q ∈ l', q ∈ l) : ∀ parts : List Element,
    UsableAll (moved (gridObs w t [] []) l) parts → UsableAll (moved (gridObs w t' [] []) l') parts
  | [], _ => trivial
  | e :: rest, h => by
    simp only [UsableAll] at h ⊢
    exact ⟨usable_time w t t' l l' hl e h.1, usable_times w t t' l l' hl rest h.2⟩

end

/-- The rows of an element at a time. -/
theorem rows_at (w : World) (e : Element) (time : Int) : ∃ r : ℝ × ℝ → Nat → ℝ, ∀ places,
    Usable (moved (gridObs w time [] []) places) e →
      (∃ A, (e.design (moved (gridObs w time [] []) places)).matrix = .ok A ∧ HasRows places (stateSize w e) r A) ∧
      ∀ p ∈ places, ∀ x : List ℝ, x.length = stateSize w e →
        placeValue w e time x p = ∑ j ∈ Finset.range (stateSize w e), r p j * x.getD j 0 := by
  obtain ⟨n, r, h⟩ := rows_of (gridObs w time [] []) (fun _ => rfl) e
  have hsize : ∀ o : Obs, (e.design o).size = stateSize w e := fun o => size_same o _ e
  refine ⟨r, fun places hu => ?_⟩
  obtain ⟨h1, A, h2, h3⟩ := h places hu
  have hn : n = stateSize w e := h1.symm.trans (hsize _)
  subst hn
  refine ⟨⟨A, h2, h3⟩, ?_⟩
  intro p hp x hx
  have hup : Usable (moved (gridObs w time [] []) [p]) e := usable_time w time time places [p] (by simpa using hp) e hu
  obtain ⟨-, B, h4, h5⟩ := h [p] hup
  obtain ⟨B', -, h7, -, h8, -, h9⟩ := c39_linear (moved (gridObs w time [] []) [p]) e hup
  have hB : B' = B := by rw [h8] at h4; exact Except.ok.inj h4
  subst hB
  have h10 := h9 x (by rw [hsize]; exact hx) none
  have h11 : gridObs w time [p.1] [p.2] = moved (gridObs w time [] []) [p] := rfl
  unfold placeValue
  rw [atPlace_eq]
  rw [h11, h10]
  obtain ⟨h12, h13, h14⟩ := h5
  have h12' : B'.rows = 1 := h12
  simp only [reduceCtorEq, if_false, product, h12', List.range_one, List.map_cons, List.map_nil, List.getD_cons_zero, h13]
  apply Finset.sum_congr rfl
  intro j hj
  rw [h14 0 (by simp) j (Finset.mem_range.1 hj)]
  rfl

theorem gridLocations_map (f g : ℝ → ℝ) (latitudes longitudes : List ℝ) :
    Regrid.gridLocations (latitudes.map f) (longitudes.map g) =
      (Regrid.gridLocations latitudes longitudes).map fun q => (f q.1, g q.2) := by
  unfold Regrid.gridLocations
  rw [List.flatMap_map, List.map_flatMap]
  congr 1
  funext a
  simp

theorem pointsOf_eq (centres : List ℝ) (resolution : ℝ) (n a : Nat) :
    pointsOf centres resolution n a = centres.map fun x => Regrid.part x resolution n a := by
  unfold pointsOf Regrid.part
  apply List.map_congr_left
  intro x _
  have : (0.5 : ℝ) = 1 / 2 := by norm_num
  rw [this, add_comm (1 / 2 : ℝ)]

/-- The point `(a, b)` of a cell. -/
def pointAt (resolution : ℝ × ℝ) (sampling : Nat × Nat) (q : Nat × Nat) (c : ℝ × ℝ) : ℝ × ℝ :=
  (Regrid.part c.1 resolution.1 sampling.1 q.1, Regrid.part c.2 resolution.2 sampling.2 q.2)

theorem points_eq (latitudes longitudes : List ℝ) (resolution : ℝ × ℝ) (sampling : Nat × Nat) (a b : Nat) :
    Regrid.gridLocations (pointsOf latitudes resolution.1 sampling.1 a) (pointsOf longitudes resolution.2 sampling.2 b) =
      (Regrid.gridLocations latitudes longitudes).map (pointAt resolution sampling (a, b)) := by
  rw [pointsOf_eq, pointsOf_eq, gridLocations_map]
  rfl

theorem getD_map' {α β : Type} (f : α → β) (l : List α) (i : Nat) (h : i < l.length) (d : α) (d' : β) :
    (l.map f).getD i d' = f (l.getD i d) := by
  simp [List.getD, List.getElem?_eq_getElem h]

section loop

variable (w : World) (p : Projector) (e : Element) (r : ℝ × ℝ → Nat → ℝ)

/-- The places of the cells of a projector. -/
def cellsOf (p : Projector) : List (ℝ × ℝ) := Regrid.gridLocations p.latitudes p.longitudes

/-- One step of the loop. -/
theorem loop_step (q : Nat × Nat)
    (hu : Usable (moved (gridObs w p.time [] []) ((cellsOf p).map (pointAt p.resolution p.sampling q))) e)
    (hr : ∀ places, Usable (moved (gridObs w p.time [] []) places) e →
      ∃ A, (e.design (moved (gridObs w p.time [] []) places)).matrix = .ok A ∧ HasRows places (stateSize w e) r A)
    (rest : List (Nat × Nat)) (total : Option (Arr × List ℝ)) :
    ∃ W : Arr, W.rows = (cellsOf p).length ∧ W.cols = stateSize w e ∧
      (∀ i < (cellsOf p).length, ∀ j < stateSize w e,
        W.get i j = Regrid.weight (pointAt p.resolution p.sampling q ((cellsOf p).getD i (0, 0))).1 *
          r (pointAt p.resolution p.sampling q ((cellsOf p).getD i (0, 0))) j) ∧
      cellLoop w p e (q :: rest) total =
        match total with
        | none => cellLoop w p e rest
            (some (W, (cellsOf p).map fun c => Regrid.weight (pointAt p.resolution p.sampling q c).1))
        | some (design, normalisation) =>
          match add design W with
          | .error err => .error err
          | .ok design => cellLoop w p e rest (some (design, List.zipWith (fun x y => x + y) normalisation
              ((cellsOf p).map fun c => Regrid.weight (pointAt p.resolution p.sampling q c).1))) := by
  obtain ⟨A, h1, h2, h3, h4⟩ := hr _ hu
  rw [List.length_map] at h2 h4
  have hobs : gridObs w p.time (pointsOf p.latitudes p.resolution.1 p.sampling.1 q.1)
      (pointsOf p.longitudes p.resolution.2 p.sampling.2 q.2) =
      moved (gridObs w p.time [] []) ((cellsOf p).map (pointAt p.resolution p.sampling q)) := by
    rw [gridObs_moved, points_eq]
    rfl
  have hw : weightArray ((moved (gridObs w p.time [] []) ((cellsOf p).map (pointAt p.resolution p.sampling q))).locations.map
      Prod.fst) = (cellsOf p).map fun c => Regrid.weight (pointAt p.resolution p.sampling q c).1 := by
    simp only [weightArray, moved, List.map_map]
    rfl
  refine ⟨⟨A.rows, A.cols, fun i j => ((cellsOf p).map fun c =>
      Regrid.weight (pointAt p.resolution p.sampling q c).1).getD i 0 * A.get i j⟩, h2, h3, ?_, ?_⟩
  · intro i hi j hj
    dsimp only
    rw [h4 i hi j hj, getD_map' _ _ i hi (0, 0), getD_map' _ _ i hi (0, 0)]
  · obtain ⟨a, b⟩ := q
    simp only [cellLoop]
    rw [hobs]
    simp only [h1, hw]
    have hsc : scaleRows ((cellsOf p).map fun c => Regrid.weight (pointAt p.resolution p.sampling (a, b) c).1) A =
        .ok ⟨A.rows, A.cols, fun i j => ((cellsOf p).map fun c =>
          Regrid.weight (pointAt p.resolution p.sampling (a, b) c).1).getD i 0 * A.get i j⟩ := by
      unfold scaleRows
      rw [if_neg (by simp [h2])]
    simp only [hsc]
    cases total with
    | none => rfl
    | some t => rfl

theorem loop_some (hr : ∀ places, Usable (moved (gridObs w p.time [] []) places) e →
      ∃ A, (e.design (moved (gridObs w p.time [] []) places)).matrix = .ok A ∧ HasRows places (stateSize w e) r A) :
    ∀ (qs : List (Nat × Nat)) (D : Arr) (nrm : List ℝ),
      (∀ q ∈ qs, Usable (moved (gridObs w p.time [] []) ((cellsOf p).map (pointAt p.resolution p.sampling q))) e) →
      D.rows = (cellsOf p).length → D.cols = stateSize w e → nrm.length = (cellsOf p).length →
      ∃ D' nrm', cellLoop w p e qs (some (D, nrm)) = .ok (some (D', nrm')) ∧ D'.rows = (cellsOf p).length ∧
        D'.cols = stateSize w e ∧ nrm'.length = (cellsOf p).length ∧
        ∀ i < (cellsOf p).length,
          (∀ j < stateSize w e, D'.get i j = D.get i j + (qs.map fun q =>
            Regrid.weight (pointAt p.resolution p.sampling q ((cellsOf p).getD i (0, 0))).1 *
              r (pointAt p.resolution p.sampling q ((cellsOf p).getD i (0, 0))) j).sum) ∧
          nrm'.getD i 0 = nrm.getD i 0 + (qs.map fun q =>
            Regrid.weight (pointAt p.resolution p.sampling q ((cellsOf p).getD i (0, 0))).1).sum := by
  intro qs
  induction qs with
  | nil =>
    intro D nrm _ h1 h2 h3
    exact ⟨D, nrm, rfl, h1, h2, h3, fun i _ => ⟨fun j _ => by simp, by simp⟩⟩
  | cons q rest ih =>
    intro D nrm hu h1 h2 h3
    obtain ⟨W, h4, h5, h6, h7⟩ := loop_step w p e r q (hu q (by simp)) hr rest (some (D, nrm))
    rw [h7]
    have hadd : add D W = .ok ⟨D.rows, D.cols, fun i j => D.get i j + W.get i j⟩ := by
      unfold add
      rw [if_neg (by simp [h1, h2, h4, h5])]
    simp only [hadd]
    obtain ⟨D', nrm', h8, h9, h10, h11, h12⟩ := ih ⟨D.rows, D.cols, fun i j => D.get i j + W.get i j⟩
      (List.zipWith (fun x y => x + y) nrm
        ((cellsOf p).map fun c => Regrid.weight (pointAt p.resolution p.sampling q c).1))
      (fun q hq => hu q (by simp [hq])) h1 h2 (by simp [h3])
    refine ⟨D', nrm', h8, h9, h10, h11, fun i hi => ⟨fun j hj => ?_, ?_⟩⟩
    · rw [(h12 i hi).1 j hj]
      dsimp only
      rw [h6 i hi j hj, List.map_cons, List.sum_cons]
      ring
    · rw [(h12 i hi).2, List.map_cons, List.sum_cons]
      have : (List.zipWith (fun x y => x + y) nrm
          ((cellsOf p).map fun c => Regrid.weight (pointAt p.resolution p.sampling q c).1)).getD i 0 =
          nrm.getD i 0 + Regrid.weight (pointAt p.resolution p.sampling q ((cellsOf p).getD i (0, 0))).1 := by
        have hi' : i < nrm.length := by omega
        simp [List.getD, List.getElem?_zipWith, List.getElem?_eq_getElem hi, List.getElem?_eq_getElem hi']
      rw [this]
      ring

end loop

theorem sum_pairs (n m : Nat) (f : Nat × Nat → ℝ) :
    (((List.range n).flatMap fun a => (List.range m).map fun b => (a, b)).map f).sum =
      ∑ a ∈ Finset.range n, ∑ b ∈ Finset.range m, f (a, b) := by
  rw [List.map_flatMap, Regrid.sum_flatMap, Regrid.sum_range]
  apply Finset.sum_congr rfl
  intro a _
  rw [List.map_map, Regrid.sum_range]
  rfl

/-- An average is linear. -/
theorem average_sum (n : Nat) (r : ℝ × ℝ → Nat → ℝ) (x : Nat → ℝ) (height width : ℝ) (nlat nlon : Nat) (a b : ℝ) :
    ∑ j ∈ Finset.range n, Regrid.cellAverage (fun p => r p j) height width nlat nlon a b * x j =
      Regrid.cellAverage (fun p => ∑ j ∈ Finset.range n, r p j * x j) height width nlat nlon a b := by
  unfold Regrid.cellAverage
  simp only [Finset.mul_sum, div_mul_eq_mul_div, ← Finset.sum_div]
  congr 1
  simp only [Finset.sum_mul]
  rw [Finset.sum_comm]
  apply Finset.sum_congr rfl
  intro i _
  rw [Finset.sum_comm]
  apply Finset.sum_congr rfl
  intro k _
  apply Finset.sum_congr rfl
  intro j _
  ring

theorem average_congr (f g : ℝ × ℝ → ℝ) (height width : ℝ) (nlat nlon : Nat) (a b : ℝ)
    (h : ∀ i < nlat, ∀ j < nlon, f (Regrid.part a height nlat i, Regrid.part b width nlon j) =
      g (Regrid.part a height nlat i, Regrid.part b width nlon j)) :
    Regrid.cellAverage f height width nlat nlon a b = Regrid.cellAverage g height width nlat nlon a b := by
  unfold Regrid.cellAverage
  congr 1
  apply Finset.sum_congr rfl
  intro i hi
  apply Finset.sum_congr rfl
  intro j hj
  rw [h i (Finset.mem_range.1 hi) j (Finset.mem_range.1 hj)]

theorem mem_cells {latitudes longitudes : List ℝ} {c : ℝ × ℝ} (h : c ∈ Regrid.gridLocations latitudes longitudes) :
    c.1 ∈ latitudes ∧ c.2 ∈ longitudes := by
  unfold Regrid.gridLocations at h
  simp only [List.mem_flatMap, List.mem_map] at h
  obtain ⟨a, ha, b, hb, rfl⟩ := h
  exact ⟨ha, hb⟩

/-- C110: the design matrix of a projector, applied to any states, gives for each of them and each cell the average over the cell
of the value of the component at places in the cell. -/
theorem c110_cells (w : World) (p : Projector) (c : Component) (hc : p.component = some c) (h1 : 0 < p.sampling.1)
    (h2 : 0 < p.sampling.2) (hu : Evaluable w c.element (pointsIn p.latitudes p.longitudes p.resolution p.sampling)) :
    ∃ A, p.evaluateDesign w = .ok { p with design := some A } ∧
      A.rows = (Regrid.gridLocations p.latitudes p.longitudes).length ∧ A.cols = stateSize w c.element ∧
      ∀ X : Arr, X.rows = stateSize w c.element → ∃ Y, mul A X = .ok Y ∧ Y.rows = A.rows ∧ Y.cols = X.cols ∧
        ∀ i < A.rows, ∀ k, Y.get i k = Regrid.cellAverage (placeValue w c.element p.time (column X k)) p.resolution.1
          p.resolution.2 p.sampling.1 p.sampling.2 ((Regrid.gridLocations p.latitudes p.longitudes).getD i (0, 0)).1
          ((Regrid.gridLocations p.latitudes p.longitudes).getD i (0, 0)).2 := by
  obtain ⟨r, hr⟩ := rows_at w c.element p.time
  have hpoint : ∀ q : Nat × Nat, q.1 < p.sampling.1 → q.2 < p.sampling.2 → ∀ z ∈ (cellsOf p).map (pointAt p.resolution p.sampling q),
      z ∈ pointsIn p.latitudes p.longitudes p.resolution p.sampling := by
    intro q hq1 hq2 z hz
    obtain ⟨d, hd, rfl⟩ := List.mem_map.1 hz
    obtain ⟨h3, h4⟩ := mem_cells hd
    exact ⟨d.1, h3, d.2, h4, q.1, hq1, q.2, hq2, rfl⟩
  have husable : ∀ q : Nat × Nat, q.1 < p.sampling.1 → q.2 < p.sampling.2 →
      Usable (moved (gridObs w p.time [] []) ((cellsOf p).map (pointAt p.resolution p.sampling q))) c.element := by
    intro q hq1 hq2
    exact usable_time w 0 p.time _ _ (fun _ h => h) _ (hu _ (hpoint q hq1 hq2))
  have hqs : ∀ q ∈ (List.range p.sampling.1).flatMap fun a => (List.range p.sampling.2).map fun b => (a, b),
      q.1 < p.sampling.1 ∧ q.2 < p.sampling.2 := by
    intro q hq
    simp only [List.mem_flatMap, List.mem_map, List.mem_range] at hq
    obtain ⟨a, ha, b, hb, rfl⟩ := hq
    exact ⟨ha, hb⟩
  generalize hL : ((List.range p.sampling.1).flatMap fun a => (List.range p.sampling.2).map fun b => (a, b)) = qs at hqs
  cases qs with
  | nil =>
    exfalso
    have : ((0, 0) : Nat × Nat) ∈ (List.range p.sampling.1).flatMap fun a => (List.range p.sampling.2).map fun b => (a, b) := by
      simp only [List.mem_flatMap, List.mem_map, List.mem_range]
      exact ⟨0, h1, 0, h2, rfl⟩
    rw [hL] at this
    simp at this
  | cons q rest =>
    obtain ⟨W, h4, h5, h6, h7⟩ := loop_step w p c.element r q (husable q (hqs q (by simp)).1 (hqs q (by simp)).2)
      (fun places hp => (hr places hp).1) rest none
    obtain ⟨D, nrm, h8, h9, h10, h11, h12⟩ := loop_some w p c.element r (fun places hp => (hr places hp).1) rest W
      ((cellsOf p).map fun d => Regrid.weight (pointAt p.resolution p.sampling q d).1)
      (fun q' hq' => husable q' (hqs q' (by simp [hq'])).1 (hqs q' (by simp [hq'])).2) h4 h5 (by simp)
    have hD : ∀ i < (cellsOf p).length, ∀ j < stateSize w c.element, D.get i j =
        ∑ a ∈ Finset.range p.sampling.1, ∑ b ∈ Finset.range p.sampling.2,
          Regrid.weight (pointAt p.resolution p.sampling (a, b) ((cellsOf p).getD i (0, 0))).1 *
            r (pointAt p.resolution p.sampling (a, b) ((cellsOf p).getD i (0, 0))) j := by
      intro i hi j hj
      rw [(h12 i hi).1 j hj, h6 i hi j hj, ← sum_pairs p.sampling.1 p.sampling.2 (fun q =>
        Regrid.weight (pointAt p.resolution p.sampling q ((cellsOf p).getD i (0, 0))).1 *
            r (pointAt p.resolution p.sampling q ((cellsOf p).getD i (0, 0))) j), hL, List.map_cons, List.sum_cons]
    have hN : ∀ i < (cellsOf p).length, nrm.getD i 0 =
        ∑ a ∈ Finset.range p.sampling.1, ∑ b ∈ Finset.range p.sampling.2,
          Regrid.weight (pointAt p.resolution p.sampling (a, b) ((cellsOf p).getD i (0, 0))).1 := by
      intro i hi
      rw [(h12 i hi).2, ← sum_pairs p.sampling.1 p.sampling.2 (fun q =>
        Regrid.weight (pointAt p.resolution p.sampling q ((cellsOf p).getD i (0, 0))).1), hL, List.map_cons, List.sum_cons,
        getD_map' _ _ i hi (0, 0)]
    have hsc : scaleRows (nrm.map fun x => 1 / x) D =
        .ok ⟨D.rows, D.cols, fun i j => (nrm.map fun x => 1 / x).getD i 0 * D.get i j⟩ := by
      unfold scaleRows
      rw [if_neg (by simp [h11, h9])]
    refine ⟨⟨D.rows, D.cols, fun i j => (nrm.map fun x => 1 / x).getD i 0 * D.get i j⟩, ?_, h9, h10, ?_⟩
    · unfold Projector.evaluateDesign
      rw [if_neg (by omega)]
      simp only [hc, hL, h7, h8, hsc]
    · intro X hX
      refine ⟨⟨D.rows, X.cols, fun i k => ∑ j ∈ Finset.range D.cols, (nrm.map fun x => 1 / x).getD i 0 * D.get i j * X.get j k⟩,
        ?_, rfl, rfl, ?_⟩
      · unfold mul
        rw [if_neg (by simp [h10, hX])]
      · intro i hi k
        dsimp only at hi ⊢
        rw [h9] at hi
        have hcell : (cellsOf p).getD i (0, 0) ∈ cellsOf p := by
          simp only [List.getD, List.getElem?_eq_getElem hi, Option.getD_some]
          exact List.getElem_mem _
        have hrow : ∀ j < stateSize w c.element, (nrm.map fun x => 1 / x).getD i 0 * D.get i j =
            Regrid.cellAverage (fun z => r z j) p.resolution.1 p.resolution.2 p.sampling.1 p.sampling.2
              ((cellsOf p).getD i (0, 0)).1 ((cellsOf p).getD i (0, 0)).2 := by
          intro j hj
          rw [getD_map' _ _ i (by omega) 0, hN i hi, hD i hi j hj, one_div, inv_mul_eq_div]
          rfl
        rw [h10]
        have hsum : ∑ j ∈ Finset.range (stateSize w c.element), (nrm.map fun x => 1 / x).getD i 0 * D.get i j * X.get j k =
            ∑ j ∈ Finset.range (stateSize w c.element), Regrid.cellAverage (fun z => r z j) p.resolution.1 p.resolution.2
              p.sampling.1 p.sampling.2 ((cellsOf p).getD i (0, 0)).1 ((cellsOf p).getD i (0, 0)).2 * (column X k).getD j 0 := by
          apply Finset.sum_congr rfl
          intro j hj
          have hj' := Finset.mem_range.1 hj
          rw [hrow j hj']
          congr 1
          unfold column
          rw [getD_map' _ _ j (by simp [hX, hj']) 0]
          simp [List.getD, hX, hj']
        rw [hsum, average_sum]
        apply average_congr
        intro a ha b hb
        symm
        refine (hr [pointAt p.resolution p.sampling (a, b) ((cellsOf p).getD i (0, 0))] ?_).2 _ (by simp; rfl) _ ?_
        · refine usable_time w 0 p.time _ _ (fun _ h => h) _ (hu _ ?_)
          intro z hz
          rw [List.mem_singleton] at hz
          subst hz
          exact hpoint (a, b) ha hb _ (List.mem_map.2 ⟨_, hcell, rfl⟩)
        · simp [column, hX]

end

end Verif.Eustace.Projector
