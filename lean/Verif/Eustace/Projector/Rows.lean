import Verif.Eustace.Projector.Model
import Verif.Eustace.Elements.Trees

/-! Rows of design matrices: each row depends on its own place alone, and for some elements on no time. -/

namespace Verif.Eustace.Projector

open Verif Verif.Eustace.Elements

noncomputable section

/-- `obs` at other places. -/
def moved (obs : Obs) (places : List (ℝ × ℝ)) : Obs := { obs with locations := places }

/-- The row of an array which is beside others. -/
def joinRows : List (Nat × (ℝ × ℝ → Nat → ℝ)) → ℝ × ℝ → Nat → ℝ
  | [], _, _ => 0
  | (n, r) :: rest, p, j => if j < n then r p j else joinRows rest p (j - n)

/-- `A` has a row `r` for each place. -/
def HasRows (places : List (ℝ × ℝ)) (n : Nat) (r : ℝ × ℝ → Nat → ℝ) (A : Arr) : Prop :=
  A.rows = places.length ∧ A.cols = n ∧ ∀ i < places.length, ∀ j < n, A.get i j = r (places.getD i (0, 0)) j

theorem besides_rows (places : List (ℝ × ℝ)) (rs : List (Nat × (ℝ × ℝ → Nat → ℝ))) (As : List Arr)
    (h : List.Forall₂ (fun (r : Nat × (ℝ × ℝ → Nat → ℝ)) A => HasRows places r.1 r.2 A) rs As) :
    ∀ i < places.length, ∀ j < (rs.map Prod.fst).sum, Arr.besides As i j = joinRows rs (places.getD i (0, 0)) j := by
  induction h with
  | nil => intro i _ j hj; simp at hj
  | @cons r A rs As h1 _ ih =>
    intro i hi j hj
    obtain ⟨n, f⟩ := r
    obtain ⟨h2, h3, h4⟩ := h1
    simp only [List.map_cons, List.sum_cons] at hj
    simp only [Arr.besides, joinRows, h3]
    by_cases hc : j < n
    · rw [if_pos hc, if_pos hc, h4 i hi j hc]
    · rw [if_neg hc, if_neg hc, ih i hi _ (by omega)]

theorem hstack_rows (places : List (ℝ × ℝ)) (rs : List (Nat × (ℝ × ℝ → Nat → ℝ))) (As : List Arr) (hne : rs ≠ [])
    (h : List.Forall₂ (fun (r : Nat × (ℝ × ℝ → Nat → ℝ)) A => HasRows places r.1 r.2 A) rs As) :
    ∃ A, Arr.hstack As = .ok A ∧ HasRows places (rs.map Prod.fst).sum (joinRows rs) A := by
  have hb := besides_rows places rs As h
  have hc : (As.map Arr.cols).sum = (rs.map Prod.fst).sum := by
    clear hb hne
    induction h with
    | nil => rfl
    | cons h1 _ ih => simp only [List.map_cons, List.sum_cons, ih, h1.2.1]
  have hr : ∀ A ∈ As, A.rows = places.length := by
    clear hb hne hc
    induction h with
    | nil => simp
    | cons h1 _ ih =>
      intro A hA
      rcases List.mem_cons.1 hA with rfl | hA
      · exact h1.1
      · exact ih A hA
  cases h with
  | nil => exact absurd rfl hne
  | @cons r A rs As h1 h2 =>
    refine ⟨⟨A.rows, ((A :: As).map Arr.cols).sum, Arr.besides (A :: As)⟩, ?_, h1.1, hc, fun i hi j hj => hb i hi j hj⟩
    have : (As.all fun B => decide (B.rows = A.rows)) = true := by
      rw [List.all_eq_true]
      intro B hB
      simp [hr B (List.mem_cons_of_mem _ hB), h1.1]
    simp only [Arr.hstack, this, if_true]

theorem collect_rows (value : ℝ × ℝ → Except PyErr ℝ) (places : List (ℝ × ℝ)) (h : ∀ l ∈ places, ∃ v, value l = .ok v) :
    ∃ vs, collect (places.map value) = .ok vs ∧ vs.length = places.length ∧
      ∀ i < places.length, value (places.getD i (0, 0)) = .ok (vs.getD i 0) := by
  induction places with
  | nil => exact ⟨[], rfl, rfl, by simp⟩
  | cons a rest ih =>
    obtain ⟨v, hv⟩ := h a (by simp)
    obtain ⟨vs, h1, h2, h3⟩ := ih fun b hb => h b (by simp [hb])
    refine ⟨v :: vs, by simp [collect, hv, h1], by simp [h2], ?_⟩
    intro i hi
    cases i with
    | zero => simpa using hv
    | succ i => simpa using h3 i (by simpa using hi)

/-- Each row of the design matrix depends on its own place alone. -/
def RowWise (obs : Obs) (e : Element) : Prop := ∃ (n : Nat) (r : ℝ × ℝ → Nat → ℝ),
    ∀ places, Usable (moved obs places) e → (e.design (moved obs places)).size = n ∧
      ∃ A, (e.design (moved obs places)).matrix = .ok A ∧ HasRows places n r A

theorem rows_bias (obs : Obs) (hn : ∀ g, obs.effect g = none) (group : String) (k : Nat) :
    RowWise obs (.bias group k) := by
  refine ⟨k, fun _ _ => 0, fun places _ => ⟨rfl, Arr.zero places.length k, ?_, rfl, rfl, fun _ _ _ _ => rfl⟩⟩
  simp only [Element.design, biasDesign, moved, hn, effectMatrix, linearDesign]

theorem rows_grandMean (obs : Obs)  :
    RowWise obs (.grandMean) := ⟨1, fun _ _ => 1, fun _ _ => ⟨rfl, _, rfl, rfl, rfl, fun _ _ _ _ => rfl⟩⟩

theorem rows_geography (obs : Obs) (value : ℝ × ℝ → Except PyErr ℝ) :
    RowWise obs (.geography value) := by
  refine ⟨1, fun p _ => match value p with | .ok v => v | .error _ => 0, fun places h => ⟨rfl, ?_⟩⟩
  simp only [Usable, moved] at h
  obtain ⟨vs, h1, h2, h3⟩ := collect_rows value places h
  refine ⟨Arr.column vs, ?_, h2, rfl, ?_⟩
  · simp only [Element.design, geographyDesign, moved, h1, linearDesign]
  · intro i hi j _
    simp only [h3 i hi, Arr.column]

theorem rows_latitudeHarmonics (obs : Obs)  :
    RowWise obs (.latitudeHarmonics) := by
  refine ⟨((latitudeHarmonics.map fun f => (1, fun (p : ℝ × ℝ) (_ : Nat) => f p.1)).map Prod.fst).sum,
    joinRows (latitudeHarmonics.map fun f => (1, fun p _ => f p.1)), fun places _ => ⟨by simp [Element.design,
      latitudeHarmonicsDesign, linearDesign, latitudeHarmonics], ?_⟩⟩
  obtain ⟨A, h1, h2⟩ := hstack_rows places (latitudeHarmonics.map fun f => (1, fun p _ => f p.1))
    (latitudeHarmonics.map fun f => Arr.column (places.map fun l => f l.1)) (by simp [latitudeHarmonics]) (by
      rw [List.forall₂_map_left_iff, List.forall₂_map_right_iff]
      refine List.forall₂_same.2 fun f _ => ⟨by simp [Arr.column], rfl, ?_⟩
      intro i hi j _
      simp [Arr.column, List.getD, List.getElem?_eq_getElem hi])
  refine ⟨A, ?_, h2⟩
  simp only [Element.design, latitudeHarmonicsDesign, linearDesign, moved]
  exact h1

theorem rows_latitudeSpline (obs : Obs) (L : Lattice.Lattice 1) (span : Lattice.Multi 1 ℝ) (alpha : Nat) (H : Lattice.Multi 1 ℝ) :
    RowWise obs (.latitudeSpline L span alpha H) := by
  refine ⟨L.size, fun p c => Lattice.buildARow L .wendlandC4 span (fun _ => p.1) c, fun places _ => ⟨rfl, _, rfl, ?_, rfl, ?_⟩⟩
  · simp [lineMatrix, moved]
  · intro i hi j _
    simp [lineMatrix, moved, List.getD, List.getElem?_eq_getElem hi]

theorem rows_stationary (obs : Obs) (m : Mesh.Mesh Locator.V3) :
    RowWise obs (.stationary m) := ⟨m.points.length, obs.sphereRow m, fun _ _ => ⟨rfl, _, rfl, rfl, rfl, fun _ _ _ _ => rfl⟩⟩

theorem rows_nonstationary (obs : Obs) (m : Mesh.Mesh Locator.V3) :
    RowWise obs (.nonstationary m) := ⟨m.points.length, obs.sphereRow m, fun _ _ => ⟨rfl, _, rfl, rfl, rfl, fun _ _ _ _ => rfl⟩⟩

theorem rows_spatialBias (obs : Obs) (hn : ∀ g, obs.effect g = none) (group : String) (m : Mesh.Mesh Locator.V3) :
    RowWise obs (.spatialBias group m) := by
  refine ⟨m.points.length, fun _ _ => 0,
    fun places _ => ⟨rfl, Arr.zero places.length m.points.length, ?_, rfl, rfl, fun _ _ _ _ => rfl⟩⟩
  simp only [Element.design, spatialBiasDesign, moved, hn, linearDesign]

theorem rows_seasonal (obs : Obs) (m : Mesh.Mesh Locator.V3) (n : Nat) (mean : Bool) :
    RowWise obs (.seasonal m n mean) := by
  refine ⟨seasonalCount n mean * m.points.length, fun p j =>
    (seasonalList n mean obs.decimalYear).getD (j / m.points.length) 0 * obs.sphereRow m p (j % m.points.length),
    fun places h => ⟨rfl, ?_⟩⟩
  obtain ⟨A, h1, h2, -, h3, -⟩ := c39_linear (moved obs places) (.seasonal m n mean) h
  have h4 : A = Arr.kron (rowArr (seasonalList n mean obs.decimalYear)) (sphereMatrix m (moved obs places)) := by
    simp only [Element.design, seasonalDesign, linearDesign, Except.ok.injEq] at h3
    exact h3.symm
  refine ⟨A, h3, h1, h2, ?_⟩
  intro i hi j _
  subst h4
  simp only [Arr.kron, rowArr, sphereMatrix]
  have : i % (moved obs places).locations.length = i := Nat.mod_eq_of_lt hi
  rw [this]
  rfl

theorem rows_kronecker (obs : Obs) (s : SpaceTime) :
    RowWise obs (.kronecker s) := by
  refine ⟨s.mesh.points.length * s.line.size, fun p j =>
    Lattice.buildARow s.line .wendlandC4 s.span (fun _ => obs.timeIndex) (j / s.mesh.points.length) *
      obs.sphereRow s.mesh p (j % s.mesh.points.length),
    fun places h => ⟨rfl, ?_⟩⟩
  obtain ⟨A, h1, h2, -, h3, -⟩ := c39_linear (moved obs places) (.kronecker s) h
  have h4 : A = Arr.kron (lineMatrix s.line s.span [obs.timeIndex]) (sphereMatrix s.mesh (moved obs places)) := by
    simp only [Element.design, kroneckerDesign, linearDesign, Except.ok.injEq] at h3
    exact h3.symm
  refine ⟨A, h3, h1, h2, ?_⟩
  intro i hi j _
  subst h4
  simp only [Arr.kron, lineMatrix, sphereMatrix]
  have h5 : i % (moved obs places).locations.length = i := Nat.mod_eq_of_lt hi
  have h6 : i / (moved obs places).locations.length = 0 := Nat.div_eq_of_lt hi
  rw [h5, h6]
  rfl

theorem rows_annualKronecker (obs : Obs) (s : SpaceTime) :
    RowWise obs (.annualKronecker s) := by
  refine ⟨s.mesh.points.length * s.line.size, fun p j =>
    Lattice.buildARow s.line .wendlandC4 s.span (fun _ => obs.decimalYear) (j / s.mesh.points.length) *
      obs.sphereRow s.mesh p (j % s.mesh.points.length),
    fun places h => ⟨rfl, ?_⟩⟩
  obtain ⟨A, h1, h2, -, h3, -⟩ := c39_linear (moved obs places) (.annualKronecker s) h
  have h4 : A = Arr.kron (lineMatrix s.line s.span [obs.decimalYear]) (sphereMatrix s.mesh (moved obs places)) := by
    simp only [Element.design, kroneckerDesign, linearDesign, Except.ok.injEq] at h3
    exact h3.symm
  refine ⟨A, h3, h1, h2, ?_⟩
  intro i hi j _
  subst h4
  simp only [Arr.kron, lineMatrix, sphereMatrix]
  have h5 : i % (moved obs places).locations.length = i := Nat.mod_eq_of_lt hi
  have h6 : i / (moved obs places).locations.length = 0 := Nat.div_eq_of_lt hi
  rw [h5, h6]
  rfl

theorem rows_factor (obs : Obs) (s : SpaceTime) :
    RowWise obs (.factor s) := ⟨0, fun _ _ => 0, fun places h => by simp [Usable] at h⟩

mutual

/-- Each row of the design matrix of an element depends on its own place alone. -/
theorem rows_of (obs : Obs) (hn : ∀ g, obs.effect g = none) : ∀ e : Element, RowWise obs e
  | .bias group k => rows_bias obs hn group k
  | .grandMean => rows_grandMean obs 
  | .geography value => rows_geography obs value
  | .latitudeHarmonics => rows_latitudeHarmonics obs 
  | .latitudeSpline L span alpha H => rows_latitudeSpline obs L span alpha H
  | .stationary m => rows_stationary obs m
  | .nonstationary m => rows_nonstationary obs m
  | .spatialBias group m => rows_spatialBias obs hn group m
  | .seasonal m n mean => rows_seasonal obs m n mean
  | .kronecker s => rows_kronecker obs s
  | .annualKronecker s => rows_annualKronecker obs s
  | .factor s => rows_factor obs s
  | .combination parts => by
    obtain ⟨rs, hlen, hrs⟩ := rows_of_all obs hn parts
    refine ⟨(rs.map Prod.fst).sum, joinRows rs, fun places h => ?_⟩
    simp only [Usable] at h
    obtain ⟨As, h1, h2, h3⟩ := hrs places h.2
    obtain ⟨A, h4, h5⟩ := hstack_rows places rs As (by
      rintro rfl
      simp only [List.length_nil] at hlen
      exact h.1 (List.length_eq_zero_iff.1 hlen.symm)) h2
    refine ⟨by simp only [Element.design, combinedDesign, h3], A, ?_, h5⟩
    simp only [Element.design]
    show combinedMatrix _ = _
    unfold combinedMatrix
    rw [h1]
    exact h4

theorem rows_of_all (obs : Obs) (hn : ∀ g, obs.effect g = none) : ∀ parts : List Element,
    ∃ rs : List (Nat × (ℝ × ℝ → Nat → ℝ)), rs.length = parts.length ∧ ∀ places, UsableAll (moved obs places) parts →
      ∃ As, collect ((designsOf (moved obs places) parts).map Design.matrix) = .ok As ∧
        List.Forall₂ (fun (r : Nat × (ℝ × ℝ → Nat → ℝ)) A => HasRows places r.1 r.2 A) rs As ∧
        ((designsOf (moved obs places) parts).map Design.size) = rs.map Prod.fst
  | [] => ⟨[], rfl, fun _ _ => ⟨[], rfl, .nil, rfl⟩⟩
  | e :: rest => by
    obtain ⟨n, r, h1⟩ := rows_of obs hn e
    obtain ⟨rs, h2, h3⟩ := rows_of_all obs hn rest
    refine ⟨(n, r) :: rs, by simp [h2], fun places h => ?_⟩
    simp only [UsableAll] at h
    obtain ⟨h4, A, h5, h6⟩ := h1 places h.1
    obtain ⟨As, h7, h8, h9⟩ := h3 places h.2
    refine ⟨A :: As, ?_, .cons h6 h8, ?_⟩
    · simp only [designsOf, List.map_cons, h5, collect, h7]
    · simp only [designsOf, List.map_cons, h4, h9]

end

mutual

/-- Elements which know no time. -/
def Timeless : Element → Prop
  | .seasonal _ _ _ => False
  | .kronecker _ => False
  | .annualKronecker _ => False
  | .factor _ => False
  | .combination parts => TimelessAll parts
  | _ => True

def TimelessAll : List Element → Prop
  | [] => True
  | e :: rest => Timeless e ∧ TimelessAll rest

end

mutual

theorem timeless_design (o o' : Obs) (h1 : o.locations = o'.locations) (h2 : o.effect = o'.effect)
    (h3 : o.sphereRow = o'.sphereRow) : ∀ e : Element, Timeless e → e.design o = e.design o'
  | .bias _ _, _ => by simp only [Element.design, biasDesign, h1, h2]
  | .grandMean, _ => by simp only [Element.design, grandMeanDesign, h1]
  | .geography _, _ => by simp only [Element.design, geographyDesign, h1]
  | .latitudeHarmonics, _ => by simp only [Element.design, latitudeHarmonicsDesign, h1]
  | .latitudeSpline _ _ _ _, _ => by simp only [Element.design, latitudeSplineDesign, h1]
  | .stationary _, _ => by simp only [Element.design, localDesign, sphereMatrix, h1, h3]
  | .nonstationary _, _ => by simp only [Element.design, localDesign, sphereMatrix, h1, h3]
  | .spatialBias _ _, _ => by simp only [Element.design, spatialBiasDesign, sphereMatrix, h1, h2, h3]
  | .seasonal _ _ _, h => by simp [Timeless] at h
  | .kronecker _, h => by simp [Timeless] at h
  | .annualKronecker _, h => by simp [Timeless] at h
  | .factor _, h => by simp [Timeless] at h
  | .combination parts, h => by
    simp only [Timeless] at h
    simp only [Element.design, timeless_designs o o' h1 h2 h3 parts h]

theorem timeless_designs (o o' : Obs) (h1 : o.locations = o'.locations) (h2 : o.effect = o'.effect)
    (h3 : o.sphereRow = o'.sphereRow) : ∀ parts : List Element, TimelessAll parts → designsOf o parts = designsOf o' parts
  | [], _ => rfl
  | e :: rest, h => by
    simp only [TimelessAll] at h
    simp only [designsOf, timeless_design o o' h1 h2 h3 e h.1, timeless_designs o o' h1 h2 h3 rest h.2]

end

mutual

/-- The number of state parameters of an element is the same for all observations. -/
theorem size_same (o o' : Obs) : ∀ e : Element, (e.design o).size = (e.design o').size
  | .bias _ _ => by simp only [Element.design, biasDesign, linearDesign]
  | .grandMean => by simp only [Element.design, grandMeanDesign, linearDesign]
  | .geography _ => by simp only [Element.design, geographyDesign, linearDesign]
  | .latitudeHarmonics => by simp only [Element.design, latitudeHarmonicsDesign, linearDesign]
  | .latitudeSpline _ _ _ _ => by simp only [Element.design, latitudeSplineDesign, linearDesign]
  | .stationary _ => by simp only [Element.design, localDesign, linearDesign]
  | .nonstationary _ => by simp only [Element.design, localDesign, linearDesign]
  | .spatialBias _ _ => by simp only [Element.design, spatialBiasDesign, linearDesign]
  | .seasonal _ _ _ => by simp only [Element.design, seasonalDesign, linearDesign]
  | .kronecker _ => by simp only [Element.design, kroneckerDesign, linearDesign]
  | .annualKronecker _ => by simp only [Element.design, kroneckerDesign, linearDesign]
  | .factor _ => by simp only [Element.design, factorDesign]
  | .combination parts => by
    simp only [Element.design, combinedDesign, sizes_same o o' parts]

theorem sizes_same (o o' : Obs) : ∀ parts : List Element,
    (designsOf o parts).map Design.size = (designsOf o' parts).map Design.size
  | [] => rfl
  | e :: rest => by simp only [designsOf, List.map_cons, size_same o o' e, sizes_same o o' rest]

end

end

end Verif.Eustace.Projector
