import Verif.Eustace.Regrid.Props
import Mathlib.Analysis.InnerProductSpace.PiL2

/-! C99: what the analysis system puts out is the sum of its components. -/

namespace Verif.Eustace.Regrid

open Verif

/-! ### Lemmas -/

theorem gridLocations_length (a b : List ℝ) : (gridLocations a b).length = a.length * b.length := by
  simp [gridLocations, List.length_flatMap]

theorem zipWith_map_add {α : Type} (l : List α) (f g : α → ℝ) :
    List.zipWith (fun a b => a + b) (l.map f) (l.map g) = l.map fun x => f x + g x := by
  induction l with
  | nil => rfl
  | cons x l ih => rw [List.map_cons, List.map_cons, List.zipWith_cons_cons, ih, List.map_cons]

theorem replicate_zero {α : Type} (l : List α) : List.replicate l.length (0 : ℝ) = l.map fun _ => 0 := by
  rw [List.map_const']

theorem pointwiseLoop_eq (flag : String) (places : List (ℝ × ℝ)) (h : flag = "MAP" ∨ flag = "post_STD") (F : Solution → ℝ × ℝ → ℝ)
    (hF : F = if flag = "MAP" then fun s => s.value else fun s p => s.uncertainty p ^ 2) :
    ∀ (components : List Solution) (g : ℝ × ℝ → ℝ),
    pointwiseLoop flag places (places.map g) components =
      .ok (places.map fun p => g p + (components.map fun s => F s p).sum)
  | [], g => by simp [pointwiseLoop]
  | s :: rest, g => by
    have hv : (if flag = "MAP" then places.map s.value else places.map fun p => s.uncertainty p ^ 2) = places.map (F s) := by
      rw [hF]
      split <;> rfl
    rw [pointwiseLoop, if_pos h, hv]
    unfold addTo
    rw [if_pos (by simp)]
    dsimp only
    rw [zipWith_map_add, pointwiseLoop_eq flag places h F hF rest]
    congr 1
    apply List.map_congr_left
    intro p _
    rw [List.map_cons, List.sum_cons]
    ring

theorem pointwise_eq (flag : String) (latitudes longitudes : List ℝ) (components : List Solution) (h : flag = "MAP" ∨ flag = "post_STD")
    (F : Solution → ℝ × ℝ → ℝ) (hF : F = if flag = "MAP" then fun s => s.value else fun s p => s.uncertainty p ^ 2) :
    pointwise flag latitudes longitudes components =
      .ok (if flag = "MAP" then (gridLocations latitudes longitudes).map fun p => (components.map fun s => F s p).sum
        else (gridLocations latitudes longitudes).map fun p => Real.sqrt (components.map fun s => F s p).sum) := by
  unfold pointwise
  rw [← gridLocations_length, replicate_zero, pointwiseLoop_eq flag _ h F hF]
  dsimp only
  split
  · simp
  · simp

/-! ### At points -/

/-- C99: at points, the analysis is the sum of components. -/
theorem c99_pointwise (latitudes longitudes : List ℝ) (components : List Solution) :
    pointwise "MAP" latitudes longitudes components =
      .ok (latitudes.flatMap fun a => longitudes.map fun x => (components.map fun s => s.value (a, x)).sum) := by
  rw [pointwise_eq "MAP" _ _ _ (Or.inl rfl) (fun s => s.value) (by simp)]
  simp [gridLocations, List.map_flatMap, Function.comp_def]

/-- C99: at points, the uncertainty is the root of the sum of squares of the uncertainties of components. -/
theorem c99_pointwise_uncertainty (latitudes longitudes : List ℝ) (components : List Solution) :
    pointwise "post_STD" latitudes longitudes components =
      .ok (latitudes.flatMap fun a => longitudes.map fun x =>
        Real.sqrt (components.map fun s => s.uncertainty (a, x) ^ 2).sum) := by
  rw [pointwise_eq "post_STD" _ _ _ (Or.inr rfl) (fun s p => s.uncertainty p ^ 2) (by simp)]
  simp [gridLocations, List.map_flatMap, Function.comp_def]

/-! ### Averages -/

/-- A grid which can be averaged: at least two latitudes and longitudes, latitudes ascending. -/
structure Grid (latitudes longitudes : List ℝ) (nlat nlon blocking : Nat) : Prop where
  latitudes_two : 2 ≤ latitudes.length
  longitudes_two : 2 ≤ longitudes.length
  ascending : latitudes.Pairwise (· < ·)
  nlat_pos : 0 < nlat
  nlon_pos : 0 < nlon
  blocking_pos : 0 < blocking

/-- The distance of the first two coordinates, rounded as the code does. -/
noncomputable def spacing (l : List ℝ) : ℝ := round3 (l.getD 1 0 - l.getD 0 0)

/-- The average of a function over every cell of the grid. -/
noncomputable def gridAverages (f : ℝ × ℝ → ℝ) (latitudes longitudes : List ℝ) (nlat nlon : Nat) : List ℝ :=
  averages f (spacing latitudes) (spacing longitudes) nlat nlon latitudes longitudes

theorem compute_ok (argsort : List ℝ → List Nat) (ha : Sorts argsort) (latitudes longitudes : List ℝ) (nlat nlon blocking : Nat)
    (hg : Grid latitudes longitudes nlat nlon blocking) (flag : String) (s : Solution) (f : ℝ × ℝ → ℝ) (hf : s.field flag = .ok f) :
    single argsort flag latitudes longitudes nlat nlon blocking s =
      .ok (if flag = "MAP" then gridAverages f latitudes longitudes nlat nlon
        else (gridAverages f latitudes longitudes nlat nlon).map fun x => x ^ 2) := by
  have hi : Regridder.init latitudes longitudes nlat nlon blocking =
      .ok ⟨latitudes, longitudes, nlat, nlon, blocking, spacing latitudes, spacing longitudes⟩ := by
    have h1 := hg.latitudes_two
    have h2 := hg.longitudes_two
    match latitudes, longitudes with
    | a :: b :: l, c :: d :: m => rfl
    | [], _ => simp at h1
    | [_], _ => simp at h1
    | _ :: _ :: _, [] => simp at h2
    | _ :: _ :: _, [_] => simp at h2
  have hne : latitudes ≠ [] := by
    rintro rfl
    have := hg.latitudes_two
    simp at this
  unfold single
  rw [hi]
  dsimp only
  rw [c62_average argsort ha ⟨latitudes, longitudes, nlat, nlon, blocking, spacing latitudes, spacing longitudes⟩ hg.nlat_pos
    hg.nlon_pos hg.blocking_pos hne hg.ascending flag s f hf]
  rfl

/-- Averages as a function of the cell. -/
theorem gridAverages_map (f : ℝ × ℝ → ℝ) (latitudes longitudes : List ℝ) (nlat nlon : Nat) :
    gridAverages f latitudes longitudes nlat nlon = (gridLocations latitudes longitudes).map fun p =>
      cellAverage f (spacing latitudes) (spacing longitudes) nlat nlon p.1 p.2 := by
  simp [gridAverages, averages, gridLocations, List.map_flatMap, Function.comp_def]

theorem averageLoop_eq (argsort : List ℝ → List Nat) (ha : Sorts argsort) (latitudes longitudes : List ℝ) (nlat nlon blocking : Nat)
    (hg : Grid latitudes longitudes nlat nlon blocking) (flag : String) (F : Solution → ℝ × ℝ → ℝ)
    (hF : ∀ s : Solution, s.field flag = .ok (F s)) (G : Solution → ℝ × ℝ → ℝ)
    (hG : G = if flag = "MAP" then
        fun s p => cellAverage (F s) (spacing latitudes) (spacing longitudes) nlat nlon p.1 p.2
      else fun s p => cellAverage (F s) (spacing latitudes) (spacing longitudes) nlat nlon p.1 p.2 ^ 2) :
    ∀ (components : List Solution) (g : ℝ × ℝ → ℝ),
    averageLoop argsort flag latitudes longitudes nlat nlon blocking ((gridLocations latitudes longitudes).map g) components =
      .ok ((gridLocations latitudes longitudes).map fun p => g p + (components.map fun s => G s p).sum)
  | [], g => by simp [averageLoop]
  | s :: rest, g => by
    have hv : (if flag = "MAP" then gridAverages (F s) latitudes longitudes nlat nlon
        else (gridAverages (F s) latitudes longitudes nlat nlon).map fun x => x ^ 2) =
        (gridLocations latitudes longitudes).map (G s) := by
      rw [hG, gridAverages_map]
      split
      · rfl
      · rw [List.map_map]; rfl
    rw [averageLoop, compute_ok argsort ha latitudes longitudes nlat nlon blocking hg flag s (F s) (hF s), hv]
    dsimp only
    unfold addTo
    rw [if_pos (by simp)]
    dsimp only
    rw [zipWith_map_add, averageLoop_eq argsort ha latitudes longitudes nlat nlon blocking hg flag F hF G hG rest]
    congr 1
    apply List.map_congr_left
    intro p _
    rw [List.map_cons, List.sum_cons]
    ring

/-- The average of a sum is the sum of averages. -/
theorem cellAverage_sum (components : List Solution) (F : Solution → ℝ × ℝ → ℝ) (h w : ℝ) (nlat nlon : Nat) (a x : ℝ) :
    cellAverage (fun p => (components.map fun s => F s p).sum) h w nlat nlon a x =
      (components.map fun s => cellAverage (F s) h w nlat nlon a x).sum := by
  induction components with
  | nil => simp [cellAverage]
  | cons s rest ih =>
    rw [List.map_cons, List.sum_cons, ← ih]
    unfold cellAverage
    rw [← add_div, ← Finset.sum_add_distrib]
    congr 1
    apply Finset.sum_congr rfl
    intro i _
    rw [← Finset.sum_add_distrib]
    apply Finset.sum_congr rfl
    intro j _
    dsimp only
    rw [List.map_cons, List.sum_cons]
    ring

/-- C99: the averaged analysis is the average over each cell of the sum of components. -/
theorem c99_average (argsort : List ℝ → List Nat) (ha : Sorts argsort) (latitudes longitudes : List ℝ) (nlat nlon blocking : Nat)
    (hg : Grid latitudes longitudes nlat nlon blocking) (components : List Solution) :
    average argsort "MAP" latitudes longitudes nlat nlon blocking components =
      .ok (gridAverages (fun p => (components.map fun s => s.value p).sum) latitudes longitudes nlat nlon) := by
  unfold average
  rw [← gridLocations_length, replicate_zero, averageLoop_eq argsort ha latitudes longitudes nlat nlon blocking hg "MAP"
    (fun s => s.value) (fun s => by simp [Solution.field])
    (fun s p => cellAverage s.value (spacing latitudes) (spacing longitudes) nlat nlon p.1 p.2) (by simp)]
  dsimp only
  rw [if_pos rfl, gridAverages_map]
  congr 1
  apply List.map_congr_left
  intro p _
  rw [zero_add, cellAverage_sum components fun s => s.value]

/-- C99: the averaged uncertainty is the root of the sum over components of the square of the average uncertainty of the component. -/
theorem c99_average_uncertainty (argsort : List ℝ → List Nat) (ha : Sorts argsort) (latitudes longitudes : List ℝ)
    (nlat nlon blocking : Nat) (hg : Grid latitudes longitudes nlat nlon blocking) (components : List Solution) :
    average argsort "post_STD" latitudes longitudes nlat nlon blocking components =
      .ok (latitudes.flatMap fun a => longitudes.map fun x => Real.sqrt (components.map fun s =>
        cellAverage s.uncertainty (spacing latitudes) (spacing longitudes) nlat nlon a x ^ 2).sum) := by
  unfold average
  rw [← gridLocations_length, replicate_zero, averageLoop_eq argsort ha latitudes longitudes nlat nlon blocking hg "post_STD"
    (fun s => s.uncertainty) (fun s => by simp [Solution.field])
    (fun s p => cellAverage s.uncertainty (spacing latitudes) (spacing longitudes) nlat nlon p.1 p.2 ^ 2) (by simp)]
  dsimp only
  rw [if_neg (by simp), if_pos rfl]
  simp [gridLocations, List.map_flatMap, Function.comp_def]

/-- The norm of a list of numbers is that of a vector. -/
theorem sqrt_norm (components : List Solution) (F : Solution → ℝ) :
    Real.sqrt (components.map fun s => F s ^ 2).sum =
      ‖(WithLp.toLp 2 fun k : Fin components.length => F (components.get k) : EuclideanSpace ℝ (Fin components.length))‖ := by
  rw [EuclideanSpace.norm_eq]
  congr 1
  simp only [Real.norm_eq_abs, sq_abs]
  have h : components = List.ofFn components.get := (List.ofFn_get components).symm
  conv_lhs => rw [h]
  rw [List.map_ofFn, List.sum_ofFn]
  rfl

/-- C99: the averaged uncertainty is at most the average of the uncertainties at the points of the cell. -/
theorem c99_uncertainty_bound (components : List Solution) (h w : ℝ) (nlat nlon : Nat) (hlat : 0 < nlat) (hlon : 0 < nlon) (a x : ℝ)
    (hp : ∀ i < nlat, -90 < part a h nlat i ∧ part a h nlat i < 90) :
    Real.sqrt (components.map fun s => cellAverage s.uncertainty h w nlat nlon a x ^ 2).sum ≤
      cellAverage (fun p => Real.sqrt (components.map fun s => s.uncertainty p ^ 2).sum) h w nlat nlon a x := by
  obtain ⟨hw, -, -⟩ := c62_convex (fun _ => 0) h w nlat nlon hlat hlon a x hp
  have htotal : 0 < ∑ i ∈ Finset.range nlat, ∑ _j ∈ Finset.range nlon, weight (part a h nlat i) := by
    apply Finset.sum_pos
    · intro i hi
      apply Finset.sum_pos
      · intro _ _
        exact hw i (Finset.mem_range.1 hi)
      · exact ⟨0, Finset.mem_range.2 hlon⟩
    · exact ⟨0, Finset.mem_range.2 hlat⟩
  rw [sqrt_norm]
  unfold cellAverage
  set T := ∑ i ∈ Finset.range nlat, ∑ _j ∈ Finset.range nlon, weight (part a h nlat i) with hT
  have hvec : (WithLp.toLp 2 fun k : Fin components.length =>
      (∑ i ∈ Finset.range nlat, ∑ j ∈ Finset.range nlon, weight (part a h nlat i) *
        (components.get k).uncertainty (part a h nlat i, part x w nlon j)) / T : EuclideanSpace ℝ (Fin components.length)) =
      T⁻¹ • ∑ i ∈ Finset.range nlat, ∑ j ∈ Finset.range nlon, weight (part a h nlat i) •
        (WithLp.toLp 2 fun k : Fin components.length => (components.get k).uncertainty (part a h nlat i, part x w nlon j) :
          EuclideanSpace ℝ (Fin components.length)) := by
    ext k
    simp [div_eq_inv_mul]
  rw [hvec, norm_smul, Real.norm_of_nonneg (inv_nonneg.2 htotal.le), div_eq_inv_mul]
  apply mul_le_mul_of_nonneg_left _ (inv_nonneg.2 htotal.le)
  refine (norm_sum_le _ _).trans (Finset.sum_le_sum fun i hi => ?_)
  refine (norm_sum_le _ _).trans (Finset.sum_le_sum fun j _ => ?_)
  rw [norm_smul, Real.norm_of_nonneg (hw i (Finset.mem_range.1 hi)).le, 
    ← sqrt_norm components fun s => s.uncertainty (part a h nlat i, part x w nlon j)]

/-- C99: the order of components does not matter. -/
theorem c99_order (argsort : List ℝ → List Nat) (ha : Sorts argsort) (latitudes longitudes : List ℝ) (nlat nlon blocking : Nat)
    (hg : Grid latitudes longitudes nlat nlon blocking) (c d : List Solution) (hp : c.Perm d) (field flag : String)
    (hf : field = "MAP" ∨ field = "post_STD") :
    evaluate argsort field latitudes longitudes flag nlat nlon blocking c =
      evaluate argsort field latitudes longitudes flag nlat nlon blocking d := by
  have hs : ∀ F : Solution → ℝ, (c.map F).sum = (d.map F).sum := fun F => (hp.map F).sum_eq
  unfold evaluate
  rcases hf with rfl | rfl
  · rw [c99_pointwise, c99_pointwise, c99_average argsort ha _ _ _ _ _ hg, c99_average argsort ha _ _ _ _ _ hg]
    simp only [hs]
  · rw [c99_pointwise_uncertainty, c99_pointwise_uncertainty, c99_average_uncertainty argsort ha _ _ _ _ _ hg,
      c99_average_uncertainty argsort ha _ _ _ _ _ hg]
    simp only [hs]

/-- C99: the choice between values at points and averages, and flags which are refused. -/
theorem c99_flags (argsort : List ℝ → List Nat) (latitudes longitudes : List ℝ) (nlat nlon blocking : Nat) (components : List Solution)
    (field flag : String) :
    (field = "MAP" ∨ field = "post_STD" →
      evaluate argsort field latitudes longitudes "POINTWISE" nlat nlon blocking components =
        pointwise field latitudes longitudes components ∧
      evaluate argsort field latitudes longitudes "GRID_CELL_AREA_AVERAGE" nlat nlon blocking components =
        average argsort field latitudes longitudes nlat nlon blocking components) ∧
    (flag ≠ "POINTWISE" → flag ≠ "GRID_CELL_AREA_AVERAGE" →
      evaluate argsort field latitudes longitudes flag nlat nlon blocking components = .error .valueError) ∧
    (field ≠ "MAP" → field ≠ "post_STD" → field ≠ "prior_STD" →
      evaluate argsort field latitudes longitudes flag nlat nlon blocking components = .error .valueError) := by
  refine ⟨?_, ?_, ?_⟩
  · rintro (rfl | rfl) <;> simp [evaluate]
  · intro h1 h2
    unfold evaluate
    split
    · rfl
    · rw [if_pos (by simp [h1, h2])]
  · intro h1 h2 h3
    unfold evaluate
    rw [if_pos (by simp [h1, h2, h3])]

/-- C99: the prior uncertainty is refused as an output of its own, once there is a component. -/
theorem c99_prior (argsort : List ℝ → List Nat) (ha : Sorts argsort) (latitudes longitudes : List ℝ) (nlat nlon blocking : Nat)
    (hg : Grid latitudes longitudes nlat nlon blocking) (s : Solution) (components : List Solution) (flag : String) :
    evaluate argsort "prior_STD" latitudes longitudes flag nlat nlon blocking (s :: components) = .error .valueError := by
  unfold evaluate
  rw [if_neg (by simp)]
  split
  · rfl
  split
  · unfold pointwise
    rw [pointwiseLoop, if_neg (by simp)]
  · unfold average
    rw [← gridLocations_length, replicate_zero, averageLoop_eq argsort ha latitudes longitudes nlat nlon blocking hg "prior_STD"
      (fun s => s.prior) (fun s => by simp [Solution.field]) _ rfl]
    dsimp only
    rw [if_neg (by simp), if_neg (by simp)]

/-! ### The fraction of climatology -/

theorem filter_single (spatial : List Bool) (i : Nat) :
    spatialIndex spatial = some i ↔ i < spatial.length ∧ ∀ j < spatial.length, spatial.getD j false = true ↔ j = i := by
  have hmem : ∀ j, j ∈ (List.range spatial.length).filter (fun i => spatial.getD i false) ↔
      j < spatial.length ∧ spatial.getD j false = true := by
    intro j
    rw [List.mem_filter, List.mem_range]
  have hnd : ((List.range spatial.length).filter fun i => spatial.getD i false).Nodup := List.nodup_range.filter _
  unfold spatialIndex
  generalize (List.range spatial.length).filter (fun i => spatial.getD i false) = l at hmem hnd
  match l with
  | [] =>
    simp only [reduceCtorEq, false_iff]
    rintro ⟨hi, h⟩
    have := (hmem i).2 ⟨hi, (h i hi).2 rfl⟩
    simp at this
  | [k] =>
    have hk := (hmem k).1 (by simp)
    constructor
    · intro h
      cases h
      refine ⟨hk.1, fun j hj => ⟨fun hb => ?_, fun he => he ▸ hk.2⟩⟩
      simpa using (hmem j).2 ⟨hj, hb⟩
    · rintro ⟨hi, h⟩
      rw [(h k hk.1).1 hk.2]
  | k :: m :: rest =>
    simp only [reduceCtorEq, false_iff]
    rintro ⟨hi, h⟩
    have h1 := (hmem k).1 (by simp)
    have h2 := (hmem m).1 (by simp)
    have e1 := (h k h1.1).1 h1.2
    have e2 := (h m h2.1).1 h2.2
    rw [e1, e2] at hnd
    simp at hnd

/-- C99: with exactly one spatial component, the fraction of climatology in a cell is the square of its average uncertainty over
the square of its average prior uncertainty. -/
theorem c99_fraction (argsort : List ℝ → List Nat) (ha : Sorts argsort) (latitudes longitudes : List ℝ) (nlat nlon blocking : Nat)
    (hg : Grid latitudes longitudes nlat nlon blocking) (fill : ℝ) (pre post : List (Bool × Solution)) (s : Solution)
    (hpre : ∀ c ∈ pre, c.1 = false) (hpost : ∀ c ∈ post, c.1 = false) :
    climatologyFraction argsort fill latitudes longitudes nlat nlon blocking (pre ++ (true, s) :: post) =
      .ok (latitudes.flatMap fun a => longitudes.map fun x =>
        cellAverage s.uncertainty (spacing latitudes) (spacing longitudes) nlat nlon a x ^ 2 /
        cellAverage s.prior (spacing latitudes) (spacing longitudes) nlat nlon a x ^ 2) := by
  have hindex : spatialIndex ((pre ++ (true, s) :: post).map Prod.fst) = some pre.length := by
    rw [filter_single]
    refine ⟨by simp, fun j hj => ?_⟩
    rw [List.getD_eq_getElem?_getD, List.getElem?_map]
    rcases lt_trichotomy j pre.length with h | h | h
    · rw [List.getElem?_append_left h, List.getElem?_eq_getElem h]
      simp [hpre _ (List.getElem_mem h), h.ne]
    · subst h
      simp
    · rw [List.getElem?_append_right h.le]
      obtain ⟨k, hk⟩ : ∃ k, j - pre.length = k + 1 := ⟨j - pre.length - 1, by omega⟩
      rw [hk, List.getElem?_cons_succ]
      simp only [List.length_map, List.length_append, List.length_cons] at hj
      have hk' : k < post.length := by omega
      rw [List.getElem?_eq_getElem hk']
      simp [hpost _ (List.getElem_mem hk'), h.ne']
  unfold climatologyFraction
  rw [hindex]
  dsimp only
  have hget : (pre ++ (true, s) :: post)[pre.length]? = some (true, s) := by simp
  rw [hget]
  dsimp only
  rw [compute_ok argsort ha _ _ _ _ _ hg "post_STD" s s.uncertainty (by simp [Solution.field]),
    compute_ok argsort ha _ _ _ _ _ hg "prior_STD" s s.prior (by simp [Solution.field])]
  dsimp only
  rw [if_neg (by simp), if_neg (by simp), gridAverages_map, gridAverages_map, List.map_map, List.map_map, List.zipWith_map,
    List.zipWith_self]
  simp [gridLocations, List.map_flatMap, Function.comp_def]

/-- C99: a fraction of climatology is between zero and one where the uncertainties do not exceed the prior uncertainties. -/
theorem c99_fraction_range (s : Solution) (h w : ℝ) (nlat nlon : Nat) (hlat : 0 < nlat) (hlon : 0 < nlon) (a x : ℝ)
    (hp : ∀ i < nlat, -90 < part a h nlat i ∧ part a h nlat i < 90) (hs : ∀ p, 0 ≤ s.uncertainty p ∧ s.uncertainty p ≤ s.prior p) :
    0 ≤ cellAverage s.uncertainty h w nlat nlon a x ^ 2 / cellAverage s.prior h w nlat nlon a x ^ 2 ∧
    cellAverage s.uncertainty h w nlat nlon a x ^ 2 / cellAverage s.prior h w nlat nlon a x ^ 2 ≤ 1 := by
  obtain ⟨hw, -, hb⟩ := c62_convex s.uncertainty h w nlat nlon hlat hlon a x hp
  refine ⟨by positivity, ?_⟩
  apply div_le_one_of_le₀ _ (by positivity)
  apply pow_le_pow_left₀
  · unfold cellAverage
    apply div_nonneg
    · exact Finset.sum_nonneg fun i hi => Finset.sum_nonneg fun j _ =>
        mul_nonneg (hw i (Finset.mem_range.1 hi)).le (hs _).1
    · exact Finset.sum_nonneg fun i hi => Finset.sum_nonneg fun j _ => (hw i (Finset.mem_range.1 hi)).le
  · unfold cellAverage
    apply div_le_div_of_nonneg_right
    · exact Finset.sum_le_sum fun i hi => Finset.sum_le_sum fun j _ =>
        mul_le_mul_of_nonneg_left (hs _).2 (hw i (Finset.mem_range.1 hi)).le
    · exact Finset.sum_nonneg fun i hi => Finset.sum_nonneg fun j _ => (hw i (Finset.mem_range.1 hi)).le

theorem spatial_count (l : List Bool) : ((List.range l.length).filter fun i => l.getD i false).length = (l.filter id).length := by
  induction l with
  | nil => rfl
  | cons b l ih =>
    rw [List.length_cons, List.range_succ_eq_map, List.filter_cons, List.filter_map, List.filter_cons]
    have h : ((fun i => (b :: l).getD i false) ∘ Nat.succ) = fun i => l.getD i false := by
      funext i
      simp
    rw [h]
    cases b <;> simpa using ih

/-- C99: without a spatial component, or with more than one, every cell has the fill value. -/
theorem c99_fraction_fill (argsort : List ℝ → List Nat) (latitudes longitudes : List ℝ) (nlat nlon blocking : Nat) (fill : ℝ)
    (components : List (Bool × Solution)) (h : (components.filter fun c => c.1).length ≠ 1) :
    climatologyFraction argsort fill latitudes longitudes nlat nlon blocking components =
      .ok (latitudes.flatMap fun _ => longitudes.map fun _ => fill) := by
  have hnone : spatialIndex (components.map Prod.fst) = none := by
    have hc := spatial_count (components.map Prod.fst)
    have hf : ((components.map Prod.fst).filter id).length = (components.filter fun c => c.1).length := by
      rw [List.filter_map, List.length_map]
      rfl
    rw [hf] at hc
    unfold spatialIndex
    match hl : (List.range (components.map Prod.fst).length).filter fun i => (components.map Prod.fst).getD i false with
    | [] => rfl
    | [i] => rw [hl] at hc; exact absurd hc.symm h
    | _ :: _ :: _ => rfl
  unfold climatologyFraction
  rw [hnone]
  dsimp only
  rw [zero_add, ← gridLocations_length, ← List.map_const', gridLocations, List.map_flatMap]
  simp [Function.comp_def]

/-! ### Samples -/

theorem sampleLoop_eq (places : List (ℝ × ℝ)) (size : Nat) : ∀ (components : List (Nat × (ℝ × ℝ → Nat → ℝ))) (g : ℝ × ℝ → Nat → ℝ),
    (∀ c ∈ components, c.1 = size) →
    sampleLoop places size (places.map fun p => (List.range size).map (g p)) components =
      .ok (places.map fun p => (List.range size).map fun k => g p k + (components.map fun c => c.2 p k).sum)
  | [], g, _ => by simp [sampleLoop]
  | c :: rest, g, h => by
    have hc := h c (by simp)
    have hz : List.zipWith (fun a b => List.zipWith (fun x y => x + y) a b)
        (places.map fun p => (List.range size).map (g p)) (places.map fun p => (List.range size).map (c.2 p)) =
        places.map fun p => (List.range size).map fun k => g p k + c.2 p k := by
      rw [List.zipWith_map, List.zipWith_self]
      apply List.map_congr_left
      intro p _
      exact zipWith_map_add _ _ _
    rw [sampleLoop, if_pos hc, hc, hz, sampleLoop_eq places size rest _ fun d hd => h d (List.mem_cons_of_mem _ hd)]
    congr 1
    apply List.map_congr_left
    intro p _
    apply List.map_congr_left
    intro k _
    rw [List.map_cons, List.sum_cons]
    ring

/-- C99: with samples of one size, draw `k` of the output is at each place the sum of draw `k` of all components. -/
theorem c99_sample (latitudes longitudes : List ℝ) (components : List (Nat × (ℝ × ℝ → Nat → ℝ))) (size : Nat)
    (hne : components ≠ []) (h : ∀ c ∈ components, c.1 = size) :
    projectedSample latitudes longitudes components =
      .ok (latitudes.flatMap fun a => longitudes.map fun x =>
        (List.range size).map fun k => (components.map fun c => c.2 (a, x) k).sum) := by
  have hd : ¬1 < (components.map Prod.fst).dedup.length := by
    have : (components.map Prod.fst) = List.replicate components.length size := by
      rw [List.eq_replicate_iff]
      refine ⟨by simp, fun b hb => ?_⟩
      obtain ⟨c, hc, rfl⟩ := List.mem_map.1 hb
      exact h c hc
    rw [this]
    have hsub : (List.replicate components.length size).dedup ⊆ [size] := by
      intro b hb
      rw [List.mem_dedup] at hb
      simp [List.eq_of_mem_replicate hb]
    have := (List.subperm_of_subset (List.nodup_dedup _) hsub).length_le
    simpa using this
  unfold projectedSample
  rw [if_neg hd]
  match components, hne, h with
  | c :: rest, _, h =>
    dsimp only
    have hc := h c (by simp)
    rw [hc]
    have hz : List.replicate (latitudes.length * longitudes.length) (List.replicate size (0 : ℝ)) =
        (gridLocations latitudes longitudes).map fun _ => (List.range size).map fun _ => 0 := by
      rw [List.map_const', List.map_const', gridLocations_length, List.length_range]
    rw [hz, sampleLoop_eq _ _ _ (fun _ _ => 0) h]
    simp [gridLocations, List.map_flatMap, Function.comp_def]

/-- C99: samples of different sizes are refused, and so is a system without components. -/
theorem c99_sample_refused (latitudes longitudes : List ℝ) :
    (∀ components : List (Nat × (ℝ × ℝ → Nat → ℝ)), (∃ c ∈ components, ∃ d ∈ components, c.1 ≠ d.1) →
      projectedSample latitudes longitudes components = .error .valueError) ∧
    projectedSample latitudes longitudes [] = .error .indexError := by
  constructor
  · rintro components ⟨c, hc, d, hd, hne⟩
    unfold projectedSample
    rw [if_pos]
    have hsub : [c.1, d.1] ⊆ (components.map Prod.fst).dedup := by
      intro b hb
      rw [List.mem_dedup]
      simp only [List.mem_cons, List.not_mem_nil, or_false] at hb
      rcases hb with rfl | rfl
      · exact List.mem_map_of_mem hc
      · exact List.mem_map_of_mem hd
    have := (List.subperm_of_subset (by simpa using hne) hsub).length_le
    exact this
  · rfl

/-- A grid, and a system with two components of which one is spatial. -/
example : Grid [-1 / 2, 0, 1 / 2] [0, 1] 2 3 2 :=
  ⟨by simp, by simp, by norm_num, by simp, by simp, by simp⟩

example : spatialIndex [false, true] = some 1 ∧ spatialIndex [true, true] = none ∧ spatialIndex [] = none := by decide

end Verif.Eustace.Regrid
