import Verif.Eustace.ObsSource.Stations

/-!
C97: observations as the analysis sees them
(`src/eustace/analysis/advanced_standard/fileio/observation_structure_source_connector.py`).
-/

namespace Verif.Eustace.ObsSource

open Verif Verif.Eustace.RawBinary

/-! ### Model -/

/-- `numpy.nonzero(~self.observations.mask)` (observation_structure_source_connector.py 22). -/
def validPlaces (mask : List Bool) : List Nat := (List.range mask.length).filter fun i => mask[i]? == some false

/-- One longitude of `location_polar_coordinates` (observation_structure_source_connector.py 60-61). -/
noncomputable def wrapLongitude (x : ℝ) : ℝ := open Classical in if 180 ≤ x then x - 360 else x

/-- `location_polar_coordinates` (observation_structure_source_connector.py 56-63), with the lookup as a list of pairs of latitude
and longitude. -/
noncomputable def polarCoordinates (lookup : List (ℝ × ℝ)) (obs : Observations ℝ) : Except PyErr (List (ℝ × ℝ)) :=
  match gather obs.location (validPlaces obs.mask) with
  | .error e => .error e
  | .ok ids =>
    match gather lookup (ids.map UInt64.toNat) with
    | .error e => .error e
    | .ok locations => .ok (locations.map fun p => (p.1, wrapLongitude p.2))

/-- `observation_vector` (observation_structure_source_connector.py 68-71). -/
def observationVector (obs : Observations ℝ) : Except PyErr (List ℝ) := gather obs.measurement (validPlaces obs.mask)

/-- The diagonal of `observation_precision` (observation_structure_source_connector.py 73-76). -/
noncomputable def observationPrecision (obs : Observations ℝ) : Except PyErr (List ℝ) :=
  match gather obs.uncorrelated (validPlaces obs.mask) with
  | .error e => .error e
  | .ok l => .ok (l.map fun u => 1 / u ^ 2)

/-- `number_of_observations` (observation_structure_source_connector.py 51-54). -/
def observationCount (obs : Observations ℝ) : Nat := (validPlaces obs.mask).length

/-- `global_satellite_effect` (observation_source_surface_effects.py 96-100). -/
def globalEffect (n : Nat) : List (Nat × Nat) := (List.range n).zip (List.replicate n 0)

/-- `hemispheric_satellite_effect` (observation_source_surface_effects.py 102-106): booleans are 0 and 1. -/
noncomputable def hemisphericEffect (n : Nat) (latitudes : List ℝ) : Except PyErr (List (Nat × Nat)) :=
  open Classical in
  if latitudes.length = n then .ok ((List.range n).zip (latitudes.map fun y => if y < 0 then 1 else 0))
  else .error .valueError

/-- The groups of biases (outputformats/definitions.py 659-663). -/
def biasGroups : List String :=
  ["insitu_land", "insitu_ocean", "surfaceairmodel_land_global", "surfaceairmodel_ocean_global", "surfaceairmodel_ice_global"]

/-- `covariate_effect` (observation_structure_source_connector.py 78-98).  Simplified: whether all names of files match the pattern
of the group is given; the time is one number. -/
noncomputable def covariateEffect (lookup : List (ℝ × ℝ)) (obs : Observations ℝ) (day : Int) (allMatch : String → Bool)
    (group : String) (breaks : Option (List (Int × ℚ))) : Except PyErr (Option (List (Nat × Nat))) :=
  if biasGroups.contains group then
    if allMatch group then
      match (if group = "insitu_land" then breaks else none) with
      | some breaks =>
        match gather obs.location (validPlaces obs.mask) with
        | .error e => .error e
        | .ok ids => stationEffect day (ids.map fun id => (id.toNat : Int)) breaks
      | none =>
        if group = "surfaceairmodel_land_global" ∨ group = "surfaceairmodel_ocean_global" then
          .ok (some (globalEffect (observationCount obs)))
        else if group = "surfaceairmodel_ice_global" then
          match polarCoordinates lookup obs with
          | .error e => .error e
          | .ok locations =>
            match hemisphericEffect (observationCount obs) (locations.map Prod.fst) with
            | .error e => .error e
            | .ok effect => .ok (some effect)
        else .ok none
    else .ok none
  else .error .valueError

/-! ### Theorems -/

/-- The places of valid observations: in order, exactly those which are not masked. -/
theorem mem_validPlaces (mask : List Bool) (i : Nat) : i ∈ validPlaces mask ↔ mask[i]? = some false := by
  rw [validPlaces, List.mem_filter, List.mem_range, beq_iff_eq]
  exact ⟨And.right, fun h => ⟨(List.getElem?_eq_some_iff.1 h).1, h⟩⟩

theorem validPlaces_sorted (mask : List Bool) : (validPlaces mask).Pairwise (· < ·) :=
  List.Pairwise.filter _ List.pairwise_lt_range

/-- Valid observations are at known places. -/
def Located (lookup : List (ℝ × ℝ)) (obs : Observations ℝ) : Prop :=
  ∀ (i : Nat) (id : UInt64), obs.mask[i]? = some false → obs.location[i]? = some id → id.toNat < lookup.length

/-- **C97**, for any collection: vector, precision and coordinates have one entry for each valid observation, in order, and entry
`k` of each is that of the same observation. -/
theorem c97_aligned (lookup : List (ℝ × ℝ)) (obs : Observations ℝ) (n : Nat) (hs : Sized obs n) (hl : Located lookup obs) :
    ∃ (places : List Nat) (vector precision : List ℝ) (coordinates : List (ℝ × ℝ)),
      places.Pairwise (· < ·) ∧ (∀ i, i ∈ places ↔ obs.mask[i]? = some false) ∧ observationCount obs = places.length ∧
      observationVector obs = .ok vector ∧ observationPrecision obs = .ok precision ∧
      polarCoordinates lookup obs = .ok coordinates ∧ vector.length = places.length ∧ precision.length = places.length ∧
      coordinates.length = places.length ∧
      ∀ k i : Nat, places[k]? = some i → ∃ (value error : ℝ) (id : UInt64) (place : ℝ × ℝ),
        obs.measurement[i]? = some value ∧ obs.uncorrelated[i]? = some error ∧ obs.location[i]? = some id ∧
        lookup[id.toNat]? = some place ∧ vector[k]? = some value ∧ precision[k]? = some ((error ^ 2)⁻¹) ∧
        coordinates[k]? = some (place.1, wrapLongitude place.2) := by
  obtain ⟨h1, h2, h3, h4, _⟩ := hs
  have hlt : ∀ i ∈ validPlaces obs.mask, i < n := by
    intro i hi
    rw [← h1]
    exact (List.getElem?_eq_some_iff.1 ((mem_validPlaces _ _).1 hi)).1
  have get : ∀ {α : Type} (l : List α) (d : α) (q : Nat), q < l.length → l[q]? = some (l.getD q d) := by
    intro α l d q hq
    rw [List.getD_eq_getElem?_getD, List.getElem?_eq_getElem hq]
    rfl
  have hids : ∀ i ∈ validPlaces obs.mask, (obs.location.getD i 0).toNat < lookup.length := by
    intro i hi
    exact hl i _ ((mem_validPlaces _ _).1 hi) (get _ _ _ (by rw [h2]; exact hlt i hi))
  have hg1 := gather_ok obs.measurement 0 (validPlaces obs.mask) fun i hi => by rw [h3]; exact hlt i hi
  have hg2 := gather_ok obs.uncorrelated 0 (validPlaces obs.mask) fun i hi => by rw [h4]; exact hlt i hi
  have hg3 := gather_ok obs.location 0 (validPlaces obs.mask) fun i hi => by rw [h2]; exact hlt i hi
  have hg4 := gather_ok lookup (0, 0) (((validPlaces obs.mask).map fun i => obs.location.getD i 0).map UInt64.toNat) (by
    intro i hi
    rw [List.map_map] at hi
    obtain ⟨j, hj, rfl⟩ := List.mem_map.1 hi
    exact hids j hj)
  refine ⟨validPlaces obs.mask, (validPlaces obs.mask).map fun i => obs.measurement.getD i 0,
    ((validPlaces obs.mask).map fun i => obs.uncorrelated.getD i 0).map fun u => 1 / u ^ 2,
    ((((validPlaces obs.mask).map fun i => obs.location.getD i 0).map UInt64.toNat).map fun i => lookup.getD i (0, 0)).map
      fun p => (p.1, wrapLongitude p.2), validPlaces_sorted _, mem_validPlaces _, rfl, hg1, ?_, ?_, by simp, by simp, by simp, ?_⟩
  · rw [observationPrecision, hg2]
  · rw [polarCoordinates, hg3]
    dsimp only
    rw [hg4]
  · intro k i hk
    have hi := List.mem_of_getElem? hk
    refine ⟨_, _, _, _, get _ 0 _ (by rw [h3]; exact hlt i hi), get _ 0 _ (by rw [h4]; exact hlt i hi),
      get _ 0 _ (by rw [h2]; exact hlt i hi), get _ (0, 0) _ (hids i hi), ?_, ?_, ?_⟩
    · rw [List.getElem?_map, hk]; rfl
    · rw [List.getElem?_map, List.getElem?_map, hk, Option.map_some, Option.map_some, one_div]
    · rw [List.getElem?_map, List.getElem?_map, List.getElem?_map, List.getElem?_map, hk]; rfl

/-- **C97**: the precision of an observation with a positive error is positive. -/
theorem c97_precision_pos (obs : Observations ℝ) (hu : ∀ u ∈ obs.uncorrelated, 0 < u) (l : List ℝ)
    (h : observationPrecision obs = .ok l) : ∀ p ∈ l, 0 < p := by
  have gen : ∀ (indices : List Nat) (l : List ℝ), gather obs.uncorrelated indices = .ok l → ∀ x ∈ l, 0 < x := by
    intro indices
    induction indices with
    | nil => intro l hl; cases hl; simp
    | cons i rest ih =>
      intro l hl
      rw [gather] at hl
      split at hl
      · cases hl
      · rename_i x hx
        split at hl
        · cases hl
        · rename_i xs hxs
          cases hl
          intro y hy
          rcases List.mem_cons.1 hy with rfl | hy
          · exact hu _ (List.mem_of_getElem? hx)
          · exact ih xs hxs y hy
  rw [observationPrecision] at h
  split at h
  · cases h
  · rename_i us hus
    cases h
    intro p hp
    obtain ⟨u, hu', rfl⟩ := List.mem_map.1 hp
    have := gen _ _ hus u hu'
    positivity

/-- **C97**: longitudes of either convention, from -180 or from 0, become the same meridian from -180 up to 180. -/
theorem c97_longitude (x : ℝ) (h : -180 ≤ x) (h' : x < 540) : -180 ≤ wrapLongitude x ∧ wrapLongitude x < 180 ∧
    ∃ turns : ℤ, wrapLongitude x = x + turns * 360 := by
  unfold wrapLongitude
  split
  · exact ⟨by linarith, by linarith, -1, by push_cast; ring⟩
  · rename_i hx
    exact ⟨h, not_le.1 hx, 0, by simp⟩

/-- **C97**: a global bias is that of every observation. -/
theorem c97_global (n k c : Nat) : (k, c) ∈ globalEffect n ↔ k < n ∧ c = 0 := by
  rw [globalEffect, List.mem_iff_getElem?]
  constructor
  · rintro ⟨i, hi⟩
    obtain ⟨h1, h2⟩ := List.getElem?_zip_eq_some.1 hi
    obtain ⟨h3, h4⟩ := List.getElem?_eq_some_iff.1 h1
    obtain ⟨h5, h6⟩ := List.getElem?_eq_some_iff.1 h2
    rw [List.getElem_range] at h4
    rw [List.getElem_replicate] at h6
    rw [List.length_range] at h3
    dsimp only at h4 h6
    exact ⟨h4 ▸ h3, h6.symm⟩
  · rintro ⟨h, rfl⟩
    exact ⟨k, List.getElem?_zip_eq_some.2 ⟨List.getElem?_range h, by simp [List.getElem?_replicate, h]⟩⟩

/-- **C97**: observations of satellites over land and over the ocean have one global bias. -/
theorem c97_satellite (lookup : List (ℝ × ℝ)) (obs : Observations ℝ) (day : Int) (allMatch : String → Bool) (group : String)
    (hg : group = "surfaceairmodel_land_global" ∨ group = "surfaceairmodel_ocean_global") (hm : allMatch group = true)
    (breaks : Option (List (Int × ℚ))) : ∃ effect : List (Nat × Nat),
      covariateEffect lookup obs day allMatch group breaks = .ok (some effect) ∧
      ∀ k c, (k, c) ∈ effect ↔ k < observationCount obs ∧ c = 0 := by
  refine ⟨globalEffect (observationCount obs), ?_, fun k c => c97_global _ k c⟩
  unfold covariateEffect
  have hin : biasGroups.contains group = true := by rcases hg with rfl | rfl <;> decide
  have hland : group ≠ "insitu_land" := by rcases hg with rfl | rfl <;> decide
  rw [if_pos hin, if_pos hm, if_neg hland]
  dsimp only
  rw [if_pos hg]

/-- **C97**: observations of ice have the first bias on the northern hemisphere and the equator, the second on the southern
hemisphere. -/
theorem c97_hemispheres (lookup : List (ℝ × ℝ)) (obs : Observations ℝ) (n : Nat) (hs : Sized obs n) (hl : Located lookup obs)
    (day : Int) (allMatch : String → Bool) (hm : allMatch "surfaceairmodel_ice_global" = true)
    (breaks : Option (List (Int × ℚ))) : ∃ (effect : List (Nat × Nat)) (coordinates : List (ℝ × ℝ)),
      polarCoordinates lookup obs = .ok coordinates ∧
      covariateEffect lookup obs day allMatch "surfaceairmodel_ice_global" breaks = .ok (some effect) ∧
      effect.length = observationCount obs ∧
      ∀ (k : Nat) (p : ℝ × ℝ), coordinates[k]? = some p →
        (0 ≤ p.1 → effect[k]? = some (k, 0)) ∧ (p.1 < 0 → effect[k]? = some (k, 1)) := by
  classical
  obtain ⟨places, vector, precision, coordinates, h1, h2, h3, h4, h5, h6, h7, h8, h9, h10⟩ :=
    c97_aligned lookup obs n hs hl
  refine ⟨(List.range places.length).zip ((coordinates.map Prod.fst).map fun y => if y < 0 then 1 else 0), coordinates, h6,
    ?_, ?_, ?_⟩
  · unfold covariateEffect
    rw [if_pos (by decide), if_pos hm]
    have e : (if "surfaceairmodel_ice_global" = "insitu_land" then breaks else none) = none := if_neg (by decide)
    rw [e]
    dsimp only
    rw [if_neg (by decide), if_pos rfl, h6]
    dsimp only
    rw [hemisphericEffect, if_pos (by rw [List.length_map, h9, h3]), h3]
  · simp [h9, h3]
  · intro k p hk
    have hkl : k < places.length := by rw [← h9]; exact (List.getElem?_eq_some_iff.1 hk).1
    constructor
    · intro hp
      refine List.getElem?_zip_eq_some.2 ⟨List.getElem?_range hkl, ?_⟩
      rw [List.getElem?_map, List.getElem?_map, hk, Option.map_some, Option.map_some, if_neg (not_lt.2 hp)]
    · intro hp
      refine List.getElem?_zip_eq_some.2 ⟨List.getElem?_range hkl, ?_⟩
      rw [List.getElem?_map, List.getElem?_map, hk, Option.map_some, Option.map_some, if_pos hp]

/-- **C97**: groups other than the five are refused, and files which are not all of the group give no effect. -/
theorem c97_groups (lookup : List (ℝ × ℝ)) (obs : Observations ℝ) (day : Int) (allMatch : String → Bool) (group : String)
    (breaks : Option (List (Int × ℚ))) :
    (group ∉ biasGroups → covariateEffect lookup obs day allMatch group breaks = .error .valueError) ∧
    (group ∈ biasGroups → allMatch group = false → covariateEffect lookup obs day allMatch group breaks = .ok none) := by
  constructor
  · intro h
    rw [covariateEffect, if_neg (by simpa using h)]
  · intro h h'
    rw [covariateEffect, if_pos (by simpa using h), if_neg (by rw [h']; simp)]

/-- **C97 violated**: the group of ships is known, but none of its observations has a bias. -/
theorem c97_ocean_violated (lookup : List (ℝ × ℝ)) (obs : Observations ℝ) (day : Int) (allMatch : String → Bool)
    (breaks : Option (List (Int × ℚ))) : "insitu_ocean" ∈ biasGroups ∧
      covariateEffect lookup obs day allMatch "insitu_ocean" breaks = .ok none := by
  refine ⟨by decide, ?_⟩
  rw [covariateEffect, if_pos (by decide)]
  split
  · have e : (if "insitu_ocean" = "insitu_land" then breaks else none) = none := if_neg (by decide)
    rw [e]
    dsimp only
    rw [if_neg (by decide), if_neg (by decide)]
  · rfl

/-- **C96** for observations of a day: where the valid observations are in order of stations. -/
theorem c96_observations (lookup : List (ℝ × ℝ)) (obs : Observations ℝ) (n : Nat) (hs : Sized obs n) (day : Int)
    (allMatch : String → Bool) (hm : allMatch "insitu_land" = true) (breaks : List (Int × ℚ)) (hb : InOrder breaks)
    (ids : List UInt64) (hids : gather obs.location (validPlaces obs.mask) = .ok ids)
    (ho : (ids.map fun id => (id.toNat : Int)).Pairwise (· < ·)) :
    ∃ effect : List (Nat × Nat), covariateEffect lookup obs day allMatch "insitu_land" (some breaks) =
        .ok (if effect.length = 0 then none else some effect) ∧
      (effect.map Prod.fst).Nodup ∧
      ∀ k c, (k, c) ∈ effect ↔ ∃ id, ids[k]? = some id ∧ NextBreak day breaks id.toNat c := by
  obtain ⟨effect, h1, h2, h3⟩ := stationEffect_ok day _ breaks hb ho
  refine ⟨effect, ?_, ?_, ?_⟩
  · rw [covariateEffect, if_pos (by decide), if_pos hm, if_pos rfl]
    dsimp only
    rw [hids]
    exact h1
  · rw [List.Nodup, List.pairwise_map]
    exact h2.imp fun h => Nat.ne_of_lt h
  · intro k c
    rw [h3]
    constructor
    · rintro ⟨s, hk, hc⟩
      rw [List.getElem?_map] at hk
      match hid : ids[k]? with
      | none => rw [hid] at hk; cases hk
      | some id =>
        rw [hid] at hk
        cases hk
        exact ⟨id, rfl, hc⟩
    · rintro ⟨id, hk, hc⟩
      exact ⟨_, by rw [List.getElem?_map, hk]; rfl, hc⟩

/-- Non-vacuity: three observations, one of them masked. -/
noncomputable def threeObservations : Observations ℝ :=
  ⟨[false, true, false], .scalar 15, [0, 1, 2], [280, 0, 290], [1, 1, 2], []⟩

example : Sized threeObservations 3 ∧ Located [(10, 20), (30, 190), (-50, 350)] threeObservations ∧
    gather threeObservations.location (validPlaces threeObservations.mask) = .ok [0, 2] := by
  refine ⟨by simp [Sized, threeObservations], ?_, by decide⟩
  intro i id h1 h2
  match i with
  | 0 => cases h2; simp
  | 1 => cases h1
  | 2 => cases h2; simp
  | i + 3 => simp [threeObservations] at h1

end Verif.Eustace.ObsSource
