import Verif.Eustace.SurfaceAir.Spec
import Mathlib.Data.List.GetD
import Mathlib.Algebra.Order.Floor.Ring
import Mathlib.Tactic.Linarith

/-! C120: locations of lake temperatures. -/

namespace Verif.Eustace.SurfaceAir

open Verif

theorem mem_insertSorted (v w : ℤ) (l : List ℤ) : w ∈ insertSorted v l ↔ w = v ∨ w ∈ l := by
  induction l with
  | nil => simp [insertSorted]
  | cons a l ih =>
    rw [insertSorted]
    split
    · simp
    · split
      · rename_i h
        subst h
        simp
      · rw [List.mem_cons, ih, List.mem_cons]
        tauto

theorem insertSorted_sorted (v : ℤ) (l : List ℤ) (h : l.Pairwise (· < ·)) : (insertSorted v l).Pairwise (· < ·) := by
  induction l with
  | nil => simp [insertSorted]
  | cons a l ih =>
    rw [insertSorted]
    obtain ⟨h1, h2⟩ := List.pairwise_cons.1 h
    split
    · rename_i hv
      refine List.pairwise_cons.2 ⟨?_, h⟩
      intro b hb
      rcases List.mem_cons.1 hb with rfl | hb
      · exact hv
      · exact hv.trans (h1 b hb)
    · split
      · exact h
      · refine List.pairwise_cons.2 ⟨?_, ih h2⟩
        intro b hb
        rcases (mem_insertSorted v b l).1 hb with rfl | hb
        · omega
        · exact h1 b hb

theorem unique_spec (values : List ℤ) : (unique values).Pairwise (· < ·) ∧ ∀ v, v ∈ unique values ↔ v ∈ values := by
  induction values with
  | nil => simp [unique]
  | cons a l ih =>
    have : unique (a :: l) = insertSorted a (unique l) := rfl
    rw [this]
    refine ⟨insertSorted_sorted _ _ ih.1, ?_⟩
    intro v
    rw [mem_insertSorted, ih.2, List.mem_cons]

theorem unique_nodup (values : List ℤ) : (unique values).Nodup :=
  (unique_spec values).1.imp fun h => ne_of_lt h

/-- A list through all of whose entries a map goes. -/
theorem filterMap_all {α β : Type} (f : α → Option β) (l : List α) (h : ∀ a ∈ l, (f a).isSome) :
    (l.filterMap f).length = l.length ∧ ∀ k (hk : k < l.length), (l.filterMap f)[k]? = f l[k] := by
  induction l with
  | nil => simp
  | cons a l ih =>
    obtain ⟨b, hb⟩ := Option.isSome_iff_exists.1 (h a (List.mem_cons_self ..))
    obtain ⟨h1, h2⟩ := ih fun c hc => h c (List.mem_cons_of_mem _ hc)
    rw [List.filterMap_cons, hb]
    refine ⟨by simp [h1], ?_⟩
    intro k hk
    cases k with
    | zero => simp [hb]
    | succ k =>
      simp only [List.getElem?_cons_succ, List.getElem_cons_succ]
      exact h2 k (by simpa using hk)

/-- C120: the observations are the readings in their order, in kelvin; each has the number of a location in the table, the location there
is that of a reading with the same signature, and equal signatures, so equal places, have equal numbers. -/
theorem c120_lakes (readings : List Reading) :
    (loadLakes readings).ids.length = readings.length ∧
    (loadLakes readings).times = readings.map (fun x => x.time) ∧
    (loadLakes readings).kelvin = readings.map (fun x => x.celsius + 273.15) ∧
    (∀ i (h : i < readings.length), ∃ id, (loadLakes readings).ids[i]? = some id ∧ id < (loadLakes readings).lookup.length ∧
      ∃ x ∈ readings, (loadLakes readings).lookup[id]? = some (x.latitude, x.longitude) ∧ signature x = signature readings[i]) ∧
    ∀ i j (hi : i < readings.length) (hj : j < readings.length),
      (loadLakes readings).ids[i]? = (loadLakes readings).ids[j]? ↔ signature readings[i] = signature readings[j] := by
  set s := readings.map signature with hs
  set u := unique s with hu
  have hmem : ∀ v ∈ u, v ∈ s := fun v hv => ((unique_spec s).2 v).1 hv
  have hsome : ∀ v ∈ u, ((readings[s.idxOf v]?).map fun x => (x.latitude, x.longitude)).isSome := by
    intro v hv
    have h1 : s.idxOf v < s.length := List.idxOf_lt_length_of_mem (hmem v hv)
    have h2 : s.idxOf v < readings.length := by rw [hs, List.length_map] at h1; rw [hs]; exact h1
    rw [List.getElem?_eq_getElem h2]
    rfl
  obtain ⟨hlen, hget⟩ := filterMap_all _ u hsome
  have hids : ∀ i (h : i < readings.length), (loadLakes readings).ids[i]? = some (u.idxOf (signature readings[i])) := by
    intro i h
    simp [loadLakes, hs, hu, List.getElem?_eq_getElem h]
  have hin : ∀ i (h : i < readings.length), signature readings[i] ∈ u := by
    intro i h
    exact ((unique_spec s).2 _).2 (List.mem_map.2 ⟨_, List.getElem_mem h, rfl⟩)
  refine ⟨by simp [loadLakes], rfl, rfl, ?_, ?_⟩
  · intro i h
    have hlt : u.idxOf (signature readings[i]) < u.length := List.idxOf_lt_length_of_mem (hin i h)
    refine ⟨_, hids i h, ?_, ?_⟩
    · show _ < (u.filterMap fun v => (readings[s.idxOf v]?).map fun x => (x.latitude, x.longitude)).length
      rw [hlen]
      exact hlt
    · have hv : u[u.idxOf (signature readings[i])] = signature readings[i] := List.getElem_idxOf hlt
      have hg := hget _ hlt
      rw [hv] at hg
      have h1 : s.idxOf (signature readings[i]) < s.length := List.idxOf_lt_length_of_mem (hmem _ (hin i h))
      have h2 : s.idxOf (signature readings[i]) < readings.length := by
        have : s.length = readings.length := by rw [hs, List.length_map]
        omega
      refine ⟨readings[s.idxOf (signature readings[i])], List.getElem_mem h2, ?_, ?_⟩
      · rw [List.getElem?_eq_getElem h2] at hg
        exact hg
      · have h3 : s[s.idxOf (signature readings[i])] = signature readings[i] := List.getElem_idxOf h1
        have h4 : ∀ k (hk : k < s.length) (hk' : k < readings.length), s[k] = signature readings[k] := by
          intro k hk hk'
          simp [hs]
        rw [← h4 _ h1 h2, h3]
  · intro i j hi hj
    rw [hids i hi, hids j hj, Option.some.injEq]
    constructor
    · intro h
      have e1 := List.getElem_idxOf (List.idxOf_lt_length_of_mem (hin i hi))
      have e2 := List.getElem_idxOf (List.idxOf_lt_length_of_mem (hin j hj))
      rw [← e1, ← e2]
      congr 1
    · intro h
      rw [h]

/-- C120: no location stands twice in the table, by its signature. -/
theorem c120_table (readings : List Reading) :
    (loadLakes readings).lookup.length = (readings.map signature).toFinset.card := by
  set s := readings.map signature with hs
  have hsome : ∀ v ∈ unique s, ((readings[s.idxOf v]?).map fun x => (x.latitude, x.longitude)).isSome := by
    intro v hv
    have h1 : s.idxOf v < s.length := List.idxOf_lt_length_of_mem (((unique_spec s).2 v).1 hv)
    have h2 : s.idxOf v < readings.length := by
      have : s.length = readings.length := by rw [hs, List.length_map]
      omega
    rw [List.getElem?_eq_getElem h2]
    rfl
  have h1 : (loadLakes readings).lookup.length = (unique s).length := (filterMap_all _ (unique s) hsome).1
  have h2 : s.toFinset = (unique s).toFinset := by
    ext v
    rw [List.mem_toFinset, List.mem_toFinset, (unique_spec s).2]
  rw [h1, h2, List.toFinset_card_of_nodup (unique_nodup s)]

theorem truncate_near (v : ℝ) : |v - truncate v| < 1 := by
  unfold truncate
  split
  · rw [abs_lt]
    have h1 := Int.floor_le v
    have h2 := Int.lt_floor_add_one v
    constructor <;> linarith
  · rw [abs_lt]
    have h1 := Int.le_ceil v
    have h2 := Int.ceil_lt_add_one v
    constructor <;> linarith

/-- C120 (partial: only for places whose differences of latitude and longitude do not nearly cancel in the signature): places with
`|360 Δlatitude + Δlongitude|` of at least four millionths of a degree have different numbers. -/
theorem c120_apart_partial (readings : List Reading) (i j : ℕ) (hi : i < readings.length) (hj : j < readings.length)
    (h : 4e-6 ≤ |360 * (readings[i].latitude - readings[j].latitude) + (readings[i].longitude - readings[j].longitude)|) :
    (loadLakes readings).ids[i]? ≠ (loadLakes readings).ids[j]? := by
  intro hcon
  have hs := ((c120_lakes readings).2.2.2.2 i j hi hj).1 hcon
  unfold signature at hs
  set a := readings[i]
  set b := readings[j]
  have t1 := abs_lt.1 (truncate_near (360 * 1000000 * a.latitude))
  have t2 := abs_lt.1 (truncate_near (1000000 * a.longitude))
  have t3 := abs_lt.1 (truncate_near (360 * 1000000 * b.latitude))
  have t4 := abs_lt.1 (truncate_near (1000000 * b.longitude))
  have hs' : (truncate (360 * 1000000 * a.latitude) : ℝ) + truncate (1000000 * a.longitude)
      = truncate (360 * 1000000 * b.latitude) + truncate (1000000 * b.longitude) := by exact_mod_cast hs
  have h4 : (4e-6 : ℝ) = 4 / 1000000 := by norm_num
  rw [h4] at h
  have hlt : |360 * (a.latitude - b.latitude) + (a.longitude - b.longitude)| < 4 / 1000000 := by
    rw [abs_lt]
    constructor <;> linarith [t1.1, t1.2, t2.1, t2.2, t3.1, t3.2, t4.1, t4.2]
  linarith

/-- Two lakes 0.36 degrees apart. -/
example : (4e-6 : ℝ) ≤ |360 * ((60.5 : ℝ) - 60.25) + ((25 : ℝ) - 24.5)| := by norm_num

/-- C120 is violated: two places more than forty kilometres apart on the ground have the same number, and the observations of both are put
at the place of the first. -/
theorem c120_apart_violated (celsius : ℝ) :
    (loadLakes [⟨0, 0, 0.36, celsius⟩, ⟨0, 0.001, 0, celsius⟩]).ids = [0, 0] ∧
      (loadLakes [⟨0, 0, 0.36, celsius⟩, ⟨0, 0.001, 0, celsius⟩]).lookup = [(0, 0.36)] := by
  have e1 : signature ⟨0, 0, 0.36, celsius⟩ = 360000 := by
    unfold signature truncate
    norm_num
  have e2 : signature ⟨0, 0.001, 0, celsius⟩ = 360000 := by
    unfold signature truncate
    norm_num
  constructor
  · simp [loadLakes, e1, e2, unique, insertSorted]
  · simp [loadLakes, e1, e2, unique, insertSorted]

/-- C120: places less than a millionth of a degree apart may or may not share a number; on both sides of the equator they may even share one
at nearly two millionths, as numbers are cut off towards zero. -/
theorem c120_zero : signature ⟨0, 0, 0.0000009, 0⟩ = signature ⟨0, 0, -0.0000009, 0⟩ := by
  unfold signature truncate
  norm_num

end Verif.Eustace.SurfaceAir
