import Verif.Eustace.RawBinary.Lemmas

/-!
C24: files of one day round-trip the valid observations of the day.
-/

namespace Verif.Eustace.RawBinary

open Verif

/-! ### Specification -/

/-- All arrays have `n` elements. -/
def Observations.Sized (obs : Observations UInt64) (n : Nat) : Prop :=
  obs.mask.length = n ∧ obs.location.length = n ∧ obs.measurement.length = n ∧ obs.uncorrelated.length = n ∧
    ∀ c ∈ obs.correlated, c.length = n

/-- Observation `i` is of a day: its time is in the day. -/
def OnDay (time : Time) (day : Int) (i : Nat) : Prop :=
  match time with
  | .scalar d => d = day
  | .array days => ∃ t, days[i]? = some t ∧ (day : ℚ) ≤ t ∧ t < day + 1

/-- The positions of the observations which are to be in the file of a day, in order. -/
def Kept (obs : Observations UInt64) (day : Int) (kept : List Nat) : Prop :=
  kept.Pairwise (· < ·) ∧ ∀ i, i ∈ kept ↔ obs.mask[i]? = some false ∧ OnDay obs.time day i

/-- The observations at given positions. -/
def selection (obs : Observations UInt64) (kept : List Nat) (day : Int) : Observations UInt64 where
  mask := kept.map fun _ => false
  time := .scalar day
  location := kept.map fun i => obs.location.getD i 0
  measurement := kept.map fun i => obs.measurement.getD i 0
  uncorrelated := kept.map fun i => obs.uncorrelated.getD i 0
  correlated := obs.correlated.map fun c => kept.map fun i => c.getD i 0

/-- An array of times has as many elements as the mask, and no time is before the epoch. -/
def TimeSized (time : Time) (n : Nat) : Prop :=
  match time with
  | .scalar _ => True
  | .array days => days.length = n ∧ ∀ t ∈ days, 0 ≤ t

/-! ### Proofs -/

theorem truncate_iff (t : ℚ) (ht : 0 ≤ t) (day : Int) : truncate t = day ↔ (day : ℚ) ≤ t ∧ t < day + 1 := by
  rw [truncate, if_pos ht, Int.floor_eq_iff]

theorem dayNumbers_ok (time : Time) (n : Nat) (h : TimeSized time n) : ∃ days, dayNumbers n time = .ok days ∧
    ∀ i < n, ∀ day : Int, days[i]? = some day ↔ OnDay time day i := by
  cases time with
  | scalar d =>
    refine ⟨_, rfl, ?_⟩
    intro i hi day
    rw [List.getElem?_replicate, if_pos hi, OnDay]
    exact Option.some_inj
  | array times =>
    obtain ⟨h1, h2⟩ := h
    refine ⟨times.map truncate, by unfold dayNumbers; exact if_pos h1, ?_⟩
    intro i hi day
    rw [OnDay, List.getElem?_map]
    have hi' : i < times.length := by omega
    rw [List.getElem?_eq_getElem hi', Option.map_some, Option.some_inj]
    rw [truncate_iff _ (h2 _ (List.getElem_mem hi'))]
    constructor
    · intro h; exact ⟨_, rfl, h⟩
    · rintro ⟨t, ht, h⟩; cases ht; exact h

theorem validIndices_kept (obs : Observations UInt64) (days : List Int) (day : Int)
    (h : ∀ i < obs.mask.length, ∀ day : Int, days[i]? = some day ↔ OnDay obs.time day i) :
    Kept obs day (validIndices obs.mask days day) := by
  refine ⟨List.Pairwise.filter _ List.pairwise_lt_range, ?_⟩
  intro i
  rw [validIndices, List.mem_filter, List.mem_range, Bool.and_eq_true, beq_iff_eq, beq_iff_eq]
  constructor
  · rintro ⟨h1, h2, h3⟩
    exact ⟨h2, (h i h1 day).1 h3⟩
  · rintro ⟨h1, h2⟩
    have hi : i < obs.mask.length := (List.getElem?_eq_some_iff.1 h1).1
    exact ⟨hi, h1, (h i hi day).2 h2⟩

theorem column_rows (arrays : List (List UInt64)) (kept : List Nat) (j : Nat) (hj : j < arrays.length) :
    column j (kept.map fun i => arrays.map fun l => l.getD i 0) = kept.map fun i => (arrays.getD j []).getD i 0 := by
  rw [column, List.map_map]
  refine List.map_congr_left fun i _ => ?_
  rw [Function.comp_apply, List.getD_eq_getElem?_getD, List.getElem?_map, List.getElem?_eq_getElem hj]
  have : arrays.getD j [] = arrays[j] := by
    rw [List.getD_eq_getElem?_getD, List.getElem?_eq_getElem hj]
    rfl
  rw [this]
  rfl

theorem build_rows (obs : Observations UInt64) (kept : List Nat) (day : Int) :
    buildObservations obs.correlated.length ((kept.map fun i =>
      (obs.location :: obs.measurement :: obs.uncorrelated :: obs.correlated).map fun l => l.getD i 0).map fun _ => false) day
      (kept.map fun i =>
        (obs.location :: obs.measurement :: obs.uncorrelated :: obs.correlated).map fun l => l.getD i 0) =
      selection obs kept day := by
  rw [buildObservations, selection]
  rw [column_rows _ kept 0 (by simp), column_rows _ kept 1 (by simp), column_rows _ kept 2 (by simp)]
  congr 1
  · rw [List.map_map]; rfl
  · refine List.ext_getElem (by simp) ?_
    intro j h1 h2
    rw [List.getElem_map, List.getElem_map, List.getElem_range]
    have hj : j < obs.correlated.length := by simpa using h2
    rw [column_rows _ kept (3 + j) (by simp; omega)]
    have : (obs.location :: obs.measurement :: obs.uncorrelated :: obs.correlated).getD (3 + j) [] = obs.correlated[j] := by
      rw [Nat.add_comm, List.getD_cons_succ, List.getD_cons_succ, List.getD_cons_succ, List.getD_eq_getElem?_getD,
        List.getElem?_eq_getElem hj]
      rfl
    rw [this]

/-- What `write_day` writes. -/
theorem write_ok (uuid : Bytes) (obs : Observations UInt64) (n : Nat) (hs : obs.Sized n) (ht : TimeSized obs.time n)
    (day : Int) : ∃ kept, Kept obs day kept ∧ (∀ i ∈ kept, i < n) ∧
      writeDay uuid obs day = .ok (formatObservation ++ codeId ++ uuid ++ tofile (kept.map fun i =>
        (obs.location :: obs.measurement :: obs.uncorrelated :: obs.correlated).map fun l => l.getD i 0)) := by
  obtain ⟨hm, hl, hme, hu, hc⟩ := hs
  rw [← hm] at ht
  obtain ⟨days, hd, hday⟩ := dayNumbers_ok obs.time _ ht
  have hk := validIndices_kept obs days day hday
  have hlt : ∀ i ∈ validIndices obs.mask days day, i < n := by
    intro i hi
    rw [← hm]
    exact (List.getElem?_eq_some_iff.1 ((hk.2 i).1 hi).1).1
  refine ⟨_, hk, hlt, ?_⟩
  have harr : ∀ l ∈ obs.location :: obs.measurement :: obs.uncorrelated :: obs.correlated, l.length = n := by
    intro l h
    simp only [List.mem_cons] at h
    rcases h with rfl | rfl | rfl | h
    · exact hl
    · exact hme
    · exact hu
    · exact hc l h
  rw [writeDay, hd]
  dsimp only
  rw [populate_ok obs n _ harr hlt]

theorem rows_length (obs : Observations UInt64) (kept : List Nat) :
    ∀ r ∈ kept.map fun i => (obs.location :: obs.measurement :: obs.uncorrelated :: obs.correlated).map fun l => l.getD i 0,
      r.length = 3 + obs.correlated.length := by
  intro r hr
  obtain ⟨i, _, rfl⟩ := List.mem_map.1 hr
  rw [List.length_map]
  simp only [List.length_cons]
  omega

/-- **C24** for all observations, masks, times and days: reading the file of a day gives exactly the unmasked observations of
that day, in order, with all their values, and their number. -/
theorem c24_round_trip (uuid verify : Bytes) (hu : uuid.length = 16) (obs : Observations UInt64) (n : Nat) (hs : obs.Sized n)
    (ht : TimeSized obs.time n) (day : Int) :
    ∃ file kept, writeDay uuid obs day = .ok file ∧ Kept obs day kept ∧
      readDay obs.correlated.length (some file) verify day = .ok (selection obs kept day) ∧
      readLocationIds obs.correlated.length file verify = .ok (kept.map fun i => obs.location.getD i 0) ∧
      readObservationCount obs.correlated.length file = .ok kept.length := by
  obtain ⟨kept, hk, _, hw⟩ := write_ok uuid obs n hs ht day
  have hrows := rows_length obs kept
  refine ⟨_, kept, hw, hk, ?_, ?_, ?_⟩
  · rw [readDay, readContents, readLocationHeader_append _ format_length.1 _ hu]
    dsimp only
    rw [fromfile_tofile' _ _ (by omega) hrows, build_rows]
  · rw [readLocationIds, readContents, readLocationHeader_append _ format_length.1 _ hu]
    dsimp only
    rw [fromfile_tofile' _ _ (by omega) hrows, column_rows _ kept 0 (by simp)]
    rfl
  · rw [readObservationCount, readLocationHeader_append _ format_length.1 _ hu]
    dsimp only
    rw [tofile_length _ _ hrows, Nat.mul_div_cancel_left _ (by omega), List.length_map]

/-- The positions are determined by the specification. -/
theorem kept_unique (obs : Observations UInt64) (day : Int) (a b : List Nat) (ha : Kept obs day a) (hb : Kept obs day b) :
    a = b := by
  refine List.Perm.eq_of_pairwise (le := (· < ·)) (fun x y _ _ h1 h2 => absurd h1 (by omega)) ha.1 hb.1 ?_
  refine (List.perm_ext_iff_of_nodup ?_ ?_).2 fun i => by rw [ha.2, hb.2]
  · exact ha.1.imp fun h => Nat.ne_of_lt h
  · exact hb.1.imp fun h => Nat.ne_of_lt h

/-- **C24**: what was read can be written again, and gives the same file. -/
theorem c24_rewrite (uuid verify : Bytes) (hu : uuid.length = 16) (obs : Observations UInt64) (n : Nat) (hs : obs.Sized n)
    (ht : TimeSized obs.time n) (day : Int) :
    ∃ file obs', writeDay uuid obs day = .ok file ∧ readDay obs.correlated.length (some file) verify day = .ok obs' ∧
      writeDay uuid obs' day = .ok file := by
  obtain ⟨file, kept, h1, h2, h3, _⟩ := c24_round_trip uuid verify hu obs n hs ht day
  obtain ⟨kept', h2', _, h1'⟩ := write_ok uuid obs n hs ht day
  obtain rfl := kept_unique obs day _ _ h2 h2'
  refine ⟨file, _, h1, h3, ?_⟩
  have hs' : (selection obs kept day).Sized kept.length := by
    refine ⟨?_, ?_, ?_, ?_, ?_⟩ <;> simp [selection]
  obtain ⟨all, ha, hlt, hw⟩ := write_ok uuid (selection obs kept day) kept.length hs' (by trivial) day
  have hall : all = List.range kept.length := by
    refine kept_unique (selection obs kept day) day _ _ ha ⟨List.pairwise_lt_range, ?_⟩
    intro i
    rw [List.mem_range]
    constructor
    · intro hi
      refine ⟨?_, rfl⟩
      rw [selection, List.getElem?_map, List.getElem?_eq_getElem hi]
      rfl
    · rintro ⟨hi, _⟩
      have := (List.getElem?_eq_some_iff.1 hi).1
      simpa [selection] using this
  rw [hw, ← h1, h1', hall]
  congr 3
  refine List.ext_getElem (by simp) ?_
  intro j h4 h5
  have hj : j < kept.length := by simpa using h5
  rw [List.getElem_map, List.getElem_map, List.getElem_range, selection]
  have hget : ∀ f : Nat → UInt64, (kept.map f).getD j 0 = f kept[j] := by
    intro f
    rw [List.getD_eq_getElem?_getD, List.getElem?_map, List.getElem?_eq_getElem hj]
    rfl
  simp only [List.map_cons, hget, List.map_map]
  congr 3
  refine List.map_congr_left fun c _ => ?_
  rw [Function.comp_apply, hget]

/-- **C24**: a file of another kind is refused. -/
theorem c24_format (uuid verify : Bytes) (table : List (UInt64 × UInt64)) (values : List UInt64) (ranges : Nat) (day : Int) :
    (∃ e, readDay ranges (some (writeLookup uuid table)) verify day = .error e) ∧
      (∃ e, readDay ranges (some (writeRanges values)) verify day = .error e) := by
  constructor
  · refine ⟨.other, ?_⟩
    rw [readDay, readContents, readLocationHeader, readHeader, writeLookup, List.append_assoc, List.append_assoc,
      List.take_left' format_length.2.1, if_pos (by decide)]
  · refine ⟨.other, ?_⟩
    rw [readDay, readContents, readLocationHeader, readHeader, writeRanges, List.append_assoc,
      List.take_left' format_length.2.2.1, if_pos (by decide)]

/-- **C24**: the table of locations round-trips, with its identifier and its size. -/
theorem c24_lookup (uuid : Bytes) (hu : uuid.length = 16) (table : List (UInt64 × UInt64)) :
    readLookup (writeLookup uuid table) = .ok (uuid, table) ∧
      readUuidAndCount (writeLookup uuid table) = .ok (uuid, table.length) := by
  have hrows : ∀ r ∈ table.map fun p => [p.1, p.2], r.length = 2 := by
    intro r hr
    obtain ⟨p, _, rfl⟩ := List.mem_map.1 hr
    rfl
  constructor
  · rw [readLookup, writeLookup, readLocationHeader_append _ format_length.2.1 _ hu]
    dsimp only
    rw [fromfile_tofile' _ 2 (by omega) hrows]
    congr 2
    rw [column, column, List.map_map, List.map_map, List.zip_map']
    exact List.map_id _
  · rw [readUuidAndCount, writeLookup, readLocationHeader_append _ format_length.2.1 _ hu]
    dsimp only
    rw [tofile_length _ _ hrows, Nat.mul_div_cancel_left _ (by omega), List.length_map]

/-- **C24**: correlation ranges round-trip. -/
theorem c24_ranges (values : List UInt64) : readRanges (writeRanges values) = .ok values := by
  have hrows : ∀ r ∈ values.map fun p => [p], r.length = 1 := by
    intro r hr
    obtain ⟨p, _, rfl⟩ := List.mem_map.1 hr
    rfl
  rw [readRanges, writeRanges, readHeader_append _ format_length.2.2.1]
  dsimp only
  rw [fromfile_tofile' _ 1 (by omega) hrows, column, List.map_map]
  congr 1
  exact List.map_id _

/-- **C24 violated**: the identifier of the table of locations is not verified; a file made with another table is read. -/
theorem c24_uuid_violated (uuid verify : Bytes) (hu : uuid.length = 16) (_hv : uuid ≠ verify) (obs : Observations UInt64)
    (n : Nat) (hs : obs.Sized n) (ht : TimeSized obs.time n) (day : Int) :
    ∃ file obs', writeDay uuid obs day = .ok file ∧ readDay obs.correlated.length (some file) verify day = .ok obs' := by
  obtain ⟨file, kept, h1, _, h3, _⟩ := c24_round_trip uuid verify hu obs n hs ht day
  exact ⟨file, _, h1, h3⟩

/-- **C24 violated**: a file cut within a record is read without an error, short of that record. -/
theorem c24_cut_violated (uuid verify : Bytes) (hu : uuid.length = 16) (rows : List (List UInt64)) (ranges : Nat)
    (hr : ∀ r ∈ rows, r.length = 3 + ranges) (part : Bytes) (hp : part.length < 8 * (3 + ranges)) :
    readContents ranges (formatObservation ++ codeId ++ uuid ++ (tofile rows ++ part)) verify = .ok rows := by
  rw [readContents, readLocationHeader_append _ format_length.1 _ hu]
  dsimp only
  rw [fromfile_tofile rows _ hr part hp]

/-- **C24 violated**: a time in the day before the epoch is written to the file of the epoch. -/
theorem c24_before_epoch_violated :
    ∃ (obs : Observations UInt64) (file : Bytes), obs.time = .array [-1 / 2] ∧ writeDay (List.replicate 16 0) obs 0 = .ok file ∧
      ¬ OnDay obs.time 0 0 ∧ readObservationCount 0 file = .ok 1 := by
  refine ⟨⟨[false], .array [-1 / 2], [7], [1], [2], []⟩,
    formatObservation ++ codeId ++ List.replicate 16 0 ++ tofile [[7, 1, 2]], rfl, ?_, ?_, ?_⟩
  · have : truncate (-1 / 2) = 0 := by
      rw [truncate, if_neg (by norm_num), Int.ceil_eq_zero_iff]
      norm_num
    simp [writeDay, dayNumbers, this, validIndices, populate, items, item]
  · rintro ⟨t, ht, h1, h2⟩
    cases ht
    norm_num at h1
  · rw [readObservationCount, readLocationHeader_append _ format_length.1 _ (by simp)]
    rfl

/-- **C24 violated**: a reader which expects another number of correlation ranges gives other records, without an error. -/
theorem c24_wrong_ranges_violated (uuid verify : Bytes) (hu : uuid.length = 16) (a b c d : UInt64) :
    readContents 0 (formatObservation ++ codeId ++ uuid ++ tofile [[a, b, c, d], [a, b, c, d], [a, b, c, d]]) verify =
      .ok [[a, b, c], [d, a, b], [c, d, a], [b, c, d]] := by
  have h : tofile [[a, b, c, d], [a, b, c, d], [a, b, c, d]] = tofile [[a, b, c], [d, a, b], [c, d, a], [b, c, d]] := by
    simp [tofile]
  rw [readContents, readLocationHeader_append _ format_length.1 _ hu, h]
  dsimp only
  rw [fromfile_tofile' _ 3 (by omega) (by simp)]

/-- Non-vacuity: three observations, one masked, one of another day. -/
def exampleObservations : Observations UInt64 :=
  ⟨[false, true, false, false], .array [10, 10, 11 / 2, 21 / 2], [5, 6, 7, 8], [1, 2, 3, 4], [11, 12, 13, 14],
    [[21, 22, 23, 24]]⟩

example : exampleObservations.Sized 4 ∧ TimeSized exampleObservations.time 4 ∧ Kept exampleObservations 10 [0, 3] := by
  refine ⟨⟨rfl, rfl, rfl, rfl, by simp [exampleObservations]⟩, ⟨rfl, by simp; norm_num⟩, by simp, ?_⟩
  intro i
  match i with
  | 0 => simp [exampleObservations, OnDay]
  | 1 => simp [exampleObservations, OnDay]
  | 2 => simp [exampleObservations, OnDay]; norm_num
  | 3 => simp [exampleObservations, OnDay]; norm_num
  | i + 4 => simp [exampleObservations, OnDay]

end Verif.Eustace.RawBinary
