import Verif.Eustace.Prepare.Lemmas

/-! C174: preparation of satellite data for the analysis. -/

namespace Verif.Eustace.Prepare

open Verif Verif.Eustace.RawBinary Verif.Eustace.Prepare.Spec
open Verif.Eustace.Insitu (Close dayContents storeDay)

/-- The grid of a file is that of the table of locations, to within 0.0001 degrees. -/
def SamePlaces (r g : Grid) : Prop := 0 < g.size ∧ ∀ k < g.size, k < r.size ∧ Close (r.place k) (g.place k)

/-- **C174**: the table of locations has the place of each cell, in the order in which the files of days number them. -/
theorem c174_lookup (bits : ℝ → UInt64) (uuid : Bytes) (hu : uuid.length = 16) {sourcename : String} (hs : Surface sourcename)
    {file : List Cube} {c : Cube} (hc : Only file "tasmin" c) {r : Grid} (hr : At c r) :
    ∃ lookup table, runLookup bits uuid file sourcename = .ok lookup ∧ readLookup lookup = .ok (uuid, table) ∧
      table.length = r.size ∧ ∀ k < r.size, table[k]? = some (bits (r.place k).1, bits (r.place k).2) := by
  obtain ⟨table, h1, h2, h3⟩ := locations_ok (s := ⟨"Tmin", "tasmin", "tasminuncertainty", file⟩) hc hr
  refine ⟨_, table.map fun p => (bits p.1, bits p.2), ?_, (c24_lookup uuid hu _).1, by rw [List.length_map, h2], fun k hk => ?_⟩
  · rw [runLookup, source_ok hs .minimum]
    simp only
    rw [h1]
  · rw [List.getElem?_map, h3 k hk]
    rfl

/-- **C174**: satellite data have no locally correlated errors, and the file of their ranges says so. -/
theorem c174_ranges (bits : ℝ → UInt64) {sourcename observable m u : String} (hs : Surface sourcename)
    (hq : Quantity observable m u) (file : List Cube) :
    ∃ ranges, runRanges bits file sourcename observable = .ok ranges ∧ readRanges ranges = .ok [] := by
  refine ⟨writeRanges [], ?_, c24_ranges []⟩
  rw [runRanges, source_ok hs hq]
  simp only
  rw [Source.ranges, if_neg (not_not.2 rfl)]
  rfl

/-- **C174**: the file of a day is made if the grid is that of the table of locations, and not otherwise.  What is read from it are
the cells of the day which have a measurement, each once and in order, with measurement, uncertainty and the number of the place. -/
theorem c174_day (bits : ℝ → UInt64) (value : UInt64 → ℝ) (uuid verify : Bytes) (hu : uuid.length = 16)
    {reference sourcename observable m u : String} (hr : Surface reference) (hs : Surface sourcename)
    (hq : Quantity observable m u) {first file : List Cube} {c : Cube} (hc : Only first "tasmin" c) {r : Grid} (ha : At c r)
    (hv : ∀ k < r.size, value (bits (r.place k).1) = (r.place k).1 ∧ value (bits (r.place k).2) = (r.place k).2)
    {g : Grid} (hg : Has file m u g) (hn : g.size ≤ 2 ^ 64) (ht : 0 ≤ g.time) (day : Int) :
    ∃ lookup, runLookup bits uuid first reference = .ok lookup ∧
      (SamePlaces r g → ∃ output kept, runDay bits value lookup file day sourcename observable = .ok output ∧ Selected g day kept ∧
        readDay 0 (some output) verify day = .ok (dayContents bits day kept g.measurement g.uncertainty)) ∧
      (¬ SamePlaces r g → ∃ e, runDay bits value lookup file day sourcename observable = .error e) := by
  obtain ⟨lookup, table, h1, h2, h3, h4⟩ := c174_lookup bits uuid hu hr hc ha
  refine ⟨lookup, h1, ?_⟩
  obtain ⟨mask, values, errors, o1, o2, o3, o4, o5, o6⟩ := observations_ok (observable := observable) hg
  obtain ⟨c', hc', ha', _⟩ := hg.measured
  obtain ⟨mine, l1, l2, l3⟩ := locations_ok (s := ⟨observable, m, u, file⟩) hc' ha'
  have hrun : runDay bits value lookup file day sourcename observable =
      storeDay bits uuid (table.map fun p => (value p.1, value p.2)) mine day
        (some ⟨mask, .array [g.time], (List.range g.size).map UInt64.ofNat, values, errors, []⟩) := by
    rw [runDay, h2]
    simp only
    rw [source_ok hs hq]
    simp only
    rw [o1]
    simp only
    rw [l1]
  have hagree : Agrees (table.map fun p => (value p.1, value p.2)) g ↔ SamePlaces r g := by
    constructor
    · rintro ⟨h0, h⟩
      refine ⟨h0, fun k hk => ?_⟩
      obtain ⟨p, hp, hcl⟩ := h k hk
      have hk' : k < r.size := by
        have := (List.getElem?_eq_some_iff.1 hp).1
        rw [List.length_map, h3] at this
        exact this
      rw [List.getElem?_map, h4 k hk', Option.map_some, Option.some.injEq, (hv k hk').1, (hv k hk').2] at hp
      rw [← hp] at hcl
      exact ⟨hk', hcl⟩
    · rintro ⟨h0, h⟩
      refine ⟨h0, fun k hk => ⟨r.place k, ?_, (h k hk).2⟩⟩
      rw [List.getElem?_map, h4 k (h k hk).1, Option.map_some, (hv k (h k hk).1).1, (hv k (h k hk).1).2]
  obtain ⟨s1, s2⟩ := store_at bits uuid (table.map fun p => (value p.1, value p.2)) mine day g hn l2 l3
    ⟨mask, .array [g.time], (List.range g.size).map UInt64.ofNat, values, errors, []⟩ rfl
  constructor
  · intro hsame
    obtain ⟨output, kept, w1, w2, w3⟩ := write_at bits uuid verify hu g day ht mask values errors o2 o3 o4 o5 o6
    refine ⟨output, kept, ?_, w2, w3⟩
    rw [hrun, s1 (hagree.2 hsame)]
    exact w1
  · intro hno
    rw [hrun]
    exact s2 fun h => hno (hagree.1 h)

/-- **C174**: files on one and the same grid have the same places, so that the table made from one surface serves for all. -/
theorem c174_one_table {r g : Grid} (h0 : 0 < g.size) (h1 : g.rows = r.rows) (h2 : g.cols = r.cols)
    (h3 : ∀ i < g.rows, g.latitude i = r.latitude i) (h4 : ∀ j < g.cols, g.longitude j = r.longitude j) : SamePlaces r g := by
  refine ⟨h0, fun k hk => ⟨?_, ?_⟩⟩
  · rw [Grid.size, ← h1, ← h2]
    exact hk
  · rw [Grid.size] at hk
    have hc : 0 < g.cols := by
      by_contra hc
      have : g.cols = 0 := by omega
      rw [this] at hk
      omega
    have e : g.place k = r.place k := by
      rw [Grid.place, Grid.place, ← h2, h3 _ (Nat.div_lt_of_lt_mul (by rw [Nat.mul_comm]; exact hk)), h4 _ (Nat.mod_lt _ hc)]
    rw [e]
    constructor <;> rw [sub_self, abs_zero] <;> norm_num

/-! ### What fails -/

/-- **C174 violated**: a file of another day is accepted, and gives a file without observations. -/
theorem c174_other_day_violated (bits : ℝ → UInt64) (value : UInt64 → ℝ) (uuid verify : Bytes) (hu : uuid.length = 16)
    {reference sourcename observable m u : String} (hr : Surface reference) (hs : Surface sourcename)
    (hq : Quantity observable m u) {first file : List Cube} {c : Cube} (hc : Only first "tasmin" c) {r : Grid} (ha : At c r)
    (hv : ∀ k < r.size, value (bits (r.place k).1) = (r.place k).1 ∧ value (bits (r.place k).2) = (r.place k).2)
    {g : Grid} (hg : Has file m u g) (hn : g.size ≤ 2 ^ 64) (ht : 0 ≤ g.time) (day : Int) (hp : SamePlaces r g)
    (hd : ¬ ((day : ℚ) ≤ g.time ∧ g.time < day + 1)) :
    ∃ lookup output, runLookup bits uuid first reference = .ok lookup ∧
      runDay bits value lookup file day sourcename observable = .ok output ∧
      readDay 0 (some output) verify day = .ok ⟨[], .scalar day, [], [], [], []⟩ := by
  obtain ⟨lookup, h1, h2, _⟩ := c174_day bits value uuid verify hu hr hs hq hc ha hv hg hn ht day
  obtain ⟨output, kept, h3, h4, h5⟩ := h2 hp
  have : kept = [] := by
    rw [List.eq_nil_iff_forall_not_mem]
    intro k hm
    exact hd ((h4.2 k).1 hm).2.2
  subst this
  exact ⟨lookup, output, h1, h3, h5⟩

/-- **C174 violated**: a field in which no cell is missing is loaded as a plain array, and the file of the day cannot be made. -/
theorem c174_complete_violated (bits : ℝ → UInt64) (value : UInt64 → ℝ) (uuid : Bytes) (hu : uuid.length = 16)
    (table : List (UInt64 × UInt64)) {sourcename observable m u : String} (hs : Surface sourcename) (hq : Quantity observable m u)
    {file : List Cube} {c d : Cube} (hc : Only file m c) (hd : Only file u d) {t : ℚ} {rest : List ℚ} {rest' : List (List ℚ)}
    (ht : c.time = (t :: rest) :: rest') (hm : c.mask = none) (day : Int) :
    runDay bits value (writeLookup uuid table) file day sourcename observable = .error .attributeError := by
  have f1 : (Source.mk observable m u file).field m = .ok c := field_only hc
  have f2 : (Source.mk observable m u file).field u = .ok d := field_only hd
  have ho : (Source.mk observable m u file).observations observable = .error .attributeError := by
    rw [Source.observations, if_neg (not_not.2 rfl)]
    simp only
    rw [f1]
    simp only
    rw [Source.count]
    simp only
    rw [f1]
    simp only
    rw [firstTime, ht]
    simp only [first]
    rw [f2]
    simp only [maskOf, hm]
  rw [runDay, (c24_lookup uuid hu table).1]
  simp only
  rw [source_ok hs hq]
  simp only
  rw [ho]

/-- **C174 violated**: no file can be made for lakes. -/
theorem c174_lake_violated (bits : ℝ → UInt64) (value : UInt64 → ℝ) (uuid : Bytes) (hu : uuid.length = 16)
    (table : List (UInt64 × UInt64)) (file : List Cube) (day : Int) (observable : String) :
    runLookup bits uuid file "surfaceairmodel_lake" = .error .typeError ∧
      runRanges bits file "surfaceairmodel_lake" observable = .error .typeError ∧
      runDay bits value (writeLookup uuid table) file day "surfaceairmodel_lake" observable = .error .typeError := by
  have h : ∀ o, sourceOf "surfaceairmodel_lake" o file = .error .typeError := by
    intro o
    simp [sourceOf]
  refine ⟨by rw [runLookup, h], by rw [runRanges, h], ?_⟩
  rw [runDay, (c24_lookup uuid hu table).1]
  simp only
  rw [h]

/-- **C174 violated**: the table of locations cannot be made from a file of a surface which has no minima, as that of the ocean. -/
theorem c174_ocean_lookup_violated (bits : ℝ → UInt64) (uuid : Bytes) {sourcename : String} (hs : Surface sourcename)
    {file : List Cube} (h : ∀ c ∈ file, c.name ≠ "tasmin") : runLookup bits uuid file sourcename = .error .valueError := by
  have e : file.filter (fun c => c.name = "tasmin") = [] := by
    rw [List.filter_eq_nil_iff]
    intro x hx
    simpa using h x hx
  rw [runLookup, source_ok hs .minimum]
  simp only
  rw [Source.locations, Source.field]
  simp only
  rw [e]

/-! ### A case -/

/-- Two rows and three columns; the second cell has no minimum, and the uncertainty of the last one is missing. -/
noncomputable def exampleFile : List Cube :=
  [⟨"tasminuncertainty", [1, 2, 3], some [false, true, false, false, false, true], [1, 0, 2, 3, 4, -32.768], [[-1, 1]], [[10, 20, 30]], [[57000]]⟩,
   ⟨"tasmin", [1, 2, 3], some [false, true, false, false, false, false], [280, 0, 281, 282, 283, 284], [[-1, 1]], [[10, 20, 30]],
    [[57000]]⟩]

/-- What is in it. -/
noncomputable def exampleGrid : Grid where
  rows := 2
  cols := 3
  latitude := fun i => [-1, 1].getD i 0
  longitude := fun i => [10, 20, 30].getD i 0
  time := 57000
  present := fun k => k != 1
  measurement := fun k => [280, 0, 281, 282, 283, 284].getD k 0
  uncertainty := fun k => [1, 0, 2, 3, 4, -32.768].getD k 0

theorem example_minimum : ∃ c, Only exampleFile "tasmin" c ∧ At c exampleGrid := by
  refine ⟨_, ⟨[_], [], rfl, rfl, ?_⟩, ⟨rfl, ⟨_, _, rfl, rfl, ?_⟩, ⟨_, _, rfl, rfl, ?_⟩⟩⟩
  · intro x hx
    rw [List.mem_singleton.1 hx]
    decide
  · intro i (hi : i < 2)
    interval_cases i <;> simp [exampleGrid]
  · intro i (hi : i < 3)
    interval_cases i <;> simp [exampleGrid]

theorem example_has : Has exampleFile "tasmin" "tasminuncertainty" exampleGrid := by
  constructor
  · refine ⟨_, ⟨[_], [], rfl, rfl, ?_⟩, ⟨rfl, ⟨_, _, rfl, rfl, ?_⟩, ⟨_, _, rfl, rfl, ?_⟩⟩, ⟨_, _, rfl⟩, ⟨_, rfl, rfl, ?_⟩, rfl, ?_⟩
    · intro x hx
      rw [List.mem_singleton.1 hx]
      decide
    · intro i (hi : i < 2)
      interval_cases i <;> simp [exampleGrid]
    · intro i (hi : i < 3)
      interval_cases i <;> simp [exampleGrid]
    · intro i (hi : i < 6)
      interval_cases i <;> simp [exampleGrid]
    · intro i (hi : i < 6)
      interval_cases i <;> simp [exampleGrid]
  · refine ⟨_, ⟨[], [_], rfl, rfl, ?_⟩, ⟨_, rfl⟩, rfl, ?_⟩
    · intro x hx
      rw [List.mem_singleton.1 hx]
      decide
    · intro i (hi : i < 6)
      interval_cases i <;> simp [exampleGrid]

/-- Numbers in 64 bits, for the examples: multiples of an eighth from -1000 are exact. -/
noncomputable def exampleBits (x : ℝ) : UInt64 := UInt64.ofNat ⌊8 * (x + 1000)⌋₊

/-- See `exampleBits`. -/
noncomputable def exampleValue (b : UInt64) : ℝ := (b.toNat : ℝ) / 8 - 1000

theorem example_exact (x : ℝ) (n : Nat) (hn : n < 2 ^ 64) (hx : 8 * (x + 1000) = n) : exampleValue (exampleBits x) = x := by
  rw [exampleValue, exampleBits, hx, Nat.floor_natCast, UInt64.toNat_ofNat', Nat.mod_eq_of_lt hn, ← hx]
  ring

theorem example_places : ∀ k < exampleGrid.size, exampleValue (exampleBits (exampleGrid.place k).1) = (exampleGrid.place k).1 ∧
    exampleValue (exampleBits (exampleGrid.place k).2) = (exampleGrid.place k).2 := by
  have h1 : ∀ i < 2, exampleValue (exampleBits (exampleGrid.latitude i)) = exampleGrid.latitude i := by
    intro i hi
    refine example_exact _ (7992 + 16 * i) (by omega) ?_
    interval_cases i <;> norm_num [exampleGrid]
  have h2 : ∀ i < 3, exampleValue (exampleBits (exampleGrid.longitude i)) = exampleGrid.longitude i := by
    intro i hi
    refine example_exact _ (8080 + 80 * i) (by omega) ?_
    interval_cases i <;> norm_num [exampleGrid]
  intro k (hk : k < 6)
  exact ⟨h1 (k / 3) (by omega), h2 (k % 3) (by omega)⟩

/-- **C174 violated**: a measurement whose uncertainty is missing is used, with the number which fills the missing cell. -/
theorem c174_uncertainty_violated (bits : ℝ → UInt64) (value : UInt64 → ℝ) (hv : ∀ k < exampleGrid.size,
      value (bits (exampleGrid.place k).1) = (exampleGrid.place k).1 ∧ value (bits (exampleGrid.place k).2) = (exampleGrid.place k).2)
    (uuid verify : Bytes) (hu : uuid.length = 16) :
    ∃ c mask lookup output, c ∈ exampleFile ∧ c.name = "tasminuncertainty" ∧ c.mask = some mask ∧ mask[5]? = some true ∧
      runLookup bits uuid exampleFile "surfaceairmodel_ice" = .ok lookup ∧
      runDay bits value lookup exampleFile 57000 "surfaceairmodel_ice" "Tmin" = .ok output ∧
      readDay 0 (some output) verify 57000 = .ok (dayContents bits 57000 [0, 2, 3, 4, 5]
        exampleGrid.measurement exampleGrid.uncertainty) ∧ exampleGrid.uncertainty 5 = -32.768 := by
  obtain ⟨c, hc, ha⟩ := example_minimum
  obtain ⟨lookup, h1, h2, _⟩ := c174_day bits value uuid verify hu .ice .ice .minimum hc ha hv example_has
    (by norm_num [Grid.size, exampleGrid]) (by norm_num [exampleGrid]) 57000
  obtain ⟨output, kept, h3, h4, h5⟩ := h2 (c174_one_table (by norm_num [Grid.size, exampleGrid]) rfl rfl (fun _ _ => rfl) fun _ _ => rfl)
  have hk : kept = [0, 2, 3, 4, 5] := by
    refine List.Perm.eq_of_pairwise (le := (· < ·)) (fun a b _ _ h h' => absurd h (by omega)) h4.1 (by simp) ?_
    rw [List.perm_ext_iff_of_nodup (h4.1.imp fun h => by omega) (by simp)]
    intro k
    rw [h4.2]
    simp only [Grid.size, exampleGrid]
    constructor
    · rintro ⟨a, b, _⟩
      interval_cases k <;> simp at b ⊢
    · intro h
      simp only [List.mem_cons, List.not_mem_nil, or_false] at h
      rcases h with rfl | rfl | rfl | rfl | rfl <;> norm_num
  rw [hk] at h5
  exact ⟨_, _, lookup, output, List.mem_cons_self, rfl, rfl, rfl, h1, h3, h5, rfl⟩

/-- Non-vacuity: `example_places` meets the hypothesis of `c174_uncertainty_violated`. -/
example := c174_uncertainty_violated exampleBits exampleValue example_places (List.replicate 16 0) [] (by simp)

/-- Non-vacuity: the file of another day, and one in which the fields are complete. -/
example : ¬ (((57001 : Int) : ℚ) ≤ exampleGrid.time ∧ exampleGrid.time < (57001 : Int) + 1) := by norm_num [exampleGrid]

example : ∃ file c d, Only file "tas" c ∧ Only file "tasuncertainty" d ∧ c.time = [[57000]] ∧ c.mask = none := by
  refine ⟨[⟨"tas", [1, 1, 1], none, [280], [[1]], [[2]], [[57000]]⟩, ⟨"tasuncertainty", [1, 1, 1], none, [1], [[1]], [[2]], [[57000]]⟩],
    _, _, ⟨[], _, rfl, rfl, ?_⟩, ⟨[_], _, rfl, rfl, ?_⟩, rfl, rfl⟩
  · intro x hx
    rw [List.mem_singleton.1 hx]
    decide
  · intro x hx
    rw [List.mem_singleton.1 hx]
    decide

end Verif.Eustace.Prepare
