import Verif.Eustace.Prepare.Props
import Verif.Eustace.CppReader.Names
import Verif.Eumopps.Persist.JsonProps

/-! C175: the file of pointers of satellite data, and the time series which the analysis gets by it.
`/repo/src/eustace/analysis/preparelocationpointers.py`. -/

namespace Verif.Eustace.Prepare

open Verif Verif.Calendar Verif.Eumopps.Names Verif.Eustace.RawBinary Verif.Eustace.Prepare.Spec
open Verif.Eustace.Insitu (storeDay)
open Verif.Eustace.CppReader (dateText observationPath pointersPath rangesPath lookupPath World Faithful Item itemsOf retrieveLocations
  seriesOf)

/-! ### Model -/

/-- `datetime.strptime(text, '%Y%m%d')`.  Simplified: only texts of eight digits are taken (the library also takes a blank and one
digit for the day, and shorter texts). -/
def strptime (text : List Char) : Except PyErr Date :=
  match Eumopps.Persist.number (text.take 4), Eumopps.Persist.number ((text.drop 4).take 2), Eumopps.Persist.number (text.drop 6) with
  | some y, some m, some d =>
    if text.length = 8 ∧ 1 ≤ y ∧ (Date.mk y m d).Valid then .ok ⟨y, m, d⟩ else .error .valueError
  | _, _, _ => .error .valueError

/-- `extractdaynumber` (preparelocationpointers.py 8-23). -/
def extractDayNumber (name : List Char) : Except PyErr Int :=
  if name.drop (name.length - 4) ≠ ".bin".toList then .error .valueError
  else
    match strptime ((name.take (name.length - 4)).drop (name.length - 12)) with
    | .error e => .error e
    | .ok t => .ok ((t.number : Int) - (Date.number ⟨1850, 1, 1⟩ : Int))

/-- The 64 bits of a day number (`DTYPE` of locationpointers.py 16, from `numpy.int64`). -/
def dayBits (day : Int) : UInt64 := UInt64.ofNat (day % 2 ^ 64).toNat

/-- The loop of `run` over the files of days (preparelocationpointers.py 33-42). -/
def pointersLoop (files : List Char → Option Bytes) (ranges : Nat) (uuid : Bytes) :
    List (List Char) → List (List (UInt64 × UInt64)) → Except PyErr (List (List (UInt64 × UInt64)))
  | [], pointers => .ok pointers
  | name :: rest, pointers =>
    match extractDayNumber name with
    | .error e => .error e
    | .ok day =>
      match files name with
      | none => .error .other
      | some file =>
        match appendDay ranges uuid file (dayBits day) pointers with
        | .error e => .error e
        | .ok pointers' => pointersLoop files ranges uuid rest pointers'

/-- `run` (preparelocationpointers.py 26-45), with `LocationPointersRawBinaryWriter` (locationpointers.py 20-30): the contents of the
new file. -/
def runPointers (files : List Char → Option Bytes) (lookup ranges : List Char) (names : List (List Char)) : Except PyErr Bytes :=
  match files lookup with
  | none => .error .other
  | some l =>
    match readUuidAndCount l with
    | .error e => .error e
    | .ok (uuid, count) =>
      match files ranges with
      | none => .error .other
      | some r =>
        match readRanges r with
        | .error e => .error e
        | .ok values =>
          match pointersLoop files values.length uuid names (List.replicate count []) with
          | .error e => .error e
          | .ok pointers => .ok (writePointers uuid pointers)

/-! ### Specification -/

/-- A day of satellite data: its number, the file of its fields and the measurements in that. -/
structure DayOf where
  day : Int
  file : List Cube
  grid : Grid

/-- A day with a name of eight digits. -/
def Named (day : Int) : Prop := ∃ d : Date, d.Valid ∧ 1 ≤ d.year ∧ d.year < 10000 ∧ day = CppReader.daysSince d

/-- What there is to know of a cell on a day: nothing if it has no measurement or the file is one of another day. -/
noncomputable def observed (bits : ℝ → UInt64) (k : Nat) (d : DayOf) : Option Item :=
  open Classical in
  if k < d.grid.size ∧ d.grid.present k = true ∧ (d.day : ℚ) ≤ d.grid.time ∧ d.grid.time < d.day + 1 then
    some ⟨dayBits d.day, bits (d.grid.measurement k), bits (d.grid.uncertainty k), []⟩
  else none

/-! ### Numbers of days -/

theorem date_bounds {d : Date} (h : d.Valid) : d.month < 10 ^ 2 ∧ d.day < 10 ^ 2 := by
  have h28 : daysInMonth d.year d.month ≤ 31 := by unfold daysInMonth; split <;> split <;> omega
  exact ⟨by have := h.2.1; omega, by have := h.2.2.2; omega⟩

theorem strptime_text {d : Date} (h : d.Valid) (hy : 1 ≤ d.year) (hy' : d.year < 10000) : strptime (dateText d) = .ok d := by
  have e1 : (dateText d).take 4 = pad 4 d.year := CppReader.take_dateText d
  have e2 : ((dateText d).drop 4).take 2 = pad 2 d.month := by
    rw [dateText, List.append_assoc, List.drop_left' (pad_length _ _), List.take_left' (pad_length _ _)]
  have e3 : (dateText d).drop 6 = pad 2 d.day := by
    rw [dateText, List.drop_left' (by rw [List.length_append, pad_length, pad_length])]
  rw [strptime, e1, e2, e3, Eumopps.Persist.number_pad 4 _ (by omega), Eumopps.Persist.number_pad 2 _ (date_bounds h).1,
    Eumopps.Persist.number_pad 2 _ (date_bounds h).2]
  simp only
  rw [if_pos ⟨CppReader.dateText_length d, hy, h⟩]

/-- **C175**: the number of the day is that of the date before the extension, whatever stands before it. -/
theorem c175_day_number (before : List Char) {d : Date} (h : d.Valid) (hy : 1 ≤ d.year) (hy' : d.year < 10000) :
    extractDayNumber (before ++ dateText d ++ ".bin".toList) = .ok (CppReader.daysSince d) := by
  have hl : (before ++ dateText d ++ ".bin".toList).length = before.length + 12 := by
    rw [List.length_append, List.length_append, CppReader.dateText_length]
    rfl
  have hb : (before ++ dateText d).length = before.length + 8 := by rw [List.length_append, CppReader.dateText_length]
  rw [extractDayNumber, hl, if_neg (not_not.2 (List.drop_left' (by rw [hb]; omega))), List.take_left' (by rw [hb]; omega),
    List.drop_left' (by omega), strptime_text h hy hy']
  rfl

/-- **C175**: a name with another extension is refused. -/
theorem c175_extension (name : List Char) (h : ¬ ∃ before, name = before ++ ".bin".toList) :
    extractDayNumber name = .error .valueError := by
  rw [extractDayNumber, if_pos]
  intro e
  exact h ⟨name.take (name.length - 4), by rw [← e, List.take_append_drop]⟩

theorem time_daysSince {d : Date} (h : d.Valid) : CppReader.time (CppReader.daysSince d) = d := by
  rw [← CppReader.c106_constant 0]
  exact (CppReader.c106_inverse 0).2 d h

/-- **C175**: the number of the day which Python takes from the name is the one for which the C++ program makes the name. -/
theorem c175_name (base : List Char) (source : CppReader.Source) (observable : CppReader.Observable) {day : Int} (h : Named day) :
    extractDayNumber (observationPath base source observable day) = .ok day := by
  obtain ⟨d, h1, h2, h3, hd⟩ := h
  have e := c175_day_number (base ++ "/".toList ++ source.name ++ "/".toList ++ (dateText d).take 4 ++ "/".toList ++ source.name ++
    "_".toList ++ observable.name ++ "_".toList) h1 h2 h3
  rw [hd]
  simp only [observationPath, time_daysSince h1]
  exact e

/-! ### Files of days -/

/-- The file of a day, record by record. -/
theorem write_rows (bits : ℝ → UInt64) (uuid : Bytes) (g : Grid) (day : Int) (ht : 0 ≤ g.time)
    (mask : List Bool) (values errors : List ℝ) (h1 : mask.length = g.size) (h2 : values.length = g.size)
    (h3 : errors.length = g.size) (h4 : ∀ k < g.size, mask[k]? = some (! g.present k))
    (h5 : ∀ k < g.size, g.present k = true → values[k]? = some (g.measurement k) ∧ errors[k]? = some (g.uncertainty k)) :
    ∃ kept, Selected g day kept ∧
      writeDay uuid ⟨mask, .array [g.time], (List.range g.size).map UInt64.ofNat, values.map bits, errors.map bits, []⟩ day =
        .ok (dayFile uuid (kept.map fun k => [UInt64.ofNat k, bits (g.measurement k), bits (g.uncertainty k)])) := by
  set obs : RawBinary.Observations UInt64 := ⟨mask, .array (List.replicate g.size g.time), (List.range g.size).map UInt64.ofNat,
    values.map bits, errors.map bits, []⟩ with hobs
  have hsized : obs.Sized g.size := by
    refine ⟨h1, by simp [hobs], by simpa [hobs] using h2, by simpa [hobs] using h3, ?_⟩
    intro c hc
    rw [hobs] at hc
    simp at hc
  have htime : TimeSized obs.time g.size := by
    refine ⟨by simp, fun t h => ?_⟩
    rw [(List.mem_replicate.1 h).2]
    exact ht
  obtain ⟨kept, w2, _, w1⟩ := write_ok uuid obs g.size hsized htime day
  have hsel : Selected g day kept := by
    refine ⟨w2.1, fun k => ?_⟩
    rw [w2.2]
    constructor
    · rintro ⟨a, b⟩
      have hk : k < g.size := by
        have := (List.getElem?_eq_some_iff.1 a).1
        rw [← h1]
        exact this
      obtain ⟨t, b1, b2, b3⟩ := b
      rw [List.getElem?_replicate, if_pos hk, Option.some.injEq] at b1
      have a' : mask[k]? = some false := a
      rw [h4 k hk] at a'
      refine ⟨hk, by simpa using a', b1 ▸ b2, b1 ▸ b3⟩
    · rintro ⟨hk, hp, b1, b2⟩
      refine ⟨?_, g.time, by rw [List.getElem?_replicate, if_pos hk], b1, b2⟩
      show mask[k]? = some false
      rw [h4 k hk, hp]
      rfl
  refine ⟨kept, hsel, ?_⟩
  have hrows : (kept.map fun i => (obs.location :: obs.measurement :: obs.uncorrelated :: obs.correlated).map fun l => l.getD i 0) =
      kept.map fun k => [UInt64.ofNat k, bits (g.measurement k), bits (g.uncertainty k)] := by
    refine List.map_congr_left fun k hk => ?_
    obtain ⟨hk', hp, _⟩ := (hsel.2 k).1 hk
    obtain ⟨a, b⟩ := h5 k hk' hp
    show [((List.range g.size).map UInt64.ofNat).getD k 0, (values.map bits).getD k 0, (errors.map bits).getD k 0] = _
    rw [List.getD_eq_getElem?_getD, List.getD_eq_getElem?_getD, List.getD_eq_getElem?_getD, List.getElem?_map, List.getElem?_map,
      List.getElem?_map, List.getElem?_range hk', a, b]
    rfl
  rw [hrows] at w1
  rw [writeDay] at w1 ⊢
  simp only [← populate_time obs (.array [g.time])] at w1
  rw [show dayNumbers mask.length (.array [g.time]) = dayNumbers obs.mask.length obs.time by
    rw [dayNumbers_one, h1]]
  exact w1

/-- What `run` writes to the file of locations. -/
theorem lookup_table (bits : ℝ → UInt64) (uuid : Bytes) {sourcename : String} (hs : Surface sourcename)
    {file : List Cube} {c : Cube} (hc : Only file "tasmin" c) {r : Grid} (hr : At c r) :
    ∃ table, runLookup bits uuid file sourcename = .ok (writeLookup uuid table) ∧
      table.length = r.size ∧ ∀ k < r.size, table[k]? = some (bits (r.place k).1, bits (r.place k).2) := by
  obtain ⟨table, h1, h2, h3⟩ := locations_ok (s := ⟨"Tmin", "tasmin", "tasminuncertainty", file⟩) hc hr
  refine ⟨table.map fun p => (bits p.1, bits p.2), ?_, by rw [List.length_map, h2], fun k hk => ?_⟩
  · rw [runLookup, source_ok hs .minimum]
    simp only
    rw [h1]
  · rw [List.getElem?_map, h3 k hk]
    rfl

/-- What `run_day` writes if the places are those of the table. -/
theorem runDay_rows (bits : ℝ → UInt64) (value : UInt64 → ℝ) (uuid : Bytes) (hu : uuid.length = 16)
    {sourcename observable m u : String} (hs : Surface sourcename) (hq : Quantity observable m u) {file : List Cube} {r g : Grid}
    (table : List (UInt64 × UInt64)) (ht1 : table.length = r.size)
    (ht2 : ∀ k < r.size, table[k]? = some (bits (r.place k).1, bits (r.place k).2))
    (hv : ∀ k < r.size, value (bits (r.place k).1) = (r.place k).1 ∧ value (bits (r.place k).2) = (r.place k).2)
    (hg : Has file m u g) (hn : g.size ≤ 2 ^ 64) (ht : 0 ≤ g.time) (hp : SamePlaces r g) (day : Int) :
    ∃ kept, Selected g day kept ∧ runDay bits value (writeLookup uuid table) file day sourcename observable =
      .ok (dayFile uuid (kept.map fun k => [UInt64.ofNat k, bits (g.measurement k), bits (g.uncertainty k)])) := by
  obtain ⟨mask, values, errors, o1, o2, o3, o4, o5, o6⟩ := observations_ok (observable := observable) hg
  obtain ⟨c', hc', ha', _⟩ := hg.measured
  obtain ⟨mine, l1, l2, l3⟩ := locations_ok (s := ⟨observable, m, u, file⟩) hc' ha'
  have hagree : Agrees (table.map fun p => (value p.1, value p.2)) g := by
    refine ⟨hp.1, fun k hk => ⟨r.place k, ?_, (hp.2 k hk).2⟩⟩
    rw [List.getElem?_map, ht2 k (hp.2 k hk).1, Option.map_some, (hv k (hp.2 k hk).1).1, (hv k (hp.2 k hk).1).2]
  obtain ⟨s1, _⟩ := store_at bits uuid (table.map fun p => (value p.1, value p.2)) mine day g hn l2 l3
    ⟨mask, .array [g.time], (List.range g.size).map UInt64.ofNat, values, errors, []⟩ rfl
  obtain ⟨kept, w1, w2⟩ := write_rows bits uuid g day ht mask values errors o2 o3 o4 o5 o6
  refine ⟨kept, w1, ?_⟩
  rw [runDay, (c24_lookup uuid hu table).1]
  simp only
  rw [source_ok hs hq]
  simp only
  rw [o1]
  simp only
  rw [l1]
  simp only
  rw [s1 hagree]
  exact w2

/-! ### Pointers -/

theorem dayBits_signed {day : Int} (h : Named day) : (dayBits day).toInt64.toInt = day := by
  obtain ⟨d, h1, h2, h3, hd'⟩ := h
  rw [hd']
  clear hd'
  have hb : -719528 < CppReader.daysSince d ∧ CppReader.daysSince d < 4000000 := by
    have hy : ∀ y, daysBeforeYear y ≤ 366 * y := by
      intro y
      induction y with
      | zero => rfl
      | succ y ih =>
        rw [daysBeforeYear, daysInYear]
        split <;> omega
    have hm : daysBeforeMonth d.year d.month ≤ 372 := by
      have hm1 : ∀ m, daysInMonth d.year m ≤ 31 := by
        intro m
        unfold daysInMonth
        split <;> split <;> omega
      have : ∀ m, daysBeforeMonth d.year m ≤ 31 * m := by
        intro m
        induction m with
        | zero => simp [daysBeforeMonth]
        | succ m ih =>
          cases m with
          | zero => simp [daysBeforeMonth]
          | succ m =>
            rw [daysBeforeMonth]
            have := hm1 (m + 1)
            omega
      have := this d.month
      have := h1.2.1
      omega
    have hd : d.day ≤ 31 := by
      have := h1.2.2.2
      have h28 : daysInMonth d.year d.month ≤ 31 := by unfold daysInMonth; split <;> split <;> omega
      omega
    have := hy d.year
    have e := hy 1850
    have e' : ∀ y, Date.number ⟨y, 1, 1⟩ = daysBeforeYear y := fun _ => rfl
    rw [CppReader.daysSince, e', Date.number]
    generalize daysBeforeYear 1850 = z at *
    omega
  generalize CppReader.daysSince d = x at *
  rw [← CppReader.signed_eq, CppReader.signed, dayBits]
  have hx : ((x % 2 ^ 64).toNat : Int) = x % 2 ^ 64 := Int.toNat_of_nonneg (by omega)
  have hlt : (x % 2 ^ 64).toNat < 2 ^ 64 := by omega
  have hmod : (UInt64.ofNat (x % 2 ^ 64).toNat).toNat = (x % 2 ^ 64).toNat := by
    rw [UInt64.toNat_ofNat']
    exact Nat.mod_eq_of_lt hlt
  rw [hmod]
  split <;> omega

/-- The loop over the names is the loop over the days which they name. -/
theorem pointersLoop_eq (files : List Char → Option Bytes) (ranges : Nat) (uuid : Bytes) {α : Type} (l : List α) (name : α → List Char)
    (day : α → Int) (file : α → Bytes) (h1 : ∀ x ∈ l, extractDayNumber (name x) = .ok (day x))
    (h2 : ∀ x ∈ l, files (name x) = some (file x)) (pointers : List (List (UInt64 × UInt64))) :
    pointersLoop files ranges uuid (l.map name) pointers = appendDays ranges uuid (l.map fun x => (dayBits (day x), file x)) pointers := by
  induction l generalizing pointers with
  | nil => rfl
  | cons x l ih =>
    rw [List.map_cons, List.map_cons, pointersLoop, appendDays, h1 x List.mem_cons_self, h2 x List.mem_cons_self]
    simp only
    cases appendDay ranges uuid (file x) (dayBits (day x)) pointers with
    | error e => rfl
    | ok p => exact ih (fun y hy => h1 y (List.mem_cons_of_mem _ hy)) (fun y hy => h2 y (List.mem_cons_of_mem _ hy)) p

theorem ofNat_inj {a b : Nat} (ha : a < 2 ^ 64) (hb : b < 2 ^ 64) (h : UInt64.ofNat a = UInt64.ofNat b) : a = b := by
  have := congrArg UInt64.toNat h
  rwa [UInt64.toNat_ofNat', UInt64.toNat_ofNat', Nat.mod_eq_of_lt ha, Nat.mod_eq_of_lt hb] at this

/-- Of the records of a day, those of one cell. -/
theorem filter_kept (f : Nat → List UInt64) (hf : ∀ k, (f k).getD 0 0 = UInt64.ofNat k) (kept : List Nat)
    (hp : kept.Pairwise (· < ·)) (hk : ∀ i ∈ kept, i < 2 ^ 64) (k : Nat) (hk' : k < 2 ^ 64) :
    (kept.map f).filter (fun row => decide (row.getD 0 0 = UInt64.ofNat k)) = if k ∈ kept then [f k] else [] := by
  induction kept with
  | nil => rfl
  | cons i kept ih =>
    obtain ⟨h1, h2⟩ := List.pairwise_cons.1 hp
    have ih' := ih h2 fun j hj => hk j (List.mem_cons_of_mem _ hj)
    rw [List.map_cons, List.filter_cons, hf]
    by_cases e : i = k
    · subst e
      have : i ∉ kept := fun hm => Nat.lt_irrefl _ (h1 i hm)
      rw [if_pos (by simp), ih', if_neg this, if_pos List.mem_cons_self]
    · have hne : ¬ UInt64.ofNat i = UInt64.ofNat k := fun h => e (ofNat_inj (hk i List.mem_cons_self) hk' h)
      rw [if_neg (by simpa using hne), ih']
      have : k ∈ i :: kept ↔ k ∈ kept := by
        rw [List.mem_cons]
        constructor
        · rintro (h | h)
          · exact absurd h.symm e
          · exact h
        · exact .inr
      by_cases hm : k ∈ kept
      · rw [if_pos hm, if_pos (this.2 hm)]
      · rw [if_neg hm, if_neg fun h => hm (this.1 h)]

/-- The records of a day. -/
def records (bits : ℝ → UInt64) (d : DayOf) (kept : List Nat) : List (List UInt64) :=
  kept.map fun k => [UInt64.ofNat k, bits (d.grid.measurement k), bits (d.grid.uncertainty k)]

/-- What the programs write, record by record. -/
theorem made (bits : ℝ → UInt64) (value : UInt64 → ℝ) (uuid : Bytes) (hu : uuid.length = 16)
    {reference sourcename name m u : String} (hr : Surface reference) (hs : Surface sourcename) (hq : Quantity name m u)
    (source : CppReader.Source) (observable : CppReader.Observable)
    {first some' : List Cube} {c : Cube} (hc : Only first "tasmin" c) {r : Grid} (ha : At c r)
    (hv : ∀ k < r.size, value (bits (r.place k).1) = (r.place k).1 ∧ value (bits (r.place k).2) = (r.place k).2)
    (days : List DayOf) (hnamed : ∀ d ∈ days, Named d.day) (hg : ∀ d ∈ days, Has d.file m u d.grid)
    (hplaces : ∀ d ∈ days, SamePlaces r d.grid) (hsize : r.size ≤ 2 ^ 64) (htime : ∀ d ∈ days, 0 ≤ d.grid.time)
    (files : List Char → Option Bytes) (base : List Char) (lookup ranges : Bytes)
    (f1 : runLookup bits uuid first reference = .ok lookup ∧ files (lookupPath base "satellite".toList) = some lookup)
    (f2 : runRanges bits some' sourcename name = .ok ranges ∧ files (rangesPath base source observable) = some ranges)
    (f3 : ∀ d ∈ days, ∀ output, runDay bits value lookup d.file d.day sourcename name = .ok output →
      files (observationPath base source observable d.day) = some output) :
    ∃ (table : List (UInt64 × UInt64)) (kept : DayOf → List Nat) (pointers : List (List (UInt64 × UInt64))), lookup = writeLookup uuid table ∧ table.length = r.size ∧
      (∀ k < r.size, table[k]? = some (bits (r.place k).1, bits (r.place k).2)) ∧ ranges = writeRanges [] ∧
      (∀ d ∈ days, Selected d.grid d.day (kept d) ∧ (∀ k ∈ kept d, k < r.size) ∧
        runDay bits value lookup d.file d.day sourcename name = .ok (dayFile uuid (records bits d (kept d)))) ∧
      appendDays 0 uuid ((days.map fun d => (dayBits d.day, records bits d (kept d))).map fun d => (d.1, dayFile uuid d.2))
        (List.replicate table.length []) = .ok pointers ∧ pointers.length = r.size ∧
      (∀ j, pointers.getD j [] = pointersOf 24 j (days.map fun d => (dayBits d.day, records bits d (kept d)))) ∧
      (∀ d ∈ days.map fun d => (dayBits d.day, records bits d (kept d)), ∀ x ∈ d.2, x.length = 3 + ([] : List UInt64).length) ∧
      (∀ d ∈ days.map fun d => (dayBits d.day, records bits d (kept d)), ∀ x ∈ d.2, (x.getD 0 0).toNat < table.length) ∧
      runPointers files (lookupPath base "satellite".toList) (rangesPath base source observable)
        (days.map fun d => observationPath base source observable d.day) = .ok (writePointers uuid pointers) := by
  obtain ⟨table, g1, g2, g3⟩ := lookup_table bits uuid hr hc ha
  obtain ⟨f1, f1'⟩ := f1
  have hl : lookup = writeLookup uuid table := Except.ok.inj (f1.symm.trans g1)
  subst hl
  obtain ⟨f2, f2'⟩ := f2
  have hranges : ranges = writeRanges [] := by
    refine Except.ok.inj (f2.symm.trans ?_)
    rw [runRanges, source_ok hs hq]
    simp only
    rw [Source.ranges, if_neg (not_not.2 rfl)]
    rfl
  subst hranges
  have hsmall : ∀ d ∈ days, d.grid.size ≤ 2 ^ 64 := by
    intro d hd
    by_contra h
    have := ((hplaces d hd).2 (2 ^ 64) (by omega)).1
    omega
  have hex : ∀ d, ∃ kept, d ∈ days → Selected d.grid d.day kept ∧
      runDay bits value (writeLookup uuid table) d.file d.day sourcename name =
        .ok (dayFile uuid (records bits d kept)) := by
    intro d
    by_cases hd : d ∈ days
    · obtain ⟨kept, a, b⟩ := runDay_rows bits value uuid hu hs hq table g2 g3 hv (hg d hd) (hsmall d hd) (htime d hd) (hplaces d hd) d.day
      exact ⟨kept, fun _ => ⟨a, b⟩⟩
    · exact ⟨[], fun h => absurd h hd⟩
  choose kept hkept using hex
  have hfiles : ∀ d ∈ days, files (observationPath base source observable d.day) = some (dayFile uuid (records bits d (kept d))) := fun d hd => f3 d hd _ (hkept d hd).2
  have hin : ∀ d ∈ days, ∀ k ∈ kept d, k < r.size := fun d hd k hk =>
    ((hplaces d hd).2 k (((hkept d hd).1.2 k).1 hk).1).1
  have hlen : ∀ d ∈ days.map fun d => (dayBits d.day, records bits d (kept d)), ∀ x ∈ d.2, x.length = 3 + ([] : List UInt64).length := by
    intro d hd x hx
    obtain ⟨d', _, rfl⟩ := List.mem_map.1 hd
    obtain ⟨k, _, rfl⟩ := List.mem_map.1 hx
    rfl
  have hids : ∀ d ∈ days.map fun d => (dayBits d.day, records bits d (kept d)), ∀ x ∈ d.2, (x.getD 0 0).toNat < table.length := by
    intro d hd x hx
    obtain ⟨d', hd', rfl⟩ := List.mem_map.1 hd
    obtain ⟨k, hk, rfl⟩ := List.mem_map.1 hx
    rw [g2]
    show (UInt64.ofNat k).toNat < r.size
    rw [UInt64.toNat_ofNat']
    exact lt_of_le_of_lt (Nat.mod_le _ _) (hin d' hd' k hk)
  obtain ⟨pointers, p1, p2, p3⟩ := c25_collect 0 uuid hu table.length (days.map fun d => (dayBits d.day, records bits d (kept d))) hlen hids
  have hrun : runPointers files (lookupPath base "satellite".toList) (rangesPath base source observable)
      (days.map fun d => observationPath base source observable d.day) = .ok (writePointers uuid pointers) := by
    rw [runPointers, f1']
    simp only
    rw [(c24_lookup uuid hu table).2]
    simp only
    rw [f2']
    simp only
    rw [c24_ranges]
    simp only
    rw [pointersLoop_eq files _ uuid days _ (fun d => d.day) (fun d => dayFile uuid (records bits d (kept d)))
      (fun d hd => c175_name base source observable (hnamed d hd)) hfiles]
    rw [List.map_map] at p1
    have p1' : appendDays ([] : List UInt64).length uuid (days.map fun d => (dayBits d.day, dayFile uuid (records bits d (kept d))))
        (List.replicate table.length []) = .ok pointers := p1
    rw [p1']
  exact ⟨table, kept, pointers, rfl, g2, g3, rfl, fun d hd => ⟨(hkept d hd).1, hin d hd, (hkept d hd).2⟩, p1, by rw [p2, g2], p3, hlen, hids,
    hrun⟩

/-- **C175**, for any number of days, in any order, and any grid: from the files which the three programs make, the file of pointers
can be made, and by it the C++ program finds, for each cell asked for, exactly its measurements and their uncertainties on the days
on which it has one, in the order of the files, each with the number of its day. -/
theorem c175_series (bits : ℝ → UInt64) (value : UInt64 → ℝ) (uuid : Bytes) (hu : uuid.length = 16)
    {reference sourcename name m u : String} (hr : Surface reference) (hs : Surface sourcename) (hq : Quantity name m u)
    {source : CppReader.Source} {observable : CppReader.Observable} (hsource : source.name = sourcename.toList)
    {first some' : List Cube} {c : Cube} (hc : Only first "tasmin" c) {r : Grid} (ha : At c r)
    (hv : ∀ k < r.size, value (bits (r.place k).1) = (r.place k).1 ∧ value (bits (r.place k).2) = (r.place k).2)
    (days : List DayOf) (hnamed : ∀ d ∈ days, Named d.day) (hg : ∀ d ∈ days, Has d.file m u d.grid)
    (hplaces : ∀ d ∈ days, SamePlaces r d.grid) (hsize : r.size ≤ 2 ^ 64) (htime : ∀ d ∈ days, 0 ≤ d.grid.time)
    (w : World) (hw : w.Sized) (base : List Char) (lookup ranges : Bytes)
    (f1 : runLookup bits uuid first reference = .ok lookup ∧ w.files (lookupPath base "satellite".toList) = some lookup)
    (f2 : runRanges bits some' sourcename name = .ok ranges ∧ w.files (rangesPath base source observable) = some ranges)
    (f3 : ∀ d ∈ days, ∀ output, runDay bits value lookup d.file d.day sourcename name = .ok output →
      w.files (observationPath base source observable d.day) = some output ∧ output.length < 2 ^ 64)
    (f4 : ∀ p, runPointers w.files (lookupPath base "satellite".toList) (rangesPath base source observable)
        (days.map fun d => observationPath base source observable d.day) = .ok p →
      w.files (pointersPath base source observable) = some p ∧ p.length < 2 ^ 64)
    (cells : List Nat) (hcells : ∀ k ∈ cells, k < r.size) :
    (∃ p, runPointers w.files (lookupPath base "satellite".toList) (rangesPath base source observable)
      (days.map fun d => observationPath base source observable d.day) = .ok p) ∧
    ∃ rs m', retrieveLocations w (CppReader.fresh base) source observable (cells.map UInt64.ofNat) = .ok (rs, m') ∧
      (∀ x ∈ rs, x.ranges = [] ∧ x.lookup.table.length = r.size ∧
        ∀ k < r.size, x.lookup.table[k]? = some (bits (r.place k).1, bits (r.place k).2)) ∧
      rs.map (fun x => itemsOf x.observations) =
        cells.map fun k => days.filterMap (observed bits k) := by
  have hst : source.static = some "satellite".toList := by
    cases hs <;> cases source <;> first | rfl | exact absurd hsource (by decide)
  obtain ⟨table, kept, pointers, hlookup, g2, g3, hranges, hkept, p1, _, p3, hlen, hids, hrun⟩ :=
    made bits value uuid hu hr hs hq source observable hc ha hv days hnamed hg hplaces hsize htime w.files base lookup ranges f1 f2
      fun d hd output h => (f3 d hd output h).1
  subst hlookup
  subst hranges
  have hfiles : ∀ d ∈ days, w.files (observationPath base source observable d.day) = some (dayFile uuid (records bits d (kept d))) ∧
      (dayFile uuid (records bits d (kept d))).length < 2 ^ 64 := fun d hd => f3 d hd _ (hkept d hd).2.2
  refine ⟨⟨_, hrun⟩, ?_⟩
  obtain ⟨q1, q2⟩ := f4 _ hrun
  obtain ⟨rs, m', e1, _, e3, e4⟩ := CppReader.c105_series w hw (CppReader.fresh base) (CppReader.fresh_faithful w base) source observable
    _ hst [] uuid uuid hu hu table (days.map fun d => (dayBits d.day, records bits d (kept d))) hlen hids pointers p1 f2.2 f1.2 q1
    (by
      intro d hd
      obtain ⟨d', hd', rfl⟩ := List.mem_map.1 hd
      show w.files (observationPath base source observable (dayBits d'.day).toInt64.toInt) = _
      rw [dayBits_signed (hnamed d' hd')]
      exact (hfiles d' hd').1) q2
    (by
      intro d hd
      obtain ⟨d', hd', rfl⟩ := List.mem_map.1 hd
      exact (hfiles d' hd').2)
    (cells.map UInt64.ofNat)
    (by
      intro id hid
      obtain ⟨k, hk, rfl⟩ := List.mem_map.1 hid
      rw [g2, UInt64.toNat_ofNat']
      exact lt_of_le_of_lt (Nat.mod_le _ _) (hcells k hk))
  refine ⟨rs, m', e1, fun x hx => ?_, ?_⟩
  · obtain ⟨a, b⟩ := e3 x hx
    rw [b]
    exact ⟨a, g2, g3⟩
  · rw [e4, List.map_map]
    refine List.map_congr_left fun k hk => ?_
    rw [Function.comp_apply, seriesOf, List.flatMap_map]
    clear e4 e3 e1 q1 q2 hrun p1 p3 hlen hids f3 f4 hfiles
    have hk' := hcells k hk
    induction days with
    | nil => rfl
    | cons d days ih =>
      have ih' := ih (fun d hd => hnamed d (List.mem_cons_of_mem _ hd)) (fun d hd => hg d (List.mem_cons_of_mem _ hd))
        (fun d hd => hplaces d (List.mem_cons_of_mem _ hd)) (fun d hd => htime d (List.mem_cons_of_mem _ hd))
        (fun d hd => hkept d (List.mem_cons_of_mem _ hd))
      rw [List.flatMap_cons, ih']
      have hsel := (hkept d List.mem_cons_self).1
      have hf := filter_kept (fun k => [UInt64.ofNat k, bits (d.grid.measurement k), bits (d.grid.uncertainty k)]) (fun _ => rfl)
        (kept d) hsel.1 (fun i hi => lt_of_lt_of_le ((hkept d List.mem_cons_self).2.1 i hi) hsize) k (lt_of_lt_of_le hk' hsize)
      show List.map _ (List.filter (fun row : List UInt64 => decide (row.getD 0 0 = UInt64.ofNat k)) ((kept d).map _)) ++ _ = _
      rw [hf]
      have hobs := hsel.2 k
      by_cases hm : k ∈ kept d
      · rw [if_pos hm, List.filterMap_cons, observed, if_pos (hobs.1 hm)]
        rfl
      · rw [if_neg hm, List.filterMap_cons, observed, if_neg fun h => hm (hobs.2 h)]
        rfl

/-! ### Non-vacuity -/

theorem recordOffsets_length (start : Nat) (l : List Nat) : (recordOffsets start l).length = l.length := by
  induction l generalizing start with
  | nil => rfl
  | cons c l ih => rw [recordOffsets, List.length_cons, ih, List.length_cons]

theorem pointers_length (uuid : Bytes) (hu : uuid.length = 16) (pointers : List (List (UInt64 × UInt64))) (n : Nat)
    (h : ∀ l ∈ pointers, l.length ≤ n) : (writePointers uuid pointers).length ≤ 56 + 16 * pointers.length + 16 * n * pointers.length := by
  have h2 : ∀ ps : List (List (UInt64 × UInt64)), (∀ l ∈ ps, l.length ≤ n) →
      (ps.flatMap fun l => tofile (l.map fun p => [p.1, p.2])).length ≤ 16 * n * ps.length := by
    intro ps
    induction ps with
    | nil => intro _; exact Nat.zero_le _
    | cons l ps ih =>
      intro h
      have h1 := h l List.mem_cons_self
      have h2 := ih fun x hx => h x (List.mem_cons_of_mem _ hx)
      rw [List.flatMap_cons, List.length_append, tofile_length _ 2 (by intro r hr; obtain ⟨p, _, rfl⟩ := List.mem_map.1 hr; rfl),
        List.length_map, List.length_cons, Nat.mul_add]
      omega
  have h3 := h2 pointers h
  have hf : formatPointers.length = 16 := by decide
  have hc : codeId.length = 16 := by decide
  rw [writePointers]
  split
  · rw [List.length_append, List.length_append, List.length_append, List.length_append, List.length_append, word_length, hu, hf, hc,
      tofile_length _ 2 (by
        intro r hr
        obtain ⟨i, hi, rfl⟩ := List.mem_iff_getElem.1 hr
        rw [List.getElem_zipWith]
        rfl), List.length_zipWith, recordOffsets_length, List.length_map, Nat.min_self]
    omega
  · rw [List.length_append, List.length_append, List.length_append, List.length_append, word_length, hu, hf, hc, List.length_nil]
    omega

theorem offsets_length (size location start : Nat) (rows : List (List UInt64)) :
    (offsetsOf size location start rows).length ≤ rows.length := by
  induction rows generalizing start with
  | nil => exact Nat.le_refl _
  | cons r rows ih =>
    rw [offsetsOf]
    have := ih (start + 1)
    split <;> simp only [List.length_cons] <;> omega

theorem pointersLoop_congr {files files' : List Char → Option Bytes} (ranges : Nat) (uuid : Bytes) (names : List (List Char))
    (h : ∀ n ∈ names, files n = files' n) (pointers : List (List (UInt64 × UInt64))) :
    pointersLoop files ranges uuid names pointers = pointersLoop files' ranges uuid names pointers := by
  induction names generalizing pointers with
  | nil => rfl
  | cons n names ih =>
    simp only [pointersLoop, h n List.mem_cons_self, ih fun x hx => h x (List.mem_cons_of_mem _ hx)]

theorem runPointers_congr {files files' : List Char → Option Bytes} (lookup ranges : List Char) (names : List (List Char))
    (h : ∀ n ∈ lookup :: ranges :: names, files n = files' n) :
    runPointers files lookup ranges names = runPointers files' lookup ranges names := by
  simp only [runPointers, h lookup (by simp), h ranges (by simp),
    pointersLoop_congr _ _ names fun n hn => h n (List.mem_cons_of_mem _ (List.mem_cons_of_mem _ hn))]

/-- A day of `exampleFile`. -/
noncomputable def exampleDay : DayOf := ⟨57000, exampleFile, exampleGrid⟩

theorem example_named : Named 57000 := ⟨⟨2006, 1, 23⟩, by decide, by decide, by decide, by decide +kernel⟩

theorem example_path : observationPath [] .satelliteIce .tmin 57000 = "/surfaceairmodel_ice/2006/surfaceairmodel_ice_Tmin_20060123.bin".toList := by
  decide +kernel

/-- Non-vacuity: the files made of `exampleFile` meet the hypotheses of `c175_series`, and so the first cell has its measurement and
the second none. -/
example : ∃ (w : World) (rs : _) (m' : _), retrieveLocations w (CppReader.fresh []) .satelliteIce .tmin ([0, 1].map UInt64.ofNat) = .ok (rs, m') ∧
    rs.map (fun x => itemsOf x.observations) = [[⟨dayBits 57000, exampleBits 280, exampleBits 1, []⟩], []] := by
  obtain ⟨c, hc, ha⟩ := example_minimum
  have hp : SamePlaces exampleGrid exampleGrid :=
    c174_one_table (by norm_num [Grid.size, exampleGrid]) rfl rfl (fun _ _ => rfl) fun _ _ => rfl
  have hu : (List.replicate 16 (0 : UInt8)).length = 16 := by simp
  obtain ⟨table, l1, l2, l3⟩ := lookup_table exampleBits (List.replicate 16 0) .ice hc ha
  have hsize : exampleGrid.size = 6 := rfl
  obtain ⟨kept, k1, k2⟩ := runDay_rows exampleBits exampleValue (List.replicate 16 0) hu .ice .minimum table l2 l3 example_places example_has
    (by rw [hsize]; norm_num) (by norm_num [exampleGrid]) hp 57000
  set output := dayFile (List.replicate 16 0)
    (kept.map fun k => [UInt64.ofNat k, exampleBits (exampleGrid.measurement k), exampleBits (exampleGrid.uncertainty k)]) with houtput
  have hr : runRanges exampleBits [] "surfaceairmodel_ice" "Tmin" = .ok (writeRanges []) := rfl
  set L := lookupPath [] "satellite".toList with hL
  set R := rangesPath [] .satelliteIce .tmin with hR
  set O := observationPath [] .satelliteIce .tmin 57000 with hO
  set P := pointersPath [] .satelliteIce .tmin with hP
  have n1 : R ≠ L := by decide
  have n2 : O ≠ L := by rw [hO, example_path]; decide
  have n3 : O ≠ R := by rw [hO, example_path]; decide
  have n4 : P ≠ L := by decide
  have n5 : P ≠ R := by decide
  have n6 : P ≠ O := by rw [hO, example_path]; decide
  set files : List Char → Option Bytes := fun x =>
    if x = L then some (writeLookup (List.replicate 16 0) table) else if x = R then some (writeRanges []) else
    if x = O then some output else none with hfiles
  have v1 : files L = some (writeLookup (List.replicate 16 0) table) := if_pos rfl
  have v2 : files R = some (writeRanges []) := (if_neg n1).trans (if_pos rfl)
  have v3 : files O = some output := (if_neg n2).trans ((if_neg n3).trans (if_pos rfl))
  have hdays : ∀ d ∈ [exampleDay], ∀ out, runDay exampleBits exampleValue (writeLookup (List.replicate 16 0) table) d.file d.day
      "surfaceairmodel_ice" "Tmin" = .ok out → out = output ∧ d.day = 57000 := by
    intro d hd out h
    obtain rfl := List.mem_singleton.1 hd
    exact ⟨Except.ok.inj (h.symm.trans k2), rfl⟩
  obtain ⟨table', kept', pointers, a1, a2, _, _, a5, _, a7, a8, _, _, a11⟩ := made exampleBits exampleValue (List.replicate 16 0) hu .ice .ice
    .minimum .satelliteIce .tmin (first := exampleFile) (some' := []) hc ha example_places [exampleDay]
    (by intro d hd; obtain rfl := List.mem_singleton.1 hd; exact example_named)
    (by intro d hd; obtain rfl := List.mem_singleton.1 hd; exact example_has)
    (by intro d hd; obtain rfl := List.mem_singleton.1 hd; exact hp) (by rw [hsize]; norm_num)
    (by intro d hd; obtain rfl := List.mem_singleton.1 hd; norm_num [exampleGrid, exampleDay]) files [] _ _ ⟨l1, v1⟩ ⟨hr, v2⟩
    (fun d hd out h => by rw [(hdays d hd out h).2, (hdays d hd out h).1]; exact v3)
  have small : ∀ l : List Nat, l.Pairwise (· < ·) → (∀ k ∈ l, k < 6) → l.length ≤ 6 := by
    intro l h1 h2
    have hn : l.Nodup := h1.imp fun h => by omega
    have := (hn.subperm (l₂ := List.range 6) fun k hk => List.mem_range.2 (h2 k hk)).length_le
    simpa using this
  have hout : output.length < 2 ^ 64 := by
    have hk := small kept k1.1 fun k hk => ((k1.2 k).1 hk).1
    rw [houtput, dayFile, List.length_append, List.length_append, List.length_append, hu,
      tofile_length _ 3 (by intro x hx; obtain ⟨k, _, rfl⟩ := List.mem_map.1 hx; rfl), List.length_map,
      show formatObservation.length = 16 by decide, show codeId.length = 16 by decide]
    omega
  have hpl : (writePointers (List.replicate 16 0) pointers).length < 2 ^ 64 := by
    have h6 : ∀ l ∈ pointers, l.length ≤ 6 := by
      intro l hl
      obtain ⟨j, hj, rfl⟩ := List.mem_iff_getElem.1 hl
      have e := a8 j
      rw [List.getD_eq_getElem?_getD, List.getElem?_eq_getElem hj, Option.getD_some] at e
      rw [e, pointersOf, List.map_cons, List.map_nil, List.flatMap_cons, List.flatMap_nil, List.append_nil, List.length_map]
      refine (offsets_length _ _ _ _).trans ?_
      rw [records, List.length_map]
      have h5 := a5 exampleDay List.mem_cons_self
      exact small _ h5.1.1 h5.2.1
    have := pointers_length (List.replicate 16 0) hu pointers 6 h6
    rw [a7, hsize] at this
    omega
  set w : World := ⟨fun x => if x = P then some (writePointers (List.replicate 16 0) pointers) else files x, fun _ => List.replicate 16 0⟩ with hw
  have hpw : w.files P = some (writePointers (List.replicate 16 0) pointers) := by
    simp only [hw, if_true]
  have hsame : ∀ x, x ≠ P → w.files x = files x := fun x hx => if_neg hx
  have hrun : runPointers w.files L R [O] = .ok (writePointers (List.replicate 16 0) pointers) := by
    rw [runPointers_congr (files' := files)]
    · exact a11
    · intro n hn
      simp only [List.mem_cons, List.not_mem_nil, or_false] at hn
      rcases hn with rfl | rfl | rfl
      · exact hsame _ (Ne.symm n4)
      · exact hsame _ (Ne.symm n5)
      · exact hsame _ (Ne.symm n6)
  obtain ⟨_, rs, m', r1, _, r3⟩ := c175_series exampleBits exampleValue (List.replicate 16 0) hu .ice .ice .minimum (source := .satelliteIce)
    (observable := .tmin) rfl (first := exampleFile) (some' := []) hc ha example_places [exampleDay]
    (by intro d hd; obtain rfl := List.mem_singleton.1 hd; exact example_named)
    (by intro d hd; obtain rfl := List.mem_singleton.1 hd; exact example_has)
    (by intro d hd; obtain rfl := List.mem_singleton.1 hd; exact hp) (by rw [hsize]; norm_num)
    (by intro d hd; obtain rfl := List.mem_singleton.1 hd; norm_num [exampleGrid, exampleDay]) w (fun _ => hu) [] _ _
    ⟨l1, (hsame _ (Ne.symm n4)).trans v1⟩ ⟨hr, (hsame _ (Ne.symm n5)).trans v2⟩
    (fun d hd out h => by
      rw [(hdays d hd out h).2, (hdays d hd out h).1]
      exact ⟨(hsame _ (Ne.symm n6)).trans v3, hout⟩)
    (fun p h => by
      have e : p = writePointers (List.replicate 16 0) pointers := Except.ok.inj (h.symm.trans hrun)
      rw [e]
      exact ⟨hpw, hpl⟩) [0, 1] (by intro k hk; rw [hsize]; simp at hk; omega)
  refine ⟨w, rs, m', r1, ?_⟩
  rw [r3]
  simp only [List.map_cons, List.map_nil, List.filterMap_cons, List.filterMap_nil, observed, exampleDay]
  rw [if_pos (by norm_num [exampleGrid, Grid.size]), if_neg (by norm_num [exampleGrid, Grid.size])]
  simp [exampleGrid]

end Verif.Eustace.Prepare
