import Verif.Eustace.RawBinary.Lemmas

/-!
C25: the file of location pointers addresses exactly the observations of a location.
-/

namespace Verif.Eustace.RawBinary

open Verif

/-! ### Specification -/

/-- A day file as `write_day` makes it. -/
def dayFile (uuid : Bytes) (rows : List (List UInt64)) : Bytes := formatObservation ++ codeId ++ uuid ++ tofile rows

/-- For one day: the positions of the records of a location, in order, as offsets in bytes of what follows the location
identifier. -/
def offsetsOf (size : Nat) (location : Nat) : Nat → List (List UInt64) → List Nat
  | _, [] => []
  | index, row :: rest =>
    if (row.getD 0 0).toNat = location then (48 + size * index + 8) :: offsetsOf size location (index + 1) rest
    else offsetsOf size location (index + 1) rest

/-- The pointers of a location: days in the order given. -/
def pointersOf (size : Nat) (location : Nat) (days : List (UInt64 × List (List UInt64))) : List (UInt64 × UInt64) :=
  days.flatMap fun d => (offsetsOf size location 0 d.2).map fun offset => (d.1, UInt64.ofNat offset)

/-- What the reader is meant to do (locationpointers.py 121-142) after the header: find the entry of the table, go to the
offset, read the pointers. -/
def lookupPointers (file : Bytes) (location : Nat) : List (UInt64 × UInt64) :=
  match fieldsOf 2 (file.drop (56 + 16 * location)) with
  | [offset, count] => (rowsOf count.toNat 2 (file.drop offset.toNat)).map fun r => (r.getD 0 0, r.getD 1 0)
  | _ => []

/-! ### Collecting -/

theorem appendPointer_ok (pointers : List (List (UInt64 × UInt64))) (i : Nat) (p : UInt64 × UInt64) (h : i < pointers.length) :
    ∃ pointers', appendPointer pointers i p = .ok pointers' ∧ pointers'.length = pointers.length ∧
      ∀ j, pointers'.getD j [] = if j = i then pointers.getD j [] ++ [p] else pointers.getD j [] := by
  induction pointers generalizing i with
  | nil => simp at h
  | cons l rest ih =>
    cases i with
    | zero =>
      refine ⟨_, rfl, by simp, ?_⟩
      intro j
      cases j with
      | zero => simp
      | succ j => simp
    | succ i =>
      obtain ⟨rest', h1, h2, h3⟩ := ih i (by simpa using h)
      refine ⟨l :: rest', by rw [appendPointer, h1], by simp [h2], ?_⟩
      intro j
      cases j with
      | zero => simp
      | succ j =>
        have := h3 j
        simp only [List.getD_cons_succ, this, Nat.add_right_cancel_iff]

theorem appendPointer_error (pointers : List (List (UInt64 × UInt64))) (i : Nat) (p : UInt64 × UInt64)
    (h : pointers.length ≤ i) : appendPointer pointers i p = .error .indexError := by
  induction pointers generalizing i with
  | nil => rfl
  | cons l rest ih =>
    cases i with
    | zero => simp at h
    | succ i => rw [appendPointer, ih i (by simpa using h)]

theorem appendDayFrom_ok (size : Nat) (day : UInt64) (rows : List (List UInt64)) (index : Nat)
    (pointers : List (List (UInt64 × UInt64))) (h : ∀ r ∈ rows, (r.getD 0 0).toNat < pointers.length) :
    ∃ pointers', appendDayFrom size day index (column 0 rows) pointers = .ok pointers' ∧
      pointers'.length = pointers.length ∧
      ∀ j, pointers'.getD j [] =
        pointers.getD j [] ++ (offsetsOf size j index rows).map fun offset => (day, UInt64.ofNat offset) := by
  induction rows generalizing index pointers with
  | nil => exact ⟨pointers, rfl, rfl, fun j => by simp [offsetsOf]⟩
  | cons r rows ih =>
    obtain ⟨p1, h1, h2, h3⟩ := appendPointer_ok pointers (r.getD 0 0).toNat (day, UInt64.ofNat (56 + size * index))
      (h r List.mem_cons_self)
    obtain ⟨p2, h4, h5, h6⟩ := ih (index + 1) p1 fun r' hr => by rw [h2]; exact h r' (List.mem_cons_of_mem _ hr)
    refine ⟨p2, ?_, h5.trans h2, ?_⟩
    · rw [column, List.map_cons, appendDayFrom, h1]
      exact h4
    · intro j
      rw [h6, h3, offsetsOf]
      by_cases hj : j = (r.getD 0 0).toNat
      · rw [if_pos hj, if_pos hj.symm, List.append_assoc]
        congr 2
        rw [List.map_cons]
        have : 56 + size * index = 48 + size * index + 8 := by omega
        rw [this]
        rfl
      · rw [if_neg hj, if_neg (Ne.symm hj)]

/-- The loop over the files of days (preparelocationpointers.py 33-42), given the numbers of the days. -/
def appendDays (ranges : Nat) (uuid : Bytes) : List (UInt64 × Bytes) → List (List (UInt64 × UInt64)) →
    Except PyErr (List (List (UInt64 × UInt64)))
  | [], pointers => .ok pointers
  | (day, file) :: rest, pointers =>
    match appendDay ranges uuid file day pointers with
    | .error e => .error e
    | .ok pointers' => appendDays ranges uuid rest pointers'

theorem appendDay_eq (ranges : Nat) (uuid : Bytes) (hu : uuid.length = 16) (day : UInt64) (rows : List (List UInt64))
    (hr : ∀ r ∈ rows, r.length = 3 + ranges) (pointers : List (List (UInt64 × UInt64))) :
    appendDay ranges uuid (dayFile uuid rows) day pointers =
      appendDayFrom (8 * (3 + ranges)) day 0 (column 0 rows) pointers := by
  rw [appendDay, readLocationIds, readContents, dayFile, readLocationHeader_append _ format_length.1 _ hu]
  dsimp only
  rw [fromfile_tofile' _ _ (by omega) hr]

/-- **C25**, collecting, for any number of day files and locations: each location gets exactly the offsets of its own
observations, days in order and records in order. -/
theorem c25_collect (ranges : Nat) (uuid : Bytes) (hu : uuid.length = 16) (count : Nat)
    (days : List (UInt64 × List (List UInt64))) (hr : ∀ d ∈ days, ∀ r ∈ d.2, r.length = 3 + ranges)
    (hl : ∀ d ∈ days, ∀ r ∈ d.2, (r.getD 0 0).toNat < count) :
    ∃ pointers, appendDays ranges uuid (days.map fun d => (d.1, dayFile uuid d.2)) (List.replicate count []) = .ok pointers ∧
      pointers.length = count ∧ ∀ j, pointers.getD j [] = pointersOf (8 * (3 + ranges)) j days := by
  have gen : ∀ start : List (List (UInt64 × UInt64)), start.length = count →
      ∃ pointers, appendDays ranges uuid (days.map fun d => (d.1, dayFile uuid d.2)) start = .ok pointers ∧
        pointers.length = count ∧ ∀ j, pointers.getD j [] = start.getD j [] ++ pointersOf (8 * (3 + ranges)) j days := by
    induction days with
    | nil => exact fun start hs => ⟨start, rfl, hs, fun j => by simp [pointersOf]⟩
    | cons d days ih =>
      intro start hs
      obtain ⟨p1, h1, h2, h3⟩ := appendDayFrom_ok (8 * (3 + ranges)) d.1 d.2 0 start fun r hrr => by
        rw [hs]; exact hl d List.mem_cons_self r hrr
      obtain ⟨p2, h4, h5, h6⟩ := ih (fun d' hd => hr d' (List.mem_cons_of_mem _ hd))
        (fun d' hd => hl d' (List.mem_cons_of_mem _ hd)) p1 (h2.trans hs)
      refine ⟨p2, ?_, h5, ?_⟩
      · rw [List.map_cons, appendDays, appendDay_eq ranges uuid hu d.1 d.2 (hr d List.mem_cons_self), h1]
        exact h4
      · intro j
        rw [h6, h3, List.append_assoc]
        rfl
  obtain ⟨pointers, h1, h2, h3⟩ := gen (List.replicate count []) (by simp)
  refine ⟨pointers, h1, h2, fun j => ?_⟩
  rw [h3]
  have : (List.replicate count ([] : List (UInt64 × UInt64))).getD j [] = [] := by
    rw [List.getD_eq_getElem?_getD, List.getElem?_replicate]
    split <;> rfl
  rw [this, List.nil_append]

/-- **C25**: a location which is not in the table is refused. -/
theorem c25_unknown_location (ranges : Nat) (uuid : Bytes) (hu : uuid.length = 16) (day : UInt64) (row : List UInt64)
    (hr : row.length = 3 + ranges) (pointers : List (List (UInt64 × UInt64)))
    (h : pointers.length ≤ (row.getD 0 0).toNat) :
    appendDay ranges uuid (dayFile uuid [row]) day pointers = .error .indexError := by
  rw [appendDay_eq ranges uuid hu day [row] (by simpa using hr), column, List.map_cons, appendDayFrom,
    appendPointer_error _ _ _ h]

/-- **C25**: the offsets of a location are those of its records: `offset` is listed if and only if it is eight bytes after the
beginning of a record of the location. -/
theorem c25_offsets (size location : Nat) (rows : List (List UInt64)) (offset : Nat) :
    offset ∈ offsetsOf size location 0 rows ↔
      ∃ i row, rows[i]? = some row ∧ (row.getD 0 0).toNat = location ∧ offset = 48 + size * i + 8 := by
  have gen : ∀ start, offset ∈ offsetsOf size location start rows ↔
      ∃ i row, rows[i]? = some row ∧ (row.getD 0 0).toNat = location ∧ offset = 48 + size * (start + i) + 8 := by
    induction rows with
    | nil => intro start; simp [offsetsOf]
    | cons r rows ih =>
      intro start
      have hcons : offset ∈ offsetsOf size location start (r :: rows) ↔
          ((r.getD 0 0).toNat = location ∧ offset = 48 + size * start + 8) ∨
            offset ∈ offsetsOf size location (start + 1) rows := by
        rw [offsetsOf]
        split
        · rename_i h
          rw [List.mem_cons]
          constructor
          · rintro (h1 | h1)
            · exact .inl ⟨h, h1⟩
            · exact .inr h1
          · rintro (h1 | h1)
            · exact .inl h1.2
            · exact .inr h1
        · rename_i h
          constructor
          · exact .inr
          · rintro (h1 | h1)
            · exact absurd h1.1 h
            · exact h1
      rw [hcons, ih]
      constructor
      · rintro (⟨h1, h2⟩ | ⟨i, row, h1, h2, h3⟩)
        · exact ⟨0, r, rfl, h1, h2⟩
        · exact ⟨i + 1, row, h1, h2, by rw [h3]; congr 3; omega⟩
      · rintro ⟨i, row, h1, h2, h3⟩
        cases i with
        | zero =>
          rw [List.getElem?_cons_zero] at h1
          cases h1
          exact .inl ⟨h2, h3⟩
        | succ i => exact .inr ⟨i, row, h1, h2, by rw [h3]; congr 3; omega⟩
  have := gen 0
  simpa using this

/-- The offsets of a location increase, so that no record is listed twice. -/
theorem c25_increasing (size location : Nat) (hs : 0 < size) (rows : List (List UInt64)) :
    (offsetsOf size location 0 rows).Pairwise (· < ·) := by
  have gen : ∀ start, (offsetsOf size location start rows).Pairwise (· < ·) ∧
      ∀ o ∈ offsetsOf size location start rows, 48 + size * start + 8 ≤ o := by
    induction rows with
    | nil => intro start; simp [offsetsOf]
    | cons r rows ih =>
      intro start
      obtain ⟨h1, h2⟩ := ih (start + 1)
      have hle : 48 + size * start + 8 < 48 + size * (start + 1) + 8 := by rw [Nat.mul_add]; omega
      rw [offsetsOf]
      split
      · refine ⟨List.pairwise_cons.2 ⟨fun o ho => lt_of_lt_of_le hle (h2 o ho), h1⟩, ?_⟩
        intro o ho
        rcases List.mem_cons.1 ho with rfl | ho
        · exact Nat.le_refl _
        · exact Nat.le_of_lt (lt_of_lt_of_le hle (h2 o ho))
      · exact ⟨h1, fun o ho => Nat.le_of_lt (lt_of_lt_of_le hle (h2 o ho))⟩
  exact (gen 0).1

/-- **C25**: at the offset of a record in the file of the day there is what follows the location identifier, and eight bytes
before it the whole record. -/
theorem c25_address (uuid : Bytes) (hu : uuid.length = 16) (k : Nat) (rows : List (List UInt64))
    (hr : ∀ r ∈ rows, r.length = k + 1) (i : Nat) (row : List UInt64) (hi : rows[i]? = some row) :
    fieldsOf k ((dayFile uuid rows).drop (48 + 8 * (k + 1) * i + 8)) = row.drop 1 ∧
      fieldsOf (k + 1) ((dayFile uuid rows).drop (48 + 8 * (k + 1) * i)) = row := by
  have hsplit : rows = rows.take i ++ row :: rows.drop (i + 1) := by
    obtain ⟨hlt, rfl⟩ := List.getElem?_eq_some_iff.1 hi
    rw [List.cons_getElem_drop_succ, List.take_append_drop]
  have hlen : (rows.take i).length = i := by
    rw [List.length_take]
    have := (List.getElem?_eq_some_iff.1 hi).1
    omega
  have hrow := hr row (List.mem_of_getElem? hi)
  have htake : ∀ r ∈ rows.take i, r.length = k + 1 := fun r h => hr r (List.mem_of_mem_take h)
  have hdrop : (dayFile uuid rows).drop (48 + 8 * (k + 1) * i) = row.flatMap word ++ tofile (rows.drop (i + 1)) := by
    have h1 : (formatObservation ++ codeId ++ uuid).length = 48 := by
      rw [List.length_append, List.length_append, format_length.1, format_length.2.2.2.2, hu]
    have h2 : tofile rows = tofile (rows.take i) ++ (row.flatMap word ++ tofile (rows.drop (i + 1))) := by
      conv_lhs => rw [hsplit]
      rw [tofile, List.flatMap_append, List.flatMap_cons]
      rfl
    rw [dayFile, ← List.drop_drop, List.drop_left' h1, h2, List.drop_left' (by rw [tofile_length _ _ htake, hlen])]
  constructor
  · rw [← List.drop_drop, hdrop]
    cases row with
    | nil => simp at hrow
    | cons w row =>
      rw [List.flatMap_cons, List.append_assoc, List.drop_left' (word_length w)]
      have : k = row.length := by simpa using hrow.symm
      rw [this, fieldsOf_words]
      rfl
  · rw [hdrop, ← hrow, fieldsOf_words]

/-! ### The file of pointers -/

theorem recordOffsets_length (offset : Nat) (counts : List Nat) : (recordOffsets offset counts).length = counts.length := by
  induction counts generalizing offset with
  | nil => rfl
  | cons c counts ih => simp [recordOffsets, ih]

theorem recordOffsets_get (offset : Nat) (counts : List Nat) (i : Nat) (h : i < counts.length) :
    (recordOffsets offset counts)[i]? = some (offset + 16 * (counts.take i).sum) := by
  induction counts generalizing offset i with
  | nil => simp at h
  | cons c counts ih =>
    cases i with
    | zero => simp [recordOffsets]
    | succ i =>
      rw [recordOffsets, List.getElem?_cons_succ, ih _ _ (by simpa using h)]
      simp only [List.take_succ_cons, List.sum_cons]
      congr 1
      ring

theorem pairs_length (l : List (UInt64 × UInt64)) : ∀ r ∈ l.map fun p => [p.1, p.2], r.length = 2 := by
  intro r hr
  obtain ⟨p, _, rfl⟩ := List.mem_map.1 hr
  rfl

theorem bodies_length (pointers : List (List (UInt64 × UInt64))) :
    (pointers.flatMap fun l => tofile (l.map fun p => [p.1, p.2])).length = 16 * (pointers.map List.length).sum := by
  induction pointers with
  | nil => rfl
  | cons l rest ih =>
    rw [List.flatMap_cons, List.length_append, ih, tofile_length _ _ (pairs_length l), List.map_cons, List.sum_cons,
      List.length_map]
    ring

/-- What the file of pointers holds: in its table where the pointers of a location are and how many, and there the pointers. -/
theorem pointersFile_entry (uuid : Bytes) (hu : uuid.length = 16) (pointers : List (List (UInt64 × UInt64)))
    (hsize : (writePointers uuid pointers).length < 2 ^ 64) (location : Nat) (hl : location < pointers.length) :
    ∃ offset rest, fieldsOf 2 ((writePointers uuid pointers).drop (56 + 16 * location)) =
        [UInt64.ofNat offset, UInt64.ofNat (pointers.getD location []).length] ∧ offset < 2 ^ 64 ∧
      (pointers.getD location []).length < 2 ^ 64 ∧ 56 + 16 * location + 16 ≤ (writePointers uuid pointers).length ∧
      offset + 16 * (pointers.getD location []).length ≤ (writePointers uuid pointers).length ∧
      (writePointers uuid pointers).drop offset = tofile ((pointers.getD location []).map fun p => [p.1, p.2]) ++ rest := by
  set counts := pointers.map List.length with hcounts
  set table := List.zipWith (fun offset count => [UInt64.ofNat offset, UInt64.ofNat count])
    (recordOffsets (56 + 16 * pointers.length) counts) counts with htable
  set bodies := pointers.flatMap fun l => tofile (l.map fun p => [p.1, p.2]) with hbodies
  set header := formatPointers ++ codeId ++ uuid ++ word (UInt64.ofNat pointers.length) with hheader
  have hfile : writePointers uuid pointers = header ++ (tofile table ++ bodies) := by
    rw [writePointers, if_pos (by omega)]
  have hhlen : header.length = 56 := by
    rw [hheader, List.length_append, List.length_append, List.length_append, format_length.2.2.2.1,
      format_length.2.2.2.2, hu, word_length]
  have hclen : counts.length = pointers.length := by rw [hcounts, List.length_map]
  have hrows : ∀ r ∈ table, r.length = 2 := by
    intro r hr
    rw [htable] at hr
    obtain ⟨i, hi, rfl⟩ := List.mem_iff_getElem.1 hr
    rw [List.getElem_zipWith]
    rfl
  have htlen : table.length = pointers.length := by
    rw [htable, List.length_zipWith, recordOffsets_length, hclen, Nat.min_self]
  have htbytes : (tofile table).length = 16 * pointers.length := by
    rw [tofile_length _ _ hrows, htlen]
  have hblen : bodies.length = 16 * counts.sum := bodies_length pointers
  have htotal : 56 + (16 * pointers.length + 16 * counts.sum) < 2 ^ 64 := by
    have h1 : (header ++ (tofile table ++ bodies)).length = 56 + (16 * pointers.length + 16 * counts.sum) := by
      rw [← hhlen, ← htbytes, ← hblen]
      exact List.length_append.trans (congrArg _ List.length_append)
    rw [hfile, h1] at hsize
    exact hsize
  have hget : ∃ l, pointers[location]? = some l := ⟨_, List.getElem?_eq_getElem hl⟩
  obtain ⟨l, hlget⟩ := hget
  have hcount : counts[location]? = some l.length := by rw [hcounts, List.getElem?_map, hlget]; rfl
  have hoff := recordOffsets_get (56 + 16 * pointers.length) counts location (by omega)
  set before := (counts.take location).sum with hbefore
  have hentry : table[location]? = some [UInt64.ofNat (56 + 16 * pointers.length + 16 * before), UInt64.ofNat l.length] := by
    rw [htable, List.getElem?_zipWith, hoff, hcount]
  -- the entry of the table
  have htsplit : table = table.take location ++ [UInt64.ofNat (56 + 16 * pointers.length + 16 * before),
      UInt64.ofNat l.length] :: table.drop (location + 1) := by
    obtain ⟨hlt, heq⟩ := List.getElem?_eq_some_iff.1 hentry
    rw [← heq, List.cons_getElem_drop_succ, List.take_append_drop]
  have htake : (tofile (table.take location)).length = 16 * location := by
    rw [tofile_length _ 2 fun r h => hrows r (List.mem_of_mem_take h), List.length_take]
    have : min location table.length = location := by omega
    rw [this]
  have hfields : fieldsOf 2 ((writePointers uuid pointers).drop (56 + 16 * location)) =
      [UInt64.ofNat (56 + 16 * pointers.length + 16 * before), UInt64.ofNat l.length] := by
    have h1 : tofile table = tofile (table.take location) ++
        (([UInt64.ofNat (56 + 16 * pointers.length + 16 * before), UInt64.ofNat l.length]).flatMap word ++
          tofile (table.drop (location + 1))) := by
      conv_lhs => rw [htsplit]
      rw [tofile, List.flatMap_append, List.flatMap_cons]
      rfl
    rw [hfile, ← List.drop_drop, List.drop_left' hhlen, h1, List.append_assoc, List.drop_left' htake, List.append_assoc]
    exact fieldsOf_words [_, _] _
  -- sizes
  have hle : before + l.length ≤ counts.sum := by
    have h1 : counts = counts.take location ++ l.length :: counts.drop (location + 1) := by
      obtain ⟨hlt, heq⟩ := List.getElem?_eq_some_iff.1 hcount
      rw [← heq, List.cons_getElem_drop_succ, List.take_append_drop]
    rw [h1, List.sum_append, List.sum_cons, ← hbefore]
    omega
  have hmod : ∀ x : Nat, x < 2 ^ 64 → (UInt64.ofNat x).toNat = x := by
    intro x hx
    rw [UInt64.toNat_ofNat']
    exact Nat.mod_eq_of_lt hx
  -- the pointers
  have hpsplit : pointers = pointers.take location ++ l :: pointers.drop (location + 1) := by
    obtain ⟨hlt, heq⟩ := List.getElem?_eq_some_iff.1 hlget
    rw [← heq, List.cons_getElem_drop_succ, List.take_append_drop]
  have hbsplit : bodies = (pointers.take location).flatMap (fun l => tofile (l.map fun p => [p.1, p.2])) ++
      (tofile (l.map fun p => [p.1, p.2]) ++
        (pointers.drop (location + 1)).flatMap fun l => tofile (l.map fun p => [p.1, p.2])) := by
    rw [hbodies]
    conv_lhs => rw [hpsplit]
    rw [List.flatMap_append, List.flatMap_cons]
  have hbtake : ((pointers.take location).flatMap fun l => tofile (l.map fun p => [p.1, p.2])).length = 16 * before := by
    rw [bodies_length, hbefore, hcounts, List.map_take]
  have hdrop : (writePointers uuid pointers).drop (56 + 16 * pointers.length + 16 * before) =
      tofile (l.map fun p => [p.1, p.2]) ++
        (pointers.drop (location + 1)).flatMap fun l => tofile (l.map fun p => [p.1, p.2]) := by
    rw [hfile, ← List.drop_drop, ← List.drop_drop, List.drop_left' hhlen, List.drop_left' htbytes, hbsplit,
      List.drop_left' hbtake]
  have hgetD : pointers.getD location [] = l := by rw [List.getD_eq_getElem?_getD, hlget]; rfl
  have hflen : (writePointers uuid pointers).length = 56 + (16 * pointers.length + 16 * counts.sum) := by
    rw [hfile, ← hhlen, ← htbytes, ← hblen]
    exact List.length_append.trans (congrArg _ List.length_append)
  rw [hgetD]
  exact ⟨_, _, hfields, by omega, by omega, by omega, by omega, hdrop⟩

/-- **C25**, the file of pointers, for any table whose size fits the format: the entry of a location leads to exactly its
pointers. -/
theorem c25_file (uuid : Bytes) (hu : uuid.length = 16) (pointers : List (List (UInt64 × UInt64)))
    (hsize : (writePointers uuid pointers).length < 2 ^ 64) (location : Nat) (hl : location < pointers.length) :
    lookupPointers (writePointers uuid pointers) location = pointers.getD location [] := by
  obtain ⟨offset, rest, hfields, h1, h2, _, _, hdrop⟩ := pointersFile_entry uuid hu pointers hsize location hl
  have hmod : ∀ x : Nat, x < 2 ^ 64 → (UInt64.ofNat x).toNat = x := by
    intro x hx
    rw [UInt64.toNat_ofNat']
    exact Nat.mod_eq_of_lt hx
  rw [lookupPointers, hfields]
  dsimp only
  rw [hmod _ h1, hmod _ h2, hdrop]
  have hrl := rowsOf_tofile ((pointers.getD location []).map fun p => [p.1, p.2]) 2 (pairs_length _) rest
  rw [List.length_map] at hrl
  rw [hrl, List.map_map]
  exact List.map_id _

/-- **C25 violated**: the reader of the project fails on every file of pointers. -/
theorem c25_reader_violated (uuid verify : Bytes) (pointers : List (List (UInt64 × UInt64))) (location : Nat) :
    readPointers (writePointers uuid pointers) verify location = .error .nameError := by
  rw [readPointers, writePointers, List.append_assoc, List.append_assoc, List.append_assoc,
    List.take_left' format_length.2.2.2.1]
  exact if_neg (by simp)

/-- Non-vacuity: two days, three locations. -/
example : ∃ pointers, appendDays 0 (List.replicate 16 0) ([(10, [[2, 5, 6], [0, 7, 8]]), (11, [[2, 9, 9]])].map
      fun d => (d.1, dayFile (List.replicate 16 0) d.2)) (List.replicate 3 []) = .ok pointers ∧
    pointers.getD 2 [] = [(10, 56), (11, 56)] ∧ pointers.getD 0 [] = [(10, 80)] ∧ pointers.getD 1 [] = [] := by
  obtain ⟨pointers, h1, _, h3⟩ := c25_collect 0 (List.replicate 16 0) (by simp) 3
    [(10, [[2, 5, 6], [0, 7, 8]]), (11, [[2, 9, 9]])] (by simp) (by simp)
  refine ⟨pointers, h1, ?_, ?_, ?_⟩ <;> rw [h3] <;> simp [pointersOf, offsetsOf]

end Verif.Eustace.RawBinary
