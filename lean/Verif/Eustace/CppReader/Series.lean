import Verif.Eustace.CppReader.Day

/-!
C105: time series of locations, from the files of days and the file of location pointers.
-/

namespace Verif.Eustace.CppReader

open Verif RawBinary

/-! ### Specification -/

/-- What is asked for: the observations of a location, days in order; in place of the location each has the number of its
day. -/
def seriesOf (id : UInt64) (days : List (UInt64 × List (List UInt64))) : List Item :=
  days.flatMap fun d => (d.2.filter fun row => decide (row.getD 0 0 = id)).map fun row =>
    ⟨d.1, row.getD 1 0, row.getD 2 0, row.drop 3⟩

/-! ### The file of pointers -/

theorem wordAt_take (b : Bytes) (n pos : Nat) (h : pos + 8 ≤ n) : wordAt (b.take n) pos = wordAt b pos := by
  rw [wordAt, wordAt, List.drop_take, List.take_take, Nat.min_eq_left (by omega)]

theorem readRecords_ok (uuid : Bytes) (hu : uuid.length = 16) (pointers : List (List (UInt64 × UInt64)))
    (hsize : (writePointers uuid pointers).length < 2 ^ 64) (id : UInt64) (hid : id.toNat < pointers.length) (pos : Nat) :
    ∃ pos', readRecords 56 ⟨writePointers uuid pointers, pos, false⟩ id =
      (pointers.getD id.toNat [], ⟨writePointers uuid pointers, pos', false⟩) := by
  obtain ⟨offset, rest, hfields, h1, h2, h3, h4, hdrop⟩ := pointersFile_entry uuid hu pointers hsize id.toNat hid
  set file := writePointers uuid pointers with hfile
  set l := pointers.getD id.toNat [] with hl
  have hmod : ∀ x : Nat, x < 2 ^ 64 → (UInt64.ofNat x).toNat = x := by
    intro x hx
    rw [UInt64.toNat_ofNat']
    exact Nat.mod_eq_of_lt hx
  have hseek : ∀ p q, (Stream.mk file p false).seek q = ⟨file, q, false⟩ := fun p q => rfl
  rw [fieldsOf_eq] at hfields
  simp only [List.range_succ, List.range_zero, List.nil_append, List.map_append, List.map_cons, List.map_nil,
    List.singleton_append, Nat.mul_zero, Nat.mul_one, List.cons_append, List.cons.injEq, and_true] at hfields
  have he : (Stream.mk file (56 + id.toNat * 16) false).read (zeros 16) =
      ((file.drop (56 + 16 * id.toNat)).take 16, ⟨file, 56 + id.toNat * 16 + 16, false⟩) := by
    rw [read_ok _ _ _ (by rw [zeros_length]; omega), zeros_length, Nat.mul_comm]
  rw [readRecords, hseek, he]
  dsimp only
  rw [wordAt_take _ _ _ (by omega), wordAt_take _ _ _ (by omega), hfields.1, hfields.2, hmod _ h1, hmod _ h2, hseek,
    read_ok _ _ _ (by rw [zeros_length]; omega), zeros_length, hdrop]
  dsimp only
  have hlen : (tofile (l.map fun p => [p.1, p.2])).length = l.length * 16 := by
    rw [tofile_length _ _ (pairs_length l), List.length_map]
    ring
  rw [List.take_left' hlen]
  have := pairsOf_tofile l []
  rw [List.append_nil] at this
  exact ⟨_, by rw [this]⟩

theorem readAllRecords_ok (uuid : Bytes) (hu : uuid.length = 16) (pointers : List (List (UInt64 × UInt64)))
    (hsize : (writePointers uuid pointers).length < 2 ^ 64) (subset : List UInt64)
    (hs : ∀ id ∈ subset, id.toNat < pointers.length) (pos : Nat) :
    readAllRecords 56 ⟨writePointers uuid pointers, pos, false⟩ subset = subset.map fun id => pointers.getD id.toNat [] := by
  induction subset generalizing pos with
  | nil => rfl
  | cons id rest ih =>
    obtain ⟨pos', h⟩ := readRecords_ok uuid hu pointers hsize id (hs id List.mem_cons_self) pos
    rw [readAllRecords, h, List.map_cons, ih (fun i hi => hs i (List.mem_cons_of_mem _ hi))]

theorem writePointers_split (uuid : Bytes) (pointers : List (List (UInt64 × UInt64)))
    (hsize : (writePointers uuid pointers).length < 2 ^ 64) : ∃ rest, writePointers uuid pointers =
      formatPointers ++ codeId ++ (uuid ++ (word (UInt64.ofNat pointers.length) ++ rest)) := by
  refine ⟨(writePointers uuid pointers).drop (formatPointers ++ codeId ++ uuid ++ word (UInt64.ofNat pointers.length)).length,
    ?_⟩
  have h : ∃ rest, writePointers uuid pointers =
      formatPointers ++ codeId ++ uuid ++ word (UInt64.ofNat pointers.length) ++ rest := by
    rw [writePointers]
    exact ⟨_, rfl⟩
  obtain ⟨rest, hr⟩ := h
  rw [hr, List.drop_left]
  simp only [List.append_assoc]

theorem readPointers_stream (junk uuid : Bytes) (hj : junk.length = 16) (hu : uuid.length = 16)
    (pointers : List (List (UInt64 × UInt64))) (hsize : (writePointers uuid pointers).length < 2 ^ 64) (subset : List UInt64) :
    CppReader.readPointers junk (some (writePointers uuid pointers)) subset =
      .ok (readAllRecords 56 ⟨writePointers uuid pointers, 56, false⟩ subset) := by
  obtain ⟨rest, hr⟩ := writePointers_split uuid pointers hsize
  have hlen : 56 ≤ (writePointers uuid pointers).length := by
    rw [hr, List.length_append, List.length_append, List.length_append, List.length_append, format_length.2.2.2.1,
      format_length.2.2.2.2, hu, word_length]
    omega
  have hcheck : checkHeader formatPointers junk (openStream (some (writePointers uuid pointers))) =
      .ok ⟨writePointers uuid pointers, 32, false⟩ := by
    rw [hr, checkHeader_ok _ _ _ format_length.2.2.2.1 formats_nonzero.2.2.2 hj]
  rw [CppReader.readPointers, pointersHeader, hcheck]
  dsimp only
  rw [read_ok _ _ _ (by rw [zeros_length]; omega)]
  dsimp only
  rw [read_ok _ _ _ (by rw [zeros_length, zeros_length]; omega), zeros_length, zeros_length]
  rfl

/-- **C105**, the file of pointers: the reader gets exactly the pointers of each location asked for, in the order asked for. -/
theorem c105_pointers (junk uuid : Bytes) (hj : junk.length = 16) (hu : uuid.length = 16)
    (pointers : List (List (UInt64 × UInt64))) (hsize : (writePointers uuid pointers).length < 2 ^ 64) (subset : List UInt64)
    (hs : ∀ id ∈ subset, id.toNat < pointers.length) :
    CppReader.readPointers junk (some (writePointers uuid pointers)) subset =
      .ok (subset.map fun id => pointers.getD id.toNat []) := by
  rw [readPointers_stream junk uuid hj hu pointers hsize, readAllRecords_ok uuid hu pointers hsize subset hs]

theorem readAllRecords_failed (start : Nat) (s : Stream) (hs : s.fail = true) (subset : List UInt64) :
    readAllRecords start s subset = subset.map fun _ => [] := by
  induction subset with
  | nil => rfl
  | cons id rest ih =>
    have hseek : ∀ p, s.seek p = s := fun p => by rw [Stream.seek, if_pos hs]
    have h : readRecords start s id = ([], s) := by
      rw [readRecords]
      simp only [hseek, read_failed s hs]
      rw [show wordAt (zeros 16) 8 = 0 by decide]
      rfl
    rw [readAllRecords, h, List.map_cons, ih]

/-- **C105 violated**: one location which is not in the file, in the midst of a request, leaves all locations after it without
any observations, and no error is reported. -/
theorem c105_unknown_violated (junk uuid : Bytes) (hj : junk.length = 16) (hu : uuid.length = 16)
    (pointers : List (List (UInt64 × UInt64))) (hsize : (writePointers uuid pointers).length < 2 ^ 64) (known : List UInt64)
    (hs : ∀ id ∈ known, id.toNat < pointers.length) (unknown : UInt64)
    (hun : (writePointers uuid pointers).length ≤ 56 + unknown.toNat * 16) (others : List UInt64) :
    CppReader.readPointers junk (some (writePointers uuid pointers)) (known ++ unknown :: others) =
      .ok ((known.map fun id => pointers.getD id.toNat []) ++ [] :: others.map fun _ => []) := by
  rw [readPointers_stream junk uuid hj hu pointers hsize]
  congr 1
  have gen : ∀ pos, readAllRecords 56 ⟨writePointers uuid pointers, pos, false⟩ (known ++ unknown :: others) =
      (known.map fun id => pointers.getD id.toNat []) ++ [] :: others.map fun _ => [] := by
    induction known with
    | nil =>
      intro pos
      set file := writePointers uuid pointers with hfile
      have hread : (Stream.mk file (56 + unknown.toNat * 16) false).read (zeros 16) =
          (zeros 16, ⟨file, 56 + unknown.toNat * 16, true⟩) := by
        rw [Stream.read, if_neg (by simp)]
        dsimp only
        rw [List.drop_eq_nil_of_le hun, List.take_nil]
        simp [zeros]
      have h : readRecords 56 ⟨file, pos, false⟩ unknown = ([], ⟨file, 56 + unknown.toNat * 16, true⟩) := by
        rw [readRecords, show (Stream.mk file pos false).seek (56 + unknown.toNat * 16) =
          ⟨file, 56 + unknown.toNat * 16, false⟩ from rfl, hread]
        dsimp only
        rw [show wordAt (zeros 16) 8 = 0 by decide, show (Stream.mk file (56 + unknown.toNat * 16) true).seek _ =
          ⟨file, 56 + unknown.toNat * 16, true⟩ from rfl, read_failed _ rfl]
        rfl
      rw [List.nil_append, readAllRecords, h, readAllRecords_failed _ _ rfl]
      rfl
    | cons id rest ih =>
      intro pos
      obtain ⟨pos', h⟩ := readRecords_ok uuid hu pointers hsize id (hs id List.mem_cons_self) pos
      rw [List.cons_append, readAllRecords, h, ih (fun i hi => hs i (List.mem_cons_of_mem _ hi))]
      rfl
  exact gen 56

/-! ### The series -/

theorem tofile_cons (row : List UInt64) (rows : List (List UInt64)) : tofile (row :: rows) = row.flatMap word ++ tofile rows := rfl

theorem tofile_append (a b : List (List UInt64)) : tofile (a ++ b) = tofile a ++ tofile b := by
  rw [tofile, List.flatMap_append]
  rfl

theorem words_length (row : List UInt64) : (row.flatMap word).length = 8 * row.length := by
  induction row with
  | nil => rfl
  | cons x row ih => rw [List.flatMap_cons, List.length_append, ih, word_length, List.length_cons]; omega

/-- What is at the offset of a record in the file of a day. -/
theorem dayFile_drop (uuid : Bytes) (hu : uuid.length = 16) (ranges : Nat) (rows : List (List UInt64))
    (hr : ∀ r ∈ rows, r.length = 3 + ranges) (i : Nat) (row : List UInt64) (hi : rows[i]? = some row) :
    (dayFile uuid rows).drop (48 + 8 * (3 + ranges) * i + 8) = (row.drop 1).flatMap word ++ tofile (rows.drop (i + 1)) := by
  have hsplit : rows = rows.take i ++ row :: rows.drop (i + 1) := by
    obtain ⟨hlt, rfl⟩ := List.getElem?_eq_some_iff.1 hi
    rw [List.cons_getElem_drop_succ, List.take_append_drop]
  have hlen : (rows.take i).length = i := by
    rw [List.length_take]
    have := (List.getElem?_eq_some_iff.1 hi).1
    omega
  have hrow := hr row (List.mem_of_getElem? hi)
  have h1 : (formatObservation ++ codeId ++ uuid).length = 48 := by
    rw [List.length_append, List.length_append, format_length.1, format_length.2.2.2.2, hu]
  have h2 : tofile rows = tofile (rows.take i) ++ (row.flatMap word ++ tofile (rows.drop (i + 1))) := by
    conv_lhs => rw [hsplit]
    rw [tofile_append, tofile_cons]
  have h3 : (tofile (rows.take i)).length = 8 * (3 + ranges) * i := by
    rw [tofile_length _ _ fun r h => hr r (List.mem_of_mem_take h), hlen]
  rw [dayFile, ← List.drop_drop, ← List.drop_drop, List.drop_left' h1, h2, List.drop_left' h3]
  cases row with
  | nil => simp at hrow; omega
  | cons x row => rw [List.flatMap_cons, List.append_assoc, List.drop_left' (word_length x)]; rfl

/-- Signed day numbers are those of `int64_t`. -/
theorem signed_eq (x : UInt64) : signed x = x.toInt64.toInt := by
  unfold signed
  have : x.toInt64.toInt = x.toBitVec.toInt := rfl
  rw [this, BitVec.toInt_eq_toNat_cond]
  have h2 : x.toBitVec.toNat = x.toNat := rfl
  rw [h2]
  norm_num
  split <;> split <;> omega

theorem seriesBytes_ok (w : World) (base : List Char) (source : Source) (observable : Observable) (ranges : Nat) (day : UInt64)
    (uuid : Bytes) (hu : uuid.length = 16) (rows : List (List UInt64)) (hr : ∀ r ∈ rows, r.length = 3 + ranges)
    (hfile : w.files (observationPath base source observable day.toInt64.toInt) = some (dayFile uuid rows))
    (hsize : (dayFile uuid rows).length < 2 ^ 64) (i : Nat) (row : List UInt64) (hi : rows[i]? = some row) :
    seriesBytes w base source observable ranges (day, UInt64.ofNat (48 + 8 * (3 + ranges) * i + 8)) =
      tofile [day :: row.drop 1] := by
  have hrow := hr row (List.mem_of_getElem? hi)
  have hdrop := dayFile_drop uuid hu ranges rows hr i row hi
  have hdl : (row.drop 1).length = 2 + ranges := by rw [List.length_drop, hrow]; omega
  have hlen : (dayFile uuid rows).length - (48 + 8 * (3 + ranges) * i + 8) =
      8 * (2 + ranges) + (tofile (rows.drop (i + 1))).length := by
    rw [← List.length_drop, hdrop, List.length_append, words_length, hdl]
  have hes : entrySize ranges - 8 = 8 * (2 + ranges) := by rw [entrySize]; omega
  have hmod : (UInt64.ofNat (48 + 8 * (3 + ranges) * i + 8)).toNat = 48 + 8 * (3 + ranges) * i + 8 := by
    rw [UInt64.toNat_ofNat']
    exact Nat.mod_eq_of_lt (by omega)
  rw [seriesBytes]
  dsimp only
  rw [signed_eq]
  rw [hfile, hmod, openStream, show (Stream.mk (dayFile uuid rows) 0 false).seek (48 + 8 * (3 + ranges) * i + 8) =
    ⟨dayFile uuid rows, 48 + 8 * (3 + ranges) * i + 8, false⟩ from rfl, hes,
    read_ok _ _ _ (by rw [zeros_length]; omega), zeros_length, hdrop]
  dsimp only
  rw [List.take_left' (by rw [words_length, hdl]), tofile_cons, List.flatMap_cons]
  simp [tofile]

/-- The rows of a time series. -/
def seriesRows (id : Nat) (days : List (UInt64 × List (List UInt64))) : List (List UInt64) :=
  days.flatMap fun d => (d.2.filter fun row => decide ((row.getD 0 0).toNat = id)).map fun row => d.1 :: row.drop 1

theorem series_day (w : World) (base : List Char) (source : Source) (observable : Observable) (ranges : Nat) (day : UInt64)
    (uuid : Bytes) (hu : uuid.length = 16) (rows : List (List UInt64)) (hr : ∀ r ∈ rows, r.length = 3 + ranges)
    (hfile : w.files (observationPath base source observable day.toInt64.toInt) = some (dayFile uuid rows))
    (hsize : (dayFile uuid rows).length < 2 ^ 64) (id : Nat) :
    (((offsetsOf (8 * (3 + ranges)) id 0 rows).map fun offset => (day, UInt64.ofNat offset)).flatMap
        (seriesBytes w base source observable ranges) =
      tofile ((rows.filter fun row => decide ((row.getD 0 0).toNat = id)).map fun row => day :: row.drop 1)) ∧
    (offsetsOf (8 * (3 + ranges)) id 0 rows).length =
      (rows.filter fun row => decide ((row.getD 0 0).toNat = id)).length := by
  have gen : ∀ (tail : List (List UInt64)) (index : Nat), (∀ i row, tail[i]? = some row → rows[index + i]? = some row) →
      (((offsetsOf (8 * (3 + ranges)) id index tail).map fun offset => (day, UInt64.ofNat offset)).flatMap
          (seriesBytes w base source observable ranges) =
        tofile ((tail.filter fun row => decide ((row.getD 0 0).toNat = id)).map fun row => day :: row.drop 1)) ∧
      (offsetsOf (8 * (3 + ranges)) id index tail).length =
        (tail.filter fun row => decide ((row.getD 0 0).toNat = id)).length := by
    intro tail
    induction tail with
    | nil => exact fun index _ => ⟨rfl, rfl⟩
    | cons row tail ih =>
      intro index h
      obtain ⟨ih1, ih2⟩ := ih (index + 1) fun i r hir => by
        have := h (i + 1) r hir
        rwa [show index + (i + 1) = index + 1 + i by omega] at this
      rw [offsetsOf]
      by_cases hrow : (row.getD 0 0).toNat = id
      · rw [if_pos hrow, List.filter_cons_of_pos (by simpa using hrow), List.map_cons, List.map_cons, List.flatMap_cons,
          ih1, seriesBytes_ok w base source observable ranges day uuid hu rows hr hfile hsize index row (h 0 row rfl)]
        refine ⟨?_, by rw [List.length_cons, List.length_cons, ih2]⟩
        rw [← tofile_append]
        rfl
      · rw [if_neg hrow, List.filter_cons_of_neg (by simpa using hrow)]
        exact ⟨ih1, ih2⟩
  exact gen rows 0 fun i row h => by rwa [Nat.zero_add]

theorem series_ok (w : World) (base : List Char) (source : Source) (observable : Observable) (ranges : Nat)
    (uuid : Bytes) (hu : uuid.length = 16) (days : List (UInt64 × List (List UInt64)))
    (hr : ∀ d ∈ days, ∀ r ∈ d.2, r.length = 3 + ranges)
    (hfiles : ∀ d ∈ days, w.files (observationPath base source observable d.1.toInt64.toInt) = some (dayFile uuid d.2))
    (hsize : ∀ d ∈ days, (dayFile uuid d.2).length < 2 ^ 64) (id : UInt64) :
    itemsOf (series w base source observable ranges (pointersOf (8 * (3 + ranges)) id.toNat days)) = seriesOf id days := by
  have h : ((pointersOf (8 * (3 + ranges)) id.toNat days).flatMap (seriesBytes w base source observable ranges) =
      tofile (seriesRows id.toNat days)) ∧ (pointersOf (8 * (3 + ranges)) id.toNat days).length =
        (seriesRows id.toNat days).length := by
    induction days with
    | nil => exact ⟨rfl, rfl⟩
    | cons d days ih =>
      obtain ⟨ih1, ih2⟩ := ih (fun d' hd => hr d' (List.mem_cons_of_mem _ hd))
        (fun d' hd => hfiles d' (List.mem_cons_of_mem _ hd)) (fun d' hd => hsize d' (List.mem_cons_of_mem _ hd))
      obtain ⟨h1, h2⟩ := series_day w base source observable ranges d.1 uuid hu d.2 (hr d List.mem_cons_self)
        (hfiles d List.mem_cons_self) (hsize d List.mem_cons_self) id.toNat
      have hp : pointersOf (8 * (3 + ranges)) id.toNat (d :: days) =
          ((offsetsOf (8 * (3 + ranges)) id.toNat 0 d.2).map fun offset => (d.1, UInt64.ofNat offset)) ++
            pointersOf (8 * (3 + ranges)) id.toNat days := rfl
      have hs : seriesRows id.toNat (d :: days) =
          ((d.2.filter fun row => decide ((row.getD 0 0).toNat = id.toNat)).map fun row => d.1 :: row.drop 1) ++
            seriesRows id.toNat days := rfl
      rw [hp, hs, List.flatMap_append, h1, ih1, tofile_append, List.length_append, List.length_append, ih2,
        List.length_map, List.length_map, h2]
      exact ⟨rfl, rfl⟩
  have hrows : ∀ r ∈ seriesRows id.toNat days, r.length = 3 + ranges := by
    intro r hmem
    obtain ⟨d, hd, hmem⟩ := List.mem_flatMap.1 hmem
    obtain ⟨row, hrow, rfl⟩ := List.mem_map.1 hmem
    have := hr d hd row (List.mem_filter.1 hrow).1
    rw [List.length_cons, List.length_drop, this]
    omega
  rw [series, h.1, h.2, itemsOf_rows _ _ _ hrows, seriesRows, seriesOf, List.map_flatMap]
  apply List.flatMap_congr
  intro d hd
  rw [List.map_map]
  have hf : (d.2.filter fun row => decide ((row.getD 0 0).toNat = id.toNat)) =
      d.2.filter fun row => decide (row.getD 0 0 = id) := by
    apply List.filter_congr
    intro row _
    rw [decide_eq_decide]
    exact ⟨fun h => UInt64.toNat_inj.1 h, fun h => by rw [h]⟩
  rw [hf]
  apply List.map_congr_left
  intro row hrow
  have := hr d hd row (List.mem_filter.1 hrow).1
  rcases row with _ | ⟨a, _ | ⟨b, _ | ⟨c, rest⟩⟩⟩
  · simp at this; omega
  · simp only [List.length_cons, List.length_nil] at this; omega
  · simp only [List.length_cons, List.length_nil] at this; omega
  · rfl

/-- What `RetrieveLocations` gives, without caches. -/
theorem retrieveLocations_eq (w : World) (hw : w.Sized) (m : Manager) (hm : Faithful w m) (source : Source)
    (observable : Observable) (static : List Char) (hst : source.static = some static) (values : List UInt64) (luuid : Bytes)
    (hl : luuid.length = 16) (table : List (UInt64 × UInt64))
    (hranges : w.files (rangesPath m.base source observable) = some (writeRanges values))
    (hlookup : w.files (lookupPath m.base static) = some (writeLookup luuid table)) (subset : List UInt64)
    (records : List (List (UInt64 × UInt64)))
    (hrec : CppReader.readPointers (w.junk (pointersPath m.base source observable))
      (w.files (pointersPath m.base source observable)) subset = .ok records) :
    ∃ m', retrieveLocations w m source observable subset =
        .ok (records.map fun r => ⟨values, ⟨luuid, table⟩, series w m.base source observable values.length r⟩, m') ∧
      Faithful w m' ∧ m'.base = m.base := by
  rw [retrieveLocations, hst]
  dsimp only
  rcases retrieve_eq readRanges w m.ranges (rangesPath m.base source observable) hm.2 with ⟨e, h1, _⟩ | ⟨rs, cache, h1, h2, h3⟩
  · rw [hranges, readRanges_file _ (hw _)] at h1
    cases h1
  rcases retrieve_eq readLookup w m.lookups (lookupPath m.base static) hm.1 with ⟨e, h4, _⟩ | ⟨l, lcache, h4, h5, h6⟩
  · rw [hlookup, readLookup_file _ _ (hw _) hl] at h4
    cases h4
  rw [hranges, readRanges_file _ (hw _)] at h1
  rw [hlookup, readLookup_file _ _ (hw _) hl] at h4
  cases h1
  cases h4
  rw [h2, h5, hrec]
  exact ⟨_, rfl, ⟨h6, h3⟩, rfl⟩

/-- **C105**, for any days, locations and earlier requests: from day files and the file of pointers which the Python program
makes from them, the time series of each location asked for holds exactly its observations, in the order of the days, with the
number of the day and all values; and the answers are in the order of the request. -/
theorem c105_series (w : World) (hw : w.Sized) (m : Manager) (hm : Faithful w m) (source : Source) (observable : Observable)
    (static : List Char) (hst : source.static = some static) (values : List UInt64) (uuid luuid : Bytes)
    (hu : uuid.length = 16) (hl : luuid.length = 16) (table : List (UInt64 × UInt64))
    (days : List (UInt64 × List (List UInt64))) (hr : ∀ d ∈ days, ∀ r ∈ d.2, r.length = 3 + values.length)
    (hids : ∀ d ∈ days, ∀ r ∈ d.2, (r.getD 0 0).toNat < table.length) (pointers : List (List (UInt64 × UInt64)))
    (hp : appendDays values.length uuid (days.map fun d => (d.1, dayFile uuid d.2)) (List.replicate table.length []) = .ok pointers)
    (hranges : w.files (rangesPath m.base source observable) = some (writeRanges values))
    (hlookup : w.files (lookupPath m.base static) = some (writeLookup luuid table))
    (hpointers : w.files (pointersPath m.base source observable) = some (writePointers uuid pointers))
    (hfiles : ∀ d ∈ days, w.files (observationPath m.base source observable d.1.toInt64.toInt) = some (dayFile uuid d.2))
    (hsize : (writePointers uuid pointers).length < 2 ^ 64) (hsizes : ∀ d ∈ days, (dayFile uuid d.2).length < 2 ^ 64)
    (subset : List UInt64) (hs : ∀ id ∈ subset, id.toNat < table.length) :
    ∃ rs m', retrieveLocations w m source observable subset = .ok (rs, m') ∧ Faithful w m' ∧
      (∀ r ∈ rs, r.ranges = values ∧ r.lookup = ⟨luuid, table⟩) ∧
      rs.map (fun r => itemsOf r.observations) = subset.map fun id => seriesOf id days := by
  obtain ⟨p, h1, h2, h3⟩ := c25_collect values.length uuid hu table.length days hr hids
  rw [hp] at h1
  cases h1
  have hrec := c105_pointers (w.junk (pointersPath m.base source observable)) uuid (hw _) hu pointers hsize subset
    (by rw [h2]; exact hs)
  rw [← hpointers] at hrec
  obtain ⟨m', h4, h5, _⟩ := retrieveLocations_eq w hw m hm source observable static hst values luuid hl table hranges hlookup
    subset _ hrec
  refine ⟨_, m', h4, h5, ?_, ?_⟩
  · intro r hmem
    obtain ⟨x, _, rfl⟩ := List.mem_map.1 hmem
    exact ⟨rfl, rfl⟩
  · rw [List.map_map, List.map_map]
    apply List.map_congr_left
    intro id _
    simp only [Function.comp_apply]
    rw [h3]
    exact series_ok w m.base source observable values.length uuid hu days hr hfiles hsizes id

/-- **C105 violated**: what the iterator gives as the location of an element of a time series is the entry of the table at the
number of the day, which is another location, or outside the table. -/
theorem c105_location_violated (ranges : List UInt64) (luuid : Bytes) (table : List (UInt64 × UInt64)) (w : World)
    (base : List Char) (source : Source) (observable : Observable) (records : List (UInt64 × UInt64)) (id : UInt64)
    (days : List (UInt64 × List (List UInt64)))
    (h : itemsOf (series w base source observable ranges.length records) = seriesOf id days) :
    (locations ⟨ranges, ⟨luuid, table⟩, series w base source observable ranges.length records⟩ =
      days.flatMap fun d => (d.2.filter fun row => decide (row.getD 0 0 = id)).map fun _ => table[d.1.toNat]?) ∧
    ((∀ d ∈ days, table.length ≤ d.1.toNat) →
      ∀ x ∈ locations ⟨ranges, ⟨luuid, table⟩, series w base source observable ranges.length records⟩, x = none) := by
  have h1 : locations ⟨ranges, ⟨luuid, table⟩, series w base source observable ranges.length records⟩ =
      days.flatMap fun d => (d.2.filter fun row => decide (row.getD 0 0 = id)).map fun _ => table[d.1.toNat]? := by
    rw [locations, h, seriesOf, List.map_flatMap]
    apply List.flatMap_congr
    intro d _
    rw [List.map_map]
    rfl
  refine ⟨h1, fun hd x hx => ?_⟩
  rw [h1] at hx
  obtain ⟨d, hmem, hx⟩ := List.mem_flatMap.1 hx
  obtain ⟨_, _, rfl⟩ := List.mem_map.1 hx
  exact List.getElem?_eq_none (hd d hmem)

theorem wordAt_zeros (n pos : Nat) : wordAt (zeros n) pos = 0 := by
  rw [wordAt, zeros, List.drop_replicate, List.take_replicate]
  generalize min 8 (n - pos) = k
  have : ofDigits (List.replicate k 0) = 0 := by
    induction k with
    | zero => rfl
    | succ k ih => rw [List.replicate_succ, ofDigits, ih]; rfl
  rw [this]
  rfl

/-- **C105 violated**: if the file of a day has gone, a time series has zeros for it: temperature and uncertainties zero,
without an error. -/
theorem c105_missing_violated (w : World) (base : List Char) (source : Source) (observable : Observable) (ranges : Nat)
    (day offset : UInt64) (h : w.files (observationPath base source observable day.toInt64.toInt) = none) :
    itemsOf (series w base source observable ranges [(day, offset)]) = [⟨day, 0, 0, List.replicate ranges 0⟩] := by
  have hes : entrySize ranges - 8 = 8 * (2 + ranges) := by rw [entrySize]; omega
  have hz : zeros (8 * (2 + ranges)) = (List.replicate (2 + ranges) (0 : UInt64)).flatMap word := by
    generalize 2 + ranges = k
    induction k with
    | zero => rfl
    | succ k ih =>
      rw [List.replicate_succ, List.flatMap_cons, ← ih, show 8 * (k + 1) = 8 + 8 * k by ring, zeros, List.replicate_add]
      rfl
  have hb : seriesBytes w base source observable ranges (day, offset) = tofile [day :: List.replicate (2 + ranges) 0] := by
    rw [seriesBytes]
    dsimp only
    rw [signed_eq]
    rw [h, openStream, show (Stream.mk [] 0 true).seek offset.toNat = ⟨[], 0, true⟩ from rfl, read_failed _ rfl, hes, hz,
      tofile_cons, List.flatMap_cons]
    simp [tofile]
  rw [series, List.flatMap_cons, List.flatMap_nil, List.append_nil, hb]
  have := itemsOf_rows ranges (zeros 16) [day :: List.replicate (2 + ranges) 0] (by simp; omega)
  rw [show [(day, offset)].length = [day :: List.replicate (2 + ranges) (0 : UInt64)].length from rfl, this, List.map_cons,
    List.map_nil, itemOfRow]
  rw [show 2 + ranges = (ranges + 1) + 1 by omega, List.replicate_succ, List.replicate_succ]
  rfl

/-- **C105 violated**: for ships and buoys, whatever is asked for, nothing is returned and no error reported. -/
theorem c105_mobile_violated (w : World) (m : Manager) (observable : Observable) (subset : List UInt64) :
    retrieveLocations w m .insituOcean observable subset = .ok ([], m) := rfl

end Verif.Eustace.CppReader
