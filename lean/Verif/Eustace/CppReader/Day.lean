import Verif.Eustace.CppReader.Lemmas

/-!
C104: the C++ reader gets from the files of a day what the Python writer put there, and what it does with other files.
-/

namespace Verif.Eustace.CppReader

open Verif RawBinary

/-! ### Specification -/

/-- Observation `i` as an iterator is to give it. -/
def itemAt (obs : Observations UInt64) (i : Nat) : Item :=
  ⟨obs.location.getD i 0, obs.measurement.getD i 0, obs.uncorrelated.getD i 0, obs.correlated.map fun c => c.getD i 0⟩

/-- The buffers of headers have 16 bytes. -/
def World.Sized (w : World) : Prop := ∀ path, (w.junk path).length = 16

/-- What the caches hold is what is in the files. -/
def Faithful (w : World) (m : Manager) : Prop :=
  (∀ path x, m.lookups.lookup path = some x → readLookup (w.junk path) (w.files path) = .ok x) ∧
    ∀ path x, m.ranges.lookup path = some x → readRanges (w.junk path) (w.files path) = .ok x

/-- A new input manager. -/
def fresh (base : List Char) : Manager := ⟨base, [], []⟩

/-- The file with the locations of a day. -/
def lookupFile (base : List Char) (source : Source) (observable : Observable) (day : Int) : List Char :=
  match source.static with
  | some static => lookupPath base static
  | none => mobilePath base source observable day

/-! ### Files of a day -/

theorem readObservations_file (ranges : Nat) (junk uuid body : Bytes) (hj : junk.length = 16) (hu : uuid.length = 16) :
    readObservations ranges junk (some (formatObservation ++ codeId ++ uuid ++ body)) =
      if body.length % entrySize ranges ≠ 0 then .error .unexpectedDataSize
      else .ok ⟨ranges, body.length / entrySize ranges, uuid, body⟩ := by
  have hc := format_length.2.2.2.2
  have hf := format_length.1
  rw [readObservations, extendedHeader_ok _ _ _ _ _ hf formats_nonzero.1 hj (zeros_length 16) hu]
  by_cases h : body.length % entrySize ranges ≠ 0
  · rw [if_pos h, if_pos h]
  · rw [if_neg h, if_neg h]
    dsimp only
    have hlen : (formatObservation ++ codeId ++ uuid ++ body).length = 48 + body.length := by
      rw [List.length_append, List.length_append, List.length_append, hf, hc, hu]
    have hn : body.length / entrySize ranges * entrySize ranges = body.length := by
      rw [not_not] at h
      exact Nat.div_mul_cancel (Nat.dvd_of_mod_eq_zero h)
    rw [hn, read_ok _ _ _ (by rw [hlen, zeros_length]), zeros_length]
    dsimp only
    rw [List.drop_left' (by rw [List.length_append, List.length_append, hf, hc, hu]), List.take_length]

theorem entrySize_eq (ranges : Nat) : entrySize ranges = 8 * (3 + ranges) := by rw [entrySize]; ring

theorem readObservations_rows (ranges : Nat) (junk uuid : Bytes) (hj : junk.length = 16) (hu : uuid.length = 16)
    (rows : List (List UInt64)) (h : ∀ r ∈ rows, r.length = 3 + ranges) :
    readObservations ranges junk (some (dayFile uuid rows)) = .ok ⟨ranges, rows.length, uuid, tofile rows⟩ := by
  rw [dayFile, readObservations_file _ _ _ _ hj hu, tofile_length _ _ h, entrySize_eq,
    if_neg (by simp), Nat.mul_div_cancel_left _ (by omega)]

theorem readLookup_file (junk uuid : Bytes) (hj : junk.length = 16) (hu : uuid.length = 16) (table : List (UInt64 × UInt64)) :
    readLookup junk (some (writeLookup uuid table)) = .ok ⟨uuid, table⟩ := by
  have hc := format_length.2.2.2.2
  have hf := format_length.2.1
  have hb : (tofile (table.map fun p => [p.1, p.2])).length = 16 * table.length := by
    rw [tofile_length _ _ (pairs_length table), List.length_map]
  have hlen : (formatLocationLookup ++ codeId ++ uuid ++ tofile (table.map fun p => [p.1, p.2])).length =
      48 + 16 * table.length := by
    rw [List.length_append, List.length_append, List.length_append, hf, hc, hu, hb]
  rw [readLookup, writeLookup, extendedHeader_ok _ _ _ _ _ hf formats_nonzero.2.1 hj (zeros_length 16) hu, hb,
    if_neg (by simp), Nat.mul_div_cancel_left _ (by omega)]
  dsimp only
  rw [read_ok _ _ _ (by rw [hlen, zeros_length]; omega), zeros_length]
  dsimp only
  rw [List.drop_left' (by rw [List.length_append, List.length_append, hf, hc, hu]), List.take_of_length_le (by omega)]
  have := pairsOf_tofile table []
  rw [List.append_nil] at this
  rw [this]

theorem readRanges_file (junk : Bytes) (hj : junk.length = 16) (values : List UInt64) :
    readRanges junk (some (writeRanges values)) = .ok values := by
  have hc := format_length.2.2.2.2
  have hf := format_length.2.2.1
  have hrows : ∀ r ∈ values.map fun p => [p], r.length = 1 := by
    intro r hr
    obtain ⟨p, _, rfl⟩ := List.mem_map.1 hr
    rfl
  have hb : (tofile (values.map fun r => [r])).length = 8 * values.length := by
    rw [tofile_length _ _ hrows, List.length_map]
  have hlen : (formatCorrelationRange ++ codeId ++ tofile (values.map fun r => [r])).length = 32 + 8 * values.length := by
    rw [List.length_append, List.length_append, hf, hc, hb]
  rw [readRanges, writeRanges, checkHeader_ok _ _ _ hf formats_nonzero.2.2.1 hj]
  dsimp only
  rw [numEntries_ok _ _ _ (by omega), hlen, show 32 + 8 * values.length - 32 = 8 * values.length by omega, if_neg (by simp),
    Nat.mul_div_cancel_left _ (by omega)]
  dsimp only
  rw [read_ok _ _ _ (by rw [hlen, zeros_length]; omega), zeros_length]
  dsimp only
  rw [List.drop_left' (by rw [List.length_append, hf, hc]), List.take_of_length_le (by omega)]
  congr 1
  apply List.ext_getElem?
  intro i
  rw [List.getElem?_map]
  by_cases hi : i < values.length
  · rw [List.getElem?_range hi, List.getElem?_eq_getElem hi, Option.map_some]
    have h0 := wordAt_rows (values.map fun p => [p]) 1 hrows [] i 0 (by simpa using hi) (by omega)
    rw [List.append_nil, show 8 * 1 * i + 8 * 0 = 8 * i by ring] at h0
    rw [h0]
    simp
  · rw [List.getElem?_eq_none (by simpa using hi), List.getElem?_eq_none (by simpa using hi)]
    rfl

/-! ### Caches -/

theorem retrieve_eq {α : Type} (read : Bytes → Option Bytes → Except CppErr α) (w : World) (cache : Cache α) (path : List Char)
    (h : ∀ path x, cache.lookup path = some x → read (w.junk path) (w.files path) = .ok x) :
    (∃ e, read (w.junk path) (w.files path) = .error e ∧ retrieve read w cache path = .error e) ∨
      ∃ x cache', read (w.junk path) (w.files path) = .ok x ∧ retrieve read w cache path = .ok (x, cache') ∧
        ∀ path x, cache'.lookup path = some x → read (w.junk path) (w.files path) = .ok x := by
  rw [retrieve]
  cases hc : cache.lookup path with
  | some x => exact .inr ⟨x, cache, h path x hc, rfl, h⟩
  | none =>
    dsimp only
    cases hr : read (w.junk path) (w.files path) with
    | error e => exact .inl ⟨e, rfl, rfl⟩
    | ok x =>
      refine .inr ⟨x, (path, x) :: cache, rfl, rfl, ?_⟩
      intro p y hp
      rw [List.lookup_cons] at hp
      by_cases hpp : p = path
      · rw [hpp, beq_self_eq_true] at hp
        cases hp
        rw [hpp, hr]
      · rw [beq_eq_false_iff_ne.2 hpp] at hp
        exact h p y hp

theorem fresh_faithful (w : World) (base : List Char) : Faithful w (fresh base) :=
  ⟨fun _ _ h => by simp [fresh] at h, fun _ _ h => by simp [fresh] at h⟩

theorem dayLookup_eq (w : World) (m : Manager) (hm : Faithful w m) (source : Source) (observable : Observable) (day : Int) :
    (∃ e, readLookup (w.junk (lookupFile m.base source observable day)) (w.files (lookupFile m.base source observable day)) =
        .error e ∧ dayLookup w m source observable day = .error e) ∨
      ∃ l m', readLookup (w.junk (lookupFile m.base source observable day)) (w.files (lookupFile m.base source observable day)) =
        .ok l ∧ dayLookup w m source observable day = .ok (l, m') ∧ Faithful w m' ∧ m'.base = m.base := by
  rw [dayLookup, lookupFile]
  cases hs : source.static with
  | some static =>
    dsimp only
    rcases retrieve_eq readLookup w m.lookups (lookupPath m.base static) hm.1 with ⟨e, h1, h2⟩ | ⟨l, cache, h1, h2, h3⟩
    · exact .inl ⟨e, h1, by rw [h2]⟩
    · exact .inr ⟨l, { m with lookups := cache }, h1, by rw [h2], ⟨h3, hm.2⟩, rfl⟩
  | none =>
    dsimp only
    cases hr : readLookup (w.junk (mobilePath m.base source observable day)) (w.files (mobilePath m.base source observable day))
      with
    | error e => exact .inl ⟨e, rfl, rfl⟩
    | ok l => exact .inr ⟨l, m, rfl, rfl, hm, rfl⟩

/-- What `RetrieveDay` gives, without caches. -/
def dayOfFiles (w : World) (base : List Char) (source : Source) (observable : Observable) (day : Int) :
    Except CppErr Retrieval :=
  match readRanges (w.junk (rangesPath base source observable)) (w.files (rangesPath base source observable)) with
  | .error e => .error e
  | .ok ranges =>
    match readLookup (w.junk (lookupFile base source observable day)) (w.files (lookupFile base source observable day)) with
    | .error e => .error e
    | .ok lookup =>
      match readObservations ranges.length (w.junk (observationPath base source observable day))
          (w.files (observationPath base source observable day)) with
      | .error e => .error e
      | .ok obs => .ok ⟨ranges, lookup, obs⟩

/-- **C104**, caches: after any requests, a day is what its files hold, and remains so. -/
theorem c104_cache (w : World) (m : Manager) (hm : Faithful w m) (source : Source) (observable : Observable) (day : Int) :
    (∃ e, dayOfFiles w m.base source observable day = .error e ∧ retrieveDay w m source observable day = .error e) ∨
      ∃ r m', dayOfFiles w m.base source observable day = .ok r ∧ retrieveDay w m source observable day = .ok (r, m') ∧
        Faithful w m' ∧ m'.base = m.base := by
  rw [dayOfFiles, retrieveDay]
  rcases retrieve_eq readRanges w m.ranges (rangesPath m.base source observable) hm.2 with ⟨e, h1, h2⟩ | ⟨rs, cache, h1, h2, h3⟩
  · exact .inl ⟨e, by rw [h1], by rw [h2]⟩
  · rw [h1, h2]
    dsimp only
    rcases dayLookup_eq w { m with ranges := cache } ⟨hm.1, h3⟩ source observable day with
      ⟨e, h4, h5⟩ | ⟨l, m', h4, h5, h6, h7⟩
    · exact .inl ⟨e, by rw [h4], by rw [h5]⟩
    · dsimp only at h4
      rw [h4, h5]
      dsimp only
      cases readObservations rs.length (w.junk (observationPath m.base source observable day))
        (w.files (observationPath m.base source observable day)) with
      | error e => exact .inl ⟨e, rfl, rfl⟩
      | ok obs => exact .inr ⟨_, m', rfl, rfl, h6, h7⟩

/-! ### The property -/

theorem itemOfRow_row (obs : Observations UInt64) (i : Nat) :
    itemOfRow ((obs.location :: obs.measurement :: obs.uncorrelated :: obs.correlated).map fun l => l.getD i 0) =
      itemAt obs i := rfl

/-- **C104**, for all observations, days, sources and earlier requests: from files as the Python writers make them the C++ reader
gets exactly the unmasked observations of the day, in order, with all values; the ranges; and for each observation the location
which the table has for it. -/
theorem c104_day (w : World) (hw : w.Sized) (m : Manager) (hm : Faithful w m) (source : Source) (observable : Observable)
    (day : Int) (obs : Observations UInt64) (n : Nat) (hs : obs.Sized n) (ht : TimeSized obs.time n) (uuid luuid : Bytes)
    (hu : uuid.length = 16) (hl : luuid.length = 16) (table : List (UInt64 × UInt64)) (values : List UInt64)
    (hv : values.length = obs.correlated.length)
    (hranges : w.files (rangesPath m.base source observable) = some (writeRanges values))
    (hlookup : w.files (lookupFile m.base source observable day) = some (writeLookup luuid table)) (file : Bytes)
    (hfile : writeDay uuid obs day = .ok file) (hday : w.files (observationPath m.base source observable day) = some file) :
    ∃ r m' kept, retrieveDay w m source observable day = .ok (r, m') ∧ Faithful w m' ∧ Kept obs day kept ∧
      r.ranges = values ∧ r.lookup = ⟨luuid, table⟩ ∧ r.observations.uuid = uuid ∧ r.observations.count = kept.length ∧
      itemsOf r.observations = kept.map (itemAt obs) ∧
      locations r = kept.map fun i => table[(obs.location.getD i 0).toNat]? := by
  obtain ⟨kept, hk, _, hwr⟩ := write_ok uuid obs n hs ht day
  rw [hfile] at hwr
  have hrows := rows_length obs kept
  set rows := kept.map fun i => (obs.location :: obs.measurement :: obs.uncorrelated :: obs.correlated).map fun l => l.getD i 0
    with hr
  have hf : file = dayFile uuid rows := Except.ok.inj hwr
  have hlen : rows.length = kept.length := by rw [hr, List.length_map]
  have hd : dayOfFiles w m.base source observable day =
      .ok ⟨values, ⟨luuid, table⟩, ⟨obs.correlated.length, rows.length, uuid, tofile rows⟩⟩ := by
    rw [dayOfFiles, hranges, readRanges_file _ (hw _)]
    dsimp only
    rw [hlookup, readLookup_file _ _ (hw _) hl]
    dsimp only
    rw [hday, hf, hv, readObservations_rows _ _ _ (hw _) hu rows hrows]
  have hitems : itemsOf ⟨obs.correlated.length, rows.length, uuid, tofile rows⟩ = kept.map (itemAt obs) := by
    rw [itemsOf_rows _ _ _ hrows, hr, List.map_map]
    rfl
  rcases c104_cache w m hm source observable day with ⟨e, h1, _⟩ | ⟨r, m', h1, h2, h3, _⟩
  · rw [hd] at h1
    cases h1
  · rw [hd] at h1
    cases h1
    refine ⟨_, m', kept, h2, h3, hk, rfl, rfl, rfl, hlen, hitems, ?_⟩
    rw [locations, hitems, List.map_map]
    rfl

/-- **C104 violated**: the identifier of the table of locations which the observations refer to is not compared with that of the
table used: observations made with another table are read, at the locations of this one. -/
theorem c104_uuid_violated (w : World) (hw : w.Sized) (base : List Char) (source : Source) (observable : Observable) (day : Int)
    (uuid luuid : Bytes) (hu : uuid.length = 16) (hl : luuid.length = 16) (_hne : uuid ≠ luuid) (id x y lat lon : UInt64)
    (table : List (UInt64 × UInt64)) (hid : table[id.toNat]? = some (lat, lon))
    (hranges : w.files (rangesPath base source observable) = some (writeRanges []))
    (hlookup : w.files (lookupFile base source observable day) = some (writeLookup luuid table))
    (hday : w.files (observationPath base source observable day) = some (dayFile uuid [[id, x, y]])) :
    ∃ r m', retrieveDay w (fresh base) source observable day = .ok (r, m') ∧ r.observations.uuid ≠ r.lookup.uuid ∧
      itemsOf r.observations = [⟨id, x, y, []⟩] ∧ locations r = [some (lat, lon)] := by
  have hrows : ∀ r ∈ [[id, x, y]], r.length = 3 + 0 := by simp
  have hd : dayOfFiles w base source observable day =
      .ok ⟨[], ⟨luuid, table⟩, ⟨0, 1, uuid, tofile [[id, x, y]]⟩⟩ := by
    rw [dayOfFiles, hranges, readRanges_file _ (hw _)]
    dsimp only
    rw [hlookup, readLookup_file _ _ (hw _) hl]
    dsimp only
    rw [hday, show ([] : List UInt64).length = 0 from rfl, readObservations_rows _ _ _ (hw _) hu _ hrows]
    rfl
  have hitems : itemsOf ⟨0, 1, uuid, tofile [[id, x, y]]⟩ = [⟨id, x, y, []⟩] := itemsOf_rows 0 uuid _ hrows
  rcases c104_cache w (fresh base) (fresh_faithful w base) source observable day with ⟨e, h1, _⟩ | ⟨r, m', h1, h2, _, _⟩
  · rw [show (fresh base).base = base from rfl, hd] at h1
    cases h1
  · rw [show (fresh base).base = base from rfl, hd] at h1
    cases h1
    refine ⟨_, m', h2, _hne, hitems, ?_⟩
    rw [locations, hitems]
    simp [location, hid]

/-! ### Other files -/

/-- A file of another format is refused, by each reader. -/
theorem c104_format (junk file : Bytes) (hj : junk.length = 16) (hl : 16 ≤ file.length) :
    (file.take 16 ≠ formatObservation → ∀ ranges, readObservations ranges junk (some file) = .error .badHeader) ∧
      (file.take 16 ≠ formatLocationLookup → readLookup junk (some file) = .error .badHeader) ∧
      (file.take 16 ≠ formatCorrelationRange → readRanges junk (some file) = .error .badHeader) ∧
      (file.take 16 ≠ formatPointers → ∀ subset, readPointers junk (some file) subset = .error .badHeader) := by
  have gen : ∀ format : Bytes, format.length = 16 → (∀ x ∈ format, x ≠ 0) → file.take 16 ≠ format →
      checkHeader format junk (openStream (some file)) = .error .badHeader := by
    intro format hf hz hne
    rw [checkHeader, openStream, read_ok _ _ _ (by rw [hj]; omega), hj]
    dsimp only
    rw [if_pos]
    rw [differ_iff _ _ _ (by rw [List.length_take, List.length_drop]; omega) hf hz]
    simpa using hne
  refine ⟨fun h ranges => ?_, fun h => ?_, fun h => ?_, fun h subset => ?_⟩
  · rw [readObservations, extendedHeader, gen _ format_length.1 formats_nonzero.1 h]
  · rw [readLookup, extendedHeader, gen _ format_length.2.1 formats_nonzero.2.1 h]
  · rw [readRanges, gen _ format_length.2.2.1 formats_nonzero.2.2.1 h]
  · rw [readPointers, pointersHeader, gen _ format_length.2.2.2.1 formats_nonzero.2.2.2 h]

theorem dayFile_length (uuid : Bytes) (hu : uuid.length = 16) (rows : List (List UInt64)) (k : Nat)
    (h : ∀ r ∈ rows, r.length = k) : (dayFile uuid rows).length = 48 + 8 * k * rows.length := by
  rw [dayFile, List.length_append, List.length_append, List.length_append, format_length.1, format_length.2.2.2.2, hu,
    tofile_length _ _ h]

theorem tofile_take (rows : List (List UInt64)) (k : Nat) (h : ∀ r ∈ rows, r.length = k) (c : Nat) (hc : c ≤ rows.length) :
    (tofile rows).take (8 * k * c) = tofile (rows.take c) := by
  have h1 : tofile rows = tofile (rows.take c) ++ tofile (rows.drop c) := by
    conv_lhs => rw [← List.take_append_drop c rows]
    rw [tofile, List.flatMap_append]
    rfl
  rw [h1, List.take_left']
  rw [tofile_length _ k fun r hr => h r (List.mem_of_mem_take hr), List.length_take, Nat.min_eq_left hc]

/-- **C104**, a file which has been cut off after its header: it is refused unless it ends with a record, and then the records
there are are read. -/
theorem c104_cut (ranges : Nat) (junk uuid : Bytes) (hj : junk.length = 16) (hu : uuid.length = 16) (rows : List (List UInt64))
    (h : ∀ r ∈ rows, r.length = 3 + ranges) (size : Nat) (h1 : 48 ≤ size) (h2 : size ≤ (dayFile uuid rows).length) :
    ((∀ c, size ≠ 48 + 8 * (3 + ranges) * c) →
        readObservations ranges junk (some ((dayFile uuid rows).take size)) = .error .unexpectedDataSize) ∧
      ∀ c, size = 48 + 8 * (3 + ranges) * c → ∃ e,
        readObservations ranges junk (some ((dayFile uuid rows).take size)) = .ok e ∧
          itemsOf e = (rows.take c).map itemOfRow := by
  have hfl := dayFile_length uuid hu rows _ h
  have hcut : (dayFile uuid rows).take size =
      formatObservation ++ codeId ++ uuid ++ (tofile rows).take (size - 48) := by
    have h48 : (formatObservation ++ codeId ++ uuid).length = 48 := by
      rw [List.length_append, List.length_append, format_length.1, format_length.2.2.2.2, hu]
    rw [dayFile, List.take_append, h48, List.take_of_length_le (by omega)]
  have hbl : ((tofile rows).take (size - 48)).length = size - 48 := by
    rw [List.length_take, tofile_length _ _ h]
    omega
  rw [hcut, readObservations_file _ _ _ _ hj hu, hbl, entrySize_eq]
  constructor
  · intro hne
    rw [if_pos]
    intro h0
    obtain ⟨c, hc⟩ := Nat.dvd_of_mod_eq_zero h0
    exact hne c (by omega)
  · intro c hc
    have hsz : size - 48 = 8 * (3 + ranges) * c := by omega
    have hle : c ≤ rows.length := by
      rw [hfl, hc] at h2
      have : 8 * (3 + ranges) * c ≤ 8 * (3 + ranges) * rows.length := by omega
      exact Nat.le_of_mul_le_mul_left this (by omega)
    have htl : (rows.take c).length = c := by rw [List.length_take]; omega
    rw [if_neg (by rw [hsz]; simp), hsz, Nat.mul_div_cancel_left _ (by omega), tofile_take _ _ h c hle]
    refine ⟨_, rfl, ?_⟩
    have := itemsOf_rows ranges uuid (rows.take c) fun r hr => h r (List.mem_of_mem_take hr)
    rw [htl] at this
    exact this

/-- **C104 violated**: a file which has been cut off within its header, after the format identifier, is read without an error as
a day without observations. -/
theorem c104_header_cut_violated (ranges : Nat) (junk uuid : Bytes) (hj : junk.length = 16) (hu : uuid.length = 16)
    (rows : List (List UInt64)) (size : Nat) (h1 : 16 ≤ size) (h2 : size < 48) :
    ∃ e, readObservations ranges junk (some ((dayFile uuid rows).take size)) = .ok e ∧ itemsOf e = [] := by
  have hf := format_length.1
  have hc := format_length.2.2.2.2
  have hl : ((dayFile uuid rows).take size).length = size := by
    rw [List.length_take, dayFile, List.length_append, List.length_append, List.length_append, hf, hc, hu]
    omega
  have ht : ((dayFile uuid rows).take size).take 16 = formatObservation := by
    rw [List.take_take, Nat.min_eq_left h1, dayFile, List.append_assoc, List.append_assoc, List.take_left' hf]
  set file := (dayFile uuid rows).take size with hfile
  have hread : (Stream.mk file 0 false).read junk = (formatObservation, ⟨file, 16, false⟩) := by
    rw [read_ok _ _ _ (by rw [hj]; omega), hj, List.drop_zero, ht]
  have hcheck : checkHeader formatObservation junk (openStream (some file)) = .ok ((Stream.mk file 16 false).read junk).2 := by
    rw [checkHeader, openStream, hread]
    dsimp only
    rw [if_neg]
    rw [differ_iff _ _ _ hf hf formats_nonzero.1]
    simp
  have hfail : (((Stream.mk file 16 false).read junk).2.read (zeros 16)).2.fail = true := by
    by_cases h32 : size < 32
    · have h3 := read_short file 16 junk (by rw [hl, hj]; omega) (by omega)
      rw [read_failed _ h3]
      exact h3
    · rw [read_ok file 16 junk (by rw [hl, hj]; omega), hj]
      exact read_short file 32 _ (by rw [hl, zeros_length]; omega) (by rw [zeros_length]; omega)
  rw [readObservations, extendedHeader, hcheck]
  dsimp only
  rw [numEntries_failed _ hfail]
  refine ⟨_, rfl, ?_⟩
  rw [itemsOf_eq]
  rfl

/-- **C104**, a file which does not exist: whether it is refused depends on what memory happens to hold. -/
theorem c104_missing (ranges : Nat) (junk : Bytes) (hj : junk.length = 16) :
    (junk ≠ formatObservation → readObservations ranges junk none = .error .badHeader) ∧
      (junk = formatObservation → ∃ e, readObservations ranges junk none = .ok e ∧ itemsOf e = []) := by
  have hread : ∀ b, (Stream.mk [] 0 true).read b = (b, ⟨[], 0, true⟩) := fun b => read_failed _ rfl b
  constructor
  · intro h
    rw [readObservations, extendedHeader, checkHeader, openStream, hread]
    dsimp only
    rw [if_pos ((differ_iff _ _ _ hj format_length.1 formats_nonzero.1).2 h)]
  · intro h
    rw [readObservations, extendedHeader, checkHeader, openStream, hread]
    dsimp only
    rw [if_neg (by rw [differ_iff _ _ _ hj format_length.1 formats_nonzero.1]; simpa using h), hread]
    dsimp only
    rw [hread]
    dsimp only
    rw [numEntries_failed _ rfl]
    refine ⟨_, rfl, ?_⟩
    rw [itemsOf_eq]
    rfl

/-- **C104 violated**: a file of a day which does not exist can be read as a day without observations. -/
theorem c104_missing_violated :
    ∃ junk : Bytes, junk.length = 16 ∧ ∀ ranges, ∃ e, readObservations ranges junk none = .ok e ∧ itemsOf e = [] :=
  ⟨formatObservation, format_length.1, fun ranges => (c104_missing ranges _ format_length.1).2 rfl⟩

/-! ### Totals -/

/-- **C104**: the totals are the number of records in a file. -/
theorem c104_counts (w : World) (hw : w.Sized) (m : Manager) (hm : Faithful w m) (source : Source) (observable : Observable)
    (day : Int) (uuid luuid : Bytes) (hu : uuid.length = 16) (hl : luuid.length = 16) (rows : List (List UInt64))
    (table : List (UInt64 × UInt64)) (values : List UInt64) (hrows : ∀ r ∈ rows, r.length = 3 + values.length) :
    (w.files (rangesPath m.base source observable) = some (writeRanges values) →
      w.files (observationPath m.base source observable day) = some (dayFile uuid rows) →
        ∃ m', totalDaily w m source observable day = .ok (rows.length, m') ∧ Faithful w m' ∧ m'.base = m.base) ∧
    (∀ static, source.static = some static → w.files (lookupPath m.base static) = some (writeLookup luuid table) →
      totalLocations w m source = .ok table.length) ∧
    (source.static = none → totalLocations w m source = .ok 0) ∧
    (w.files (mobilePath m.base source observable day) = some (writeLookup luuid table) →
      totalDailyMobileLocations w m source observable day = .ok table.length) := by
  have hlook : ∀ junk : Bytes, junk.length = 16 → ∃ s,
      extendedHeader formatLocationLookup junk (zeros 16) 16 (openStream (some (writeLookup luuid table))) =
        .ok (luuid, table.length, s) := by
    intro junk hj
    rw [writeLookup, extendedHeader_ok _ _ _ _ _ format_length.2.1 formats_nonzero.2.1 hj (zeros_length 16) hl,
      tofile_length _ _ (pairs_length table), List.length_map, if_neg (by simp), Nat.mul_div_cancel_left _ (by omega)]
    exact ⟨_, rfl⟩
  refine ⟨?_, ?_, ?_, ?_⟩
  · intro h1 h2
    rw [totalDaily]
    rcases retrieve_eq readRanges w m.ranges (rangesPath m.base source observable) hm.2 with ⟨e, h3, _⟩ | ⟨rs, cache, h3, h4, h5⟩
    · rw [h1, readRanges_file _ (hw _)] at h3
      cases h3
    · rw [h1, readRanges_file _ (hw _)] at h3
      cases h3
      rw [h4]
      dsimp only
      rw [h2, dayFile, extendedHeader_ok _ _ _ _ _ format_length.1 formats_nonzero.1 (hw _) (zeros_length 16) hu,
        tofile_length _ _ hrows, entrySize_eq, if_neg (by simp), Nat.mul_div_cancel_left _ (by omega)]
      exact ⟨_, rfl, ⟨hm.1, h5⟩, rfl⟩
  · intro static hst h1
    obtain ⟨s, hs⟩ := hlook _ (hw (lookupPath m.base static))
    rw [totalLocations, hst]
    dsimp only
    rw [h1, hs]
  · intro hst
    rw [totalLocations, hst]
  · intro h1
    obtain ⟨s, hs⟩ := hlook _ (hw (mobilePath m.base source observable day))
    rw [totalDailyMobileLocations, h1, hs]

/-- The days of an input. -/
def Input.days (i : Input) : List Int := (List.range (i.endday - i.startday + 1).toNat).map fun (k : Nat) => i.startday + k

/-- The inputs of a source and observable. -/
def matching (source : Source) (observable : Observable) (inputs : List Input) : List Input :=
  inputs.filter fun i => decide (i.source = source ∧ i.observable = observable)

theorem totalDays_ok (w : World) (hw : w.Sized) (source : Source) (observable : Observable) (values : List UInt64)
    (uuid : Int → Bytes) (rows : Int → List (List UInt64)) (base : List Char)
    (hranges : w.files (rangesPath base source observable) = some (writeRanges values)) (n : Nat) (start : Int) (m : Manager)
    (hm : Faithful w m) (hb : m.base = base) (total : Nat)
    (hdays : ∀ k : Nat, k < n → (uuid (start + k)).length = 16 ∧ (∀ r ∈ rows (start + k), r.length = 3 + values.length) ∧
      w.files (observationPath base source observable (start + k)) = some (dayFile (uuid (start + k)) (rows (start + k)))) :
    ∃ m', totalDays w source observable n start m total =
        .ok (total + ((List.range n).map fun (k : Nat) => (rows (start + k)).length).sum, m') ∧ Faithful w m' ∧ m'.base = base := by
  induction n generalizing start m total with
  | zero => exact ⟨m, rfl, hm, hb⟩
  | succ n ih =>
    obtain ⟨h1, h2, h3⟩ := hdays 0 (by omega)
    simp only [Nat.cast_zero, add_zero] at h1 h2 h3
    have hc := (c104_counts w hw m hm source observable start (uuid start) (uuid start) h1 h1 (rows start) [] values h2).1
    rw [hb] at hc
    obtain ⟨m1, h4, h5, h6⟩ := hc hranges h3
    obtain ⟨m2, h7, h8, h9⟩ := ih (start + 1) m1 h5 h6 (total + (rows start).length) (by
      intro k hk
      have := hdays (k + 1) (by omega)
      rw [show start + ((k + 1 : Nat) : Int) = start + 1 + k by push_cast; ring] at this
      exact this)
    refine ⟨m2, ?_, h8, h9⟩
    rw [totalDays, h4]
    dsimp only
    rw [h7, List.range_succ_eq_map, List.map_cons, List.map_map, List.sum_cons, Nat.add_assoc]
    simp only [Nat.cast_zero, add_zero]
    congr 5
    apply List.map_congr_left
    intro k _
    simp only [Function.comp_apply]
    rw [show start + ((k.succ : Nat) : Int) = start + 1 + k by push_cast; ring]

/-- **C104**: the total over all inputs specified is the sum over the days of each, both ends included.  A day which belongs to
two inputs is counted twice. -/
theorem c104_total (w : World) (hw : w.Sized) (source : Source) (observable : Observable) (values : List UInt64)
    (uuid : Int → Bytes) (rows : Int → List (List UInt64)) (inputs : List Input) (m : Manager) (hm : Faithful w m)
    (hranges : w.files (rangesPath m.base source observable) = some (writeRanges values))
    (hdays : ∀ i ∈ matching source observable inputs, ∀ day, i.startday ≤ day → day ≤ i.endday →
      (uuid day).length = 16 ∧ (∀ r ∈ rows day, r.length = 3 + values.length) ∧
        w.files (observationPath m.base source observable day) = some (dayFile (uuid day) (rows day))) :
    ∃ m', totalObservations w source observable inputs m 0 =
      .ok ((((matching source observable inputs).flatMap Input.days).map fun day => (rows day).length).sum, m') := by
  have gen : ∀ (inputs : List Input) (m' : Manager) (total : Nat), Faithful w m' → m'.base = m.base →
      (∀ i ∈ matching source observable inputs, ∀ day, i.startday ≤ day → day ≤ i.endday →
        (uuid day).length = 16 ∧ (∀ r ∈ rows day, r.length = 3 + values.length) ∧
          w.files (observationPath m.base source observable day) = some (dayFile (uuid day) (rows day))) →
      ∃ m'', totalObservations w source observable inputs m' total =
        .ok (total + (((matching source observable inputs).flatMap Input.days).map fun day => (rows day).length).sum, m'') := by
    intro inputs
    induction inputs with
    | nil => exact fun m' total _ _ _ => ⟨m', rfl⟩
    | cons input rest ih =>
      intro m' total hf hb hd
      rw [totalObservations]
      by_cases hmatch : input.source = source ∧ input.observable = observable
      · have hcons : matching source observable (input :: rest) = input :: matching source observable rest := by
          rw [matching, List.filter_cons, if_pos (by simpa using hmatch)]
          rfl
        rw [hcons] at hd ⊢
        rw [if_pos hmatch]
        obtain ⟨m1, h1, h2, h3⟩ := totalDays_ok w hw source observable values uuid rows m.base hranges
          (input.endday - input.startday + 1).toNat input.startday m' hf hb total (fun k hk =>
            hd input List.mem_cons_self (input.startday + k) (by omega) (by omega))
        obtain ⟨m2, h4⟩ := ih m1 (total + ((List.range (input.endday - input.startday + 1).toNat).map fun (k : Nat) =>
          (rows (input.startday + k)).length).sum) h2 h3 (fun i hi => hd i (List.mem_cons_of_mem _ hi))
        refine ⟨m2, ?_⟩
        rw [h1]
        dsimp only
        rw [h4, List.flatMap_cons, List.map_append, List.sum_append, Nat.add_assoc, Input.days, List.map_map]
        rfl
      · have hcons : matching source observable (input :: rest) = matching source observable rest := by
          rw [matching, List.filter_cons, if_neg (by simpa using hmatch)]
          rfl
        rw [hcons] at hd ⊢
        rw [if_neg hmatch]
        exact ih m' total hf hb hd
  obtain ⟨m', h⟩ := gen inputs m 0 hm rfl hdays
  rw [Nat.zero_add] at h
  exact ⟨m', h⟩

end Verif.Eustace.CppReader
