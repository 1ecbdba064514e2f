import Verif.Eustace.RawBinary.Model
import Verif.Eumopps.Names.Model
import Mathlib.Data.Int.Cast.Basic

/-!
Model of the C++ reader of raw binary observations, `/repo/src/cpp/eustace/`: analysis/fileio/rawbinary.h and rawbinary.cpp,
analysis/fileio/locationpointers.h and locationpointers.cpp, analysis/observationsource.h, analysis/inputmanager.h and
inputmanager.cpp, timeutils/timebase.cpp, definitions.cpp.

Files are lists of bytes, as in `RawBinary`.  Memory which has not been initialised is an argument (`junk`): what is proved for
every `junk` does not depend on it.  Simplified: no memory runs out, positions in files are natural numbers, and taking the
address of the first element of an empty vector is harmless (as it is with the compilers used).
-/

namespace Verif.Eustace.CppReader

open Verif RawBinary

/-- The exceptions of the reader (rawbinary.h 15-25). -/
inductive CppErr where
  | badHeader
  | unexpectedDataSize
  deriving DecidableEq, Repr

/-! ### Streams -/

/-- `std::ifstream` (C++ library): the file, the position and whether an operation has failed. -/
structure Stream where
  file : Bytes
  pos : Nat
  fail : Bool

/-- `std::ifstream(name, std::ios::binary)`: a file which is not there leaves a stream on which everything fails. -/
def openStream : Option Bytes → Stream
  | some file => ⟨file, 0, false⟩
  | none => ⟨[], 0, true⟩

/-- `std::istream::read(buffer, buffer.length)`: what the buffer then holds.  Nothing is read by a stream which has failed; at
the end of the file the bytes there are are read and the stream fails. -/
def Stream.read (s : Stream) (buffer : Bytes) : Bytes × Stream :=
  if s.fail then (buffer, s)
  else
    let got := (s.file.drop s.pos).take buffer.length
    (got ++ buffer.drop got.length, ⟨s.file, s.pos + got.length, decide (got.length < buffer.length)⟩)

/-- `std::istream::seekg(pos, std::ios::beg)`: does nothing on a stream which has failed.  A position after the end of a file is
allowed. -/
def Stream.seek (s : Stream) (pos : Nat) : Stream := if s.fail then s else ⟨s.file, pos, false⟩

/-- `std::istream::tellg()`. -/
def Stream.tell (s : Stream) : Int := if s.fail then -1 else s.pos

/-- `inputstream.seekg(0, std::ios::end)`. -/
def Stream.seekEnd (s : Stream) : Stream := if s.fail then s else ⟨s.file, s.file.length, false⟩

/-! ### Readers -/

/-- `strncmp(a, b, n) != 0` (C library): texts end at a zero byte. -/
def differ : Nat → Bytes → Bytes → Bool
  | 0, _, _ => false
  | _ + 1, [], [] => false
  | _ + 1, [], b :: _ => b != 0
  | _ + 1, a :: _, [] => a != 0
  | n + 1, a :: as, b :: bs => if a ≠ b then true else if a = 0 then false else differ n as bs

/-- A new vector of `n` bytes. -/
def zeros (n : Nat) : Bytes := List.replicate n 0

/-- `RawBinaryReader::ReadAndCheckHeader` (rawbinary.cpp 10-23); `junk` is what the buffers held before. -/
def checkHeader (format junk : Bytes) (s : Stream) : Except CppErr Stream :=
  let id := s.read junk
  let code := id.2.read junk
  if differ 16 id.1 format then .error .badHeader else .ok code.2

/-- `RawBinaryReader::NumEntriesRemaining` (rawbinary.cpp 25-41).  Simplified: the difference of positions is never negative, so
its type is not modelled. -/
def numEntries (s : Stream) (entrysize : Nat) : Except CppErr Nat :=
  let databytes := (s.seekEnd.tell - s.tell).toNat
  if databytes % entrysize ≠ 0 then .error .unexpectedDataSize else .ok (databytes / entrysize)

/-- `RawBinaryLocationCategoryReader::ReadAndCheckExtendedHeader` (rawbinary.cpp 48-61): identifier of the lookup, number of
entries and the stream; `uuid` is what the identifier was before. -/
def extendedHeader (format junk uuid : Bytes) (entrysize : Nat) (s : Stream) : Except CppErr (Bytes × Nat × Stream) :=
  match checkHeader format junk s with
  | .error e => .error e
  | .ok s1 =>
    let id := s1.read uuid
    match numEntries id.2 entrysize with
    | .error e => .error e
    | .ok n => .ok (id.1, n, id.2)

/-- `ObservationEntries` (observationsource.h 69-114). -/
structure Entries where
  ranges : Nat
  count : Nat
  uuid : Bytes
  bytes : Bytes

/-- `EntrySizeBytes` (observationsource.h 86-87). -/
def entrySize (ranges : Nat) : Nat := 8 + 8 + 8 + 8 * ranges

/-- `ObservationRawBinaryReader::Read` (rawbinary.cpp 79-88) into a new object. -/
def readObservations (ranges : Nat) (junk : Bytes) (file : Option Bytes) : Except CppErr Entries :=
  match extendedHeader formatObservation junk (zeros 16) (entrySize ranges) (openStream file) with
  | .error e => .error e
  | .ok (uuid, n, s) => .ok ⟨ranges, n, uuid, (s.read (zeros (n * entrySize ranges))).1⟩

/-- The number in eight bytes at a place. -/
def wordAt (bytes : Bytes) (pos : Nat) : UInt64 := UInt64.ofNat (ofDigits ((bytes.drop pos).take 8))

/-- What an iterator gives of one observation. -/
structure Item where
  identifier : UInt64
  measurement : UInt64
  uncorrelated : UInt64
  correlated : List UInt64
  deriving DecidableEq, Repr

/-- `ObservationIterator` (observationsource.h 116-168): position in the list and position in memory. -/
structure Iter where
  index : Nat
  pointer : Nat

/-- `Identifier`, `Measurement`, `UncertaintyUncorrelated` and all `UncertaintyLocallyCorrelated` (observationsource.h
127-145). -/
def item (e : Entries) (it : Iter) : Item where
  identifier := wordAt e.bytes it.pointer
  measurement := wordAt e.bytes (it.pointer + 8)
  uncorrelated := wordAt e.bytes (it.pointer + 16)
  correlated := (List.range e.ranges).map fun i => wordAt e.bytes (it.pointer + 24 + 8 * i)

/-- The loop `for (Iterator i(entries); i.HasElement(); i.Next())` (observationsource.h 147-160; used in
example_analysis_input.cpp), with enough steps. -/
def iterate (e : Entries) : Nat → Iter → List Item
  | 0, _ => []
  | fuel + 1, it =>
    if it.index < e.count then item e it :: iterate e fuel ⟨it.index + 1, it.pointer + entrySize e.ranges⟩ else []

/-- All elements, from a new iterator (observationsource.h 119-125). -/
def itemsOf (e : Entries) : List Item := iterate e (e.count + 1) ⟨0, 0⟩

/-- Pairs of numbers in an array of `n` records of 16 bytes (`LocationEntry`, observationsource.h 38-43;
`LocationPointerRecord`, locationpointers.h 10-15). -/
def pairsOf (n : Nat) (bytes : Bytes) : List (UInt64 × UInt64) :=
  (List.range n).map fun i => (wordAt bytes (16 * i), wordAt bytes (16 * i + 8))

/-- `LocationLookup` (observationsource.h 45-67). -/
structure Lookup where
  uuid : Bytes
  table : List (UInt64 × UInt64)
  deriving DecidableEq, Repr

/-- `LocationLookupRawBinaryReader::Read` (rawbinary.cpp 105-114) into a new object. -/
def readLookup (junk : Bytes) (file : Option Bytes) : Except CppErr Lookup :=
  match extendedHeader formatLocationLookup junk (zeros 16) 16 (openStream file) with
  | .error e => .error e
  | .ok (uuid, n, s) => .ok ⟨uuid, pairsOf n (s.read (zeros (n * 16))).1⟩

/-- `LocalCorrelationRangeRawBinaryReader::Read` (rawbinary.cpp 126-140) into a new vector. -/
def readRanges (junk : Bytes) (file : Option Bytes) : Except CppErr (List UInt64) :=
  match checkHeader formatCorrelationRange junk (openStream file) with
  | .error e => .error e
  | .ok s =>
    match numEntries s 8 with
    | .error e => .error e
    | .ok n => .ok ((List.range n).map fun i => wordAt (s.read (zeros (n * 8))).1 (8 * i))

/-! ### Location pointers -/

/-- `LocationPointersRawBinaryReader::ReadAndCheckExtendedHeader` (locationpointers.cpp 27-37): the stream after it.  The
identifier of the lookup and the number of locations are read and not used. -/
def pointersHeader (junk : Bytes) (s : Stream) : Except CppErr Stream :=
  match checkHeader formatPointers junk s with
  | .error e => .error e
  | .ok s1 => .ok (((s1.read (zeros 16)).2.read (zeros 8)).2)

/-- The loop body of `LocationPointersRawBinaryReader::Read` (locationpointers.cpp 55-74): the records of one location.
`start` is the position of the table. -/
def readRecords (start : Nat) (s : Stream) (location : UInt64) : List (UInt64 × UInt64) × Stream :=
  let entry := (s.seek (start + location.toNat * 16)).read (zeros 16)
  let offset := wordAt entry.1 0
  let count := wordAt entry.1 8
  let records := (entry.2.seek offset.toNat).read (zeros (count.toNat * 16))
  (pairsOf count.toNat records.1, records.2)

/-- The loop over locations (locationpointers.cpp 50-75): one stream for all. -/
def readAllRecords (start : Nat) : Stream → List UInt64 → List (List (UInt64 × UInt64))
  | _, [] => []
  | s, location :: rest =>
    (readRecords start s location).1 :: readAllRecords start (readRecords start s location).2 rest

/-- `LocationPointersRawBinaryReader::Read` (locationpointers.cpp 39-76).  Simplified: if the stream has failed the position of
the table is -1, which is not used as then nothing is read. -/
def readPointers (junk : Bytes) (file : Option Bytes) (subset : List UInt64) : Except CppErr (List (List (UInt64 × UInt64))) :=
  match pointersHeader junk (openStream file) with
  | .error e => .error e
  | .ok s => .ok (readAllRecords s.tell.toNat s subset)

/-! ### Days and names -/

/-- `std::mktime` of midnight of a day (C library): seconds since the epoch of the system, in a time zone with a given offset
from universal time on each day, without daylight saving (`tm_isdst` is zero).  Days are numbered as in `Calendar`; day 719528
is the epoch of the system. -/
def mktime (zone : Int → Int) (day : Int) : Int := 86400 * (day - 719528) - zone day

/-- `EPOCH` (definitions.cpp 5). -/
def epoch : Calendar.Date := ⟨1850, 1, 1⟩

/-- Number of a date, as an integer. -/
def dayOf (d : Calendar.Date) : Int := d.number

/-- `TimeBaseDays::Number` (timebase.cpp 37-43): the quotient is converted towards zero. -/
def number (zone : Int → Int) (d : Calendar.Date) : Int := (mktime zone (dayOf d) - mktime zone (dayOf epoch)).tdiv 86400

/-- `TimeBaseDays::Time` (timebase.cpp 45-51): the fields are normalised to a date of the calendar.  Simplified: day numbers have
32 bits, midnight exists on every day in the time zone, and years are not negative. -/
def time (daynumber : Int) : Calendar.Date := Calendar.Date.ofNumber (dayOf epoch + daynumber).toNat

/-- `CalendarDay::Text` (timebase.cpp 24-35): `strftime` with `%Y%m%d`.  Simplified: years have four digits. -/
def dateText (d : Calendar.Date) : List Char :=
  Eumopps.Names.pad 4 d.year ++ Eumopps.Names.pad 2 d.month ++ Eumopps.Names.pad 2 d.day

/-- `sourcetype` (inputmanager.h 18-27). -/
inductive Source where
  | satelliteLand | satelliteOcean | satelliteIce | satelliteLake | insituLand | insituOcean
  deriving DecidableEq, Repr

/-- `observabletype` (inputmanager.h 29-35). -/
inductive Observable where
  | tmin | tmax | tmean
  deriving DecidableEq, Repr

/-- `sourcename` (inputmanager.cpp 7-15). -/
def Source.name : Source → List Char
  | .satelliteLand => "surfaceairmodel_land".toList
  | .satelliteOcean => "surfaceairmodel_ocean".toList
  | .satelliteIce => "surfaceairmodel_ice".toList
  | .satelliteLake => "surfaceairmodel_lake".toList
  | .insituLand => "insitu_land".toList
  | .insituOcean => "insitu_ocean".toList

/-- `observablename` (inputmanager.cpp 17-22). -/
def Observable.name : Observable → List Char
  | .tmin => "Tmin".toList
  | .tmax => "Tmax".toList
  | .tmean => "Tmean".toList

/-- `staticlocation` (inputmanager.cpp 56-60). -/
def Source.static : Source → Option (List Char)
  | .satelliteLand => some "satellite".toList
  | .satelliteOcean => some "satellite".toList
  | .satelliteIce => some "satellite".toList
  | .satelliteLake => some "lake".toList
  | .insituLand => some "insitu_land".toList
  | .insituOcean => none

/-- `PathNameObservation` (inputmanager.cpp 298-309). -/
def observationPath (base : List Char) (source : Source) (observable : Observable) (day : Int) : List Char :=
  let text := dateText (time day)
  base ++ "/".toList ++ source.name ++ "/".toList ++ text.take 4 ++ "/".toList ++ source.name ++ "_".toList ++
    observable.name ++ "_".toList ++ text ++ ".bin".toList

/-- `PathNameLocationPointers` (inputmanager.cpp 311-316). -/
def pointersPath (base : List Char) (source : Source) (observable : Observable) : List Char :=
  base ++ "/".toList ++ source.name ++ "_".toList ++ observable.name ++ "_locationpointers.bin".toList

/-- `PathNameLocationLookup` (inputmanager.cpp 318-325), with the name of the fixed locations. -/
def lookupPath (base static : List Char) : List Char := base ++ "/locationlookup_".toList ++ static ++ ".bin".toList

/-- `PathNameMobileLocationLookup` (inputmanager.cpp 327-340). -/
def mobilePath (base : List Char) (source : Source) (observable : Observable) (day : Int) : List Char :=
  let text := dateText (time day)
  base ++ "/".toList ++ source.name ++ "/".toList ++ text.take 4 ++ "/".toList ++ source.name ++ "_".toList ++
    observable.name ++ "_mobilelocations_".toList ++ text ++ ".bin".toList

/-- `PathNameLocalCorrelationRange` (inputmanager.cpp 342-347). -/
def rangesPath (base : List Char) (source : Source) (observable : Observable) : List Char :=
  base ++ "/".toList ++ source.name ++ "_".toList ++ observable.name ++ "_localcorrelationranges.bin".toList

/-! ### The input manager -/

/-- What is outside the program: the files by name, and what a buffer holds before a file of a given name is read into it.
Simplified: always the same for the same name. -/
structure World where
  files : List Char → Option Bytes
  junk : List Char → Bytes

/-- `AnalysisInputCache` (inputmanager.h 150-187). -/
abbrev Cache (α : Type) := List (List Char × α)

/-- `AnalysisInputCache::Retrieve` (inputmanager.h 167-179): what is not there is read, and kept if it could be read. -/
def retrieve {α : Type} (read : Bytes → Option Bytes → Except CppErr α) (w : World) (cache : Cache α) (path : List Char) :
    Except CppErr (α × Cache α) :=
  match cache.lookup path with
  | some x => .ok (x, cache)
  | none =>
    match read (w.junk path) (w.files path) with
    | .error e => .error e
    | .ok x => .ok (x, (path, x) :: cache)

/-- The caches of `AnalysisInputManager` (inputmanager.h 249-250). -/
structure Manager where
  base : List Char
  lookups : Cache Lookup
  ranges : Cache (List UInt64)

/-- `AnalysisInputRetrieval` (inputmanager.h 74-111). -/
structure Retrieval where
  ranges : List UInt64
  lookup : Lookup
  observations : Entries

/-- The lookup of a day (inputmanager.cpp 174-198): from the cache for fixed locations, else the file of the day. -/
def dayLookup (w : World) (m : Manager) (source : Source) (observable : Observable) (day : Int) :
    Except CppErr (Lookup × Manager) :=
  match source.static with
  | some static =>
    match retrieve readLookup w m.lookups (lookupPath m.base static) with
    | .error e => .error e
    | .ok (l, cache) => .ok (l, { m with lookups := cache })
  | none =>
    match readLookup (w.junk (mobilePath m.base source observable day)) (w.files (mobilePath m.base source observable day)) with
    | .error e => .error e
    | .ok l => .ok (l, m)

/-- `RetrieveDay` (inputmanager.cpp 163-207) into a new object. -/
def retrieveDay (w : World) (m : Manager) (source : Source) (observable : Observable) (day : Int) :
    Except CppErr (Retrieval × Manager) :=
  match retrieve readRanges w m.ranges (rangesPath m.base source observable) with
  | .error e => .error e
  | .ok (ranges, cache) =>
    match dayLookup w { m with ranges := cache } source observable day with
    | .error e => .error e
    | .ok (lookup, m') =>
      match readObservations ranges.length (w.junk (observationPath m.base source observable day))
          (w.files (observationPath m.base source observable day)) with
      | .error e => .error e
      | .ok obs => .ok (⟨ranges, lookup, obs⟩, m')

/-- `ComputeLocationLookup` (inputmanager.h 99-102): the vector does not check the index; `none` is what lies outside. -/
def location (r : Retrieval) (id : UInt64) : Option (UInt64 × UInt64) := r.lookup.table[id.toNat]?

/-- `AnalysisInputIterator::Location` (inputmanager.h 140-143), for each element. -/
def locations (r : Retrieval) : List (Option (UInt64 × UInt64)) := (itemsOf r.observations).map fun x => location r x.identifier

/-- The number a field of type `int64_t` holds. -/
def signed (x : UInt64) : Int := if x.toNat < 2 ^ 63 then x.toNat else (x.toNat : Int) - 2 ^ 64

/-- The bytes of one day in a time series (inputmanager.cpp 268-293): the number of the day and what is read at the offset.  A
new vector holds zeros. -/
def seriesBytes (w : World) (base : List Char) (source : Source) (observable : Observable) (ranges : Nat)
    (record : UInt64 × UInt64) : Bytes :=
  word record.1 ++
    (((openStream (w.files (observationPath base source observable (signed record.1)))).seek record.2.toNat).read
      (zeros (entrySize ranges - 8))).1

/-- The time series of one location (inputmanager.cpp 252-294). -/
def series (w : World) (base : List Char) (source : Source) (observable : Observable) (ranges : Nat)
    (records : List (UInt64 × UInt64)) : Entries :=
  ⟨ranges, records.length, zeros 16, records.flatMap (seriesBytes w base source observable ranges)⟩

/-- `RetrieveLocations` (inputmanager.cpp 209-296). -/
def retrieveLocations (w : World) (m : Manager) (source : Source) (observable : Observable) (subset : List UInt64) :
    Except CppErr (List Retrieval × Manager) :=
  match source.static with
  | none => .ok ([], m)
  | some static =>
    match retrieve readRanges w m.ranges (rangesPath m.base source observable) with
    | .error e => .error e
    | .ok (ranges, rcache) =>
      match retrieve readLookup w m.lookups (lookupPath m.base static) with
      | .error e => .error e
      | .ok (lookup, lcache) =>
        match readPointers (w.junk (pointersPath m.base source observable)) (w.files (pointersPath m.base source observable))
            subset with
        | .error e => .error e
        | .ok records =>
          .ok (records.map fun r => ⟨ranges, lookup, series w m.base source observable ranges.length r⟩,
            { m with ranges := rcache, lookups := lcache })

/-! ### Totals -/

/-- `TotalLocations` (inputmanager.cpp 69-89). -/
def totalLocations (w : World) (m : Manager) (source : Source) : Except CppErr Nat :=
  match source.static with
  | none => .ok 0
  | some static =>
    match extendedHeader formatLocationLookup (w.junk (lookupPath m.base static)) (zeros 16) 16
        (openStream (w.files (lookupPath m.base static))) with
    | .error e => .error e
    | .ok (_, n, _) => .ok n

/-- `TotalDailyMobileLocations` (inputmanager.cpp 91-108). -/
def totalDailyMobileLocations (w : World) (m : Manager) (source : Source) (observable : Observable) (day : Int) :
    Except CppErr Nat :=
  match extendedHeader formatLocationLookup (w.junk (mobilePath m.base source observable day)) (zeros 16) 16
      (openStream (w.files (mobilePath m.base source observable day))) with
  | .error e => .error e
  | .ok (_, n, _) => .ok n

/-- `TotalDailyObservations` (inputmanager.cpp 110-135). -/
def totalDaily (w : World) (m : Manager) (source : Source) (observable : Observable) (day : Int) :
    Except CppErr (Nat × Manager) :=
  match retrieve readRanges w m.ranges (rangesPath m.base source observable) with
  | .error e => .error e
  | .ok (ranges, cache) =>
    match extendedHeader formatObservation (w.junk (observationPath m.base source observable day)) (zeros 16)
        (entrySize ranges.length) (openStream (w.files (observationPath m.base source observable day))) with
    | .error e => .error e
    | .ok (_, n, _) => .ok (n, { m with ranges := cache })

/-- The loop over days (inputmanager.cpp 148-156), with the number of days. -/
def totalDays (w : World) (source : Source) (observable : Observable) :
    Nat → Int → Manager → Nat → Except CppErr (Nat × Manager)
  | 0, _, m, total => .ok (total, m)
  | n + 1, day, m, total =>
    match totalDaily w m source observable day with
    | .error e => .error e
    | .ok (count, m') => totalDays w source observable n (day + 1) m' (total + count)

/-- `AnalysisInput` (inputmanager.h 44-72). -/
structure Input where
  source : Source
  observable : Observable
  startday : Int
  endday : Int

/-- `TotalObservations` (inputmanager.cpp 137-161), with the inputs given to `Specify`. -/
def totalObservations (w : World) (source : Source) (observable : Observable) :
    List Input → Manager → Nat → Except CppErr (Nat × Manager)
  | [], m, total => .ok (total, m)
  | input :: rest, m, total =>
    if input.source = source ∧ input.observable = observable then
      match totalDays w source observable (input.endday - input.startday + 1).toNat input.startday m total with
      | .error e => .error e
      | .ok (total', m') => totalObservations w source observable rest m' total'
    else totalObservations w source observable rest m total

end Verif.Eustace.CppReader
