import Verif.Py
import Mathlib.Data.Rat.Floor
import Mathlib.Data.List.Basic

/-!
Model of the raw binary files of observations:
`/repo/src/eustace/analysis/fileio/` observationsource_rawbinary.py, observationsource_missing.py and locationpointers.py,
`/repo/src/eustace/analysis/observationsource.py` 7-22.

Files are lists of bytes.  Numbers of 64 bits are `UInt64`; a float64 is represented by its bits, so that writing and reading it
changes nothing.  Simplified: directories can be made and files can be opened.
-/

namespace Verif.Eustace.RawBinary

open Verif

abbrev Bytes := List UInt8

/-- Bytes of the text of an identifier. -/
def ascii (s : String) : Bytes := s.toList.map fun c => UInt8.ofNat c.toNat

/-- `FORMATID_OBSERVATION` (observationsource_rawbinary.py 23). -/
def formatObservation : Bytes := ascii "EUSTACEOBSN00001"

/-- `FORMATID_LOCATION_LOOKUP` (observationsource_rawbinary.py 26). -/
def formatLocationLookup : Bytes := ascii "EUSTACELOCN00001"

/-- `FORMATID_LOCAL_CORRELATION_RANGE` (observationsource_rawbinary.py 29). -/
def formatCorrelationRange : Bytes := ascii "EUSTACECORN00001"

/-- `FORMATID_LOCATION_POINTERS` (locationpointers.py 10). -/
def formatPointers : Bytes := ascii "EUSTACELOCP00001"

/-- `CODEID` (observationsource_rawbinary.py 32, locationpointers.py 13). -/
def codeId : Bytes := ascii "NOCODEVERSION   "

/-- The lowest `k` digits of a number to the base 256, lowest first: numbers in the memory of the machines used. -/
def digits : Nat → Nat → Bytes
  | 0, _ => []
  | k + 1, n => UInt8.ofNat (n % 256) :: digits k (n / 256)

/-- The number with given digits. -/
def ofDigits : Bytes → Nat
  | [] => 0
  | b :: rest => b.toNat + 256 * ofDigits rest

/-- A number of 64 bits as bytes. -/
def word (w : UInt64) : Bytes := digits 8 w.toNat

/-- `numpy.ndarray.tofile` of an array of records, all fields of which have 64 bits. -/
def tofile (rows : List (List UInt64)) : Bytes := rows.flatMap fun r => r.flatMap word

/-- A record with `k` fields. -/
def fieldsOf : Nat → Bytes → List UInt64
  | 0, _ => []
  | k + 1, b => UInt64.ofNat (ofDigits (b.take 8)) :: fieldsOf k (b.drop 8)

/-- `count` records with `k` fields each. -/
def rowsOf : Nat → Nat → Bytes → List (List UInt64)
  | 0, _, _ => []
  | count + 1, k, b => fieldsOf k b :: rowsOf count k (b.drop (8 * k))

/-- `numpy.fromfile` to the end of the file, with `k` fields of 64 bits: bytes after the last complete record are ignored. -/
def fromfile (k : Nat) (b : Bytes) : List (List UInt64) := rowsOf (b.length / (8 * k)) k b

/-- `contents['name']` for the field in a given place. -/
def column (i : Nat) (rows : List (List UInt64)) : List UInt64 := rows.map fun r => r.getD i 0

/-! ### Observations -/

/-- Times of observations: an array of days, or one day number for all. -/
inductive Time where
  | scalar (day : Int)
  | array (days : List ℚ)

/-- `Observations` (observationsource.py 10-17), with values of type `R`. -/
structure Observations (R : Type) where
  mask : List Bool
  time : Time
  location : List UInt64
  measurement : List R
  uncorrelated : List R
  correlated : List (List R)

/-- `astype(numpy.int32)` of a number of days: towards zero.  Simplified: days have 32 bits. -/
def truncate (x : ℚ) : Int := if 0 ≤ x then ⌊x⌋ else ⌈x⌉

/-- The day of each observation: `obs.time.astype(numpy.int32)` broadcast to `n` elements, or an error. -/
def dayNumbers (n : Nat) : Time → Except PyErr (List Int)
  | .scalar d => .ok (List.replicate n d)
  | .array days =>
    if days.length = n then .ok (days.map truncate)
    else
      match days with
      | [d] => .ok (List.replicate n (truncate d))
      | _ => .error .valueError

/-- `numpy.nonzero(numpy.logical_and(obs.mask == False, obs.time.astype(numpy.int32) == daynumber))[0]`
(observationsource_rawbinary.py 240).  Simplified: a mask of one element is not broadcast. -/
def validIndices (mask : List Bool) (days : List Int) (daynumber : Int) : List Nat :=
  (List.range mask.length).filter fun i => mask[i]? == some false && days[i]? == some daynumber

/-- Element `i` of an array. -/
def item (l : List UInt64) (i : Nat) : Except PyErr UInt64 :=
  match l[i]? with
  | none => .error .indexError
  | some x => .ok x

/-- Element `i` of each array. -/
def items : List (List UInt64) → Nat → Except PyErr (List UInt64)
  | [], _ => .ok []
  | l :: rest, i =>
    match item l i with
    | .error e => .error e
    | .ok x =>
      match items rest i with
      | .error e => .error e
      | .ok xs => .ok (x :: xs)

/-- `populate_output_structure` (observationsource_rawbinary.py 257-265).  Simplified: made record by record instead of field by
field, which is the same array. -/
def populate (obs : Observations UInt64) : List Nat → Except PyErr (List (List UInt64))
  | [] => .ok []
  | i :: rest =>
    match items (obs.location :: obs.measurement :: obs.uncorrelated :: obs.correlated) i with
    | .error e => .error e
    | .ok r =>
      match populate obs rest with
      | .error e => .error e
      | .ok rs => .ok (r :: rs)

/-- `write_day` (observationsource_rawbinary.py 225-255): the contents of the new file. -/
def writeDay (uuid : Bytes) (obs : Observations UInt64) (daynumber : Int) : Except PyErr Bytes :=
  match dayNumbers obs.mask.length obs.time with
  | .error e => .error e
  | .ok days =>
    match populate obs (validIndices obs.mask days daynumber) with
    | .error e => .error e
    | .ok rows => .ok (formatObservation ++ codeId ++ uuid ++ tofile rows)

/-- `RawBinaryReader.read_header_from_stream` (observationsource_rawbinary.py 43-52): what follows in the file. -/
def readHeader (format : Bytes) (file : Bytes) : Except PyErr Bytes :=
  if file.take 16 ≠ format then .error .other
  else .ok ((file.drop 16).drop 16)

/-- `RawBinaryLocationCategoryReader.read_header_from_stream` (observationsource_rawbinary.py 78-86): the UUID and what
follows. -/
def readLocationHeader (format : Bytes) (file : Bytes) : Except PyErr (Bytes × Bytes) :=
  match readHeader format file with
  | .error e => .error e
  | .ok rest =>
    if (rest.take 16).length ≠ 16 then .error .valueError
    else .ok (rest.take 16, rest.drop 16)

/-- `read_contents` (observationsource_rawbinary.py 124-141): the UUID for verification is not used. -/
def readContents (ranges : Nat) (file : Bytes) (_verify : Bytes) : Except PyErr (List (List UInt64)) :=
  match readLocationHeader formatObservation file with
  | .error e => .error e
  | .ok (_, rest) => .ok (fromfile (3 + ranges) rest)

/-- `build_observations_instance` (observationsource_rawbinary.py 159-171). -/
def buildObservations (ranges : Nat) (mask : List Bool) (daynumber : Int) (contents : List (List UInt64)) :
    Observations UInt64 where
  mask := mask
  time := .scalar daynumber
  location := column 0 contents
  measurement := column 1 contents
  uncorrelated := column 2 contents
  correlated := (List.range ranges).map fun i => column (3 + i) contents

/-- `read_day` (observationsource_rawbinary.py 143-165). -/
def readDay (ranges : Nat) (file : Option Bytes) (verify : Bytes) (daynumber : Int) : Except PyErr (Observations UInt64) :=
  match file with
  | some bytes =>
    match readContents ranges bytes verify with
    | .error e => .error e
    | .ok contents => .ok (buildObservations ranges (contents.map fun _ => false) daynumber contents)
  | none => .ok (buildObservations ranges [true] daynumber [List.replicate (3 + ranges) 0])

/-- `read_location_ids` (observationsource_rawbinary.py 173-180). -/
def readLocationIds (ranges : Nat) (file : Bytes) (verify : Bytes) : Except PyErr (List UInt64) :=
  match readContents ranges file verify with
  | .error e => .error e
  | .ok contents => .ok (column 0 contents)

/-- `read_observation_count` (observationsource_rawbinary.py 182-200, 54-68). -/
def readObservationCount (ranges : Nat) (file : Bytes) : Except PyErr Nat :=
  match readLocationHeader formatObservation file with
  | .error e => .error e
  | .ok (_, rest) => .ok (rest.length / (8 * (3 + ranges)))

/-- `ObservationsMissing.__init__` (observationsource_missing.py 38-46). -/
def missing (daynumber : Int) : Observations UInt64 := ⟨[], .scalar daynumber, [], [], [], []⟩

/-- `ObservationSourceSingleDayRawBinary.observations` (observationsource_rawbinary.py 471-478), with the contents of the file
of the observable and the UUID of the location lookup. -/
def sourceObservations (ranges : Nat) (file : Option Bytes) (lookup : Option Bytes) (daynumber : Int) :
    Except PyErr (Observations UInt64) :=
  match file, lookup with
  | some bytes, some uuid => readDay ranges (some bytes) uuid daynumber
  | _, _ => .ok (missing daynumber)

/-! ### Location lookup and correlation ranges -/

/-- `LocationLookupRawBinaryWriter.write` (observationsource_rawbinary.py 311-332), with pairs of latitude and longitude. -/
def writeLookup (uuid : Bytes) (table : List (UInt64 × UInt64)) : Bytes :=
  formatLocationLookup ++ codeId ++ uuid ++ tofile (table.map fun p => [p.1, p.2])

/-- `LocationLookupRawBinaryReader.read` (observationsource_rawbinary.py 285-302). -/
def readLookup (file : Bytes) : Except PyErr (Bytes × List (UInt64 × UInt64)) :=
  match readLocationHeader formatLocationLookup file with
  | .error e => .error e
  | .ok (uuid, rest) => .ok (uuid, (column 0 (fromfile 2 rest)).zip (column 1 (fromfile 2 rest)))

/-- `read_uuid_and_count` (observationsource_rawbinary.py 88-113). -/
def readUuidAndCount (file : Bytes) : Except PyErr (Bytes × Nat) :=
  match readLocationHeader formatLocationLookup file with
  | .error e => .error e
  | .ok (uuid, rest) => .ok (uuid, rest.length / 16)

/-- `LocalCorrelationRangeRawBinaryWriter.write` (observationsource_rawbinary.py 367-378). -/
def writeRanges (ranges : List UInt64) : Bytes := formatCorrelationRange ++ codeId ++ tofile (ranges.map fun r => [r])

/-- `LocalCorrelationRangeRawBinaryReader.read` (observationsource_rawbinary.py 342-358). -/
def readRanges (file : Bytes) : Except PyErr (List UInt64) :=
  match readHeader formatCorrelationRange file with
  | .error e => .error e
  | .ok rest => .ok (column 0 (fromfile 1 rest))

/-! ### Location pointers -/

/-- `self.pointers[locationid].append(...)` (locationpointers.py 46). -/
def appendPointer : List (List (UInt64 × UInt64)) → Nat → UInt64 × UInt64 → Except PyErr (List (List (UInt64 × UInt64)))
  | [], _, _ => .error .indexError
  | l :: rest, 0, p => .ok ((l ++ [p]) :: rest)
  | l :: rest, i + 1, p =>
    match appendPointer rest i p with
    | .error e => .error e
    | .ok rest' => .ok (l :: rest')

/-- The loop over the location identifiers of a day (locationpointers.py 45-46), from a given position. -/
def appendDayFrom (recordSize : Nat) (daynumber : UInt64) :
    Nat → List UInt64 → List (List (UInt64 × UInt64)) → Except PyErr (List (List (UInt64 × UInt64)))
  | _, [], pointers => .ok pointers
  | index, id :: rest, pointers =>
    match appendPointer pointers id.toNat (daynumber, UInt64.ofNat (56 + recordSize * index)) with
    | .error e => .error e
    | .ok pointers' => appendDayFrom recordSize daynumber (index + 1) rest pointers'

/-- `append_day` (locationpointers.py 32-46). -/
def appendDay (ranges : Nat) (uuid : Bytes) (file : Bytes) (daynumber : UInt64) (pointers : List (List (UInt64 × UInt64))) :
    Except PyErr (List (List (UInt64 × UInt64))) :=
  match readLocationIds ranges file uuid with
  | .error e => .error e
  | .ok ids => appendDayFrom (8 * (3 + ranges)) daynumber 0 ids pointers

/-- `numpy.hstack((0, numpy.cumsum(record_counts)[0:-1]))` times the size of a pointer, from an offset
(locationpointers.py 79-81).  Simplified: the code computes these in float64, which is exact below 2^53. -/
def recordOffsets : Nat → List Nat → List Nat
  | _, [] => []
  | offset, c :: rest => offset :: recordOffsets (offset + 16 * c) rest

/-- `write` (locationpointers.py 48-94). -/
def writePointers (uuid : Bytes) (pointers : List (List (UInt64 × UInt64))) : Bytes :=
  formatPointers ++ codeId ++ uuid ++ word (UInt64.ofNat pointers.length) ++
    if 0 < pointers.length then
      tofile (List.zipWith (fun offset count => [UInt64.ofNat offset, UInt64.ofNat count])
        (recordOffsets (56 + 16 * pointers.length) (pointers.map List.length)) (pointers.map List.length)) ++
      pointers.flatMap fun l => tofile (l.map fun p => [p.1, p.2])
    else []

/-- `read_pointer_records` (locationpointers.py 101-115): the module `uuid` is not imported. -/
def readPointers (file : Bytes) (_verify : Bytes) (_location : Nat) : Except PyErr (List (UInt64 × UInt64)) :=
  if file.take 16 ≠ formatPointers then .error .other
  else .error .nameError

end Verif.Eustace.RawBinary
