import Verif.Eustace.LandModel.Model
import Verif.Calendar

/-! Dates as texts, dates in names of files and files of coefficients of the model of air temperature over land, in IDL
(`src/eustace/surfaceairmodel/model_land_idl.pro` and `model_land_idl_setup_satellite.pro`).

Texts are lists of characters.  Arrays of texts are taken one by one. -/

namespace Verif.Eustace.LandFiles

open Verif Verif.Calendar Verif.Eustace.LandModel

/-- Texts. -/
abbrev Text := List Char

/-- `JULDAY` of the IDL library, as used at model_land_idl.pro 181 and model_land_idl_setup_satellite.pro 443, 1265: days at noon in the
Gregorian calendar (dates before 15 October 1582, for which the library has the Julian calendar, are not modelled). -/
def julday (month day year : ℕ) : ℤ := daysBeforeYear year + daysBeforeMonth year month + day + 1721059

/-- `CALDAT` of the IDL library (model_land_idl_setup_satellite.pro 1206), without hour and minute. -/
def caldat (jd : ℤ) : Date := Date.ofNumber (jd - 1721060).toNat

/-- `STRMID(s, first, length)` of the IDL library (as at model_land_idl_setup_satellite.pro 437-439). -/
def strmid (s : Text) (first length : ℕ) : Text := (s.drop first).take length

/-- `STRMID(s, first, length, /REVERSE_OFFSET)` of the IDL library: `first` counts back from the last character
(as at model_land_idl_setup_satellite.pro 452). -/
def strmidReverse (s : Text) (first length : ℕ) : Text := (s.drop (s.length - 1 - first)).take length

/-- `STRCOMPRESS(number, /REMOVE_ALL)` for a number which is not negative (as at model_land_idl_setup_satellite.pro 1209-1213). -/
def decimal (n : ℕ) : Text := Nat.toDigits 10 n

/-- `FIX` of a text of digits (as at model_land_idl_setup_satellite.pro 1256-1258); the text without characters gives nought.  Texts with
other characters, which give nought and a message, or with a sign, are taken to be nought. -/
def fixText (s : Text) : ℤ := if s.all Char.isDigit then fix (Nat.ofDigitChars 10 s 0) else 0

/-- Blanks and tabs. -/
def blank (c : Char) : Bool := c == ' ' || c == '\t'

/-- `STRCOMPRESS(s)` of the IDL library: blanks together become one (as at model_land_idl_setup_satellite.pro 1250, 346). -/
def strcompress : Text → Text
  | [] => []
  | c :: s =>
    if blank c then
      match strcompress s with
      | ' ' :: t => ' ' :: t
      | t => ' ' :: t
    else c :: strcompress s

/-- `date_to_doy` without keywords for texts and for `/string` (model_land_idl_setup_satellite.pro 427-443).  The check is
`MAX(STRLEN(yyyymmdd)) NE 8 AND MIN(STRLEN(yyyymmdd))`: `AND` goes by bits, and a number is true if it is odd. -/
def dateToDoy (yyyymmdd : Text) (startZero : Bool) : Except PyErr ℤ :=
  if ((if yyyymmdd.length ≠ 8 then 1 else 0) &&& yyyymmdd.length) % 2 = 1 then .error .other
  else
    let yyyy := (fixText (strmid yyyymmdd 0 4)).toNat
    let mm := (fixText (strmid yyyymmdd 4 2)).toNat
    let dd := (fixText (strmid yyyymmdd 6 2)).toNat
    .ok (julday mm dd yyyy - julday 1 1 yyyy + if startZero then 0 else 1)

/-- `date_to_doy` with `/string` (model_land_idl_setup_satellite.pro 450-453), for days which are not negative. -/
def dateToDoyText (yyyymmdd : Text) (startZero : Bool) : Except PyErr Text :=
  match dateToDoy yyyymmdd startZero with
  | .error e => .error e
  | .ok doy => .ok (strmidReverse (['0', '0'] ++ decimal doy.toNat) 2 3)

/-- `jd_to_yyyymmdd` (model_land_idl_setup_satellite.pro 1186-1226), without hours and minutes. -/
def jdToYyyymmdd (jd : ℤ) : Text :=
  let date := caldat jd
  let yyyy := ['0', '0', '0', '0'] ++ decimal date.year
  let mm := ['0', '0'] ++ decimal date.month
  let dd := ['0', '0'] ++ decimal date.day
  strmidReverse yyyy 3 4 ++ strmidReverse mm 1 2 ++ strmidReverse dd 1 2

/-- `yyyymmdd_to_jd` for texts, without `hhmm` (model_land_idl_setup_satellite.pro 1229-1266). -/
def yyyymmddToJd (yyyymmdd : Text) : Except PyErr ℤ :=
  let new := strcompress yyyymmdd
  if new.length ≠ 8 then .error .other
  else .ok (julday (fixText (strmid new 4 2)).toNat (fixText (strmid new 6 2)).toNat (fixText (strmid new 0 4)).toNat)

/-- `fvc_jd` (model_land_idl.pro 248-249) from the names of files without directories. -/
def fvcDays : List Text → Except PyErr (List ℤ)
  | [] => .ok []
  | name :: rest =>
    match yyyymmddToJd (strmid name 21 8), fvcDays rest with
    | .ok d, .ok ds => .ok (d :: ds)
    | .error e, _ => .error e
    | _, .error e => .error e

/-- Whether there is a file of vegetation in the range of dates (model_land_idl.pro 181, 250-252). -/
def anyFvc (today : ℤ) (days : List ℤ) : Bool := days.any fun d => decide (today - 10 < d ∧ d < today + 10)

/-- `STRSPLIT(s, /EXTRACT)` of the IDL library (as at model_land_idl_setup_satellite.pro 352): the word being read and the rest. -/
def split (word : Text) : Text → List Text
  | [] => if word = [] then [] else [word]
  | c :: s => if blank c then (if word = [] then split [] s else word :: split [] s) else split (word ++ [c]) s

/-- What `read_asc` has read (model_land_idl_setup_satellite.pro 303-311): lines of the header, labels of the columns, the data and the
number of columns of the last line. -/
structure Read where
  header : List Text
  names : Option (List Text)
  data : List Text
  count : ℕ
  last : ℕ

/-- The loop of `read_asc` (model_land_idl_setup_satellite.pro 318-374).  Numbers are kept as texts. -/
def readLines (head : Text) (r : Read) : List Text → Read
  | [] => r
  | line :: rest =>
    if line.all blank then r
    else if strmid line 0 1 = head then readLines head { r with header := r.header ++ [line] } rest
    else
      match r.names with
      | none => readLines head { r with names := some (split [] (strcompress line)) } rest
      | some _ =>
        let words := split [] (strcompress line)
        readLines head { r with data := r.data ++ words, count := r.count + 1, last := words.length } rest

/-- `read_asc` (model_land_idl_setup_satellite.pro 206-392): columns and rows as `REFORM` makes them, which refuses if the number of
elements would change; no data gives -1, of which no columns can be taken. -/
def readAsc (head : Text) (lines : List Text) : Except PyErr (List (List Text)) :=
  let r := readLines head ⟨[], none, [], 0, 0⟩ lines
  if r.count = 0 then .error .other
  else if r.last * (r.data.length / r.last) ≠ r.data.length then .error .other
  else .ok ((List.range (r.data.length / r.last)).map fun j => (r.data.drop (j * r.last)).take r.last)

/-- Coefficients of a row and its uncertainty, `data[0:6, row]` and `data[7, row]` (model_land_idl.pro 208-224). -/
def coefficients (data : List (List Text)) (row : ℕ) : Except PyErr (List Text × Text) :=
  match data[row]? with
  | none => .error .indexError
  | some l =>
    match l[7]? with
    | none => .error .indexError
    | some u => .ok (l.take 7, u)

end Verif.Eustace.LandFiles
