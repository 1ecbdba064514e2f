import Verif.Calendar
import Verif.Py

/-! Model of src/eumopps/timeutils/datetime_numeric.py and of the file names of src/eumopps/catalogue/step.py. Strings are
lists of characters. -/
namespace Verif.Eumopps.Names
open Verif Verif.Calendar

/-- `datetime.datetime` without microseconds. -/
structure DateTime where
  date : Date
  hour : Nat
  minute : Nat
  second : Nat
  deriving DecidableEq, Repr

/-- Decimal digit. -/
def digit (n : Nat) : Char := Char.ofNat (48 + n % 10)

/-- Zero-padded decimal number of `k` digits. -/
def pad : Nat → Nat → List Char
  | 0, _ => []
  | k + 1, n => pad k (n / 10) ++ [digit n]

/-- `datetime.isoformat(' ')`: YYYY-MM-DD HH:MM:SS (Python library; microseconds, which would follow at the end, are
omitted). -/
def isoformat (t : DateTime) : List Char :=
  pad 4 t.date.year ++ ['-'] ++ pad 2 t.date.month ++ ['-'] ++ pad 2 t.date.day ++ [' '] ++
    pad 2 t.hour ++ [':'] ++ pad 2 t.minute ++ [':'] ++ pad 2 t.second

/-- `s[a:b]` for 0 ≤ a ≤ b. -/
def slice (s : List Char) (a b : Nat) : List Char := (s.drop a).take (b - a)

/-- `s.replace('%' + c, r)`: leftmost non-overlapping occurrences (Python library). -/
def replace (c : Char) (r : List Char) : List Char → List Char
  | [] => []
  | [x] => [x]
  | x :: y :: t => if x = '%' ∧ y = c then r ++ replace c r t else x :: replace c r (y :: t)

/-- `datetime_numeric.build`, datetime_numeric.py 11-14. -/
def build (t : DateTime) : List Char :=
  let iso := isoformat t
  slice iso 0 4 ++ slice iso 5 7 ++ slice iso 8 10 ++ slice iso 11 13 ++ slice iso 14 16 ++ slice iso 17 19

/-- `datetime_numeric.build_from_pattern`, datetime_numeric.py 16-28. -/
def buildFromPattern (pattern : List Char) (t : DateTime) : List Char :=
  let iso := isoformat t
  let result := pattern
  let result := replace 'Y' (slice iso 0 4) result
  let result := replace 'm' (slice iso 5 7) result
  let result := replace 'd' (slice iso 8 10) result
  let result := replace 'H' (slice iso 11 13) result
  let result := replace 'M' (slice iso 14 16) result
  let result := replace 'S' (slice iso 17 19) result
  result

/-- `os.path.join(a, b)` on POSIX (Python library). -/
def join2 (a b : List Char) : List Char :=
  if b.head? = some '/' then b
  else if a = [] ∨ a.getLast? = some '/' then a ++ b
  else a ++ '/' :: b

/-- `os.path.join(*paths)`. -/
def joinAll : List (List Char) → Except PyErr (List Char)
  | [] => .error .typeError
  | p :: ps => .ok (ps.foldl join2 p)

/-- `StepDaily.filename_from_patterns`, step.py 105-109 (also StepAnnual, StepMonthly and StepDailyEpoch). -/
def filename (patterns : List (List Char)) (t : DateTime) : Except PyErr (List Char) :=
  joinAll (patterns.map fun p => buildFromPattern p t)

/-- `sub in s`. -/
def hasSub (sub : List Char) : List Char → Bool
  | [] => sub.isPrefixOf []
  | x :: t => sub.isPrefixOf (x :: t) || hasSub sub t

/-- `StepDaily.is_uniquely_defined_by`, step.py 120-124. -/
def dailyUnique (patterns : List (List Char)) : Bool :=
  let concat := patterns.flatten
  hasSub ['%', 'Y'] concat && hasSub ['%', 'm'] concat && hasSub ['%', 'd'] concat

end Verif.Eumopps.Names
