import Verif.Eumopps.Persist.Value

/-! C20: `src/eumopps/jsonobjects/jsonobjects.py`. -/

namespace Verif.Eumopps.Persist

open Verif Verif.Py Verif.Calendar Verif.Eumopps.Names Verif.Eumopps.Time Verif.Eumopps.Periods

/-- Contents of a JSON file. Text and its parsing are left out (Python library); floating-point numbers keep their bits. -/
inductive Json where
  | null
  | str (s : String)
  | int (n : Int)
  | float (bits : UInt64)
  | arr (l : List Json)
  | obj (fields : List (String × Json))

/-- Date and time of an instant, without microseconds. -/
def clock (t : Int) : DateTime :=
  ⟨dateOf t, (t % dayUs / (3600 * secUs)).toNat, (t % (3600 * secUs) / (60 * secUs)).toNat, (t % (60 * secUs) / secUs).toNat⟩

/-- `datetime_numeric.build` (datetime_numeric.py 11-14). -/
def buildTime (t : Int) : String := String.ofList (build (clock t))

/-- Decimal digits as a number. -/
def number (s : List Char) : Option Nat :=
  s.foldl (fun a c => a.bind fun n => if '0' ≤ c ∧ c ≤ '9' then some (10 * n + (c.toNat - 48)) else none) (some 0)

/-- `datetime_numeric.parse` (datetime_numeric.py 7-9).  Simplified: fields of fixed width (strptime also takes single digits). -/
def parseTime (s : String) : Except PyErr Int :=
  if s.toList.length ≠ 14 then .error .valueError
  else
    match number (slice s.toList 0 4), number (slice s.toList 4 6), number (slice s.toList 6 8), number (slice s.toList 8 10),
      number (slice s.toList 10 12), number (slice s.toList 12 14) with
    | some y, some m, some d, some h, some mi, some se =>
      if 1 ≤ y ∧ 1 ≤ m ∧ m ≤ 12 ∧ 1 ≤ d ∧ d ≤ daysInMonth y m ∧ h < 24 ∧ mi < 60 ∧ se < 60 then
        .ok (midnight ⟨y, m, d⟩ + (3600 * h + 60 * mi + se : Int) * secUs)
      else .error .valueError
    | _, _, _, _, _, _ => .error .valueError

/-- `DATETIMEVALUEKEY` (jsonobjects.py 11). -/
def timeKey : String := "timestring"

mutual
/-- `json.dump` with `save_object` for what it does not know (jsonobjects.py 18-45): attributes with false values are left out for instances,
not for dictionaries. -/
def encode : Value → Json
  | .none => .null
  | .scalar (.str s) => .str s
  | .scalar (.int n) => .int n
  | .scalar (.float b) => .float b
  | .scalar (.time t) => .obj [(classId, .str "datetime.datetime"), (timeKey, .str (buildTime t))]
  | .list l => .arr (encodeList l)
  | .obj .none f => .obj (encodeFields f)
  | .obj (some c) f => .obj (encodeKept f ++ [(classId, .str c)])
/-- Elements of a list. -/
def encodeList : List Value → List Json
  | [] => []
  | v :: l => encode v :: encodeList l
/-- Items of a dictionary. -/
def encodeFields : List (String × Value) → List (String × Json)
  | [] => []
  | (k, v) :: f => (k, encode v) :: encodeFields f
/-- Attributes of an instance (jsonobjects.py 29). -/
def encodeKept : List (String × Value) → List (String × Json)
  | [] => []
  | (k, v) :: f => if truthy v then (k, encode v) :: encodeKept f else encodeKept f
end

mutual
/-- `load_object` (jsonobjects.py 48-83). -/
def loadObject (C : Classes) : Value → Except PyErr Value
  | .obj .none f =>
    match dictGet f classId with
    | none => .ok (.obj .none f)
    | some (.scalar (.str c)) =>
      if c = "datetime.datetime" then
        match dictGet f timeKey with
        | some (.scalar (.str s)) => match parseTime s with | .ok t => .ok (.scalar (.time t)) | .error e => .error e
        | some _ => .error .typeError
        | none => .error .keyError
      else
        match loadFields C f with
        | .ok f' => make C c (f'.filter fun kv => kv.1 ≠ classId)
        | .error e => .error e
    | some _ => .error .attributeError
  | .list l => match loadList C l with | .ok l' => .ok (.list l') | .error e => .error e
  | v => .ok v
/-- Elements of a list (jsonobjects.py 76). -/
def loadList (C : Classes) : List Value → Except PyErr (List Value)
  | [] => .ok []
  | v :: l =>
    match loadObject C v with
    | .error e => .error e
    | .ok v' => match loadList C l with | .ok l' => .ok (v' :: l') | .error e => .error e
/-- Parameters (jsonobjects.py 66). -/
def loadFields (C : Classes) : List (String × Value) → Except PyErr (List (String × Value))
  | [] => .ok []
  | (k, v) :: f =>
    match loadObject C v with
    | .error e => .error e
    | .ok v' => match loadFields C f with | .ok f' => .ok ((k, v') :: f') | .error e => .error e
end

mutual
/-- `json.load` with `load_object` for every JSON object, innermost first (jsonobjects.py 14-16). -/
def decode (C : Classes) : Json → Except PyErr Value
  | .null => .ok .none
  | .str s => .ok (.scalar (.str s))
  | .int n => .ok (.scalar (.int n))
  | .float b => .ok (.scalar (.float b))
  | .arr l => match decodeList C l with | .ok l' => .ok (.list l') | .error e => .error e
  | .obj f => match decodeFields C f with | .ok f' => loadObject C (.obj .none f') | .error e => .error e
/-- Elements of an array. -/
def decodeList (C : Classes) : List Json → Except PyErr (List Value)
  | [] => .ok []
  | v :: l =>
    match decode C v with
    | .error e => .error e
    | .ok v' => match decodeList C l with | .ok l' => .ok (v' :: l') | .error e => .error e
/-- Members of an object. -/
def decodeFields (C : Classes) : List (String × Json) → Except PyErr (List (String × Value))
  | [] => .ok []
  | (k, v) :: f =>
    match decode C v with
    | .error e => .error e
    | .ok v' => match decodeFields C f with | .ok f' => .ok ((k, v') :: f') | .error e => .error e
end

end Verif.Eumopps.Persist
