import Verif.Eumopps.Names.Model

/-! Model of src/eumopps/catalogue/namepatterns.py, of src/eumopps/timeutils/datetime_dictionary.py and of the search of
file data sets in src/eumopps/catalogue/dataset.py and storage.py.

Patterns are assumed free of characters with a special meaning in regular expressions other than `.` and `?`, and text
taken from file names free of such characters other than `.`: for these the expression built by the code means what the
tokens below mean. -/
namespace Verif.Eumopps.Search
open Verif Verif.Calendar Verif.Eumopps.Names

abbrev Str := List Char

/-- A dictionary from field letters to text, in the order of the groups. -/
abbrev Fields := List (Char × Str)

/-- Parts of the regular expressions that occur: a literal character, `.`, a group of `k` digits, a group `.*`. -/
inductive Tok where
  | lit (c : Char)
  | any
  | digits (name : Char) (k : Nat)
  | star (name : Char)
  deriving DecidableEq, Repr

/-- `EXPRESSION_SUBSTITUTES`, namepatterns.py 16-26. -/
def substitute (c : Char) : Option Tok :=
  if c = 'Y' then some (.digits 'Y' 4)
  else if c = 'm' ∨ c = 'd' ∨ c = 'H' ∨ c = 'M' ∨ c = 'S' then some (.digits c 2)
  else if c = 'A' ∨ c = 'B' ∨ c = 'C' then some (.star c)
  else none

/-- Text put into an expression: dots mean any character. -/
def literal (c : Char) : Tok := if c = '.' then .any else .lit c

/-- `make_search_expression`, namepatterns.py 29-61, compiled to tokens. The successive `replace` calls are modelled as one
pass (texts put in contain no `%`, see `Names.c16_substitution` for the same step). -/
def tokens (known : Fields) : Str → List Tok
  | [] => []
  | [x] => if x = '?' then [.any] else [.lit x]
  | x :: y :: t =>
    if x = '%' ∧ (substitute y).isSome then
      match known.lookup y, substitute y with
      | some v, _ => v.map literal ++ tokens known t
      | none, some tok => tok :: tokens known t
      | none, none => []
    else if x = '%' ∧ (y = 'a' ∨ y = 'b' ∨ y = 'c') ∧ (known.lookup y.toUpper).isSome then
      ((known.lookup y.toUpper).getD []).map (fun c => literal c.toLower) ++ tokens known t
    else (if x = '?' then .any else .lit x) :: tokens known (y :: t)

/-- Names of the groups of an expression. -/
def groups (ts : List Tok) : List Char :=
  ts.filterMap fun t => match t with
    | .digits n _ => some n
    | .star n => some n
    | _ => none

/-- `re.compile`: a group name must not occur twice (sre_constants.error). -/
def compile (known : Fields) (pattern : Str) : Except PyErr (List Tok) :=
  let ts := tokens known pattern
  if (groups ts).Nodup then .ok ts else .error .other

def isDigit (c : Char) : Bool := decide (c ∈ ['0', '1', '2', '3', '4', '5', '6', '7', '8', '9'])

/-- `matcher.match(s)`: match at the beginning of `s`, greedy with backtracking; group texts and unmatched rest. -/
def matchToks : List Tok → Str → Option (Fields × Str)
  | [], s => some ([], s)
  | .lit c :: ts, s => match s with
    | x :: s' => if x = c then matchToks ts s' else none
    | [] => none
  | .any :: ts, s => match s with
    | x :: s' => if x = '\n' then none else matchToks ts s'
    | [] => none
  | .digits n k :: ts, s =>
    if k ≤ s.length ∧ (s.take k).all isDigit then
      (matchToks ts (s.drop k)).map fun r => ((n, s.take k) :: r.1, r.2)
    else none
  | .star n :: ts, s =>
    (List.range (s.length + 1)).reverse.findSome? fun k =>
      if (s.take k).all (· != '\n') then (matchToks ts (s.drop k)).map fun r => ((n, s.take k) :: r.1, r.2) else none

/-- `hash_string_dictionary`, namepatterns.py 64-74: the values, concatenated in the iteration order of the dictionary, here
any fixed order of the keys. -/
def hashKey (order : List Char) (d : Fields) : Str := order.flatMap fun n => (d.lookup n).getD []

/-- A candidate: position in the list of candidates, and name. -/
abbrev Entry := Nat × Str

/-- `parentvalues`: key → (values, [(candidate, remaining part)]), in order of insertion (the order of iteration of the
dictionary in the code is unspecified; no statement below depends on it). -/
abbrev Parents := List (Str × Fields × List (Entry × Str))

/-- Body of the loop namepatterns.py 126-136 after a match. -/
def addParent (key : Str) (values : Fields) (e : Entry × Str) : Parents → Parents
  | [] => [(key, values, [e])]
  | p :: ps => if p.1 = key then (p.1, p.2.1, p.2.2 ++ [e]) :: ps else p :: addParent key values e ps

/-- namepatterns.py 126-136. -/
def buildParents (order : List Char) (matcher : List Tok) (cands : List Entry) : Parents :=
  cands.foldl (fun ps c => match matchToks matcher c.2 with
    | some (values, rest) => addParent (hashKey order values) values (c, rest) ps
    | none => ps) []

/-- `ExtractedTextFields`, namepatterns.py 98-103, with the candidate it came from. -/
structure Extract where
  entry : Entry
  fields : Fields
  deriving DecidableEq, Repr

/-- `dict(a, **b)`. -/
def combine (a b : Fields) : Fields := b ++ a.filter fun kv => (b.lookup kv.1).isNone

/-- namepatterns.py 146-151 for one key. -/
def matchChildren (matcher : List Tok) (values : Fields) (es : List (Entry × Str)) : List Extract :=
  es.filterMap fun e => (matchToks matcher e.2).map fun r => ⟨e.1, combine values r.1⟩

/-- namepatterns.py 143-151. -/
def matchAll (child : Str) : Parents → Except PyErr (List Extract)
  | [] => .ok []
  | p :: ps => match compile p.2.1 child with
    | .error e => .error e
    | .ok matcher => match matchAll child ps with
      | .error e => .error e
      | .ok rest => .ok (matchChildren matcher p.2.1 p.2.2 ++ rest)

/-- `nested_search_patterns`, namepatterns.py 106-154. The matched flags set on candidates are those of the entries of the
result. -/
def nestedSearch (order : List Char) (patterns : List Str) (cands : List Entry) : Except PyErr (List Extract) :=
  match patterns with
  | [] => .error .valueError
  | [p] => matchAll p [(['1'], [], cands.map fun c => (c, c.2))]
  | [p, q] => match compile [] p with
    | .error e => .error e
    | .ok matcher => matchAll q (buildParents order matcher cands)
  | _ => .error .valueError

/-- `int(text)` of a string of digits. -/
def intOfDigits (s : Str) : Nat := s.foldl (fun n c => 10 * n + (c.toNat - 48)) 0

/-- Arguments accepted by `datetime`, otherwise ValueError (Python library). -/
def ValidDateTime (t : DateTime) : Prop :=
  1 ≤ t.date.year ∧ t.date.year ≤ 9999 ∧ t.date.Valid ∧ t.hour < 24 ∧ t.minute < 60 ∧ t.second < 60

instance (t : DateTime) : Decidable (ValidDateTime t) := by unfold ValidDateTime; infer_instance

/-- Month and day, datetime_dictionary.py 24-28: a day without a month is overwritten. -/
def monthDay (m d : Option Nat) : Nat × Nat :=
  match m with
  | some m => (m, d.getD 1)
  | none => (1, 1)

/-- `datetime_dictionary.parse`, datetime_dictionary.py 17-29. -/
def parseFields (d : Fields) : Except PyErr (Option DateTime) :=
  let get := fun c => (d.lookup c).map intOfDigits
  if (get 'Y').isNone ∧ (get 'm').isNone ∧ (get 'd').isNone ∧ (get 'H').isNone ∧ (get 'M').isNone ∧ (get 'S').isNone then
    .ok none
  else match get 'Y' with
    | none => .error .typeError
    | some y =>
      let md := monthDay (get 'm') (get 'd')
      let t : DateTime := ⟨⟨y, md.1, md.2⟩, (get 'H').getD 0, (get 'M').getD 0, (get 'S').getD 0⟩
      if ValidDateTime t then .ok (some t) else .error .valueError

/-- `CatalogueFileEntry`, dataset.py 134-150 (checksum and size are None at this stage). -/
structure Found where
  name : Str
  time : Option DateTime
  tags : List Str
  deriving DecidableEq, Repr

/-- Tags, dataset.py 159-167. -/
def tagsOf (d : Fields) : List Str :=
  match d.lookup 'A' with
  | none => []
  | some a => match d.lookup 'B' with
    | none => [a]
    | some b => match d.lookup 'C' with
      | none => [a, b]
      | some c => [a, b, c]

/-- Results of a search within a subset, dataset.py 63-69. -/
structure SubsetResult where
  found : List Found
  valueErrors : List Str
  archiveUnused : List (List Str)
  deriving DecidableEq, Repr

/-- `append_results`, dataset.py 106-114, and `from_extracted_text_fields`, dataset.py 152-169; exceptions other than
ValueError propagate. -/
def appendResults (itemPrefix : Str) : List Extract → SubsetResult → Except PyErr SubsetResult
  | [], r => .ok r
  | x :: xs, r => match parseFields x.fields with
    | .ok t => appendResults itemPrefix xs { r with found := r.found ++ [⟨itemPrefix ++ x.entry.2, t, tagsOf x.fields⟩] }
    | .error .valueError => appendResults itemPrefix xs { r with valueErrors := r.valueErrors ++ [x.entry.2] }
    | .error e => .error e

/-- A list of `NameCandidate`, dataset.py 42, storage.py 65. -/
def candidates (names : List Str) : List Entry := (List.range names.length).zip names

/-- Names of candidates whose flag was not set by the extracts (each extract sets the flag of its candidate,
namepatterns.py 150-151). -/
def unmatched (cands : List Entry) (xs : List Extract) : List Str :=
  (cands.filter fun c => !(xs.any fun x => x.entry.1 == c.1)).map (·.2)

/-- `DataStorageFiles` and `DataStorageArchive`, storage.py 23-50. -/
inductive Layout where
  | files (patterns : List Str)
  | archive (pathname internal : Str)
  deriving DecidableEq, Repr

/-- Body of the loop over archives, storage.py 58-77. `contents` is the list of names inside an archive (library). -/
def archiveLoop (contents : Str → List Str) (internal : Str) : List Extract → SubsetResult → Except PyErr SubsetResult
  | [], r => .ok r
  | a :: as, r =>
    let internals := candidates (contents a.entry.2)
    match nestedSearch [] [internal] internals with
    | .error e => .error e
    | .ok xs => match appendResults (a.entry.2 ++ [':']) xs r with
      | .error e => .error e
      | .ok r' => archiveLoop contents internal as
          { r' with archiveUnused := r'.archiveUnused ++ [(unmatched internals xs).map fun n => a.entry.2 ++ [':'] ++ n] }

/-- The extracts that set flags on the candidates of the data set, storage.py 37 and 56. -/
def extracts (order : List Char) (cands : List Entry) : Layout → Except PyErr (List Extract)
  | .files ps => nestedSearch order ps cands
  | .archive p _ => nestedSearch order [p] cands

/-- `CatalogueDataSubset.search` with `match_files`, dataset.py 71-78, storage.py 34-37 and 52-77. -/
def searchSubset (order : List Char) (contents : Str → List Str) (cands : List Entry) (layout : Layout) :
    Except PyErr (SubsetResult × List Extract) :=
  match extracts order cands layout with
  | .error e => .error e
  | .ok xs => match layout with
    | .files _ => (appendResults [] xs ⟨[], [], []⟩).map fun r => (r, xs)
    | .archive _ q => (archiveLoop contents q xs ⟨[], [], []⟩).map fun r => (r, xs)

/-- Loop over the subsets, dataset.py 45-46. -/
def searchSubsets (order : List Char) (contents : Str → List Str) (cands : List Entry) :
    List Layout → Except PyErr (List (SubsetResult × List Extract))
  | [] => .ok []
  | s :: ss => match searchSubset order contents cands s with
    | .error e => .error e
    | .ok r => match searchSubsets order contents cands ss with
      | .error e => .error e
      | .ok rs => .ok (r :: rs)

/-- `CatalogueDataSet.search`, dataset.py 37-49: results of the subsets and the names not matched by any. -/
def search (order : List Char) (contents : Str → List Str) (names : List Str) (subsets : List Layout) :
    Except PyErr (List SubsetResult × List Str) :=
  let cands := candidates names
  (searchSubsets order contents cands subsets).map fun rs => (rs.map (·.1), unmatched cands (rs.flatMap (·.2)))

end Verif.Eumopps.Search
