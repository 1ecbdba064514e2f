import Verif.Py
import Mathlib.Data.Real.Sqrt
import Mathlib.Algebra.BigOperators.Group.Finset.Basic

/-!
Merging of the daily files of several instruments into one pair of files: src/eustace/outputformats/filesmerger.py and
src/eustace/outputformats/merge_multiple_outputs.py, with the writer of src/eustace/surfaceairmodel/fileio/consistent.py.

Simplified: float64 is replaced by the reals, so packing to integers when a file is written (and the loss by it) is left out; a
field is a list of its cells in the order of the file, and a cell is missing when it holds the fill value of the variable, so that
`mask` and `data == fill_value` say the same; attributes of files other than the comment, the axes, and directories are left out;
checks of Python types are left out, because the types of the model imply them.
-/

namespace Verif.Eustace.Merge

open Verif

noncomputable section

abbrev Path := List Char
abbrev Name := List Char

/-- A variable on the grid as the netCDF4 library reads it: the cells, none where the fill value is stored. -/
abbrev Field := List (Option ℝ)

/-- A file as far as merging looks at it: the first entry of its variable `time`, its fields, and its comment. -/
structure Data where
  day : ℝ
  vars : Name → Option Field
  comment : List Char

/-- The files. -/
abbrev Disc := Path → Option Data

/-! ### Strings -/

/-- `os.path.basename(path)` (Python library): what follows the last slash. -/
def basename (path : Path) : List Char := (path.splitOn '/').getLastD []

/-- `os.path.basename(filename).split('_')[4]`, filesmerger.py 125, 132, 140, 160, 355-356. -/
def label (path : Path) : Except PyErr (List Char) :=
  match ((basename path).splitOn '_')[4]? with
  | none => .error .indexError
  | some l => .ok l

/-- `s.replace(sub, '')` for `sub` not empty (Python library): leftmost occurrences, not overlapping. -/
def remove (sub : List Char) (s : List Char) : List Char :=
  match s with
  | [] => []
  | c :: t =>
    if sub ≠ [] ∧ sub.isPrefixOf (c :: t) then remove sub (t.drop (sub.length - 1))
    else c :: remove sub t
termination_by s.length
decreasing_by all_goals (simp only [List.length_drop, List.length_cons]; omega)

/-- `name + '_' + label`, filesmerger.py 127, 357. -/
def labelled (name label : List Char) : Name := name ++ '_' :: label

/-! ### Which files are there -/

/-- `element is not None and os.path.isfile(element)`, filesmerger.py 25, 31. -/
def isFile (disc : Disc) : Option Path → Bool
  | none => false
  | some p => (disc p).isSome

/-- The variables of `clean_list_of_outputs_to_merge`. -/
structure Scan where
  mains : List (Option Path)
  ancillaries : List (Option Path)
  sources : Nat
  removed : List Nat

/-- The body of the first loop, filesmerger.py 23-32. -/
def scanOne (disc : Disc) (s : Scan) (index : Nat) (main ancillary : Option Path) : Scan :=
  let s := if isFile disc main then { s with sources := s.sources + 1 }
    else { s with mains := s.mains.erase main, removed := s.removed ++ [index] }
  if isFile disc ancillary then s else { s with ancillaries := s.ancillaries.erase ancillary }

/-- The first loop, over pairs taken before anything is removed (`zip` of Python 2 makes a list), filesmerger.py 23-32. -/
def scan (disc : Disc) : Scan → Nat → List (Option Path × Option Path) → Scan
  | s, _, [] => s
  | s, index, (main, ancillary) :: rest => scan disc (scanOne disc s index main ancillary) (index + 1) rest

/-- The pairs `index < jndex` in the order of the nested loops, filesmerger.py 44-45, 328-329. -/
def pairs (n : Nat) : List (Nat × Nat) :=
  (List.range n).flatMap fun i => (List.range' (i + 1) (n - (i + 1))).map fun j => (i, j)

/-- The loops over pairs for one index to remove and one list of correlations, filesmerger.py 43-48; `k` is
`sub_list_index`. -/
def blank (index : Nat) : List (Nat × Nat) → Nat → List (Option ℝ) → Except PyErr (List (Option ℝ))
  | [], _, sub => .ok sub
  | (i, j) :: rest, k, sub =>
    if index = i ∨ index = j then
      if k < sub.length then blank index rest (k + 1) (sub.set k none) else .error .indexError
    else blank index rest (k + 1) sub

/-- The loop over the indexes to remove, for one list of correlations, filesmerger.py 41-48. (The two outer loops are exchanged
here: the lists are different objects, so only which of two errors comes first could differ, and all are IndexError.) -/
def blankAll (n : Nat) : List Nat → List (Option ℝ) → Except PyErr (List (Option ℝ))
  | [], sub => .ok sub
  | index :: rest, sub =>
    match blank index (pairs n) 0 sub with
    | .error e => .error e
    | .ok sub => blankAll n rest sub

/-- Both loops over the lists of correlations, filesmerger.py 41-52: entries of missing sources are taken out. -/
def reduce (n : Nat) (removed : List Nat) : List (List ℝ) → Except PyErr (List (List ℝ))
  | [] => .ok []
  | sub :: rest =>
    match blankAll n removed (sub.map some) with
    | .error e => .error e
    | .ok cleared =>
      match reduce n removed rest with
      | .error e => .error e
      | .ok more => .ok (cleared.filterMap id :: more)

/-- What `clean_list_of_outputs_to_merge` leaves. -/
structure Cleaned where
  mains : List (Option Path)
  ancillaries : List (Option Path)
  sources : Nat
  indexes : List (List ℝ)

/-- `clean_list_of_outputs_to_merge`, filesmerger.py 13-52; the count begins with nought, merge_multiple_outputs.py 49. -/
def clean (disc : Disc) (mains ancillaries : List (Option Path)) (indexes : List (List ℝ)) : Except PyErr Cleaned :=
  if mains.length ≠ ancillaries.length then .error .valueError
  else
    let s := scan disc ⟨mains, ancillaries, 0, []⟩ 0 (mains.zip ancillaries)
    if s.mains.length ≠ s.ancillaries.length then .error .valueError
    else
      match reduce mains.length s.removed indexes with
      | .error e => .error e
      | .ok lists => .ok ⟨s.mains, s.ancillaries, s.sources, lists⟩

/-! ### Fields -/

/-- The object which merges: `FilesMerger.__init__`, filesmerger.py 57-99, without the files. `alwaysMask` belongs to the netCDF4
library: if it is not set (the library before 1.4), a variable without missing cells is read as a plain array. -/
structure Merger where
  primaries : List Name
  uncertainties : List Name
  ancillaries : List Name
  indexes : List (List ℝ)
  commentPrefix : List Char
  alwaysMask : Bool

/-- `handle.variables[name]`. -/
def lookup (d : Data) (name : Name) : Except PyErr Field :=
  match d.vars name with
  | none => .error .keyError
  | some f => .ok f

/-- `extract_and_modify_masked_array_data_and_mask`, filesmerger.py 307-314: a plain array has no `fill_value`. -/
def extract (alwaysMask : Bool) (d : Data) (name : Name) : Except PyErr Field :=
  match lookup d name with
  | .error e => .error e
  | .ok f => if alwaysMask || f.any Option.isNone then .ok f else .error .attributeError

/-- The loop which puts the fields of further files below those of the first (`row_stack`), filesmerger.py 251-256, 285-291. -/
def stackRest (alwaysMask : Bool) (name : Name) (size : Nat) : List Data → Except PyErr (List Field)
  | [] => .ok []
  | d :: rest =>
    match extract alwaysMask d name with
    | .error e => .error e
    | .ok f =>
      if f.length ≠ size then .error .valueError
      else
        match stackRest alwaysMask name size rest with
        | .error e => .error e
        | .ok fs => .ok (f :: fs)

/-- All fields of a name, filesmerger.py 247-256, 280-291 (`handles[0]` of no handles is an IndexError). -/
def stack (alwaysMask : Bool) (name : Name) : List Data → Except PyErr (List Field)
  | [] => .error .indexError
  | d :: rest =>
    match extract alwaysMask d name with
    | .error e => .error e
    | .ok f =>
      match stackRest alwaysMask name f.length rest with
      | .error e => .error e
      | .ok fs => .ok (f :: fs)

/-- What the files say of a cell. -/
def cell (fields : List Field) (c : Nat) : List (Option ℝ) := fields.map fun f => f.getD c none

/-- `numpy.logical_and` of all masks, filesmerger.py 256, 291. -/
def allMissing (values : List (Option ℝ)) : Bool := values.all Option.isNone

/-- The number of files with data, `stack_of_masks.sum(axis=0)`, filesmerger.py 299. -/
def available (values : List (Option ℝ)) : Nat := values.countP Option.isSome

/-- `numpy.nanmean` over the files (numpy adds with nought for nan and divides by the number of others), filesmerger.py 261-266. -/
def meanCell (values : List (Option ℝ)) : Option ℝ :=
  if allMissing values then none else some ((values.map fun v => v.getD 0).sum / (available values : ℝ))

/-- One name of `compute_mean_fields`, filesmerger.py 244-266. -/
def meanField (alwaysMask : Bool) (handles : List Data) (name : Name) : Except PyErr Field :=
  match stack alwaysMask name handles with
  | .error e => .error e
  | .ok fields => .ok ((List.range (fields.headD []).length).map fun c => meanCell (cell fields c))

/-- A matrix of numpy. -/
abbrev Entries := Nat × Nat → ℝ

/-- The loops of `build_triangular_correlation_matrix`, filesmerger.py 328-331. -/
def fillUpper (sub : List ℝ) : List (Nat × Nat) → Nat → Entries → Entries
  | [], _, m => m
  | p :: rest, k, m => fillUpper sub rest (k + 1) (Function.update m p (2 * sub.getD k 0))

/-- `build_triangular_correlation_matrix`, filesmerger.py 316-333. -/
def triangular (n : Nat) (sub : List ℝ) : Except PyErr Entries :=
  if n * (n - 1) ≠ 2 * sub.length then .error .valueError
  else .ok (fillUpper sub (pairs n) 0 fun p => if p.1 = p.2 then 1 else 0)

/-- The sum of `propagate_uncertainty` for one cell, filesmerger.py 339-345. -/
def quadratic (n : Nat) (m : Entries) (u : List ℝ) : ℝ :=
  ((List.range n).flatMap fun i => (List.range' i (n - i)).map fun j => u.getD i 0 * m (i, j) * u.getD j 0).sum

/-- One cell of `compute_propagated_uncertainties`, filesmerger.py 294-305: the root of a negative number is nan, and nan becomes
the fill value. -/
def uncertaintyCell (n : Nat) (m : Entries) (values : List (Option ℝ)) : Option ℝ :=
  let q := quadratic n m (values.map fun v => v.getD 0)
  if allMissing values then none
  else if q < 0 then none
  else some (Real.sqrt q * (1 / (available values : ℝ)))

/-- One name of `compute_propagated_uncertainties`, filesmerger.py 273-305. -/
def uncertaintyField (alwaysMask : Bool) (handles : List Data) (name : Name) (sub : List ℝ) : Except PyErr Field :=
  match triangular handles.length sub with
  | .error e => .error e
  | .ok m =>
    match stack alwaysMask name handles with
    | .error e => .error e
    | .ok fields =>
      .ok ((List.range (fields.headD []).length).map fun c => uncertaintyCell handles.length m (cell fields c))

/-! ### Results -/

/-- The dictionary `results` without its entry `daynumber`. -/
abbrev Results := Name → Option Field

/-- `append_original_fields` for one file, filesmerger.py 353-358. -/
def appendNames (path : Path) (d : Data) : List Name → Results → Except PyErr Results
  | [], r => .ok r
  | name :: rest, r =>
    match lookup d name with
    | .error e => .error e
    | .ok f =>
      match label path with
      | .error e => .error e
      | .ok l => appendNames path d rest (Function.update r (labelled name l) (some f))

/-- `append_original_fields`, filesmerger.py 349-358. -/
def appendOriginal (names : List Name) : List (Path × Data) → Results → Except PyErr Results
  | [], r => .ok r
  | (path, d) :: rest, r =>
    match appendNames path d names r with
    | .error e => .error e
    | .ok r => appendOriginal names rest r

/-- `compute_mean_fields`, filesmerger.py 240-266. -/
def meanFields (alwaysMask : Bool) (handles : List Data) : List Name → Results → Except PyErr Results
  | [], r => .ok r
  | name :: rest, r =>
    match meanField alwaysMask handles name with
    | .error e => .error e
    | .ok f => meanFields alwaysMask handles rest (Function.update r name (some f))

/-- `compute_propagated_uncertainties`, filesmerger.py 268-305; `list_of_correlation_indexes[index]` is taken from the front. -/
def uncertaintyFields (alwaysMask : Bool) (handles : List Data) :
    List Name → List (List ℝ) → Results → Except PyErr Results
  | [], _, r => .ok r
  | _ :: _, [], _ => .error .indexError
  | name :: rest, sub :: subs, r =>
    match uncertaintyField alwaysMask handles name sub with
    | .error e => .error e
    | .ok f => uncertaintyFields alwaysMask handles rest subs (Function.update r name (some f))

/-- `netCDF4.Dataset(name, 'r')` for each name, filesmerger.py 189-197. -/
def openAll (disc : Disc) : List Path → Except PyErr (List Data)
  | [] => .ok []
  | p :: rest =>
    match disc p with
    | none => .error .runtimeError
    | some d =>
      match openAll disc rest with
      | .error e => .error e
      | .ok ds => .ok (d :: ds)

/-- The check that all files are of one day, filesmerger.py 199-208. -/
def commonDay : List Data → Except PyErr ℝ
  | [] => .error .valueError
  | d :: rest => open Classical in if rest.all (fun e => decide (e.day = d.day)) then .ok d.day else .error .valueError

/-- `merge_multiple_files`, filesmerger.py 179-223. -/
def mergeFiles (m : Merger) (disc : Disc) (mains ancillaries : List Path) : Except PyErr (ℝ × Results) :=
  match openAll disc mains with
  | .error e => .error e
  | .ok hp =>
    match openAll disc ancillaries with
    | .error e => .error e
    | .ok ha =>
      match commonDay (hp ++ ha) with
      | .error e => .error e
      | .ok day =>
        match appendOriginal (m.primaries ++ m.uncertainties) (mains.zip hp) (fun _ => none) with
        | .error e => .error e
        | .ok r =>
          match appendOriginal m.ancillaries (ancillaries.zip ha) r with
          | .error e => .error e
          | .ok r =>
            match meanFields m.alwaysMask hp m.primaries r with
            | .error e => .error e
            | .ok r =>
              match uncertaintyFields m.alwaysMask hp m.uncertainties
                  (List.replicate m.uncertainties.length (List.replicate (mains.length * (mains.length - 1) / 2) 0)) r with
              | .error e => .error e
              | .ok r =>
                match uncertaintyFields m.alwaysMask ha m.ancillaries m.indexes r with
                | .error e => .error e
                | .ok r => .ok (day, r)

/-! ### Files -/

/-- `ConsistentModelOutputNetCDF.PRIMARY_VARIABLES`, consistent.py 45, with names of definitions.py 182-188. -/
def primaryVariables : List Name :=
  ["tas".toList, "tasmin".toList, "tasmax".toList, "tasuncertainty".toList, "tasminuncertainty".toList,
    "tasmaxuncertainty".toList]

/-- `write_element`, consistent.py 54-76: the file has the variables of the list which the results have; a second variable of the
same name cannot be made (filebuilder.py 42), and then the first ones are in the file. -/
def writeElement (disc : Disc) (path : Path) (day : ℝ) (comment : List Char) (results : Results) (names : List Name) :
    Disc × Except PyErr Unit :=
  open Classical in
  let written := names.filter fun n => (results n).isSome
  (Function.update disc path (some ⟨day, fun n => if n ∈ names then results n else none, comment⟩),
    if written.Nodup then .ok () else .error .runtimeError)

/-- `os.remove` of each file, filesmerger.py 153-155. -/
def removeAll : Disc → List Path → Disc × Except PyErr Unit
  | disc, [] => (disc, .ok ())
  | disc, p :: rest =>
    match disc p with
    | none => (disc, .error .other)
    | some _ => removeAll (Function.update disc p none) rest

/-- The labels of files, filesmerger.py 124-125, 140. -/
def labels : List Path → Except PyErr (List (List Char))
  | [] => .ok []
  | p :: rest =>
    match label p with
    | .error e => .error e
    | .ok l =>
      match labels rest with
      | .error e => .error e
      | .ok ls => .ok (l :: ls)

/-- `attributes.comment`, filesmerger.py 139-148: `sources_string[:-2]` takes off the last comma and space. -/
def comment (commentPrefix : List Char) (sources : List (List Char)) : List Char :=
  commentPrefix ++ ((sources.flatMap fun s => s ++ ", ".toList).dropLast).dropLast ++ " retrievals.".toList

/-- The names written to the ancillary file, filesmerger.py 120-129. -/
def ancillaryNames (m : Merger) (sources : List (List Char)) : List Name :=
  m.ancillaries ++ (m.primaries ++ m.uncertainties ++ m.ancillaries).flatMap fun name => sources.map fun s => labelled name s

/-- What a day of merging gives: the files afterwards, and the names of the files made (or an error). -/
abbrev Outcome := Disc × Except PyErr (List Path × List Path)

/-- The second case of `merge_outputs_from_single_day`, filesmerger.py 116-155. -/
def mergeMany (m : Merger) (disc : Disc) (mains ancillaries : List Path) : Outcome :=
  match mergeFiles m disc mains ancillaries with
  | .error e => (disc, .error e)
  | .ok (day, results) =>
    match labels mains with
    | .error e => (disc, .error e)
    | .ok sources =>
      match mains, sources, ancillaries with
      | main :: _, source :: _, ancillary :: _ =>
        let outMain := remove ('_' :: source) main
        let outAncillary := remove ('_' :: source) ancillary
        let text := comment m.commentPrefix sources
        match writeElement disc outMain day text results primaryVariables with
        | (disc, .error e) => (disc, .error e)
        | (disc, .ok ()) =>
          match writeElement disc outAncillary day text results (ancillaryNames m sources) with
          | (disc, .error e) => (disc, .error e)
          | (disc, .ok ()) =>
            match removeAll disc (mains ++ ancillaries) with
            | (disc, .error e) => (disc, .error e)
            | (disc, .ok ()) => (disc, .ok ([outMain], [outAncillary]))
      | _, _, _ => (disc, .error .indexError)

/-- `os.rename` (POSIX): a file of the new name is replaced. -/
def rename (disc : Disc) (a b : Path) : Disc := Function.update (Function.update disc a none) b (disc a)

/-- A loop of `update_single_file`, filesmerger.py 162-168, 170-176. -/
def relabel (text source : List Char) : Disc → List Path → Disc × Except PyErr (List Path)
  | disc, [] => (disc, .ok [])
  | disc, p :: rest =>
    match disc p with
    | none => (disc, .error .runtimeError)
    | some d =>
      match relabel text source (rename (Function.update disc p (some { d with comment := text })) p (remove ('_' :: source) p)) rest with
      | (disc, .error e) => (disc, .error e)
      | (disc, .ok names) => (disc, .ok (remove ('_' :: source) p :: names))

/-- `update_single_file`, filesmerger.py 157-176. -/
def updateSingle (m : Merger) (disc : Disc) (mains ancillaries : List Path) : Outcome :=
  match mains with
  | [] => (disc, .error .indexError)
  | main :: _ =>
    match label main with
    | .error e => (disc, .error e)
    | .ok source =>
      let text := m.commentPrefix ++ source ++ " retrievals.".toList
      match relabel text source disc mains with
      | (disc, .error e) => (disc, .error e)
      | (disc, .ok a) =>
        match relabel text source disc ancillaries with
        | (disc, .error e) => (disc, .error e)
        | (disc, .ok b) => (disc, .ok (a, b))

/-- `merge_outputs_from_single_day`, filesmerger.py 109-155. -/
def mergeDay (m : Merger) (disc : Disc) (mains ancillaries : List Path) : Outcome :=
  if mains.length = 1 then updateSingle m disc mains ancillaries else mergeMany m disc mains ancillaries

/-- `merge_outputs_from_multiple_daily_sources`, filesmerger.py 101-107, with the lists of files cut into days from the front. -/
def mergeDays (m : Merger) : Disc → List Nat → List Path → List Path → Outcome
  | disc, [], _, _ => (disc, .ok ([], []))
  | disc, n :: rest, mains, ancillaries =>
    match mergeDay m disc (mains.take n) (ancillaries.take n) with
    | (disc, .error e) => (disc, .error e)
    | (disc, .ok (a, b)) =>
      match mergeDays m disc rest (mains.drop n) (ancillaries.drop n) with
      | (disc, .error e) => (disc, .error e)
      | (disc, .ok (a', b')) => (disc, .ok (a ++ a', b ++ b'))

/-- `check_produced_output`, filesmerger.py 225-237, for expected names given as strings: `element not in expected` looks for the
one string in the other. -/
def check (produced : List Path) (expected : Path) : Bool := open Classical in produced.all fun p => decide (p <:+: expected)

/-- The checks of numbers in `FilesMerger.__init__`, filesmerger.py 64-80. -/
def construct (m : Merger) (mains ancillaries : List Path) (sources : List Nat) : Except PyErr Unit :=
  if mains.length ≠ ancillaries.length ∨ ancillaries.length ≠ sources.sum then .error .valueError
  else if m.ancillaries.length ≠ m.indexes.length then .error .valueError
  else .ok ()

/-- `merge_single_day_outputs`, merge_multiple_outputs.py 26-62, after definitions have been looked up. Names left by `clean` are
names of files, so none is None. -/
def mergeSingleDay (m : Merger) (disc : Disc) (mains ancillaries : List (Option Path)) (outMain outAncillary : Path) :
    Disc × Except PyErr Unit :=
  match clean disc mains ancillaries m.indexes with
  | .error e => (disc, .error e)
  | .ok cleaned =>
    if cleaned.sources = 0 then (disc, .ok ())
    else
      let m := { m with indexes := cleaned.indexes }
      let a := cleaned.mains.filterMap id
      let b := cleaned.ancillaries.filterMap id
      match construct m a b [cleaned.sources] with
      | .error e => (disc, .error e)
      | .ok () =>
        match mergeDays m disc [cleaned.sources] a b with
        | (disc, .error e) => (disc, .error e)
        | (disc, .ok (main, ancillary)) =>
          (disc, if check main outMain && check ancillary outAncillary then .ok () else .error .valueError)

/-! ### Ranges of correlation -/

/-- What an output variable says about its scales. -/
structure Scales where
  length : ℝ
  time : ℝ
  lengthUnits : List Char
  timeUnits : List Char

/-- `CorrelationRanges`, src/eustace/surfaceairmodel/correlation_ranges.py 5-14. -/
structure Ranges where
  keys : List Name
  units : List (List Char)
  lengths : List ℝ
  times : List ℝ

/-- `length_time_scales_dictionary`, correlation_ranges.py 25-27: the last of equal keys counts. -/
def Ranges.find (r : Ranges) (name : Name) : Option (ℝ × ℝ) :=
  ((r.keys.zip (r.lengths.zip r.times)).reverse.find? fun e => e.1 == name).map Prod.snd

/-- `if variable.name in keys: update_correlated_uncertainty_ranges(variable)`, merge_multiple_outputs.py 43-45 and
correlation_ranges.py 16-23. -/
def Ranges.update (r : Ranges) (name : Name) (old : Option Scales) : Except PyErr (Option Scales) :=
  if name ∈ r.keys then
    match r.find name with
    | none => .error .keyError
    | some (l, t) =>
      match r.units with
      | u :: v :: _ => .ok (some ⟨l, t, u, v⟩)
      | _ => .error .indexError
  else .ok old

end

end Verif.Eustace.Merge
