import Verif.Py
import Verif.Eustace.Insitu.Ocean
import Mathlib.Data.List.Infix
import Mathlib.Logic.Function.Basic

/-!
Model of the reader of documents
(`src/eustace/parsedoc/parsedoc.py`, `src/eustace/outputformats/verify/specificationreader.py`,
`src/eustace/outputformats/verify/specification.py`, `src/eustace/inputcheck/deliverable_4_3.py`).

Text is a list of characters.  Not modelled: the container of the document, the parser of XML and `ast.literal_eval`.
-/

namespace Verif.Eustace.ParseDoc

open Verif

abbrev Text := List Char

/-! ### Paragraphs -/

/-- The tags which are looked for (parsedoc.py 11-12), and all others. -/
inductive Tag
  | para
  | text
  | other
  deriving DecidableEq

/-- An element of the document: its tag, its text and its children. -/
inductive Node
  | mk (tag : Tag) (text : Option Text) (children : List Node)

mutual
/-- `getiterator(tag)` (parsedoc.py 27, 29): the element itself and all below it, in the order of the document. -/
def Node.iterator (tag : Tag) : Node → List Node
  | .mk t x children => (if t = tag then [.mk t x children] else []) ++ iterators tag children

/-- The elements below. -/
def iterators (tag : Tag) : List Node → List Node
  | [] => []
  | n :: ns => n.iterator tag ++ iterators tag ns
end

/-- `node.text`. -/
def Node.content : Node → Option Text
  | .mk _ x _ => x

/-- `node.text.encode('ascii')` (parsedoc.py 32) and its exception. -/
def encode (t : Text) : Except PyErr Text := if ∀ c ∈ t, c.toNat < 128 then .ok t else .error .valueError

/-- What one node adds to a paragraph (parsedoc.py 30-34). -/
def nodeText (ignoreDigits : Bool) (n : Node) : Text :=
  match n.content with
  | none => []
  | some t =>
    if t ≠ [] ∧ (ignoreDigits = false ∨ ¬ t.all Char.isDigit) then
      match encode t with
      | .ok s => s
      | .error _ => []
    else []

/-- `parse_docx_paragraphs` (parsedoc.py 23-36). -/
def parseParagraphs (ignoreDigits : Bool) (document : Node) : List Text :=
  (document.iterator .para).map fun p => ((p.iterator .text).map (nodeText ignoreDigits)).flatten

/-- `needle in text`. -/
def within (needle text : Text) : Bool := decide (needle <:+: text)

/-- The loop of `get_paragraphs_between` (parsedoc.py 44-52), with `mode_contents`. -/
def betweenLoop (start stop : Text) : Bool → List Text → List Text
  | _, [] => []
  | true, p :: ps => if within stop p then [] else p :: betweenLoop start stop true ps
  | false, p :: ps => if within start p then betweenLoop start stop true ps else betweenLoop start stop false ps

/-- `get_paragraphs_between` (parsedoc.py 39-53). -/
def between (paragraphs : List Text) (start stop : Text) : List Text := betweenLoop start stop false paragraphs

/-- The loop of `get_paragraphs_containing` (parsedoc.py 62-67), with `current_data` and `result`. -/
def containingLoop (headings : List Text) (mark : Text) : Option Text → (Option Text → Option Text) → List Text → Option Text → Option Text
  | _, result, [] => result
  | current, result, p :: ps =>
    if p ∈ headings then containingLoop headings mark (some p) result ps
    else if within mark p then
      if result current = none then containingLoop headings mark current (Function.update result current (some p)) ps
      else containingLoop headings mark current result ps
    else containingLoop headings mark current result ps

/-- `get_paragraphs_containing` (parsedoc.py 56-68): the dictionary, whose keys can be `None`. -/
def containing (paragraphs : List Text) (headings : List Text) (mark : Text) : Option Text → Option Text :=
  containingLoop headings mark none (fun _ => none) paragraphs

/-- `get_dataset_list` (deliverable_4_3.py 19-31) on the paragraphs: names and paths. -/
def datasetList (paragraphs : List Text) (start stop workspace : Text) : List (Text × Option Text) :=
  let names := between paragraphs start stop
  names.map fun name => (name, containing paragraphs names workspace (some name))

/-! ### Tables -/

/-- `text.split(separator)` for a separator of two characters. -/
def splitPair (a b : Char) : Text → List Text
  | [] => [[]]
  | [c] => [[c]]
  | c :: d :: rest =>
    if c = a ∧ d = b then [] :: splitPair a b rest
    else
      match splitPair a b (d :: rest) with
      | [] => [[c]]
      | w :: ws => (c :: w) :: ws

/-- `text.split(' ')`. -/
def splitBlank : Text → List Text
  | [] => [[]]
  | c :: rest =>
    if c = ' ' then [] :: splitBlank rest
    else
      match splitBlank rest with
      | [] => [[c]]
      | w :: ws => (c :: w) :: ws

/-- Dictionaries by name. -/
abbrev Dict (α : Type) := Text → Option α

/-- The loop of `read_attributes` (specificationreader.py 36-41). -/
def attributesOf : List Text → Dict Text → Except PyErr (Dict Text)
  | [], d => .ok d
  | p :: ps, d =>
    match splitPair ':' ' ' p with
    | key :: value :: _ => attributesOf ps (Function.update d key (some value))
    | _ => .error .indexError

/-- `read_attributes` (specificationreader.py 28-44). -/
def readAttributes (paragraphs : List Text) (start stop : Text) : Except PyErr (Dict Text) :=
  attributesOf (between paragraphs start stop) fun _ => none

/-- The types of variables (specificationreader.py 11). -/
inductive VarType
  | float32
  | int32
  | int16
  | char
  | uint8
  deriving DecidableEq

/-- `VARIABLE_TYPES` (specificationreader.py 11). -/
def variableType (t : Text) : Except PyErr VarType :=
  if t = "(float32)".toList then .ok .float32
  else if t = "(int32)".toList then .ok .int32
  else if t = "(int16)".toList then .ok .int16
  else if t = "(char)".toList then .ok .char
  else if t = "(uint8)".toList then .ok .uint8
  else .error .keyError

/-- A value of metadata: text, or what `ast.literal_eval` makes of it (specificationreader.py 65-68). -/
inductive Value (α : Type)
  | text (t : Text)
  | literal (a : α)

/-- `VariableSpecification` (specification.py 8-19). -/
structure Variable (α : Type) where
  name : Text
  dtype : VarType
  metadata : Dict (Value α)

/-- The value of a paragraph (specificationreader.py 65-68). -/
def metaValue {α : Type} (literal : Text → Except PyErr α) (value : Text) : Except PyErr (Value α) :=
  match value with
  | '[' :: _ =>
    match literal value with
    | .error e => .error e
    | .ok a => .ok (.literal a)
  | _ => .ok (.text value)

/-- `Variable: ` (specificationreader.py 57). -/
def heading : Text := "Variable: ".toList

/-- The variable of a heading (specificationreader.py 58-61). -/
def headed {α : Type} (p : Text) : Except PyErr (Variable α) :=
  match splitBlank p with
  | _ :: name :: dtype :: _ =>
    match variableType dtype with
    | .error e => .error e
    | .ok t => .ok ⟨name, t, fun _ => none⟩
  | _ => .error .indexError

/-- The loop of `read_variables` (specificationreader.py 54-72).  The variables are kept with the newest, which is
`current_variable`, first. -/
def variablesOf {α : Type} (literal : Text → Except PyErr α) : List Text → List (Variable α) → Except PyErr (List (Variable α))
  | [], vs => .ok vs.reverse
  | p :: ps, vs =>
    if heading <+: p then
      match headed p with
      | .error e => .error e
      | .ok v => variablesOf literal ps (v :: vs)
    else if p = [] then variablesOf literal ps vs
    else
      match splitPair ':' ' ' p with
      | [] => .error .indexError
      | key :: _ =>
        match metaValue literal (p.drop (key.length + 2)) with
        | .error e => .error e
        | .ok value =>
          match vs with
          | [] => .error .attributeError
          | v :: vs => variablesOf literal ps ({ v with metadata := Function.update v.metadata key (some value) } :: vs)

/-- `read_variables` (specificationreader.py 46-72). -/
def readVariables {α : Type} (literal : Text → Except PyErr α) (paragraphs : List Text) (start stop : Text) :
    Except PyErr (List (Variable α)) :=
  variablesOf literal (between paragraphs start stop) []

/-- The loop of `read_dimensions` (specificationreader.py 82-88): `some none` is a dimension without limit. -/
def dimensionsOf : List Text → Dict (Option Int) → Except PyErr (Dict (Option Int))
  | [], d => .ok d
  | p :: ps, d =>
    match splitPair ':' ' ' p with
    | key :: value :: _ =>
      if value = "UNLIMITED".toList then dimensionsOf ps (Function.update d key (some none))
      else
        match Insitu.Ocean.intOf value with
        | none => .error .valueError
        | some n => dimensionsOf ps (Function.update d key (some (some n)))
    | _ => .error .indexError

/-- `read_dimensions` (specificationreader.py 74-91). -/
def readDimensions (paragraphs : List Text) (start stop : Text) : Except PyErr (Dict (Option Int)) :=
  dimensionsOf (between paragraphs start stop).tail fun _ => none

/-- `read_name_list` (specificationreader.py 93-101). -/
def readNameList (paragraphs : List Text) (start stop : Text) : Except PyErr (List Text) :=
  match between paragraphs start stop with
  | [] => .error .indexError
  | line :: _ => .ok (splitPair ',' ' ' (Insitu.Ocean.strip line))

end Verif.Eustace.ParseDoc
