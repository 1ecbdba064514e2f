import Verif.Py
import Verif.Float32

/-!
Model of src/eustace/outputformats: `OutputVariable` and its templates (outputvariable.py), the definitions of the
variables of global fields (definitions.py 13-204), `FileBuilder` (filebuilder.py), `FileBuilderGlobalField`
(globalfield_filebuilder.py 65-133), the axes of `GlobalFieldAxes2D` (globalfield.py 12-42) and the verification of files
(verify/specification.py, verify/specification_globalfield.py, verify/verify.py, verify/verify_globalfield.py).

Simplified throughout: a NetCDF file is a value holding attributes, dimensions and variables; values of arrays are
rational numbers or missing (no NaN, and arithmetic in double precision is exact); compression is left out, and so is the
directory made for the file (globalfield_filebuilder.py 74).
-/
namespace Verif.Eustace.Format
open Verif Verif.Float32

/-! ### Types and values -/

/-- The NumPy types of variables, definitions.py (`dtype=`); `char` is `S1`, a single byte of text, taken as the number of
that byte. -/
inductive DType where
  | float32 | int8 | uint8 | int16 | int32 | char
  deriving DecidableEq, Repr

/-- Values of attributes: text, one number or an array of numbers. -/
inductive AttrValue where
  | text (s : String)
  | number (q : ℚ)
  | numbers (l : List ℚ)
  deriving DecidableEq

/-- `k` cast to a signed integer of which there are `2 * h` values: C casts keep the low bits. -/
def signed (h k : ℤ) : ℤ := (k + h) % (2 * h) - h

/-- `data.astype(dtype)` for data already rounded where `dtype` is an integer type (numpy; see `pack`). -/
def castTo (t : DType) (x : ℚ) : ℚ :=
  match t with
  | .float32 => f32 x
  | .int8 => signed 128 ⌊x⌋
  | .uint8 => (⌊x⌋ % 256 : ℤ)
  | .int16 => signed 32768 ⌊x⌋
  | .int32 => signed 2147483648 ⌊x⌋
  | .char => x

/-- `dtype.kind in 'iu'`. -/
def isInteger : DType → Bool
  | .float32 => false
  | .char => false
  | _ => true

/-- `netCDF4.default_fillvals`. -/
def defaultFill : DType → ℚ
  | .float32 => 9969209968386869046778552952102584320
  | .int8 => -127
  | .uint8 => 255
  | .int16 => -32767
  | .int32 => -2147483647
  | .char => 0

/-! ### Output variables -/

/-- The keywords of the constructor which hold metadata, outputvariable.py 25: all but `dtype`, `fill_value` and
`template_long_name`. -/
def metadataKeywords : List String :=
  ["standard_name", "units", "cell_methods", "cf_role", "flag_masks", "flag_values", "flag_meanings", "valid_range",
   "scale_factor", "add_offset", "calendar", "bounds", "ancillary_variables", "axis", "length_scale",
   "length_scale_units", "time_scale", "time_scale_units"]

/-- A dictionary of keyword arguments: keys are distinct and a value may be `None`. -/
abbrev Keywords := List (String × Option AttrValue)

/-- `dictionary[key]`, with `none` for a key which is absent and for the value `None`. -/
def Keywords.get (k : Keywords) (key : String) : Option AttrValue :=
  match k with
  | [] => none
  | (a, v) :: t => if a = key then v else Keywords.get t key

/-- `OutputVariableTemplate`, outputvariable.py 25-47.  Members other than the first three are in `members`, a `None`
being absence. -/
structure Template where
  dtype : DType
  fill : Option ℚ
  longNameTemplate : Option (List Char)
  members : String → Option AttrValue

/-- `OutputVariable`, outputvariable.py 95-99. -/
structure OutVar where
  name : String
  dtype : DType
  fill : Option ℚ
  longName : Option (List Char)
  longNameTemplate : Option (List Char)
  members : String → Option AttrValue

/-- The constructor of templates, outputvariable.py 25-47: unknown keywords are refused. -/
def newTemplate (dtype : DType) (fill : Option ℚ) (template : Option (List Char)) (k : Keywords) : Except PyErr Template :=
  if k.all (fun a => a.1 ∈ metadataKeywords) then .ok ⟨dtype, fill, template, k.get⟩ else .error .typeError

/-- The constructor of variables, outputvariable.py 95-99 (no variable is given a `template_long_name`). -/
def newVariable (name : String) (dtype : DType) (fill : Option ℚ) (longName : Option (List Char)) (k : Keywords) :
    Except PyErr OutVar :=
  if k.all (fun a => a.1 ∈ metadataKeywords) then .ok ⟨name, dtype, fill, longName, none, k.get⟩ else .error .typeError

/-- `extend`, outputvariable.py 16-23, where only the long name is replaced (as in definitions.py 105-107 and
206-208). -/
def extend (base : Template) (template : List Char) : Template := { base with longNameTemplate := some template }

/-- `get_metadata` of templates, outputvariable.py 62-65. -/
def Template.metadata (t : Template) (key : String) : Option AttrValue := t.members key

/-- `get_metadata` of variables, outputvariable.py 62-65: `long_name` is a member too. -/
def OutVar.metadata (v : OutVar) (key : String) : Option AttrValue :=
  if key = "long_name" then v.longName.map (fun s => .text (String.ofList s)) else v.members key

/-- `[A-Za-z0-9_]` in the regular expression of outputvariable.py 56. -/
def wordChar (c : Char) : Bool := c.isAlphanum || c == '_'

/-- `re.findall('\{([A-Za-z0-9_]+)\}', text)`, outputvariable.py 56, as an automaton: the first argument holds the
characters since an opening bracket, in reverse. -/
def findFields : Option (List Char) → List Char → List (List Char)
  | _, [] => []
  | none, c :: t => if c = '{' then findFields (some []) t else findFields none t
  | some acc, c :: t =>
    if c = '{' then findFields (some []) t
    else if c = '}' then (if acc = [] then findFields none t else acc.reverse :: findFields none t)
    else if wordChar c then findFields (some (c :: acc)) t
    else findFields none t

/-- `get_template_long_name_keywords`, outputvariable.py 50-60. -/
def Template.keywords (t : Template) : List (List Char) :=
  match t.longNameTemplate with
  | some s => findFields none s
  | none => []

/-- The text of keyword `key` among keyword arguments, for use in a long name.  Simplified: keywords used in long names
hold text. -/
def textOf (k : Keywords) (key : List Char) : Option (List Char) :=
  match k.get (String.ofList key) with
  | some (.text s) => some s.toList
  | _ => none

/-- `text.format(**kwargs)` (Python library), as an automaton like `findFields`.  Simplified: doubled brackets, and
conversions or format specifications inside brackets, are left out (no template has them). -/
def formatText (k : Keywords) : Option (List Char) → List Char → Except PyErr (List Char)
  | none, [] => .ok []
  | some _, [] => .error .valueError
  | none, c :: t =>
    if c = '{' then formatText k (some []) t
    else if c = '}' then .error .valueError
    else match formatText k none t with
      | .error e => .error e
      | .ok r => .ok (c :: r)
  | some acc, c :: t =>
    if c = '}' then
      match textOf k acc.reverse with
      | none => .error .keyError
      | some s => match formatText k none t with
        | .error e => .error e
        | .ok r => .ok (s ++ r)
    else formatText k (some (c :: acc)) t

/-- The first letter is made a capital in names of two letters or more, outputvariable.py 84-85. -/
def capitalise : List Char → List Char
  | c :: d :: t => c.toUpper :: d :: t
  | s => s

/-- The long name of outputvariable.py 80-85, where none is given. -/
def longNameOf (base : Template) (k : Keywords) : Except PyErr (Option (List Char)) :=
  match base.longNameTemplate with
  | none => .ok none
  | some s => match formatText k none s with
    | .error e => .error e
    | .ok r => .ok (some (capitalise r))

/-- The keyword arguments which are not used in the long name, outputvariable.py 88-90. -/
def unused (base : Template) (k : Keywords) : Keywords := k.filter (fun a => a.1.toList ∉ base.keywords)

/-- `from_template`, outputvariable.py 71-92 (no long name is given by any caller).  The metadata of the template come
first, and keyword arguments replace them. -/
def fromTemplate (base : Template) (name : String) (k : Keywords) : Except PyErr OutVar :=
  match longNameOf base k with
  | .error e => .error e
  | .ok longName =>
    if (unused base k).all (fun a => a.1 ∈ metadataKeywords) then
      .ok ⟨name, base.dtype, base.fill, longName, none,
        fun key => if (unused base k).any (fun a => a.1 = key) then (unused base k).get key else base.metadata key⟩
    else .error .typeError

/-! ### Definitions -/

/-- Members of a template of packed values. -/
def packed (scale offset : ℚ) (rest : Keywords) : Keywords :=
  ("scale_factor", some (.number scale)) :: ("add_offset", some (.number offset)) :: rest

/-- `TEMPLATE_TEMPERATURE`, definitions.py 78-85 with 49-52. -/
def templateTemperature : Template :=
  ⟨.int16, some (-32768), some "{quantity} daily surface air temperature".toList,
    (packed (5 / 1000) (27315 / 100) [("standard_name", some (.text "air_temperature")), ("units", some (.text "K"))]).get⟩

/-- `TEMPLATE_TEMPERATURE_UNCERTAINTY`, definitions.py 87-93 with 49 and 54-56. -/
def templateUncertainty : Template :=
  ⟨.int16, some (-32768), some "Total uncertainty in {quantity} daily surface air temperature".toList,
    (packed (1 / 1000) 0 [("units", some (.text "K"))]).get⟩

/-- `TEMPLATE_PERTURBATION`, definitions.py 95-102 with 73-76. -/
def templatePerturbation : Template :=
  ⟨.int16, some (-32768), some "{quantity} daily surface air temperature".toList,
    (packed (5 / 1000) 0 [("standard_name", some (.text "air_temperature")), ("units", some (.text "K"))]).get⟩

/-- `TEMPLATE_TEMPERATURE_UNCERTAINTY_TOTAL`, definitions.py 104-106. -/
def templateUncertaintyTotal : Template :=
  extend templateUncertainty "Total uncertainty in {quantity} daily surface air temperature".toList

/-- `TEMPLATE_CLIMATOLOGY_FRACTION`, definitions.py 108-113 with 58-61. -/
def templateFraction : Template :=
  ⟨.int16, some (-32768), some "Climatology fraction for {quantity} daily surface air temperature".toList,
    (packed (15625 / 1000000000) (1 / 2) []).get⟩

/-- `TEMPLATE_OBSERVATION_INFLUENCE`, definitions.py 115-120 with 63-66. -/
def templateInfluence : Template :=
  ⟨.int16, some (-32768), some "Observation influence for {quantity} daily surface air temperature".toList,
    (packed (15625 / 1000000000) (1 / 2) []).get⟩

/-- `TEMPLATE_ENSEMBLE`, definitions.py 122-128 with 68-71. -/
def templateEnsemble : Template :=
  ⟨.int16, some (-32768), some "{quantity} daily surface air temperature ensemble".toList,
    (packed (5 / 1000) (27315 / 100) [("units", some (.text "K"))]).get⟩

/-- The keyword arguments of the variables of definitions.py 182-204. -/
def quantity (q : String) : Keywords := [("quantity", some (.text q))]

/-- `quantity` together with `cell_methods`. -/
def quantityOver (q m : String) : Keywords := [("quantity", some (.text q)), ("cell_methods", some (.text m))]

/-- The definitions of definitions.py 182-204 in order: template, name and keyword arguments. -/
def definitions : List (Template × String × Keywords) :=
  [(templateTemperature, "tas", quantityOver "average" "time: mean"),
   (templateTemperature, "tasmin", quantityOver "minimum" "time: minimum"),
   (templateTemperature, "tasmax", quantityOver "maximum" "time: maximum"),
   (templateUncertaintyTotal, "tasuncertainty", quantity "average"),
   (templateUncertaintyTotal, "tasminuncertainty", quantity "mimimum"),
   (templateUncertaintyTotal, "tasmaxuncertainty", quantity "maximum"),
   (templateFraction, "tasclimatologyfraction", quantity "average"),
   (templateFraction, "tasminclimatologyfraction", quantity "minimum"),
   (templateFraction, "tasmaxclimatologyfraction", quantity "maximum"),
   (templateInfluence, "tasobservationinfluence", quantity "average"),
   (templateInfluence, "tasminobservationinfluence", quantity "minimum"),
   (templateInfluence, "tasmaxobservationinfluence", quantity "maximum"),
   (templateEnsemble, "tasensemble", quantityOver "average" "time: mean"),
   (templateEnsemble, "tasminensemble", quantityOver "minimum" "time: minimum"),
   (templateEnsemble, "tasmaxensemble", quantityOver "maximum" "time: maximum"),
   (templatePerturbation, "tas_perturbation", quantityOver "average" "time: mean"),
   (templatePerturbation, "tasmin_perturbation", quantityOver "average" "time: mean"),
   (templatePerturbation, "tasmax_perturbation", quantityOver "average" "time: mean")]

/-- A variable of floating point numbers without a fill value, as in definitions.py 130-172. -/
def plain (name : String) (longName : Option String) (k : Keywords) : OutVar :=
  ⟨name, .float32, none, longName.map String.toList, none, k.get⟩

/-- `TIME_BOUNDS`, definitions.py 130-133. -/
def timeBoundsVar : OutVar := plain "timebounds" none []

/-- `TIME`, definitions.py 135-147; the units are written with the `EPOCH` of src/eustace/timeutils/epoch.py. -/
def timeVar : OutVar := plain "time" (some "Time at zero longitude")
  [("standard_name", some (.text "time")), ("units", some (.text "days since 1850-01-01T00:00:00Z")),
   ("calendar", some (.text "gregorian")), ("bounds", some (.text "timebounds")),
   ("ancillary_variables", some (.text "timeoffset")), ("axis", some (.text "T"))]

/-- `TIME_OFFSET`, definitions.py 149-154. -/
def timeOffsetVar : OutVar := plain "timeoffset" (some "Local time offset from UTC (days)")
  [("units", some (.text "days"))]

/-- `LATITUDE`, definitions.py 156-163. -/
def latitudeVar : OutVar := plain "latitude" (some "Latitude (deg)")
  [("standard_name", some (.text "latitude")), ("units", some (.text "degrees_north")), ("axis", some (.text "Y"))]

/-- `LONGITUDE`, definitions.py 165-172. -/
def longitudeVar : OutVar := plain "longitude" (some "Longitude (deg)")
  [("standard_name", some (.text "longitude")), ("units", some (.text "degrees_east")), ("axis", some (.text "X"))]

/-! ### Files -/

/-- A dimension: its size at present and whether it is unlimited. -/
structure Dim where
  size : ℕ
  unlimited : Bool
  deriving DecidableEq

/-- A variable in a file.  `raw` are the stored numbers, those of all cells in order. -/
structure NcVar where
  dtype : DType
  dims : List String
  attrs : String → Option AttrValue
  fill : Option ℚ
  raw : List ℚ

/-- A NetCDF file. -/
structure File where
  attrs : String → Option AttrValue
  dims : String → Option Dim
  vars : String → Option NcVar

/-- An array to write: its shape and the values of its cells, `none` where masked. -/
structure Values where
  shape : List ℕ
  cells : List (Option ℚ)

/-- A number attribute. -/
def numberAttr (attrs : String → Option AttrValue) (key : String) : Option ℚ :=
  match attrs key with
  | some (.number q) => some q
  | _ => none

/-- Packing of one number (netCDF4, `_pack`): remove the offset, divide by the scale factor, round half to even for
integer types, and cast. -/
def pack (t : DType) (attrs : String → Option AttrValue) (x : ℚ) : ℚ :=
  let y := match numberAttr attrs "scale_factor", numberAttr attrs "add_offset" with
    | some s, some o => (x - o) / s
    | some s, none => x / s
    | none, some o => x - o
    | none, none => x
  castTo t (if isInteger t then (rne y : ℚ) else y)

/-- The number stored where a value is masked (netCDF4). -/
def fillOf (t : DType) (fill : Option ℚ) : ℚ := fill.getD (defaultFill t)

/-- The number stored for one cell. -/
def packCell (t : DType) (fill : Option ℚ) (attrs : String → Option AttrValue) : Option ℚ → ℚ
  | none => fillOf t fill
  | some x => pack t attrs x

/-- Reading one cell (netCDF4, with automatic masking and scaling). -/
def unpackCell (t : DType) (fill : Option ℚ) (attrs : String → Option AttrValue) (raw : ℚ) : Option ℚ :=
  if raw = fillOf t fill then none
  else some (match numberAttr attrs "scale_factor", numberAttr attrs "add_offset" with
    | some s, some o => raw * s + o
    | some s, none => raw * s
    | none, some o => raw + o
    | none, none => raw)

/-- The number of cells of a variable over given dimensions. -/
def File.extent (f : File) (dims : List String) : ℕ := (dims.map fun d => ((f.dims d).map Dim.size).getD 0).prod

/-- `nc.variables[name][:]`: the values of all cells.  Cells which an unlimited dimension gained after the variable was
written are missing; they come last as unlimited dimensions are the first ones of all variables here. -/
def File.read (f : File) (name : String) : Option (List (Option ℚ)) :=
  (f.vars name).map fun v =>
    v.raw.map (unpackCell v.dtype v.fill v.attrs) ++ List.replicate (f.extent v.dims - v.raw.length) none

/-- `nc.createDimension(name, size)` (netCDF4): names are used once. -/
def createDimension (f : File) (name : String) (size : Option ℕ) : Except PyErr File :=
  match f.dims name with
  | some _ => .error .runtimeError
  | none => .ok { f with dims := Function.update f.dims name (some ⟨size.getD 0, size.isNone⟩) }

/-- Sizes of dimensions when an array is assigned: unlimited dimensions grow, others must agree.  Simplified: arrays are
not broadcast. -/
def grow (dims : String → Option Dim) : List String → List ℕ → Except PyErr (String → Option Dim)
  | [], [] => .ok dims
  | d :: ds, n :: ns =>
    match dims d with
    | none => .error .keyError
    | some dim =>
      if dim.unlimited then grow (Function.update dims d (some ⟨max dim.size n, true⟩)) ds ns
      else if dim.size = n then grow dims ds ns
      else .error .valueError
  | _, _ => .error .indexError

/-- `FileBuilder.create`, filebuilder.py 19-28. -/
def create (title institution comment history source : String) : File :=
  ⟨fun key =>
    if key = "Conventions" then some (.text "CF-1.6")
    else if key = "title" then some (.text title)
    else if key = "institution" then some (.text institution)
    else if key = "history" then some (.text history)
    else if key = "source" then some (.text source)
    else if key = "comment" then some (.text comment)
    else none,
   fun _ => none, fun _ => none⟩

/-- `FileBuilder.add_variable`, filebuilder.py 36-58.  `_FillValue` is an attribute of the file too, which is left out
here as no verification looks at it. -/
def addVariable (f : File) (v : OutVar) (dimNames : List String) (values : Values) : Except PyErr File :=
  match f.vars v.name with
  | some _ => .error .runtimeError
  | none =>
    match grow f.dims dimNames values.shape with
    | .error e => .error e
    | .ok dims =>
      .ok { f with
        dims := dims
        vars := Function.update f.vars v.name
          (some ⟨v.dtype, dimNames, v.metadata, v.fill, values.cells.map (packCell v.dtype v.fill v.metadata)⟩) }

/-- A list of numbers as an array. -/
def vector (l : List ℚ) : Values := ⟨[l.length], l.map some⟩

/-- `FileBuilder.add_dimension_and_variable`, filebuilder.py 60-68. -/
def addAxis (f : File) (name : String) (v : OutVar) (values : List ℚ) (unlimited : Bool) : Except PyErr File :=
  match createDimension f name (if unlimited then none else some values.length) with
  | .error e => .error e
  | .ok f => addVariable f v [name] (vector values)

/-- `numpy.linspace(start, stop, num)` for `num ≥ 2` (numpy), in exact arithmetic. -/
def linspace (start stop : ℚ) (num : ℕ) : List ℚ :=
  (List.range num).map fun i : ℕ => start + i * ((stop - start) / (num - 1))

/-- `GLOBAL_FIELD_RESOLUTION`, definitions.py 25. -/
def resolution : ℚ := 1 / 4

/-- `GLOBAL_FIELD_SHAPE`, definitions.py 23. -/
def fieldShape : List ℕ := [1, 720, 1440]

/-- Values of the latitude axis, globalfield_filebuilder.py 100. -/
def latitudes : List ℚ := linspace (-90 + resolution / 2) (90 - resolution / 2) 720

/-- Values of the longitude axis, globalfield_filebuilder.py 106. -/
def longitudes : List ℚ := linspace (-180 + resolution / 2) (180 - resolution / 2) 1440

/-- Values of the local offsets of time, globalfield_filebuilder.py 110. -/
def timeOffsets : List ℚ := (linspace (-180 + resolution / 2) (180 - resolution / 2) 1440).map (· / 360)

/-- The coordinates of an axis of `GlobalFieldAxes2D`, globalfield.py 18-20: `DimCoord.from_regular` (iris) counts from
the step after `zeroth`. -/
def regular (zeroth step : ℚ) (count : ℕ) : List ℚ := (List.range count).map fun i : ℕ => zeroth + step + step * i

/-- Latitudes of `GlobalFieldAxes2D`, globalfield.py 18. -/
def axisLatitudes : List ℚ := regular (-90 - resolution / 2) resolution 720

/-- Longitudes of `GlobalFieldAxes2D`, globalfield.py 20. -/
def axisLongitudes : List ℚ := regular (-180 - resolution / 2) resolution 1440

/-- `FileBuilderGlobalField.__init__`, globalfield_filebuilder.py 68-110.  The day number and its bounds become single
precision numbers before they are written. -/
def newGlobalField (day : ℚ) (dataset institution comment history source : String) : Except PyErr File :=
  match addAxis (create ("EUSTACE Surface Air Temperature Estimates " ++ dataset) institution comment history source)
      "time" timeVar [f32 day] true with
  | .error e => .error e
  | .ok f =>
    match createDimension f "bounds" (some 2) with
    | .error e => .error e
    | .ok f =>
      match addVariable f timeBoundsVar ["time", "bounds"] ⟨[1, 2], [some (f32 day), some (f32 (day + 1))]⟩ with
      | .error e => .error e
      | .ok f =>
        match addAxis f "latitude" latitudeVar latitudes false with
        | .error e => .error e
        | .ok f =>
          match addAxis f "longitude" longitudeVar longitudes false with
          | .error e => .error e
          | .ok f => addVariable f timeOffsetVar ["longitude"] (vector timeOffsets)

/-- `add_global_field`, globalfield_filebuilder.py 112-118. -/
def addGlobalField (f : File) (v : OutVar) (values : Values) : Except PyErr File :=
  addVariable f v ["time", "latitude", "longitude"] values

/-- The variable made by `add_uncertainty_parameter`, globalfield_filebuilder.py 124-131. -/
def uncertaintyParameter (name longName : String) : OutVar :=
  ⟨name, .int16, some (-32768), some longName.toList, none, (packed (1 / 1000) 0 [("units", some (.text "K"))]).get⟩

/-- Fields added one after the other, by `add_global_field` or (globalfield_filebuilder.py 120-133)
`add_uncertainty_parameter`, which differ in the variable only. -/
def addFields : File → List (OutVar × Values) → Except PyErr File
  | f, [] => .ok f
  | f, (v, values) :: t =>
    match addGlobalField f v values with
    | .error e => .error e
    | .ok f => addFields f t

/-! ### Verification -/

/-- What is expected of an attribute of the file, specification.py 35-41: `true` for existence, or text. -/
inductive Expected where
  | exists
  | text (s : String)

/-- `VariableSpecification`, specification.py 8-19; `none` asks for existence of an item of metadata only. -/
structure VarSpec where
  name : String
  dtype : Option DType
  metadata : List (String × Option AttrValue)

/-- `FileSpecification`, specification.py 29-45; `none` is UNLIMITED. -/
structure FileSpec where
  attributes : List (String × Expected)
  dimensions : List (String × Option ℕ)
  vars : List VarSpec

/-- The attributes of every specification, specification.py 35-41. -/
def specAttributes : List (String × Expected) :=
  [("title", .exists), ("institution", .exists), ("source", .exists), ("history", .exists),
   ("Conventions", .text "CF-1.6")]

/-- The specification of a temperature, specification_globalfield.py 56-75. -/
def specTemperature (name longName method : String) : VarSpec :=
  ⟨name, some .int16, [("standard_name", some (.text "air_temperature")), ("long_name", some (.text longName)),
    ("units", some (.text "K")), ("cell_methods", some (.text method))]⟩

/-- `SpecificationGlobalField`, specification_globalfield.py 8-75. -/
def specGlobalField : FileSpec :=
  ⟨specAttributes,
   [("latitude", some 720), ("longitude", some 1440), ("time", none), ("bounds", some 2)],
   [⟨"time", some .float32, [("standard_name", some (.text "time")), ("long_name", some (.text "Time at zero longitude")),
      ("units", some (.text "days since 1850-01-01T00:00:00Z")), ("calendar", some (.text "gregorian")),
      ("axis", some (.text "T")), ("bounds", some (.text "timebounds")),
      ("ancillary_variables", some (.text "timeoffset"))]⟩,
    ⟨"timebounds", some .float32, []⟩,
    ⟨"timeoffset", some .float32, [("long_name", some (.text "Local time offset from UTC (days)")),
      ("units", some (.text "days"))]⟩,
    ⟨"latitude", some .float32, [("standard_name", some (.text "latitude")), ("long_name", some (.text "Latitude (deg)")),
      ("units", some (.text "degrees_north")), ("axis", some (.text "Y"))]⟩,
    ⟨"longitude", some .float32, [("standard_name", some (.text "longitude")), ("long_name", some (.text "Longitude (deg)")),
      ("units", some (.text "degrees_east")), ("axis", some (.text "X"))]⟩,
    specTemperature "tas" "Average daily surface air temperature" "time: mean",
    specTemperature "tasmin" "Minimum daily surface air temperature" "time: minimum",
    specTemperature "tasmax" "Maximum daily surface air temperature" "time: maximum"]⟩

/-- `check_attributes`, verify.py 61-79.  Outcomes are listed without their descriptions. -/
def checkAttribute (f : File) (key : String) : Expected → List Bool
  | .exists => [(f.attrs key).isSome]
  | .text s => match f.attrs key with
    | none => [false]
    | some v => [true, decide (v = .text s)]

/-- The checks of one item of metadata, verify.py 93-103.  Simplified: where a list is expected, lists are compared as a
whole (in the code a list of another length stops the program). -/
def checkMetadata (v : NcVar) (key : String) (expected : Option AttrValue) : List Bool :=
  (v.attrs key).isSome :: match expected with
    | none => []
    | some e => [decide (v.attrs key = some e)]

/-- The checks of one variable, verify.py 88-103. -/
def checkVariable (f : File) (s : VarSpec) : List Bool :=
  match f.vars s.name with
  | none => []
  | some v =>
    (match s.dtype with
      | none => []
      | some t => [decide (v.dtype = t)]) ++ s.metadata.flatMap (fun m => checkMetadata v m.1 m.2)

/-- `check_variables`, verify.py 81-103. -/
def checkVariables (f : File) (expected : List VarSpec) : List Bool :=
  expected.any (fun s => (f.vars s.name).isSome) :: expected.flatMap (checkVariable f)

/-- `check_dimensions`, verify.py 105-116. -/
def checkDimension (f : File) (key : String) (expected : Option ℕ) : Bool :=
  match f.dims key, expected with
  | none, _ => false
  | some d, none => d.unlimited
  | some d, some n => !d.unlimited && decide (d.size = n)

/-- `check_file`, verify.py 118-125, on the result of `check_open` (43-59), which is `none` when opening fails.  The
outcomes follow those already logged. -/
def checkFile (logged : List Bool) (file : Option File) (spec : FileSpec) : List Bool :=
  match file with
  | none => logged ++ [false]
  | some f =>
    logged ++ [true] ++ spec.attributes.flatMap (fun a => checkAttribute f a.1 a.2) ++ checkVariables f spec.vars ++
      spec.dimensions.map (fun d => checkDimension f d.1 d.2)

/-- `has_passed`, verify.py 39-41. -/
def hasPassed (outcomes : List Bool) : Bool := outcomes.all id

/-- `VerifyGlobalField().run(...)`, verify.py 131-135 with verify_globalfield.py 9-17: the outcomes logged afterwards and
whether all passed. -/
def verifyGlobalField (logged : List Bool) (file : Option File) : List Bool × Bool :=
  let outcomes := checkFile logged file specGlobalField
  (outcomes, hasPassed outcomes)

end Verif.Eustace.Format
