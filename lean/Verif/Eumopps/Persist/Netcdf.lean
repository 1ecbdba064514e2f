import Verif.Eumopps.Persist.Json

/-!
C19: `src/eumopps/netcdfobjects/netcdfobjects.py`.

Strings are taken to be without NUL characters.  Reading is that of netCDF4 before version 1.4: masked arrays only where something is masked.
-/

namespace Verif.Eumopps.Persist

open Verif Verif.Py Verif.Calendar Verif.Eumopps.Names Verif.Eumopps.Time Verif.Eumopps.Periods

/-- The default fill value of 64-bit integers, `NC_FILL_INT64` (NetCDF library). -/
def fillInt : Int := -9223372036854775806

/-- The bits of the default fill value of 64-bit floating point, `NC_FILL_DOUBLE` (NetCDF library). -/
def fillFloat : UInt64 := 0x479E000000000000

/-- Variables (NetCDF library): text by rows and by rows and columns (without the dimension of characters), a single time, and integers and
floating-point numbers by rows and by rows and columns.  Masked elements hold the fill value.  The flag tells whether units of time are set. -/
inductive Var where
  | str1 (cells : List String)
  | str2 (cells : List (List String))
  | time0 (n : Int)
  | int1 (cells : List Int) (time : Bool)
  | int2 (rows : List (List Int))
  | float1 (cells : List UInt64)
  | float2 (rows : List (List UInt64))

/-- Groups (NetCDF library): attributes, dimensions, variables, groups. -/
inductive Group where
  | mk (attrs : List (String × Scalar)) (dims : List (String × Nat)) (vars : List (String × Var)) (groups : List (String × Group))

namespace Group
/-- Attributes of a group (NetCDF library). -/
def attrs : Group → List (String × Scalar) | mk a _ _ _ => a
/-- Dimensions of a group (NetCDF library). -/
def dims : Group → List (String × Nat) | mk _ d _ _ => d
/-- Variables of a group (NetCDF library). -/
def vars : Group → List (String × Var) | mk _ _ v _ => v
/-- Groups in a group (NetCDF library). -/
def groups : Group → List (String × Group) | mk _ _ _ g => g
end Group

/-- `setncattr` (netCDF4 library): dates are refused. -/
def setAttr (g : Group) (key : String) (s : Scalar) : Except PyErr Group :=
  match s with
  | .time _ => .error .typeError
  | s => .ok (.mk (g.attrs ++ [(key, s)]) g.dims g.vars g.groups)

/-- `createDimension` (netCDF4 library): a second dimension with a name is refused. -/
def createDim (g : Group) (name : String) (n : Nat) : Except PyErr Group :=
  if g.dims.any fun d => d.1 == name then .error .runtimeError else .ok (.mk g.attrs (g.dims ++ [(name, n)]) g.vars g.groups)

/-- `createVariable` and setting its contents (netCDF4 library): names in use are refused. -/
def createVar (g : Group) (name : String) (x : Var) : Except PyErr Group :=
  if (g.vars.any fun d => d.1 == name) || g.groups.any fun d => d.1 == name then .error .runtimeError
  else .ok (.mk g.attrs g.dims (g.vars ++ [(name, x)]) g.groups)

/-- `createGroup` (netCDF4 library), together with all that is saved in the group.  Simplified: names in use are refused (the library gives the
existing group). -/
def addGroup (g : Group) (name : String) (sub : Group) : Except PyErr Group :=
  if (g.vars.any fun d => d.1 == name) || g.groups.any fun d => d.1 == name then .error .runtimeError
  else .ok (.mk g.attrs g.dims g.vars (g.groups ++ [(name, sub)]))

/-- Decimal digits (Python library). -/
def decimal (n : Nat) : List Char := if n < 10 then [digit n] else decimal (n / 10) ++ [digit n]
termination_by n

/-- `LISTITEM_OBJECT_SUFFIX.format(name, i)` (netcdfobjects.py 18). -/
def itemName (name : String) (i : Nat) : String :=
  name ++ "_" ++ String.ofList (List.replicate (8 - (decimal i).length) '0' ++ decimal i)

/-- `LIST_COUNT_NAME` (netcdfobjects.py 19). -/
def listCount : String := "list_count"

/-- `STRING_LENGTH_DIMENSION_FORMAT.format(name)` (netcdfobjects.py 20). -/
def lengthName (name : String) : String := "strlen_" ++ name

/-! ### Types -/

/-- STRING_TYPES, INTEGER_TYPES, FLOAT_TYPES, DATETIME_TYPES (netcdfobjects.py 26-29). -/
inductive Kind where
  | str | int | float | time
  deriving DecidableEq

/-- The kind of a scalar (netcdfobjects.py 26-29). -/
def Scalar.kind : Scalar → Kind
  | .str _ => .str
  | .int _ => .int
  | .float _ => .float
  | .time _ => .time

/-- `(element is None) or isinstance(element, kind)` (netcdfobjects.py 220). -/
def noneOr (K : Kind) : Value → Bool
  | .none => true
  | .scalar s => s.kind = K
  | _ => false

/-- `is_list_of` for one kind (netcdfobjects.py 214-224). -/
def listOf (K : Kind) (l : List Value) : Bool := l.all (noneOr K)

/-- An element of a list of lists (netcdfobjects.py 230). -/
def rowOf (K : Kind) : Value → Bool
  | .none => true
  | .list r => listOf K r
  | _ => false

/-- `is_list2d_of` (netcdfobjects.py 226-230). -/
def list2dOf (K : Kind) (l : List Value) : Bool := l.all (rowOf K)

/-- `is_list_of(x, SIMPLE_TYPES)` (netcdfobjects.py 214-224, 30). -/
def listOfSimple (l : List Value) : Bool := listOf .str l || listOf .int l || listOf .float l || listOf .time l

/-- `(value is None) or is_simple_type_or_list_of_simple_types(value)` (netcdfobjects.py 232-237). -/
def simpleMember : Value → Bool
  | .none => true
  | .scalar _ => true
  | .list l => listOfSimple l || list2dOf .str l
  | .obj _ _ => false

/-- `is_simple_python_object` for the attributes (netcdfobjects.py 249-252). -/
def simpleFields (f : List (String × Value)) : Bool := f.all fun kv => simpleMember kv.2

/-- `(element is None) or is_simple_python_object(element)` (netcdfobjects.py 256). -/
def noneOrSimple : Value → Bool
  | .none => true
  | .obj _ f => simpleFields f
  | _ => false

/-- `object_dictionary(element) is not None` (netcdfobjects.py 260). -/
def isObject : Value → Bool
  | .obj _ _ => true
  | _ => false

/-! ### Saving -/

/-- `TIMEBASE` (netcdfobjects.py 23). -/
@[irreducible] def timeBase : Int := midnight ⟨1850, 1, 1⟩

/-- The text of an element (netcdfobjects.py 486, 521-523). -/
def cellStr : Value → String
  | .scalar (.str s) => s
  | _ => ""

/-- The number of an element, masked for None (netcdfobjects.py 458-461, 467-470, 534-540). -/
def cellInt : Value → Int
  | .scalar (.int n) => n
  | .scalar (.time t) => secondsToNumber timeBase t
  | _ => fillInt

/-- The same for floating point (netcdfobjects.py 458-461, 534-540). -/
def cellFloat : Value → UInt64
  | .scalar (.float b) => b
  | _ => fillFloat

/-- Elements of a row, none for None (netcdfobjects.py 519, 536). -/
def rowList : Value → List Value
  | .list r => r
  | _ => []

/-- A row filled up to a number of columns (netcdfobjects.py 520, 534). -/
def fillUp {α : Type} (n : Nat) (x : α) (r : List α) : List α := r ++ List.replicate (n - r.length) x

/-- The number of columns (netcdfobjects.py 513, 530). -/
def columns (l : List Value) : Nat := ((l.map fun v => (rowList v).length).max?).getD 0

/-- `save_string_list` (netcdfobjects.py 472-492). -/
def saveStr1 (g : Group) (name : String) (l : List Value) : Except PyErr Group :=
  match createDim g (lengthName name) (((l.map fun v => (cellStr v).length).max?).getD 0 + 1) with
  | .error e => .error e
  | .ok g => createVar g name (.str1 (l.map cellStr))

/-- `save_string_list2d` (netcdfobjects.py 494-524): if no string has a character, nothing is saved. -/
def saveStr2 (g : Group) (name : String) (l : List Value) : Except PyErr Group :=
  let lengths := (l.flatMap fun v => (rowList v).map fun s => (cellStr s).length).filter (· ≠ 0)
  if lengths = [] then .ok g
  else
    match createDim g name (columns l) with
    | .error e => .error e
    | .ok g =>
      match createDim g (lengthName name) ((lengths.max?).getD 0 + 1) with
      | .error e => .error e
      | .ok g => createVar g name (.str2 (l.map fun v => fillUp (columns l) "" ((rowList v).map cellStr)))

/-- `save_numeric_list2d` (netcdfobjects.py 527-541). -/
def saveNum2 (g : Group) (name dim : String) (l : List Value) (x : Var) : Except PyErr Group :=
  match createDim g (dim ++ "2") (columns l) with
  | .error e => .error e
  | .ok g => createVar g name x

/-- `element is None` (netcdfobjects.py 417). -/
def isNone : Value → Bool
  | .none => true
  | _ => false

/-- `save_list_of_simple_values` after the leading dimension (netcdfobjects.py 417-454). -/
def saveColumn (g : Group) (name dim : String) (l : List Value) : Except PyErr Group :=
  if l.all isNone then .ok g
  else if listOf .str l then saveStr1 g name l
  else if listOf .int l then createVar g name (.int1 (l.map cellInt) false)
  else if listOf .float l then createVar g name (.float1 (l.map cellFloat))
  else if listOf .time l then createVar g name (.int1 (l.map cellInt) true)
  else if list2dOf .str l then saveStr2 g name l
  else if list2dOf .int l then saveNum2 g name dim l (.int2 (l.map fun v => fillUp (columns l) fillInt ((rowList v).map cellInt)))
  else if list2dOf .float l then saveNum2 g name dim l (.float2 (l.map fun v => fillUp (columns l) fillFloat ((rowList v).map cellFloat)))
  else .error .valueError

/-- `save_list_of_simple_values` without a name for the dimension (netcdfobjects.py 412-415). -/
def saveValues (g : Group) (name : String) (l : List Value) : Except PyErr Group :=
  match createDim g name l.length with
  | .error e => .error e
  | .ok g => saveColumn g name name l

/-- The attributes of a new group: the class of an instance (netcdfobjects.py 272-273, 320-321, 342-343). -/
def classAttrs (cls : Option String) : List (String × Scalar) :=
  match cls with
  | some c => [(classId, .str c)]
  | none => []

/-- One member of a simple object (netcdfobjects.py 278-303). -/
def saveMember (g : Group) (key : String) (v : Value) : Except PyErr Group :=
  match v with
  | .none => .ok g
  | .scalar (.time t) => createVar g key (.time0 (secondsToNumber timeBase t))
  | .scalar s => setAttr g key s
  | .list l => if listOfSimple l || list2dOf .str l then saveValues g key l else .error .valueError
  | .obj _ _ => .error .valueError

/-- The members of a simple object (netcdfobjects.py 276). -/
def saveMembers : Group → List (String × Value) → Except PyErr Group
  | g, [] => .ok g
  | g, (k, v) :: f => match saveMember g k v with | .ok g' => saveMembers g' f | .error e => .error e

/-- `object_dictionary(item)[key]` (netcdfobjects.py 327). -/
def member (key : String) : Value → Except PyErr Value
  | .obj _ f => match dictGet f key with | some v => .ok v | none => .error .keyError
  | _ => .error .typeError

/-- The members of a list of objects, for the keys of the first (netcdfobjects.py 324-327). -/
def saveColumns (l : List Value) : Group → List String → Except PyErr Group
  | g, [] => .ok g
  | g, k :: ks =>
    match l.mapM (member k) with
    | .error e => .error e
    | .ok column => match saveColumn g k listCount column with | .ok g' => saveColumns l g' ks | .error e => .error e

/-- `save_list_of_simple_python_objects` for a list which is not empty (netcdfobjects.py 306-327). -/
def saveSimpleList (g : Group) (key : String) (l : List Value) : Except PyErr Group :=
  match l with
  | .obj cls f :: _ =>
    match saveColumns l (.mk (classAttrs cls) [(listCount, l.length)] [] []) (f.map (·.1)) with
    | .ok sub => addGroup g key sub
    | .error e => .error e
  | _ => .error .attributeError

/-- A list which is saved as one variable (netcdfobjects.py 376-379). -/
def valueList (l : List Value) : Bool := listOfSimple l || list2dOf .str l || list2dOf .int l || list2dOf .float l

mutual
/-- `save_object` (netcdfobjects.py 363-407). -/
def saveObject (g : Group) (key : String) : Value → Except PyErr Group
  | .none => .ok g
  | .scalar s => setAttr g key s
  | .list l =>
    if l.isEmpty then .ok g
    else if valueList l then saveValues g key l
    else if l.all noneOrSimple then saveSimpleList g key l
    else if l.all isObject then
      match createDim g key l.length with
      | .ok g' => saveItems g' key 0 l
      | .error e => .error e
    else .error .valueError
  | .obj cls f =>
    if simpleFields f then
      match saveMembers (.mk (classAttrs cls) [] [] []) f with
      | .ok sub => addGroup g key sub
      | .error e => .error e
    else
      match saveFields (.mk (classAttrs cls) [] [] []) f with
      | .ok sub => addGroup g key sub
      | .error e => .error e
/-- The attributes in `save_complex_python_object` (netcdfobjects.py 345-347). -/
def saveFields : Group → List (String × Value) → Except PyErr Group
  | g, [] => .ok g
  | g, (k, v) :: f => match saveObject g k v with | .ok g' => saveFields g' f | .error e => .error e
/-- The loop of `save_list_of_complex_python_objects` (netcdfobjects.py 355-361). -/
def saveItems (g : Group) (name : String) : Nat → List Value → Except PyErr Group
  | _, [] => .ok g
  | i, .obj cls f :: l =>
    match saveFields (.mk (classAttrs cls) [] [] []) f with
    | .error e => .error e
    | .ok sub => match addGroup g (itemName name i) sub with | .ok g' => saveItems g' name (i + 1) l | .error e => .error e
  | _, _ :: _ => .error .attributeError
end

/-- `CatalogueWriterNetCDF.save` (formatnetcdf.py 132-137, netcdfobjects.py 37-41, 329-347). -/
def saveFile (v : Value) : Except PyErr Group :=
  match v with
  | .obj cls f => saveFields (.mk (("Conventions", .str "CF-1.6") :: classAttrs cls) [] [] []) f
  | _ => .error .attributeError

/-! ### Loading -/

/-- `read_variable` (netcdfobjects.py 53-114): masked elements are left out. -/
def readVar : Var → Value
  | .str1 cells => .list (cells.map fun s => .scalar (.str s))
  | .str2 cells => .list (cells.map fun r => .list (r.map fun s => .scalar (.str s)))
  | .time0 n => .scalar (.time (numberToSeconds timeBase n))
  | .int1 cells time => .list ((cells.filter (· ≠ fillInt)).map fun n => .scalar (if time then .time (numberToSeconds timeBase n) else .int n))
  | .int2 rows => .list (rows.map fun r => .list ((r.filter (· ≠ fillInt)).map fun n => .scalar (.int n)))
  | .float1 cells => .list ((cells.filter (· ≠ fillFloat)).map fun b => .scalar (.float b))
  | .float2 rows => .list (rows.map fun r => .list ((r.filter (· ≠ fillFloat)).map fun b => .scalar (.float b)))

/-- `makeobject` (netcdfobjects.py 188-208). -/
def makeObject (C : Classes) (params : List (String × Value)) : Except PyErr Value :=
  match dictGet params classId with
  | some (.scalar (.str c)) => make C c (params.filter fun kv => kv.1 ≠ classId && kv.1 ≠ "Conventions")
  | some _ => .error .attributeError
  | none => .ok (.obj none params)

/-- `records[index][variable.name] = value` (netcdfobjects.py 150-151). -/
def setRecords (name : String) : List (List (String × Value)) → List Value → Except PyErr (List (List (String × Value)))
  | rs, [] => .ok rs
  | [], _ :: _ => .error .indexError
  | r :: rs, v :: vs => match setRecords name rs vs with | .ok rs' => .ok ((r ++ [(name, v)]) :: rs') | .error e => .error e

/-- The loop over variables of a list of objects (netcdfobjects.py 144-151). -/
def readRecords : List (List (String × Value)) → List (String × Var) → Except PyErr (List (List (String × Value)))
  | rs, [] => .ok rs
  | rs, (name, x) :: vars =>
    match readVar x with
    | .list vs => match setRecords name rs vs with | .ok rs' => readRecords rs' vars | .error e => .error e
    | _ => .error .typeError

/-- `load_object(group.groups[name])` (netcdfobjects.py 175-176). -/
def lookup (loaded : List (String × Except PyErr Value)) (name : String) : Except PyErr Value :=
  match dictGet loaded name with
  | some r => r
  | none => .error .keyError

/-- An object with the name of its group (netcdfobjects.py 182-183). -/
def named (e : String × Except PyErr Value) : Except PyErr (String × Value) :=
  match e.2 with
  | .ok v => .ok (e.1, v)
  | .error x => .error x

/-- The groups of one list of objects (netcdfobjects.py 171-177). -/
def readItems (loaded : List (String × Except PyErr Value)) (d : String × Nat) : Except PyErr (String × Value) :=
  match (List.range d.2).mapM fun i => lookup loaded (itemName d.1 i) with
  | .ok l => .ok (d.1, .list l)
  | .error e => .error e

/-- Dimensions of lists of objects (netcdfobjects.py 169). -/
def listDims (g : Group) : List (String × Nat) := g.dims.filter fun d => g.groups.any fun e => e.1 == itemName d.1 0

/-- Names of groups of lists of objects (netcdfobjects.py 178). -/
def itemNames (g : Group) : List String := (listDims g).flatMap fun d => (List.range d.2).map fun i => itemName d.1 i

/-- Parameters of an object from its group and the objects in its groups (netcdfobjects.py 122-134, 158-183). -/
def parameters (g : Group) (loaded : List (String × Except PyErr Value)) : Except PyErr (List (String × Value)) :=
  match (listDims g).mapM (readItems loaded) with
  | .error e => .error e
  | .ok lists =>
    match (loaded.filter fun e => !(itemNames g).contains e.1).mapM named with
    | .error e => .error e
    | .ok rest => .ok ((g.attrs.map fun kv => (kv.1, .scalar kv.2)) ++ (g.vars.map fun kv => (kv.1, readVar kv.2)) ++ lists ++ rest)

mutual
/-- `load_object` (netcdfobjects.py 116-186). -/
def load (C : Classes) : Group → Except PyErr Value
  | .mk attrs dims vars groups =>
    match dictGet dims listCount with
    | some n =>
      match readRecords (List.replicate n (attrs.map fun kv => (kv.1, .scalar kv.2))) vars with
      | .ok records => match records.mapM (makeObject C) with | .ok l => .ok (.list l) | .error e => .error e
      | .error e => .error e
    | none =>
      match parameters (.mk attrs dims vars groups) (loadGroups C groups) with
      | .ok params => makeObject C params
      | .error e => .error e
/-- The objects of all groups (netcdfobjects.py 176, 183). -/
def loadGroups (C : Classes) : List (String × Group) → List (String × Except PyErr Value)
  | [] => []
  | (k, g) :: l => (k, load C g) :: loadGroups C l
end

end Verif.Eumopps.Persist
