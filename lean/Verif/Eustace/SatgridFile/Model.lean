import Verif.Eustace.Satgrid.Iris

/-!
The files of the gridded satellite data: `src/eustace/satgrid_iris/` saver.py, command.py, and
`src/eustace/outputformats/iriscubesaver.py`.

Simplified: numbers are real numbers (fields are `float32`, packing is done in `float64`); only the variables which hold fields are
modelled, not their axes or attributes.  What the cast to an integer type makes of a number which the type does not have is left
open (`Casts`): C leaves it undefined.
-/

namespace Verif.Eustace.SatgridFile

open Verif Verif.Eustace.Satgrid

/-- The integer types of stored numbers, saver.py 9-11. -/
inductive IntType where
  | int16 | int32
  deriving DecidableEq

/-- Half of the number of values of a type. -/
def IntType.half : IntType → ℤ
  | .int16 => 32768
  | .int32 => 2147483648

/-- A cast of integral floating point numbers to integers, as far as it is defined: numbers of the type stay what they are. -/
def Casts (cast : IntType → ℤ → ℤ) : Prop :=
  ∀ t k, (-t.half ≤ cast t k ∧ cast t k < t.half) ∧ (-t.half ≤ k → k < t.half → cast t k = k)

/-- `VariableStorage` (iriscubesaver.py 9-17). -/
structure Storage where
  datatype : IntType
  scale : ℝ
  offset : ℝ
  fill : ℤ

/-- `STORAGE_K` (saver.py 9). -/
noncomputable def storageK : Storage := ⟨.int16, 0.005, 273.15, -32768⟩

/-- `STORAGE_RELATIVE_K` (saver.py 10). -/
noncomputable def storageRelativeK : Storage := ⟨.int16, 0.001, 32.767, -32768⟩

/-- `STORAGE_RELATIVE_K2` (saver.py 11). -/
noncomputable def storageRelativeK2 : Storage := ⟨.int32, 5.0e-6, 0, -1⟩

/-- The dictionary `storage_override` (iriscubesaver.py 69). -/
abbrev Overrides := String → Option Storage

/-- `set_storage` (iriscubesaver.py 72-74). -/
def setStorage (t : Overrides) (name : String) (s : Storage) : Overrides := fun n => if n = name then some s else t n

/-- The storage set when the module is imported (saver.py 14-22). -/
noncomputable def overrides : Overrides :=
  [("tsmean", storageK), ("tsmin", storageK), ("tsmax", storageK), ("tsvariance", storageRelativeK2),
    ("tsmean_unc_ran", storageRelativeK), ("tsmean_unc_loc_atm", storageRelativeK), ("tsmean_unc_loc_sfc", storageRelativeK),
    ("tsmean_unc_spl", storageRelativeK), ("tsmean_unc_sys", storageRelativeK)].foldl (fun t e => setStorage t e.1 e.2) fun _ => none

/-- A cube: the name of the variable, and the cells of which `none` are masked. -/
structure Cube where
  name : String
  cells : Nat → Option ℝ

/-- A variable of the file: packed, or with the numbers as they are. -/
inductive Variable where
  | packed (s : Storage) (raw : Nat → ℤ)
  | plain (cells : Nat → Option ℝ)

/-- The nearest integer, ties to even (`numpy.around`). -/
noncomputable def roundEven (x : ℝ) : ℤ :=
  open Classical in if x - ⌊x⌋ < 1 / 2 then ⌊x⌋ else if 1 / 2 < x - ⌊x⌋ then ⌊x⌋ + 1 else if ⌊x⌋ % 2 = 0 then ⌊x⌋ else ⌊x⌋ + 1

/-- What netCDF4 stores for a cell of a variable with automatic masking and scaling (iriscubesaver.py 41-43). -/
noncomputable def packCell (cast : IntType → ℤ → ℤ) (s : Storage) : Option ℝ → ℤ
  | none => s.fill
  | some x => cast s.datatype (roundEven ((x - s.offset) / s.scale))

/-- What netCDF4 reads. -/
noncomputable def unpackCell (s : Storage) (k : ℤ) : Option ℝ := if k = s.fill then none else some (k * s.scale + s.offset)

/-- `createVariable` (iriscubesaver.py 27-45) and the assignment of the cells by Iris. -/
noncomputable def createVariable (cast : IntType → ℤ → ℤ) (t : Overrides) (c : Cube) : Variable :=
  match t c.name with
  | some s => .packed s fun g => packCell cast s (c.cells g)
  | none => .plain c.cells

/-- A file: the variables by name. -/
abbrev File := String → Option Variable

/-- `write_cubes` (iriscubesaver.py 87-93, saver.py 24-31).  Simplified: Iris numbers variables which have the same name, here later
ones replace earlier ones; the names are all different. -/
noncomputable def writeCubes (cast : IntType → ℤ → ℤ) (t : Overrides) (cubes : List Cube) : File :=
  cubes.foldl (fun f c => fun n => if n = c.name then some (createVariable cast t c) else f n) fun _ => none

/-- `output_primary` (modis.py 23). -/
def outputPrimary : String := "ts"

/-- `output_uncertainty` (modis.py 24). -/
def outputUncertainty : List String := ["tsmean_unc_ran", "tsmean_unc_loc_atm", "tsmean_unc_loc_sfc"]

/-- `output_uncertainty_binned_scalars` (modis.py 25). -/
def outputScalars : List String := ["tsmean_unc_sys"]

/-- The cubes which the pipeline leaves, with their names (pipeline.py 126-208, 329-332): fields of uncertainties are in the order of
their names. -/
noncomputable def cubesOf (o : IrisOutput) : List Cube :=
  [⟨"total_number_of_observations", fun g => some (o.total g)⟩,
    ⟨outputPrimary ++ "_number_of_observations", fun g => some (o.number g)⟩, ⟨outputPrimary ++ "max", o.max⟩,
    ⟨outputPrimary ++ "min", o.min⟩, ⟨outputPrimary ++ "mean", o.mean⟩] ++
  List.zipWith Cube.mk outputUncertainty [o.ran, o.atm, o.sfc] ++ List.zipWith Cube.mk outputScalars [o.sys] ++
  [⟨outputPrimary ++ "variance", o.variance⟩, ⟨outputPrimary ++ "mean_unc_spl", o.sampling⟩]

/-- The status of the output (command.py 24-25). -/
inductive Status where
  | ok | noData
  deriving DecidableEq

/-- `run` (command.py 33-58): the status, and the file at the name of the output, of which `before` was there. -/
noncomputable def run (cast : IntType → ℤ → ℤ) (a : Pipeline) (files : List (Option IrisFile)) (before : Option File) :
    Except PyErr (Status × Option File) :=
  match irisRun a files with
  | .error e => .error e
  | .ok none => .ok (.noData, before)
  | .ok (some o) => .ok (.ok, some (writeCubes cast overrides (cubesOf o)))

/-- Reading a variable. -/
noncomputable def Variable.read : Variable → Nat → Option ℝ
  | .packed s raw, g => unpackCell s (raw g)
  | .plain cells, g => cells g

end Verif.Eustace.SatgridFile
