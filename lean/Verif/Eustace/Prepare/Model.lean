import Verif.Eustace.Insitu.Model

/-!
Model of the preparation of files of satellite data for the analysis:
`/repo/src/eustace/surfaceairmodel/fileio/` cubemap.py and consistent.py 97-112,
`/repo/src/eustace/analysis/` preparedailyfixed.py, preparelocationlookup.py and preparecorrelationranges.py.

Numbers are real; `bits` gives the 64 bits of a number and `value` the number of 64 bits.  A file is the list of the fields which
Iris loads from it.
-/

namespace Verif.Eustace.Prepare

open Verif Verif.Eustace.RawBinary

/-- A field as it is loaded (`iris.load`, cubemap.py 38): its name, its shape, the mask if the array is a masked one, the numbers
of all cells with those beneath the mask, and the points of the coordinates of each name.  Simplified: the mask of a masked array
has all its cells. -/
structure Cube where
  name : String
  shape : List Nat
  mask : Option (List Bool)
  data : List ℝ
  latitude : List (List ℝ)
  longitude : List (List ℝ)
  time : List (List ℚ)

/-- `ObservationSourceSatstace.MAPLOOKUP` (consistent.py 100-104): names of the measurement and of its uncertainty.  The lists of
locally correlated errors are empty. -/
def mapLookup (observable : String) : Except PyErr (String × String) :=
  if observable = "Tmean" then .ok ("tas", "tasuncertainty")
  else if observable = "Tmin" then .ok ("tasmin", "tasminuncertainty")
  else if observable = "Tmax" then .ok ("tasmax", "tasmaxuncertainty")
  else .error .keyError

/-- `ObservationSourceCubeMapGrid` (cubemap.py 24-38).  Simplified: the map has one observable, as in all uses here. -/
structure Source where
  observable : String
  measurement : String
  uncertainty : String
  cubes : List Cube

/-- `ObservationSourceSatstace.__init__` with one observable (consistent.py 106-112). -/
def satstace (observable : String) (file : List Cube) : Except PyErr Source :=
  match mapLookup observable with
  | .error e => .error e
  | .ok (m, u) => .ok ⟨observable, m, u, file⟩

/-- `get_field_by_name` (cubemap.py 60-66). -/
def Source.field (s : Source) (name : String) : Except PyErr Cube :=
  match s.cubes.filter fun c => c.name = name with
  | [c] => .ok c
  | _ => .error .valueError

/-- `number_of_observations` (cubemap.py 44-48). -/
def Source.count (s : Source) : Except PyErr Nat :=
  match s.field s.measurement with
  | .error e => .error e
  | .ok c => .ok c.shape.prod

/-- The first element of a list. -/
def first {α : Type} : List α → Except PyErr α
  | [] => .error .indexError
  | x :: _ => .ok x

/-- `numpy.meshgrid(latitude, longitude, indexing='ij')` with both arrays raveled (cubemap.py 57-58). -/
def mesh (lats lons : List ℝ) : List (ℝ × ℝ) := lats.flatMap fun a => lons.map fun b => (a, b)

/-- `observation_location_lookup` (cubemap.py 50-58). -/
def Source.locations (s : Source) : Except PyErr (List (ℝ × ℝ)) :=
  match s.field s.measurement with
  | .error e => .error e
  | .ok c =>
    match first c.latitude, first c.longitude with
    | .ok lats, .ok lons => .ok (mesh lats lons)
    | .error e, _ => .error e
    | _, .error e => .error e

/-- `coords('time')[0].points[0]` (cubemap.py 74). -/
def firstTime (c : Cube) : Except PyErr ℚ :=
  match first c.time with
  | .error e => .error e
  | .ok points => first points

/-- `data.mask`: a plain array has none. -/
def maskOf (c : Cube) : Except PyErr (List Bool) :=
  match c.mask with
  | none => .error .attributeError
  | some mask => .ok mask

/-- `data.data.ravel()`: the `data` of a plain array is a buffer, without a method `ravel`. -/
def dataOf (c : Cube) : Except PyErr (List ℝ) :=
  match c.mask with
  | none => .error .attributeError
  | some _ => .ok c.data

/-- `observations` (cubemap.py 68-84). -/
def Source.observations (s : Source) (observable : String) : Except PyErr (Observations ℝ) :=
  if observable ≠ s.observable then .error .keyError
  else
    match s.field s.measurement with
    | .error e => .error e
    | .ok m =>
      match s.count with
      | .error e => .error e
      | .ok n =>
        match firstTime m with
        | .error e => .error e
        | .ok t =>
          match s.field s.uncertainty with
          | .error e => .error e
          | .ok u =>
            match maskOf m with
            | .error e => .error e
            | .ok mask =>
              match dataOf m, dataOf u with
              | .ok values, .ok errors => .ok ⟨mask, .array [t], (List.range n).map UInt64.ofNat, values, errors, []⟩
              | .error e, _ => .error e
              | _, .error e => .error e

/-- `local_correlation_length_scale` (cubemap.py 86-89): the lists of all observables are empty (consistent.py 100-104). -/
def Source.ranges (s : Source) (observable : String) : Except PyErr (List ℝ) :=
  if observable ≠ s.observable then .error .keyError else .ok []

/-- `SOURCECLASS[sourcename]([observable], filename)` (preparedailyfixed.py 14-25, 46) for names other than `insitu_land`, which is
modelled in `Insitu.Model`.  `ObservationSourceLakeReading` (surfaceairmodel/fileio/lake.py 38) takes one argument. -/
def sourceOf (sourcename observable : String) (file : List Cube) : Except PyErr Source :=
  if sourcename = "surfaceairmodel_land" ∨ sourcename = "surfaceairmodel_ocean" ∨ sourcename = "surfaceairmodel_ice" then
    satstace observable file
  else if sourcename = "surfaceairmodel_lake" then .error .typeError
  else .error .keyError

/-- `run` of preparelocationlookup.py 9-22 for satellite data, with the new UUID: the contents of the new file. -/
def runLookup (bits : ℝ → UInt64) (uuid : Bytes) (file : List Cube) (sourcename : String) : Except PyErr Bytes :=
  match sourceOf sourcename "Tmin" file with
  | .error e => .error e
  | .ok s =>
    match s.locations with
    | .error e => .error e
    | .ok table => .ok (writeLookup uuid (table.map fun p => (bits p.1, bits p.2)))

/-- `run` of preparecorrelationranges.py 7-26 for satellite data: the contents of the new file. -/
def runRanges (bits : ℝ → UInt64) (file : List Cube) (sourcename observable : String) : Except PyErr Bytes :=
  match sourceOf sourcename observable file with
  | .error e => .error e
  | .ok s =>
    match s.ranges observable with
    | .error e => .error e
    | .ok l => .ok (writeRanges (l.map bits))

/-- `run_day` of preparedailyfixed.py 27-60 for satellite data, with the file of locations and the file of the day: the contents of
the new file. -/
noncomputable def runDay (bits : ℝ → UInt64) (value : UInt64 → ℝ) (lookup : Bytes) (file : List Cube) (day : Int)
    (sourcename observable : String) : Except PyErr Bytes :=
  match readLookup lookup with
  | .error e => .error e
  | .ok (uuid, table) =>
    match sourceOf sourcename observable file with
    | .error e => .error e
    | .ok s =>
      match s.observations observable with
      | .error e => .error e
      | .ok obs =>
        match s.locations with
        | .error e => .error e
        | .ok mine => Insitu.storeDay bits uuid (table.map fun p => (value p.1, value p.2)) mine day (some obs)

end Verif.Eustace.Prepare
