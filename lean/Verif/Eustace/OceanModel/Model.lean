import Verif.Py
import Verif.Calendar
import Mathlib.Analysis.SpecialFunctions.Trigonometric.Basic
import Mathlib.Algebra.Order.Floor.Ring

/-! The model of air temperature over the ocean, in IDL: `/repo/src/eustace/surfaceairmodel/` model_ocean_idl.pro and
model_ocean_idl_setup_satellite.pro (below: setup.pro).

Simplified: real numbers for float32 and float64; arrays are functions of column and row; a file has one time, so the array has two
dimensions; the sizes of the output file (1440 and 720) and the attributes of its variables other than the scale are not modelled.
The parsing of the configuration is the subject of C119; here are date, input and parameters. -/

namespace Verif.Eustace.OceanModel

open Verif Verif.Calendar

noncomputable section

/-! ### Calendar -/

/-- `idays` (setup.pro 69). -/
def idays : List ℕ := [0, 31, 59, 90, 120, 151, 181, 212, 243, 273, 304, 334, 366]

/-- `ymd2dn` (setup.pro 58-75).  `and` and `or` of IDL have the same precedence and are taken from the left. -/
def ymd2dn (year month day : ℕ) : ℕ :=
  day + idays.getD (month - 1) 0 +
    if ((year % 4 = 0 ∧ year % 100 ≠ 0) ∨ year % 400 = 0) ∧ 3 ≤ month then 1 else 0

/-- `leap` (setup.pro 77-96). -/
def leap (year : ℕ) : Bool := decide (year % 4 = 0 ∧ (year % 100 ≠ 0 ∨ year % 400 = 0))

/-- `day_in_year` (model_ocean_idl.pro 116-119). -/
def dayInYear (year month day : ℕ) : ℕ :=
  let n := ymd2dn year month day
  if leap year = true ∧ 59 < n then n - 1 else n

/-! ### Fourier series -/

/-- `npts` (setup.pro 42). -/
def npts : ℕ := 365

/-- The columns before normalisation (setup.pro 44-49) for day `t` and column `i`, with `neofs` 4: the loop has `i` of 1 and 3. -/
def harmonic (i t : ℕ) : ℝ :=
  if i = 0 then 1
  else if i % 2 = 1 then Real.sin ((i + 1 : ℕ) * Real.pi * t / npts)
  else Real.cos ((i - 1 + 1 : ℕ) * Real.pi * t / npts)

/-- `normalise` (setup.pro 3-5). -/
def normalise (f : ℕ → ℝ) : ℕ → ℝ := fun t => f t / ∑ s ∈ Finset.range npts, f s * f s

/-- `C_daily` (setup.pro 38-56). -/
def fourier (t i : ℕ) : ℝ := normalise (harmonic i) t

/-! ### Boxes -/

/-- `which_lon_box` (setup.pro 99-117); outside the program stops. -/
def whichLonBox (lon res : ℝ) : Except PyErr ℤ :=
  if 180 < lon ∨ lon < -180 then .error .other
  else
    let shifted := lon + 0.001
    let highest := 360 / res - 1
    let box := ⌊(shifted - (-180)) / res⌋
    let box := if box < 0 then ⌊highest⌋ else box
    .ok (if highest < box then 0 else box)

/-- `which_lat_box` (setup.pro 120-138). -/
def whichLatBox (lat res : ℝ) : Except PyErr ℤ :=
  if 90 < lat ∨ lat < -90 then .error .other
  else
    let shifted := lat + 0.001
    let highest := 180 / res - 1
    let box := ⌊(shifted - (-90)) / res⌋
    let box := if box < 0 then 0 else box
    .ok (if highest < box then ⌊highest⌋ else box)

/-- Parameters: number of the column of the series, column and row of the box. -/
abbrev Params := ℕ → ℤ → ℤ → ℝ

/-- The boxes of a place (setup.pro 171-172, 179-180). -/
def boxes (lat lon : ℝ) : Except PyErr (ℤ × ℤ) :=
  match whichLonBox lon 0.25 with
  | .error e => .error e
  | .ok xx =>
    match whichLatBox lat 0.25 with
    | .error e => .error e
    | .ok yy => .ok (xx, yy)

/-- `get_hires_offset` (setup.pro 169-175), with `neofs` 4. -/
def hiresOffset (C : ℕ → ℕ → ℝ) (p : Params) (lat lon : ℝ) (day : ℕ) : Except PyErr ℝ :=
  match boxes lat lon with
  | .error e => .error e
  | .ok (xx, yy) => .ok ((List.range 5).foldl (fun offset i => offset + C day i * p i xx yy) 0)

/-- `get_single_hires_offset` (setup.pro 177-183), the boxes having been found. -/
def single (C : ℕ → ℕ → ℝ) (p : Params) (i : ℕ) (xx yy : ℤ) (day : ℕ) : ℝ := C day i * p i xx yy

/-! ### One day -/

/-- What is restored from the three files of parameters (model_ocean_idl.pro 54-56). -/
structure Climatology where
  params : Params
  unc : Params
  stdev : Params

/-- The variables of an input file, as stored (model_ocean_idl.pro 101-108), with column and row. -/
structure Input where
  latitudes : List ℝ
  longitudes : List ℝ
  sst : ℕ × ℕ → ℤ
  random : ℕ × ℕ → ℤ
  correlated : ℕ × ℕ → ℤ
  systematic : ℕ × ℕ → ℤ

/-- The cells in the order of the loops (model_ocean_idl.pro 142-143). -/
def Input.cells (f : Input) : List (ℕ × ℕ) :=
  (List.range f.longitudes.length).flatMap fun x => (List.range f.latitudes.length).map fun y => (x, y)

/-- `sst * 0.01` (model_ocean_idl.pro 111). -/
def Input.degrees (f : Input) (c : ℕ × ℕ) : ℝ := f.sst c * 0.01

/-- `min` of an array. -/
def minimum (l : List ℝ) : ℝ := l.foldl min (l.headD 0)

/-- What the loop sets in a cell (model_ocean_idl.pro 121-137): `mat`, `mat_local_systematic`, `param`k`_systematic` and
`mat_param`k`_systematic`. -/
structure Cell where
  mat : ℝ
  spread : ℝ
  param : ℕ → ℝ
  matParam : ℕ → ℝ

/-- The number for no data. -/
def fill : ℝ := -32768

/-- What the arrays begin with (model_ocean_idl.pro 121-137). -/
def Cell.empty : Cell := ⟨fill, fill, fun _ => fill, fun _ => fill⟩

/-- The inner part of the loop for one cell (model_ocean_idl.pro 145-195): none if nothing is set.  `C_flat` is one everywhere. -/
def cellOf (k : Climatology) (f : Input) (day : ℕ) (lowest : ℝ) (c : ℕ × ℕ) : Except PyErr (Option Cell) :=
  if f.degrees c = lowest then .ok none
  else
    let lat := f.latitudes.getD c.2 0
    let lon := f.longitudes.getD c.1 0
    match hiresOffset fourier k.params lat lon (day - 1), hiresOffset fourier k.stdev lat lon (day - 1), boxes lat lon with
    | .ok mn, .ok sd, .ok (xx, yy) =>
      if |mn| < 10 ∧ |sd| ≤ 10 then
        .ok (some ⟨f.degrees c + mn, if sd < 0.3 then 0.3 else sd,
          fun i => single (fun _ _ => 1) k.unc i xx yy (day - 1),
          fun i => |single fourier k.unc i xx yy (day - 1)|⟩)
      else .ok none
    | _, _, _ => .error .other

/-- The loop over all grid boxes (model_ocean_idl.pro 142-198). -/
def cellLoop (k : Climatology) (f : Input) (day : ℕ) (lowest : ℝ) :
    List (ℕ × ℕ) → (ℕ × ℕ → Cell) → Except PyErr (ℕ × ℕ → Cell)
  | [], s => .ok s
  | c :: rest, s =>
    match cellOf k f day lowest c with
    | .error e => .error e
    | .ok none => cellLoop k f day lowest rest s
    | .ok (some v) => cellLoop k f day lowest rest (Function.update s c v)

open Classical in
/-- `index = where(mat eq -32768)` and `a[index] = value` (model_ocean_idl.pro 200-217, 497-546).  With no match `where` gives -1, which
as a subscript means the last element. -/
def setWhereFill {α : Type} (f : Input) (mat : ℕ × ℕ → ℝ) (value : α) (a : ℕ × ℕ → α) : ℕ × ℕ → α :=
  if ∃ c ∈ f.cells, mat c = fill then fun c => if mat c = fill then value else a c
  else Function.update a (f.longitudes.length - 1, f.latitudes.length - 1) value

/-- `ROUND`: halves away from zero. -/
def idlRound (x : ℝ) : ℤ := if 0 ≤ x then ⌊x + 1 / 2⌋ else ⌈x - 1 / 2⌉

/-- `ROUND(a/scale)`, then the number for no data (model_ocean_idl.pro 499-546); both scales are 0.001. -/
def scaled (f : Input) (mat a : ℕ × ℕ → ℝ) : ℕ × ℕ → ℤ :=
  setWhereFill f mat (-32768) fun c => idlRound (a c / 0.001)

/-- The variables of an output file, as stored (model_ocean_idl.pro 549-573). -/
structure Output where
  time : ℤ
  latitudes : List ℝ
  longitudes : List ℝ
  tas : ℕ × ℕ → ℤ
  rand : ℕ × ℕ → ℤ
  corr : ℕ × ℕ → ℤ
  syst : ℕ × ℕ → ℤ
  corr2 : ℕ × ℕ → ℤ
  syst2 : ℕ × ℕ → ℤ
  parameterTas : ℕ → ℕ × ℕ → ℤ
  parameter : ℕ → ℕ × ℕ → ℤ

/-- One day (model_ocean_idl.pro 84-576).  `uscale_factor` is 0.001 (113-115). -/
def run (k : Climatology) (year month day : ℕ) (f : Input) : Except PyErr Output :=
  let lowest := minimum (f.cells.map f.degrees)
  match cellLoop k f (dayInYear year month day) lowest f.cells (fun _ => Cell.empty) with
  | .error e => .error e
  | .ok s =>
    let mat := fun c => (s c).mat
    let random := setWhereFill f mat fill fun c => f.random c * (0.001 : ℝ)
    let correlated := setWhereFill f mat fill fun c => f.correlated c * (0.001 : ℝ)
    let systematic := setWhereFill f mat fill fun c => f.systematic c * (0.001 : ℝ)
    let written := scaled f mat systematic
    .ok {
      time := (Date.number ⟨year, month, day⟩ : ℤ) - (Date.number ⟨1850, 1, 1⟩ : ℤ)
      latitudes := f.latitudes
      longitudes := f.longitudes
      tas := scaled f mat mat
      rand := scaled f mat random
      corr := scaled f mat correlated
      syst := written
      corr2 := scaled f mat fun c => (s c).spread
      syst2 := written
      parameterTas := fun i => scaled f mat (setWhereFill f mat fill fun c => (s c).matParam i)
      parameter := fun i => scaled f mat (setWhereFill f mat fill fun c => (s c).param i) }

/-- The loop over input files (model_ocean_idl.pro 83-578): dates, inputs and names of outputs. -/
def runAll (k : Climatology) : List (Date × Input × String) → Except PyErr (List (String × Output))
  | [] => .ok []
  | (d, f, name) :: rest =>
    match run k d.year d.month d.day f with
    | .error e => .error e
    | .ok o =>
      match runAll k rest with
      | .error e => .error e
      | .ok l => .ok ((name, o) :: l)

end

end Verif.Eustace.OceanModel
