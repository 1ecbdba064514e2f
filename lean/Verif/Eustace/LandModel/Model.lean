import Verif.Eustace.OceanModel.Model

/-! The model of air temperature over land, in IDL (`src/eustace/surfaceairmodel/model_land_idl.pro`).

NaN is `none`.  Left out are the reading and writing of NetCDF and JSON, coordinates and attributes, the compression of files, the
joining of the two masks of ice (the mask is given), the place of the sun (given) and systematic uncertainties of the input, which do not
reach the output.  Real numbers for floats. -/

namespace Verif.Eustace.LandModel

open Verif Verif.Calendar Verif.Eustace.OceanModel

noncomputable section

/-- Variables of a file of land surface temperatures (model_land_idl.pro 317-324, 336-343). -/
structure Lst where
  ts : ℕ → ℤ
  clear : ℕ → ℤ
  all : ℕ → ℤ
  ran : ℕ → ℤ
  atm : ℕ → ℤ
  sfc : ℕ → ℤ
  spl : ℕ → ℤ

/-- Variables of a file of vegetation (model_land_idl.pro 465-467). -/
structure Fvc where
  fvc : ℕ → ℤ
  mean : ℕ → ℤ
  max : ℕ → ℤ

/-- A row of a file of coefficients (model_land_idl.pro 208-224). -/
structure Coefs where
  const : ℝ
  day : ℝ
  night : ℝ
  fvc : ℝ
  dem : ℝ
  solz : ℝ
  snow : ℝ
  fcal : ℝ

/-- A file of coefficients, for the highest and the lowest temperature of the day (model_land_idl.pro 208-224). -/
structure Rows where
  max : Coefs
  min : Coefs

/-- What is read for a day (model_land_idl.pro 123-141, 230-303).  Cells are numbered through the grid. -/
structure Day where
  date : Date
  cells : ℕ
  day : Option Lst
  night : Option Lst
  ice : ℕ → Bool
  dem : ℕ → ℝ
  fvcFiles : List (ℤ × Fvc)
  snow : Option (ℕ → ℤ)
  sun : ℕ → ℝ

/-- `nodata` (model_land_idl.pro 294, 326-333, 345-352). -/
def nodata : Lst := ⟨fun _ => -32768, fun _ => -32768, fun _ => -32768, fun _ => -32768, fun _ => -32768, fun _ => -32768, fun _ => -32768⟩

open Classical in
/-- `invalid=WHERE(...)` followed by `a[invalid]=value` with no count, as at model_land_idl.pro 366-368: if there is no match the subscript
is -1, which is the last cell. -/
def setWhere {α : Type} (n : ℕ) (p : ℕ → Prop) (value : α) (a : ℕ → α) : ℕ → α :=
  if ∃ c < n, p c then fun c => if p c then value else a c
  else fun c => if c = n - 1 then value else a c

/-- Cells of ice (model_land_idl.pro 286-287). -/
def globalMask (d : Day) : ℕ → Bool := setWhere d.cells (fun c => d.ice c = true) true fun _ => false

/-- Fraction of observations without cloud (model_land_idl.pro 355-363). -/
def fraction (l : Lst) (c : ℕ) : ℝ := if 0 < l.all c then (l.clear c : ℝ) / l.all c else 0

/-- Uncertainty of sampling (model_land_idl.pro 365-379). -/
def sampling (n : ℕ) (l : Lst) (c : ℕ) : Option ℝ :=
  match setWhere n (fun c => l.spl c = -32768) none (fun c => some ((l.spl c : ℝ) * 0.001 + 32.767)) c with
  | some x => some (if x < 0 then 0 else x)
  | none => none

/-- The part common to the conditions of model_land_idl.pro 382-439. -/
def rejected (n : ℕ) (splThresh fracThresh : ℝ) (mask : ℕ → Bool) (l : Lst) (c : ℕ) : Prop :=
  (∃ x, sampling n l c = some x ∧ splThresh < x) ∨ fraction l c < fracThresh ∨ mask c = true

/-- One variable scaled and set to NaN where invalid (model_land_idl.pro 381-427). -/
def screened (n : ℕ) (reject : ℕ → Prop) (raw : ℕ → ℤ) (factor offset : ℝ) : ℕ → Option ℝ :=
  setWhere n (fun c => raw c = -32768 ∨ reject c) none fun c => some (raw c * factor + offset)

/-- Land surface temperatures of the day or the night and their uncertainties (model_land_idl.pro 365-443). -/
structure Prepared where
  ts : ℕ → Option ℝ
  ran : ℕ → Option ℝ
  atm : ℕ → Option ℝ
  sfc : ℕ → Option ℝ

/-- Root of the sum of two squares, NaN if one is (model_land_idl.pro 442-443). -/
def quadrature : Option ℝ → Option ℝ → Option ℝ
  | some a, some b => some (Real.sqrt (a ^ 2 + b ^ 2))
  | _, _ => none

/-- One of the two files (model_land_idl.pro 311-443). -/
def prepare (n : ℕ) (splThresh fracThresh : ℝ) (mask : ℕ → Bool) (file : Option Lst) : Prepared :=
  let l := file.getD nodata
  let reject := rejected n splThresh fracThresh mask l
  { ts := screened n reject l.ts 0.005 273.15
    ran := fun c => quadrature (screened n reject l.ran 0.001 32.767 c) (sampling n l c)
    atm := screened n reject l.atm 0.001 32.767
    sfc := screened n reject l.sfc 0.001 32.767 }

/-- The smallest of a list of numbers of days. -/
def smallest (l : List ℤ) : ℤ := l.foldl min (l.headD 0)

/-- The file of vegetation of the nearest day, the first if there are several (model_land_idl.pro 454-457). -/
def nearestFvc (today : ℤ) (files : List (ℤ × Fvc)) : Option Fvc :=
  let lowest := smallest (files.map fun f => |today - f.1|)
  match files.find? fun f => decide (|today - f.1| = lowest) with
  | some f => if lowest < 10 then some f.2 else none
  | none => none

/-- Values of the six variables of the models in one cell. -/
structure Vars where
  day : Option ℝ
  night : Option ℝ
  fvc : Option ℝ
  dem : Option ℝ
  solz : Option ℝ
  snow : Option ℝ

/-- Variables with coefficient nought are set to nought (such as model_land_idl.pro 612-617). -/
def used (c : ℝ) (v : Option ℝ) : Option ℝ := if c = 0 then some 0 else v

/-- A sum, NaN if one of the numbers is. -/
def total : List (Option ℝ) → Option ℝ
  | [] => some 0
  | some a :: rest => (total rest).map fun s => a + s
  | none :: _ => none

/-- `tmax_temp`, `tmin_temp` (model_land_idl.pro 605-637). -/
def linear (k : Coefs) (x : Vars) : Option ℝ :=
  (total [some k.const, (used k.day x.day).map (k.day * ·), (used k.night x.night).map (k.night * ·), (used k.fvc x.fvc).map (k.fvc * ·),
    (used k.dem x.dem).map (k.dem * ·), (used k.solz x.solz).map (k.solz * ·), (used k.snow x.snow).map (k.snow * ·)]).map (· + 273.15)

/-- The square of a coefficient and of an uncertainty. -/
def squared (k : ℝ) (v : Option ℝ) : Option ℝ := (used k v).map fun x => k ^ 2 * x ^ 2

/-- `tmax_ran_temp`, `tmin_ran_temp` (model_land_idl.pro 644-658, 692-706). -/
def random (k : Coefs) (x : Vars) : Option ℝ :=
  (total [squared k.day x.day, squared k.night x.night, squared k.fvc x.fvc, squared k.dem x.dem, squared k.solz x.solz,
    squared k.snow x.snow]).map Real.sqrt

/-- `tmax_loc_atm_temp`, `tmin_loc_atm_temp` (model_land_idl.pro 660-674, 708-722). -/
def atmosphere (k : Coefs) (x : Vars) : Option ℝ :=
  (total [squared k.day x.day, squared k.night x.night, squared k.dem x.dem, squared k.solz x.solz, some (k.fcal ^ 2)]).map Real.sqrt

/-- `tmax_loc_sfc_temp`, `tmin_loc_sfc_temp` (model_land_idl.pro 676-690, 724-738). -/
def surface (k : Coefs) (x : Vars) : Option ℝ :=
  (total [squared k.day x.day, squared k.night x.night, squared k.fvc x.fvc, squared k.snow x.snow]).map Real.sqrt

/-- Values of a cell which are set together (model_land_idl.pro 750-769). -/
structure Estimate where
  t : ℝ
  ran : ℝ
  atm : ℝ
  sfc : ℝ

/-- The four values if all are finite (model_land_idl.pro 746-749, 758-761). -/
def estimate (k : Coefs) (x ran atm sfc : Vars) : Option Estimate :=
  match linear k x, random k ran, atmosphere k atm, surface k sfc with
  | some t, some r, some a, some s => some ⟨t, r, a, s⟩
  | _, _, _, _ => none

/-- The loop over models (model_land_idl.pro 571-771): a later model overwrites the earlier where it is finite. -/
def modelLoop (x ran atm sfc : Vars) : List (Coefs × ℕ) → Option (Estimate × ℕ) → Option (Estimate × ℕ)
  | [], s => s
  | (k, number) :: rest, s =>
    match estimate k x ran atm sfc with
    | some e => modelLoop x ran atm sfc rest (some (e, number))
    | none => modelLoop x ran atm sfc rest s

/-- Variables of the output (model_land_idl.pro 831-945) for the highest or the lowest temperature. -/
structure Field where
  t : ℕ → ℤ
  ran : ℕ → ℤ
  atm : ℕ → ℤ
  sfc : ℕ → ℤ
  sys : ℕ → ℤ
  number : ℕ → ℕ

/-- The output of a day. -/
structure Output where
  time : ℤ
  max : Field
  min : Field

/-- A number to be written, with the number for no data (model_land_idl.pro 951-989). -/
def encoded (s : ℕ → Option (Estimate × ℕ)) (value : Estimate → ℝ) (offset factor : ℝ) (c : ℕ) : ℤ :=
  match s c with
  | some (e, _) => idlRound ((value e - offset) / factor)
  | none => -32767

/-- `FIX`: the lowest 16 bits (model_land_idl.pro 1005-1014). -/
def fix (n : ℤ) : ℤ := (n + 32768) % 65536 - 32768

/-- The variables before the check (model_land_idl.pro 951-989). -/
def fieldOf (s : ℕ → Option (Estimate × ℕ)) : Field where
  t := encoded s (·.t) 273.15 0.005
  ran := encoded s (·.ran) 32.767 0.001
  atm := encoded s (·.atm) 32.767 0.001
  sfc := encoded s (·.sfc) 32.767 0.001
  sys := encoded s (fun _ => 0.1) 32.767 0.001
  number := fun c => match s c with
    | some (_, k) => k
    | none => 0

/-- Whether the check of model_land_idl.pro 991-999 finds a number which is too low. -/
def Field.tooLow (f : Field) (n : ℕ) : Prop := ∃ c < n, f.t c < -32767 ∨ f.ran c < -32767 ∨ f.atm c < -32767 ∨ f.sfc c < -32767

/-- What is put into the file (model_land_idl.pro 1002-1016). -/
def Field.fixed (f : Field) : Field :=
  ⟨fun c => fix (f.t c), fun c => fix (f.ran c), fun c => fix (f.atm c), fun c => fix (f.sfc c), fun c => fix (f.sys c), f.number⟩

/-- Snow (model_land_idl.pro 493-520). -/
def snowValue (d : Day) (c : ℕ) : Option ℝ :=
  match d.snow with
  | some s => setWhere d.cells (fun c => s c = 255) none (fun c => some (s c : ℝ)) c
  | none => none

/-- Uncertainties of snow, which are nought if there is a file (model_land_idl.pro 509-520). -/
def snowUnc (d : Day) : Option ℝ :=
  match d.snow with
  | some _ => some 0
  | none => none

/-- The four sets of variables of a cell (model_land_idl.pro 454-559). -/
def vars (d : Day) (fvc : Fvc) (day night : Prepared) (c : ℕ) : Vars × Vars × Vars × Vars :=
  let n := d.cells
  let gap := fun c => fvc.fvc c = 255 ∨ fvc.mean c = 255
  let green := setWhere n gap none (fun c => some ((fvc.fvc c : ℝ) * 0.004)) c
  let greenLoc := setWhere n gap none (fun c => some ((fvc.mean c : ℝ) * 0.005)) c
  let greenRan := setWhere n gap none (fun c => some ((fvc.max c : ℝ) * 0.005 - fvc.mean c * 0.005)) c
  let solz := if (day.ts c).isSome ∨ (night.ts c).isSome then d.sun c else 0
  (⟨(day.ts c).map (· - 273.15), (night.ts c).map (· - 273.15), green, some (d.dem c), some solz, snowValue d c⟩,
   ⟨day.ran c, night.ran c, greenRan, some 0, some 0, snowUnc d⟩,
   ⟨day.atm c, night.atm c, greenLoc, some 0, some 0, snowUnc d⟩,
   ⟨day.sfc c, night.sfc c, greenLoc, some 0, some 0, snowUnc d⟩)

/-- The cells after the loop over models, which is gone through if there is a file of land surface temperatures (model_land_idl.pro 523-773).
`FOR modelv=1, 2` goes through the second and the first model. -/
def chosen (splThresh fracThresh : ℝ) (d : Day) (fvc : Fvc) (k1 k2 : Coefs) (c : ℕ) : Option (Estimate × ℕ) :=
  let day := prepare d.cells splThresh fracThresh (globalMask d) d.day
  let night := prepare d.cells splThresh fracThresh (globalMask d) d.night
  if d.day.isSome ∨ d.night.isSome then
    modelLoop (vars d fvc day night c).1 (vars d fvc day night c).2.1 (vars d fvc day night c).2.2.1 (vars d fvc day night c).2.2.2
      [(k2, 2), (k1, 1)] none
  else none

open Classical in
/-- One day (model_land_idl.pro 112-1022). -/
def run (m1 m2 _m3 : Rows) (splThresh fracThresh : ℝ) (d : Day) : Except PyErr Output :=
  let today : ℤ := Date.number d.date
  if ∀ f ∈ d.fvcFiles, ¬ (today - 10 < f.1 ∧ f.1 < today + 10) then .error .other
  else
    match nearestFvc today d.fvcFiles with
    | none => .error .other
    | some fvc =>
      let max := fieldOf (chosen splThresh fracThresh d fvc m1.max m2.max)
      let min := fieldOf (chosen splThresh fracThresh d fvc m1.min m2.min)
      if max.tooLow d.cells ∨ min.tooLow d.cells then .error .other
      else .ok ⟨today - (Date.number ⟨1850, 1, 1⟩ : ℤ), max.fixed, min.fixed⟩

end

end Verif.Eustace.LandModel
