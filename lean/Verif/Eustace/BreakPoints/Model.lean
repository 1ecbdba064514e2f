import Mathlib.Analysis.SpecialFunctions.Exp
import Verif.Eustace.ObsSource.Stations

/-!
Breaks of homogeneity of station series: reading them from a file, rejecting the unlikely ones and counting them by station, in
Python (`src/eustace/preprocess/fileio/insitu_land_breakpoints.py`, `src/eustace/analysis/observationsource.py`) and in C++
(`src/cpp/eustace/analysis/break_points`).
-/

namespace Verif.Eustace.BreakPoints

open Verif Verif.Eustace.ObsSource

noncomputable section

/-! ### Files -/

/-- What `break_likelihood[:]` is (insitu_land_breakpoints.py 72-75): an array without mask, a masked array whose mask is the
single value `False`, or a masked array with a mask for every value. -/
inductive Mask where
  | plain
  | nomask
  | array (m : List Bool)
  deriving DecidableEq, Repr

/-- The variables of a file of breaks (insitu_land_breakpoints.py 20-24, insitu_land_break_points.h 59-62).  `bits` is the width of
the integers which hold the likelihoods. -/
structure File where
  time : List Int
  station : List Int
  likelihood : List Int
  mask : Mask
  bits : Nat
  feasibility : List Int
  latitude : List ℝ
  longitude : List ℝ

/-- `ObservationsBreakPoints` (observationsource.py 79-94).  `wrapped` says that the arrays of breaks have shape `(1, n)`.  Type
and score are left out: files have none. -/
structure Breaks where
  time : List Int
  station : List Int
  likelihood : List Int
  feasibility : List Int
  wrapped : Bool
  bits : Nat

/-- `a[mask]` for arrays of booleans. -/
def boolIndex {α : Type} (mask : List Bool) (l : List α) : Except PyErr (List α) :=
  if mask.length = l.length then .ok (select mask l) else .error .indexError

/-- `likelihood_mask` (insitu_land_breakpoints.py 72-75), where it is an array. -/
def likelihoodMask (f : File) : Option (List Bool) :=
  match f.mask with
  | .plain => some (f.likelihood.map fun _ => true)
  | .nomask => none
  | .array m => some (m.map not)

/-- `numpy.logical_and` of two arrays of the same length (insitu_land_breakpoints.py 99). -/
def logicalAnd (a b : List Bool) : Except PyErr (List Bool) :=
  if a.length = b.length then .ok (List.zipWith and a b) else .error .valueError

/-- One index of an array, from the end if it is negative. -/
def item (l : List Int) (i : Int) : Except PyErr Int :=
  match l[(if i < 0 then i + l.length else i).toNat]? with
  | some x => if i < -(l.length : Int) then .error .indexError else .ok x
  | none => .error .indexError

/-- `number_of_observations` of a file (insitu_land_breakpoints.py 37-45). -/
def fileCount (f : File) (index : Option Int) : Nat :=
  match index with
  | none => f.time.length
  | some s => f.station.countP fun x => x == s

/-- The three arrays of breaks for a mask (insitu_land_breakpoints.py 83-106). -/
def masked (f : File) (mask : List Bool) (feasibility : List Int) : Except PyErr Breaks :=
  match boolIndex mask f.time, boolIndex mask f.station, boolIndex mask f.likelihood with
  | .ok t, .ok s, .ok l => .ok ⟨t, s, l, feasibility, false, f.bits⟩
  | .error e, _, _ => .error e
  | _, .error e, _ => .error e
  | _, _, .error e => .error e

/-- `observations` (insitu_land_breakpoints.py 63-106).  Simplified: all variables are there, and times and stations have no
missing values.  The single value `True` as an index adds a dimension. -/
def observations (f : File) (index : Option Int) : Except PyErr Breaks :=
  match index with
  | none =>
    match likelihoodMask f with
    | some m => masked f m f.feasibility
    | none => .ok ⟨f.time, f.station, f.likelihood, f.feasibility, true, f.bits⟩
  | some s =>
    let stationMask := f.station.map fun x => x == s
    match item f.feasibility s with
    | .error e => .error e
    | .ok x =>
      match likelihoodMask f with
      | none => masked f stationMask [x]
      | some m =>
        match logicalAnd stationMask m with
        | .error e => .error e
        | .ok final => masked f final [x]

/-- `observation_location_lookup` (insitu_land_breakpoints.py 47-61), as pairs of latitude and longitude. -/
def locationLookup (f : File) : Except PyErr (List (ℝ × ℝ)) :=
  if f.latitude.length = f.longitude.length then .ok (f.latitude.zip (f.longitude.map wrapLongitudes))
  else .error .valueError
where
  /-- `longitude[wrapped_longitudes] -= 360.0` (insitu_land_breakpoints.py 54-56). -/
  wrapLongitudes (x : ℝ) : ℝ := open Classical in if 180 ≤ x then x - 360 else x

/-! ### Policies in Python -/

/-- Integers of a given width. -/
def wrap (bits : Nat) (x : Int) : Int := (x + 2 ^ (bits - 1)) % 2 ^ bits - 2 ^ (bits - 1)

/-- The places where a condition holds: `numpy.argwhere(...)`, reshaped (observationsource.py 152-153). -/
def argwhere (mask : List Bool) : List Nat := (List.range mask.length).filter fun i => mask[i]? == some true

/-- `x[indices_to_keep]` of the three arrays (observationsource.py 154-156 and 165-167).  Where arrays have two dimensions, the
indices have two columns and cannot be reshaped, except if there are none. -/
def keep (b : Breaks) (mask : List Bool) : Except PyErr Breaks :=
  let places := argwhere mask
  if b.wrapped then
    if places.length = 0 then .ok { b with time := [], station := [], likelihood := [] } else .error .valueError
  else
    match gather b.time places, gather b.station places, gather b.likelihood places with
    | .ok t, .ok s, .ok l => .ok { b with time := t, station := s, likelihood := l }
    | .error e, _, _ => .error e
    | _, .error e, _ => .error e
    | _, _, .error e => .error e

/-- `apply_base_policy` (observationsource.py 149-156). -/
def basePolicy (threshold : ℝ) (b : Breaks) : Except PyErr Breaks :=
  open Classical in keep b (b.likelihood.map fun (l : Int) => decide (threshold ≤ (l : ℝ)))

/-- One of `gaussian_kernels` (observationsource.py 162).  The difference and its absolute value are computed in the integers of the
array.  Simplified: the exponential is that of real numbers (NumPy uses half precision for 8 bit integers). -/
def kernel (bits : Nat) (decay : ℝ) (l : Int) : ℝ := Real.exp (-decay * (wrap bits |wrap bits (l - 127)| : Int))

/-- `apply_kernel_policy` (observationsource.py 158-167). -/
def kernelPolicy (threshold decay : ℝ) (b : Breaks) : Except PyErr Breaks :=
  open Classical in keep b (b.likelihood.map fun (l : Int) => decide (threshold ≤ kernel b.bits decay l))

/-- `apply_policy` (observationsource.py 136-147). -/
def applyPolicy (code : String) (threshold decay : ℝ) (b : Breaks) : Except PyErr Breaks :=
  if code = "HARD_CUTOFF" then basePolicy threshold b
  else if code = "LAPLACE_KERNEL" then kernelPolicy threshold decay b
  else .error .valueError

/-! ### Statistics in Python -/

/-- `numpy.sort`, by insertion. -/
def insert (x : Int) : List Int → List Int
  | [] => [x]
  | y :: rest => if x ≤ y then x :: y :: rest else y :: insert x rest

/-- `numpy.sort`. -/
def sort : List Int → List Int
  | [] => []
  | x :: rest => insert x (sort rest)

/-- Runs of equal values of a sorted array with their lengths: the values where the array changes, and the differences of the
places (`numpy.unique` with counts). -/
def runs : List Int → List (Int × Nat)
  | [] => []
  | x :: rest =>
    match runs rest with
    | [] => [(x, 1)]
    | (y, n) :: more => if x = y then (y, n + 1) :: more else (x, 1) :: (y, n) :: more

/-- `station_statistics` (observationsource.py 116-119). -/
def stationStatistics (b : Breaks) : List (Int × Nat) := runs (sort b.station)

/-- `stations_collection` (observationsource.py 106-109). -/
def stationsCollection (b : Breaks) : List Int := (stationStatistics b).map Prod.fst

/-- `stations_count` (observationsource.py 111-114). -/
def stationsCount (b : Breaks) : List Nat := (stationStatistics b).map Prod.snd

/-- `total_number_of_stations` (observationsource.py 101-104). -/
def numberOfStations (b : Breaks) : Nat := (stationsCollection b).length

/-- `number_of_observations` (observationsource.py 96-99). -/
def numberOfObservations (b : Breaks) : Nat := if b.wrapped then 1 else b.time.length

/-- `filtered_break_points` (observationsource.py 121-129), for one station. -/
def filteredBreakPoints (b : Breaks) (s : Int) : Except PyErr (List Int) := gather b.time (placesIn b.station [s])

/-! ### C++ -/

/-- How the C++ code fails; `undefined` is memory outside of an array. -/
inductive CppErr where
  | outOfRange
  | runtimeError
  | readerException
  | undefined
  deriving DecidableEq, Repr

/-- `ObservationBreakingPoints` (break_points.h 15-33). -/
structure CppBreaks where
  time : List Int
  station : List Int
  likelihood : List Int

/-- `BreakPointsReader::observation` (insitu_land_break_points.cpp 89-116).  `nc_get_var` gives values in the type of the file, of
which the buffer for likelihoods holds as many as there are breaks only if they have 8 bits. -/
def cppObservation (f : File) : Except CppErr CppBreaks :=
  if f.bits = 8 ∨ f.time.length = 0 then .ok ⟨f.time, f.station, f.likelihood⟩ else .error .undefined

/-- `BreakPointsReader::ObservationLocationLookup` (insitu_land_break_points.cpp 51-87).  `reserve` does not give the vectors any
elements, which are then written and read. -/
def cppLookup (f : File) : Except CppErr (List (ℝ × ℝ)) :=
  if f.latitude.length ≠ f.longitude.length then .error .readerException
  else if 0 < f.latitude.length then .error .undefined
  else .ok []

/-- The loop of `reject` (break_points.cpp 98-105): the place of the first of the rest of the discriminants, and the elements
pushed back. -/
def rejectFrom {α : Type} (members : List Int) (accept : α → Bool) : Nat → List α → Except CppErr (List Int)
  | _, [] => .ok []
  | i, d :: rest =>
    if accept d then
      match members[i]? with
      | none => .error .outOfRange
      | some x =>
        match rejectFrom members accept (i + 1) rest with
        | .error e => .error e
        | .ok l => .ok (x :: l)
    else rejectFrom members accept (i + 1) rest

/-- `reject` of the three vectors (break_points.cpp 66-92). -/
def cppReject {α : Type} (b : CppBreaks) (discriminant : List α) (accept : α → Bool) : Except CppErr CppBreaks :=
  match rejectFrom b.time accept 0 discriminant with
  | .error e => .error e
  | .ok t =>
    match rejectFrom b.station accept 0 discriminant with
    | .error e => .error e
    | .ok s =>
      match rejectFrom b.likelihood accept 0 discriminant with
      | .error e => .error e
      | .ok l => .ok ⟨t, s, l⟩

/-- `apply_base_policy` (break_points.cpp 66-76). -/
def cppBasePolicy (threshold : ℝ) (b : CppBreaks) : Except CppErr CppBreaks :=
  open Classical in cppReject b b.likelihood fun (l : Int) => decide (threshold ≤ (l : ℝ))

/-- `apply_kernel_policy` (break_points.cpp 78-92).  Simplified: real numbers, and likelihoods which do not overflow 32 bits. -/
def cppKernelPolicy (threshold decay : ℝ) (b : CppBreaks) : Except CppErr CppBreaks :=
  open Classical in
  cppReject b (b.likelihood.map fun (l : Int) => Real.exp (-((|l - 127| : Int) : ℝ) * decay)) fun d => decide (threshold ≤ d)

/-- `apply_policy` (break_points.cpp 54-64). -/
def cppPolicy (code : Int) (threshold decay : ℝ) (b : CppBreaks) : Except CppErr CppBreaks :=
  if code = 0 then cppBasePolicy threshold b
  else if code = 1 then cppKernelPolicy threshold decay b
  else .error .runtimeError

/-- `std::unique` and `erase`: of equal neighbours the first is kept. -/
def uniqueFrom (x : Int) : List Int → List Int
  | [] => []
  | y :: rest => if x = y then uniqueFrom x rest else y :: uniqueFrom y rest

/-- `std::unique` and `erase`. -/
def unique : List Int → List Int
  | [] => []
  | x :: rest => x :: uniqueFrom x rest

/-- `stations_collection` (break_points.cpp 6-17).  `std::sort` is a sort of integers as in Python. -/
def cppStations (b : CppBreaks) : List Int := unique (sort b.station)

/-- `stations_count` (break_points.cpp 27-38). -/
def cppCounts (b : CppBreaks) : List Nat := (cppStations b).map fun s => b.station.countP fun x => x == s

/-- The loop of `filtered_breakpoints` (break_points.cpp 40-52): the rest of the stations and the place of the first. -/
def cppFilteredFrom (times : List Int) (s : Int) : Nat → List Int → Except CppErr (List Int)
  | _, [] => .ok []
  | i, x :: rest =>
    if x = s then
      match times[i]? with
      | none => .error .outOfRange
      | some t =>
        match cppFilteredFrom times s (i + 1) rest with
        | .error e => .error e
        | .ok l => .ok (t :: l)
    else cppFilteredFrom times s (i + 1) rest

/-- `filtered_breakpoints` (break_points.cpp 40-52). -/
def cppFiltered (b : CppBreaks) (s : Int) : Except CppErr (List Int) := cppFilteredFrom b.time s 0 b.station

/-! ### The element of station biases -/

/-- `InsituLandBiasElement` (bias_insitu_land.py 22-41): the breaks, of which there is one bias for each. -/
def biasBreaks (f : File) (cut : Option ℝ) : Except PyErr Breaks :=
  match observations f none with
  | .error e => .error e
  | .ok b =>
    match cut with
    | none => .ok b
    | some threshold => applyPolicy "HARD_CUTOFF" threshold 0 b

/-- `break_time.size` (bias_insitu_land.py 41). -/
def numberOfBiases (b : Breaks) : Nat := b.time.length

end

end Verif.Eustace.BreakPoints
