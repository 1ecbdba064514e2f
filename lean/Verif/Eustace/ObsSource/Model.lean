import Verif.Eustace.RawBinary.Model
import Mathlib.Analysis.SpecialFunctions.Sqrt
import Mathlib.Analysis.SpecialFunctions.Exp

/-!
Collections of observations: `Observations.mean`, `Observations.append` and break points
(`src/eustace/analysis/observationsource.py`), and their use for the mean of daily minimum and maximum.

Simplifications: floating point values are real numbers; arrays are lists.
-/

namespace Verif.Eustace.ObsSource

open Verif Verif.Eustace.RawBinary

/-- `l[indices]`. -/
def gather {α : Type} (l : List α) : List Nat → Except PyErr (List α)
  | [] => .ok []
  | i :: rest =>
    match l[i]? with
    | none => .error .indexError
    | some x =>
      match gather l rest with
      | .error e => .error e
      | .ok xs => .ok (x :: xs)

/-- `numpy.nonzero( numpy.isin(x, y) )[0]` (observationsource.py 29-30). -/
def restriction (x y : List UInt64) : List Nat :=
  (List.range x.length).filter fun i =>
    match x[i]? with
    | some v => y.contains v
    | none => false

/-- `numpy.all(x == y)` of two arrays: false for shapes which differ, except that one element is compared with all
(observationsource.py 34, 42). -/
def allEqual {α : Type} [DecidableEq α] (x y : List α) : Bool :=
  match x, y with
  | [v], _ => y.all fun w => decide (v = w)
  | _, [w] => x.all fun v => decide (v = w)
  | _, _ => decide (x = y)

/-- `numpy.all(a.time == b.time)` (observationsource.py 42). -/
def timesEqual : Time → Time → Bool
  | .scalar a, .scalar b => decide (a = b)
  | .scalar a, .array b => b.all fun t => decide ((a : ℚ) = t)
  | .array a, .scalar b => a.all fun t => decide (t = (b : ℚ))
  | .array a, .array b => allEqual a b

/-- One place of `((masked_array(a, mask) + masked_array(b, mask)) * 0.5).data` (observationsource.py 47): in masked places NumPy
keeps the first operand. -/
noncomputable def meanValue (mask : Bool) (a b : ℝ) : ℝ := if mask then a else (a + b) * (1 / 2)

/-- One place of `(numpy.ma.sqrt((a*a + b*b) * 0.5)).data` (observationsource.py 50-52, 59-61). -/
noncomputable def rmsValue (mask : Bool) (a b : ℝ) : ℝ := if mask then a else Real.sqrt ((a * a + b * b) * (1 / 2))

/-- An operation on two arrays with a mask: all of the same length, otherwise `MaskError` (observationsource.py 47-61). -/
def masked (op : Bool → ℝ → ℝ → ℝ) (mask : List Bool) (a b : List ℝ) : Except PyErr (List ℝ) :=
  if a.length = mask.length ∧ b.length = mask.length then
    .ok (List.zipWith (fun m p => op m p.1 p.2) mask (a.zip b))
  else .error .other

/-- The loop over correlated components (observationsource.py 57-61). -/
noncomputable def meanCorrelated (ra rb : List Nat) (mask : List Bool) :
    List (List ℝ) → List (List ℝ) → Except PyErr (List (List ℝ))
  | a :: as, b :: bs =>
    match gather a ra with
    | .error e => .error e
    | .ok a' =>
      match gather b rb with
      | .error e => .error e
      | .ok b' =>
        match masked rmsValue mask a' b' with
        | .error e => .error e
        | .ok c =>
          match meanCorrelated ra rb mask as bs with
          | .error e => .error e
          | .ok cs => .ok (c :: cs)
  | _, _ => .ok []

/-- `numpy.logical_or` of arrays (observationsource.py 39), with one element broadcast. -/
def maskOr (a b : List Bool) : Except PyErr (List Bool) :=
  match a, b with
  | [x], _ => .ok (b.map (x || ·))
  | _, [y] => .ok (a.map (· || y))
  | _, _ => if a.length = b.length then .ok (List.zipWith (· || ·) a b) else .error .valueError

/-- `Observations.mean` (observationsource.py 24-64). -/
noncomputable def mean (a b : Observations ℝ) : Except PyErr (Observations ℝ) :=
  match gather a.location (restriction a.location b.location) with
  | .error e => .error e
  | .ok la =>
    match gather b.location (restriction b.location a.location) with
    | .error e => .error e
    | .ok lb =>
      if allEqual la lb = false then .error .valueError
      else
        match gather a.mask (restriction a.location b.location) with
        | .error e => .error e
        | .ok ma =>
          match gather b.mask (restriction b.location a.location) with
          | .error e => .error e
          | .ok mb =>
            match maskOr ma mb with
            | .error e => .error e
            | .ok mask =>
              if timesEqual a.time b.time = false then .error .valueError
              else
                match gather a.measurement (restriction a.location b.location) with
                | .error e => .error e
                | .ok va =>
                  match gather b.measurement (restriction b.location a.location) with
                  | .error e => .error e
                  | .ok vb =>
                    match masked meanValue mask va vb with
                    | .error e => .error e
                    | .ok measurement =>
                      match gather a.uncorrelated (restriction a.location b.location) with
                      | .error e => .error e
                      | .ok ua =>
                        match gather b.uncorrelated (restriction b.location a.location) with
                        | .error e => .error e
                        | .ok ub =>
                          match masked rmsValue mask ua ub with
                          | .error e => .error e
                          | .ok uncorrelated =>
                            if a.correlated.length ≠ b.correlated.length then .error .valueError
                            else
                              match meanCorrelated (restriction a.location b.location) (restriction b.location a.location)
                                mask a.correlated b.correlated with
                              | .error e => .error e
                              | .ok correlated => .ok ⟨mask, a.time, la, measurement, uncorrelated, correlated⟩

/-- Times as an array. -/
def Time.values : Time → List ℚ
  | .scalar a => [(a : ℚ)]
  | .array l => l

/-- `self.time != other.time` as a condition (observationsource.py 69): arrays of several elements cannot be a condition; shapes
which cannot be broadcast differ. -/
def timesDiffer (a b : Time) : Except PyErr Bool :=
  match Time.values a, Time.values b with
  | [x], [y] => .ok (decide (x ≠ y))
  | [], [] => .ok false
  | [], [_] => .ok false
  | [_], [] => .ok false
  | [_], _ => .error .valueError
  | _, [_] => .error .valueError
  | x, y => if x.length ≠ y.length then .ok true else .error .valueError

/-- `Observations.append` (observationsource.py 66-77): the object afterwards, and whether an exception was raised.  Simplified:
identifiers wrap modulo 2^64. -/
def append {R : Type} (self other : Observations R) (offset : UInt64) : Observations R × Except PyErr Unit :=
  match timesDiffer self.time other.time with
  | .error e => ({ self with mask := self.mask ++ other.mask }, .error e)
  | .ok true => ({ self with mask := self.mask ++ other.mask }, .error .valueError)
  | .ok false =>
    if self.correlated.length ≠ other.correlated.length then
      ({ self with
          mask := self.mask ++ other.mask
          location := self.location ++ other.location.map (· + offset)
          measurement := self.measurement ++ other.measurement
          uncorrelated := self.uncorrelated ++ other.uncorrelated }, .error .valueError)
    else
      ({ self with
          mask := self.mask ++ other.mask
          location := self.location ++ other.location.map (· + offset)
          measurement := self.measurement ++ other.measurement
          uncorrelated := self.uncorrelated ++ other.uncorrelated
          correlated := List.zipWith (· ++ ·) self.correlated other.correlated }, .ok ())

/-! ### The mean of daily minimum and maximum -/

/-- Observables in files of a day (inputloader_rawbinary.py 91-95): `none` for an observable without an entry, `some none` for an
entry without a file. -/
structure DayFiles where
  mean : Option (Option (Observations ℝ))
  minimum : Option (Option (Observations ℝ))
  maximum : Option (Option (Observations ℝ))

/-- What a source gives for an entry (observationsource_rawbinary.py 471-478): no observations without a file. -/
def load (daynumber : Int) : Option (Observations ℝ) → Observations ℝ
  | some obs => obs
  | none => ⟨[], .scalar daynumber, [], [], [], []⟩

/-- `ObservationSourceSingleDayRawBinary_ComputedMean.observations` for the daily mean (inputloader_rawbinary.py 27-46).
Simplified: files have been read already. -/
noncomputable def computedMean (daynumber : Int) (files : DayFiles) : Except PyErr (Observations ℝ) :=
  match files.mean, files.minimum, files.maximum with
  | some entry, _, _ => .ok (load daynumber entry)
  | none, some minimum, some maximum => mean (load daynumber minimum) (load daynumber maximum)
  | none, _, _ => .error .runtimeError

/-! ### Break points -/

/-- `ObservationsBreakPoints` (observationsource.py 84-94), the parts which policies use. -/
structure BreakPoints where
  time : List ℝ
  station : List Nat
  likelihood : List ℝ

/-- `numpy.argwhere(condition)` reshaped to one dimension. -/
def indicesWhere (condition : ℝ → Bool) (l : List ℝ) : List Nat :=
  (List.range l.length).filter fun i =>
    match l[i]? with
    | some x => condition x
    | none => false

/-- Selecting by indices, as at the end of both policies (observationsource.py 154-156, 165-167). -/
def keep (b : BreakPoints) (indices : List Nat) : Except PyErr BreakPoints :=
  match gather b.time indices with
  | .error e => .error e
  | .ok time =>
    match gather b.station indices with
    | .error e => .error e
    | .ok station =>
      match gather b.likelihood indices with
      | .error e => .error e
      | .ok likelihood => .ok ⟨time, station, likelihood⟩

/-- `apply_base_policy` (observationsource.py 149-156). -/
noncomputable def basePolicy (threshold : ℝ) (b : BreakPoints) : Except PyErr BreakPoints :=
  open Classical in keep b (indicesWhere (fun x => decide (threshold ≤ x)) b.likelihood)

/-- `apply_kernel_policy` (observationsource.py 158-167). -/
noncomputable def kernelPolicy (threshold decay : ℝ) (b : BreakPoints) : Except PyErr BreakPoints :=
  open Classical in
  keep b (indicesWhere (fun x => decide (threshold ≤ Real.exp (-decay * |x - 127|))) b.likelihood)

/-- `apply_policy` (observationsource.py 136-147). -/
noncomputable def applyPolicy (code : String) (threshold decay : ℝ) (b : BreakPoints) : Except PyErr BreakPoints :=
  if code = "HARD_CUTOFF" then basePolicy threshold b
  else if code = "LAPLACE_KERNEL" then kernelPolicy threshold decay b
  else .error .valueError

/-- `filtered_break_points` (observationsource.py 121-129). -/
def filteredBreakPoints (b : BreakPoints) (station : Nat) : Except PyErr (List ℝ) :=
  gather b.time ((List.range b.station.length).filter fun i => b.station[i]? == some station)

/-! ### Two files of ice temperatures -/

/-- `latitude_increments_between_files` and `locationoffsets[1]` (ice.py 73-76), for positive arguments. -/
noncomputable def locationOffset (first second : List ℝ) (resolution : ℝ) (longitudes : Nat) : Nat :=
  (first.length - 1 + ⌊(second.headD 0 - first.getLastD 0) / resolution + 1 / 1000000⌋₊) * longitudes

/-- `numpy.arange(start, stop, step)`. -/
noncomputable def arange (start stop step : ℝ) : List ℝ :=
  (List.range ⌈(stop - start) / step⌉₊).map fun i : Nat => start + i * step

/-- `observation_location_lookup` of a grid (ice.py 93-94, cubemap.py 54-58): rows of latitude in turn. -/
def lookup (latitudes longitudes : List ℝ) : List (ℝ × ℝ) := latitudes.flatMap fun y => longitudes.map fun x => (y, x)

/-- `latitude_axis_points` (ice.py 70). -/
noncomputable def combinedLatitudes (first second : List ℝ) (resolution : ℝ) : List ℝ :=
  arange (first.headD 0) (second.getLastD 0 + 1 / 1000000) resolution

end Verif.Eustace.ObsSource
