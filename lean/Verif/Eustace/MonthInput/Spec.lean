import Verif.Eustace.MonthInput.Model
import Verif.Eustace.RawBinary.Props

/-!
Specification for C151, C152: which observations the analysis is to see for a day, in terms of what was stored.
-/

namespace Verif.Eustace.MonthInput

open Verif Verif.Eustace.RawBinary Verif.Eustace.Components

/-- An observation: identifier of its location, measurement and error. -/
abbrev Record := UInt64 × ℝ × ℝ

/-- The valid observations of a day, in order. -/
def DayRecords (value : UInt64 → ℝ) (obs : Observations UInt64) (day : Int) (r : List Record) : Prop :=
  ∃ kept, Kept obs day kept ∧ r = kept.map fun i => (obs.location.getD i 0, value (obs.measurement.getD i 0), value (obs.uncorrelated.getD i 0))

/-- Daily means at the locations which have a minimum and a maximum, with the root mean square of the errors. -/
noncomputable def common (a b : List Record) : List Record :=
  a.filterMap fun x => (b.find? fun y => y.1 == x.1).map fun y => (x.1, (x.2.1 + y.2.1) / 2, Real.sqrt ((x.2.2 ^ 2 + y.2.2 ^ 2) / 2))

/-- Every location once, in order of identifiers. -/
def Increasing (r : List Record) : Prop := r.Pairwise fun x y => x.1 < y.1

/-- A file with the observations of a day, which have `c` correlated components. -/
def FileOf (disk : Disk) (name : String) (uuid : Bytes) (obs : Observations UInt64) (day : Int) (c : Nat) : Prop :=
  ∃ n bytes, obs.Sized n ∧ TimeSized obs.time n ∧ obs.correlated.length = c ∧ writeDay uuid obs day = .ok bytes ∧ disk name = some bytes

/-- The day has a file of correlation ranges for each observable, all with `c` ranges. -/
def RangesOf (disk : Disk) (s : DaySource) (c : Nat) : Prop :=
  (∀ p ∈ s.observables, ∃ q ∈ s.ranges, q.1 = p.1) ∧
  ∀ q ∈ s.ranges, ∃ f values, q.2 = some f ∧ disk f = some (writeRanges values) ∧ values.length = c

/-- The file of locations for the day is that of a table. -/
def LocationsOf (disk : Disk) (s : DaySource) (uuid : Bytes) (table : List (UInt64 × UInt64)) : Prop :=
  uuid.length = 16 ∧
  ((∃ f, s.fixed = some f ∧ disk f = some (writeLookup uuid table)) ∨
    (s.fixed = none ∧ ∃ v f, s.mobile = some [(v, some f)] ∧ disk f = some (writeLookup uuid table)))

/-- There are no locations for the day: neither fixed ones nor a file of mobile ones. -/
def NoLocations (s : DaySource) : Prop := s.fixed = none ∧ (s.mobile = none ∨ ∃ v, s.mobile = some [(v, none)])

/-- The observations to be seen for a source on a day, with the table of their locations. -/
inductive Seen (value : UInt64 → ℝ) (disk : Disk) (s : DaySource) (day : Int) (c : Nat) : List (UInt64 × UInt64) → List Record → Prop where
  /-- Daily means are used as they are. -/
  | mean {uuid table f obs r} (hl : LocationsOf disk s uuid table) (hf : s.observables.lookup "Tmean" = some (some f))
      (ho : FileOf disk f uuid obs day c) (hr : DayRecords value obs day r) (ht : ∀ x ∈ r, x.1.toNat < table.length) : Seen value disk s day c table r
  /-- Otherwise the means of minimum and maximum. -/
  | minmax {uuid table f g tmin tmax a b} (hl : LocationsOf disk s uuid table) (hn : s.observables.lookup "Tmean" = none)
      (hf : s.observables.lookup "Tmin" = some (some f)) (hg : s.observables.lookup "Tmax" = some (some g))
      (hmin : FileOf disk f uuid tmin day c) (hmax : FileOf disk g uuid tmax day c)
      (ha : DayRecords value tmin day a) (hb : DayRecords value tmax day b) (ia : Increasing a) (ib : Increasing b)
      (ht : ∀ x ∈ common a b, x.1.toNat < table.length) : Seen value disk s day c table (common a b)
  /-- No file of observations: nothing. -/
  | nothing {uuid table} (hl : LocationsOf disk s uuid table)
      (hf : s.observables.lookup "Tmean" = some none ∨
        (s.observables.lookup "Tmean" = none ∧ s.observables.lookup "Tmin" = some none ∧ s.observables.lookup "Tmax" = some none)) :
      Seen value disk s day c table []
  /-- No file of locations: nothing. -/
  | nowhere {table} (hl : NoLocations s)
      (hf : (s.observables.lookup "Tmean").isSome ∨
        ((s.observables.lookup "Tmin").isSome ∧ (s.observables.lookup "Tmax").isSome)) :
      Seen value disk s day c table []

/-- Longitudes from -180 to 180. -/
noncomputable def meridian (x : ℝ) : ℝ := open Classical in if x < 180 then x else x - 360

/-- The analysis sees exactly the given observations, in order: their places, values and the precisions of their errors. -/
structure IsObs (value : UInt64 → ℝ) (table : List (UInt64 × UInt64)) (r : List Record) (o : Obs) : Prop where
  number : o.m = r.length
  place : ∀ (k : Nat) (h : k < o.m), ∃ x p, r[k]? = some x ∧ table[x.1.toNat]? = some p ∧ o.loc ⟨k, h⟩ = (value p.1, meridian (value p.2))
  measurement : ∀ (k : Nat) (h : k < o.m), ∃ x, r[k]? = some x ∧ o.y ⟨k, h⟩ = x.2.1
  precision : ∀ (k l : Nat) (h : k < o.m) (h' : l < o.m), ∃ x, r[k]? = some x ∧ o.R ⟨k, h⟩ ⟨l, h'⟩ = if k = l then 1 / x.2.2 ^ 2 else 0

/-- The observations as the analysis takes them. -/
noncomputable def obsOf (value : UInt64 → ℝ) (table : List (UInt64 × UInt64)) (day : Int) (r : List Record) : Obs where
  time := day
  m := r.length
  loc := fun k => (value (table.getD r[k].1.toNat (0, 0)).1, meridian (value (table.getD r[k].1.toNat (0, 0)).2))
  y := fun k => r[k].2.1
  R := Matrix.diagonal fun k => 1 / r[k].2.2 ^ 2

/-- The names of one day out of those of a month. -/
def dayNames (s : MonthSource) (i : Nat) : DaySource where
  ranges := s.ranges.map fun p => (p.1, p.2.getD i none)
  observables := s.observables.map fun p => (p.1, p.2.getD i none)
  fixed := s.fixed.bind fun l => l.getD i none
  mobile := s.mobile.map fun d => d.map fun p => (p.1, p.2.getD i none)

/-- The names of a month are given for each of its days. -/
def Covers (s : MonthSource) (n : Nat) : Prop :=
  (∀ p ∈ s.ranges, p.2.length = n) ∧ (∀ p ∈ s.observables, p.2.length = n) ∧ (∀ l, s.fixed = some l → l.length = n) ∧
    ∀ d, s.mobile = some d → ∀ p ∈ d, p.2.length = n

/-- A source for a month with the observations to be seen on each day. -/
structure Given where
  source : MonthSource
  table : Int → List (UInt64 × UInt64)
  records : Int → List Record

/-- The observations of a source on a day. -/
noncomputable def Given.loader (value : UInt64 → ℝ) (g : Given) : Loader := fun t => obsOf value (g.table t) t (g.records t)

/-- The files have the observations of all days. -/
def Given.OnDisk (value : UInt64 → ℝ) (disk : Disk) (days : List Int) (g : Given) : Prop :=
  Covers g.source days.length ∧ ∀ i t, days[i]? = some t →
    ∃ c, RangesOf disk (dayNames g.source i) c ∧ Seen value disk (dayNames g.source i) t c (g.table t) (g.records t)

end Verif.Eustace.MonthInput
