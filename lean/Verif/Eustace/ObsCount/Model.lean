import Verif.Eustace.RawBinary.Props
import Verif.Eustace.CppReader.Names

/-!
Model of programs which look at raw binary files by their names:
  /repo/src/eustace/analysis/obscount.py
  /repo/src/eustace/analysis/obscountsources.py
  /repo/src/eustace/analysis/inspectinput.py
  /repo/src/eustace/analysis/advanced_standard/examples/inputloader_rawbinary.py 130-207
  /repo/src/eustace/analysis/fileio/observationsource_rawbinary.py 380-438

Simplified: dates are given as dates, day numbers are whole; reading a file which does not exist is an error of the kind `other`
(IOError); printing is left out.
-/

namespace Verif.Eustace.ObsCount

open Verif Calendar Eumopps.Names RawBinary

/-- Files by name. -/
abbrev Files := List Char → Option Bytes

/-- Opening a file. -/
def openFile (files : Files) (name : List Char) : Except PyErr Bytes :=
  match files name with
  | some b => .ok b
  | none => .error .other

/-- `epoch_plus_days` (timeutils/epoch.py 22-24) of a whole number. -/
def epochPlusDays (daynumber : Int) : DateTime := ⟨CppReader.time daynumber, 0, 0, 0⟩

/-- `int(days_since_epoch(date))` (obscount.py 46-47, timeutils/epoch.py 17-19). -/
def daysSinceEpoch (d : Date) : Int := (d.number : Int) - (Date.number ⟨1850, 1, 1⟩ : Int)

/-- `SUBDIRFORMAT` (observationsource_rawbinary.py 383). -/
def subdirectory (source : List Char) : List Char := join2 source "%Y".toList

/-- `filename_patterns_observations` (observationsource_rawbinary.py 395-405). -/
def patternsObservations (base source observable : List Char) : List (List Char) :=
  [join2 base (subdirectory source), source ++ "_".toList ++ observable ++ "_%Y%m%d.bin".toList]

/-- `filename_local_correlation_ranges` (observationsource_rawbinary.py 407-413). -/
def filenameRanges (base source observable : List Char) : List Char :=
  join2 base (source ++ "_".toList ++ observable ++ "_localcorrelationranges.bin".toList)

/-- `filename_patterns_mobile_locations` (observationsource_rawbinary.py 415-425). -/
def patternsMobile (base source observable : List Char) : List (List Char) :=
  [join2 base (subdirectory source), source ++ "_".toList ++ observable ++ "_mobilelocations_%Y%m%d.bin".toList]

/-- `filename_observations` (observationsource_rawbinary.py 427-431). -/
def filenameObservations (base source observable : List Char) (daynumber : Int) : List Char :=
  match (patternsObservations base source observable).map fun p => buildFromPattern p (epochPlusDays daynumber) with
  | [] => []
  | p :: ps => ps.foldl join2 p

/-- `filename_mobile_locations` (observationsource_rawbinary.py 433-437). -/
def filenameMobile (base source observable : List Char) (daynumber : Int) : List Char :=
  match (patternsMobile base source observable).map fun p => buildFromPattern p (epochPlusDays daynumber) with
  | [] => []
  | p :: ps => ps.foldl join2 p

/-! ### obscount.py -/

/-- `ObsSummaryStatistics` (obscount.py 14-24). -/
structure Summary where
  numberOfDays : Nat
  totalObservations : Nat
  missingDays : Nat
  meanObservationsPerDay : Option ℚ

/-- `ObsSummaryStatistics.__init__` (obscount.py 16-24): `if x` leaves out zeros, which do not matter. -/
def summaryOf (counts : List (Option Nat)) : Summary :=
  let numberOfDays := counts.length
  let totalObservations := (counts.filterMap fun x => if x = some 0 then none else x).sum
  let missingDays := (counts.map fun x => if x = none then 1 else 0).sum
  let daysNotMissing : Nat := numberOfDays - missingDays
  { numberOfDays := numberOfDays, totalObservations := totalObservations, missingDays := missingDays,
    meanObservationsPerDay := if daysNotMissing ≠ 0 then some ((totalObservations : ℚ) / daysNotMissing) else none }

/-- `ObsCounter` (obscount.py 26-48). -/
structure Counter where
  path : List Char
  source : List Char
  observable : List Char
  startday : Int
  endday : Int

/-- `ObsCounter.__init__` (obscount.py 35-47). -/
def Counter.ofDates (path source observable : List Char) (startdate enddate : Date) : Counter :=
  ⟨path, source, observable, daysSinceEpoch startdate, daysSinceEpoch enddate⟩

/-- `count_single_day` (obscount.py 50-61). -/
def Counter.countSingleDay (c : Counter) (files : Files) (ranges : Nat) (daynumber : Int) : Except PyErr (Option Nat) :=
  match files (filenameObservations c.path c.source c.observable daynumber) with
  | none => .ok none
  | some b =>
    match readObservationCount ranges b with
    | .error e => .error e
    | .ok n => .ok (some n)

/-- `read_num_local_correlation_ranges` (obscount.py 63-70). -/
def Counter.readNumRanges (c : Counter) (files : Files) : Except PyErr Nat :=
  match openFile files (filenameRanges c.path c.source c.observable) with
  | .error e => .error e
  | .ok b =>
    match readRanges b with
    | .error e => .error e
    | .ok l => .ok l.length

/-- `range(self.startday, self.endday+1)` (obscount.py 79). -/
def Counter.days (c : Counter) : List Int := (List.range (c.endday + 1 - c.startday).toNat).map fun k : Nat => c.startday + (k : Int)

/-- The list of counts of given days. -/
def Counter.countDays (c : Counter) (files : Files) (ranges : Nat) : List Int → Except PyErr (List (Option Nat))
  | [] => .ok []
  | d :: l =>
    match c.countSingleDay files ranges d with
    | .error e => .error e
    | .ok n =>
      match c.countDays files ranges l with
      | .error e => .error e
      | .ok r => .ok (n :: r)

/-- `count_all_days` (obscount.py 72-79). -/
def Counter.countAllDays (c : Counter) (files : Files) : Except PyErr (List (Option Nat)) :=
  match c.readNumRanges files with
  | .error e => .error e
  | .ok ranges => c.countDays files ranges c.days

/-- `summary_statistics` (obscount.py 81-88). -/
def Counter.summaryStatistics (c : Counter) (files : Files) : Except PyErr Summary :=
  match c.countAllDays files with
  | .error e => .error e
  | .ok counts => .ok (summaryOf counts)

/-! ### obscountsources.py -/

/-- An item of the list of sources. -/
structure SourceDetails where
  source : List Char
  observables : List (List Char)
  startdate : Date
  enddate : Date

/-- `d[k] = v`. -/
def assign {α : Type} (k : List Char) (v : α) : List (List Char × α) → List (List Char × α)
  | [] => [(k, v)]
  | (k', v') :: d => if k' = k then (k, v) :: d else (k', v') :: assign k v d

/-- The results of one source (obscountsources.py 26-50): errors are kept. -/
def sourceResults (datapath : List Char) (files : Files) (s : SourceDetails) : List (List Char × Except PyErr Summary) :=
  s.observables.foldl (fun r o =>
    assign o ((Counter.ofDates datapath s.source o s.startdate s.enddate).summaryStatistics files) r) []

/-- The results which `main` prints (obscountsources.py 19-53). -/
def resultsList (datapath : List Char) (files : Files) (sources : List SourceDetails) :
    List (List Char × List (List Char × Except PyErr Summary)) :=
  sources.foldl (fun r s => assign s.source (sourceResults datapath files s) r) []

/-! ### inspectinput.py -/

/-- `FIXEDLOCATIONLOOKUP` (inspectinput.py 14-22). -/
def inspectLookup : List (List Char × List Char) :=
  [("surfaceairmodel_land".toList, "locationlookup_satellite.bin".toList),
   ("surfaceairmodel_lake".toList, "locationlookup_satellite.bin".toList),
   ("surfaceairmodel_ice".toList, "locationlookup_satellite.bin".toList),
   ("insitu_land".toList, "locationlookup_insitu_land.bin".toList)]

/-- The value of a key. -/
def valueOf {α : Type} (k : List Char) (d : List (List Char × α)) : Option α := (d.find? fun p => p.1 == k).map Prod.snd

/-- The name of the table of locations (inspectinput.py 52-58). -/
def inspectLookupName (path source observable : List Char) (daynumber : Int) : List Char :=
  match valueOf source inspectLookup with
  | some name => join2 path name
  | none => filenameMobile path source observable daynumber

/-- One item of the result (inspectinput.py 88). -/
structure Item where
  m : UInt64
  u : UInt64
  c : List UInt64
  lat : UInt64
  lon : UInt64

/-- The item of one observation (inspectinput.py 76-88).  Simplified: the arrays have the same length. -/
def itemAt (table : List (UInt64 × UInt64)) (obs : Observations UInt64) (i : Nat) : Except PyErr Item :=
  match table[(obs.location.getD i 0).toNat]? with
  | none => .error .indexError
  | some coords => .ok ⟨obs.measurement.getD i 0, obs.uncorrelated.getD i 0, obs.correlated.map fun c => c.getD i 0, coords.1, coords.2⟩

/-- The items of given observations. -/
def itemsAt (table : List (UInt64 × UInt64)) (obs : Observations UInt64) : List Nat → Except PyErr (List Item)
  | [] => .ok []
  | i :: l =>
    match itemAt table obs i with
    | .error e => .error e
    | .ok x =>
      match itemsAt table obs l with
      | .error e => .error e
      | .ok r => .ok (x :: r)

/-- `Observations.number_of_observations` (observationsource.py 19-22). -/
def numberOfObservations (obs : Observations UInt64) : Nat := obs.measurement.length

/-- `main` (inspectinput.py 24-91): the results which are printed. -/
def inspect (files : Files) (path source observable : List Char) (daynumber : Int) : Except PyErr (List Item) :=
  match openFile files (filenameRanges path source observable) with
  | .error e => .error e
  | .ok rangesFile =>
    match readRanges rangesFile with
    | .error e => .error e
    | .ok ranges =>
      match openFile files (inspectLookupName path source observable daynumber) with
      | .error e => .error e
      | .ok lookupFile =>
        match readLookup lookupFile with
        | .error e => .error e
        | .ok (uuid, table) =>
          match openFile files (filenameObservations path source observable daynumber) with
          | .error e => .error e
          | .ok b =>
            match sourceObservations ranges.length (some b) (some uuid) daynumber with
            | .error e => .error e
            | .ok obs => itemsAt table obs (List.range (numberOfObservations obs))

/-! ### The input loader for sources -/

/-- `FIXEDLOCATIONLOOKUP` (inputloader_rawbinary.py 136-141). -/
def loaderLookup : List (List Char × List Char) :=
  [("surfaceairmodel_land".toList, "locationlookup_satellite.bin".toList),
   ("surfaceairmodel_ocean".toList, "locationlookup_satellite.bin".toList),
   ("surfaceairmodel_ice".toList, "locationlookup_satellite.bin".toList),
   ("insitu_land".toList, "locationlookup_insitu_land.bin".toList)]

/-- `OBSERVABLES` (inputloader_rawbinary.py 142-148). -/
def loaderObservables : List (List Char × List (List Char)) :=
  [("surfaceairmodel_ice".toList, ["Tmean".toList]),
   ("surfaceairmodel_land".toList, ["Tmin".toList, "Tmax".toList]),
   ("surfaceairmodel_ocean".toList, ["Tmean".toList]),
   ("insitu_land".toList, ["Tmin".toList, "Tmax".toList]),
   ("insitu_ocean".toList, ["Tmean".toList])]

/-- What the loader is made of. -/
structure Loader where
  ranges : List (List Char × List UInt64)
  files : List (Int × List (List Char × List Char))
  fixedLookup : Option (Bytes × List (UInt64 × UInt64))
  mobileLookups : Option (List (Int × List Char))

/-- The ranges of all observables (inputloader_rawbinary.py 162). -/
def loaderRanges (files : Files) (base source : List Char) : List (List Char) → Except PyErr (List (List Char × List UInt64))
  | [] => .ok []
  | o :: l =>
    match openFile files (filenameRanges base source o) with
    | .error e => .error e
    | .ok b =>
      match readRanges b with
      | .error e => .error e
      | .ok r =>
        match loaderRanges files base source l with
        | .error e => .error e
        | .ok rest => .ok ((o, r) :: rest)

/-- `AnalysisSystemInputLoaderRawBinary_Sources.__init__` (inputloader_rawbinary.py 150-199).  Simplified: time indices are
distinct, dictionaries are in the order of their construction. -/
def loader (files : Files) (base source : List Char) (timeIndices : List Int) : Except PyErr Loader :=
  match valueOf source loaderObservables with
  | none => .error .keyError
  | some observables =>
    match loaderRanges files base source observables with
    | .error e => .error e
    | .ok ranges =>
      let names := timeIndices.map fun t => (t, observables.map fun o => (o, filenameObservations base source o t))
      match valueOf source loaderLookup with
      | some name =>
        match openFile files (join2 base name) with
        | .error e => .error e
        | .ok b =>
          match readLookup b with
          | .error e => .error e
          | .ok lookup => .ok ⟨ranges, names, some lookup, none⟩
      | none => .ok ⟨ranges, names, none, some (timeIndices.map fun t => (t, filenameMobile base source (observables.headD []) t))⟩

end Verif.Eustace.ObsCount
