import Verif.Calendar
import Verif.Eustace.BreakPoints.Element
import Verif.Eustace.Elements.PriorProps
import Verif.Eustace.ObsSource.Connector

/-!
Model of the definitions of the analysis:
`/repo/src/eustace/analysis/advanced_standard/examples/model_structure.py` and the older ones of
`/repo/src/eustace/analysis/advanced_standard/examples/example_eustace.py`, with the loader of covariates
`/repo/src/eustace/analysis/advanced_standard/elements/covariate.py`.

Simplified: float64 is replaced by the reals; the classes `ModelSetup` are replaced by the values they set.
-/

namespace Verif.Eustace.Definitions

open Verif Verif.Calendar Verif.Eustace.Mesh Verif.Eustace.Locator Verif.Eustace.Lattice Verif.Eustace.Elements Verif.Eustace.BreakPoints

noncomputable section

/-! ### Lattices -/

/-- `LatticeSPDE.construct` for one dimension (spacetimespde.py 46-50, latitudespline.py 32-35). -/
def line (start stop : ℝ) (count : Nat) (wrapped : Bool) : Lattice 1 :=
  ⟨fun _ => start, fun _ => stop, fun _ => count, fun _ => wrapped⟩

/-- `SpaceTimeSPDEElement.__init__` (spacetimespde.py 40-51). -/
def spaceTime (srt : Argsort) (level alpha : Nat) (start stop : ℝ) (count : Nat) (overlap H : ℝ) (wrapped : Bool) : SpaceTime :=
  ⟨sphereMesh srt level, alpha, line start stop count wrapped, spanOf (line start stop count wrapped) overlap, fun _ => H⟩

/-- `PADDING_NODES` (latitudespline.py 14). -/
def paddingNodes : Nat := 180

/-- The lattice of `LatitudeSplineElement` (latitudespline.py 27-35). -/
def latitudeLine (count : Nat) : Lattice 1 :=
  let separation : ℝ := 180.0 / (count - 1)
  let distance : ℝ := paddingNodes * separation
  line (-90.0 - distance) (90.0 + distance) (count + paddingNodes * 2) false

/-- `LatitudeSplineElement.__init__` (latitudespline.py 18-36). -/
def latitudeSplineElement (alpha count : Nat) (overlap H : ℝ) : Element :=
  .latitudeSpline (latitudeLine count) (spanOf (latitudeLine count) overlap) alpha fun _ => H

/-- `numpy.radians`. -/
def radians (degrees : ℝ) : ℝ := degrees * (Real.pi / 180)

/-! ### Covariates from a descriptor -/

/-- An entry of the descriptor (covariate.py 85-88, 111-115, 126): the name of the class without its module, the keyword parameters if there are
any, and the hyperparameters in the order of the dictionary. -/
structure Covariate where
  className : String
  parameters : Option (List (String × String))
  hyperparameters : List (String × ℝ)

/-- `AVAILABLE_COVARIATES` (covariate.py 83). -/
def availableCovariates : List String := ["latitude_harmonics", "altitude", "coastal_influence"]

/-- The arguments of `GeographyBasedElement.__init__` (geography_based.py 97). -/
def geographyArguments : List String := ["filename", "latitude_label", "longitude_label", "covariate_label", "rescale_factor"]

/-- `load_covariate` (covariate.py 108-120).  `value` is the covariate function which the file gives.  Simplified: classes other than
the two with covariates are refused. -/
def loadCovariate (value : List (String × String) → ℝ × ℝ → Except PyErr ℝ) (c : Covariate) : Except PyErr Element :=
  if c.className = "LatitudeHarmonicsElement" then
    match c.parameters with
    | none => .ok .latitudeHarmonics
    | some [] => .ok .latitudeHarmonics
    | some (_ :: _) => .error .typeError
  else if c.className = "GeographyBasedElement" then
    match c.parameters with
    | none => .error .typeError
    | some l =>
      if geographyArguments.all (fun a => (l.map Prod.fst).contains a) && l.all fun p => geographyArguments.contains p.1 then
        .ok (.geography (value l))
      else .error .typeError
  else .error .attributeError

open Classical in
/-- `CovariateHyperparameters(np.log(value))` (covariate.py 126-127); `none` if the logarithm is not a finite number. -/
def loadValue (v : ℝ) : Option Hyper := if 0 < v then some (.covariate (Real.log v)) else none

/-- All or nothing. -/
def allSome {α : Type} : List (Option α) → Option (List α)
  | [] => some []
  | none :: _ => none
  | some a :: rest => (allSome rest).map (a :: ·)

/-- `load_hyperparameters` (covariate.py 122-132); `none` if some value is not a finite number. -/
def loadHyperparameters (c : Covariate) : Except PyErr (Option Hyper) :=
  match c.hyperparameters.map fun p => loadValue p.2 with
  | [] => .error .indexError
  | [h] => .ok h
  | l => .ok ((allSome l).map Hyper.combination)

/-- The loop of `load_covariates_and_hyperparameters` (covariate.py 97-106), in the order of the dictionary. -/
def loadAll (value : List (String × String) → ℝ × ℝ → Except PyErr ℝ) :
    List (String × Covariate) → Except PyErr (List Element × List (Option Hyper))
  | [] => .ok ([], [])
  | (_, c) :: rest =>
    match loadCovariate value c with
    | .error e => .error e
    | .ok element =>
      match loadHyperparameters c with
      | .error e => .error e
      | .ok h =>
        match loadAll value rest with
        | .error e => .error e
        | .ok (elements, hs) => .ok (element :: elements, h :: hs)

/-- `check_keys` and `load_covariates_and_hyperparameters` (covariate.py 90-106), as definitions call them (model_structure.py
257-265). -/
def loadDescriptor (value : List (String × String) → ℝ × ℝ → Except PyErr ℝ) (data : List (String × Covariate)) :
    Except PyErr (List Element × List (Option Hyper)) :=
  if data.all fun p => availableCovariates.contains p.1 then loadAll value data else .error .valueError

/-! ### Definitions of model_structure.py -/

/-- An element and its hyperparameters, as `ComponentStorage_InMemory` keeps them. -/
structure Definition where
  element : Element
  hyper : Hyper

/-- `ClimatologyDefinition` (model_structure.py 67-131, 253-312), for covariates which have been loaded. -/
def climatology (srt : Argsort) (covariates : List Element) (covariateHypers : List Hyper) : Definition where
  element := .combination ([.annualKronecker (spaceTime srt 6 2 0.0 1.0 12 2.5 1.0 true), .grandMean,
    latitudeSplineElement 2 361 2.5 1.0] ++ covariates)
  hyper := .combination ([.spaceTime (Real.log 5) (Real.log (radians 25)) (Real.log (2 / 12.0)),
    .covariate (Real.log (2.0 * 273.15)), .stationary (Real.log 12) (Real.log 30)] ++ covariateHypers)

/-- Days from 1850-01-01 to the first day of a year: `days_since_epoch` (epoch.py). -/
def newYearDay (year : Nat) : ℝ := ((daysBeforeYear year : Int) - (daysBeforeYear 1850 : Int) : Int)

/-- `len(list(rrule(MONTHLY, dtstart=start, until=stop)))` for first days of years (model_structure.py 157). -/
def monthCount (start stop : Nat) : Nat :=
  ((List.range (12 * 10000)).filter fun k => decide (12 * start + k ≤ 12 * stop)).length

/-- `n_nodes` of `MonthlySetup` (model_structure.py 157): integer division of Python 2. -/
def monthlyNodes (start stop monthsPerNode : Nat) : Nat := (monthCount start stop - 1) / monthsPerNode + 1

/-- `floor_to_quantisation` (model_structure.py 174-175). -/
def floorTo (value spacing : ℝ) : ℝ := ⌊value / spacing⌋ * spacing

/-- `ceil_to_quantisation` (model_structure.py 177-178). -/
def ceilTo (value spacing : ℝ) : ℝ := ⌈value / spacing⌉ * spacing

/-- `int( round( (endtime - starttime) / node_spacing + 1 ) )` (model_structure.py 196), for numbers which are not negative. -/
def slowNodes (start stop spacing : ℝ) : Nat := ⌊(stop - start) / spacing + 1 + 1 / 2⌋.toNat

/-- The first element of the large scale definition (model_structure.py 141-163, 328-334). -/
def midscaleElement (srt : Argsort) : Element :=
  .kronecker (spaceTime srt 4 2 (newYearDay (1880 - 2)) (newYearDay (2016 + 2)) (monthlyNodes (1880 - 2) (2016 + 2) 3) 2.5 1 false)

/-- The second one (model_structure.py 165-202, 335-341). -/
def slowElement (srt : Argsort) : Element :=
  .annualKronecker (spaceTime srt 4 2 (floorTo 1860 4) (ceilTo 2035 4) (slowNodes (floorTo 1860 4) (ceilTo 2035 4) 4) 2.5 1 false)

/-- `LargeScaleDefinition` (model_structure.py 314-349), with the breaks of `InsituLandBiasElement` if there are bias terms. -/
def largeScale (srt : Argsort) (breaks : Option Breaks) : Definition where
  element := .combination ([midscaleElement srt, slowElement srt] ++
    match breaks with
    | none => []
    | some b => [.bias "insitu_land" (numberOfBiases b)])
  hyper := .combination ([.spaceTime (Real.log 1.0) (Real.log (radians 15)) (Real.log 135),
    .spaceTime (Real.log 0.5) (Real.log (radians 30)) (Real.log 10)] ++
    match breaks with
    | none => []
    | some _ => [.covariate (Real.log 0.9)])

/-- The bias terms of one group (model_structure.py 236-244, 364-383). -/
def localBias (srt : Argsort) (group : String) : List (Element × Hyper) :=
  if group = "surfaceairmodel_land_global" then
    [(.bias group 1, .covariate (Real.log 2.0)),
      (.spatialBias group (sphereMesh srt 6), .stationary (Real.log 1.0) (Real.log (radians 25)))]
  else if group = "surfaceairmodel_ocean_global" then [(.bias group 1, .covariate (Real.log 2.0))]
  else if group = "surfaceairmodel_ice_global" then
    [(.bias group 2, .covariate (Real.log 2.0)),
      (.spatialBias group (sphereMesh srt 6), .stationary (Real.log 1.0) (Real.log (radians 25)))]
  else []

/-- `LocalDefinition` (model_structure.py 222-226, 351-388).  Without bias terms the list of groups is not used. -/
def localDefinition (srt : Argsort) (biasTerms : Bool) (groups : List String) : Definition where
  element := .combination (.stationary (sphereMesh srt 7) ::
    (if biasTerms then groups.flatMap (localBias srt) else []).map Prod.fst)
  hyper := .combination (.stationary (Real.log 2.0) (Real.log (radians 5)) ::
    (if biasTerms then groups.flatMap (localBias srt) else []).map Prod.snd)

/-- The bias terms of one group of the non-stationary definition (model_structure.py 236-238, 400-405). -/
def nonstationaryBias (group : String) : List (Element × Hyper) :=
  if group = "surfaceairmodel_land_global" ∨ group = "surfaceairmodel_ocean_global" then
    [(.bias group 1, .covariate (Real.log 2.0))]
  else if group = "surfaceairmodel_ice_global" then [(.bias group 2, .covariate (Real.log 2.0))]
  else []

/-- `NonStationaryLocalDefinition` (model_structure.py 390-414), for the array in the file of hyperparameters. -/
def nonstationaryDefinition (srt : Argsort) (biasTerms : Bool) (groups : List String) (values : List ℝ) : Except PyErr Definition :=
  match setArray (.expanded [] []) values with
  | .error e => .error e
  | .ok h => .ok
    { element := .combination (.nonstationary (sphereMesh srt 7) ::
        (if biasTerms then groups.flatMap nonstationaryBias else []).map Prod.fst)
      hyper := .combination (h :: (if biasTerms then groups.flatMap nonstationaryBias else []).map Prod.snd) }

/-! ### Definitions of example_eustace.py -/

/-- `ClimatologyDefinition` (example_eustace.py 49-58, 103-125): `SeasonalHyperparameters` repeats both values for each component
(seasonal.py 31-34). -/
def exampleClimatology (srt : Argsort) (covariates : List Element) (covariateHypers : List Hyper) : Definition where
  element := .combination ([.seasonal (sphereMesh srt 6) 4 true, .grandMean] ++ covariates)
  hyper := .combination ([.seasonal (List.replicate 5 [Real.log 2, Real.log (radians 5)]).flatten,
    .covariate (Real.log 15)] ++ covariateHypers)

/-- `LocalDefinition` (example_eustace.py 87-94, 152-168). -/
def exampleLocal (srt : Argsort) (biasTerms : Bool) (groups : List String) : Definition where
  element := .combination (.stationary (sphereMesh srt 4) :: if biasTerms then groups.map fun g => .bias g 1 else [])
  hyper := .combination (.stationary (Real.log 2) (Real.log (radians 2)) ::
    if biasTerms then (List.range groups.length).map fun _ => .covariate (Real.log 15) else [])

end

end Verif.Eustace.Definitions
