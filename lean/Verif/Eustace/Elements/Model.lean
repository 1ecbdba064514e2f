import Verif.Eustace.Elements.Hyper
import Verif.Eustace.SphereSpde.Model
import Verif.Eustace.Lattice.Model

/-!
Model of the analysis elements, their designs and priors:
`/repo/src/eustace/analysis/advanced_standard/elements/`.

Simplified: an observation structure gives the locations, time and bias indices of its observations and the rows of the
spherical design matrix (modelled and proved in `Locator`); states are arrays of one dimension; hyperparameters of a wrong
class are refused when the prior is made (Python fails when the missing attribute is read).
-/

namespace Verif.Eustace.Elements

open Verif Verif.Eustace.Mesh Verif.Eustace.Locator Verif.Eustace.Lattice

noncomputable section

/-- `ObservationStructure` (element.py 174-224), as far as elements use it.  `sphereRow` is a row of `build_A` of the spherical
mesh for a location. -/
structure Obs where
  locations : List (ℝ × ℝ)
  timeIndex : ℝ
  decimalYear : ℝ
  effect : String → Option (List (Nat × Nat))
  sphereRow : Mesh V3 → ℝ × ℝ → Nat → ℝ

/-- `ElementDesign` (element.py 61-152).  `function` takes the state and the optional argument `rectified`, which is absent in
a call with the state alone. -/
structure Design where
  nonlinear : Bool
  size : Nat
  initial : Except PyErr (Option (List ℝ))
  function : Option (List ℝ) → Option Bool → Except PyErr (List ℝ)
  jacobian : Option (List ℝ) → Except PyErr Arr
  matrix : Except PyErr Arr

/-- `A.dot(state)`; a state which is `None` fails. -/
def applyTo (A : Arr) : Option (List ℝ) → Except PyErr (List ℝ)
  | none => .error .typeError
  | some x => A.dot x

/-- `ElementLinearDesign` (element.py 108-142) for a given design matrix. -/
def linearDesign (size : Nat) (matrix : Except PyErr Arr) : Design where
  nonlinear := false
  size := size
  initial := .ok none
  function state rectified :=
    match matrix with
    | .error e => .error e
    | .ok A => if rectified = some true then applyTo A.abs state else applyTo A state
  jacobian _ := matrix
  matrix := matrix

/-! ### Designs of single elements -/

/-- `dok_matrix((n, k))` with `A[effect[:,0], effect[:,1]] = 1.0` (bias.py 83-90). -/
def effectMatrix (n k : Nat) (effect : Option (List (Nat × Nat))) : Except PyErr Arr :=
  match effect with
  | none => .ok (Arr.zero n k)
  | some pairs =>
    if pairs.all fun p => p.1 < n ∧ p.2 < k then .ok ⟨n, k, fun i j => if (i, j) ∈ pairs then 1.0 else 0⟩
    else .error .indexError

/-- `BiasDesign` (bias.py 47-90). -/
def biasDesign (group : String) (k : Nat) (obs : Obs) : Design :=
  linearDesign k (effectMatrix obs.locations.length k (obs.effect group))

/-- `GrandMeanDesign` (grandmean.py 27-43). -/
def grandMeanDesign (obs : Obs) : Design := linearDesign 1 (.ok ⟨obs.locations.length, 1, fun _ _ => 1⟩)

/-- `GeographyBasedElementDesign` (geography_based.py 126-144). -/
def geographyDesign (value : ℝ × ℝ → Except PyErr ℝ) (obs : Obs) : Design :=
  linearDesign 1 (match collect (obs.locations.map value) with
    | .error e => .error e
    | .ok v => .ok (Arr.column v))

/-- `LatitudeFunction.compute` for one latitude in degrees (latitudeharmonics.py 22-26). -/
def latitudeFunction (method : ℝ → ℝ) (order latitude : ℝ) : ℝ := method (latitude * (Real.pi / 180.0) * order)

/-- `HARMONICS` (latitudeharmonics.py 32-37). -/
def latitudeHarmonics : List (ℝ → ℝ) :=
  [latitudeFunction Real.cos 2.0, latitudeFunction Real.sin 2.0, latitudeFunction Real.cos 4.0, latitudeFunction Real.sin 4.0]

/-- `LatitudeHarmonicsElementDesign` (latitudeharmonics.py 55-71). -/
def latitudeHarmonicsDesign (obs : Obs) : Design :=
  linearDesign latitudeHarmonics.length
    (Arr.hstack (latitudeHarmonics.map fun f => Arr.column (obs.locations.map fun l => f l.1)))

/-- `build_A` of a lattice of one dimension. -/
def lineMatrix (L : Lattice 1) (span : Multi 1 ℝ) (locations : List ℝ) : Arr :=
  ⟨locations.length, L.size, fun i c => buildARow L .wendlandC4 span (fun _ => locations.getD i 0) c⟩

/-- `LatitudeSplineElementDesign` (latitudespline.py 50-79). -/
def latitudeSplineDesign (L : Lattice 1) (span : Multi 1 ℝ) (obs : Obs) : Design :=
  linearDesign L.size (.ok (lineMatrix L span (obs.locations.map Prod.fst)))

/-- `spde.build_A(location_polar_coordinates())`. -/
def sphereMatrix (m : Mesh V3) (obs : Obs) : Arr :=
  ⟨obs.locations.length, m.points.length, fun i c => obs.sphereRow m (obs.locations.getD i (0, 0)) c⟩

/-- `LocalDesign` (local.py 67-94). -/
def localDesign (m : Mesh V3) (obs : Obs) : Design := linearDesign m.points.length (.ok (sphereMatrix m obs))

/-- `SpatialBiasDesign` (spatial_bias.py 48-89). -/
def spatialBiasDesign (group : String) (m : Mesh V3) (obs : Obs) : Design :=
  linearDesign m.points.length
    (match obs.effect group with
    | some _ => .ok (sphereMatrix m obs)
    | none => .ok (Arr.zero obs.locations.length m.points.length))

/-- `sine_seasonal_harmonic` (seasonal.py 238-240). -/
def sineHarmonic (decimalYear : ℝ) (order : Nat) : ℝ := Real.sin (order * 2.0 * Real.pi * decimalYear)

/-- `cosine_seasonal_harmonic` (seasonal.py 234-236). -/
def cosineHarmonic (decimalYear : ℝ) (order : Nat) : ℝ := Real.cos (order * 2.0 * Real.pi * decimalYear)

/-- `A_list` (seasonal.py 115-122). -/
def seasonalList (nHarmonics : Nat) (mean : Bool) (decimalYear : ℝ) : List ℝ :=
  (if mean then [1.0] else []) ++
    (List.range' 1 nHarmonics).flatMap fun order => [sineHarmonic decimalYear order, cosineHarmonic decimalYear order]

/-- `numpy.array([ v ])`: a matrix of one row. -/
def rowArr (v : List ℝ) : Arr := ⟨1, v.length, fun _ j => v.getD j 0⟩

/-- Number of seasonal components (seasonal.py 89, 168). -/
def seasonalCount (nHarmonics : Nat) (mean : Bool) : Nat := 2 * nHarmonics + mean.toNat

/-- `SeasonalElementDesign` (seasonal.py 76-147). -/
def seasonalDesign (m : Mesh V3) (nHarmonics : Nat) (mean : Bool) (obs : Obs) : Design :=
  linearDesign (seasonalCount nHarmonics mean * m.points.length)
    (.ok (Arr.kron (rowArr (seasonalList nHarmonics mean obs.decimalYear)) (sphereMatrix m obs)))

/-- `SpaceTimeSPDEElement` (spacetimespde.py 37-51): spatial and temporal model, `alpha`, span of the temporal basis functions
and `H`. -/
structure SpaceTime where
  mesh : Mesh V3
  alpha : Nat
  line : Lattice 1
  span : Multi 1 ℝ
  H : Multi 1 ℝ

/-- `SpaceTimeKroneckerDesign` and `AnnualKroneckerDesign` at a given time (kronecker.py 24-48, kronecker_annual.py 28-76).
The initial state of zeros is there although the design is linear. -/
def kroneckerDesign (s : SpaceTime) (time : ℝ) (obs : Obs) : Design :=
  let size := s.mesh.points.length * s.line.size
  { linearDesign size (.ok (Arr.kron (lineMatrix s.line s.span [time]) (sphereMatrix s.mesh obs))) with
    initial := .ok (some (List.replicate size 0)) }

/-- `a * b` of numpy for vectors: one value is used for all. -/
def timesVector (a b : List ℝ) : Except PyErr (List ℝ) :=
  if b.length = 1 then .ok (a.map fun v => v * b.getD 0 0)
  else if a.length = 1 then .ok (b.map fun v => a.getD 0 0 * v)
  else if a.length = b.length then .ok (a.zipWith (· * ·) b)
  else .error .valueError

/-- `v_space` and `v_time` (factor.py 45-46, 63-64). -/
def factorVectors (spaceA timeA : Arr) (x : List ℝ) : Except PyErr (List ℝ × List ℝ) :=
  match spaceA.dot (x.take spaceA.cols) with
  | .error e => .error e
  | .ok vSpace =>
    match timeA.dot (x.drop spaceA.cols) with
    | .error e => .error e
    | .ok vTime => .ok (vSpace, vTime)

/-- `design_function` of `SpaceTimeFactorDesign` (factor.py 61-65); it has no argument `rectified`. -/
def factorFunction (spaceA timeA : Arr) : Option (List ℝ) → Option Bool → Except PyErr (List ℝ)
  | _, some _ => .error .typeError
  | none, none => .error .typeError
  | some x, none =>
    match factorVectors spaceA timeA x with
    | .error e => .error e
    | .ok (vSpace, vTime) => timesVector vSpace vTime

/-- `design_jacobian` of `SpaceTimeFactorDesign` (factor.py 42-59). -/
def factorJacobian (spaceA timeA : Arr) : Option (List ℝ) → Except PyErr Arr
  | none => .error .typeError
  | some x =>
    match factorVectors spaceA timeA x with
    | .error e => .error e
    | .ok (vSpace, vTime) =>
      match item vTime 0 with
      | .error e => .error e
      | .ok v0 => Arr.hstack [Arr.scale v0 spaceA, Arr.kron timeA (Arr.column vSpace)]

/-- `SpaceTimeFactorDesign` (factor.py 31-65). -/
def factorDesign (s : SpaceTime) (obs : Obs) : Design where
  nonlinear := true
  size := s.mesh.points.length + s.line.size
  initial := .ok (some (List.replicate s.mesh.points.length 0 ++ List.replicate s.line.size 1))
  function := factorFunction (sphereMatrix s.mesh obs) (lineMatrix s.line s.span [obs.timeIndex])
  jacobian := factorJacobian (sphereMatrix s.mesh obs) (lineMatrix s.line s.span [obs.timeIndex])
  matrix := .error .attributeError

/-! ### Combination of designs -/

/-- `element_states` (combination.py 127-148), from `state_startindex` on. -/
def statesFrom (x : List ℝ) : Nat → List Nat → List (List ℝ)
  | _, [] => []
  | start, count :: rest => (x.drop start).take count :: statesFrom x (start + count) rest

/-- `element_states` (combination.py 127-148). -/
def elementStates (designs : List Design) : Option (List ℝ) → List (Option (List ℝ))
  | none => designs.map fun _ => none
  | some x => (statesFrom x 0 (designs.map Design.size)).map some

/-- `result += vector` for all vectors (combination.py 158-161).  Vectors of other lengths are refused (numpy accepts a vector
with one value). -/
def addAll : List ℝ → List (List ℝ) → Except PyErr (List ℝ)
  | result, [] => .ok result
  | result, v :: rest =>
    if v.length = result.length then addAll (result.zipWith (· + ·) v) rest else .error .valueError

/-- `design_function` (combination.py 150-162): the argument `rectified` is passed on in every call. -/
def combinedFunction (designs : List Design) (state : Option (List ℝ)) (rectified : Option Bool) : Except PyErr (List ℝ) :=
  match collect ((designs.zip (elementStates designs state)).map fun p => p.1.function p.2 (some (rectified.getD false))) with
  | .error e => .error e
  | .ok [] => .error .indexError
  | .ok (v :: vs) => addAll (List.replicate v.length 0) (v :: vs)

/-- `design_jacobian` (combination.py 164-173). -/
def combinedJacobian (designs : List Design) (state : Option (List ℝ)) : Except PyErr Arr :=
  match collect ((designs.zip (elementStates designs state)).map fun p => p.1.jacobian p.2) with
  | .error e => .error e
  | .ok l => Arr.hstack l

/-- `design_matrix` (combination.py 175-184). -/
def combinedMatrix (designs : List Design) : Except PyErr Arr :=
  match collect (designs.map Design.matrix) with
  | .error e => .error e
  | .ok l => Arr.hstack l

/-- `initialstate[start:next] = values`: the lengths have to agree. -/
def assignSlice (x : List ℝ) (start count : Nat) (values : List ℝ) : Except PyErr (List ℝ) :=
  if values.length ≠ count then .error .valueError
  else .ok (x.take start ++ values ++ x.drop (start + count))

/-- The loop which fills the initial state (combination.py 116-123). -/
def fillInitial : List Design → Nat → List ℝ → Except PyErr (List ℝ)
  | [], _, x => .ok x
  | d :: rest, start, x =>
    if d.nonlinear then
      match d.initial with
      | .error e => .error e
      | .ok none => .error .typeError
      | .ok (some v) =>
        match assignSlice x start d.size v with
        | .error e => .error e
        | .ok x' => fillInitial rest (start + d.size) x'
    else fillInitial rest (start + d.size) x

/-- `design_initial_state` (combination.py 105-125). -/
def combinedInitial (designs : List Design) : Except PyErr (Option (List ℝ)) :=
  if designs.any Design.nonlinear then
    match fillInitial designs 0 (List.replicate (designs.map Design.size).sum 0) with
    | .error e => .error e
    | .ok x => .ok (some x)
  else .ok none

/-- `CombinationDesign` (combination.py 84-184). -/
def combinedDesign (designs : List Design) : Design where
  nonlinear := designs.any Design.nonlinear
  size := (designs.map Design.size).sum
  initial := combinedInitial designs
  function := combinedFunction designs
  jacobian := combinedJacobian designs
  matrix := combinedMatrix designs

/-! ### Priors -/

/-- `ElementPrior` (element.py 155-172) for given hyperparameters. -/
structure Prior where
  size : Nat
  precision : Except PyErr Arr
  derivative : Nat → Except PyErr Arr

/-- The result of a method of an SPDE class. -/
def arrOf {m n : Nat} : Except PyErr (Matrix (Fin m) (Fin n) ℝ) → Except PyErr Arr
  | .error e => .error e
  | .ok M => .ok (Arr.ofMatrix M)

/-- `CovariatePrior` (covariate.py 33-78). -/
def covariatePrior (value : ℝ) (n : Nat) : Prior where
  size := n
  precision := .ok (Arr.scalar n (Real.exp (-2.0 * value)))
  derivative k := if k = 0 then .ok (Arr.scalar n (-2.0 * Real.exp (-2.0 * value))) else .error .valueError

/-- `build_dQdp_stationary` of the spherical mesh: an index which is not zero or one is refused. -/
def sphereDerivative (m : Mesh V3) (logSigma logRho : ℝ) (alpha k : Nat) : Except PyErr Arr :=
  if h : k < 2 then arrOf (SphereSpde.buildDQdpStationary m logSigma logRho alpha ⟨k, h⟩) else .error .indexError

/-- `build_dQdp_stationary` of the lattice: an index which is not zero or one is refused. -/
def lineDerivative (L : Lattice 1) (logSigma logRho : ℝ) (alpha : Nat) (H : Multi 1 ℝ) (k : Nat) : Except PyErr Arr :=
  if h : k < 2 then arrOf (Lattice.buildDQdpStationary L logSigma logRho alpha H ⟨k, h⟩) else .error .indexError

/-- `LocalPrior` (local.py 96-135), with `alpha` two. -/
def localPrior (m : Mesh V3) (logSigma logRho : ℝ) : Prior where
  size := m.points.length
  precision := arrOf (SphereSpde.buildQStationary m logSigma logRho 2)
  derivative := sphereDerivative m logSigma logRho 2

/-- `NonStationaryLocalPrior` (local_view.py 96-124), with `alpha` two: both arrays one after another have two values for each
point of the mesh. -/
def nonstationaryPrior (m : Mesh V3) (logSigma logRho : List ℝ) : Prior where
  size := m.points.length
  precision :=
    if (logSigma ++ logRho).length ≠ m.points.length + m.points.length then .error .valueError
    else arrOf (SphereSpde.buildQ m (fun i => (logSigma ++ logRho).getD i.val 0) 2 (SphereSpde.sigmaExpanded _)
      (SphereSpde.rhoExpanded _))
  derivative k :=
    if (logSigma ++ logRho).length ≠ m.points.length + m.points.length then .error .valueError
    else if h : k < m.points.length + m.points.length then
      arrOf (SphereSpde.buildDQdp m (fun i => (logSigma ++ logRho).getD i.val 0) 2 (SphereSpde.sigmaExpanded _)
        (SphereSpde.rhoExpanded _) ⟨k, h⟩)
    else .error .indexError

/-- `LatitudeSplineElementPrior` (latitudespline.py 82-122). -/
def latitudeSplinePrior (L : Lattice 1) (alpha : Nat) (H : Multi 1 ℝ) (logSigma logRho : ℝ) : Prior where
  size := L.size
  precision := arrOf (Lattice.buildQStationary L logSigma logRho alpha H)
  derivative := lineDerivative L logSigma logRho alpha H

/-- `harmonic_index_for_spatial_component` (seasonal.py 171-174). -/
def harmonicIndex (mean : Bool) (component : Nat) : Nat := (component + mean.toNat) / 2

/-- `harmonic_parameters` (seasonal.py 36-41). -/
def harmonicParameters (harmonics : List ℝ) (index : Nat) : Except PyErr (ℝ × ℝ) :=
  match item harmonics (2 * index) with
  | .error e => .error e
  | .ok s =>
    match item harmonics (2 * index + 1) with
    | .error e => .error e
    | .ok r => .ok (s, r)

/-- One block of the seasonal precision (seasonal.py 202-205). -/
def seasonalBlock (m : Mesh V3) (mean : Bool) (harmonics : List ℝ) (component : Nat) : Except PyErr Arr :=
  match harmonicParameters harmonics (harmonicIndex mean component) with
  | .error e => .error e
  | .ok (s, r) => arrOf (SphereSpde.buildQStationary m s r 2)

/-- One block of the derivative of the seasonal precision (seasonal.py 216-228). -/
def seasonalDerivativeBlock (m : Mesh V3) (mean : Bool) (harmonics : List ℝ) (k component : Nat) : Except PyErr Arr :=
  if k / 2 = harmonicIndex mean component then
    match harmonicParameters harmonics (harmonicIndex mean component) with
    | .error e => .error e
    | .ok (s, r) => sphereDerivative m s r 2 (k % 2)
  else .ok (Arr.zero m.points.length m.points.length)

/-- `SeasonalElementPrior` (seasonal.py 149-232), with `alpha` two. -/
def seasonalPrior (m : Mesh V3) (nHarmonics : Nat) (mean : Bool) (harmonics : List ℝ) : Prior where
  size := seasonalCount nHarmonics mean * m.points.length
  precision :=
    match collect ((List.range (seasonalCount nHarmonics mean)).map (seasonalBlock m mean harmonics)) with
    | .error e => .error e
    | .ok l => Arr.blockDiag l
  derivative k :=
    match collect ((List.range (seasonalCount nHarmonics mean)).map (seasonalDerivativeBlock m mean harmonics k)) with
    | .error e => .error e
    | .ok l => Arr.blockDiag l

/-- Kronecker product of two results. -/
def kronOf : Except PyErr Arr → Except PyErr Arr → Except PyErr Arr
  | .error e, _ => .error e
  | .ok _, .error e => .error e
  | .ok B, .ok A => .ok (Arr.kron A B)

/-- `SpaceTimeKroneckerPrior` (kronecker.py 50-76); the spatial matrix is computed first. -/
def kroneckerPrior (s : SpaceTime) (spaceLogSigma spaceLogRho timeLogRho : ℝ) : Prior where
  size := s.mesh.points.length * s.line.size
  precision :=
    kronOf (arrOf (SphereSpde.buildQStationary s.mesh spaceLogSigma spaceLogRho s.alpha))
      (arrOf (Lattice.buildQStationary s.line (Real.log 1.0) timeLogRho 1 s.H))
  derivative k :=
    if k < 2 then
      kronOf (sphereDerivative s.mesh spaceLogSigma spaceLogRho s.alpha k)
        (arrOf (Lattice.buildQStationary s.line (Real.log 1.0) timeLogRho 1 s.H))
    else
      kronOf (arrOf (SphereSpde.buildQStationary s.mesh spaceLogSigma spaceLogRho s.alpha))
        (lineDerivative s.line (Real.log 1.0) timeLogRho 1 s.H 1)

/-- `block_diag` of two results. -/
def blocksOf (l : List (Except PyErr Arr)) : Except PyErr Arr :=
  match collect l with
  | .error e => .error e
  | .ok blocks => Arr.blockDiag blocks

/-- `SpaceTimeFactorPrior` (factor.py 67-96). -/
def factorPrior (s : SpaceTime) (spaceLogSigma spaceLogRho timeLogRho : ℝ) : Prior where
  size := s.mesh.points.length + s.line.size
  precision :=
    blocksOf [arrOf (SphereSpde.buildQStationary s.mesh spaceLogSigma spaceLogRho s.alpha),
      arrOf (Lattice.buildQStationary s.line 0.0 timeLogRho s.alpha s.H)]
  derivative k :=
    if k < 2 then
      blocksOf [sphereDerivative s.mesh spaceLogSigma spaceLogRho s.alpha k, .ok (Arr.zero s.line.size s.line.size)]
    else
      blocksOf [.ok (Arr.zero s.mesh.points.length s.mesh.points.length), lineDerivative s.line 0.0 timeLogRho s.alpha s.H 1]

/-- The loop over the elements (combination.py 220-241). -/
def combinedDerivatives (k : Nat) : List (Nat × Nat) → List Prior → Except PyErr (List Arr)
  | [], _ => .ok []
  | _ :: _, [] => .error .indexError
  | r :: ranges, p :: priors =>
    match (if r.1 ≤ k ∧ k < r.1 + r.2 then p.derivative (k - r.1) else .ok (Arr.zero p.size p.size)) with
    | .error e => .error e
    | .ok D =>
      match combinedDerivatives k ranges priors with
      | .error e => .error e
      | .ok l => .ok (D :: l)

/-- `CombinationPrior` (combination.py 187-245) for hyperparameters with the parts `parts`. -/
def combinedPrior (parts : List Hyper) (priors : List Prior) : Prior where
  size := (priors.map Prior.size).sum
  precision := blocksOf (priors.map Prior.precision)
  derivative k :=
    match elementRanges parts with
    | .error e => .error e
    | .ok ranges =>
      match combinedDerivatives k ranges priors with
      | .error e => .error e
      | .ok l => Arr.blockDiag l

/-- The hyperparameters of the latitude harmonics (latitudeharmonics.py 82-92). -/
def covariateParts : List Hyper → Except PyErr (List Prior)
  | [] => .ok []
  | .covariate v :: rest =>
    match covariateParts rest with
    | .error e => .error e
    | .ok l => .ok (covariatePrior v 1 :: l)
  | _ :: _ => .error .attributeError

/-! ### Elements -/

/-- The element classes with their attributes. -/
inductive Element where
  /-- `BiasElement` (bias.py 10-44). -/
  | bias (group : String) (count : Nat)
  /-- `GrandMeanElement` (grandmean.py 10-25). -/
  | grandMean
  /-- `GeographyBasedElement` (geography_based.py 92-124), with its covariate function. -/
  | geography (value : ℝ × ℝ → Except PyErr ℝ)
  /-- `LatitudeHarmonicsElement` (latitudeharmonics.py 28-53). -/
  | latitudeHarmonics
  /-- `LatitudeSplineElement` (latitudespline.py 16-47). -/
  | latitudeSpline (line : Lattice 1) (span : Multi 1 ℝ) (alpha : Nat) (H : Multi 1 ℝ)
  /-- `LocalElement` (local.py 36-64). -/
  | stationary (mesh : Mesh V3)
  /-- `NonStationaryLocal` (local_view.py 61-94). -/
  | nonstationary (mesh : Mesh V3)
  /-- `SpatialBiasElement` (spatial_bias.py 11-46). -/
  | spatialBias (group : String) (mesh : Mesh V3)
  /-- `SeasonalElement` (seasonal.py 53-73). -/
  | seasonal (mesh : Mesh V3) (nHarmonics : Nat) (mean : Bool)
  /-- `SpaceTimeKroneckerElement` (kronecker.py 14-22). -/
  | kronecker (s : SpaceTime)
  /-- `AnnualKroneckerElement` (kronecker_annual.py 15-25). -/
  | annualKronecker (s : SpaceTime)
  /-- `SpaceTimeFactorElement` (factor.py 19-29). -/
  | factor (s : SpaceTime)
  /-- `CombinationElement` (combination.py 56-81). -/
  | combination (parts : List Element)

mutual

/-- `element_design` (lines as in `Element`). -/
def Element.design (obs : Obs) : Element → Design
  | .bias group count => biasDesign group count obs
  | .grandMean => grandMeanDesign obs
  | .geography value => geographyDesign value obs
  | .latitudeHarmonics => latitudeHarmonicsDesign obs
  | .latitudeSpline L span _ _ => latitudeSplineDesign L span obs
  | .stationary m => localDesign m obs
  | .nonstationary m => localDesign m obs
  | .spatialBias group m => spatialBiasDesign group m obs
  | .seasonal m n mean => seasonalDesign m n mean obs
  | .kronecker s => kroneckerDesign s obs.timeIndex obs
  | .annualKronecker s => kroneckerDesign s obs.decimalYear obs
  | .factor s => factorDesign s obs
  | .combination parts => combinedDesign (designsOf obs parts)

/-- `designlist` (combination.py 72). -/
def designsOf (obs : Obs) : List Element → List Design
  | [] => []
  | e :: rest => e.design obs :: designsOf obs rest

end

mutual

/-- `element_prior` (lines as in `Element`). -/
def Element.prior : Element → Hyper → Except PyErr Prior
  | .bias _ count, .covariate v => .ok (covariatePrior v count)
  | .grandMean, .covariate v => .ok (covariatePrior v 1)
  | .geography _, .covariate v => .ok (covariatePrior v 1)
  | .latitudeHarmonics, .combination parts =>
    if parts.length ≠ Elements.latitudeHarmonics.length then .error .valueError
    else
      match covariateParts parts with
      | .error e => .error e
      | .ok priors => .ok (combinedPrior parts priors)
  | .latitudeSpline L _ alpha H, .stationary s r => .ok (latitudeSplinePrior L alpha H s r)
  | .stationary m, .stationary s r => .ok (localPrior m s r)
  | .nonstationary m, .expanded s r => .ok (nonstationaryPrior m s r)
  | .spatialBias _ m, .stationary s r => .ok (localPrior m s r)
  | .seasonal m n mean, .seasonal h => .ok (seasonalPrior m n mean h)
  | .kronecker s, .spaceTime a b c => .ok (kroneckerPrior s a b c)
  | .annualKronecker s, .spaceTime a b c => .ok (kroneckerPrior s a b c)
  | .factor s, .spaceTime a b c => .ok (factorPrior s a b c)
  | .combination elements, .combination parts =>
    match priorsOf elements parts with
    | .error e => .error e
    | .ok priors => .ok (combinedPrior parts priors)
  | _, _ => .error .attributeError

/-- `priorlist` (combination.py 80): there may be more hyperparameters than elements. -/
def priorsOf : List Element → List Hyper → Except PyErr (List Prior)
  | [], _ => .ok []
  | _ :: _, [] => .error .indexError
  | e :: rest, h :: parts =>
    match e.prior h with
    | .error err => .error err
    | .ok p =>
      match priorsOf rest parts with
      | .error err => .error err
      | .ok l => .ok (p :: l)

end

end

end Verif.Eustace.Elements
