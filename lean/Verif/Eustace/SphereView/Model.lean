import Verif.Eustace.SphereSpde.Model
import Mathlib.Data.Finset.Sort

/-!
Model of the local views of the triangulated sphere, and of merging parameters which were found on them:
`/repo/src/eustace/analysis/advanced_standard/stats/spde/spherical_view.py`,
`/repo/src/eustace/analysis/advanced_standard/elements/local_view.py` 159-172 and
`/repo/src/eustace/analysis/advanced_standard/examples/example_optimization.py` 242-281.

A view is given by the mesh and the list of its active triangles.  Every view object builds its own copy of the mesh
(spherical_view.py 31); the copies are equal, so the mesh is one parameter here.  Simplified as in
`Verif.Eustace.SphereSpde`: reals for float64, functions of two indices for sparse matrices.
-/

namespace Verif.Eustace.SphereView

open Matrix Verif.Eustace.Linear Verif.Eustace.Mesh Verif.Eustace.Locator Verif.Eustace.Locator.V3 Verif.Eustace.SphereSpde

noncomputable section

/-! ### The triangles and points of a view -/

/-- `np.sort` (spherical_view.py 33, 59). -/
def npSort (l : List Nat) : List Nat := l.mergeSort (· ≤ ·)

/-- `np.unique` (spherical_view.py 57): the different values in increasing order. -/
def npUnique (l : List Nat) : List Nat := l.toFinset.sort (· ≤ ·)

/-- `SphereMeshView.__init__` (spherical_view.py 29-34): the active triangles.  An index outside the table is an
IndexError in line 57.  Indices are natural numbers here; numpy would take negative ones from the end. -/
def makeView (m : Mesh V3) (indices : List Nat) : Except PyErr (List Nat) :=
  if indices.any fun i => m.triangles.length ≤ i then .error .indexError else .ok (npSort indices)

/-- `SphereMeshViewGlobal.__init__` (spherical_view.py 212-218). -/
def makeGlobal (m : Mesh V3) : Except PyErr (List Nat) := makeView m (List.range m.triangles.length)

/-- `SphereMeshViewLocal.__init__` (spherical_view.py 379-385); `coarse` is the mesh at the level of the neighbourhood. -/
def makeLocal (m coarse : Mesh V3) (level centre : Nat) : Except PyErr (List Nat) :=
  makeView m (neighboursAtLevel m coarse level centre)

/-- `SphereMeshViewSuperTriangle.__init__` (spherical_view.py 394-400). -/
def makeSuper (m : Mesh V3) (level index : Nat) : Except PyErr (List Nat) :=
  makeView m (superTriangleAtLevel m level index)

/-- `self.triangulation.triangles[self.active_triangle_indices,:]` (spherical_view.py 57, 101, 121). -/
def viewTriangles (m : Mesh V3) (active : List Nat) : List Tri := gather m.triangles active

/-- `get_active_vertex_indices` (spherical_view.py 54-59). -/
def activeVertices (m : Mesh V3) (active : List Nat) : List Nat :=
  npSort (npUnique ((viewTriangles m active).flatMap fun t => [t.p0, t.p1, t.p2]))

/-- `n_latent_variables` (spherical_view.py 90-95). -/
abbrev size (m : Mesh V3) (active : List Nat) : Nat := (activeVertices m active).length

/-- `get_vertex_mappings` (spherical_view.py 61-74). -/
def vertexMappings (m : Mesh V3) (active : List Nat) : Matrix (Fin (size m active)) (Fin m.points.length) ℝ :=
  Matrix.of fun i j => if (activeVertices m active)[i.val] = j.val then 1 else 0

/-- `get_triangulation_mappings` (spherical_view.py 76-88). -/
def triangulationMappings (m : Mesh V3) (active : List Nat) : Matrix (Fin active.length) (Fin m.triangles.length) ℝ :=
  Matrix.of fun i j => if active[i.val] = j.val then 1 else 0

/-! ### Matrices of a view -/

/-- `vertex_index_map` (spherical_view.py 105-107, 128-130): `-N` everywhere, then the place of every active point. -/
def vertexIndexMap (m : Mesh V3) (active : List Nat) : Nat → Int :=
  (activeVertices m active).zipIdx.foldl (fun f r => Function.update f r.1 (r.2 : Int)) fun _ => -(m.points.length : Int)

/-- `coo_matrix((data, (i, j)))` (spherical_view.py 113-114, 151-152), which refuses negative indices.  The shape is the
number of active points; scipy takes it from the largest index, which is the same as every active point occurs. -/
def cooChecked (n : Nat) (triplets : List (Int × Int × ℝ)) : Except PyErr (Mat n) :=
  if triplets.any fun t => t.1 < 0 || t.2.1 < 0 then .error .valueError
  else .ok (coo n (triplets.map fun t => (t.1.toNat, t.2.1.toNat, t.2.2)))

/-- The entries which one triangle gives to `build_Q_C_tilde` of a view (spherical_view.py 103-111). -/
def viewMassEntries (m : Mesh V3) (active : List Nat) (t : Tri) : List (Int × Int × ℝ) :=
  let dT := triangleArea (corners m t)
  let i0 := vertexIndexMap m active t.p0
  let i1 := vertexIndexMap m active t.p1
  let i2 := vertexIndexMap m active t.p2
  [(i0, i0, dT / 3.0), (i1, i1, dT / 3.0), (i2, i2, dT / 3.0)]

/-- `build_Q_C_tilde` of a view (spherical_view.py 97-116). -/
def viewCTilde (m : Mesh V3) (active : List Nat) : Except PyErr (Mat (size m active)) :=
  cooChecked _ ((viewTriangles m active).flatMap (viewMassEntries m active))

/-- The entries which one triangle gives to `build_Q_G` of a view (spherical_view.py 122-149). -/
def viewStiffnessEntries (m : Mesh V3) (active : List Nat) (t : Tri) : List (Int × Int × ℝ) :=
  let dT := triangleArea (corners m t)
  let e := triangleEdges (corners m t)
  let i0 := vertexIndexMap m active t.p0
  let i1 := vertexIndexMap m active t.p1
  let i2 := vertexIndexMap m active t.p2
  [(i0, i0, 1.0 / (4.0 * dT) * dot e.1 e.1), (i0, i1, 1.0 / (4.0 * dT) * dot e.1 e.2.1),
    (i0, i2, 1.0 / (4.0 * dT) * dot e.1 e.2.2),
   (i1, i0, 1.0 / (4.0 * dT) * dot e.2.1 e.1), (i1, i1, 1.0 / (4.0 * dT) * dot e.2.1 e.2.1),
    (i1, i2, 1.0 / (4.0 * dT) * dot e.2.1 e.2.2),
   (i2, i0, 1.0 / (4.0 * dT) * dot e.2.2 e.1), (i2, i1, 1.0 / (4.0 * dT) * dot e.2.2 e.2.1),
    (i2, i2, 1.0 / (4.0 * dT) * dot e.2.2 e.2.2)]

/-- `build_Q_G` of a view (spherical_view.py 118-154). -/
def viewG (m : Mesh V3) (active : List Nat) : Except PyErr (Mat (size m active)) :=
  cooChecked _ ((viewTriangles m active).flatMap (viewStiffnessEntries m active))

/-- `build_Q` (spherical.py 227-299) of a view, which uses the view's own two matrices. -/
def viewBuildQ (m : Mesh V3) (active : List Nat) {p : Nat} (theta : Vec p) (alpha : Nat)
    (sigma rho : Matrix (Fin (size m active)) (Fin p) ℝ) : Except PyErr (Mat (size m active)) :=
  if 2 * alpha ≤ 2 then .error .valueError
  else
    match viewCTilde m active with
    | .error e => .error e
    | .ok C =>
      match viewG m active with
      | .error e => .error e
      | .ok G => .ok (nativeOf C G (Matrix.diagonal (kappaOf theta alpha rho)) (Matrix.diagonal (tauOf theta alpha sigma rho))
          alpha)

/-- `build_Q_stationary` (spherical.py 167-173) of a view. -/
def viewBuildQStationary (m : Mesh V3) (active : List Nat) (logSigma logRho : ℝ) (alpha : Nat) :
    Except PyErr (Mat (size m active)) :=
  viewBuildQ m active ![logSigma, logRho] alpha (sigmaStationary _) (rhoStationary _)

/-- `in_domain` for one location (spherical_view.py 166-171, 193-201), where `base` is the icosahedron of the locator.  As
in `locate`, a location outside all triangles is not modelled further; it is in no domain. -/
def inDomain (base : Mesh V3) (level : Nat) (active : List Nat) (v : V3) : Bool :=
  match locate base v level with
  | none => false
  | some s => active.contains (indexAtLevel s.id level)

/-- A row of the matrix of `build_A` over all points of the mesh (spherical_view.py 173-179). -/
def viewRowFull (m base : Mesh V3) (level : Nat) (active : List Nat) (v : V3) (j : Nat) : ℝ :=
  match locate base v level with
  | none => 0
  | some s => if active.contains (indexAtLevel s.id level) then designRow m s level j else 0

/-- A row of `build_A` of a view (spherical_view.py 156-184): the columns of the active points. -/
def viewRow (m base : Mesh V3) (level : Nat) (active : List Nat) (v : V3) : Vec (size m active) := fun c =>
  viewRowFull m base level active v (activeVertices m active)[c.val]

/-! ### Merging -/

/-- `getnnz(axis = 1) > 0` as a number (spherical_view.py 249, 252, 317). -/
def hasEntry {n p : Nat} (A : Matrix (Fin n) (Fin p) ℝ) (i : Fin n) : ℝ :=
  if 0 < (Finset.univ.filter fun j => A i j ≠ 0).card then 1 else 0

/-- A logarithm or quotient which numpy makes `nan` or infinite is `none`. -/
def npLog (x : ℝ) : Option ℝ := if 0 < x then some (Real.log x) else none

/-- Division by a count (spherical_view.py 347-348, 359-360): nothing finite for a count of zero. -/
def npDiv (x c : ℝ) : Option ℝ := if c = 0 then none else some (x / c)

/-- The accumulators of the loop of `merge_local_parameterisations` (spherical_view.py 233-241). -/
structure Gathered (N : Nat) where
  sigma : List (Matrix (Fin N) (Fin 2) ℝ)
  rho : List (Matrix (Fin N) (Fin 2) ℝ)
  theta : List (Vec 2)
  sigmaCount : Vec N
  rhoCount : Vec N

/-- One round of the loop (spherical_view.py 245-257). -/
def gatherStep (m : Mesh V3) (g : Gathered m.points.length) (r : List Nat × Vec 2) : Gathered m.points.length :=
  let vertexMap := (vertexMappings m r.1)ᵀ
  let localSigma := vertexMap * sigmaStationary (size m r.1)
  let localRho := vertexMap * rhoStationary (size m r.1)
  { sigma := g.sigma ++ [localSigma]
    rho := g.rho ++ [localRho]
    theta := g.theta ++ [r.2]
    sigmaCount := fun i => g.sigmaCount i + hasEntry localSigma i
    rhoCount := fun i => g.rhoCount i + hasEntry localRho i }

/-- The loop over views and parameters (spherical_view.py 233-257). -/
def gatherViews (m : Mesh V3) (views : List (List Nat)) (thetas : List (Vec 2)) : Gathered m.points.length :=
  (views.zip thetas).foldl (gatherStep m) ⟨[], [], [], fun _ => 0, fun _ => 0⟩

/-- `scipy.sparse.hstack` (spherical_view.py 262-263): the rows of the matrices, side by side. -/
def hstack {N : Nat} (blocks : List (Matrix (Fin N) (Fin 2) ℝ)) (i : Fin N) : List ℝ :=
  blocks.flatMap fun D => [D i 0, D i 1]

/-- `np.concatenate(theta_accumulator)` (spherical_view.py 260, 276). -/
def concatenate (thetas : List (Vec 2)) : List ℝ := thetas.flatMap fun t => [t 0, t 1]

/-- `diags(1.0 / counter, 0) * design` (spherical_view.py 268-273, 284-291).  A row without entries stays without entries,
whatever it is multiplied with; here `1 / 0` is zero. -/
def normalise {N : Nat} (counter : Vec N) (design : Fin N → List ℝ) (i : Fin N) : List ℝ :=
  (design i).map fun x => 1.0 / counter i * x

/-- A row of a matrix times a vector. -/
def rowDot (row theta : List ℝ) : ℝ := (List.zipWith (· * ·) row theta).sum

/-- Result of `merge_local_parameterisations`: the parameters, and the rows of the two design matrices. -/
structure Merged (N : Nat) where
  theta : List (Option ℝ)
  sigma : Fin N → List ℝ
  rho : Fin N → List ℝ

/-- `hstack([eye, zeros])` (spherical_view.py 295-296, 362-363). -/
def eyeThenZeros {N : Nat} (i : Fin N) : List ℝ :=
  ((List.finRange N).map fun j => if i = j then 1 else 0) ++ List.replicate N 0

/-- `hstack([zeros, eye])` (spherical_view.py 298-299, 365-366). -/
def zerosThenEye {N : Nat} (i : Fin N) : List ℝ :=
  List.replicate N 0 ++ (List.finRange N).map fun j => if i = j then 1 else 0

/-- `merge_local_parameterisations` (spherical_view.py 220-305), called on a global view.  Without any view, line 260 has
nothing to concatenate. -/
def mergeLocal (m : Mesh V3) (views : List (List Nat)) (thetas : List (Vec 2)) (method : String) :
    Except PyErr (Merged m.points.length) :=
  let g := gatherViews m views thetas
  if g.theta.isEmpty then .error .valueError
  else if method = "direct_average" then
    .ok { theta := (concatenate g.theta).map some
          sigma := normalise g.sigmaCount (hstack g.sigma)
          rho := normalise g.sigmaCount (hstack g.rho) }
  else if method = "exp_average" then
    let expTheta := (concatenate g.theta).map Real.exp
    let logSigma := (List.finRange m.points.length).map fun i =>
      npLog (rowDot (normalise g.sigmaCount (hstack g.sigma) i) expTheta)
    let logRho := (List.finRange m.points.length).map fun i =>
      npLog (rowDot (normalise g.sigmaCount (hstack g.rho) i) expTheta)
    .ok { theta := logSigma ++ logRho, sigma := eyeThenZeros, rho := zerosThenEye }
  else .error .valueError

/-- The three accumulators (spherical_view.py 308).  They are all `None` or all arrays. -/
structure Accumulators (N : Nat) where
  sigma : Vec N
  rho : Vec N
  counter : Vec N

/-- `accumulate_local_parameterisations` (spherical_view.py 308-339). -/
def accumulate (m : Mesh V3) (acc : Option (Accumulators m.points.length)) (view : List Nat) (theta : Vec 2) :
    Accumulators m.points.length :=
  let globalMap := (vertexMappings m view)ᵀ
  let indicator := hasEntry globalMap
  let sigma := globalMap *ᵥ fun c => Real.exp ((sigmaStationary (size m view) *ᵥ theta) c)
  let rho := globalMap *ᵥ fun c => Real.exp ((rhoStationary (size m view) *ᵥ theta) c)
  match acc with
  | none => ⟨sigma, rho, indicator⟩
  | some a => ⟨fun i => a.sigma i + sigma i, fun i => a.rho i + rho i, fun i => a.counter i + indicator i⟩

/-- `finalise_local_parameterisation_sigma_rho` (spherical_view.py 342-350). -/
def finalise {N : Nat} (a : Accumulators N) : (Fin N → Option ℝ) × (Fin N → Option ℝ) :=
  (fun i => (npDiv (a.sigma i) (a.counter i)).bind npLog, fun i => (npDiv (a.rho i) (a.counter i)).bind npLog)

/-- `finalise_local_parameterisation_q` (spherical_view.py 353-368). -/
def finaliseQ {N : Nat} (a : Accumulators N) : Merged N :=
  { theta := ((List.finRange N).map fun i => (npDiv (a.sigma i) (a.counter i)).bind npLog) ++
      (List.finRange N).map fun i => (npDiv (a.rho i) (a.counter i)).bind npLog
    sigma := eyeThenZeros
    rho := zerosThenEye }

/-- The loop of `merge_local_parameterisations` over the files of the regions (example_optimization.py 250-268), from region
`k` on: a region whose file does not exist is passed over. -/
def mergeLoop (m : Mesh V3) (level : Nat) :
    Nat → List (Option (Vec 2)) → Option (Accumulators m.points.length) → Except PyErr (Option (Accumulators m.points.length))
  | _, [], acc => .ok acc
  | k, none :: files, acc => mergeLoop m level (k + 1) files acc
  | k, some theta :: files, acc =>
    match makeSuper m level k with
    | .error e => .error e
    | .ok view => mergeLoop m level (k + 1) files (some (accumulate m acc view theta))

/-- `merge_local_parameterisations` of the example (example_optimization.py 242-281); `files` are the contents of the
files, `none` for one which does not exist.  Dividing `None` by `None` is a TypeError. -/
def mergeFiles (m : Mesh V3) (level : Nat) (files : List (Option (Vec 2))) :
    Except PyErr ((Fin m.points.length → Option ℝ) × (Fin m.points.length → Option ℝ)) :=
  match mergeLoop m level 0 files none with
  | .error e => .error e
  | .ok none => .error .typeError
  | .ok (some a) => .ok (finalise a)

/-- `ExpandedLocalHyperparameters.get_array` (local_view.py 162-166). -/
def expandedGet {α : Type} (h : List α × List α) : List α := h.1 ++ h.2

/-- `ExpandedLocalHyperparameters.set_array` (local_view.py 168-172). -/
def expandedSet {α : Type} (values : List α) : List α × List α :=
  (values.take (values.length / 2), values.drop (values.length / 2))

end

end Verif.Eustace.SphereView
