import Verif.Eustace.Mesh.Model
import Mathlib.Analysis.SpecialFunctions.Trigonometric.Inverse
import Mathlib.Analysis.SpecialFunctions.Complex.Arg

/-
Model of point location on the mesh:
  /repo/src/eustace/analysis/mesh/mesh.py 36-98, 178-216, 242-246 (coordinates)
  /repo/src/eustace/analysis/mesh/geometry.py
  /repo/src/eustace/analysis/mesh/locator.py
  /repo/src/eustace/analysis/mesh/locator_search_planes.pyx
  /repo/src/eustace/analysis/advanced_standard/stats/spde/spherical.py 57-80 (build_A)

Floating point numbers are idealised as real numbers.  The numpy code works on arrays with one row
per point; except where said the model treats one row.
-/

namespace Verif.Eustace.Locator

open Verif.Eustace.Mesh

noncomputable section

/-- A row of a coordinate array. -/
@[ext] structure V3 where
  x : ℝ
  y : ℝ
  z : ℝ

instance : Inhabited V3 := ⟨⟨0, 0, 0⟩⟩

namespace V3

/-- `a + b` (numpy, by component). -/
def add (a b : V3) : V3 := ⟨a.x + b.x, a.y + b.y, a.z + b.z⟩

/-- `a - b` (numpy, by component). -/
def sub (a b : V3) : V3 := ⟨a.x - b.x, a.y - b.y, a.z - b.z⟩

/-- `scalerows` (geometry.py 31-34). -/
def scale (s : ℝ) (v : V3) : V3 := ⟨s * v.x, s * v.y, s * v.z⟩

/-- `dividerows` (geometry.py 36-39). -/
def divide (v : V3) (s : ℝ) : V3 := ⟨v.x / s, v.y / s, v.z / s⟩

/-- `numpy.sum(a * b, axis=1)` (geometry.py 91; pyx 32-34). -/
def dot (a b : V3) : ℝ := a.x * b.x + a.y * b.y + a.z * b.z

/-- `numpy.cross`. -/
def cross (a b : V3) : V3 :=
  ⟨a.y * b.z - a.z * b.y, a.z * b.x - a.x * b.z, a.x * b.y - a.y * b.x⟩

/-- `numpy.linalg.norm`. -/
def len (v : V3) : ℝ := Real.sqrt (dot v v)

end V3

open V3

/-! ### Coordinates of the mesh -/

/-- `golden_ratio_basis` (mesh.py 36-53), first component. -/
def goldenA : ℝ :=
  let r := (1.0 + Real.sqrt 5.0) * 0.5
  let n := Real.sqrt (1.0 + r * r)
  r / n

/-- `golden_ratio_basis` (mesh.py 36-53), second component. -/
def goldenB : ℝ :=
  let r := (1.0 + Real.sqrt 5.0) * 0.5
  let n := Real.sqrt (1.0 + r * r)
  1.0 / n

/-- The twelve points, for the given components (mesh.py 85-98). -/
def icosahedron (a b : ℝ) : List V3 :=
  [⟨a, b, 0⟩, ⟨-a, b, 0⟩, ⟨-a, -b, 0⟩, ⟨a, -b, 0⟩,
   ⟨b, 0, a⟩, ⟨b, 0, -a⟩, ⟨-b, 0, -a⟩, ⟨-b, 0, a⟩,
   ⟨0, a, b⟩, ⟨0, -a, b⟩, ⟨0, -a, -b⟩, ⟨0, a, -b⟩]

/-- The points of `MeshIcosahedron.build` (mesh.py 83-98). -/
def basePoints : List V3 := icosahedron goldenA goldenB

/-- `inter_vertex_angle` (mesh.py 54-68). -/
def interVertexAngle : ℝ :=
  let oneMinusInverseRatio := 1.0 - goldenB / goldenA
  let sinTheta := 1.0 / Real.sqrt (1.0 + oneMinusInverseRatio * oneMinusInverseRatio)
  Real.arcsin sinTheta

/-- `rotate_y` (mesh.py 178-189), for one point: `R` times the point. -/
def rotateY (theta : ℝ) (p : V3) : V3 :=
  let c := Real.cos theta
  let s := Real.sin theta
  ⟨c * p.x + 0 * p.y + -s * p.z, 0 * p.x + 1 * p.y + 0 * p.z, s * p.x + 0 * p.y + c * p.z⟩

/-- The new point of an edge, projected onto the sphere (mesh.py 242-246). -/
def midOnSphere (p q : V3) : V3 :=
  let m := scale 0.5 (add p q)
  divide m (len m)

/-- `MeshIcosahedronSubdivision.build(n)` with default arguments (mesh.py 201-216). -/
def sphereMesh (srt : Argsort) (n : Nat) : Mesh V3 := build srt midOnSphere basePoints n

/-- `MeshIcosahedronSubdivision.build(n, face_centre_at_poles=True)` (mesh.py 201-216). -/
def rotatedMesh (srt : Argsort) (n : Nat) : Mesh V3 :=
  build srt midOnSphere (basePoints.map (rotateY interVertexAngle)) n

/-! ### Geometry -/

/-- `triangle_area_euclidean` (geometry.py 48-60). -/
def areaEuclidean (p0 p1 p2 : V3) : ℝ :=
  let side0 := sub p1 p0
  let side1 := sub p2 p0
  0.5 * len (cross side0 side1)

/-- Three barycentric coordinates. -/
structure Bary where
  b0 : ℝ
  b1 : ℝ
  b2 : ℝ

/-- `barycentric_coordinates_planar` (geometry.py 82-102). -/
def barycentricPlanar (p0 p1 p2 v : V3) : Bary :=
  let n := cross (sub p1 p0) (sub p2 p0)
  let k := dot p0 n / dot v n
  let vp := scale k v
  let a0 := areaEuclidean p1 p2 vp
  let a1 := areaEuclidean p2 p0 vp
  let a2 := areaEuclidean p0 p1 vp
  ⟨a0 / (a0 + a1 + a2), a1 / (a0 + a1 + a2), a2 / (a0 + a1 + a2)⟩

/-- `polar2d_to_cartesian` (geometry.py 142-149); degrees. -/
def polarToCartesian (lat lon : ℝ) : V3 :=
  let z := Real.sin (lat * (Real.pi / 180))
  let minorR := Real.cos (lat * (Real.pi / 180))
  let x := Real.cos (lon * (Real.pi / 180)) * minorR
  let y := Real.sin (lon * (Real.pi / 180)) * minorR
  ⟨x, y, z⟩

/-- `cartesian_to_polar2d` (geometry.py 133-140); `arctan2(y, x)` is the argument of `x + iy`. -/
def cartesianToPolar (v : V3) : ℝ × ℝ :=
  let radius := len v
  let latitude := Real.arcsin (v.z / radius)
  let longitude := Complex.arg ⟨v.x, v.y⟩
  (latitude * (180 / Real.pi), longitude * (180 / Real.pi))

/-! ### Location -/

/-- Coordinates of the three points of a triangle (locator.py 92-95). -/
def corners (m : Mesh V3) (t : Tri) : V3 × V3 × V3 :=
  (m.points.getD t.p0 default, m.points.getD t.p1 default, m.points.getD t.p2 default)

/-- The normalised normals of one triangle (locator.py 21-29). -/
def normals (p : V3 × V3 × V3) : V3 × V3 × V3 :=
  let n0 := cross p.1 p.2.1
  let n1 := cross p.2.1 p.2.2
  let n2 := cross p.2.2 p.1
  (divide n0 (len n0), divide n1 (len n1), divide n2 (len n2))

/-- The test of one triangle (pyx 29-35). -/
def planesHit (v : V3) (n : V3 × V3 × V3) : Prop :=
  dot v n.1 ≤ 0 ∧ dot v n.2.1 ≤ 0 ∧ dot v n.2.2 ≤ 0

open Classical in
/-- `locator_search_planes_exhaustive` for one point (pyx 10-37): the first triangle which passes, or
`none` for the initial value -1 (locator.py 43). -/
def searchPlanes (m : Mesh V3) (v : V3) : Option Nat :=
  m.triangles.findIdx? (fun t => decide (planesHit v (normals (corners m t))))

open Classical in
/-- One row of the inclusion tests of `triangle_barycentre_subdivision_number`
(locator.py 152-166). -/
def inclusionRow (b : Bary) : List Bool :=
  let i0 := decide (b.b0 - b.b1 - b.b2 ≥ 0)
  let i1 := !i0 && decide (b.b1 - b.b2 - b.b0 ≥ 0)
  let i2 := !(i0 || i1) && decide (b.b2 - b.b0 - b.b1 ≥ 0)
  let i3 := !(i0 || i1 || i2)
  [i0, i1, i2, i3]

/-- `numpy.nonzero(x)[0]`. -/
def nonzero (l : List Bool) : List Nat :=
  (l.zipIdx).filterMap (fun r => if r.1 then some r.2 else none)

/-- `triangle_barycentre_subdivision_number` for all rows (locator.py 120-169). -/
def subdivisionNumbers (rows : List Bary) : List Nat :=
  (nonzero (rows.flatMap inclusionRow)).map (· % 4)

/-- The same for one row. -/
def subdivisionNumber (b : Bary) : Nat := (subdivisionNumbers [b]).headD 0

/-- `triangle_points_to_subtriangle` for one row (locator.py 171-205). -/
def toSubtriangle (p : V3 × V3 × V3) (sub : Nat) : V3 × V3 × V3 :=
  let p0 := p.1
  let p1 := p.2.1
  let p2 := p.2.2
  let q : V3 × V3 × V3 :=
    match sub with
    | 0 => (p0, scale 0.5 (add p0 p1), scale 0.5 (add p2 p0))
    | 1 => (scale 0.5 (add p0 p1), p1, scale 0.5 (add p1 p2))
    | 2 => (scale 0.5 (add p2 p0), scale 0.5 (add p1 p2), p2)
    | 3 => (scale 0.5 (add p1 p2), scale 0.5 (add p2 p0), scale 0.5 (add p0 p1))
    | _ => (p0, p1, p2)
  (divide q.1 (len q.1), divide q.2.1 (len q.2.1), divide q.2.2 (len q.2.2))

/-- What the loop of `locate_vector_hierarchical` keeps for one row (locator.py 92-118). -/
structure State where
  pts : V3 × V3 × V3
  id : Id
  bary : Bary

/-- Before the loop (locator.py 89-101). -/
def initState (m : Mesh V3) (v : V3) (i : Nat) : State :=
  let p := corners m (m.triangles.getD i default)
  { pts := p
    id := BitVec.ofNat 64 i <<< baseHashShift.toNat
    bary := barycentricPlanar p.1 p.2.1 p.2.2 v }

/-- One turn of the loop (locator.py 104-116). -/
def stepState (v : V3) (i : Nat) (s : State) : State :=
  let sub := subdivisionNumber s.bary
  let p := toSubtriangle s.pts sub
  { pts := p
    bary := barycentricPlanar p.1 p.2.1 p.2.2 v
    id := s.id ||| (BitVec.ofNat 64 sub <<< hashShift i) }

/-- The loop `for i in range(1, int(levels) + 1)` (locator.py 104). -/
def runLevels (v : V3) (s : State) : Nat → State
  | 0 => s
  | n + 1 => stepState v (n + 1) (runLevels v s n)

/-- `locate_vector_hierarchical` for one row (locator.py 84-118); `none` when the search finds no
triangle (the code would go on with triangle number -1). -/
def locate (m : Mesh V3) (v : V3) (levels : Nat) : Option State :=
  (searchPlanes m v).map (fun i => runLevels v (initState m v i) levels)

/-- A row of the matrix of `build_A` (spherical.py 57-80): the weight of each point of the mesh.  The
three assignments of line 79 go to three different columns. -/
def designRow (m : Mesh V3) (s : State) (level : Nat) (j : Nat) : ℝ :=
  let t := m.triangles.getD (indexAtLevel s.id level) default
  if j = t.p2 then s.bary.b2 else if j = t.p1 then s.bary.b1 else if j = t.p0 then s.bary.b0 else 0

end

end Verif.Eustace.Locator
