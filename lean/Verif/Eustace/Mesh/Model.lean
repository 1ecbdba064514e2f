/-
Model of the subdivided icosahedron mesh:
  /repo/src/eustace/analysis/mesh/mesh.py
and of the two index searches which decode its triangle identifiers:
  /repo/src/eustace/analysis/advanced_standard/stats/spde/spherical.py 513-561

The mesh is modelled with its numpy arrays as lists of rows.  Identifiers of triangles are 64 bit
words, as in the code (dtype uint64); point indices and edge numbers are natural numbers.  Point
coordinates are left abstract here (type `P`); only `mid`, the rule which makes a new point from two
old ones, is used.  It is instantiated with real vectors in `Verif.Eustace.Locator`.
-/

namespace Verif.Eustace.Mesh

/-- A triangle identifier, numpy.uint64 (mesh.py 122, 236). -/
abbrev Id := BitVec 64

/-- Row of the triangle array: identifier and three point indices (mesh.py 100-122, 236). -/
structure Tri where
  id : Id
  p0 : Nat
  p1 : Nat
  p2 : Nat
deriving DecidableEq, Repr, Inhabited

/-- Row of the edge array (mesh.py 164-173): the two points, then for each of the two triangles
sharing the edge its identifier and the number of the edge within it. -/
structure Edge where
  a : Nat
  b : Nat
  t0 : Id
  k0 : Nat
  t1 : Id
  k1 : Nat
deriving DecidableEq, Repr

/-- Row `[point, next point, triangle, edge number]` (mesh.py 127-152, 367). -/
structure Half where
  a : Nat
  b : Nat
  t : Id
  k : Nat
deriving DecidableEq, Repr

/-- Row `[index of midpoint, parent triangle, clockwise index]` (mesh.py 303-311). -/
structure MidRow where
  m : Nat
  t : Id
  k : Nat
deriving DecidableEq, Repr

/-- The mesh object (mesh.py 5-13, 27-34). -/
structure Mesh (P : Type) where
  points : List P
  triangles : List Tri
  edges : List Edge
  level : Nat

/-- `numpy.argsort` (mesh.py 162, 317, 370): some list of positions which puts the keys in
non-decreasing order.  numpy's default sort is not stable, so nothing is assumed about ties; every
theorem is for every such `sort`. -/
structure Argsort where
  sort : List Nat → List Nat
  perm : ∀ keys, (sort keys).Perm (List.range keys.length)
  sorted : ∀ keys, ((sort keys).filterMap (fun i => keys[i]?)).Pairwise (· ≤ ·)

/-- `rows[indices,:]` (mesh.py 172-173, 318, 371). -/
def gather {α : Type} (rows : List α) (indices : List Nat) : List α :=
  indices.filterMap (fun i => rows[i]?)

/-- Rows rearranged by `argsort` of a key computed from each row (mesh.py 162, 316-318, 370-371). -/
def sortRows {α : Type} (s : Argsort) (key : α → Nat) (rows : List α) : List α :=
  gather rows (s.sort (rows.map key))

/-- The strided slices `x[0::2]`, `x[1::2]` read side by side (mesh.py 171-173).  Simplified: an odd
row at the end, for which numpy would refuse the assignment, is dropped. -/
def chunk2 {α : Type} : List α → List (α × α)
  | x :: y :: l => (x, y) :: chunk2 l
  | _ => []

/-- The strided slices `x[0::3]`, `x[1::3]`, `x[2::3]` read side by side (mesh.py 336-364, 373-377).
Simplified as `chunk2`. -/
def chunk3 {α : Type} : List α → List (α × α × α)
  | x :: y :: z :: l => (x, y, z) :: chunk3 l
  | _ => []

/-- `BASE_HASH_SHIFT` (mesh.py 18). -/
def baseHashShift : BitVec 64 := 58#64

/-- `BASE_HASH_SHIFT - 2*level` in 64 bit arithmetic (mesh.py 260). -/
def hashShift (level : Nat) : Nat := (baseHashShift - 2#64 * BitVec.ofNat 64 level).toNat

/-- `parent | (k << hash_shift)` (mesh.py 271, 277, 292, 298, 339-363). -/
def childId (t : Id) (k : Nat) (shift : Nat) : Id := t ||| (BitVec.ofNat 64 k <<< shift)

/-- Three rows per triangle: points in clockwise order, triangle number, edge number
(mesh.py 127-152). -/
def Tri.halves (t : Tri) : List Half :=
  [⟨t.p0, t.p1, t.id, 0⟩, ⟨t.p1, t.p2, t.id, 1⟩, ⟨t.p2, t.p0, t.id, 2⟩]

/-- The triangle table (mesh.py 100-122) with the indices left-shifted (mesh.py 125). -/
def baseTriangles : List Tri :=
  [(0, 4, 7, 8), (1, 4, 9, 7), (2, 5, 11, 6), (3, 5, 6, 10), (4, 0, 3, 4), (5, 0, 5, 3),
   (6, 2, 1, 7), (7, 2, 6, 1), (8, 8, 11, 0), (9, 8, 1, 11), (10, 9, 3, 10), (11, 9, 10, 2),
   (12, 8, 0, 4), (13, 11, 5, 0), (14, 4, 3, 9), (15, 5, 10, 3), (16, 7, 1, 8), (17, 6, 11, 1),
   (18, 7, 9, 2), (19, 6, 2, 10)].map
    (fun r : Nat × Nat × Nat × Nat =>
      ⟨BitVec.ofNat 64 r.1 <<< baseHashShift.toNat, r.2.1, r.2.2.1, r.2.2.2⟩)

/-- Identifier of an edge which does not depend on the order of its points (mesh.py 154-159). -/
def edgeKey (numPoints : Nat) (h : Half) : Nat :=
  if h.a < h.b then h.a * numPoints + h.b
  else if h.b < h.a then h.b * numPoints + h.a else 0

/-- `MeshIcosahedron.build` (mesh.py 70-176), given its twelve points. -/
def buildBase {P : Type} (s : Argsort) (points : List P) : Mesh P :=
  let pointPairs := baseTriangles.flatMap Tri.halves
  let sorted := sortRows s (edgeKey points.length) pointPairs
  { points := points
    triangles := baseTriangles
    edges := (chunk2 sorted).map fun r => ⟨r.1.a, r.1.b, r.1.t, r.1.k, r.2.t, r.2.k⟩
    level := 0 }

/-- The two halves of an existing edge, with `m` the index of its midpoint (mesh.py 262-301). -/
def splitEdge (shift : Nat) (e : Edge) (m : Nat) : List Edge :=
  [⟨e.a, m, childId e.t0 e.k0 shift, e.k0, childId e.t1 ((e.k1 + 1) % 3) shift, e.k1⟩,
   ⟨m, e.b, childId e.t0 ((e.k0 + 1) % 3) shift, e.k0, childId e.t1 e.k1 shift, e.k1⟩]

/-- Two rows for each midpoint, one for each triangle on its edge (mesh.py 303-311). -/
def midpointRows (edges : List Edge) (numPoints : Nat) : List MidRow :=
  (edges.zipIdx numPoints).map (fun r => ⟨r.2, r.1.t0, r.1.k0⟩) ++
  (edges.zipIdx numPoints).map (fun r => ⟨r.2, r.1.t1, r.1.k1⟩)

/-- The sort criterion `midpoints[:,1] | midpoints[:,2]` (mesh.py 316). -/
def midKey (r : MidRow) : Nat := (r.t ||| BitVec.ofNat 64 r.k).toNat

/-- The three edges connecting the midpoints of one parent triangle (mesh.py 336-364). -/
def innerEdges (shift : Nat) (r : MidRow × MidRow × MidRow) : List Edge :=
  let q0 := r.1
  let q1 := r.2.1
  let q2 := r.2.2
  [⟨q0.m, q2.m, childId q0.t 0 shift, 1, childId q2.t 3 shift, 1⟩,
   ⟨q1.m, q0.m, childId q1.t 1 shift, 2, childId q0.t 3 shift, 2⟩,
   ⟨q2.m, q1.m, childId q2.t 2 shift, 0, childId q1.t 3 shift, 0⟩]

/-- `vstack((edges[:,0:4], hstack((edges[:,1::-1], edges[:,4:6]))))` (mesh.py 367). -/
def edgesWithDuplicates (edges : List Edge) : List Half :=
  edges.map (fun e => ⟨e.a, e.b, e.t0, e.k0⟩) ++ edges.map (fun e => ⟨e.b, e.a, e.t1, e.k1⟩)

/-- The sort criterion of line 369. -/
def halfKey (h : Half) : Nat := (h.t ||| BitVec.ofNat 64 h.k).toNat

/-- The edge array of the child (mesh.py 255-364). -/
def childEdges (s : Argsort) (shift numPoints : Nat) (edges : List Edge) : List Edge :=
  (edges.zipIdx numPoints).flatMap (fun r => splitEdge shift r.1 r.2) ++
  (chunk3 (sortRows s midKey (midpointRows edges numPoints))).flatMap (innerEdges shift)

/-- The triangle array of the child, read off the sorted edges (mesh.py 366-377). -/
def trianglesOf (s : Argsort) (edges : List Edge) : List Tri :=
  (chunk3 (sortRows s halfKey (edgesWithDuplicates edges))).map
    fun r => ⟨r.1.t, r.1.a, r.2.1.a, r.2.2.a⟩

/-- `MeshIcosahedronSubdivision.subdivide` (mesh.py 218-380).  `mid` makes the new point of an edge
(mesh.py 242-246). -/
def subdivide {P : Type} [Inhabited P] (s : Argsort) (mid : P → P → P) (parent : Mesh P) : Mesh P :=
  let level := parent.level + 1
  let edges := childEdges s (hashShift level) parent.points.length parent.edges
  { points := parent.points ++ parent.edges.map
      (fun e => mid (parent.points.getD e.a default) (parent.points.getD e.b default))
    triangles := trianglesOf s edges
    edges := edges
    level := level }

/-- `MeshIcosahedronSubdivision.build` (mesh.py 201-216), given the points of the icosahedron. -/
def build {P : Type} [Inhabited P] (s : Argsort) (mid : P → P → P) (points : List P) : Nat → Mesh P
  | 0 => buildBase s points
  | n + 1 => subdivide s mid (build s mid points n)

/-- `SphereMeshSPDE.n_triangles_at_level` (spherical.py 31-44). -/
def nTrianglesAtLevel (level : Nat) : Nat :=
  (List.range level).foldl (fun n _ => n * 4) 20

/-- `id >> (BASE_HASH_SHIFT - 2*level)` (spherical.py 70, 535, 536, 555). -/
def indexAtLevel (id : Id) (level : Nat) : Nat := (id >>> hashShift level).toNat

/-- `SphereMeshSPDE.super_triangle_at_level` (spherical.py 550-561): positions of the triangles inside
one coarse triangle. -/
def superTriangleAtLevel {P : Type} (mesh : Mesh P) (superLevel superIndex : Nat) : List Nat :=
  (List.range mesh.triangles.length).filter
    (fun i => ((mesh.triangles[i]?).map (fun t => indexAtLevel t.id superLevel)) == some superIndex)

/-- Whether two rows of the triangle table have a common point (spherical.py 527-530). -/
def sharesPoint (t c : Tri) : Bool :=
  (t.p0 == c.p0 || t.p1 == c.p0 || t.p2 == c.p0) ||
  (t.p0 == c.p1 || t.p1 == c.p1 || t.p2 == c.p1) ||
  (t.p0 == c.p2 || t.p1 == c.p2 || t.p2 == c.p2)

/-- `SphereMeshSPDE.neighbours_at_level` (spherical.py 518-548); `coarse` is the mesh at the
neighbourhood level.  A centre index out of range is an IndexError in numpy; here it gives no
triangle. -/
def neighboursAtLevel {P : Type} (mesh coarse : Mesh P) (level centre : Nat) : List Nat :=
  match coarse.triangles[centre]? with
  | none => []
  | some c =>
    let ids := (coarse.triangles.filter (fun t => sharesPoint t c)).map
      (fun t => indexAtLevel t.id level)
    (List.range mesh.triangles.length).filter
      (fun i => match mesh.triangles[i]? with
        | none => false
        | some t => 0 < (ids.filter (fun n => indexAtLevel t.id level == n)).length)

end Verif.Eustace.Mesh
