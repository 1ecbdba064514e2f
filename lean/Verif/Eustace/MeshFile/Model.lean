import Verif.Eustace.Locator.Model
import Verif.Py

/-!
Model of files which hold a mesh:
  /repo/src/eustace/analysis/mesh/irisconnector.py
  /repo/src/eustace/analysis/mesh/writenetcdf.py
  /repo/src/cpp/eustace/analysis/fileio/mesh.cpp

Simplified: float64 values are real numbers; attributes other than the level are left out; iris and NetCDF are taken to keep the
variables of a file with their types, in order.
-/

namespace Verif.Eustace.MeshFile

open Verif Verif.Eustace.Mesh Verif.Eustace.Locator

noncomputable section

/-- The cubes of a mesh (irisconnector.py 11-77), in the types in which they are stored: coordinates in float64, indices of
points in int32, triangle numbers in uint64. -/
structure Cubes where
  level : BitVec 32
  nodeX : List ℝ
  nodeY : List ℝ
  triangleNumbers : List Id
  faceNodes : List (BitVec 32 × BitVec 32 × BitVec 32)
  edgeNodes : List (BitVec 32 × BitVec 32)
  edgeMap : List (Id × BitVec 64 × Id × BitVec 64)

/-- A mesh as an object: those which are read from a file have no `level` (mesh.py 5-13, irisconnector.py 110). -/
structure MeshObject where
  points : List V3
  triangles : List Tri
  edges : List Edge
  level : Option Nat

/-- The meshes of mesh.py 27-34. -/
def ofMesh (m : Mesh V3) : MeshObject := ⟨m.points, m.triangles, m.edges, some m.level⟩

/-- `MeshToIrisCubeList` (irisconnector.py 11-77).  `numpy.array(x, numpy.int32)` keeps the low bits. -/
def toCubes (m : MeshObject) : Except PyErr Cubes :=
  match m.level with
  | none => .error .attributeError
  | some level => .ok {
      level := BitVec.ofNat 32 level
      nodeX := m.points.map fun p => (cartesianToPolar p).2
      nodeY := m.points.map fun p => (cartesianToPolar p).1
      triangleNumbers := m.triangles.map fun t => t.id
      faceNodes := m.triangles.map fun t => (BitVec.ofNat 32 t.p0, BitVec.ofNat 32 t.p1, BitVec.ofNat 32 t.p2)
      edgeNodes := m.edges.map fun e => (BitVec.ofNat 32 e.a, BitVec.ofNat 32 e.b)
      edgeMap := m.edges.map fun e => (e.t0, BitVec.ofNat 64 e.k0, e.t1, BitVec.ofNat 64 e.k1) }

/-- `numpy.array(x, numpy.uint64)` of an int32. -/
def index (b : BitVec 32) : Nat := (b.signExtend 64).toNat

/-- `IrisCubeListToMesh` (irisconnector.py 79-110).  `numpy.vstack` of columns of the same length. -/
def fromCubes (c : Cubes) : MeshObject where
  points := List.zipWith polarToCartesian c.nodeY c.nodeX
  triangles := List.zipWith (fun n f => ⟨n, index f.1, index f.2.1, index f.2.2⟩) c.triangleNumbers c.faceNodes
  edges := List.zipWith (fun n f => ⟨index n.1, index n.2, f.1, f.2.1.toNat, f.2.2.1, f.2.2.2.toNat⟩) c.edgeNodes c.edgeMap
  level := none

/-- `bool(text)`, which is what `type=bool` does with an option (writenetcdf.py 15). -/
def boolOption (text : Option String) : Bool :=
  match text with
  | none => true
  | some s => s ≠ ""

/-- The mesh which `main` writes (writenetcdf.py 10-30), for the text of `--face_centre_at_poles`. -/
def written (srt : Argsort) (subdivision : Nat) (faceCentreAtPoles : Option String) : Except PyErr Cubes :=
  toCubes (ofMesh (if boolOption faceCentreAtPoles then rotatedMesh srt subdivision else sphereMesh srt subdivision))

/-! ### The reader in C++ -/

/-- Values of a variable. -/
inductive Values where
  | doubles (l : List ℝ)
  | ints (l : List Int)

/-- A variable of a NetCDF file. -/
structure Variable where
  name : String
  dimensions : List Nat
  values : Values

/-- What a call does: a result, `MeshReaderException`, or anything at all. -/
inductive Outcome (α : Type) where
  | ok (a : α)
  | refused
  | undefined

/-- The variable of a name: `nc_inq_varid` leaves the identifier 0 if there is none (mesh.cpp 47-48, 70-71). -/
def variableOf (file : List Variable) (name : String) : Option Variable :=
  match file.find? fun v => v.name == name with
  | some v => some v
  | none => file.head?

/-- `GetDimensions` (mesh.cpp 44-67): for a file without variables the calls fail, and there are none. -/
def dimensionsOf (file : List Variable) (name : String) : List Nat :=
  match variableOf file name with
  | some v => v.dimensions
  | none => []

/-- Values put at the start of a buffer, if there is space for them. -/
def overlay {α : Type} (buffer values : List α) : Outcome (List α) :=
  if values.length ≤ buffer.length then .ok (values ++ buffer.drop values.length) else .undefined

/-- `ReadData` into doubles (mesh.cpp 69-74).  Simplified: undefined for a variable of another type. -/
def readDoubles (file : List Variable) (name : String) (buffer : List ℝ) : Outcome (List ℝ) :=
  match variableOf file name with
  | none => .ok buffer
  | some v =>
    match v.values with
    | .doubles l => overlay buffer l
    | .ints _ => .undefined

/-- `ReadData` into 32-bit integers (mesh.cpp 69-74): a double fills two of them, which `words` gives. -/
def readInts (words : ℝ → List Int) (file : List Variable) (name : String) (buffer : List Int) : Outcome (List Int) :=
  match variableOf file name with
  | none => .ok buffer
  | some v =>
    match v.values with
    | .ints l => overlay buffer l
    | .doubles l => overlay buffer (l.flatMap words)

/-- One point of the loop (mesh.cpp 119-131). -/
def cppPoint (latitude longitude : ℝ) : List ℝ :=
  let latitudeRadians := latitude * Real.pi / 180
  let longitudeRadians := longitude * Real.pi / 180
  let z := Real.sin latitudeRadians
  let minorR := Real.cos latitudeRadians
  let x := Real.cos longitudeRadians * minorR
  let y := Real.sin longitudeRadians * minorR
  [x, y, z]

/-- `MeshReader::Read` (mesh.cpp 84-137): the points and triangles. -/
def cppRead (words : ℝ → List Int) (file : List Variable) : Outcome (List ℝ × List Int) :=
  match dimensionsOf file "Mesh2_node_x", dimensionsOf file "Mesh2_node_y" with
  | [npoints], [_] =>
    match dimensionsOf file "Mesh2_face_nodes" with
    | [] => .undefined
    | ntriangles :: _ =>
      match readDoubles file "Mesh2_node_x" (List.replicate npoints 0) with
      | .refused => .refused
      | .undefined => .undefined
      | .ok longitude =>
        match readDoubles file "Mesh2_node_y" (List.replicate npoints 0) with
        | .refused => .refused
        | .undefined => .undefined
        | .ok latitude =>
          match readInts words file "Mesh2_face_nodes" (List.replicate (3 * ntriangles) 0) with
          | .refused => .refused
          | .undefined => .undefined
          | .ok triangles => .ok ((List.zipWith cppPoint latitude longitude).flatten, triangles)
  | _, _ => .refused

/-- The variables of a file (irisconnector.py 71-77), as the reader in C++ sees them.  Simplified: variables of 64-bit integers,
which it does not use, are left out. -/
def fileOf (c : Cubes) : List Variable :=
  [⟨"Mesh2", [], .ints [-1]⟩,
    ⟨"Mesh2_node_x", [c.nodeX.length], .doubles c.nodeX⟩,
    ⟨"Mesh2_node_y", [c.nodeY.length], .doubles c.nodeY⟩,
    ⟨"Mesh2_face_nodes", [c.faceNodes.length, 3], .ints (c.faceNodes.flatMap fun f => [f.1.toInt, f.2.1.toInt, f.2.2.toInt])⟩,
    ⟨"Mesh2_edge_nodes", [c.edgeNodes.length, 2], .ints (c.edgeNodes.flatMap fun f => [f.1.toInt, f.2.toInt])⟩]

end

end Verif.Eustace.MeshFile
