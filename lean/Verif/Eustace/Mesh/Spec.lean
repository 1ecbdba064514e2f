import Verif.Eustace.Mesh.Model

/-! Specification of the mesh: what a user of it relies on, in terms of triangles alone. -/

namespace Verif.Eustace.Mesh

/-- The directed sides of a triangle, in the order of its points. -/
def Tri.sides (t : Tri) : List (Nat × Nat) := [(t.p0, t.p1), (t.p1, t.p2), (t.p2, t.p0)]

/-- A closed, consistently oriented surface: no side joins a point to itself, every directed side
occurs once only among all triangles, and with each side its reverse occurs. -/
structure ClosedOriented (ts : List Tri) : Prop where
  noLoop : ∀ s ∈ ts.flatMap Tri.sides, s.1 ≠ s.2
  once : (ts.flatMap Tri.sides).Nodup
  reverse : ∀ s ∈ ts.flatMap Tri.sides, (s.2, s.1) ∈ ts.flatMap Tri.sides

/-- The four triangles into which a triangle is divided, given the midpoints of its three sides
(picture in mesh.py 320-334).  `shift` places the two bits of the child number. -/
def children (shift : Nat) (t : Tri) (m : Nat × Nat × Nat) : List Tri :=
  [⟨childId t.id 0 shift, t.p0, m.1, m.2.2⟩,
   ⟨childId t.id 1 shift, m.1, t.p1, m.2.1⟩,
   ⟨childId t.id 2 shift, m.2.2, m.2.1, t.p2⟩,
   ⟨childId t.id 3 shift, m.2.1, m.2.2, m.1⟩]

/-- The two directed sides which a row of the edge array stands for. -/
def Edge.halves (e : Edge) : List Half := [⟨e.a, e.b, e.t0, e.k0⟩, ⟨e.b, e.a, e.t1, e.k1⟩]

/-- Two rows of the edge array separate the same two triangles. -/
def SamePair (e f : Edge) : Prop :=
  (e.t0 = f.t0 ∧ e.t1 = f.t1) ∨ (e.t0 = f.t1 ∧ e.t1 = f.t0)

/-- Two rows of the edge array join the same two points. -/
def SameEnds (e f : Edge) : Prop :=
  (e.a = f.a ∧ e.b = f.b) ∨ (e.a = f.b ∧ e.b = f.a)

/-- Number of triangles which have the point `v`. -/
def degree (ts : List Tri) (v : Nat) : Nat :=
  (ts.filter (fun t => v = t.p0 ∨ v = t.p1 ∨ v = t.p2)).length

end Verif.Eustace.Mesh
