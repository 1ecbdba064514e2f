import Verif.Eustace.SphereView.Model
import Verif.Eustace.SphereSpde.Spec

/-!
Specification for local views: which points belong to a set of triangles, and plain averages.
-/

namespace Verif.Eustace.SphereView

open Matrix Verif.Eustace.Linear Verif.Eustace.Mesh Verif.Eustace.Locator Verif.Eustace.SphereSpde

noncomputable section

/-- The point is a corner of one of the triangles with the given numbers. -/
def InRegion (m : Mesh V3) (region : List Nat) (k : Nat) : Prop :=
  ∃ i ∈ region, ∃ t, m.triangles[i]? = some t ∧ (k = t.p0 ∨ k = t.p1 ∨ k = t.p2)

/-- The numbers of triangles are numbers of triangles of the mesh. -/
def Valid (m : Mesh V3) (region : List Nat) : Prop := ∀ i ∈ region, i < m.triangles.length

/-- All triangles at the point belong to the region. -/
def Interior (m : Mesh V3) (region : List Nat) (k : Nat) : Prop :=
  ∀ i t, m.triangles[i]? = some t → (k = t.p0 ∨ k = t.p1 ∨ k = t.p2) → i ∈ region

/-- The plain average of some numbers. -/
def average (l : List ℝ) : ℝ := l.sum / l.length

open Classical in
/-- What is said about a point by those regions to which it belongs. -/
def saidAt {α : Type} (m : Mesh V3) (said : List (List Nat × α)) (k : Nat) : List α :=
  (said.filter fun r => InRegion m r.1 k).map Prod.snd

end

end Verif.Eustace.SphereView
