import Verif.Eustace.Lattice.Model

/-!
What lattices, basis functions and precisions are meant to be, without reference to the order of nodes or to the search.
-/

namespace Verif.Eustace.Lattice

noncomputable section

variable {D : Nat}

/-- A multi index of a node of the lattice. -/
def IsNode (L : Lattice D) (i : Multi D Nat) : Prop := ∀ k, i k < L.n k

/-- Node distance: the range is divided among the steps; a periodic dimension has as many steps as nodes, others one less. -/
def step (L : Lattice D) (k : Fin D) : ℝ :=
  (L.hi k - L.lo k) / (if L.wrap k then (L.n k : ℝ) else (L.n k : ℝ) - 1)

/-- The position of a node. -/
def position (L : Lattice D) (i : Multi D Nat) : Multi D ℝ := fun k => L.lo k + i k * step L k

/-- `δ` is the displacement of `x` from node `i`: in periodic dimensions up to whole periods, not longer than half of one. -/
def IsDisplacement (L : Lattice D) (x : Multi D ℝ) (i : Multi D Nat) (δ : Multi D ℝ) : Prop :=
  ∀ k, if L.wrap k then (∃ m : ℤ, δ k = x k - position L i k - m * (L.hi k - L.lo k)) ∧ 2 * |δ k| ≤ L.hi k - L.lo k
    else δ k = x k - position L i k

/-- The value of a basis function for a displacement from its centre. -/
def basisValue (b : Basis) (span δ : Multi D ℝ) : ℝ :=
  let r := Real.sqrt (∑ k, (δ k / span k) ^ 2)
  match b with
  | .cone => max 0 (1 - r)
  | .wendlandC4 => max 0 (1 - r) ^ 6 * (35 * r ^ 2 + 18 * r + 3) / 3
  | .piecewiseLinear => ∏ k, max 0 (1 - |δ k| / span k)

/-- A lattice whose dimensions are not empty and have at least two nodes. -/
def Proper (L : Lattice D) : Prop := ∀ k, L.lo k < L.hi k ∧ 2 ≤ L.n k

/-- One step from `i` to `j` along a dimension, around the end where the dimension is periodic. -/
def StepTo (L : Lattice D) (d : Fin D) (i j : Multi D Nat) : Prop :=
  (∀ k, k ≠ d → i k = j k) ∧ (j d = i d + 1 ∨ (L.wrap d = true ∧ i d + 1 = L.n d ∧ j d = 0))

/-- Two different nodes are adjacent. -/
def Adjacent (L : Lattice D) (i j : Multi D Nat) : Prop := i ≠ j ∧ ∃ d, StepTo L d i j ∨ StepTo L d j i

end

end Verif.Eustace.Lattice
