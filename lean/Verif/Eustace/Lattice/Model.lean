import Verif.Eustace.Linear.Model
import Verif.Py
import Mathlib.Algebra.BigOperators.Fin
import Mathlib.Algebra.Order.Floor.Ring
import Mathlib.Analysis.SpecialFunctions.Gamma.Basic
import Mathlib.Analysis.SpecialFunctions.Pow.Real

/-!
Model of `/repo/src/eustace/analysis/advanced_standard/stats/spde/lattice.py`: basis functions, lattices in any number of
dimensions, the search for nearby nodes, the design matrix, the precision matrix and its derivative.

Simplified throughout: float64 is replaced by the reals, sparse matrices by functions of two indices, `alpha` is a natural
number, `wrap_dimensions` is a list of Python booleans (`None` is a list of `False`).  The order in which the search returns
the nodes is left out.  A division by zero gives infinity or nan in numpy; where this decides a comparison the model says so,
otherwise the theorems exclude it.
-/

namespace Verif.Eustace.Lattice

open Matrix Verif.Eustace.Linear

noncomputable section

/-- One multi index for each node, or one coordinate for each dimension. -/
abbrev Multi (D : Nat) (α : Type) := Fin D → α

/-- The arguments `dimension_specification` and `wrap_dimensions` of `LatticeMesh` (lattice.py 93-94). -/
structure Lattice (D : Nat) where
  lo : Multi D ℝ
  hi : Multi D ℝ
  n : Multi D Nat
  wrap : Multi D Bool

/-- A Python boolean in arithmetic (lattice.py 141-142). -/
def asNumber (b : Bool) : ℝ := if b then 1 else 0

namespace Lattice

variable {D : Nat} (L : Lattice D)

/-- `node_spacing` (lattice.py 132-141). -/
def spacing (k : Fin D) : ℝ := (L.hi k - L.lo k) / ((L.n k + asNumber (L.wrap k)) - 1.0)

/-- The upper `node_bounds` (lattice.py 130, 142). -/
def nodeHi (k : Fin D) : ℝ := L.hi k - asNumber (L.wrap k) * L.spacing k

/-- `n_nodes` (lattice.py 154). -/
def size : Nat := ∏ k, L.n k

end Lattice

/-- `numpy.linspace(a, b, n)[i]` (lattice.py 145). -/
def linspace (a b : ℝ) (n i : Nat) : ℝ := a + i * ((b - a) / (n - 1))

/-- The distance in the one dimensional index between neighbours in dimension `k` when the first dimension varies fastest. -/
def stride {D : Nat} (n : Multi D Nat) (k : Fin D) : Nat := ∏ j : Fin k, n (Fin.castLE k.is_lt.le j)

/-- `numpy.ravel_multi_index(..., order='F')` (lattice.py 209): the first dimension varies fastest. -/
def ravelF {D : Nat} (n : Multi D Nat) (i : Multi D Nat) : Nat := ∑ k, i k * stride n k

/-- `numpy.ravel_multi_index(...)` (lattice.py 626-627, 674-675), default order `C`: the last dimension varies fastest. -/
def ravelC {D : Nat} (n : Multi D Nat) (i : Multi D Nat) : Nat := ravelF (n ∘ Fin.rev) (i ∘ Fin.rev)

/-- The multi index of row `c` of `nodes` (lattice.py 148-152): `meshgrid` with `indexing='ij'`, transposed and reshaped, so
that the first dimension varies fastest. -/
def rowIndex {D : Nat} (n : Multi D Nat) (c : Nat) : Multi D Nat := fun k => c / stride n k % n k

/-- `nodes[c]` (lattice.py 145-152). -/
def nodes {D : Nat} (L : Lattice D) (c : Nat) : Multi D ℝ := fun k =>
  linspace (L.lo k) (L.nodeHi k) (L.n k) (rowIndex L.n c k)

/-- The basis functions of lattice.py 10-83. -/
inductive Basis
  | cone
  | wendlandC4
  | piecewiseLinear

/-- `numpy.linalg.norm` of one row (lattice.py 44, 59). -/
def norm {D : Nat} (v : Multi D ℝ) : ℝ := Real.sqrt (∑ k, v k ^ 2)

/-- `x[x > 1.0] = 1.0` (lattice.py 46, 61, 78). -/
def clip (x : ℝ) : ℝ := if 1.0 < x then 1.0 else x

/-- `evaluate` of the three classes of basis functions (lattice.py 31-48, 57-65, 74-83), for one row of distances. -/
def evaluate {D : Nat} (span : Multi D ℝ) (distance : Multi D ℝ) : Basis → ℝ
  | .cone => 1.0 - clip (norm fun k => distance k / span k)
  | .wendlandC4 =>
    let r := clip (norm fun k => distance k / span k)
    (1.0 - r) ^ 6 * (35.0 * r ^ 2 + 18.0 * r + 3.0) / 3
  | .piecewiseLinear => ∏ k, (1.0 - clip |distance k / span k|)

/-- `basis_span` set from `overlap_factor` (lattice.py 156-157). -/
def spanOf {D : Nat} (L : Lattice D) (overlap : ℝ) : Multi D ℝ := fun k => L.spacing k * overlap

/-- `nearest_nodes` for one location (lattice.py 171-175). -/
def nearest {D : Nat} (L : Lattice D) (x : Multi D ℝ) (k : Fin D) : ℤ :=
  ⌊(x k - (L.lo k - 0.5 * L.spacing k)) / L.spacing k⌋

/-- `node_index_search_range` (lattice.py 178-179). -/
def searchRange {D : Nat} (L : Lattice D) (span : Multi D ℝ) (k : Fin D) : ℤ := ⌊span k / L.spacing k + 0.5⌋

/-- Node index after wrapping (lattice.py 193-196). -/
def wrapIndex {D : Nat} (L : Lattice D) (k : Fin D) (i : ℤ) : ℤ := if L.wrap k then i % L.n k else i

/-- The tests of lattice.py 200-202 in one dimension; with one node the division gives infinity or nan and the test fails. -/
def inBounds {D : Nat} (L : Lattice D) (k : Fin D) (i : ℤ) : Prop :=
  0 ≤ i ∧ (L.n k : ℝ) - 1.0 ≠ 0 ∧ (i : ℝ) / ((L.n k : ℝ) - 1.0) ≤ 1

/-- The one dimensional node indices which `locate_nearby_basis_indices` returns for one location (lattice.py 160-211), as a
set. -/
def nearby {D : Nat} (L : Lattice D) (span x : Multi D ℝ) : Set Nat :=
  {c | ∃ shift : Multi D ℤ,
    (∀ k, -searchRange L span k ≤ shift k ∧ shift k < searchRange L span k + 1) ∧
    (∀ k, inBounds L k (wrapIndex L k (nearest L x k + shift k))) ∧
    c = ravelF L.n fun k => (wrapIndex L k (nearest L x k + shift k)).toNat}

/-- `x % y` of numpy for reals: the result has the sign of `y`. -/
def pmod (x y : ℝ) : ℝ := x - y * ⌊x / y⌋

/-- Distances in wrapped dimensions (lattice.py 248-259). -/
def wrapDistance {D : Nat} (L : Lattice D) (d : Multi D ℝ) : Multi D ℝ := fun k =>
  if L.wrap k then
    let span := L.n k * L.spacing k
    let d1 := pmod (d k) span
    if span / 2.0 < d1 then pmod d1 (-span) else d1
  else d k

open Classical in
/-- One row of `build_A` (lattice.py 213-281). -/
def buildARow {D : Nat} (L : Lattice D) (b : Basis) (span x : Multi D ℝ) (c : Nat) : ℝ :=
  if c ∈ nearby L span x then evaluate span (wrapDistance L fun k => x k - nodes L c k) b else 0

/-- `build_A` (lattice.py 213-281). -/
def buildA {D m : Nat} (L : Lattice D) (b : Basis) (span : Multi D ℝ) (locations : Fin m → Multi D ℝ) :
    Matrix (Fin m) (Fin L.size) ℝ :=
  Matrix.of fun r c => buildARow L b span (locations r) c.val

/-- `dim_scales` (lattice.py 593-596, 655-658), with one value of `H` for each dimension. -/
def dimScale {D : Nat} (L : Lattice D) (H : Multi D ℝ) (d : Fin D) : ℝ := H d / L.spacing d ^ 2

/-- The pairs of multi indices linked in dimension `d` with wrapping (lattice.py 608-623). -/
def wrappedPairs {D : Nat} (n : Multi D Nat) (d : Fin D) : Set (Multi D Nat × Multi D Nat) :=
  {p | ∃ m : Multi D Nat, (∀ k, m k < n k) ∧ p = (Function.update m d (((m d : ℤ) - 1) % n d).toNat, m)}

/-- The pairs of multi indices linked in dimension `d` without wrapping (lattice.py 613-619, 665-672). -/
def sequentialPairs {D : Nat} (n : Multi D Nat) (d : Fin D) : Set (Multi D Nat × Multi D Nat) :=
  {p | ∃ m : Multi D Nat, (∀ k, m k < n k) ∧ m d + 1 < n d ∧ p = (m, Function.update m d (m d + 1))}

/-- The pairs for the precision (lattice.py 603-619). -/
def linkedPairs {D : Nat} (L : Lattice D) (d : Fin D) : Set (Multi D Nat × Multi D Nat) :=
  if L.wrap d then wrappedPairs L.n d else sequentialPairs L.n d

open Classical in
/-- `Q_neighbour[inds_i, inds_j] = v; Q_neighbour[inds_j, inds_i] = v` (lattice.py 626-631, 674-678). -/
def assign {D N : Nat} (n : Multi D Nat) (pairs : Set (Multi D Nat × Multi D Nat)) (v : ℝ) (Q : Mat N) : Mat N :=
  Matrix.of fun a b =>
    if ∃ p ∈ pairs, (a.val = ravelC n p.1 ∧ b.val = ravelC n p.2) ∨ (a.val = ravelC n p.2 ∧ b.val = ravelC n p.1) then v
    else Q a b

/-- `Q_neighbour` (lattice.py 598, 601-631 and 660, 663-678), for the given pairs. -/
def neighbour {D : Nat} (L : Lattice D) (H : Multi D ℝ) (pairs : Fin D → Set (Multi D Nat × Multi D Nat)) : Mat L.size :=
  (List.finRange D).foldl (fun Q d => assign L.n (pairs d) (-dimScale L H d) Q) 0

/-- `Q_diagonal + Q_neighbour` (lattice.py 599, 633 and 661, 682). -/
def operator {D : Nat} (L : Lattice D) (H : Multi D ℝ) (pairs : Fin D → Set (Multi D Nat × Multi D Nat))
    (kappa : Mat L.size) : Mat L.size :=
  kappa * 1 * kappa + (∑ d, 2.0 * dimScale L H d) • (1 : Mat L.size) + neighbour L H pairs

/-- `build_Q_native` (lattice.py 551-645). -/
def buildQNative {D : Nat} (L : Lattice D) (H : Multi D ℝ) (kappa tau : Mat L.size) (alpha : Nat) :
    Except PyErr (Mat L.size) :=
  let Q := operator L H (linkedPairs L) kappa
  let s := ∏ k, L.spacing k
  if alpha = 2 then .ok (s • (tau * (Qᵀ * Q) * tau))
  else if 2 < alpha then .error .notImplemented
  else .ok (s • (tau * Q * tau))

/-- `build_dQdp_native` (lattice.py 647-703); for other orders than one and two no derivative is assigned. -/
def buildDQdpNative {D : Nat} (L : Lattice D) (H : Multi D ℝ) (kappa tau dkappa dtau : Mat L.size) (alpha : Nat) :
    Except PyErr (Mat L.size) :=
  let K := operator L H (sequentialPairs L.n) kappa
  let dK := dkappa * 1 * kappa + kappa * 1 * dkappa
  let s := ∏ k, L.spacing k
  if alpha = 1 then .ok (s • (dtau * K * tau + tau * dK * tau + tau * K * dtau))
  else if alpha = 2 then
    .ok (s • (dtau * K * K * tau + tau * dK * K * tau + tau * K * dK * tau + tau * K * K * dtau))
  else if 2 < alpha then .error .notImplemented
  else .error .nameError

/-- `nu` (lattice.py 447-448, 521-522). -/
def nuOf (D alpha : Nat) : ℝ := alpha - D / 2.0

/-- `b0_kappa` (lattice.py 454, 531), with `b0_rho` zero. -/
def b0Kappa (D alpha : Nat) : ℝ :=
  let b0Rho : ℝ := 0.0
  Real.log (8.0 * nuOf D alpha) / 2.0 - b0Rho

/-- `b0_tau` (lattice.py 455, 532), with `b0_sigma` zero. -/
def b0Tau (D alpha : Nat) : ℝ :=
  let b0Sigma : ℝ := 0.0
  0.5 * Real.log (Real.Gamma (nuOf D alpha) / (Real.Gamma alpha * (4 * Real.pi) ^ ((0.5 : ℝ) * D)))
    - b0Sigma - nuOf D alpha * b0Kappa D alpha

/-- `kappa_design_matrix` (lattice.py 457, 534). -/
def kappaDesign {n p : Nat} (rho : Matrix (Fin n) (Fin p) ℝ) : Matrix (Fin n) (Fin p) ℝ := -rho

/-- `tau_design_matrix` (lattice.py 458, 535). -/
def tauDesign {n p : Nat} (D alpha : Nat) (sigma rho : Matrix (Fin n) (Fin p) ℝ) : Matrix (Fin n) (Fin p) ℝ :=
  -sigma - nuOf D alpha • kappaDesign rho

/-- The vector `kappa` (lattice.py 461, 538). -/
def kappaOf {n p : Nat} (D : Nat) (theta : Vec p) (alpha : Nat) (rho : Matrix (Fin n) (Fin p) ℝ) : Vec n := fun i =>
  Real.exp (b0Kappa D alpha + (kappaDesign rho *ᵥ theta) i)

/-- The vector `tau` (lattice.py 462, 539). -/
def tauOf {n p : Nat} (D : Nat) (theta : Vec p) (alpha : Nat) (sigma rho : Matrix (Fin n) (Fin p) ℝ) : Vec n := fun i =>
  Real.exp (b0Tau D alpha + (tauDesign D alpha sigma rho *ᵥ theta) i)

/-- `build_Q` (lattice.py 392-475) with all arguments given; `nu` is not checked here, the logarithm of a number which is not
positive gives nan in numpy. -/
def buildQ {D : Nat} (L : Lattice D) {p : Nat} (theta : Vec p) (sigma rho : Matrix (Fin L.size) (Fin p) ℝ) (alpha : Nat)
    (H : Multi D ℝ) : Except PyErr (Mat L.size) :=
  buildQNative L H (Matrix.diagonal (kappaOf D theta alpha rho)) (Matrix.diagonal (tauOf D theta alpha sigma rho)) alpha

/-- `build_dQdp` (lattice.py 477-549). -/
def buildDQdp {D : Nat} (L : Lattice D) {p : Nat} (theta : Vec p) (sigma rho : Matrix (Fin L.size) (Fin p) ℝ) (alpha : Nat)
    (H : Multi D ℝ) (j : Fin p) : Except PyErr (Mat L.size) :=
  if 2 * alpha ≤ D then .error .valueError
  else
    let kappa := kappaOf D theta alpha rho
    let tau := tauOf D theta alpha sigma rho
    let dkappa := fun i => kappaDesign rho i j * kappa i
    let dtau := fun i => tauDesign D alpha sigma rho i j * tau i
    buildDQdpNative L H (Matrix.diagonal kappa) (Matrix.diagonal tau) (Matrix.diagonal dkappa) (Matrix.diagonal dtau) alpha

/-- `sigma_design_matrix_stationary` (lattice.py 365-371). -/
def sigmaStationary (n : Nat) : Matrix (Fin n) (Fin 2) ℝ := Matrix.of fun _ j => if j = 0 then 1.0 else 0

/-- `rho_design_matrix_stationary` (lattice.py 373-379). -/
def rhoStationary (n : Nat) : Matrix (Fin n) (Fin 2) ℝ := Matrix.of fun _ j => if j = 1 then 1.0 else 0

/-- `build_Q_stationary` (lattice.py 381-384). -/
def buildQStationary {D : Nat} (L : Lattice D) (logSigma logRho : ℝ) (alpha : Nat) (H : Multi D ℝ) :
    Except PyErr (Mat L.size) :=
  buildQ L ![logSigma, logRho] (sigmaStationary _) (rhoStationary _) alpha H

/-- `build_dQdp_stationary` (lattice.py 386-389). -/
def buildDQdpStationary {D : Nat} (L : Lattice D) (logSigma logRho : ℝ) (alpha : Nat) (H : Multi D ℝ) (j : Fin 2) :
    Except PyErr (Mat L.size) :=
  buildDQdp L ![logSigma, logRho] (sigmaStationary _) (rhoStationary _) alpha H j

end

end Verif.Eustace.Lattice
