import Verif.Eustace.Locator.Model
import Verif.Eustace.Linear.Model
import Verif.Py
import Mathlib.Analysis.SpecialFunctions.Gamma.Basic
import Mathlib.Analysis.SpecialFunctions.Pow.Real

/-!
Model of the precision matrices of the SPDE on a triangulated sphere:
`/repo/src/eustace/analysis/advanced_standard/stats/spde/spherical.py` 82-504.

Simplified throughout: float64 is replaced by the reals, sparse matrices by functions of two indices, and the parameter
`alpha` is a natural number.  The shape of a matrix built from triplets is the number of points of the mesh; scipy takes it
from the largest index, which is the same when the last point belongs to a triangle.
-/

namespace Verif.Eustace.SphereSpde

open Matrix Verif.Eustace.Linear Verif.Eustace.Mesh Verif.Eustace.Locator Verif.Eustace.Locator.V3

noncomputable section

/-- `scipy.sparse.coo_matrix((data, (i, j)))` turned into another format (spherical.py 471-472, 501-502): values with the
same position are added. -/
def coo (n : Nat) (triplets : List (Nat × Nat × ℝ)) : Mat n :=
  Matrix.of fun i j => (triplets.map fun t => if t.1 = i.val ∧ t.2.1 = j.val then t.2.2 else 0).sum

/-- `triangle_area` (spherical.py 82-106) for one triangle. -/
def triangleArea (p : V3 × V3 × V3) : ℝ :=
  let edges01 := sub p.2.1 p.1
  let edges02 := sub p.2.2 p.1
  0.5 * len (cross edges01 edges02)

/-- `triangle_edges` (spherical.py 108-145) for one triangle. -/
def triangleEdges (p : V3 × V3 × V3) : V3 × V3 × V3 :=
  (sub p.2.2 p.2.1, sub p.1 p.2.2, sub p.2.1 p.1)

/-- The entries which one triangle gives to `build_Q_C_tilde` (spherical.py 464-469). -/
def massEntries (m : Mesh V3) (t : Tri) : List (Nat × Nat × ℝ) :=
  let dT := triangleArea (corners m t)
  [(t.p0, t.p0, dT / 3.0), (t.p1, t.p1, dT / 3.0), (t.p2, t.p2, dT / 3.0)]

/-- `build_Q_C_tilde` (spherical.py 458-474). -/
def buildCTilde (m : Mesh V3) : Mat m.points.length :=
  coo _ (m.triangles.flatMap (massEntries m))

/-- The entries which one triangle gives to `build_Q_G` (spherical.py 484-499): products of all pairs of edges in row
order, at the indices of the opposite points. -/
def stiffnessEntries (m : Mesh V3) (t : Tri) : List (Nat × Nat × ℝ) :=
  let dT := triangleArea (corners m t)
  let e := triangleEdges (corners m t)
  [(t.p0, t.p0, 1.0 / (4.0 * dT) * dot e.1 e.1), (t.p0, t.p1, 1.0 / (4.0 * dT) * dot e.1 e.2.1),
    (t.p0, t.p2, 1.0 / (4.0 * dT) * dot e.1 e.2.2),
   (t.p1, t.p0, 1.0 / (4.0 * dT) * dot e.2.1 e.1), (t.p1, t.p1, 1.0 / (4.0 * dT) * dot e.2.1 e.2.1),
    (t.p1, t.p2, 1.0 / (4.0 * dT) * dot e.2.1 e.2.2),
   (t.p2, t.p0, 1.0 / (4.0 * dT) * dot e.2.2 e.1), (t.p2, t.p1, 1.0 / (4.0 * dT) * dot e.2.2 e.2.1),
    (t.p2, t.p2, 1.0 / (4.0 * dT) * dot e.2.2 e.2.2)]

/-- `build_Q_G` (spherical.py 476-504). -/
def buildG (m : Mesh V3) : Mat m.points.length :=
  coo _ (m.triangles.flatMap (stiffnessEntries m))

/-- `range(start, alpha, 2)`: the number of rounds (spherical.py 402, 406, 436, 445). -/
def rounds (start alpha : Nat) : Nat := (alpha - start + 1) / 2

/-- The loop of `build_Q_native` (spherical.py 402-403, 406-407). -/
def powerLoop {n : Nat} (K invC : Mat n) : Nat → Mat n → Mat n
  | 0, Q => Q
  | k + 1, Q => powerLoop K invC k (K * invC * Q * invC * K)

/-- `inv_C_tilde` (spherical.py 393, 424). -/
def inverseDiagonal {n : Nat} (C : Mat n) : Mat n := Matrix.diagonal fun i => 1.0 / C i i

/-- `build_Q_native` (spherical.py 382-411), with `C` and `G` in place of the two matrices built from the mesh. -/
def nativeOf {n : Nat} (C G : Mat n) (kappa tau : Mat n) (alpha : Nat) : Mat n :=
  let invC := inverseDiagonal C
  let K := kappa * C * kappa + G
  let Q :=
    if alpha % 2 = 0 then powerLoop K invC (rounds 4 alpha) (K * invC * K)
    else powerLoop K invC (rounds 3 alpha) K
  tau * Q * tau

/-- `build_Q_native` (spherical.py 382-411). -/
def buildQNative (m : Mesh V3) (kappa tau : Mat m.points.length) (alpha : Nat) : Mat m.points.length :=
  nativeOf (buildCTilde m) (buildG m) kappa tau alpha

/-- The loop of `build_dQdp_native` (spherical.py 436-441, 445-450): the pair of `dQdp` and `Q`. -/
def derivativePowerLoop {n : Nat} (K invC dK : Mat n) : Nat → Mat n → Mat n → Mat n × Mat n
  | 0, dQ, Q => (dQ, Q)
  | k + 1, dQ, Q =>
    derivativePowerLoop K invC dK k
      (dK * invC * Q * invC * K + K * invC * dQ * invC * K + K * invC * Q * invC * dK)
      (K * invC * Q * invC * K)

/-- `build_dQdp_native` (spherical.py 413-456), with `C` and `G` in place of the two matrices built from the mesh. -/
def derivativeNativeOf {n : Nat} (C G : Mat n) (kappa tau dkappa dtau : Mat n) (alpha : Nat) : Mat n :=
  let invC := inverseDiagonal C
  let K := kappa * C * kappa + G
  let dK := dkappa * C * kappa + kappa * C * dkappa
  let r :=
    if alpha % 2 = 0 then
      derivativePowerLoop K invC dK (rounds 4 alpha) (dK * invC * K + K * invC * dK) (K * invC * K)
    else derivativePowerLoop K invC dK (rounds 3 alpha) dK K
  dtau * r.2 * tau + tau * r.1 * tau + tau * r.2 * dtau

/-- `build_dQdp_native` (spherical.py 413-456). -/
def buildDQdpNative (m : Mesh V3) (kappa tau dkappa dtau : Mat m.points.length) (alpha : Nat) : Mat m.points.length :=
  derivativeNativeOf (buildCTilde m) (buildG m) kappa tau dkappa dtau alpha

/-- `nu` (spherical.py 274-275, 343-344): the dimension is two. -/
def nuOf (alpha : Nat) : ℝ := alpha - 2 / 2.0

/-- `b0_kappa` (spherical.py 284, 353), with `b0_rho` zero. -/
def b0Kappa (alpha : Nat) : ℝ :=
  let b0Rho : ℝ := 0.0
  Real.log (8.0 * nuOf alpha) / 2.0 - b0Rho

/-- `b0_tau` (spherical.py 285, 354), with `b0_sigma` zero. -/
def b0Tau (alpha : Nat) : ℝ :=
  let b0Sigma : ℝ := 0.0
  0.5 * Real.log (Real.Gamma (nuOf alpha) / (Real.Gamma alpha * (4 * Real.pi) ^ ((0.5 : ℝ) * 2)))
    - b0Sigma - nuOf alpha * b0Kappa alpha

/-- `kappa_design_matrix` (spherical.py 287, 356). -/
def kappaDesign {n p : Nat} (rho : Matrix (Fin n) (Fin p) ℝ) : Matrix (Fin n) (Fin p) ℝ := -rho

/-- `tau_design_matrix` (spherical.py 288, 357). -/
def tauDesign {n p : Nat} (alpha : Nat) (sigma rho : Matrix (Fin n) (Fin p) ℝ) : Matrix (Fin n) (Fin p) ℝ :=
  -sigma - nuOf alpha • kappaDesign rho

/-- The vector `kappa` (spherical.py 291, 360). -/
def kappaOf {n p : Nat} (theta : Vec p) (alpha : Nat) (rho : Matrix (Fin n) (Fin p) ℝ) : Vec n := fun i =>
  Real.exp (b0Kappa alpha + (kappaDesign rho *ᵥ theta) i)

/-- The vector `tau` (spherical.py 292, 361). -/
def tauOf {n p : Nat} (theta : Vec p) (alpha : Nat) (sigma rho : Matrix (Fin n) (Fin p) ℝ) : Vec n := fun i =>
  Real.exp (b0Tau alpha + (tauDesign alpha sigma rho *ᵥ theta) i)

/-- `build_Q` (spherical.py 227-299). -/
def buildQ (m : Mesh V3) {p : Nat} (theta : Vec p) (alpha : Nat)
    (sigma rho : Matrix (Fin m.points.length) (Fin p) ℝ) : Except PyErr (Mat m.points.length) :=
  if 2 * alpha ≤ 2 then .error .valueError
  else .ok (buildQNative m (Matrix.diagonal (kappaOf theta alpha rho)) (Matrix.diagonal (tauOf theta alpha sigma rho))
    alpha)

/-- `dQ_parameters` (spherical.py 364-365). -/
def unitParameter {p : Nat} (j : Fin p) : Vec p := Function.update 0 j 1.0

/-- `build_dQdp` (spherical.py 301-378). -/
def buildDQdp (m : Mesh V3) {p : Nat} (theta : Vec p) (alpha : Nat)
    (sigma rho : Matrix (Fin m.points.length) (Fin p) ℝ) (j : Fin p) : Except PyErr (Mat m.points.length) :=
  if 2 * alpha ≤ 2 then .error .valueError
  else
    let kappa := kappaOf theta alpha rho
    let tau := tauOf theta alpha sigma rho
    let dkappa := fun i => (kappaDesign rho *ᵥ unitParameter j) i * kappa i
    let dtau := fun i => (tauDesign alpha sigma rho *ᵥ unitParameter j) i * tau i
    .ok (buildDQdpNative m (Matrix.diagonal kappa) (Matrix.diagonal tau) (Matrix.diagonal dkappa) (Matrix.diagonal dtau)
      alpha)

/-- `sigma_design_matrix_stationary` (spherical.py 147-155). -/
def sigmaStationary (n : Nat) : Matrix (Fin n) (Fin 2) ℝ := Matrix.of fun _ j => if j = 0 then 1.0 else 0

/-- `rho_design_matrix_stationary` (spherical.py 157-165). -/
def rhoStationary (n : Nat) : Matrix (Fin n) (Fin 2) ℝ := Matrix.of fun _ j => if j = 1 then 1.0 else 0

/-- `build_Q_stationary` (spherical.py 167-173). -/
def buildQStationary (m : Mesh V3) (logSigma logRho : ℝ) (alpha : Nat) : Except PyErr (Mat m.points.length) :=
  buildQ m ![logSigma, logRho] alpha (sigmaStationary _) (rhoStationary _)

/-- `build_dQdp_stationary` (spherical.py 175-181). -/
def buildDQdpStationary (m : Mesh V3) (logSigma logRho : ℝ) (alpha : Nat) (j : Fin 2) :
    Except PyErr (Mat m.points.length) :=
  buildDQdp m ![logSigma, logRho] alpha (sigmaStationary _) (rhoStationary _) j

/-- `sigma_design_matrix_expanded` (spherical.py 183-191): identity, then zeros. -/
def sigmaExpanded (n : Nat) : Matrix (Fin n) (Fin (n + n)) ℝ :=
  Matrix.of fun i j => Fin.addCases (fun a => if i = a then 1 else 0) (fun _ => 0) j

/-- `rho_design_matrix_expanded` (spherical.py 193-201): zeros, then identity. -/
def rhoExpanded (n : Nat) : Matrix (Fin n) (Fin (n + n)) ℝ :=
  Matrix.of fun i j => Fin.addCases (fun _ => 0) (fun a => if i = a then 1 else 0) j

/-- `build_Q_expanded` (spherical.py 203-209). -/
def buildQExpanded (m : Mesh V3) (logSigma logRho : Vec m.points.length) (alpha : Nat) :
    Except PyErr (Mat m.points.length) :=
  buildQ m (Fin.addCases logSigma logRho) alpha (sigmaExpanded _) (rhoExpanded _)

/-- `build_dQdp_expanded` (spherical.py 211-224). -/
def buildDQdpExpanded (m : Mesh V3) (logSigma logRho : Vec m.points.length) (alpha : Nat)
    (j : Fin (m.points.length + m.points.length)) : Except PyErr (Mat m.points.length) :=
  buildDQdp m (Fin.addCases logSigma logRho) alpha (sigmaExpanded _) (rhoExpanded _) j

end

end Verif.Eustace.SphereSpde
