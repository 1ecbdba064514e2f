import Verif.Eustace.Elements.Pos
import Verif.Eustace.Elements.HyperProps
import Verif.Eustace.Elements.Trees
import Verif.Eustace.SphereSpde.Props
import Verif.Eustace.SphereSpde.Derivative
import Verif.Eustace.Lattice.Precision
import Verif.Eustace.Lattice.Derivative

/-!
C39, C90: prior precisions of all elements.
-/

namespace Verif.Eustace.Elements

open Verif Verif.Eustace.Mesh Verif.Eustace.Locator Verif.Eustace.Lattice Finset

noncomputable section

/-! ### Specification -/

mutual

/-- Hyperparameters which belong to an element: their class, the number of their values, and for combinations one for each
part. -/
def Fits : Element → Hyper → Prop
  | .bias _ _, .covariate _ => True
  | .grandMean, .covariate _ => True
  | .geography _, .covariate _ => True
  | .latitudeHarmonics, .combination parts => parts.length = 4 ∧ ∀ h ∈ parts, ∃ v, h = .covariate v
  | .latitudeSpline _ _ _ _, .stationary _ _ => True
  | .stationary _, .stationary _ _ => True
  | .nonstationary m, .expanded s r => s.length = m.points.length ∧ r.length = m.points.length
  | .spatialBias _ _, .stationary _ _ => True
  | .seasonal _ n mean, .seasonal h => 2 * (n + mean.toNat) ≤ h.length
  | .kronecker _, .spaceTime _ _ _ => True
  | .annualKronecker _, .spaceTime _ _ _ => True
  | .factor _, .spaceTime _ _ _ => True
  | .combination elements, .combination parts => FitsAll elements parts
  | _, _ => False

def FitsAll : List Element → List Hyper → Prop
  | [], [] => True
  | e :: rest, h :: parts => Fits e h ∧ FitsAll rest parts
  | _, _ => False

end

mutual

/-- Elements for which precisions can be computed: orders which are implemented, at least one seasonal component, and at least
one part of a combination. -/
def Allowed : Element → Prop
  | .latitudeSpline _ _ alpha _ => alpha ≤ 2
  | .seasonal _ n mean => 0 < seasonalCount n mean
  | .kronecker s => 2 ≤ s.alpha
  | .annualKronecker s => 2 ≤ s.alpha
  | .factor s => s.alpha = 2
  | .combination parts => parts ≠ [] ∧ AllowedAll parts
  | _ => True

def AllowedAll : List Element → Prop
  | [] => True
  | e :: rest => Allowed e ∧ AllowedAll rest

end

mutual

/-- Meshes are sound and lattices proper, and the second order coefficients are not negative. -/
def Solid : Element → Prop
  | .latitudeSpline L _ _ H => Lattice.Proper L ∧ ∀ d, 0 ≤ H d
  | .stationary m => SphereSpde.Sound m
  | .nonstationary m => SphereSpde.Sound m
  | .spatialBias _ m => SphereSpde.Sound m
  | .seasonal m _ _ => SphereSpde.Sound m
  | .kronecker s => SphereSpde.Sound s.mesh ∧ Lattice.Proper s.line ∧ ∀ d, 0 ≤ s.H d
  | .annualKronecker s => SphereSpde.Sound s.mesh ∧ Lattice.Proper s.line ∧ ∀ d, 0 ≤ s.H d
  | .factor s => SphereSpde.Sound s.mesh ∧ Lattice.Proper s.line ∧ ∀ d, 0 ≤ s.H d
  | .combination parts => SolidAll parts
  | _ => True

def SolidAll : List Element → Prop
  | [] => True
  | e :: rest => Solid e ∧ SolidAll rest

end

/-! ### Single precisions -/

/-- A precision which is there, has `n` rows and columns, and is positive definite under a condition. -/
def Good (n : Nat) (c : Prop) (r : Except PyErr Arr) : Prop :=
  ∃ A, r = .ok A ∧ A.rows = n ∧ A.cols = n ∧ (c → Pos n A)

theorem good_sphere (m : Mesh V3) {p : Nat} (theta : Linear.Vec p) {alpha : Nat} (ha : 2 ≤ alpha)
    (sigma rho : Matrix (Fin m.points.length) (Fin p) ℝ) :
    Good m.points.length (SphereSpde.Sound m) (arrOf (SphereSpde.buildQ m theta alpha sigma rho)) := by
  unfold SphereSpde.buildQ
  rw [if_neg (by omega)]
  refine ⟨_, rfl, rfl, rfl, fun hm => pos_ofMatrix (SphereSpde.c45_posDef hm ?_ ?_ alpha)⟩
  · exact fun i => (Real.exp_pos _).ne'
  · exact fun i => (Real.exp_pos _).ne'

theorem good_line (L : Lattice 1) (logSigma logRho : ℝ) {alpha : Nat} (ha : alpha ≤ 2) (H : Multi 1 ℝ) :
    Good L.size (Lattice.Proper L ∧ ∀ d, 0 ≤ H d) (arrOf (Lattice.buildQStationary L logSigma logRho alpha H)) := by
  have hok : ∃ Q, Lattice.buildQStationary L logSigma logRho alpha H = .ok Q := by
    unfold Lattice.buildQStationary buildQ buildQNative
    simp only
    split
    · exact ⟨_, rfl⟩
    · rw [if_neg (by omega)]; exact ⟨_, rfl⟩
  obtain ⟨Q, hQ⟩ := hok
  rw [hQ]
  refine ⟨_, rfl, rfl, rfl, fun hc => ?_⟩
  obtain ⟨Q', hQ', hp, -⟩ := c88_buildQ hc.1 hc.2 ![logSigma, logRho] (sigmaStationary _) (rhoStationary _) ha
  have : Q' = Q := by
    have h2 : Lattice.buildQStationary L logSigma logRho alpha H = .ok Q' := hQ'
    rw [hQ] at h2
    exact (Except.ok.inj h2).symm
  subst this
  exact pos_ofMatrix hp

theorem good_scalar (n : Nat) (v : ℝ) (c : Prop) : Good n c (.ok (Arr.scalar n (Real.exp v))) :=
  ⟨_, rfl, rfl, rfl, fun _ => pos_scalar n (Real.exp_pos _)⟩

theorem good_kron {m n : Nat} {c d : Prop} {r q : Except PyErr Arr} (hr : Good m c r) (hq : Good n d q) :
    Good (m * n) (c ∧ d) (kronOf r q) := by
  obtain ⟨A, rfl, h1, h2, h3⟩ := hr
  obtain ⟨B, rfl, h4, h5, h6⟩ := hq
  refine ⟨Arr.kron B A, rfl, by simp [Arr.kron, h1, h4, Nat.mul_comm], by simp [Arr.kron, h2, h5, Nat.mul_comm], ?_⟩
  intro hc
  rw [Nat.mul_comm]
  exact pos_kron (h6 hc.2) (h3 hc.1)

theorem good_blocks {ns : List Nat} {c : Prop} {rs : List (Except PyErr Arr)} (hne : ns ≠ [])
    (h : List.Forall₂ (fun n r => Good n c r) ns rs) : Good ns.sum c (blocksOf rs) := by
  have : ∃ As, collect rs = .ok As ∧ List.Forall₂ (fun n (A : Arr) => A.rows = n ∧ A.cols = n) ns As ∧
      (c → List.Forall₂ Pos ns As) := by
    clear hne
    induction h with
    | nil => exact ⟨[], rfl, .nil, fun _ => .nil⟩
    | cons h0 _ ih =>
      obtain ⟨A, rfl, h1, h2, h3⟩ := h0
      obtain ⟨As, h4, h5, h6⟩ := ih
      exact ⟨A :: As, by simp [collect, h4], .cons ⟨h1, h2⟩ h5, fun hc => .cons (h3 hc) (h6 hc)⟩
  obtain ⟨As, h1, h2, h3⟩ := this
  refine ⟨⟨ns.sum, ns.sum, Arr.along As⟩, ?_, rfl, rfl, fun hc => pos_along ns As (h3 hc)⟩
  unfold blocksOf
  rw [h1]
  exact blockDiag_eq As ns (by
    rintro rfl
    cases h2
    exact hne rfl) h2

theorem harmonicParameters_ok {harmonics : List ℝ} {index : Nat} (h : 2 * index + 1 < harmonics.length) :
    harmonicParameters harmonics index = .ok (harmonics.getD (2 * index) 0, harmonics.getD (2 * index + 1) 0) := by
  unfold harmonicParameters
  rw [item_eq _ _ (by omega), item_eq _ _ h]

theorem harmonicIndex_lt {n : Nat} {mean : Bool} {component : Nat} (h : component < seasonalCount n mean) :
    harmonicIndex mean component < n + mean.toNat := by
  unfold seasonalCount at h
  unfold harmonicIndex
  omega

theorem Good.mono {n : Nat} {c d : Prop} {r : Except PyErr Arr} (h : Good n c r) (hdc : d → c) : Good n d r := by
  obtain ⟨A, h1, h2, h3, h4⟩ := h
  exact ⟨A, h1, h2, h3, fun hd => h4 (hdc hd)⟩

theorem good_seasonal (m : Mesh V3) (n : Nat) (mean : Bool) (harmonics : List ℝ) (hl : 2 * (n + mean.toNat) ≤ harmonics.length)
    (hpos : 0 < seasonalCount n mean) :
    Good (seasonalCount n mean * m.points.length) (SphereSpde.Sound m) (seasonalPrior m n mean harmonics).precision := by
  have h : List.Forall₂ (fun n r => Good n (SphereSpde.Sound m) r) (List.replicate (seasonalCount n mean) m.points.length)
      ((List.range (seasonalCount n mean)).map (seasonalBlock m mean harmonics)) := by
    rw [List.forall₂_iff_get]
    refine ⟨by simp, fun i h1 h2 => ?_⟩
    have hi : i < seasonalCount n mean := by simpa using h1
    simp only [List.get_eq_getElem, List.getElem_replicate, List.getElem_map, List.getElem_range]
    have := harmonicIndex_lt hi
    unfold seasonalBlock
    rw [harmonicParameters_ok (by omega)]
    exact good_sphere m _ le_rfl _ _
  have := good_blocks (by
    intro h0
    rw [List.replicate_eq_nil_iff] at h0
    omega) h
  rw [List.sum_replicate, smul_eq_mul] at this
  exact this

/-! ### All elements -/

theorem covariateParts_ok (parts : List Hyper) (h : ∀ a ∈ parts, ∃ v, a = .covariate v) :
    ∃ vs : List ℝ, parts = vs.map Hyper.covariate ∧ covariateParts parts = .ok (vs.map fun v => covariatePrior v 1) := by
  induction parts with
  | nil => exact ⟨[], rfl, rfl⟩
  | cons a rest ih =>
    obtain ⟨v, rfl⟩ := h a (by simp)
    obtain ⟨vs, h1, h2⟩ := ih fun b hb => h b (by simp [hb])
    exact ⟨v :: vs, by simp [h1], by simp [covariateParts, h2]⟩

mutual

theorem precision_good : ∀ (e : Element) (h : Hyper), Fits e h → Allowed e →
    ∃ p, e.prior h = .ok p ∧ Good p.size (Solid e) p.precision
  | .bias group k, h, hf, _ => by
    cases h <;> simp only [Fits] at hf
    exact ⟨_, by rw [Element.prior], good_scalar _ _ _⟩
  | .grandMean, h, hf, _ => by
    cases h <;> simp only [Fits] at hf
    exact ⟨_, by rw [Element.prior], good_scalar _ _ _⟩
  | .geography value, h, hf, _ => by
    cases h <;> simp only [Fits] at hf
    exact ⟨_, by rw [Element.prior], good_scalar _ _ _⟩
  | .latitudeHarmonics, h, hf, _ => by
    cases h <;> simp only [Fits] at hf
    rename_i parts
    obtain ⟨vs, h1, h2⟩ := covariateParts_ok parts hf.2
    refine ⟨combinedPrior parts (vs.map fun v => covariatePrior v 1), ?_, ?_⟩
    · simp only [Element.prior]
      rw [if_neg (by simp [hf.1, latitudeHarmonics]), h2]
    · have hlen : vs.length = 4 := by rw [← hf.1, h1, List.length_map]
      refine good_blocks (ns := (vs.map fun v => covariatePrior v 1).map Prior.size) ?_ ?_
      · intro h0
        simp only [List.map_eq_nil_iff] at h0
        rw [h0] at hlen
        simp at hlen
      · rw [List.forall₂_map_left_iff, List.forall₂_map_right_iff, List.forall₂_same]
        intro p hp
        obtain ⟨v, -, rfl⟩ := List.mem_map.mp hp
        exact good_scalar 1 _ _
  | .latitudeSpline L span alpha H, h, hf, ha => by
    cases h <;> simp only [Fits] at hf
    simp only [Allowed] at ha
    refine ⟨_, by rw [Element.prior], ?_⟩
    simp only [Solid]
    exact good_line L _ _ ha H
  | .stationary m, h, hf, _ => by
    cases h <;> simp only [Fits] at hf
    refine ⟨_, by rw [Element.prior], ?_⟩
    simp only [Solid]
    exact good_sphere m _ le_rfl _ _
  | .nonstationary m, h, hf, _ => by
    cases h <;> simp only [Fits] at hf
    refine ⟨_, by rw [Element.prior], ?_⟩
    simp only [Solid, nonstationaryPrior]
    rw [if_neg (by simp [hf.1, hf.2])]
    exact good_sphere m _ le_rfl _ _
  | .spatialBias group m, h, hf, _ => by
    cases h <;> simp only [Fits] at hf
    refine ⟨_, by rw [Element.prior], ?_⟩
    simp only [Solid]
    exact good_sphere m _ le_rfl _ _
  | .seasonal m n mean, h, hf, ha => by
    cases h <;> simp only [Fits] at hf
    simp only [Allowed] at ha
    refine ⟨_, by rw [Element.prior], ?_⟩
    simp only [Solid]
    exact good_seasonal m n mean _ hf ha
  | .kronecker s, h, hf, ha => by
    cases h <;> simp only [Fits] at hf
    simp only [Allowed] at ha
    refine ⟨_, by rw [Element.prior], ?_⟩
    simp only [Solid]
    exact good_kron (good_sphere s.mesh _ ha _ _) (good_line s.line _ _ (by omega) s.H)
  | .annualKronecker s, h, hf, ha => by
    cases h <;> simp only [Fits] at hf
    simp only [Allowed] at ha
    refine ⟨_, by rw [Element.prior], ?_⟩
    simp only [Solid]
    exact good_kron (good_sphere s.mesh _ ha _ _) (good_line s.line _ _ (by omega) s.H)
  | .factor s, h, hf, ha => by
    cases h <;> simp only [Fits] at hf
    simp only [Allowed] at ha
    refine ⟨_, by rw [Element.prior], ?_⟩
    simp only [Solid]
    rename_i a b c
    have := good_blocks (ns := [s.mesh.points.length, s.line.size])
      (c := SphereSpde.Sound s.mesh ∧ Lattice.Proper s.line ∧ ∀ d, 0 ≤ s.H d) (by simp)
      (.cons ((good_sphere s.mesh ![a, b] (alpha := s.alpha) (by omega) (SphereSpde.sigmaStationary _)
          (SphereSpde.rhoStationary _)).mono fun hc => hc.1)
        (.cons ((good_line s.line 0.0 c (alpha := s.alpha) (by omega) s.H).mono fun hc => hc.2) .nil))
    simp only [List.sum_cons, List.sum_nil, add_zero] at this
    exact this
  | .combination elements, h, hf, ha => by
    cases h <;> simp only [Fits] at hf
    rename_i parts
    simp only [Allowed] at ha
    obtain ⟨priors, h1, h2⟩ := precisions_good elements parts hf ha.2
    refine ⟨combinedPrior parts priors, ?_, ?_⟩
    · simp only [Element.prior]
      rw [h1]
    · simp only [Solid]
      refine good_blocks (ns := priors.map Prior.size) ?_ ?_
      · intro h0
        rw [List.map_eq_nil_iff] at h0
        subst h0
        have := (priorsOf_forall₂ elements parts [] h1).length_eq
        exact ha.1 (List.length_eq_zero_iff.mp this)
      · rw [List.forall₂_map_left_iff, List.forall₂_map_right_iff, List.forall₂_same]
        exact h2

theorem precisions_good : ∀ (elements : List Element) (parts : List Hyper), FitsAll elements parts → AllowedAll elements →
    ∃ priors, priorsOf elements parts = .ok priors ∧ ∀ p ∈ priors, Good p.size (SolidAll elements) p.precision
  | [], parts, _, _ => ⟨[], by simp [priorsOf], by simp⟩
  | e :: rest, parts, hf, ha => by
    cases parts with
    | nil => simp [FitsAll] at hf
    | cons h parts =>
      simp only [FitsAll] at hf
      simp only [AllowedAll] at ha
      obtain ⟨p, h1, h2⟩ := precision_good e h hf.1 ha.1
      obtain ⟨priors, h3, h4⟩ := precisions_good rest parts hf.2 ha.2
      refine ⟨p :: priors, by simp [priorsOf, h1, h3], ?_⟩
      simp only [SolidAll]
      intro q hq
      rcases List.mem_cons.mp hq with rfl | hq
      · exact h2.mono fun hc => hc.1
      · exact (h4 q hq).mono fun hc => hc.2

end

/-- **C90.**  The prior precision of every element, also of combinations of combinations, is there for hyperparameters which
belong to it, is symmetric positive definite, and has as many rows as the element has state parameters. -/
theorem c90_precision (obs : Obs) (e : Element) (h : Hyper) (hf : Fits e h) (ha : Allowed e) (hs : Solid e) :
    ∃ p A, e.prior h = .ok p ∧ p.precision = .ok A ∧ Pos (e.design obs).size A := by
  obtain ⟨p, h1, A, h2, -, -, h3⟩ := precision_good e h hf ha
  refine ⟨p, A, h1, h2, ?_⟩
  rw [c39_dimension obs e h p h1]
  exact h3 hs

/-- C39: the prior precision of a combination is zero between parts and for each part its own prior precision: as a quadratic
form it is the sum over the parts at their own slices of the state. -/
theorem c39_precision (elements : List Element) (parts : List Hyper) (hf : FitsAll elements parts)
    (ha : Allowed (.combination elements)) :
    ∃ p A priors As, (Element.combination elements).prior (.combination parts) = .ok p ∧ p.precision = .ok A ∧
      priorsOf elements parts = .ok priors ∧
      List.Forall₂ (fun (q : Prior) B => q.precision = .ok B ∧ B.rows = q.size ∧ B.cols = q.size) priors As ∧
      A.rows = (priors.map Prior.size).sum ∧ A.cols = (priors.map Prior.size).sum ∧
      ∀ x : Nat → ℝ, form A.rows A x =
        ((List.range priors.length).map fun k =>
          form (priors.map Prior.size)[k]! (As.getD k (Arr.zero 0 0))
            fun i => x (((priors.map Prior.size).take k).sum + i)).sum := by
  simp only [Allowed] at ha
  obtain ⟨priors, h1, h2⟩ := precisions_good elements parts hf ha.2
  have hAs : ∃ As, List.Forall₂ (fun (q : Prior) (B : Arr) => q.precision = .ok B ∧ B.rows = q.size ∧ B.cols = q.size) priors As := by
    clear h1
    induction priors with
    | nil => exact ⟨[], .nil⟩
    | cons q rest ih =>
      obtain ⟨B, hB, hr, hc, -⟩ := h2 q (by simp)
      obtain ⟨As, hAs⟩ := ih fun r hr => h2 r (by simp [hr])
      exact ⟨B :: As, .cons ⟨hB, hr, hc⟩ hAs⟩
  obtain ⟨As, hAs⟩ := hAs
  refine ⟨combinedPrior parts priors, ⟨(priors.map Prior.size).sum, (priors.map Prior.size).sum, Arr.along As⟩, priors, As,
    ?_, ?_, h1, hAs, rfl, rfl, ?_⟩
  · simp only [Element.prior]
    rw [h1]
  · show blocksOf (priors.map Prior.precision) = _
    unfold blocksOf
    rw [collect_forall₂ (hAs.imp fun _ _ h => h.1)]
    refine blockDiag_eq As (priors.map Prior.size) ?_ ?_
    · rintro rfl
      cases hAs
      have := (priorsOf_forall₂ elements parts [] h1).length_eq
      exact ha.1 (List.length_eq_zero_iff.mp this)
    · rw [List.forall₂_map_left_iff]
      exact hAs.imp fun _ _ h => h.2
  · simp only
    clear h1 h2
    induction hAs with
    | nil => intro x; simp [form]
    | @cons q B rest As h0 _ ih =>
      intro x
      simp only [List.map_cons, List.sum_cons, List.length_cons]
      rw [form_along q.size _ B As h0.2.1 h0.2.2, ih, List.range_succ_eq_map, List.map_cons, List.sum_cons, List.map_map]
      congr 1
      · simp
      · congr 1
        apply List.map_congr_left
        intro k _
        simp [Function.comp, Nat.add_assoc]

/-- A combination of a bias, latitude harmonics and a stationary field on the sphere meets the hypotheses. -/
example : Fits (.combination [.bias "insitu_land" 7, .latitudeHarmonics, .stationary (sphereMesh stableArgsort 2)])
      (.combination [.covariate 1, .combination [.covariate 1, .covariate 2, .covariate 3, .covariate 4], .stationary 0 1]) ∧
    Allowed (.combination [.bias "insitu_land" 7, .latitudeHarmonics, .stationary (sphereMesh stableArgsort 2)]) ∧
    Solid (.combination [.bias "insitu_land" 7, .latitudeHarmonics, .stationary (sphereMesh stableArgsort 2)]) := by
  simp only [Fits, FitsAll, Allowed, AllowedAll, Solid, SolidAll]
  refine ⟨⟨trivial, ⟨rfl, by simp⟩, trivial, trivial⟩, ⟨by simp, trivial, trivial, trivial, trivial⟩, trivial, trivial,
    SphereSpde.c45_mesh stableArgsort good_plain 2 (by norm_num), trivial⟩

end

end Verif.Eustace.Elements
