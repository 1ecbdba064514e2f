import Verif.Eustace.Elements.PriorProps

/-!
C91, C92: what the elements add to an observation, and the order of the state parameters in designs and priors.
-/

namespace Verif.Eustace.Elements

open Verif Verif.Eustace.Mesh Verif.Eustace.Locator Verif.Eustace.Lattice Finset

noncomputable section

/-! ### Specification -/

/-- The value of observation `i` which an element gives for a state. -/
def Adds (e : Element) (obs : Obs) (x : List ℝ) (value : Nat → ℝ) : Prop :=
  ∃ v, (e.design obs).function (some x) none = .ok v ∧ v.length = obs.locations.length ∧
    ∀ i < obs.locations.length, v.getD i 0 = value i

/-- Interpolation of a spatial field, whose values at the points of the mesh begin at `start` in the state, to the location of
observation `i`. -/
def fieldAt (m : Mesh V3) (obs : Obs) (x : List ℝ) (start i : Nat) : ℝ :=
  ∑ p ∈ range m.points.length, obs.sphereRow m (obs.locations.getD i (0, 0)) p * x.getD (start + p) 0

/-! ### Lemmas -/

theorem adds_of {e : Element} {obs : Obs} {A : Arr} (h : LinearWith (e.design obs) obs.locations.length A) {x : List ℝ}
    (hx : x.length = (e.design obs).size) {value : Nat → ℝ}
    (hv : ∀ i < obs.locations.length, ∑ j ∈ range A.cols, A.get i j * x.getD j 0 = value i) : Adds e obs x value := by
  refine ⟨product A x, ?_, by rw [product_length, h.1], ?_⟩
  · rw [h.2.2.2.2.2 x hx none, if_neg (by simp)]
  · intro i hi
    rw [← hv i hi]
    simp only [product, List.getD, List.getElem?_map, List.getElem?_range (h.1 ▸ hi : i < A.rows), Option.map_some,
      Option.getD_some]

/-- A sum over pairs of a row of a Kronecker product. -/
theorem sum_kron (A B : Arr) (i : Nat) (hA : A.rows = 1) (hi : i < B.rows) (x : List ℝ) :
    ∑ j ∈ range (A.cols * B.cols), (Arr.kron A B).get i j * x.getD j 0 =
      ∑ c ∈ range A.cols, A.get 0 c * ∑ p ∈ range B.cols, B.get i p * x.getD (c * B.cols + p) 0 := by
  have h1 : i / B.rows = 0 := Nat.div_eq_of_lt hi
  have h2 : i % B.rows = i := Nat.mod_eq_of_lt hi
  generalize hn : A.cols = n
  clear hn
  induction n with
  | zero => simp
  | succ n ih =>
    rw [Nat.succ_mul, Finset.sum_range_add, ih, Finset.sum_range_succ]
    congr 1
    rw [Finset.mul_sum]
    apply Finset.sum_congr rfl
    intro p hp
    have hp := Finset.mem_range.1 hp
    have h3 : (n * B.cols + p) / B.cols = n := by
      rw [Nat.mul_comm, Nat.mul_add_div (by omega), Nat.div_eq_of_lt hp, Nat.add_zero]
    have h4 : (n * B.cols + p) % B.cols = p := by rw [Nat.mul_comm, Nat.mul_add_mod, Nat.mod_eq_of_lt hp]
    simp only [Arr.kron, h1, h2, h3, h4]
    ring

/-! ### Values -/

/-- **C91, mean.**  The grand mean adds the same value to all observations. -/
theorem c91_grand_mean (obs : Obs) (x : List ℝ) (hx : x.length = 1) : Adds .grandMean obs x fun _ => x.getD 0 0 := by
  refine adds_of (A := ⟨obs.locations.length, 1, fun _ _ => 1⟩) ?_ (by simpa [Element.design, grandMeanDesign, linearDesign]) ?_
  · simp only [Element.design]
    exact linearDesign_with _ _ _ rfl rfl
  · intro i _
    simp

/-- **C91, latitude.**  The latitude harmonics add, at latitude `φ`, `a cos 2φ + b sin 2φ + c cos 4φ + d sin 4φ`. -/
theorem c91_latitude (obs : Obs) (a b c d : ℝ) :
    Adds .latitudeHarmonics obs [a, b, c, d] fun i =>
      let φ := (obs.locations.getD i (0, 0)).1 * (Real.pi / 180)
      a * Real.cos (2 * φ) + b * Real.sin (2 * φ) + c * Real.cos (4 * φ) + d * Real.sin (4 * φ) := by
  obtain ⟨A, h1, h2, h3, h4⟩ := hstack_ok (latitudeHarmonics.map fun f => Arr.column (obs.locations.map fun l => f l.1))
      obs.locations.length (by simp [latitudeHarmonics]) (by simp [Arr.column, latitudeHarmonics])
  have hc : A.cols = 4 := by rw [h3]; simp [latitudeHarmonics, Arr.column]
  refine adds_of (A := A) ?_ (by simp [Element.design, latitudeHarmonicsDesign, linearDesign, latitudeHarmonics]) ?_
  · simp only [Element.design, latitudeHarmonicsDesign]
    rw [h1]
    exact linearDesign_with _ _ A h2 (by rw [hc]; simp [latitudeHarmonics])
  · intro i hi
    rw [hc, h4]
    simp only [Finset.sum_range_succ, Finset.sum_range_zero, latitudeHarmonics, List.map_cons, List.map_nil, Arr.besides,
      Arr.column, List.getD, List.getElem?_map, List.getElem?_eq_getElem hi, Option.map_some, Option.getD_some,
      latitudeFunction]
    norm_num
    ring_nf

/-- **C91, geography.**  A geographical element adds its covariate at the location times its only state parameter. -/
theorem c91_geography (value : ℝ × ℝ → Except PyErr ℝ) (f : ℝ × ℝ → ℝ) (obs : Obs)
    (hf : ∀ l ∈ obs.locations, value l = .ok (f l)) (a : ℝ) :
    Adds (.geography value) obs [a] fun i => f (obs.locations.getD i (0, 0)) * a := by
  have hc : ∀ l : List (ℝ × ℝ), (∀ a ∈ l, value a = .ok (f a)) → collect (l.map value) = .ok (l.map f) := by
    intro l
    induction l with
    | nil => intro _; rfl
    | cons a r ih =>
      intro h
      simp only [List.map_cons, collect, h a (by simp)]
      rw [ih fun b hb => h b (by simp [hb])]
  refine adds_of (A := Arr.column (obs.locations.map f)) ?_ (by simp [Element.design, geographyDesign, linearDesign]) ?_
  · simp only [Element.design, geographyDesign, hc _ hf]
    exact linearDesign_with _ _ _ (by simp [Arr.column]) rfl
  · intro i hi
    simp [Arr.column, List.getD, hi]

/-- **C91, local field.** -/
theorem c91_local (m : Mesh V3) (obs : Obs) (x : List ℝ) (hx : x.length = m.points.length) :
    Adds (.stationary m) obs x (fieldAt m obs x 0) ∧ Adds (.nonstationary m) obs x (fieldAt m obs x 0) := by
  constructor <;>
  · refine adds_of (A := sphereMatrix m obs) ?_ (by simpa [Element.design, localDesign, linearDesign]) ?_
    · simp only [Element.design]
      exact linearDesign_with _ _ _ rfl rfl
    · intro i _
      simp [sphereMatrix, fieldAt]

/-- **C91, spatial bias.**  A spatial bias adds its field to observations of its group and nothing to others. -/
theorem c91_spatial_bias (group : String) (m : Mesh V3) (obs : Obs) (x : List ℝ) (hx : x.length = m.points.length) :
    Adds (.spatialBias group m) obs x fun i => if obs.effect group = none then 0 else fieldAt m obs x 0 i := by
  cases he : obs.effect group with
  | none =>
    refine adds_of (A := Arr.zero obs.locations.length m.points.length) ?_
      (by simpa [Element.design, spatialBiasDesign, linearDesign]) ?_
    · simp only [Element.design, spatialBiasDesign, he]
      exact linearDesign_with _ _ _ rfl rfl
    · intro i _
      simp [Arr.zero]
  | some pairs =>
    refine adds_of (A := sphereMatrix m obs) ?_ (by simpa [Element.design, spatialBiasDesign, linearDesign]) ?_
    · simp only [Element.design, spatialBiasDesign, he]
      exact linearDesign_with _ _ _ rfl rfl
    · intro i _
      simp [sphereMatrix, fieldAt]

theorem sum_flatMap (f g : Nat → ℝ) (F : Nat → ℝ) (n start : Nat) :
    ∑ c ∈ range (2 * n), ((List.range' start n).flatMap fun k => [f k, g k]).getD c 0 * F c =
      ∑ k ∈ range n, (f (start + k) * F (2 * k) + g (start + k) * F (2 * k + 1)) := by
  induction n generalizing start F with
  | zero => simp
  | succ n ih =>
    rw [show 2 * (n + 1) = 2 * n + 1 + 1 by ring, Finset.sum_range_succ', Finset.sum_range_succ', Finset.sum_range_succ' _ n]
    rw [List.range'_succ, List.flatMap_cons]
    have := ih (fun c => F (c + 2)) (start + 1)
    simp only [List.cons_append, List.nil_append, List.getD_cons_succ, List.getD_cons_zero]
    rw [show (∑ c ∈ range (2 * n), ((List.range' (start + 1) n).flatMap fun k => [f k, g k]).getD c 0 * F (c + 1 + 1)) = _
      from this]
    rw [add_assoc]
    congr 1
    · apply Finset.sum_congr rfl
      intro k _
      rw [show start + 1 + k = start + (k + 1) by ring, show 2 * (k + 1) = 2 * k + 2 by ring,
        show 2 * k + 1 + 2 = 2 * k + 2 + 1 by ring]
    · simp; ring

theorem seasonalList_length (n : Nat) (mean : Bool) (y : ℝ) : (seasonalList n mean y).length = seasonalCount n mean := by
  have : ∀ (l : List Nat) (f g : Nat → ℝ), (l.flatMap fun k => [f k, g k]).length = 2 * l.length := by
    intro l f g
    induction l with
    | nil => rfl
    | cons a r ih => simp only [List.flatMap_cons, List.length_append, List.length_cons, List.length_nil, ih]; omega
  unfold seasonalList seasonalCount
  rw [List.length_append, this, List.length_range']
  cases mean <;> simp <;> omega

theorem seasonal_sum (n : Nat) (mean : Bool) (y : ℝ) (F : Nat → ℝ) :
    ∑ c ∈ range (seasonalCount n mean), (seasonalList n mean y).getD c 0 * F c =
      (if mean then F 0 else 0) +
        ∑ k ∈ range n, (Real.sin ((k + 1 : Nat) * (2 * Real.pi * y)) * F (mean.toNat + 2 * k) +
          Real.cos ((k + 1 : Nat) * (2 * Real.pi * y)) * F (mean.toNat + 2 * k + 1)) := by
  have hs : ∀ k : Nat, sineHarmonic y k = Real.sin (k * (2 * Real.pi * y)) := by
    intro k; unfold sineHarmonic; congr 1; norm_num; ring
  have hc : ∀ k : Nat, cosineHarmonic y k = Real.cos (k * (2 * Real.pi * y)) := by
    intro k; unfold cosineHarmonic; congr 1; norm_num; ring
  unfold seasonalCount seasonalList
  cases mean with
  | false =>
    simp only [Bool.false_eq_true, if_false, List.nil_append, Bool.toNat_false, Nat.add_zero, zero_add]
    rw [sum_flatMap]
    simp only [hs, hc, Nat.add_comm 1]
  | true =>
    simp only [if_true, Bool.toNat_true, List.cons_append, List.nil_append]
    rw [Finset.sum_range_succ']
    simp only [List.getD_cons_succ, List.getD_cons_zero]
    rw [sum_flatMap _ _ (fun c => F (c + 1))]
    simp only [hs, hc, Nat.add_comm 1]
    norm_num
    ring

/-- **C91, season.**  A seasonal element adds its mean field, if it has one, and for each order `k` from one the fields of sine
and cosine times sine and cosine of `2πk` times the decimal year.  The fields follow each other in the state in this order. -/
theorem c91_seasonal (m : Mesh V3) (n : Nat) (mean : Bool) (obs : Obs) (x : List ℝ)
    (hx : x.length = seasonalCount n mean * m.points.length) :
    Adds (.seasonal m n mean) obs x fun i =>
      (if mean then fieldAt m obs x 0 i else 0) +
        ∑ k ∈ range n,
          (Real.sin ((k + 1 : Nat) * (2 * Real.pi * obs.decimalYear)) *
              fieldAt m obs x ((mean.toNat + 2 * k) * m.points.length) i +
            Real.cos ((k + 1 : Nat) * (2 * Real.pi * obs.decimalYear)) *
              fieldAt m obs x ((mean.toNat + 2 * k + 1) * m.points.length) i) := by
  refine adds_of (A := Arr.kron (rowArr (seasonalList n mean obs.decimalYear)) (sphereMatrix m obs)) ?_
    (by simpa [Element.design, seasonalDesign, linearDesign]) ?_
  · simp only [Element.design, seasonalDesign]
    exact linearDesign_with _ _ _ (by simp [Arr.kron, rowArr, sphereMatrix])
      (by simp [Arr.kron, rowArr, sphereMatrix, seasonalList_length])
  · intro i hi
    rw [show (Arr.kron (rowArr (seasonalList n mean obs.decimalYear)) (sphereMatrix m obs)).cols =
      (rowArr (seasonalList n mean obs.decimalYear)).cols * (sphereMatrix m obs).cols from rfl, sum_kron _ _ _ rfl hi]
    have := seasonal_sum n mean obs.decimalYear (fun c => fieldAt m obs x (c * m.points.length) i)
    simp only [zero_mul] at this
    rw [← this]
    simp only [rowArr, seasonalList_length]
    rfl

/-- **C91, season.**  What a seasonal element adds depends on the fraction of the year only. -/
theorem c91_season_periodic (m : Mesh V3) (n : Nat) (mean : Bool) (obs : Obs) (years : ℤ) :
    (Element.seasonal m n mean).design { obs with decimalYear := obs.decimalYear + years } =
      (Element.seasonal m n mean).design obs := by
  have h : seasonalList n mean (obs.decimalYear + years) = seasonalList n mean obs.decimalYear := by
    unfold seasonalList
    congr 1
    refine congrArg (fun f => List.flatMap f (List.range' 1 n)) (funext fun k => ?_)
    have e : (k : ℝ) * 2.0 * Real.pi * (obs.decimalYear + years) =
        (k : ℝ) * 2.0 * Real.pi * obs.decimalYear + ((k * years : ℤ) : ℝ) * (2 * Real.pi) := by
      push_cast; norm_num; ring
    unfold sineHarmonic cosineHarmonic
    rw [e, Real.sin_add_int_mul_two_pi, Real.cos_add_int_mul_two_pi]
  simp only [Element.design, seasonalDesign]
  rw [h]
  rfl

/-- **C91, space and time.**  A space-time element adds the sum over the nodes of its time line of the weight of the node times
the field of the node; the fields of the nodes follow each other in the state.  The time of `annualKronecker` is the decimal
year, that of `kronecker` the day number. -/
theorem c91_kronecker (s : SpaceTime) (obs : Obs) (x : List ℝ) (hx : x.length = s.mesh.points.length * s.line.size) :
    (Adds (.kronecker s) obs x fun i => ∑ t ∈ range s.line.size,
      buildARow s.line .wendlandC4 s.span (fun _ => obs.timeIndex) t * fieldAt s.mesh obs x (t * s.mesh.points.length) i) ∧
    Adds (.annualKronecker s) obs x fun i => ∑ t ∈ range s.line.size,
      buildARow s.line .wendlandC4 s.span (fun _ => obs.decimalYear) t * fieldAt s.mesh obs x (t * s.mesh.points.length) i := by
  have key : ∀ (e : Element) (time : ℝ), e.design obs = kroneckerDesign s time obs →
      Adds e obs x fun i => ∑ t ∈ range s.line.size,
        buildARow s.line .wendlandC4 s.span (fun _ => time) t * fieldAt s.mesh obs x (t * s.mesh.points.length) i := by
    intro e time he
    refine adds_of (A := Arr.kron (lineMatrix s.line s.span [time]) (sphereMatrix s.mesh obs)) ?_
      (by rw [he]; simpa [kroneckerDesign, linearDesign]) ?_
    · rw [he]
      exact linearDesign_with (s.mesh.points.length * s.line.size) obs.locations.length _
        (by simp [Arr.kron, lineMatrix, sphereMatrix]) (by simp [Arr.kron, lineMatrix, sphereMatrix, Nat.mul_comm])
    · intro i hi
      rw [show (Arr.kron (lineMatrix s.line s.span [time]) (sphereMatrix s.mesh obs)).cols =
        (lineMatrix s.line s.span [time]).cols * (sphereMatrix s.mesh obs).cols from rfl, sum_kron _ _ _ rfl hi]
      rfl
  exact ⟨key _ _ (by simp only [Element.design]), key _ _ (by simp only [Element.design])⟩

/-- **C91, latitude spline.** -/
theorem c91_latitude_spline (L : Lattice 1) (span : Multi 1 ℝ) (alpha : Nat) (H : Multi 1 ℝ) (obs : Obs) (x : List ℝ)
    (hx : x.length = L.size) :
    Adds (.latitudeSpline L span alpha H) obs x fun i => ∑ t ∈ range L.size,
      buildARow L .wendlandC4 span (fun _ => (obs.locations.getD i (0, 0)).1) t * x.getD t 0 := by
  refine adds_of (A := lineMatrix L span (obs.locations.map Prod.fst)) ?_
    (by simpa [Element.design, latitudeSplineDesign, linearDesign]) ?_
  · simp only [Element.design]
    exact linearDesign_with _ _ _ (by simp [lineMatrix]) rfl
  · intro i hi
    simp [lineMatrix, List.getD, hi]

/-! ### Periodic time lines -/

/-- **C91, periodic splines.**  On a periodic line the weights do not change when whole periods are added to the time. -/
theorem c91_periodic (L : Lattice 1) (hL : Lattice.Proper L) (hw : L.wrap 0 = true) (span : Multi 1 ℝ) (hs : 0 < span 0)
    (b : Basis) (time : ℝ) (k : ℤ) {c : Nat} (hc : c < L.size) :
    buildARow L b span (fun _ => time + k * (L.hi 0 - L.lo 0)) c = buildARow L b span (fun _ => time) c := by
  have hs' : ∀ j, 0 < span j := fun j => by rw [Subsingleton.elim j 0]; exact hs
  obtain ⟨i, hi, rfl⟩ : ∃ i, IsNode L i ∧ ravelF L.n i = c :=
    ⟨rowIndex L.n c, fun k => rowIndex_lt hc k, ravelF_rowIndex hc⟩
  obtain ⟨δ, hδ⟩ := displacement_exists hL (fun _ => time) hi
  rw [c47_design hL b hs' _ hi hδ]
  apply c47_design hL b hs' _ hi
  intro j
  have := hδ j
  rw [Subsingleton.elim j 0] at this ⊢
  rw [if_pos hw] at this ⊢
  obtain ⟨⟨m, h1⟩, h2⟩ := this
  refine ⟨⟨m + k, ?_⟩, h2⟩
  rw [h1]
  push_cast
  ring

/-! ### Order of the state in the priors -/

/-- **C92, space and time.**  In the prior precision of a space-time element the state parameter of time node `t` and mesh point
`p` stands where the design of `c91_kronecker` has it: at `t` times the number of points plus `p`; the precision between two of
them is the product of the temporal and the spatial precision. -/
theorem c92_kronecker (s : SpaceTime) (a b c : ℝ) {Qs : Matrix (Fin s.mesh.points.length) (Fin s.mesh.points.length) ℝ}
    {Qt : Matrix (Fin s.line.size) (Fin s.line.size) ℝ}
    (hs : SphereSpde.buildQStationary s.mesh a b s.alpha = .ok Qs)
    (ht : Lattice.buildQStationary s.line 0 c 1 s.H = .ok Qt) :
    ∃ A, (kroneckerPrior s a b c).precision = .ok A ∧ ∀ t t' p p',
      A.get (t.val * s.mesh.points.length + p.val) (t'.val * s.mesh.points.length + p'.val) = Qt t t' * Qs p p' := by
  refine ⟨Arr.kron (Arr.ofMatrix Qt) (Arr.ofMatrix Qs), ?_, ?_⟩
  · simp only [kroneckerPrior]
    rw [show Real.log 1.0 = 0 by norm_num, hs, ht]
    rfl
  · intro t t' p p'
    have h3 : ∀ (t : Fin s.line.size) (p : Fin s.mesh.points.length),
        (t.val * s.mesh.points.length + p.val) / s.mesh.points.length = t.val ∧
          (t.val * s.mesh.points.length + p.val) % s.mesh.points.length = p.val := by
      intro t p
      have hp := p.is_lt
      constructor
      · rw [Nat.mul_comm, Nat.mul_add_div (by omega), Nat.div_eq_of_lt hp, Nat.add_zero]
      · rw [Nat.mul_comm, Nat.mul_add_mod, Nat.mod_eq_of_lt hp]
    simp only [Arr.kron, Arr.ofMatrix, (h3 t p).1, (h3 t p).2, (h3 t' p').1, (h3 t' p').2]
    rw [dif_pos ⟨t.is_lt, t'.is_lt⟩, dif_pos ⟨p.is_lt, p'.is_lt⟩]

/-- Entries of equal blocks along the diagonal. -/
theorem along_block (As : List Arr) (n : Nat) (h : ∀ A ∈ As, A.rows = n ∧ A.cols = n) (a b i j : Nat) (ha : a < As.length)
    (hi : i < n) (hj : j < n) :
    Arr.along As (a * n + i) (b * n + j) = if a = b then (As.getD a (Arr.zero 0 0)).get i j else 0 := by
  induction As generalizing a b with
  | nil => simp at ha
  | cons A rest ih =>
    obtain ⟨hr, hc⟩ := h A (by simp)
    cases a with
    | zero =>
      cases b with
      | zero => simp only [Arr.along, hr, hc]; rw [if_pos (by omega)]; simp
      | succ b =>
        have : n ≤ (b + 1) * n + j := by rw [Nat.succ_mul]; omega
        simp only [Arr.along, hr, hc]
        rw [if_neg (by omega), if_neg (by omega), if_neg (by omega)]
    | succ a =>
      have h1 : n ≤ (a + 1) * n + i := by rw [Nat.succ_mul]; omega
      cases b with
      | zero =>
        simp only [Arr.along, hr, hc]
        rw [if_neg (by omega), if_neg (by omega), if_neg (by omega)]
      | succ b =>
        have h2 : n ≤ (b + 1) * n + j := by rw [Nat.succ_mul]; omega
        simp only [Arr.along, hr, hc]
        rw [if_neg (by omega), if_pos ⟨h1, h2⟩, show (a + 1) * n + i - n = a * n + i by rw [Nat.succ_mul]; omega,
          show (b + 1) * n + j - n = b * n + j by rw [Nat.succ_mul]; omega,
          ih (fun B hB => h B (by simp [hB])) a b (by simpa using ha)]
        simp

/-- The pair of hyperparameters which belongs to a component of the season: the first pair to the mean, one pair to sine and
cosine of each order. -/
def pairOf (mean : Bool) : Nat → Nat
  | 0 => 0
  | c + 1 => if mean then c / 2 + 1 else (c + 1) / 2

/-- **C92, season.**  In the prior precision of a seasonal element the fields stand in the order of `c91_seasonal` and are
independent; mean, and sine and cosine of each order, have a pair of hyperparameters each. -/
theorem c92_seasonal (m : Mesh V3) (n : Nat) (mean : Bool) (harmonics : List ℝ)
    (hl : harmonics.length = 2 * (n + mean.toNat)) (hn : 0 < n + mean.toNat) (Q : Nat → Matrix (Fin m.points.length) (Fin m.points.length) ℝ)
    (hQ : ∀ k < n + mean.toNat, SphereSpde.buildQStationary m (harmonics.getD (2 * k) 0) (harmonics.getD (2 * k + 1) 0) 2 = .ok (Q k)) :
    ∃ A, (seasonalPrior m n mean harmonics).precision = .ok A ∧ ∀ c < seasonalCount n mean, ∀ c' (p p' : Fin m.points.length),
      A.get (c * m.points.length + p.val) (c' * m.points.length + p'.val) =
        if c = c' then Q (pairOf mean c) p p' else 0 := by
  have hp : ∀ c, harmonicIndex mean c = pairOf mean c := by
    intro c
    unfold harmonicIndex pairOf
    cases c with
    | zero => cases mean <;> simp
    | succ c => cases mean <;> simp <;> omega
  have hb : ∀ c < seasonalCount n mean, pairOf mean c < n + mean.toNat := by
    intro c hc
    rw [← hp]
    unfold harmonicIndex
    unfold seasonalCount at hc
    cases mean <;> simp at hc ⊢ <;> omega
  have hblock : ∀ c < seasonalCount n mean, seasonalBlock m mean harmonics c = .ok (Arr.ofMatrix (Q (pairOf mean c))) := by
    intro c hc
    have := hb c hc
    unfold seasonalBlock harmonicParameters
    rw [hp, item_eq _ _ (by omega), item_eq _ _ (by omega)]
    simp only []
    rw [hQ _ this]
    rfl
  have hcol : ∀ l : List Nat, (∀ c ∈ l, c < seasonalCount n mean) → collect (l.map (seasonalBlock m mean harmonics)) =
      .ok (l.map fun c => Arr.ofMatrix (Q (pairOf mean c))) := by
    intro l
    induction l with
    | nil => intro _; rfl
    | cons a r ih =>
      intro h
      simp only [List.map_cons, hblock a (h a (by simp)), collect]
      rw [ih fun c hc => h c (by simp [hc])]
  have hpos : 0 < seasonalCount n mean := by unfold seasonalCount; omega
  obtain ⟨k, hk⟩ : ∃ k, seasonalCount n mean = k + 1 := ⟨seasonalCount n mean - 1, by omega⟩
  have hlist : (List.range (seasonalCount n mean)).map (fun c => Arr.ofMatrix (Q (pairOf mean c))) ≠ [] := by
    rw [hk]; simp
  obtain ⟨B, rest, hB⟩ := List.exists_cons_of_ne_nil hlist
  refine ⟨⟨((B :: rest).map Arr.rows).sum, ((B :: rest).map Arr.cols).sum, Arr.along (B :: rest)⟩, ?_, ?_⟩
  · simp only [seasonalPrior]
    rw [hcol _ (by simp), hB]
    rfl
  · intro c hc c' p p'
    show Arr.along (B :: rest) _ _ = _
    rw [← hB, along_block _ m.points.length (by simp [Arr.ofMatrix]) c c' _ _ (by simpa using hc) p.is_lt p'.is_lt]
    congr 1
    simp [List.getD, hc, Arr.ofMatrix]

/-- Two harmonics and a mean with parameters for all of them. -/
example (m : Mesh V3) : ([1, 2, 3, 4, 5, 6] : List ℝ).length = 2 * (2 + true.toNat) ∧ 0 < 2 + true.toNat ∧
    ∃ Q : Nat → Matrix (Fin m.points.length) (Fin m.points.length) ℝ, ∀ k < 2 + true.toNat,
      SphereSpde.buildQStationary m (([1, 2, 3, 4, 5, 6] : List ℝ).getD (2 * k) 0)
        (([1, 2, 3, 4, 5, 6] : List ℝ).getD (2 * k + 1) 0) 2 = .ok (Q k) := by
  have h : ∀ a b, ∃ Q, SphereSpde.buildQStationary m a b 2 = .ok Q := by
    intro a b
    unfold SphereSpde.buildQStationary SphereSpde.buildQ
    rw [if_neg (by omega)]
    exact ⟨_, rfl⟩
  choose Q hQ using h
  exact ⟨by simp, by simp, _, fun k _ => hQ _ _⟩

/-- A periodic line as in the seasonal spline of the model: twelve nodes in a year. -/
example : Lattice.Proper (⟨fun _ => 0, fun _ => 1, fun _ => 12, fun _ => true⟩ : Lattice 1) ∧ (0 : ℝ) < 5 / 24 :=
  ⟨fun _ => ⟨by norm_num, by norm_num⟩, by norm_num⟩

end

end Verif.Eustace.Elements
