import Verif.Eustace.Elements.DesignProps

/-!
C39, C42: designs of elements, also of combinations of combinations.
-/

namespace Verif.Eustace.Elements

open Verif Verif.Eustace.Mesh Verif.Eustace.Locator Verif.Eustace.Lattice Finset

noncomputable section

mutual

/-- An element without factors, whose combinations have parts, for observations which it can be evaluated for: bias indices
in range and a value of the geographical covariate at every location. -/
def Usable (obs : Obs) : Element → Prop
  | .bias group k => ∀ pairs, obs.effect group = some pairs → ∀ p ∈ pairs, p.1 < obs.locations.length ∧ p.2 < k
  | .geography value => ∀ l ∈ obs.locations, ∃ v, value l = .ok v
  | .factor _ => False
  | .combination parts => parts ≠ [] ∧ UsableAll obs parts
  | _ => True

def UsableAll (obs : Obs) : List Element → Prop
  | [] => True
  | e :: rest => Usable obs e ∧ UsableAll obs rest

end

theorem collect_values {β : Type} {f : ℝ × ℝ → Except PyErr β} (l : List (ℝ × ℝ)) (h : ∀ a ∈ l, ∃ v, f a = .ok v) :
    ∃ vs, collect (l.map f) = .ok vs ∧ vs.length = l.length := by
  induction l with
  | nil => exact ⟨[], rfl, rfl⟩
  | cons a rest ih =>
    obtain ⟨v, hv⟩ := h a (by simp)
    obtain ⟨vs, h1, h2⟩ := ih fun b hb => h b (by simp [hb])
    exact ⟨v :: vs, by simp [collect, hv, h1], by simp [h2]⟩

mutual

/-- C39: the design of every element without factors is multiplication by its design matrix, which is also its Jacobian, with
one row for every observation and one column for every state parameter. -/
theorem c39_linear (obs : Obs) : ∀ e : Element, Usable obs e → ∃ A, LinearWith (e.design obs) obs.locations.length A
  | .bias group k, h => by
    simp only [Usable] at h
    cases he : obs.effect group with
    | none =>
      refine ⟨Arr.zero obs.locations.length k, ?_⟩
      simp only [Element.design, biasDesign, he, effectMatrix]
      exact linearDesign_with _ _ _ rfl rfl
    | some pairs =>
      refine ⟨⟨obs.locations.length, k, fun i j => if (i, j) ∈ pairs then 1.0 else 0⟩, ?_⟩
      simp only [Element.design, biasDesign, he, effectMatrix]
      rw [if_pos]
      · exact linearDesign_with _ _ _ rfl rfl
      · rw [List.all_eq_true]
        intro p hp
        simpa using h pairs he p hp
  | .grandMean, _ => by
    simp only [Element.design]
    exact ⟨_, linearDesign_with _ _ _ rfl rfl⟩
  | .geography value, h => by
    simp only [Usable] at h
    obtain ⟨vs, h1, h2⟩ := collect_values obs.locations h
    simp only [Element.design, geographyDesign, h1]
    exact ⟨_, linearDesign_with _ _ (Arr.column vs) h2 rfl⟩
  | .latitudeHarmonics, _ => by
    simp only [Element.design, latitudeHarmonicsDesign]
    obtain ⟨A, h1, h2, h3, -⟩ := hstack_ok (latitudeHarmonics.map fun f => Arr.column (obs.locations.map fun l => f l.1))
      obs.locations.length (by simp [latitudeHarmonics]) (by simp [Arr.column, latitudeHarmonics])
    rw [h1]
    exact ⟨A, linearDesign_with _ _ A h2 (by rw [h3]; simp [latitudeHarmonics, Arr.column])⟩
  | .latitudeSpline L span alpha H, _ => by
    simp only [Element.design]
    exact ⟨_, linearDesign_with _ _ _ (by simp [lineMatrix]) rfl⟩
  | .stationary m, _ => by
    simp only [Element.design]
    exact ⟨_, linearDesign_with _ _ _ rfl rfl⟩
  | .nonstationary m, _ => by
    simp only [Element.design]
    exact ⟨_, linearDesign_with _ _ _ rfl rfl⟩
  | .spatialBias group m, _ => by
    simp only [Element.design, spatialBiasDesign]
    cases obs.effect group with
    | none => exact ⟨_, linearDesign_with _ _ _ rfl rfl⟩
    | some _ => exact ⟨_, linearDesign_with _ _ _ rfl rfl⟩
  | .seasonal m n mean, _ => by
    simp only [Element.design, seasonalDesign]
    refine ⟨_, linearDesign_with _ _ _ (by simp [Arr.kron, rowArr, sphereMatrix]) ?_⟩
    have : ∀ (l : List Nat) (f g : Nat → ℝ), (l.flatMap fun k => [f k, g k]).length = 2 * l.length := by
      intro l f g
      induction l with
      | nil => rfl
      | cons a r ih => simp only [List.flatMap_cons, List.length_append, List.length_cons, List.length_nil, ih]; omega
    show (seasonalList n mean obs.decimalYear).length * m.points.length = _
    congr 1
    unfold seasonalList seasonalCount
    rw [List.length_append, this, List.length_range']
    cases mean <;> simp <;> omega
  | .kronecker s, _ => by
    simp only [Element.design, kroneckerDesign]
    refine ⟨_, (linearDesign_with (s.mesh.points.length * s.line.size) obs.locations.length
      (Arr.kron (lineMatrix s.line s.span [obs.timeIndex]) (sphereMatrix s.mesh obs)) ?_ ?_)⟩
    · simp [Arr.kron, lineMatrix, sphereMatrix]
    · simp [Arr.kron, lineMatrix, sphereMatrix, Nat.mul_comm]
  | .annualKronecker s, _ => by
    simp only [Element.design, kroneckerDesign]
    refine ⟨_, (linearDesign_with (s.mesh.points.length * s.line.size) obs.locations.length
      (Arr.kron (lineMatrix s.line s.span [obs.decimalYear]) (sphereMatrix s.mesh obs)) ?_ ?_)⟩
    · simp [Arr.kron, lineMatrix, sphereMatrix]
    · simp [Arr.kron, lineMatrix, sphereMatrix, Nat.mul_comm]
  | .factor s, h => by simp [Usable] at h
  | .combination parts, h => by
    simp only [Usable] at h
    obtain ⟨As, hAs⟩ := linear_all obs parts h.2
    simp only [Element.design]
    obtain ⟨A, hA, -⟩ := combined_with (designsOf obs parts) As _ (by
      cases parts with
      | nil => exact absurd rfl h.1
      | cons e rest => simp [designsOf]) hAs
    exact ⟨A, hA⟩

theorem linear_all (obs : Obs) : ∀ parts : List Element, UsableAll obs parts →
    ∃ As, List.Forall₂ (fun d A => LinearWith d obs.locations.length A) (designsOf obs parts) As
  | [], _ => ⟨[], by simp [designsOf]⟩
  | e :: rest, h => by
    simp only [UsableAll] at h
    obtain ⟨A, hA⟩ := c39_linear obs e h.1
    obtain ⟨As, hAs⟩ := linear_all obs rest h.2
    exact ⟨A :: As, by simp only [designsOf]; exact .cons hA hAs⟩

end

theorem designsOf_eq (obs : Obs) (parts : List Element) : designsOf obs parts = parts.map fun e => e.design obs := by
  induction parts with
  | nil => rfl
  | cons e rest ih => simp [designsOf, ih]

/-- C39: an observation sees the sum over the parts of a combination: the function of the combination at a state is the sum of
the functions of the elements at consecutive slices of the state. -/
theorem c39_sum (obs : Obs) (parts : List Element) (h : Usable obs (.combination parts)) (xs : List (List ℝ))
    (hx : List.Forall₂ (fun (e : Element) x => x.length = (e.design obs).size) parts xs) :
    ∃ vs, List.Forall₂ (fun (p : Element × List ℝ) v => (p.1.design obs).function (some p.2) none = .ok v) (parts.zip xs) vs ∧
      ((Element.combination parts).design obs).function (some xs.flatten) none =
        .ok (vectorSum obs.locations.length vs) := by
  simp only [Usable] at h
  obtain ⟨hne, hall⟩ := h
  have hd : List.Forall₂ (fun (d : Design) x => x.length = d.size) (designsOf obs parts) xs := by
    rw [designsOf_eq]
    exact List.forall₂_map_left_iff.mpr hx
  have key : ∀ (parts : List Element) (xs : List (List ℝ)), UsableAll obs parts →
      List.Forall₂ (fun (e : Element) x => x.length = (e.design obs).size) parts xs →
      ∃ vs : List (List ℝ), (∀ v ∈ vs, v.length = obs.locations.length) ∧
        List.Forall₂ (fun (p : Element × List ℝ) v => (p.1.design obs).function (some p.2) none = .ok v) (parts.zip xs) vs ∧
        List.Forall₂ (fun (p : Design × List ℝ) v => p.1.function (some p.2) (some false) = .ok v)
          ((designsOf obs parts).zip xs) vs := by
    intro parts
    induction parts with
    | nil => intro xs _ hx; cases hx; exact ⟨[], by simp, by simp, by simp [designsOf]⟩
    | cons e rest ih =>
      intro xs hu hx
      cases hx with
      | @cons _ x0 _ _ h0 hr =>
        simp only [UsableAll] at hu
        obtain ⟨vs, h1, h2, h3⟩ := ih _ hu.2 hr
        obtain ⟨A, hA⟩ := c39_linear obs e hu.1
        refine ⟨product A x0 :: vs, ?_, ?_, ?_⟩
        · intro v hv
          rcases List.mem_cons.mp hv with rfl | hv
          · rw [product_length, hA.1]
          · exact h1 v hv
        · rw [List.zip_cons_cons]
          exact .cons (by rw [hA.2.2.2.2.2 _ h0]; simp) h2
        · rw [designsOf, List.zip_cons_cons]
          exact .cons (by rw [hA.2.2.2.2.2 _ h0]; simp) h3
  obtain ⟨vs, h1, h2, h3⟩ := key parts xs hall hx
  refine ⟨vs, h2, ?_⟩
  simp only [Element.design]
  exact c39_function (designsOf obs parts) xs vs none _ (by
    cases parts with
    | nil => exact absurd rfl hne
    | cons e rest => simp [designsOf]) hd h3 h1

/-- A combination as in the analysis meets the hypotheses. -/
example : Usable ⟨[(10, 20), (30, 40)], 5, 1900.5, fun g => if g = "insitu_land" then some [(0, 3), (1, 0), (1, 2)] else none,
      fun _ _ _ => 0⟩
    (.combination [.grandMean, .latitudeHarmonics, .combination [.bias "insitu_land" 4, .bias "insitu_ocean" 1]]) ∧
    List.Forall₂ (fun (e : Element) (x : List ℝ) => x.length = (e.design
      ⟨[(10, 20), (30, 40)], 5, 1900.5, fun g => if g = "insitu_land" then some [(0, 3), (1, 0), (1, 2)] else none,
        fun _ _ _ => 0⟩).size)
      [.grandMean, .latitudeHarmonics, .combination [.bias "insitu_land" 4, .bias "insitu_ocean" 1]]
      [[1], [2, 3, 4, 5], [6, 7, 8, 9, 10]] := by
  simp [Usable, UsableAll, Element.design, designsOf, grandMeanDesign, latitudeHarmonicsDesign, latitudeHarmonics, linearDesign,
    combinedDesign, biasDesign]
  omega

/-! ### Biases -/

/-- C39: a bias element adds to each observation the biases which affect it, each once. -/
theorem c39_bias (obs : Obs) (group : String) (k : Nat) (pairs : List (Nat × Nat)) (x : List ℝ)
    (he : obs.effect group = some pairs) (hp : ∀ p ∈ pairs, p.1 < obs.locations.length ∧ p.2 < k) (hx : x.length = k) :
    ∃ v, ((Element.bias group k).design obs).function (some x) none = .ok v ∧ v.length = obs.locations.length ∧
      ∀ i < obs.locations.length, v.getD i 0 = ∑ j ∈ (range k).filter (fun j => (i, j) ∈ pairs), x.getD j 0 := by
  simp only [Element.design, biasDesign, he, effectMatrix]
  rw [if_pos (by rw [List.all_eq_true]; intro p hp'; simpa using hp p hp')]
  refine ⟨_, (linearDesign_with k _ ⟨obs.locations.length, k, fun i j => if (i, j) ∈ pairs then 1.0 else 0⟩ rfl rfl).2.2.2.2.2
    x hx none, ?_, ?_⟩
  · simp [product]
  · intro i hi
    simp only [reduceCtorEq, if_false, product, List.getD, List.getElem?_map, List.getElem?_range hi, Option.map_some,
      Option.getD_some]
    rw [Finset.sum_filter]
    apply Finset.sum_congr rfl
    intro j _
    by_cases h : (i, j) ∈ pairs
    · rw [if_pos h, if_pos h]; norm_num
    · rw [if_neg h, if_neg h]; norm_num

/-- An observation with two biases, listed twice, and one with none. -/
example : ∀ p ∈ [(0, 1), (0, 2), (0, 1)], p.1 < 2 ∧ p.2 < 3 := by decide

/-! ### Dimensions -/

theorem priorsOf_forall₂ (elements : List Element) (parts : List Hyper) (priors : List Prior)
    (h : priorsOf elements parts = .ok priors) :
    List.Forall₂ (fun (e : Element) p => ∃ h ∈ parts, e.prior h = .ok p) elements priors := by
  induction elements generalizing parts priors with
  | nil =>
    simp only [priorsOf, Except.ok.injEq] at h
    subst h
    exact .nil
  | cons e rest ih =>
    cases parts with
    | nil => simp [priorsOf] at h
    | cons a parts =>
      simp only [priorsOf] at h
      cases h1 : e.prior a with
      | error err => rw [h1] at h; simp at h
      | ok p =>
        rw [h1] at h
        cases h2 : priorsOf rest parts with
        | error err => rw [h2] at h; simp at h
        | ok l =>
          rw [h2] at h
          simp only [Except.ok.injEq] at h
          subst h
          refine .cons ⟨a, by simp, h1⟩ ((ih parts l h2).imp ?_)
          rintro e p ⟨b, hb, hp⟩
          exact ⟨b, by simp [hb], hp⟩

theorem covariateParts_size (parts : List Hyper) (priors : List Prior) (h : covariateParts parts = .ok priors) :
    (priors.map Prior.size).sum = parts.length := by
  induction parts generalizing priors with
  | nil =>
    simp only [covariateParts, Except.ok.injEq] at h
    subst h
    rfl
  | cons a rest ih =>
    cases a with
    | covariate v =>
      simp only [covariateParts] at h
      cases h2 : covariateParts rest with
      | error e => rw [h2] at h; simp at h
      | ok l =>
        rw [h2] at h
        simp only [Except.ok.injEq] at h
        subst h
        simp only [List.map_cons, List.sum_cons, ih l h2, List.length_cons, covariatePrior]
        omega
    | _ => simp [covariateParts] at h

mutual

/-- C39: the design and the prior of an element have the same number of state parameters. -/
theorem c39_dimension (obs : Obs) : ∀ (e : Element) (h : Hyper) (p : Prior), e.prior h = .ok p → (e.design obs).size = p.size
  | .bias group k, h, p, hp => by
    cases h <;> simp only [Element.prior, Except.ok.injEq, reduceCtorEq] at hp
    subst hp; rfl
  | .grandMean, h, p, hp => by
    cases h <;> simp only [Element.prior, Except.ok.injEq, reduceCtorEq] at hp
    subst hp; rfl
  | .geography value, h, p, hp => by
    cases h <;> simp only [Element.prior, Except.ok.injEq, reduceCtorEq] at hp
    subst hp; rfl
  | .latitudeHarmonics, h, p, hp => by
    cases h <;> simp only [Element.prior, reduceCtorEq] at hp
    rename_i parts
    by_cases hl : parts.length ≠ latitudeHarmonics.length
    · rw [if_pos hl] at hp; simp at hp
    · rw [if_neg hl] at hp
      cases hc : covariateParts parts with
      | error e => rw [hc] at hp; simp at hp
      | ok priors =>
        rw [hc] at hp
        simp only [Except.ok.injEq] at hp
        subst hp
        show latitudeHarmonics.length = (priors.map Prior.size).sum
        rw [covariateParts_size parts priors hc]
        exact (not_not.mp hl).symm
  | .latitudeSpline L span alpha H, h, p, hp => by
    cases h <;> simp only [Element.prior, Except.ok.injEq, reduceCtorEq] at hp
    subst hp; rfl
  | .stationary m, h, p, hp => by
    cases h <;> simp only [Element.prior, Except.ok.injEq, reduceCtorEq] at hp
    subst hp; rfl
  | .nonstationary m, h, p, hp => by
    cases h <;> simp only [Element.prior, Except.ok.injEq, reduceCtorEq] at hp
    subst hp; rfl
  | .spatialBias group m, h, p, hp => by
    cases h <;> simp only [Element.prior, Except.ok.injEq, reduceCtorEq] at hp
    subst hp; rfl
  | .seasonal m n mean, h, p, hp => by
    cases h <;> simp only [Element.prior, Except.ok.injEq, reduceCtorEq] at hp
    subst hp; rfl
  | .kronecker s, h, p, hp => by
    cases h <;> simp only [Element.prior, Except.ok.injEq, reduceCtorEq] at hp
    subst hp; rfl
  | .annualKronecker s, h, p, hp => by
    cases h <;> simp only [Element.prior, Except.ok.injEq, reduceCtorEq] at hp
    subst hp; rfl
  | .factor s, h, p, hp => by
    cases h <;> simp only [Element.prior, Except.ok.injEq, reduceCtorEq] at hp
    subst hp; rfl
  | .combination elements, h, p, hp => by
    cases h <;> simp only [Element.prior, reduceCtorEq] at hp
    rename_i parts
    cases hc : priorsOf elements parts with
    | error e => rw [hc] at hp; simp at hp
    | ok priors =>
      rw [hc] at hp
      simp only [Except.ok.injEq] at hp
      subst hp
      show ((designsOf obs elements).map Design.size).sum = (priors.map Prior.size).sum
      rw [dimensions obs elements parts priors hc]

theorem dimensions (obs : Obs) : ∀ (elements : List Element) (parts : List Hyper) (priors : List Prior),
    priorsOf elements parts = .ok priors → (designsOf obs elements).map Design.size = priors.map Prior.size
  | [], parts, priors, h => by
    simp only [priorsOf, Except.ok.injEq] at h
    subst h
    rfl
  | e :: rest, parts, priors, h => by
    cases parts with
    | nil => simp [priorsOf] at h
    | cons a parts =>
      simp only [priorsOf] at h
      cases h1 : e.prior a with
      | error err => rw [h1] at h; simp at h
      | ok p =>
        rw [h1] at h
        cases h2 : priorsOf rest parts with
        | error err => rw [h2] at h; simp at h
        | ok l =>
          rw [h2] at h
          simp only [Except.ok.injEq] at h
          subst h
          simp only [designsOf, List.map_cons]
          rw [c39_dimension obs e a p h1, dimensions obs rest parts l h2]

end

/-! ### Factors -/

/-- C39 fails for a combination with a factor: its function always fails, since the argument `rectified` is passed on to a
function without such an argument (combination.py 159, factor.py 61). -/
theorem c39_factor_violated (obs : Obs) (before after : List Element) (s : SpaceTime) (state : Option (List ℝ))
    (r : Option Bool) :
    ∃ e, ((Element.combination (before ++ .factor s :: after)).design obs).function state r = .error e := by
  simp only [Element.design]
  show ∃ e, combinedFunction _ state r = .error e
  unfold combinedFunction
  have hmem : ∃ x ∈ ((designsOf obs (before ++ .factor s :: after)).zip
      (elementStates (designsOf obs (before ++ .factor s :: after)) state)).map
        (fun p => p.1.function p.2 (some (r.getD false))), x = .error .typeError := by
    have hl : (elementStates (designsOf obs (before ++ .factor s :: after)) state).length =
        (designsOf obs (before ++ .factor s :: after)).length := by
      cases state <;> simp [elementStates, statesFrom_length]
    have hlen : before.length < (designsOf obs (before ++ .factor s :: after)).length := by
      rw [designsOf_eq]; simp
    refine ⟨_, List.mem_map.mpr ⟨((designsOf obs (before ++ .factor s :: after)).zip
      (elementStates (designsOf obs (before ++ .factor s :: after)) state))[before.length]'(by
        rw [List.length_zip, hl]; simpa using hlen), List.getElem_mem _, rfl⟩, ?_⟩
    have : (designsOf obs (before ++ .factor s :: after))[before.length]'hlen = factorDesign s obs := by
      simp [designsOf_eq, Element.design]
    rw [List.getElem_zip]
    simp only [this]
    simp [factorDesign, factorFunction]
  have hc : ∃ e, collect (((designsOf obs (before ++ .factor s :: after)).zip
      (elementStates (designsOf obs (before ++ .factor s :: after)) state)).map
        (fun p => p.1.function p.2 (some (r.getD false)))) = .error e := by
    obtain ⟨x, hx, rfl⟩ := hmem
    generalize (((designsOf obs (before ++ .factor s :: after)).zip
      (elementStates (designsOf obs (before ++ .factor s :: after)) state)).map
        (fun p => p.1.function p.2 (some (r.getD false)))) = l at hx ⊢
    induction l with
    | nil => simp at hx
    | cons a rest ih =>
      cases a with
      | error e => exact ⟨e, rfl⟩
      | ok v =>
        obtain ⟨e, he⟩ := ih (by simpa using hx)
        exact ⟨e, by simp [collect, he]⟩
  obtain ⟨e, he⟩ := hc
  exact ⟨e, by rw [he]⟩

/-- The straight line through a state in a direction. -/
def along (x y : List ℝ) (t : ℝ) : List ℝ := x.zipWith (fun a b => a + t * b) y

/-- One value of a result. -/
def valueOf (i : Nat) : Except PyErr (List ℝ) → ℝ
  | .ok v => v.getD i 0
  | .error _ => 0

theorem getD_take (x : List ℝ) (n j : Nat) (h : j < n) : (x.take n).getD j 0 = x.getD j 0 := by
  simp [List.getD, h]

theorem getD_drop (x : List ℝ) (n j : Nat) : (x.drop n).getD j 0 = x.getD (n + j) 0 := by
  simp [List.getD]

theorem getD_along (x y : List ℝ) (t : ℝ) (hl : y.length = x.length) (j : Nat) :
    (along x y t).getD j 0 = x.getD j 0 + t * y.getD j 0 := by
  unfold along
  by_cases h : j < x.length
  · simp [List.getD, h, hl]
  · simp [List.getD, h, hl]

theorem dot_value (A : Arr) (x : List ℝ) (h : x.length = A.cols) : A.dot x = .ok (product A x) := by
  unfold Arr.dot
  rw [if_neg (by simp [h])]
  rfl

theorem product_get (A : Arr) (x : List ℝ) (i : Nat) (h : i < A.rows) :
    (product A x).getD i 0 = ∑ j ∈ range A.cols, A.get i j * x.getD j 0 := by
  simp [product, List.getD, h]

theorem factor_value (S T : Arr) (hT : T.rows = 1) (x : List ℝ) (hx : x.length = S.cols + T.cols) :
    factorFunction S T (some x) none =
      .ok ((product S (x.take S.cols)).map fun v => v * (product T (x.drop S.cols)).getD 0 0) := by
  have h1 : (x.take S.cols).length = S.cols := by rw [List.length_take]; omega
  have h2 : (x.drop S.cols).length = T.cols := by rw [List.length_drop]; omega
  simp only [factorFunction, factorVectors, dot_value S _ h1, dot_value T _ h2, timesVector]
  rw [if_pos (by rw [product_length, hT])]

theorem factor_value_get (S T : Arr) (hT : T.rows = 1) (x : List ℝ) (hx : x.length = S.cols + T.cols) (i : Nat) (hi : i < S.rows) :
    valueOf i (factorFunction S T (some x) none) =
      (∑ j ∈ range S.cols, S.get i j * x.getD j 0) * ∑ j ∈ range T.cols, T.get 0 j * x.getD (S.cols + j) 0 := by
  rw [factor_value S T hT x hx, valueOf]
  have e : ((product S (x.take S.cols)).map fun v => v * (product T (x.drop S.cols)).getD 0 0).getD i 0 =
      (product S (x.take S.cols)).getD i 0 * (product T (x.drop S.cols)).getD 0 0 := by
    have hl : i < (product S (x.take S.cols)).length := by rw [product_length]; exact hi
    simp [List.getD, hl]
  rw [e, product_get _ _ _ hi, product_get _ _ _ (by omega)]
  congr 1
  · apply Finset.sum_congr rfl
    intro j hj
    rw [getD_take _ _ _ (by simpa using hj)]
  · apply Finset.sum_congr rfl
    intro j _
    rw [getD_drop]

/-- C42: the Jacobian of a space-time factor at a state is the derivative of its function there: applied to any direction it
gives the derivative of every value in this direction. -/
theorem c42_factor (S T : Arr) (hT : T.rows = 1) (x : List ℝ) (hx : x.length = S.cols + T.cols) :
    ∃ J, factorJacobian S T (some x) = .ok J ∧ J.rows = S.rows ∧ J.cols = S.cols + T.cols ∧
      ∀ y : List ℝ, y.length = x.length → ∀ i < S.rows,
        HasDerivAt (fun t => valueOf i (factorFunction S T (some (along x y t)) none)) ((product J y).getD i 0) 0 := by
  have h1 : (x.take S.cols).length = S.cols := by rw [List.length_take]; omega
  have h2 : (x.drop S.cols).length = T.cols := by rw [List.length_drop]; omega
  obtain ⟨J, hJ, hJr, hJc, hJg⟩ := hstack_ok
    [Arr.scale ((product T (x.drop S.cols)).getD 0 0) S, Arr.kron T (Arr.column (product S (x.take S.cols)))] S.rows (by simp)
    (by
      intro A hA
      simp only [List.mem_cons, List.not_mem_nil, or_false] at hA
      rcases hA with rfl | rfl
      · rfl
      · simp [Arr.kron, Arr.column, hT, product_length])
  have hc : J.cols = S.cols + T.cols := by rw [hJc]; simp [Arr.scale, Arr.kron, Arr.column]
  refine ⟨J, ?_, hJr, hc, ?_⟩
  · simp only [factorJacobian, factorVectors, dot_value S _ h1, dot_value T _ h2]
    have hit : item (product T (x.drop S.cols)) 0 = .ok ((product T (x.drop S.cols)).getD 0 0) := by
      unfold item
      rw [dif_pos (by rw [product_length, hT]; exact Nat.one_pos)]
      have : 0 < (product T (x.drop S.cols)).length := by rw [product_length, hT]; exact Nat.one_pos
      simp [List.getD, this]
    rw [hit]
    exact hJ
  · intro y hy i hi
    have hlen : ∀ t, (along x y t).length = S.cols + T.cols := by
      intro t
      simp [along, hy, hx]
    have e : (fun t => valueOf i (factorFunction S T (some (along x y t)) none)) = fun t =>
        ((∑ j ∈ range S.cols, S.get i j * x.getD j 0) + t * ∑ j ∈ range S.cols, S.get i j * y.getD j 0) *
        ((∑ j ∈ range T.cols, T.get 0 j * x.getD (S.cols + j) 0) +
          t * ∑ j ∈ range T.cols, T.get 0 j * y.getD (S.cols + j) 0) := by
      funext t
      rw [factor_value_get S T hT _ (hlen t) i hi]
      congr 1
      · rw [Finset.mul_sum, ← Finset.sum_add_distrib]
        apply Finset.sum_congr rfl
        intro j _
        rw [getD_along x y t hy]
        ring
      · rw [Finset.mul_sum, ← Finset.sum_add_distrib]
        apply Finset.sum_congr rfl
        intro j _
        rw [getD_along x y t hy]
        ring
    have ev : (product J y).getD i 0 =
        (∑ j ∈ range S.cols, S.get i j * y.getD j 0) * (∑ j ∈ range T.cols, T.get 0 j * x.getD (S.cols + j) 0) +
        (∑ j ∈ range S.cols, S.get i j * x.getD j 0) * ∑ j ∈ range T.cols, T.get 0 j * y.getD (S.cols + j) 0 := by
      rw [product_get J y i (by omega), hc, Finset.sum_range_add, hJg, Finset.sum_mul, Finset.mul_sum]
      congr 1
      · apply Finset.sum_congr rfl
        intro j hj
        have hj' : j < S.cols := by simpa using hj
        have : (product T (x.drop S.cols)).getD 0 0 = ∑ j ∈ range T.cols, T.get 0 j * x.getD (S.cols + j) 0 := by
          rw [product_get _ _ _ (by omega)]
          apply Finset.sum_congr rfl
          intro k _
          rw [getD_drop]
        rw [Arr.besides, if_pos (by exact hj')]
        simp only [Arr.scale, this]
        ring
      · apply Finset.sum_congr rfl
        intro j hj
        have hj' : j < T.cols := by simpa using hj
        have : (product S (x.take S.cols)).getD i 0 = ∑ j ∈ range S.cols, S.get i j * x.getD j 0 := by
          rw [product_get _ _ _ hi]
          apply Finset.sum_congr rfl
          intro k hk
          rw [getD_take _ _ _ (by simpa using hk)]
        rw [Arr.besides, if_neg (by simp [Arr.scale]), Arr.besides, if_pos (by simp [Arr.scale, Arr.kron, Arr.column, hj'])]
        simp only [Arr.scale, Arr.kron, Arr.column, product_length, Nat.add_sub_cancel_left, Nat.div_one,
          Nat.div_eq_of_lt hi, Nat.mod_eq_of_lt hi, this]
        ring
    rw [e, ev]
    have hd : ∀ a b c d : ℝ, HasDerivAt (fun t : ℝ => (a + t * b) * (c + t * d)) (b * c + a * d) 0 := by
      intro a b c d
      have h1 : HasDerivAt (fun t : ℝ => a + t * b) b 0 := by
        simpa using ((hasDerivAt_id (0 : ℝ)).mul_const b).const_add a
      have h2 : HasDerivAt (fun t : ℝ => c + t * d) d 0 := by
        simpa using ((hasDerivAt_id (0 : ℝ)).mul_const d).const_add c
      have h3 := h1.mul h2
      simp only [zero_mul, add_zero] at h3
      exact h3
    exact hd _ _ _ _

/-- C42: the Jacobian of a space-time factor element, whatever its mesh, temporal model and observations. -/
theorem c42_element (obs : Obs) (s : SpaceTime) (x : List ℝ) (hx : x.length = ((Element.factor s).design obs).size) :
    ∃ J, ((Element.factor s).design obs).jacobian (some x) = .ok J ∧ J.rows = obs.locations.length ∧
      J.cols = ((Element.factor s).design obs).size ∧
      ∀ y : List ℝ, y.length = x.length → ∀ i < obs.locations.length,
        HasDerivAt (fun t => valueOf i (((Element.factor s).design obs).function (some (along x y t)) none))
          ((product J y).getD i 0) 0 := by
  simp only [Element.design] at hx ⊢
  exact c42_factor (sphereMatrix s.mesh obs) (lineMatrix s.line s.span [obs.timeIndex]) rfl x hx

/-- C42: for an element without factors the Jacobian gives the change of the function exactly. -/
theorem c42_linear (obs : Obs) (e : Element) (h : Usable obs e) (x : List ℝ) (hx : x.length = (e.design obs).size) :
    ∃ J, (e.design obs).jacobian (some x) = .ok J ∧ J.rows = obs.locations.length ∧ J.cols = (e.design obs).size ∧
      ∀ y : List ℝ, y.length = x.length → ∀ i < obs.locations.length, ∀ t : ℝ,
        valueOf i ((e.design obs).function (some (along x y t)) none) =
          valueOf i ((e.design obs).function (some x) none) + t * (product J y).getD i 0 := by
  obtain ⟨A, hr, hc, -, -, hj, hf⟩ := c39_linear obs e h
  refine ⟨A, hj _, hr, hc, ?_⟩
  intro y hy i hi t
  have hlen : (along x y t).length = (e.design obs).size := by simp [along, hy, hx]
  rw [hf _ hx, hf _ hlen]
  simp only [reduceCtorEq, if_false, valueOf]
  rw [product_get _ _ _ (by omega), product_get _ _ _ (by omega), product_get _ _ _ (by omega), Finset.mul_sum,
    ← Finset.sum_add_distrib]
  apply Finset.sum_congr rfl
  intro j _
  rw [getD_along x y t hy]
  ring

/-- A state and direction for two space and three time parameters meet the hypotheses of `c42_factor`. -/
example : (⟨1, 3, fun _ j => j⟩ : Arr).rows = 1 ∧
    ([1, 2, 3, 4, 5] : List ℝ).length = (⟨4, 2, fun i j => i + j⟩ : Arr).cols + (⟨1, 3, fun _ j => j⟩ : Arr).cols := by
  simp

end

end Verif.Eustace.Elements
