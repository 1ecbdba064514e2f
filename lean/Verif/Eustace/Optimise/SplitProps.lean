import Verif.Eustace.Optimise.Split

/-!
C153 for the definitions in use.
-/

namespace Verif.Eustace.Optimise

open Verif Verif.Eustace.Elements Verif.Eustace.Mesh Verif.Eustace.Locator Verif.Eustace.Definitions

noncomputable section

/-! ### Lemmas -/

theorem values_exist {obs : Elements.Obs} {ps : List (Element × List ℝ)} {fs : List (Nat → ℝ)} {vs : List (List ℝ)}
    (h : List.Forall₂ (fun (p : Element × List ℝ) f => Adds p.1 obs p.2 f) ps fs)
    (hv : List.Forall₂ (fun (p : Element × List ℝ) v => (p.1.design obs).function (some p.2) none = .ok v) ps vs)
    (i : Nat) (hi : i < obs.locations.length) : vs.map (fun v => v.getD i 0) = fs.map fun f => f i := by
  induction h generalizing vs with
  | nil => cases hv; rfl
  | cons h0 _ ih =>
    cases hv with
    | cons h1 h2 =>
      obtain ⟨w, hw1, -, hw3⟩ := h0
      rw [hw1] at h1
      injection h1 with h1
      rw [List.map_cons, List.map_cons, ih h2, ← h1, hw3 i hi]

/-- What a combination adds is the sum of what its parts add. -/
theorem adds_combination {obs : Elements.Obs} {parts : List Element} (hu : Usable obs (.combination parts))
    {xs : List (List ℝ)} (hx : List.Forall₂ (fun (e : Element) x => x.length = (e.design obs).size) parts xs)
    {fs : List (Nat → ℝ)} (h : List.Forall₂ (fun (p : Element × List ℝ) f => Adds p.1 obs p.2 f) (parts.zip xs) fs) :
    Adds (.combination parts) obs xs.flatten fun i => (fs.map fun f => f i).sum := by
  obtain ⟨vs, h1, h2⟩ := c39_sum obs parts hu xs hx
  refine ⟨_, h2, by simp [vectorSum], ?_⟩
  intro i hi
  rw [vectorSum_get _ _ _ hi, values_exist h h1 i hi]

theorem statesFrom_take (x : List ℝ) (k start : Nat) (sizes : List Nat) (h : start + sizes.sum ≤ k) :
    statesFrom (x.take k) start sizes = statesFrom x start sizes := by
  induction sizes generalizing start with
  | nil => rfl
  | cons n sizes ih =>
    rw [List.sum_cons] at h
    simp only [statesFrom]
    rw [ih _ (by omega), List.drop_take, List.take_take, Nat.min_eq_left (by omega)]

/-- A state which is too long is read as far as the sizes go, without an error. -/
theorem function_take (obs : Elements.Obs) (parts : List Element) (x : List ℝ) :
    ((Element.combination parts).design obs).function (some x) none =
      ((Element.combination parts).design obs).function
        (some (x.take ((Element.combination parts).design obs).size)) none := by
  simp only [Element.design]
  show combinedFunction _ _ _ = combinedFunction _ _ _
  unfold combinedFunction elementStates
  dsimp only
  rw [statesFrom_take _ _ _ _ (by simp [combinedDesign])]

theorem bias_absent (obs : Elements.Obs) (g : String) (k : Nat) (x : List ℝ) (hx : x.length = k) (h : obs.effect g = none) :
    Adds (.bias g k) obs x fun _ => 0 := by
  refine adds_of (A := Arr.zero obs.locations.length k) ?_ (by simpa [Element.design, biasDesign, linearDesign]) ?_
  · simp only [Element.design, biasDesign, h]
    exact linearDesign_with _ _ _ rfl rfl
  · intro i _
    simp [Arr.zero]

theorem bias_one (obs : Elements.Obs) (g : String) (v : ℝ) (pairs : List (Nat × Nat)) (h : obs.effect g = some pairs)
    (hp : ∀ p ∈ pairs, p.1 < obs.locations.length ∧ p.2 < 1) :
    Adds (.bias g 1) obs [v] fun i => if (i, 0) ∈ pairs then v else 0 := by
  obtain ⟨w, h1, h2, h3⟩ := c39_bias obs g 1 pairs [v] h hp rfl
  refine ⟨w, h1, h2, fun i hi => ?_⟩
  rw [h3 i hi, Finset.sum_filter]
  simp

/-- The priors of the local definition, for any list of groups. -/
theorem local_priors (srt : Argsort) (biasTerms : Bool) (groups : List String) : ∃ priors,
    priorsOf (partsOf (localDefinition srt biasTerms groups).element)
      (.stationary (Real.log 2.0) (Real.log (radians 5)) ::
        (if biasTerms then groups.flatMap (localBias srt) else []).map Prod.snd) = .ok priors ∧
    priorSizes (localDefinition srt biasTerms groups) = .ok (priors.map Prior.size) := by
  have key : ∀ p ∈ (if biasTerms then groups.flatMap (localBias srt) else []), Fits p.1 p.2 ∧ Allowed p.1 ∧ Solid p.1 := by
    intro p hp
    obtain ⟨g, -, h⟩ := mem_terms hp
    exact localBias_fits srt g p h
  obtain ⟨priors, h, -⟩ := precisions_good (partsOf (localDefinition srt biasTerms groups).element)
    (.stationary (Real.log 2.0) (Real.log (radians 5)) ::
        (if biasTerms then groups.flatMap (localBias srt) else []).map Prod.snd)
    (by
      simp only [localDefinition, partsOf, FitsAll]
      exact ⟨by simp [Fits], fitsAll_pairs fun p hp => (key p hp).1⟩)
    (by
      rw [allowedAll_iff]
      intro e he
      rcases List.mem_cons.1 he with rfl | he
      · simp [Allowed]
      · obtain ⟨p, hp, rfl⟩ := List.mem_map.1 he
        exact (key p hp).2.1)
  refine ⟨priors, h, ?_⟩
  unfold priorSizes localDefinition
  dsimp only
  simp only [localDefinition, partsOf] at h
  rw [h]

theorem flags_length (srt : Argsort) (biasTerms : Bool) (groups : List String) :
    (localFlags (localDefinition srt biasTerms groups)).length =
      (partsOf (localDefinition srt biasTerms groups).element).length := by
  simp [localFlags, localDefinition, partsOf]

theorem local_element (srt : Argsort) (biasTerms : Bool) (groups : List String) :
    (localDefinition srt biasTerms groups).element =
      .combination (partsOf (localDefinition srt biasTerms groups).element) := rfl

theorem picked_rest {α : Type} (a : α) (l : List α) :
    Picked true (true :: List.replicate l.length false) (a :: l) = [a] ∧
    Picked false (true :: List.replicate l.length false) (a :: l) = l := by
  have h : ∀ m : List α, Picked true (List.replicate m.length false) m = [] ∧
      Picked false (List.replicate m.length false) m = m := by
    intro m
    induction m with
    | nil => simp [Picked]
    | cons b m ih => simp [Picked, List.replicate_succ, ih]
  simp [Picked, h]

/-- `run_split_states` for states of the parts. -/
theorem runSplit_some (srt : Argsort) (groups : List String) (obs : Elements.Obs) (field : List ℝ) (rest : List (List ℝ))
    (hne : rest ≠ [])
    (h : List.Forall₂ (fun (e : Element) x => x.length = (e.design obs).size)
      (partsOf (localDefinition srt true groups).element) (field :: rest)) :
    runSplit srt true groups (some (field ++ rest.flatten)) = .ok (some field, some rest.flatten) := by
  obtain ⟨priors, h1, h2⟩ := local_priors srt true groups
  have hs : priors.map Prior.size = (field :: rest).map List.length := by
    rw [← dimensions obs _ _ priors h1, designsOf_eq]
    generalize field :: rest = xs at h
    generalize partsOf (localDefinition srt true groups).element = es at h
    clear h1
    induction h with
    | nil => rfl
    | cons h0 _ ih => simp only [List.map_cons, h0, ih]
  have hf : localFlags (localDefinition srt true groups) = true :: List.replicate rest.length false := by
    have := h.length_eq
    unfold localFlags
    rw [this]
    rfl
  unfold runSplit
  rw [h2]
  dsimp only
  rw [hf]
  have := splitStates_some (priors.map Prior.size) (true :: List.replicate rest.length false) (field :: rest) hs (by simp)
    (by simp) (by
      cases rest with
      | nil => exact absurd rfl hne
      | cons a l => simp [List.replicate_succ])
  rw [(picked_rest field rest).1, (picked_rest field rest).2] at this
  simpa using this

/-! ### What holds -/

/-- **C153 for ocean.**  Where only ocean temperatures have a bias, the split into the definitions of the two components keeps
what is added to any observation. -/
theorem c153_ocean (srt : Argsort) (groups : List String) (hne : groups ≠ [])
    (hg : ∀ g ∈ groups, g = "surfaceairmodel_ocean_global") (obs : Elements.Obs)
    (hu : Usable obs (localDefinition srt true groups).element) (x : List ℝ)
    (hx : x.length = 163842 + groups.length) :
    ∃ a b v u w, runSplit srt true groups (some x) = .ok (some a, some b) ∧
      valueAt (localDefinition srt true groups) (some x) obs = .ok v ∧
      valueAt (bareLocal srt) (some a) obs = .ok u ∧ valueAt (bareBias true groups) (some b) obs = .ok w ∧
      IsSum obs.locations.length v u w := by
  obtain ⟨priors, h1, h2⟩ := local_priors srt true groups
  have hterms : ∀ l : List String, (∀ g ∈ l, g = "surfaceairmodel_ocean_global") →
      (l.flatMap (localBias srt)).map Prod.fst = l.map fun g => Element.bias g 1 := by
    intro l hl
    induction l with
    | nil => rfl
    | cons g l ih =>
      have hg := hl g (by simp)
      subst hg
      rw [List.flatMap_cons, List.map_append, ih fun g hg => hl g (by simp [hg])]
      simp [localBias]
  have hparts : partsOf (localDefinition srt true groups).element =
      .stationary (sphereMesh srt 7) :: groups.map fun g => Element.bias g 1 := by
    simp only [localDefinition, partsOf, if_true, hterms groups hg]
  have hsum : ∀ l : List String, (∀ g ∈ l, g = "surfaceairmodel_ocean_global") → (l.map biasCount).sum = l.length := by
    intro l hl
    induction l with
    | nil => rfl
    | cons g l ih =>
      have hg := hl g (by simp)
      subst hg
      rw [List.map_cons, List.sum_cons, ih fun g hg => hl g (by simp [hg])]
      simp [biasCount]
      omega
  have hflags : localFlags (localDefinition srt true groups) =
      true :: List.replicate (groups.map fun g => Element.bias g 1).length false := by
    simp [localFlags, hparts]
  obtain ⟨a, b, v, u, w, e1, e2, e3, e4, -, -, e7⟩ := c153_split obs _ _ priors h1
    (by rw [local_element] at hu; simp only [Usable] at hu; exact hu.2)
    (localFlags (localDefinition srt true groups)) (flags_length srt true groups)
    (by simp [localFlags]) (by
      rw [hflags]
      cases groups with
      | nil => exact absurd rfl hne
      | cons g l => simp [List.replicate_succ]) x (by
      rw [← local_element, (c109_local_size srt groups obs).1, hsum groups hg, hx])
  refine ⟨a, b, v, u, w, ?_, e2, ?_, ?_, e7⟩
  · unfold runSplit
    rw [h2]
    exact e1
  · rw [hflags, hparts, (picked_rest _ _).1] at e3
    exact e3
  · rw [hflags, hparts, (picked_rest _ _).2] at e4
    exact e4

/-! ### What fails -/

/-- The groups of the templates. -/
def templateGroups : List String := ["surfaceairmodel_ice_global", "surfaceairmodel_land_global", "surfaceairmodel_ocean_global"]

/-- The parts of the local definition for the groups of the templates. -/
theorem template_parts (srt : Argsort) : partsOf (localDefinition srt true templateGroups).element =
    [.stationary (sphereMesh srt 7), .bias "surfaceairmodel_ice_global" 2,
      .spatialBias "surfaceairmodel_ice_global" (sphereMesh srt 6), .bias "surfaceairmodel_land_global" 1,
      .spatialBias "surfaceairmodel_land_global" (sphereMesh srt 6), .bias "surfaceairmodel_ocean_global" 1] := by
  simp [localDefinition, partsOf, templateGroups, localBias]

/-- **C153 for the groups of the templates.**  For observations over land only, the local component adds the land bias and the
field of land biases; after the split, the bias component adds the second ice bias instead, and no field: its definition has
one parameter for each group, and the longer state is read from its start. -/
theorem c153_template_values (srt : Argsort) (obs : Elements.Obs) (hi : obs.effect "surfaceairmodel_ice_global" = none)
    (ho : obs.effect "surfaceairmodel_ocean_global" = none) (pairs : List (Nat × Nat))
    (hl : obs.effect "surfaceairmodel_land_global" = some pairs)
    (hp : ∀ p ∈ pairs, p.1 < obs.locations.length ∧ p.2 < 1)
    (field ice land : List ℝ) (hf : field.length = 163842) (hice : ice.length = 40962) (hland : land.length = 40962)
    (i0 i1 l o : ℝ) :
    let b := [i0, i1] ++ ice ++ [l] ++ land ++ [o]
    runSplit srt true templateGroups (some (field ++ b)) = .ok (some field, some b) ∧
    (∃ v, valueAt (localDefinition srt true templateGroups) (some (field ++ b)) obs = .ok v ∧
      v.length = obs.locations.length ∧ ∀ i < obs.locations.length, v.getD i 0 =
        fieldAt (sphereMesh srt 7) obs field 0 i + (if (i, 0) ∈ pairs then l else 0) +
          fieldAt (sphereMesh srt 6) obs land 0 i) ∧
    (∃ u, valueAt (bareLocal srt) (some field) obs = .ok u ∧ u.length = obs.locations.length ∧
      ∀ i < obs.locations.length, u.getD i 0 = fieldAt (sphereMesh srt 7) obs field 0 i) ∧
    (∃ w, valueAt (bareBias true templateGroups) (some b) obs = .ok w ∧ w.length = obs.locations.length ∧
      ∀ i < obs.locations.length, w.getD i 0 = if (i, 0) ∈ pairs then i1 else 0) := by
  have h7 : (sphereMesh srt 7).points.length = 163842 := by rw [mesh_points]; norm_num
  have h6 : (sphereMesh srt 6).points.length = 40962 := by rw [mesh_points]; norm_num
  intro b
  have hb : b = [[i0, i1], ice, [l], land, [o]].flatten := by simp [b]
  have hsizes : List.Forall₂ (fun (e : Element) x => x.length = (e.design obs).size)
      (partsOf (localDefinition srt true templateGroups).element) (field :: [[i0, i1], ice, [l], land, [o]]) := by
    rw [template_parts]
    refine .cons ?_ (.cons ?_ (.cons ?_ (.cons ?_ (.cons ?_ (.cons ?_ .nil)))))
    · simp [Element.design, localDesign, linearDesign, h7, hf]
    · simp [Element.design, biasDesign, linearDesign]
    · simp [Element.design, spatialBiasDesign, linearDesign, h6, hice]
    · simp [Element.design, biasDesign, linearDesign]
    · simp [Element.design, spatialBiasDesign, linearDesign, h6, hland]
    · simp [Element.design, biasDesign, linearDesign]
  have hfield : Adds (.stationary (sphereMesh srt 7)) obs field (fieldAt (sphereMesh srt 7) obs field 0) :=
    (c91_local _ obs field (by rw [h7, hf])).1
  refine ⟨?_, ?_, ?_, ?_⟩
  · rw [hb]
    exact runSplit_some srt templateGroups obs field _ (by simp) hsizes
  · have hu : Usable obs (.combination (partsOf (localDefinition srt true templateGroups).element)) := by
      rw [template_parts]
      simp only [Usable, UsableAll, hi, ho, hl]
      refine ⟨by simp, trivial, by simp, trivial, ?_, trivial, by simp, trivial⟩
      intro q hq
      injection hq with hq
      subst hq
      exact hp
    obtain ⟨v, e1, e2, e3⟩ := adds_combination hu hsizes
      (fs := [fieldAt (sphereMesh srt 7) obs field 0, fun _ => 0,
        fun i => if obs.effect "surfaceairmodel_ice_global" = none then 0 else fieldAt (sphereMesh srt 6) obs ice 0 i,
        fun i => if (i, 0) ∈ pairs then l else 0,
        fun i => if obs.effect "surfaceairmodel_land_global" = none then 0 else fieldAt (sphereMesh srt 6) obs land 0 i,
        fun _ => 0])
      (by
        rw [template_parts]
        refine .cons hfield (.cons ?_ (.cons ?_ (.cons ?_ (.cons ?_ (.cons ?_ .nil)))))
        · exact bias_absent _ _ _ _ rfl hi
        · exact c91_spatial_bias _ _ _ _ (by rw [h6, hice])
        · exact bias_one _ _ _ _ hl hp
        · exact c91_spatial_bias _ _ _ _ (by rw [h6, hland])
        · exact bias_absent _ _ _ _ rfl ho)
    refine ⟨v, ?_, e2, ?_⟩
    · rw [hb]
      exact e1
    · intro i hlt
      rw [e3 i hlt]
      simp [hi, hl]
      ring
  · obtain ⟨u, e1, e2, e3⟩ := adds_combination (obs := obs) (parts := [.stationary (sphereMesh srt 7)]) (xs := [field])
      (by simp [Usable, UsableAll]) (.cons (by simp [Element.design, localDesign, linearDesign, h7, hf]) .nil)
      (fs := [fieldAt (sphereMesh srt 7) obs field 0]) (.cons hfield .nil)
    refine ⟨u, ?_, e2, ?_⟩
    · rw [List.flatten_singleton] at e1
      exact e1
    · intro i hlt
      rw [e3 i hlt]
      simp
  · have hice' : ∃ z rest, ice = z :: rest := by
      cases ice with
      | nil => simp at hice
      | cons z rest => exact ⟨z, rest, rfl⟩
    obtain ⟨z, rest, hz⟩ := hice'
    obtain ⟨w, e1, e2, e3⟩ := adds_combination (obs := obs)
      (parts := [.bias "surfaceairmodel_ice_global" 1, .bias "surfaceairmodel_land_global" 1,
        .bias "surfaceairmodel_ocean_global" 1]) (xs := [[i0], [i1], [z]])
      (by
        simp only [Usable, UsableAll, hi, ho, hl]
        refine ⟨by simp, by simp, ?_, by simp, trivial⟩
        intro q hq
        injection hq with hq
        subst hq
        exact hp)
      (.cons (by simp [Element.design, biasDesign, linearDesign]) (.cons (by simp [Element.design, biasDesign, linearDesign])
        (.cons (by simp [Element.design, biasDesign, linearDesign]) .nil)))
      (fs := [fun _ => 0, fun i => if (i, 0) ∈ pairs then i1 else 0, fun _ => 0])
      (.cons (bias_absent _ _ _ _ rfl hi) (.cons (bias_one _ _ _ _ hl hp) (.cons (bias_absent _ _ _ _ rfl ho) .nil)))
    refine ⟨w, ?_, e2, ?_⟩
    · show ((Element.combination [.bias "surfaceairmodel_ice_global" 1, .bias "surfaceairmodel_land_global" 1,
        .bias "surfaceairmodel_ocean_global" 1]).design obs).function (some b) none = .ok w
      rw [function_take, combination_size]
      have ht : b.take ([Element.bias "surfaceairmodel_ice_global" 1, .bias "surfaceairmodel_land_global" 1,
        .bias "surfaceairmodel_ocean_global" 1].map fun e => (e.design obs).size).sum = [[i0], [i1], [z]].flatten := by
        simp [Element.design, biasDesign, linearDesign, b, hz]
      rw [ht]
      exact e1
    · intro i hlt
      rw [e3 i hlt]
      simp

/-- **C153 fails for the groups of the templates**: there are a state and an observation over land for which the two components
do not add up to the local component. -/
theorem c153_template_violated (srt : Argsort) : ∃ (obs : Elements.Obs) (x a b v u w : List ℝ),
    Usable obs (localDefinition srt true templateGroups).element ∧
    x.length = ((localDefinition srt true templateGroups).element.design obs).size ∧
    runSplit srt true templateGroups (some x) = .ok (some a, some b) ∧
    valueAt (localDefinition srt true templateGroups) (some x) obs = .ok v ∧
    valueAt (bareLocal srt) (some a) obs = .ok u ∧ valueAt (bareBias true templateGroups) (some b) obs = .ok w ∧
    ¬ IsSum obs.locations.length v u w := by
  let obs : Elements.Obs := ⟨[(10, 20)], 5, 1900.5,
    fun g => if g = "surfaceairmodel_land_global" then some [(0, 0)] else none, fun _ _ _ => 0⟩
  have hl : obs.effect "surfaceairmodel_land_global" = some [(0, 0)] := rfl
  have hi : obs.effect "surfaceairmodel_ice_global" = none := rfl
  have ho : obs.effect "surfaceairmodel_ocean_global" = none := rfl
  have hp : ∀ p ∈ [(0, 0)], p.1 < obs.locations.length ∧ p.2 < 1 := by
    intro p hp
    rw [List.mem_singleton] at hp
    subst hp
    exact ⟨Nat.one_pos, Nat.one_pos⟩
  obtain ⟨h1, ⟨v, hv1, hv2, hv3⟩, ⟨u, hu1, hu2, hu3⟩, ⟨w, hw1, hw2, hw3⟩⟩ := c153_template_values srt obs hi ho [(0, 0)] hl hp
    (List.replicate 163842 0) (List.replicate 40962 0) (List.replicate 40962 0) (List.length_replicate ..)
    (List.length_replicate ..) (List.length_replicate ..) 0 1 0 0
  refine ⟨obs, _, _, _, v, u, w, ?_, ?_, h1, hv1, hu1, hw1, ?_⟩
  · rw [local_element, template_parts]
    simp only [Usable, UsableAll, hi, ho, hl]
    refine ⟨by simp, trivial, by simp, trivial, ?_, trivial, by simp, trivial⟩
    intro q hq
    injection hq with hq
    subst hq
    exact hp
  · rw [(c109_local_size srt templateGroups obs).1]
    simp only [List.length_append, List.length_replicate, List.length_cons, List.length_nil]
    simp [templateGroups, biasCount]
  · rintro ⟨-, -, -, h⟩
    have h0 := h 0 Nat.one_pos
    rw [hv3 0 Nat.one_pos, hu3 0 Nat.one_pos, hw3 0 Nat.one_pos] at h0
    have hz : ∀ (m : Mesh V3) (n : Nat), fieldAt m obs (List.replicate n 0) 0 0 = 0 := by
      intro m n
      unfold fieldAt
      exact Finset.sum_eq_zero fun p _ => zero_mul _
    rw [hz, hz, if_pos (List.mem_singleton.2 rfl), if_pos (List.mem_singleton.2 rfl)] at h0
    norm_num at h0

/-- **C153 fails where there is no bias part**: without bias terms, or where no group is known, every day is refused, for
`numpy.concatenate` is given an empty list. -/
theorem c153_no_bias_violated (srt : Argsort) (biasTerms : Bool) (groups : List String)
    (h : biasTerms = false ∨ ∀ g ∈ groups, localBias srt g = []) (state : Option (List ℝ)) :
    runSplit srt biasTerms groups state = .error .valueError := by
  have hnil : (if biasTerms then groups.flatMap (localBias srt) else []) = [] := by
    rcases h with rfl | h
    · rfl
    · have : groups.flatMap (localBias srt) = [] := by simpa using h
      simp [this]
  obtain ⟨priors, h1, h2⟩ := local_priors srt biasTerms groups
  have hparts : (localDefinition srt biasTerms groups).element = .combination [.stationary (sphereMesh srt 7)] := by
    simp [localDefinition, hnil]
  have hlen : ∃ n, priors.map Prior.size = [n] := by
    have := (priorsOf_forall₂ _ _ _ h1).length_eq
    rw [hparts] at this
    match priors, this with
    | [p], _ => exact ⟨p.size, rfl⟩
  obtain ⟨n, hn⟩ := hlen
  have hflags : localFlags (localDefinition srt biasTerms groups) = [true] := by
    simp [localFlags, hparts, partsOf]
  unfold runSplit
  rw [h2]
  dsimp only
  rw [hn, hflags]
  cases state with
  | none => simp [splitStates, priorStates, chosen, concatenated]
  | some x => simp [splitStates, priorStates, statesFrom, chosen, concatenated]

/-- Such groups: those of stations. -/
example (srt : Argsort) : localBias srt "insitu_land" = [] := by simp [localBias]

/-- **C153, the template**: `split_local_component` passes `component_index` (advstd_optimization_template.json 34), an argument
which `run_split_states` does not have. -/
theorem c153_call_violated (given : List String) (h : "component_index" ∈ given) :
    callable splitArguments given = .error .typeError := by
  unfold callable
  rw [if_neg]
  simp only [Bool.and_eq_true, List.all_eq_true, not_and]
  intro h1
  have h2 : splitArguments.contains "component_index" = false := by decide
  rw [h1 _ h] at h2
  exact absurd h2 (by simp)

/-- The arguments of the template are those of the function and this one; the arguments of the function alone are accepted. -/
example : callable splitArguments splitArguments = .ok () := by decide

end

end Verif.Eustace.Optimise
