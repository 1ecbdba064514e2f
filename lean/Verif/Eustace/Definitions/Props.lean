import Verif.Eustace.Definitions.Lines
import Verif.Eustace.Mesh.Props

/-!
C109: the models of the analysis are well-formed: their priors and designs exist and agree in size, the climatology repeats every
year, and the covariates of a descriptor fit.
-/

namespace Verif.Eustace.Definitions

open Verif Verif.Calendar Verif.Eustace.Mesh Verif.Eustace.Locator Verif.Eustace.Lattice Verif.Eustace.Elements
  Verif.Eustace.BreakPoints Verif.Eustace.ObsSource Verif.Eustace.RawBinary

noncomputable section

/-! ### Specification -/

/-- The prior precision of a definition exists, is positive definite, and has one row for each parameter of the design. -/
def ProperPrior (d : Definition) : Prop :=
  ∀ obs : Obs, ∃ p A, d.element.prior d.hyper = .ok p ∧ p.precision = .ok A ∧ Pos (d.element.design obs).size A

/-- The design of a definition is linear for given observations. -/
def ProperDesign (d : Definition) (obs : Obs) : Prop := ∃ A, LinearWith (d.element.design obs) obs.locations.length A

/-- Covariates: latitude harmonics, or the values of a map. -/
def IsCovariate (e : Element) : Prop := e = .latitudeHarmonics ∨ ∃ value, e = .geography value

/-- The observations of a day, as the analysis sees them. -/
structure Supplied (lookup : List (ℝ × ℝ)) (o : Observations ℝ) (day : Int) (allMatch : String → Bool)
    (breaks : Option (List (Int × ℚ))) (obs : Obs) : Prop where
  locations : polarCoordinates lookup o = .ok obs.locations
  effects : ∀ g ∈ biasGroups, covariateEffect lookup o day allMatch g breaks = .ok (obs.effect g)

/-- Number of bias parameters of a group: the global or hemispheric ones, and the fields on a mesh of 40962 points. -/
def biasCount (group : String) : Nat :=
  match group with
  | "surfaceairmodel_land_global" => 1 + 40962
  | "surfaceairmodel_ocean_global" => 1
  | "surfaceairmodel_ice_global" => 2 + 40962
  | _ => 0

/-! ### Lemmas -/

theorem fitsAll_append {a c : List Element} {b d : List Hyper} (h1 : FitsAll a b) (h2 : FitsAll c d) : FitsAll (a ++ c) (b ++ d) := by
  induction a generalizing b with
  | nil =>
    cases b with
    | nil => exact h2
    | cons _ _ => simp [FitsAll] at h1
  | cons e rest ih =>
    cases b with
    | nil => simp [FitsAll] at h1
    | cons h parts =>
      simp only [FitsAll, List.cons_append] at h1 ⊢
      exact ⟨h1.1, ih h1.2⟩

theorem fitsAll_pairs {l : List (Element × Hyper)} (h : ∀ p ∈ l, Fits p.1 p.2) : FitsAll (l.map Prod.fst) (l.map Prod.snd) := by
  induction l with
  | nil => simp [FitsAll]
  | cons p rest ih =>
    simp only [List.map_cons, FitsAll]
    exact ⟨h p List.mem_cons_self, ih fun q hq => h q (List.mem_cons_of_mem _ hq)⟩

theorem allowedAll_iff (l : List Element) : AllowedAll l ↔ ∀ e ∈ l, Allowed e := by
  induction l with
  | nil => simp [AllowedAll]
  | cons e rest ih => simp [AllowedAll, ih]

theorem solidAll_iff (l : List Element) : SolidAll l ↔ ∀ e ∈ l, Solid e := by
  induction l with
  | nil => simp [SolidAll]
  | cons e rest ih => simp [SolidAll, ih]

theorem usableAll_iff (obs : Obs) (l : List Element) : UsableAll obs l ↔ ∀ e ∈ l, Usable obs e := by
  induction l with
  | nil => simp [UsableAll]
  | cons e rest ih => simp [UsableAll, ih]

theorem sound_mesh (srt : Argsort) (n : Nat) (h : n ≤ 28) : SphereSpde.Sound (sphereMesh srt n) :=
  SphereSpde.c45_mesh srt good_plain n h

theorem mesh_points (srt : Argsort) (n : Nat) : (sphereMesh srt n).points.length = 10 * 4 ^ n + 2 :=
  (c28_counts srt midOnSphere basePoints good_plain.num n).1

theorem proper_of {parts : List Element} {hypers : List Hyper} (hne : parts ≠ []) (hf : FitsAll parts hypers)
    (ha : ∀ e ∈ parts, Allowed e) (hs : ∀ e ∈ parts, Solid e) : ProperPrior ⟨.combination parts, .combination hypers⟩ := by
  intro obs
  refine c90_precision obs _ _ ?_ ?_ ?_
  · simp only [Fits]
    exact hf
  · simp only [Allowed]
    exact ⟨hne, (allowedAll_iff _).2 ha⟩
  · simp only [Solid]
    exact (solidAll_iff _).2 hs

theorem covariate_allowed {e : Element} (h : IsCovariate e) : Allowed e ∧ Solid e := by
  rcases h with rfl | ⟨v, rfl⟩ <;> simp [Allowed, Solid]

theorem newYear_cast (a b : Nat) (h : a < b) : (newYearDay a) < newYearDay b := newYearDay_lt h

theorem seasonal_proper : Proper (line 0.0 1.0 12 true) := line_proper true (by norm_num) (by norm_num)

theorem latitude_proper (count : Nat) (h : 2 ≤ count) : Proper (latitudeLine count) :=
  (c109_latitudes count h 1 (by norm_num) (by norm_num) 0 (by norm_num)).1

theorem midscale_proper : Proper (line (newYearDay (1880 - 2)) (newYearDay (2016 + 2)) (monthlyNodes (1880 - 2) (2016 + 2) 3) false) :=
  line_proper false (newYearDay_lt (by norm_num)) (by rw [(c109_months _ _ (by norm_num) (by norm_num)).1]; norm_num)

theorem slow_proper : Proper (line (floorTo 1860 4) (ceilTo 2035 4) (slowNodes (floorTo 1860 4) (ceilTo 2035 4) 4) false) := by
  obtain ⟨h1, h2, h3, h4, h5, -⟩ := c109_quantised 1860 2035 4 (by norm_num) (by norm_num)
  exact line_proper false (by linarith) h5

/-! ### Priors -/

/-- **C109**: the prior of the climatology, for any covariates with fitting hyperparameters. -/
theorem c109_climatology_prior (srt : Argsort) (covariates : List Element) (hypers : List Hyper) (hf : FitsAll covariates hypers)
    (hc : ∀ e ∈ covariates, IsCovariate e) : ProperPrior (climatology srt covariates hypers) := by
  refine proper_of (by simp) (fitsAll_append ?_ hf) ?_ ?_
  · simp only [FitsAll, latitudeSplineElement, Fits, and_self]
  · intro e he
    rcases List.mem_append.1 he with he | he
    · simp only [List.mem_cons, List.not_mem_nil, or_false] at he
      rcases he with rfl | rfl | rfl
      · simp [Allowed, spaceTime]
      · simp [Allowed]
      · simp [Allowed, latitudeSplineElement]
    · exact (covariate_allowed (hc e he)).1
  · intro e he
    rcases List.mem_append.1 he with he | he
    · simp only [List.mem_cons, List.not_mem_nil, or_false] at he
      rcases he with rfl | rfl | rfl
      · simp only [Solid, spaceTime]
        exact ⟨sound_mesh srt 6 (by norm_num), seasonal_proper, fun _ => by norm_num⟩
      · simp [Solid]
      · simp only [Solid, latitudeSplineElement]
        exact ⟨latitude_proper 361 (by norm_num), fun _ => by norm_num⟩
    · exact (covariate_allowed (hc e he)).2

/-- **C109**: the prior of the older climatology. -/
theorem c109_example_prior (srt : Argsort) (covariates : List Element) (hypers : List Hyper) (hf : FitsAll covariates hypers)
    (hc : ∀ e ∈ covariates, IsCovariate e) : ProperPrior (exampleClimatology srt covariates hypers) := by
  refine proper_of (by simp) (fitsAll_append ?_ hf) ?_ ?_
  · simp [FitsAll, Fits]
  · intro e he
    rcases List.mem_append.1 he with he | he
    · simp only [List.mem_cons, List.not_mem_nil, or_false] at he
      rcases he with rfl | rfl
      · simp [Allowed, seasonalCount]
      · simp [Allowed]
    · exact (covariate_allowed (hc e he)).1
  · intro e he
    rcases List.mem_append.1 he with he | he
    · simp only [List.mem_cons, List.not_mem_nil, or_false] at he
      rcases he with rfl | rfl
      · simp only [Solid]
        exact sound_mesh srt 6 (by norm_num)
      · simp [Solid]
    · exact (covariate_allowed (hc e he)).2

/-- **C109**: the prior of the large scale, without and with biases of stations. -/
theorem c109_large_scale_prior (srt : Argsort) (breaks : Option Breaks) : ProperPrior (largeScale srt breaks) := by
  refine proper_of (by simp) (fitsAll_append ?_ ?_) ?_ ?_
  · simp [FitsAll, midscaleElement, slowElement, Fits]
  · cases breaks <;> simp [FitsAll, Fits]
  · intro e he
    rcases List.mem_append.1 he with he | he
    · simp only [List.mem_cons, List.not_mem_nil, or_false] at he
      rcases he with rfl | rfl <;> simp [midscaleElement, slowElement, Allowed, spaceTime]
    · cases breaks with
      | none => simp at he
      | some b =>
        simp only [List.mem_singleton] at he
        subst he
        simp [Allowed]
  · intro e he
    rcases List.mem_append.1 he with he | he
    · simp only [List.mem_cons, List.not_mem_nil, or_false] at he
      rcases he with rfl | rfl
      · simp only [midscaleElement, Solid, spaceTime]
        exact ⟨sound_mesh srt 4 (by norm_num), midscale_proper, fun _ => by norm_num⟩
      · simp only [slowElement, Solid, spaceTime]
        exact ⟨sound_mesh srt 4 (by norm_num), slow_proper, fun _ => by norm_num⟩
    · cases breaks with
      | none => simp at he
      | some b =>
        simp only [List.mem_singleton] at he
        subst he
        simp [Solid]

theorem localBias_fits (srt : Argsort) (g : String) : ∀ p ∈ localBias srt g, Fits p.1 p.2 ∧ Allowed p.1 ∧ Solid p.1 := by
  intro p hp
  unfold localBias at hp
  split at hp
  · simp only [List.mem_cons, List.not_mem_nil, or_false] at hp
    rcases hp with rfl | rfl
    · simp [Fits, Allowed, Solid]
    · simp only [Fits, Allowed, Solid, true_and]
      exact sound_mesh srt 6 (by norm_num)
  · split at hp
    · simp only [List.mem_cons, List.not_mem_nil, or_false] at hp
      subst hp
      simp [Fits, Allowed, Solid]
    · split at hp
      · simp only [List.mem_cons, List.not_mem_nil, or_false] at hp
        rcases hp with rfl | rfl
        · simp [Fits, Allowed, Solid]
        · simp only [Fits, Allowed, Solid, true_and]
          exact sound_mesh srt 6 (by norm_num)
      · simp at hp

/-- The pairs of the bias terms of a list of groups. -/
theorem mem_terms {bias : String → List (Element × Hyper)} {biasTerms : Bool} {groups : List String} {p : Element × Hyper}
    (hp : p ∈ (if biasTerms then groups.flatMap bias else [])) : ∃ g ∈ groups, p ∈ bias g := by
  cases biasTerms
  · simp at hp
  · simpa using hp

/-- **C109**: the prior of the local definition, for any list of groups. -/
theorem c109_local_prior (srt : Argsort) (biasTerms : Bool) (groups : List String) :
    ProperPrior (localDefinition srt biasTerms groups) := by
  have key : ∀ p ∈ (if biasTerms then groups.flatMap (localBias srt) else []), Fits p.1 p.2 ∧ Allowed p.1 ∧ Solid p.1 := by
    intro p hp
    obtain ⟨g, -, h⟩ := mem_terms hp
    exact localBias_fits srt g p h
  refine proper_of (by simp) ?_ ?_ ?_
  · simp only [FitsAll]
    exact ⟨by simp [Fits], fitsAll_pairs fun p hp => (key p hp).1⟩
  · intro e he
    rcases List.mem_cons.1 he with rfl | he
    · simp [Allowed]
    · obtain ⟨p, hp, rfl⟩ := List.mem_map.1 he
      exact (key p hp).2.1
  · intro e he
    rcases List.mem_cons.1 he with rfl | he
    · simp only [Solid]
      exact sound_mesh srt 7 (by norm_num)
    · obtain ⟨p, hp, rfl⟩ := List.mem_map.1 he
      exact (key p hp).2.2

/-- The definition which is made. -/
def expandedDefinition (srt : Argsort) (biasTerms : Bool) (groups : List String) (values : List ℝ) : Definition where
  element := .combination (.nonstationary (sphereMesh srt 7) ::
    (if biasTerms then groups.flatMap nonstationaryBias else []).map Prod.fst)
  hyper := .combination (.expanded (values.take (values.length / 2)) (values.drop (values.length / 2)) ::
    (if biasTerms then groups.flatMap nonstationaryBias else []).map Prod.snd)

theorem nonstationaryDefinition_eq (srt : Argsort) (biasTerms : Bool) (groups : List String) (values : List ℝ) :
    nonstationaryDefinition srt biasTerms groups values = .ok (expandedDefinition srt biasTerms groups values) := by
  simp only [nonstationaryDefinition, setArray, expandedDefinition]

theorem nonstationaryBias_fits (g : String) : ∀ p ∈ nonstationaryBias g, Fits p.1 p.2 ∧ Allowed p.1 ∧ Solid p.1 := by
  intro p hp
  unfold nonstationaryBias at hp
  split at hp
  · simp only [List.mem_cons, List.not_mem_nil, or_false] at hp
    subst hp
    simp [Fits, Allowed, Solid]
  · split at hp
    · simp only [List.mem_cons, List.not_mem_nil, or_false] at hp
      subst hp
      simp [Fits, Allowed, Solid]
    · simp at hp

/-- **C109**: a non-stationary local definition is made from any array of hyperparameters, but its prior exists exactly for arrays
with two values for each of the 163842 points of the mesh. -/
theorem c109_nonstationary_prior (srt : Argsort) (biasTerms : Bool) (groups : List String) (values : List ℝ) :
    ∃ d, nonstationaryDefinition srt biasTerms groups values = .ok d ∧
      (values.length = 2 * 163842 → ProperPrior d) ∧
      (values.length ≠ 2 * 163842 → ∃ p, d.element.prior d.hyper = .ok p ∧ p.precision = .error .valueError) := by
  have hpts : (sphereMesh srt 7).points.length = 163842 := by rw [mesh_points]; norm_num
  have key : ∀ p ∈ (if biasTerms then groups.flatMap nonstationaryBias else []), Fits p.1 p.2 ∧ Allowed p.1 ∧ Solid p.1 := by
    intro p hp
    obtain ⟨g, -, h⟩ := mem_terms hp
    exact nonstationaryBias_fits g p h
  refine ⟨_, nonstationaryDefinition_eq srt biasTerms groups values, fun hv => ?_, fun hv => ?_⟩
  · refine proper_of (by simp) ?_ ?_ ?_
    · simp only [FitsAll]
      refine ⟨?_, fitsAll_pairs fun p hp => (key p hp).1⟩
      simp only [Fits]
      rw [hpts, List.length_take, List.length_drop, hv]
      norm_num
    · intro e he
      rcases List.mem_cons.1 he with rfl | he
      · simp [Allowed]
      · obtain ⟨p, hp, rfl⟩ := List.mem_map.1 he
        exact (key p hp).2.1
    · intro e he
      rcases List.mem_cons.1 he with rfl | he
      · simp only [Solid]
        exact sound_mesh srt 7 (by norm_num)
      · obtain ⟨p, hp, rfl⟩ := List.mem_map.1 he
        exact (key p hp).2.2
  · obtain ⟨priors, h1, -⟩ := precisions_good ((if biasTerms then groups.flatMap nonstationaryBias else []).map Prod.fst)
      ((if biasTerms then groups.flatMap nonstationaryBias else []).map Prod.snd) (fitsAll_pairs fun p hp => (key p hp).1)
      ((allowedAll_iff _).2 fun e he => by
        obtain ⟨p, hp, rfl⟩ := List.mem_map.1 he
        exact (key p hp).2.1)
    refine ⟨combinedPrior (.expanded (values.take (values.length / 2)) (values.drop (values.length / 2)) ::
        (if biasTerms then groups.flatMap nonstationaryBias else []).map Prod.snd)
      (nonstationaryPrior (sphereMesh srt 7) (values.take (values.length / 2)) (values.drop (values.length / 2)) :: priors), ?_, ?_⟩
    · simp only [expandedDefinition, Element.prior, priorsOf]
      rw [h1]
    · simp only [combinedPrior, blocksOf, List.map_cons, nonstationaryPrior]
      rw [if_pos]
      · simp only [collect]
      · rw [List.take_append_drop, hpts]
        omega

/-- Non-vacuity: arrays of both kinds. -/
example : (List.replicate (2 * 163842) (0 : ℝ)).length = 2 * 163842 ∧ ([1, 2, 3] : List ℝ).length ≠ 2 * 163842 := by
  rw [List.length_replicate]
  exact ⟨rfl, by decide⟩

/-! ### Designs -/

theorem supplied_length {lookup : List (ℝ × ℝ)} {o : Observations ℝ} {n : Nat} (hs : Sized o n) (hl : Located lookup o)
    {locations : List (ℝ × ℝ)} (h : polarCoordinates lookup o = .ok locations) : locations.length = observationCount o := by
  obtain ⟨places, vector, precision, coordinates, -, -, h3, -, -, h6, -, -, h9, -⟩ := c97_aligned lookup o n hs hl
  rw [h6] at h
  cases h
  rw [h9, h3]

theorem satellite_usable {lookup : List (ℝ × ℝ)} {o : Observations ℝ} {n : Nat} (hs : Sized o n) (hl : Located lookup o) {day : Int}
    {allMatch : String → Bool} {breaks : Option (List (Int × ℚ))} {obs : Obs} (hobs : Supplied lookup o day allMatch breaks obs)
    {g : String} (hg : g = "surfaceairmodel_land_global" ∨ g = "surfaceairmodel_ocean_global") : Usable obs (.bias g 1) := by
  simp only [Usable]
  intro pairs hp p hpp
  have hin : g ∈ biasGroups := by rcases hg with rfl | rfl <;> decide
  have he := hobs.effects g hin
  rw [hp] at he
  cases hm : allMatch g with
  | false =>
    rw [(c97_groups lookup o day allMatch g breaks).2 hin hm] at he
    cases he
  | true =>
    obtain ⟨effect, h1, h2⟩ := c97_satellite lookup o day allMatch g hg hm breaks
    rw [h1] at he
    cases he
    obtain ⟨h3, h4⟩ := (h2 p.1 p.2).1 hpp
    rw [supplied_length hs hl hobs.locations, h4]
    exact ⟨h3, by norm_num⟩

theorem ice_usable {lookup : List (ℝ × ℝ)} {o : Observations ℝ} {n : Nat} (hs : Sized o n) (hl : Located lookup o) {day : Int}
    {allMatch : String → Bool} {breaks : Option (List (Int × ℚ))} {obs : Obs} (hobs : Supplied lookup o day allMatch breaks obs) :
    Usable obs (.bias "surfaceairmodel_ice_global" 2) := by
  simp only [Usable]
  intro pairs hp p hpp
  have hin : "surfaceairmodel_ice_global" ∈ biasGroups := by decide
  have he := hobs.effects _ hin
  rw [hp] at he
  cases hm : allMatch "surfaceairmodel_ice_global" with
  | false =>
    rw [(c97_groups lookup o day allMatch _ breaks).2 hin hm] at he
    cases he
  | true =>
    obtain ⟨effect, coordinates, h1, h2, h3, h4⟩ := c97_hemispheres lookup o n hs hl day allMatch hm breaks
    rw [h2] at he
    cases he
    have hlen := supplied_length hs hl h1
    obtain ⟨k, hk⟩ := List.mem_iff_getElem?.1 hpp
    have hkl : k < coordinates.length := by
      rw [hlen, ← h3]
      exact (List.getElem?_eq_some_iff.1 hk).1
    obtain ⟨h5, h6⟩ := h4 k _ (List.getElem?_eq_getElem hkl)
    rw [supplied_length hs hl hobs.locations, ← hlen]
    rcases le_or_gt 0 (coordinates[k]).1 with h | h
    · rw [h5 h] at hk
      cases hk
      exact ⟨hkl, by norm_num⟩
    · rw [h6 h] at hk
      cases hk
      exact ⟨hkl, by norm_num⟩

theorem design_of {parts : List Element} {hypers : Hyper} {obs : Obs} (hne : parts ≠ []) (hu : ∀ e ∈ parts, Usable obs e) :
    ProperDesign ⟨.combination parts, hypers⟩ obs := by
  refine c39_linear obs _ ?_
  simp only [Usable]
  exact ⟨hne, (usableAll_iff _ _).2 hu⟩

/-- **C109**: the local definitions have a design for the observations of every day, whatever groups are listed. -/
theorem c109_local_design (srt : Argsort) (biasTerms : Bool) (groups : List String) (values : List ℝ) {lookup : List (ℝ × ℝ)}
    {o : Observations ℝ} {n : Nat} (hs : Sized o n) (hl : Located lookup o) {day : Int} {allMatch : String → Bool}
    {breaks : Option (List (Int × ℚ))} {obs : Obs} (hobs : Supplied lookup o day allMatch breaks obs) :
    ProperDesign (localDefinition srt biasTerms groups) obs ∧
    ∃ d, nonstationaryDefinition srt biasTerms groups values = .ok d ∧ ProperDesign d obs := by
  constructor
  · refine design_of (by simp) ?_
    intro e he
    rcases List.mem_cons.1 he with rfl | he
    · simp [Usable]
    · obtain ⟨p, hp, rfl⟩ := List.mem_map.1 he
      obtain ⟨g, -, h⟩ := mem_terms hp
      unfold localBias at h
      split at h
      · rename_i hg
        simp only [List.mem_cons, List.not_mem_nil, or_false] at h
        rcases h with rfl | rfl
        · exact satellite_usable hs hl hobs (.inl hg)
        · simp [Usable]
      · split at h
        · rename_i hg
          simp only [List.mem_cons, List.not_mem_nil, or_false] at h
          subst h
          exact satellite_usable hs hl hobs (.inr hg)
        · split at h
          · rename_i hg
            simp only [List.mem_cons, List.not_mem_nil, or_false] at h
            subst hg
            rcases h with rfl | rfl
            · exact ice_usable hs hl hobs
            · simp [Usable]
          · simp at h
  · refine ⟨_, nonstationaryDefinition_eq srt biasTerms groups values, design_of (by simp) ?_⟩
    intro e he
    rcases List.mem_cons.1 he with rfl | he
    · simp [Usable]
    · obtain ⟨p, hp, rfl⟩ := List.mem_map.1 he
      obtain ⟨g, -, h⟩ := mem_terms hp
      unfold nonstationaryBias at h
      split at h
      · rename_i hg
        simp only [List.mem_cons, List.not_mem_nil, or_false] at h
        subst h
        exact satellite_usable hs hl hobs hg
      · split at h
        · rename_i hg
          simp only [List.mem_cons, List.not_mem_nil, or_false] at h
          subst hg
          subst h
          exact ice_usable hs hl hobs
        · simp at h

/-- **C109**: the large scale definition has a design for observations in the order of stations. -/
theorem c109_large_scale_design (srt : Argsort) (b : Breaks) (hb : b.Aligned) (ho : RowOrder b.rows) {lookup : List (ℝ × ℝ)}
    {o : Observations ℝ} {n : Nat} (hs : Sized o n) (hl : Located lookup o) {day : Int} {allMatch : String → Bool}
    {obs : Obs} (hobs : Supplied lookup o day allMatch (some (pairsOf b)) obs) (ids : List UInt64)
    (hids : ObsSource.gather o.location (validPlaces o.mask) = .ok ids)
    (hord : (ids.map fun id => (id.toNat : Int)).Pairwise (· < ·)) :
    ProperDesign (largeScale srt none) obs ∧ ProperDesign (largeScale srt (some b)) obs := by
  have hbase : ∀ e ∈ [midscaleElement srt, slowElement srt], Usable obs e := by
    intro e he
    simp only [List.mem_cons, List.not_mem_nil, or_false] at he
    rcases he with rfl | rfl <;> simp [midscaleElement, slowElement, Usable]
  constructor
  · exact design_of (by simp) (by simpa using hbase)
  · refine design_of (by simp) ?_
    intro e he
    rcases List.mem_append.1 he with he | he
    · exact hbase e he
    · simp only [List.mem_singleton] at he
      subst he
      simp only [Usable]
      intro pairs hp p hpp
      have he := hobs.effects "insitu_land" (by decide)
      rw [hp] at he
      cases hm : allMatch "insitu_land" with
      | false =>
        rw [(c97_groups lookup o day allMatch _ _).2 (by decide) hm] at he
        cases he
      | true =>
        obtain ⟨effect, h1, h2, h3⟩ := c96_observations lookup o n hs day allMatch hm (pairsOf b) (inOrder_pairs b hb ho) ids hids hord
        rw [h1] at he
        by_cases h0 : effect.length = 0
        · rw [if_pos h0] at he
          cases he
        · rw [if_neg h0] at he
          cases he
          obtain ⟨id, hid, tb, htb, -⟩ := (h3 p.1 p.2).1 hpp
          have hk := (List.getElem?_eq_some_iff.1 hid).1
          have hc := (List.getElem?_eq_some_iff.1 htb).1
          have hidl : ids.length = observationCount o := by
            obtain ⟨s1, s2, -⟩ := hs
            rw [gather_ok o.location 0 (validPlaces o.mask) (fun i hi => by
              rw [s2, ← s1]
              exact (List.getElem?_eq_some_iff.1 ((mem_validPlaces _ _).1 hi)).1)] at hids
            cases hids
            rw [List.length_map]
            rfl
          have hpl : (pairsOf b).length ≤ numberOfBiases b := by
            have := hb.station
            have := hb.likelihood
            unfold pairsOf numberOfBiases
            rw [List.length_zip, List.length_map]
            omega
          rw [supplied_length hs hl hobs.locations, ← hidl]
          exact ⟨hk, by omega⟩

/-- **C109**: the climatology has a design wherever its maps have values. -/
theorem c109_climatology_design (srt : Argsort) (covariates : List Element) (hypers : List Hyper) (obs : Obs)
    (hc : ∀ e ∈ covariates, e = .latitudeHarmonics ∨ ∃ value, e = .geography value ∧ ∀ l ∈ obs.locations, ∃ v, value l = .ok v) :
    ProperDesign (climatology srt covariates hypers) obs ∧ ProperDesign (exampleClimatology srt covariates hypers) obs := by
  have hcov : ∀ e ∈ covariates, Usable obs e := by
    intro e he
    rcases hc e he with rfl | ⟨value, rfl, h⟩
    · simp [Usable]
    · simp only [Usable]
      exact h
  constructor
  · refine design_of (by simp) ?_
    intro e he
    rcases List.mem_append.1 he with he | he
    · simp only [List.mem_cons, List.not_mem_nil, or_false] at he
      rcases he with rfl | rfl | rfl <;> simp [Usable, latitudeSplineElement]
    · exact hcov e he
  · refine design_of (by simp) ?_
    intro e he
    rcases List.mem_append.1 he with he | he
    · simp only [List.mem_cons, List.not_mem_nil, or_false] at he
      rcases he with rfl | rfl <;> simp [Usable]
    · exact hcov e he

/-- The observations of a day can be supplied: the effects of all groups exist. -/
theorem supplied_exists {lookup : List (ℝ × ℝ)} {o : Observations ℝ} {n : Nat} (hs : Sized o n) (hl : Located lookup o) (day : Int)
    (allMatch : String → Bool) (b : Breaks) (hb : b.Aligned) (ho : RowOrder b.rows) (ids : List UInt64)
    (hids : ObsSource.gather o.location (validPlaces o.mask) = .ok ids)
    (hord : (ids.map fun id => (id.toNat : Int)).Pairwise (· < ·)) (time year : ℝ) (row : Mesh V3 → ℝ × ℝ → Nat → ℝ) :
    ∃ obs, Supplied lookup o day allMatch (some (pairsOf b)) obs ∧ obs.timeIndex = time ∧ obs.decimalYear = year ∧
      obs.sphereRow = row := by
  obtain ⟨-, -, -, coordinates, -, -, -, -, -, h6, -⟩ := c97_aligned lookup o n hs hl
  have hall : ∀ g ∈ biasGroups, ∃ e, covariateEffect lookup o day allMatch g (some (pairsOf b)) = .ok e := by
    intro g hg
    cases hm : allMatch g with
    | false => exact ⟨_, (c97_groups lookup o day allMatch g _).2 hg hm⟩
    | true =>
      simp only [biasGroups, List.mem_cons, List.not_mem_nil, or_false] at hg
      rcases hg with rfl | rfl | rfl | rfl | rfl
      · obtain ⟨e, h, -⟩ := c96_observations lookup o n hs day allMatch hm (pairsOf b) (inOrder_pairs b hb ho) ids hids hord
        exact ⟨_, h⟩
      · exact ⟨_, (c97_ocean_violated lookup o day allMatch _).2⟩
      · obtain ⟨e, h, -⟩ := c97_satellite lookup o day allMatch _ (.inl rfl) hm (some (pairsOf b))
        exact ⟨_, h⟩
      · obtain ⟨e, h, -⟩ := c97_satellite lookup o day allMatch _ (.inr rfl) hm (some (pairsOf b))
        exact ⟨_, h⟩
      · obtain ⟨e, c, -, h, -⟩ := c97_hemispheres lookup o n hs hl day allMatch hm (some (pairsOf b))
        exact ⟨_, h⟩
  classical
  refine ⟨⟨coordinates, time, year, fun g => if h : g ∈ biasGroups then (hall g h).choose else none, row⟩, ⟨h6, ?_⟩, rfl, rfl, rfl⟩
  intro g hg
  dsimp only
  rw [dif_pos hg]
  exact (hall g hg).choose_spec

/-- Non-vacuity: the three observations of C97, which are in the order of stations, with two breaks. -/
example : Sized threeObservations 3 ∧ Located [(10, 20), (30, 190), (-50, 350)] threeObservations ∧
    ObsSource.gather threeObservations.location (validPlaces threeObservations.mask) = .ok [0, 2] ∧
    (([0, 2] : List UInt64).map fun id => (id.toNat : Int)).Pairwise (· < ·) := by
  refine ⟨by simp [Sized, threeObservations], ?_, by decide, by decide⟩
  intro i id h1 h2
  match i with
  | 0 => cases h2; simp
  | 1 => cases h1
  | 2 => cases h2; simp
  | i + 3 => simp [threeObservations] at h1

/-! ### Numbers of parameters -/

theorem combination_size (obs : Obs) (parts : List Element) :
    ((Element.combination parts).design obs).size = (parts.map fun e => (e.design obs).size).sum := by
  simp only [Element.design]
  show ((designsOf obs parts).map Design.size).sum = _
  rw [designsOf_eq, List.map_map]
  rfl

/-- **C109**: numbers of parameters of the local definition: 163842 for temperature, and for each group those of its biases; groups
which are not known have none. -/
theorem c109_local_size (srt : Argsort) (groups : List String) (obs : Obs) :
    ((localDefinition srt true groups).element.design obs).size = 163842 + (groups.map biasCount).sum ∧
    ((localDefinition srt false groups).element.design obs).size = 163842 := by
  have h7 : (sphereMesh srt 7).points.length = 163842 := by rw [mesh_points]; norm_num
  have h6 : (sphereMesh srt 6).points.length = 40962 := by rw [mesh_points]; norm_num
  have hone : ∀ g, (((localBias srt g).map Prod.fst).map fun e => (e.design obs).size).sum = biasCount g := by
    intro g
    unfold localBias
    split
    · rename_i hg
      subst hg
      simp [Element.design, biasDesign, spatialBiasDesign, linearDesign, h6, biasCount]
    · rename_i hg1
      split
      · rename_i hg
        subst hg
        simp [Element.design, biasDesign, linearDesign, biasCount]
      · rename_i hg2
        split
        · rename_i hg
          subst hg
          simp [Element.design, biasDesign, spatialBiasDesign, linearDesign, h6, biasCount]
        · rename_i hg3
          simp [biasCount, hg1, hg2, hg3]
  have hterms : ∀ l : List String, (((l.flatMap (localBias srt)).map Prod.fst).map fun e => (e.design obs).size).sum =
      (l.map biasCount).sum := by
    intro l
    induction l with
    | nil => rfl
    | cons g rest ih =>
      rw [List.flatMap_cons, List.map_append, List.map_append, List.sum_append, hone, ih, List.map_cons, List.sum_cons]
  constructor
  · simp only [localDefinition, combination_size, List.map_cons, List.sum_cons, if_true]
    rw [hterms]
    simp [Element.design, localDesign, linearDesign, h7]
  · simp only [localDefinition, combination_size, List.map_cons, List.sum_cons, Bool.false_eq_true, if_false, List.map_nil,
      List.sum_nil]
    simp [Element.design, localDesign, linearDesign, h7]

/-- The groups of the analysis. -/
example : (["surfaceairmodel_land_global", "surfaceairmodel_ocean_global", "surfaceairmodel_ice_global"].map biasCount).sum = 81928 := by
  decide

/-! ### The climatology repeats -/

theorem lineMatrix_one (L : Lattice 1) (overlap t : ℝ) (c : Nat) :
    (lineMatrix L (spanOf L overlap) [t]).get 0 c = lineRow L overlap t c := rfl

/-- **C109**: designs of the climatology for the same places at times which differ by whole years are the same, so that its
temperature repeats every year. -/
theorem c109_climatology_repeats (srt : Argsort) (covariates : List Element) (hypers : List Hyper)
    (hc : ∀ e ∈ covariates, IsCovariate e) (obs₁ obs₂ : Obs) (hl : obs₂.locations = obs₁.locations)
    (hr : obs₂.sphereRow = obs₁.sphereRow) (m : ℤ) (hy : obs₂.decimalYear = obs₁.decimalYear + m) :
    (climatology srt covariates hypers).element.design obs₂ = (climatology srt covariates hypers).element.design obs₁ ∧
    (exampleClimatology srt covariates hypers).element.design obs₂ = (exampleClimatology srt covariates hypers).element.design obs₁ := by
  have hsphere : ∀ M : Mesh V3, sphereMatrix M obs₂ = sphereMatrix M obs₁ := by
    intro M
    unfold sphereMatrix
    rw [hl, hr]
  have hcov : ∀ e ∈ covariates, e.design obs₂ = e.design obs₁ := by
    intro e he
    rcases hc e he with rfl | ⟨v, rfl⟩
    · simp only [Element.design, latitudeHarmonicsDesign, hl]
    · simp only [Element.design, geographyDesign, hl]
  have hmean : Element.grandMean.design obs₂ = Element.grandMean.design obs₁ := by
    simp only [Element.design, grandMeanDesign, hl]
  have hcomb : ∀ parts : List Element, (∀ e ∈ parts, e.design obs₂ = e.design obs₁) →
      (Element.combination parts).design obs₂ = (Element.combination parts).design obs₁ := by
    intro parts hp
    simp only [Element.design]
    congr 1
    rw [designsOf_eq, designsOf_eq]
    exact List.map_congr_left hp
  constructor
  · refine hcomb _ ?_
    intro e he
    rcases List.mem_append.1 he with he | he
    · simp only [List.mem_cons, List.not_mem_nil, or_false] at he
      rcases he with rfl | rfl | rfl
      · have hline : lineMatrix (line 0.0 1.0 12 true) (spanOf (line 0.0 1.0 12 true) 2.5) [obs₂.decimalYear] =
            lineMatrix (line 0.0 1.0 12 true) (spanOf (line 0.0 1.0 12 true) 2.5) [obs₁.decimalYear] := by
          unfold lineMatrix
          congr 1
          funext i c
          cases i with
          | zero =>
            have := c109_repeats 0.0 1.0 12 2.5 (by norm_num) (by norm_num) (by norm_num) obs₁.decimalYear m c
            have e : obs₁.decimalYear + m * ((1.0 : ℝ) - 0.0) = obs₂.decimalYear := by rw [hy]; norm_num
            rw [e] at this
            exact this
          | succ i => rfl
        simp only [Element.design, kroneckerDesign, spaceTime]
        rw [hline, hsphere]
      · exact hmean
      · simp only [latitudeSplineElement, Element.design, latitudeSplineDesign, hl]
    · exact hcov e he
  · refine hcomb _ ?_
    intro e he
    rcases List.mem_append.1 he with he | he
    · simp only [List.mem_cons, List.not_mem_nil, or_false] at he
      rcases he with rfl | rfl
      · have hlist : seasonalList 4 true obs₂.decimalYear = seasonalList 4 true obs₁.decimalYear := by
          have hang : ∀ order : Nat, (order : ℝ) * 2.0 * Real.pi * obs₂.decimalYear =
              (order : ℝ) * 2.0 * Real.pi * obs₁.decimalYear + ((order * m : ℤ) : ℝ) * (2 * Real.pi) := by
            intro order
            rw [hy]
            push_cast
            norm_num
            ring
          have hs : ∀ order : Nat, sineHarmonic obs₂.decimalYear order = sineHarmonic obs₁.decimalYear order := by
            intro order
            unfold sineHarmonic
            rw [hang, Real.sin_add_int_mul_two_pi]
          have hcs : ∀ order : Nat, cosineHarmonic obs₂.decimalYear order = cosineHarmonic obs₁.decimalYear order := by
            intro order
            unfold cosineHarmonic
            rw [hang, Real.cos_add_int_mul_two_pi]
          unfold seasonalList
          simp only [hs, hcs]
        simp only [Element.design, seasonalDesign]
        rw [hlist, hsphere]
      · exact hmean
    · exact hcov e he

/-- Non-vacuity: the same place in 1995 and 2006. -/
example : ∃ obs₁ obs₂ : Obs, obs₂.locations = obs₁.locations ∧ obs₂.sphereRow = obs₁.sphereRow ∧
    obs₂.decimalYear = obs₁.decimalYear + ((11 : ℤ) : ℝ) ∧ obs₁.locations ≠ [] := by
  refine ⟨⟨[(50, 10)], 53000, 1995.3, fun _ => none, fun _ _ _ => 0⟩, ⟨[(50, 10)], 57000, 2006.3, fun _ => none, fun _ _ _ => 0⟩,
    rfl, rfl, by norm_num, by simp⟩

/-! ### The period of the large scale -/

/-- **C109**: the monthly element of the large scale has weights from 1878 to 2018, at 561 nodes, and the slow element from 1860 to
2036, at 45 nodes; more than two and a half nodes away from these periods there are none. -/
theorem c109_large_scale_period (srt : Argsort) : ∃ s s' : SpaceTime,
    midscaleElement srt = .kronecker s ∧ slowElement srt = .annualKronecker s' ∧ s.line.size = 561 ∧ s'.line.size = 45 ∧
    (∀ t, newYearDay 1878 ≤ t → t ≤ newYearDay 2018 → ∃ c < 561, 0 < (lineMatrix s.line s.span [t]).get 0 c) ∧
    (∀ t, newYearDay 2018 + 230 ≤ t ∨ t ≤ newYearDay 1878 - 230 → ∀ c, (lineMatrix s.line s.span [t]).get 0 c = 0) ∧
    (∀ y : ℝ, 1860 ≤ y → y ≤ 2036 → ∃ c < 45, 0 < (lineMatrix s'.line s'.span [y]).get 0 c) ∧
    (∀ y : ℝ, 2046 ≤ y ∨ y ≤ 1850 → ∀ c, (lineMatrix s'.line s'.span [y]).get 0 c = 0) := by
  have hm := c109_months (1880 - 2) (2016 + 2) (by norm_num) (by norm_num)
  have hn : monthlyNodes (1880 - 2) (2016 + 2) 3 = 561 := hm.1
  have hlt : newYearDay (1880 - 2) < newYearDay (2016 + 2) := newYearDay_lt (by norm_num)
  have hf : floorTo 1860 4 = 1860 := by
    unfold floorTo
    rw [show ((1860 : ℝ) / 4) = ((465 : ℤ) : ℝ) by norm_num, Int.floor_intCast]
    norm_num
  have hc : ceilTo 2035 4 = 2036 := by
    unfold ceilTo
    rw [show ⌈(2035 : ℝ) / 4⌉ = 509 by rw [Int.ceil_eq_iff]; norm_num]
    norm_num
  have hs : slowNodes (floorTo 1860 4) (ceilTo 2035 4) 4 = 45 := by
    rw [hf, hc]
    unfold slowNodes
    rw [show ⌊((2036 : ℝ) - 1860) / 4 + 1 + 1 / 2⌋ = 45 by rw [Int.floor_eq_iff]; norm_num]
    rfl
  refine ⟨_, _, rfl, rfl, ?_, ?_, ?_, ?_, ?_, ?_⟩
  · simp only [spaceTime]
    rw [line_size]
    exact hn
  · simp only [spaceTime]
    rw [line_size]
    exact hs
  · intro t h1 h2
    have := (c109_period (newYearDay (1880 - 2)) (newYearDay (2016 + 2)) (monthlyNodes (1880 - 2) (2016 + 2) 3) 2.5 hlt
      (by rw [hn]; norm_num) (by norm_num) t).1 h1 h2
    obtain ⟨c, hc1, hc2⟩ := this
    rw [hn] at hc1
    exact ⟨c, hc1, hc2⟩
  · intro t ht c
    refine (c109_period (newYearDay (1880 - 2)) (newYearDay (2016 + 2)) (monthlyNodes (1880 - 2) (2016 + 2) 3) 2.5 hlt
      (by rw [hn]; norm_num) (by norm_num) t).2 ?_ c
    have hgap : gap (newYearDay (1880 - 2)) (newYearDay (2016 + 2)) (monthlyNodes (1880 - 2) (2016 + 2) 3) * 2.5 ≤ 230 := by
      rw [hm.2]
      have hd : newYearDay (2016 + 2) - newYearDay (1880 - 2) ≤ 366 * 140 := by
        unfold newYearDay
        have key : ∀ a k : Nat, (daysBeforeYear (a + k) : Int) ≤ daysBeforeYear a + 366 * k := by
          intro a k
          induction k with
          | zero => simp
          | succ k ih =>
            have : daysBeforeYear (a + (k + 1)) ≤ daysBeforeYear (a + k) + 366 := by
              rw [← Nat.add_assoc]
              simp only [daysBeforeYear]
              unfold daysInYear
              split <;> omega
            push_cast at ih ⊢
            omega
        have h1 := key (1880 - 2) 140
        have h2 : ((daysBeforeYear (2016 + 2) : Int) - (daysBeforeYear 1850 : Int)) -
            ((daysBeforeYear (1880 - 2) : Int) - (daysBeforeYear 1850 : Int)) ≤ 366 * 140 := by
          have e : (2016 + 2 : Nat) = 1880 - 2 + 140 := rfl
          rw [e]
          generalize daysBeforeYear (1880 - 2 + 140) = u at h1 ⊢
          generalize daysBeforeYear (1880 - 2) = v at h1 ⊢
          generalize daysBeforeYear 1850 = w
          omega
        exact_mod_cast h2
      have e4 : (4 * (((2016 + 2 : ℕ) : ℝ) - ((1880 - 2 : ℕ) : ℝ))) = 560 := by norm_num
      rw [e4]
      generalize newYearDay (2016 + 2) - newYearDay (1880 - 2) = D at hd
      have : D / 560 * 2.5 = D * (2.5 / 560) := by ring
      rw [this]
      norm_num at hd ⊢
      linarith
    have e1 : newYearDay (1880 - 2) = newYearDay 1878 := rfl
    have e2 : newYearDay (2016 + 2) = newYearDay 2018 := rfl
    rw [e1, e2] at hgap ⊢
    rcases ht with h | h
    · exact .inr (by linarith)
    · exact .inl (by linarith)
  · intro y h1 h2
    have := (c109_period (floorTo 1860 4) (ceilTo 2035 4) (slowNodes (floorTo 1860 4) (ceilTo 2035 4) 4) 2.5
      (by rw [hf, hc]; norm_num) (by rw [hs]; norm_num) (by norm_num) y).1 (by rw [hf]; exact h1) (by rw [hc]; exact h2)
    obtain ⟨c, hc1, hc2⟩ := this
    rw [hs] at hc1
    exact ⟨c, hc1, hc2⟩
  · intro y hy c
    have hg := (c109_quantised 1860 2035 4 (by norm_num) (by norm_num)).2.2.2.2.2
    refine (c109_period (floorTo 1860 4) (ceilTo 2035 4) (slowNodes (floorTo 1860 4) (ceilTo 2035 4) 4) 2.5
      (by rw [hf, hc]; norm_num) (by rw [hs]; norm_num) (by norm_num) y).2 ?_ c
    rw [hg, hf, hc]
    rcases hy with h | h
    · exact .inr (by norm_num; linarith)
    · exact .inl (by norm_num; linarith)

/-! ### Covariates of a descriptor -/

/-- A complete entry of a descriptor: harmonics with four positive values, or a map with its five parameters and one positive value. -/
def CompleteEntry (c : Covariate) : Prop :=
  (∀ p ∈ c.hyperparameters, 0 < p.2) ∧
  ((c.className = "LatitudeHarmonicsElement" ∧ c.parameters = none ∧ c.hyperparameters.length = 4) ∨
    (c.className = "GeographyBasedElement" ∧ c.hyperparameters.length = 1 ∧ ∃ l, c.parameters = some l ∧
      ∀ a, a ∈ l.map Prod.fst ↔ a ∈ ["filename", "latitude_label", "longitude_label", "covariate_label", "rescale_factor"]))

theorem loadValue_pos {v : ℝ} (h : 0 < v) : loadValue v = some (.covariate (Real.log v)) := by
  unfold loadValue
  rw [if_pos h]

theorem allSome_map {α : Type} (l : List α) : allSome (l.map some) = some l := by
  induction l with
  | nil => rfl
  | cons a rest ih => simp [allSome, ih]

/-- **C109**: a descriptor of complete entries with known keys is loaded, and gives covariates with fitting hyperparameters, one of
each for every entry, which are the logarithms of the values. -/
theorem c109_descriptor (value : List (String × String) → ℝ × ℝ → Except PyErr ℝ) (data : List (String × Covariate))
    (hk : ∀ p ∈ data, p.1 ∈ ["latitude_harmonics", "altitude", "coastal_influence"]) (hc : ∀ p ∈ data, CompleteEntry p.2) :
    ∃ elements hypers, loadDescriptor value data = .ok (elements, hypers.map some) ∧ FitsAll elements hypers ∧
      (∀ e ∈ elements, IsCovariate e) ∧
      hypers.map getArray = data.map fun p => .ok (p.2.hyperparameters.map fun q => Real.log q.2) := by
  have hall : ∃ elements hypers, loadAll value data = .ok (elements, hypers.map some) ∧ FitsAll elements hypers ∧
      (∀ e ∈ elements, IsCovariate e) ∧
      hypers.map getArray = data.map fun p => .ok (p.2.hyperparameters.map fun q => Real.log q.2) := by
    clear hk
    induction data with
    | nil => exact ⟨[], [], rfl, by simp [FitsAll], by simp, rfl⟩
    | cons p rest ih =>
      obtain ⟨elements, hypers, h1, h2, h3, h4⟩ := ih fun q hq => hc q (List.mem_cons_of_mem _ hq)
      obtain ⟨key, c⟩ := p
      obtain ⟨hpos, hcase⟩ := hc (key, c) List.mem_cons_self
      dsimp only at hpos hcase
      rcases hcase with ⟨hn, hp, hh⟩ | ⟨hn, hh, l, hp, hl⟩
      · have hload : loadCovariate value c = .ok .latitudeHarmonics := by
          unfold loadCovariate
          rw [if_pos hn, hp]
        match hv : c.hyperparameters, hh with
        | [a, b, d, e], _ =>
          rw [hv] at hpos
          have hhyper : loadHyperparameters c = .ok (some (.combination [.covariate (Real.log a.2), .covariate (Real.log b.2),
              .covariate (Real.log d.2), .covariate (Real.log e.2)])) := by
            unfold loadHyperparameters
            rw [hv]
            simp only [List.map_cons, List.map_nil]
            rw [loadValue_pos (hpos a (by simp)), loadValue_pos (hpos b (by simp)), loadValue_pos (hpos d (by simp)),
              loadValue_pos (hpos e (by simp))]
            rfl
          refine ⟨.latitudeHarmonics :: elements, .combination [.covariate (Real.log a.2), .covariate (Real.log b.2),
              .covariate (Real.log d.2), .covariate (Real.log e.2)] :: hypers, ?_, ?_, ?_, ?_⟩
          · simp only [loadAll, hload, hhyper, h1, List.map_cons]
          · simp only [FitsAll, Fits]
            exact ⟨⟨rfl, by simp⟩, h2⟩
          · intro x hx
            rcases List.mem_cons.1 hx with rfl | hx
            · exact .inl rfl
            · exact h3 x hx
          · simp [h4, hv, getArray, getArrays]
      · have hload : loadCovariate value c = .ok (.geography (value l)) := by
          unfold loadCovariate
          rw [if_neg (by rw [hn]; decide), if_pos hn, hp]
          dsimp only
          rw [if_pos]
          rw [Bool.and_eq_true, List.all_eq_true, List.all_eq_true]
          constructor
          · intro a ha
            rw [List.contains_iff_mem]
            exact (hl a).2 ha
          · intro q hq
            rw [List.contains_iff_mem]
            exact (hl q.1).1 (List.mem_map.2 ⟨q, hq, rfl⟩)
        match hv : c.hyperparameters, hh with
        | [a], _ =>
          rw [hv] at hpos
          have hhyper : loadHyperparameters c = .ok (some (.covariate (Real.log a.2))) := by
            unfold loadHyperparameters
            rw [hv]
            simp only [List.map_cons, List.map_nil]
            rw [loadValue_pos (hpos a (by simp))]
          refine ⟨.geography (value l) :: elements, .covariate (Real.log a.2) :: hypers, ?_, ?_, ?_, ?_⟩
          · simp only [loadAll, hload, hhyper, h1, List.map_cons]
          · simp only [FitsAll, Fits]
            exact ⟨trivial, h2⟩
          · intro x hx
            rcases List.mem_cons.1 hx with rfl | hx
            · exact .inr ⟨_, rfl⟩
            · exact h3 x hx
          · simp [h4, hv, getArray]
  obtain ⟨elements, hypers, h1, h2⟩ := hall
  refine ⟨elements, hypers, ?_, h2⟩
  unfold loadDescriptor
  rw [if_pos, h1]
  rw [List.all_eq_true]
  intro p hp
  rw [List.contains_iff_mem]
  exact hk p hp

/-- Non-vacuity: harmonics and a map. -/
example : ∀ p ∈ [("latitude_harmonics", (⟨"LatitudeHarmonicsElement", none, [("a", 1), ("b", 2), ("c", 3), ("d", 4)]⟩ : Covariate)),
    ("altitude", ⟨"GeographyBasedElement", some [("filename", "f"), ("latitude_label", "lat"), ("longitude_label", "lon"),
      ("covariate_label", "dem"), ("rescale_factor", "1000")], [("value", 5)]⟩)], CompleteEntry p.2 := by
  intro p hp
  simp only [List.mem_cons, List.not_mem_nil, or_false] at hp
  rcases hp with rfl | rfl
  · exact ⟨by simp, .inl ⟨rfl, rfl, rfl⟩⟩
  · exact ⟨by simp, .inr ⟨rfl, rfl, _, rfl, by simp⟩⟩

/-- The entries of `examples/covariates.json`. -/
def shippedHarmonics : Covariate :=
  ⟨"LatitudeHarmonicsElement", none,
    [("hyperparameter_1", -1.15), ("hyperparameter_2", -1.15), ("hyperparameter_3", -1.15), ("hyperparameter_4", -1.15)]⟩

/-- See `shippedHarmonics`. -/
def shippedMap (filename label : String) : Covariate :=
  ⟨"GeographyBasedElement", some [("filename", filename), ("latitude_label", "lat"), ("longitude_label", "lon"),
    ("covariate_label", label)], [("value", -1.15)]⟩

/-- **C109 violated**: the descriptor which comes with the examples cannot be used.  Its maps lack the parameter `rescale_factor`, which
is a `TypeError` in whatever order they are loaded, and its values are negative while logarithms of them are taken, which gives no
number. -/
theorem c109_descriptor_violated (value : List (String × String) → ℝ × ℝ → Except PyErr ℝ) (before after : List (String × Covariate))
    (key filename label : String) (hk : ∀ p ∈ before ++ (key, shippedMap filename label) :: after, p.1 ∈ availableCovariates)
    (hb : ∀ p ∈ before, p.2 = shippedHarmonics) :
    loadDescriptor value (before ++ (key, shippedMap filename label) :: after) = .error .typeError ∧
    loadHyperparameters shippedHarmonics = .ok none ∧ loadHyperparameters (shippedMap filename label) = .ok none := by
  have hneg : loadValue (-1.15) = none := by
    unfold loadValue
    rw [if_neg (by norm_num)]
  have h1 : loadHyperparameters shippedHarmonics = .ok none := by
    unfold loadHyperparameters shippedHarmonics
    simp only [List.map_cons, List.map_nil, hneg, allSome, Option.map_none]
  have h2 : loadHyperparameters (shippedMap filename label) = .ok none := by
    unfold loadHyperparameters shippedMap
    simp only [List.map_cons, List.map_nil, hneg]
  refine ⟨?_, h1, h2⟩
  have hmap : loadCovariate value (shippedMap filename label) = .error .typeError := by
    unfold loadCovariate shippedMap
    dsimp only
    rw [if_neg (by decide), if_pos rfl]
    rw [if_neg (by simp [geographyArguments])]
  unfold loadDescriptor
  rw [if_pos (by
    rw [List.all_eq_true]
    intro p hp
    rw [List.contains_iff_mem]
    exact hk p hp)]
  clear hk
  induction before with
  | nil => simp only [List.nil_append, loadAll, hmap]
  | cons p rest ih =>
    obtain ⟨k, c⟩ := p
    have hc : c = shippedHarmonics := hb (k, c) List.mem_cons_self
    subst hc
    have hload : loadCovariate value shippedHarmonics = .ok .latitudeHarmonics := by
      unfold loadCovariate shippedHarmonics
      rw [if_pos rfl]
    simp only [List.cons_append, loadAll, hload, h1, ih fun q hq => hb q (List.mem_cons_of_mem _ hq)]

/-- Non-vacuity: the file, in one of the orders in which its entries may come. -/
example : ∀ p ∈ [("latitude_harmonics", shippedHarmonics)] ++ ("altitude", shippedMap "DEM_global_0.25_0.25.nc" "dem") ::
    [("coastal_influence", shippedMap "coastal_influence.test.0.25_0.25.nc" "coastal_influence")], p.1 ∈ availableCovariates := by
  simp [availableCovariates]

/-! ### Ice in the older definition -/

theorem collect_error {α : Type} {l : List (Except PyErr α)} {err : PyErr} (hall : ∀ r ∈ l, (∃ a, r = .ok a) ∨ r = .error err)
    (h : .error err ∈ l) : collect l = .error err := by
  induction l with
  | nil => cases h
  | cons r rest ih =>
    rcases hall r List.mem_cons_self with ⟨a, rfl⟩ | rfl
    · have : collect rest = .error err := by
        refine ih (fun q hq => hall q (List.mem_cons_of_mem _ hq)) ?_
        rcases List.mem_cons.1 h with h | h
        · cases h
        · exact h
      simp [collect, this]
    · simp [collect]

/-- **C109 violated**: the older local definition gives the biases of ice one parameter, but observations of the southern hemisphere
have the second; the design cannot be evaluated on any day with an observation of southern ice. -/
theorem c109_ice_violated (srt : Argsort) (groups : List String) (hg : "surfaceairmodel_ice_global" ∈ groups) {lookup : List (ℝ × ℝ)}
    {o : Observations ℝ} {n : Nat} (hs : Sized o n) (hl : Located lookup o) {day : Int} {allMatch : String → Bool}
    (hm : allMatch "surfaceairmodel_ice_global" = true)
    {breaks : Option (List (Int × ℚ))} {obs : Obs} (hobs : Supplied lookup o day allMatch breaks obs)
    (hsouth : ∃ l ∈ obs.locations, l.1 < 0) :
    ((exampleLocal srt true groups).element.design obs).matrix = .error .indexError := by
  obtain ⟨effect, coordinates, h1, h2, h3, h4⟩ := c97_hemispheres lookup o n hs hl day allMatch hm breaks
  have hloc : coordinates = obs.locations := by
    have := hobs.locations
    rw [h1] at this
    cases this
    rfl
  have heff : obs.effect "surfaceairmodel_ice_global" = some effect := by
    have := hobs.effects "surfaceairmodel_ice_global" (by decide)
    rw [h2] at this
    exact (Except.ok.inj this).symm
  obtain ⟨l, hl', hneg⟩ := hsouth
  obtain ⟨k, hk⟩ := List.mem_iff_getElem?.1 hl'
  have hmem : (k, 1) ∈ effect := List.mem_of_getElem? ((h4 k l (by rw [hloc]; exact hk)).2 hneg)
  have hice : ((Element.bias "surfaceairmodel_ice_global" 1).design obs).matrix = .error .indexError := by
    simp only [Element.design, biasDesign, linearDesign, effectMatrix, heff]
    rw [if_neg]
    intro hall
    have := List.all_eq_true.1 hall _ hmem
    simp at this
  simp only [exampleLocal, if_true, Element.design]
  show combinedMatrix _ = _
  unfold combinedMatrix
  rw [designsOf_eq, List.map_map]
  have herr : collect (((Element.stationary (sphereMesh srt 4)) :: groups.map fun g => Element.bias g 1).map
      (Design.matrix ∘ fun e => Element.design obs e)) = .error .indexError := by
    refine collect_error ?_ ?_
    · intro r hr
      obtain ⟨e, he, rfl⟩ := List.mem_map.1 hr
      rcases List.mem_cons.1 he with rfl | he
      · exact .inl ⟨sphereMatrix (sphereMesh srt 4) obs, by simp only [Function.comp, Element.design, localDesign, linearDesign]⟩
      · obtain ⟨g, -, rfl⟩ := List.mem_map.1 he
        simp only [Function.comp, Element.design, biasDesign, linearDesign, effectMatrix]
        split
        · exact .inl ⟨_, rfl⟩
        · split
          · exact .inl ⟨_, rfl⟩
          · exact .inr rfl
    · exact List.mem_map.2 ⟨_, List.mem_cons_of_mem _ (List.mem_map.2 ⟨_, hg, rfl⟩), hice⟩
  rw [herr]

/-- Non-vacuity: the third of the three observations of C97 is on the southern hemisphere. -/
example : ∃ locations, polarCoordinates [(10, 20), (30, 190), (-50, 350)] threeObservations = .ok locations ∧
    ∃ l ∈ locations, l.1 < 0 := by
  refine ⟨_, rfl, (-50, wrapLongitude 350), ?_, by norm_num⟩
  simp [threeObservations, validPlaces, ObsSource.gather]

end

end Verif.Eustace.Definitions
