import Verif.Eustace.Diagnostic.Names

/-! C27: what the boxes of diagnostic grids contain. -/

namespace Verif.Eustace.Diagnostic

open Verif Verif.Eustace.RawBinary Verif.Eustace.ObsSource Verif.Eustace.Satgrid

/-! ### Specification -/

/-- The arrays of an input have the same length. -/
def Input.Sized (i : Input) : Prop := i.observation.length = i.indices.length ∧ i.uncertainty.length = i.indices.length

/-- The observations, with uncertainties, which calls for a source and observable put in a box. -/
def recordsIn (calls : List (String × Input)) (s o : String) (g : Nat) : List (ℝ × ℝ) :=
  calls.flatMap fun c => if c.1 = s ∧ c.2.observable = o then (c.2.records.filter fun r => decide (r.1 = g)).map Prod.snd else []

/-- Some call is for the source and observable. -/
def Called (calls : List (String × Input)) (s o : String) : Prop := ∃ c ∈ calls, c.1 = s ∧ c.2.observable = o

/-- The value of a field in a box, unless the field does not exist or is masked there. -/
def value (fields : List Field) (s o d : String) (g : Nat) : Option ℝ :=
  (getField fields (fieldName s o d)).bind fun f => if f.mask g then none else some (f.data g)

/-- What the fields of a source and observable say of a box with the given observations, all but the minimum of uncertainties. -/
structure Describes (fields : List Field) (s o : String) (g : Nat) (records : List (ℝ × ℝ)) : Prop where
  /-- boxes without observations are masked -/
  empty : records = [] → ∀ d ∈ diagnostics, value fields s o d g = none
  count : records ≠ [] → value fields s o "count" g = some records.length
  min : records ≠ [] → ∃ x, value fields s o "observation_min" g = some x ∧ IsLeast {y | ∃ r ∈ records, r.1 = y} x
  max : records ≠ [] → ∃ x, value fields s o "observation_max" g = some x ∧ IsGreatest {y | ∃ r ∈ records, r.1 = y} x
  uncertain : records ≠ [] → ∃ x, value fields s o "uncertainty_max" g = some x ∧ IsGreatest {y | ∃ r ∈ records, r.2 = y} x
  weighted : records ≠ [] → value fields s o "observation_weightedsum" g = some (records.map fun r => r.1 / r.2).sum
  precision : records ≠ [] → value fields s o "precision_sum" g = some (records.map fun r => 1 / r.2).sum

/-- Observations and uncertainties are within the initial values of extremes. -/
def Bounded (records : List (ℝ × ℝ)) : Prop := ∀ r ∈ records, |r.1| < 10 ^ 30 ∧ |r.2| < 10 ^ 30

/-! ### Lemmas -/

theorem records_filter_nil (i : Input) (hi : i.Sized) (g : Nat) :
    ((i.records.filter fun r => decide (r.1 = g)).map Prod.snd = []) ↔ g ∉ i.indices := by
  rw [List.map_eq_nil_iff, List.filter_eq_nil_iff]
  have hm : i.records.map Prod.fst = i.indices := by
    unfold Input.records
    rw [List.map_fst_zip]
    rw [List.length_zip, hi.1, hi.2]
    simp
  constructor
  · intro h hg
    rw [← hm] at hg
    obtain ⟨r, hr, hrg⟩ := List.mem_map.1 hg
    exact h r hr (by simpa using hrg)
  · intro h r hr hrg
    apply h
    rw [← hm]
    exact List.mem_map.2 ⟨r, hr, by simpa using hrg⟩

/-- The fields after calls. -/
structure After (fields : List Field) (calls : List (String × Input)) : Prop where
  called : ∀ s o, '_' ∉ o.toList → ∀ d ∈ initialValues, Called calls s o →
    ∃ f, getField fields (fieldName s o d.1) = some f ∧
      (∀ g, f.data g = (recordsIn calls s o g).foldl (operation d.1) d.2) ∧
      ∀ g, f.mask g = decide (recordsIn calls s o g = [])
  other : ∀ s o, '_' ∉ o.toList → ∀ d ∈ initialValues, ¬Called calls s o → getField fields (fieldName s o d.1) = none

theorem after_nil : After [] [] := by
  refine ⟨?_, ?_⟩
  · rintro s o _ d _ ⟨c, hc, _⟩
    simp at hc
  · intro s o _ d _ _
    rfl

theorem mem_diagnostics {d : String × ℝ} (hd : d ∈ initialValues) : d.1 ∈ diagnostics := by
  rw [← initialValues_names]
  exact List.mem_map.2 ⟨d, hd, rfl⟩

theorem recordsIn_snoc (calls : List (String × Input)) (c : String × Input) (s o : String) (g : Nat) :
    recordsIn (calls ++ [c]) s o g = recordsIn calls s o g ++
      if c.1 = s ∧ c.2.observable = o then (c.2.records.filter fun r => decide (r.1 = g)).map Prod.snd else [] := by
  unfold recordsIn
  simp

theorem called_snoc (calls : List (String × Input)) (c : String × Input) (s o : String) :
    Called (calls ++ [c]) s o ↔ Called calls s o ∨ (c.1 = s ∧ c.2.observable = o) := by
  unfold Called
  simp only [List.mem_append, List.mem_singleton]
  constructor
  · rintro ⟨x, hx | hx, h⟩
    · exact Or.inl ⟨x, hx, h⟩
    · exact Or.inr (by rw [← hx]; exact h)
  · rintro (⟨x, hx, h⟩ | h)
    · exact ⟨x, Or.inl hx, h⟩
    · exact ⟨c, Or.inr rfl, h⟩

theorem recordsIn_not_called (calls : List (String × Input)) (s o : String) (h : ¬Called calls s o) (g : Nat) :
    recordsIn calls s o g = [] := by
  unfold recordsIn
  rw [List.flatMap_eq_nil_iff]
  intro c hc
  exact if_neg fun hm => h ⟨c, hc, hm⟩

theorem after_call (fields : List Field) (calls : List (String × Input)) (h : After fields calls) (s : String) (i : Input)
    (hi : i.Sized) (ho : '_' ∉ i.observable.toList) :
    After (initialValues.foldl (createField s i) fields) (calls ++ [(s, i)]) := by
  have hsame : ∀ s' o', '_' ∉ o'.toList → ∀ d ∈ initialValues, ¬(s = s' ∧ i.observable = o') →
      getField (initialValues.foldl (createField s i) fields) (fieldName s' o' d.1) = getField fields (fieldName s' o' d.1) := by
    intro s' o' ho' d hd hne
    apply getField_other
    intro d' hd' he
    obtain ⟨h1, h2, _⟩ := fieldName_inj _ _ _ _ _ _ ho' ho (List.mem_cons_of_mem _ (mem_diagnostics hd))
      (List.mem_cons_of_mem _ hd') he
    exact hne ⟨h1.symm, h2.symm⟩
  constructor
  · intro s' o' ho' d hd hc
    by_cases hm : s = s' ∧ i.observable = o'
    · obtain ⟨rfl, rfl⟩ := hm
      have hrec : ∀ g, recordsIn (calls ++ [(s, i)]) s i.observable g =
          recordsIn calls s i.observable g ++ (i.records.filter fun r => decide (r.1 = g)).map Prod.snd := fun g => by
        rw [recordsIn_snoc, if_pos ⟨rfl, rfl⟩]
      refine ⟨_, getField_call s i fields d hd, ?_, ?_⟩
      · intro g
        rw [hrec, List.foldl_append]
        show scatter (operation d.1) _ i.records g = _
        rw [scatter_get]
        congr 1
        by_cases hcalled : Called calls s i.observable
        · obtain ⟨f, hf, hdata, _⟩ := h.called s i.observable ho d hd hcalled
          rw [hf]
          exact hdata g
        · rw [h.other s i.observable ho d hd hcalled, recordsIn_not_called calls _ _ hcalled]
          rfl
      · intro g
        rw [hrec]
        show (_ && !decide (g ∈ i.indices)) = _
        have hnil := records_filter_nil i hi g
        have hold : ((getField fields (fieldName s i.observable d.1)).getD
            ⟨fieldName s i.observable d.1, fun _ => d.2, fun _ => true⟩).mask g =
            decide (recordsIn calls s i.observable g = []) := by
          by_cases hcalled : Called calls s i.observable
          · obtain ⟨f, hf, _, hmask⟩ := h.called s i.observable ho d hd hcalled
            rw [hf]
            exact hmask g
          · rw [h.other s i.observable ho d hd hcalled]
            show true = _
            rw [recordsIn_not_called calls _ _ hcalled]
            simp
        rw [hold, Bool.eq_iff_iff]
        simp only [Bool.and_eq_true, decide_eq_true_eq, Bool.not_eq_true', decide_eq_false_iff_not, List.append_eq_nil_iff]
        rw [hnil]
    · have hold : Called calls s' o' := ((called_snoc _ _ _ _).1 hc).resolve_right hm
      obtain ⟨f, hf, hdata, hmask⟩ := h.called s' o' ho' d hd hold
      refine ⟨f, (hsame s' o' ho' d hd hm).trans hf, ?_, ?_⟩
      · intro g
        rw [recordsIn_snoc, if_neg hm, List.append_nil]
        exact hdata g
      · intro g
        rw [recordsIn_snoc, if_neg hm, List.append_nil]
        exact hmask g
  · intro s' o' ho' d hd hc
    rw [called_snoc] at hc
    rw [hsame s' o' ho' d hd fun hm => hc (Or.inr hm)]
    exact h.other s' o' ho' d hd fun h1 => hc (Or.inl h1)

theorem fold_least (f : ℝ × ℝ → ℝ) (l : List (ℝ × ℝ)) (b : ℝ) (hb : ∀ r ∈ l, f r < b) (hne : l ≠ []) : open Classical in
    IsLeast {y | ∃ r ∈ l, f r = y} (l.foldl (fun b r => if f r < b then f r else b) b) := by
  classical
  have key : ∀ (l : List (ℝ × ℝ)) (b : ℝ),
      (∀ r ∈ l, l.foldl (fun b r => if f r < b then f r else b) b ≤ f r) ∧
      l.foldl (fun b r => if f r < b then f r else b) b ≤ b ∧
      (l.foldl (fun b r => if f r < b then f r else b) b = b ∨
        ∃ r ∈ l, f r = l.foldl (fun b r => if f r < b then f r else b) b) := by
    intro l
    induction l with
    | nil => intro b; simp
    | cons x rest ih =>
      intro b
      rw [List.foldl_cons]
      obtain ⟨h1, h2, h3⟩ := ih (if f x < b then f x else b)
      have hx : (if f x < b then f x else b) ≤ f x ∧ (if f x < b then f x else b) ≤ b := by
        split
        · rename_i h; exact ⟨le_refl _, h.le⟩
        · rename_i h; exact ⟨not_lt.1 h, le_refl _⟩
      refine ⟨?_, le_trans h2 hx.2, ?_⟩
      · intro r hr
        rcases List.mem_cons.1 hr with rfl | hr
        · exact le_trans h2 hx.1
        · exact h1 r hr
      · rcases h3 with h3 | ⟨r, hr, h3⟩
        · by_cases h : f x < b
          · refine Or.inr ⟨x, by simp, ?_⟩
            rw [h3, if_pos h]
          · exact Or.inl (by rw [h3, if_neg h])
        · exact Or.inr ⟨r, List.mem_cons_of_mem _ hr, h3⟩
  obtain ⟨h1, _, h3⟩ := key l b
  constructor
  · rcases h3 with h3 | h3
    · obtain ⟨r, hr⟩ := List.exists_mem_of_ne_nil l hne
      have := h1 r hr
      rw [h3] at this
      exact absurd (hb r hr) (not_lt.2 this)
    · exact h3
  · rintro y ⟨r, hr, rfl⟩
    exact h1 r hr

theorem fold_greatest (f : ℝ × ℝ → ℝ) (l : List (ℝ × ℝ)) (b : ℝ) (hb : ∀ r ∈ l, b < f r) (hne : l ≠ []) : open Classical in
    IsGreatest {y | ∃ r ∈ l, f r = y} (l.foldl (fun b r => if b < f r then f r else b) b) := by
  classical
  have hneg : ∀ (l : List (ℝ × ℝ)) (b : ℝ), l.foldl (fun b r => if b < f r then f r else b) b =
      -l.foldl (fun b r => if -f r < b then -f r else b) (-b) := by
    intro l
    induction l with
    | nil => intro b; simp
    | cons x rest ih =>
      intro b
      rw [List.foldl_cons, List.foldl_cons, ih]
      congr 2
      by_cases h : b < f x
      · rw [if_pos h, if_pos (by linarith)]
      · rw [if_neg h, if_neg (by linarith)]
  have h := fold_least (fun r => -f r) l (-b) (fun r hr => by have := hb r hr; linarith) hne
  rw [hneg]
  constructor
  · obtain ⟨r, hr, he⟩ := h.1
    exact ⟨r, hr, by rw [← he]; simp⟩
  · rintro y ⟨r, hr, rfl⟩
    have := h.2 ⟨r, hr, rfl⟩
    linarith

theorem fold_sum (f : ℝ × ℝ → ℝ) (l : List (ℝ × ℝ)) (b : ℝ) : l.foldl (fun b r => b + f r) b = b + (l.map f).sum := by
  induction l generalizing b with
  | nil => simp
  | cons x rest ih => rw [List.foldl_cons, ih, List.map_cons, List.sum_cons]; ring

theorem value_called {fields : List Field} {calls : List (String × Input)} (h : After fields calls) {s o : String}
    (ho : '_' ∉ o.toList) (d : String × ℝ) (hd : d ∈ initialValues) (hc : Called calls s o) (g : Nat) :
    value fields s o d.1 g = if recordsIn calls s o g = [] then none
      else some ((recordsIn calls s o g).foldl (operation d.1) d.2) := by
  obtain ⟨f, hf, hdata, hmask⟩ := h.called s o ho d hd hc
  unfold value
  rw [hf]
  show (if f.mask g = true then none else some (f.data g)) = _
  rw [hmask, hdata]
  by_cases hr : recordsIn calls s o g = []
  · rw [if_pos hr, if_pos (by simpa using hr)]
  · rw [if_neg hr, if_neg (by simpa using hr)]

theorem after_describes {fields : List Field} {calls : List (String × Input)} (h : After fields calls) (s o : String)
    (ho : '_' ∉ o.toList) (g : Nat) (hb : Bounded (recordsIn calls s o g)) :
    Describes fields s o g (recordsIn calls s o g) := by
  classical
  by_cases hc : Called calls s o
  · have hv := fun (d : String × ℝ) hd => value_called h ho d hd hc g
    have hval : recordsIn calls s o g ≠ [] → ∀ d : String × ℝ, d ∈ initialValues → value fields s o d.1 g =
        some ((recordsIn calls s o g).foldl (operation d.1) d.2) := fun hne d hd => by rw [hv d hd, if_neg hne]
    constructor
    · intro he d hd
      rw [← initialValues_names] at hd
      obtain ⟨e, hem, rfl⟩ := List.mem_map.1 hd
      rw [hv e hem, if_pos he]
    · intro hne
      rw [hval hne ("count", 0) (by simp [initialValues])]
      have : operation "count" = fun b r => b + (fun _ => 1) r := by
        funext b r; simp [operation]
      rw [this, fold_sum]
      simp
    · intro hne
      refine ⟨_, hval hne ("observation_min", 10 ^ 30) (by simp [initialValues]), ?_⟩
      have : operation "observation_min" = fun b r => if r.1 < b then r.1 else b := by
        funext b r; simp [operation]
      rw [this]
      exact fold_least Prod.fst _ _ (fun r hr => (abs_lt.1 (hb r hr).1).2) hne
    · intro hne
      refine ⟨_, hval hne ("observation_max", -10 ^ 30) (by simp [initialValues]), ?_⟩
      have : operation "observation_max" = fun b r => if b < r.1 then r.1 else b := by
        funext b r; simp [operation]
      rw [this]
      exact fold_greatest Prod.fst _ _ (fun r hr => (abs_lt.1 (hb r hr).1).1) hne
    · intro hne
      refine ⟨_, hval hne ("uncertainty_max", -10 ^ 30) (by simp [initialValues]), ?_⟩
      have : operation "uncertainty_max" = fun b r => if b < r.2 then r.2 else b := by
        funext b r; simp [operation]
      rw [this]
      exact fold_greatest Prod.snd _ _ (fun r hr => (abs_lt.1 (hb r hr).2).1) hne
    · intro hne
      rw [hval hne ("observation_weightedsum", 0) (by simp [initialValues])]
      have : operation "observation_weightedsum" = fun b r => b + (fun r : ℝ × ℝ => r.1 / r.2) r := by
        funext b r; simp [operation]
      rw [this, fold_sum]
      simp
    · intro hne
      rw [hval hne ("precision_sum", 0) (by simp [initialValues])]
      have : operation "precision_sum" = fun b r => b + (fun r : ℝ × ℝ => 1 / r.2) r := by
        funext b r; simp [operation]
      rw [this, fold_sum]
      simp
  · have hnil := recordsIn_not_called calls s o hc g
    rw [hnil]
    have he : ∀ d ∈ diagnostics, value fields s o d g = none := by
      intro d hd
      rw [← initialValues_names] at hd
      obtain ⟨e, hem, rfl⟩ := List.mem_map.1 hd
      unfold value
      rw [h.other s o ho e hem hc]
      rfl
    exact ⟨fun _ => he, fun h => absurd rfl h, fun h => absurd rfl h, fun h => absurd rfl h, fun h => absurd rfl h,
      fun h => absurd rfl h, fun h => absurd rfl h⟩

/-- The calls can all be made: arrays of the same length, no uncertainty of zero, no underscore in the name of an observable. -/
def Fit (calls : List (String × Input)) : Prop :=
  ∀ c ∈ calls, c.2.Sized ∧ '_' ∉ c.2.observable.toList ∧ ∀ u ∈ c.2.uncertainty, u ≠ 0

theorem records_uncertainty (i : Input) (r : Nat × ℝ × ℝ) (hr : r ∈ i.records) : r.2.2 ∈ i.uncertainty ∧ r.2.1 ∈ i.observation ∧
    r.1 ∈ i.indices := by
  unfold Input.records at hr
  have h1 := List.of_mem_zip hr
  have h2 := List.of_mem_zip h1.2
  exact ⟨h2.2, h2.1, h1.1⟩

theorem createFields_ok (fields : List Field) (s : String) (i : Input) (h : ∀ u ∈ i.uncertainty, u ≠ 0) :
    createFields fields s i = .ok (initialValues.foldl (createField s i) fields) := by
  unfold createFields
  rw [if_neg]
  rintro ⟨r, hr, h0⟩
  exact h _ (records_uncertainty i r hr).1 h0

theorem createAll_after (calls : List (String × Input)) : ∀ (fields : List Field) (before : List (String × Input)),
    After fields before → Fit calls → ∃ fields', createAll fields calls = .ok fields' ∧ After fields' (before ++ calls) := by
  induction calls with
  | nil => intro fields before h _; exact ⟨fields, rfl, by simpa using h⟩
  | cons c rest ih =>
    intro fields before h hfit
    obtain ⟨h1, h2, h3⟩ := hfit c (by simp)
    rw [createAll, createFields_ok fields c.1 c.2 h3]
    obtain ⟨f, hf, ha⟩ := ih _ _ (after_call fields before h c.1 c.2 h1 h2) fun x hx => hfit x (List.mem_cons_of_mem _ hx)
    exact ⟨f, hf, by simpa using ha⟩

/-! ### Theorems -/

/-- C27: whatever calls are made, in each box the fields of each source and observable describe exactly the observations which were
put in that box for that source and observable. -/
theorem c27_fields (calls : List (String × Input)) (hf : Fit calls) :
    ∃ fields, createAll [] calls = .ok fields ∧ ∀ s o g, '_' ∉ o.toList → Bounded (recordsIn calls s o g) →
      Describes fields s o g (recordsIn calls s o g) := by
  obtain ⟨fields, h1, h2⟩ := createAll_after calls [] [] after_nil hf
  refine ⟨fields, h1, fun s o g ho hb => ?_⟩
  exact after_describes (by simpa using h2) s o ho g hb

/-- What describes the same observations in another order describes the same values. -/
theorem c27_unique (a b : List Field) (s o : String) (g : Nat) (r r' : List (ℝ × ℝ)) (hp : r.Perm r')
    (ha : Describes a s o g r) (hb : Describes b s o g r') :
    ∀ d ∈ diagnostics, d ≠ "uncertainty_min" → value a s o d g = value b s o d g := by
  intro d hd hu
  by_cases hne : r = []
  · have hne' : r' = [] := by rw [hne] at hp; exact List.nil_perm.1 hp
    rw [ha.empty hne d hd, hb.empty hne' d hd]
  · have hne' : r' ≠ [] := fun h => hne (by rw [h] at hp; exact List.perm_nil.1 hp)
    have hset : ∀ f : ℝ × ℝ → ℝ, {y | ∃ x ∈ r, f x = y} = {y | ∃ x ∈ r', f x = y} := by
      intro f
      ext y
      constructor
      · rintro ⟨x, hx, h⟩; exact ⟨x, hp.subset hx, h⟩
      · rintro ⟨x, hx, h⟩; exact ⟨x, hp.symm.subset hx, h⟩
    simp only [diagnostics, List.mem_cons, List.not_mem_nil, or_false] at hd
    rcases hd with rfl | rfl | rfl | rfl | rfl | rfl | rfl
    · rw [ha.count hne, hb.count hne', hp.length_eq]
    · obtain ⟨x, h1, h2⟩ := ha.max hne
      obtain ⟨x', h1', h2'⟩ := hb.max hne'
      rw [h1, h1', h2.unique (by rw [hset]; exact h2')]
    · obtain ⟨x, h1, h2⟩ := ha.min hne
      obtain ⟨x', h1', h2'⟩ := hb.min hne'
      rw [h1, h1', h2.unique (by rw [hset]; exact h2')]
    · obtain ⟨x, h1, h2⟩ := ha.uncertain hne
      obtain ⟨x', h1', h2'⟩ := hb.uncertain hne'
      rw [h1, h1', h2.unique (by rw [hset]; exact h2')]
    · exact absurd rfl hu
    · rw [ha.weighted hne, hb.weighted hne', (hp.map _).sum_eq]
    · rw [ha.precision hne, hb.precision hne', (hp.map _).sum_eq]

/-- C27: apart from the minimum of uncertainties, the fields do not depend on the order of observations or of calls, nor on how
observations are shared among calls.  Full statement: all fields.  The minimum of uncertainties is missing, see
`c27_order_violated`. -/
theorem c27_order_partial (calls calls' : List (String × Input)) (hf : Fit calls) (hf' : Fit calls')
    (hb : ∀ s o g, Bounded (recordsIn calls s o g))
    (hp : ∀ s o g, (recordsIn calls s o g).Perm (recordsIn calls' s o g)) :
    ∃ fields fields', createAll [] calls = .ok fields ∧ createAll [] calls' = .ok fields' ∧
      ∀ s o g, '_' ∉ o.toList → ∀ d ∈ diagnostics, d ≠ "uncertainty_min" → value fields s o d g = value fields' s o d g := by
  obtain ⟨a, h1, h2⟩ := c27_fields calls hf
  obtain ⟨b, h3, h4⟩ := c27_fields calls' hf'
  refine ⟨a, b, h1, h3, fun s o g ho => ?_⟩
  refine c27_unique a b s o g _ _ (hp s o g) (h2 s o g ho (hb s o g)) (h4 s o g ho ?_)
  intro r hr
  exact hb s o g r ((hp s o g).symm.subset hr)

/-- C27 fails for the minimum of uncertainties: it is the uncertainty of the first observation in the box, as long as observations
are greater than uncertainties (as temperatures in Kelvin are). -/
theorem c27_uncertainty_min_violated (calls : List (String × Input)) (hf : Fit calls) (s o : String) (g : Nat)
    (ho : '_' ∉ o.toList) (first : ℝ × ℝ) (rest : List (ℝ × ℝ)) (hr : recordsIn calls s o g = first :: rest)
    (hb : Bounded (first :: rest)) (hk : ∀ r ∈ rest, first.2 ≤ r.1) :
    ∃ fields, createAll [] calls = .ok fields ∧ value fields s o "uncertainty_min" g = some first.2 := by
  classical
  obtain ⟨fields, h1, h2⟩ := createAll_after calls [] [] after_nil hf
  rw [List.nil_append] at h2
  refine ⟨fields, h1, ?_⟩
  have hc : Called calls s o := by
    by_contra hn
    rw [recordsIn_not_called calls s o hn] at hr
    exact absurd hr (by simp)
  rw [value_called h2 ho ("uncertainty_min", 10 ^ 30) (by simp [initialValues]) hc, hr, if_neg (by simp)]
  have hop : operation "uncertainty_min" = fun b r => if r.1 < b then r.2 else b := by
    funext b r; simp [operation]
  rw [hop, List.foldl_cons, if_pos (abs_lt.1 (hb first (by simp)).1).2]
  congr 1
  clear hr hb
  induction rest with
  | nil => rfl
  | cons r rest ih =>
    rw [List.foldl_cons, if_neg (not_lt.2 (hk r (by simp)))]
    exact ih fun x hx => hk x (List.mem_cons_of_mem _ hx)

/-- Two observations of 280 and 281 with uncertainties 1 and 2 in box 0. -/
noncomputable def exampleInput (swap : Bool) : Input :=
  if swap then ⟨"Tmean", [0, 0], [281, 280], [2, 1]⟩ else ⟨"Tmean", [0, 0], [280, 281], [1, 2]⟩

theorem example_fit (swap : Bool) : Fit [("land", exampleInput swap)] := by
  intro c hc
  rw [List.mem_singleton] at hc
  subst hc
  unfold exampleInput
  cases swap
  · refine ⟨⟨rfl, rfl⟩, by decide, ?_⟩
    intro u hu
    simp at hu
    rcases hu with rfl | rfl <;> norm_num
  · refine ⟨⟨rfl, rfl⟩, by decide, ?_⟩
    intro u hu
    simp at hu
    rcases hu with rfl | rfl <;> norm_num

theorem example_records (swap : Bool) : recordsIn [("land", exampleInput swap)] "land" "Tmean" 0 =
    if swap then [(281, 2), (280, 1)] else [(280, 1), (281, 2)] := by
  cases swap <;> simp [recordsIn, exampleInput, Input.records]

/-- C27 fails: the minimum of uncertainties depends on the order of observations. -/
theorem c27_order_violated :
    ∃ (calls calls' : List (String × Input)) (fields fields' : List Field),
      (∀ s o g, (recordsIn calls s o g).Perm (recordsIn calls' s o g)) ∧
      createAll [] calls = .ok fields ∧ createAll [] calls' = .ok fields' ∧
      value fields "land" "Tmean" "uncertainty_min" 0 = some 1 ∧ value fields' "land" "Tmean" "uncertainty_min" 0 = some 2 := by
  have hb : ∀ swap, Bounded (recordsIn [("land", exampleInput swap)] "land" "Tmean" 0) := by
    intro swap r hr
    rw [example_records] at hr
    cases swap
    · simp at hr
      rcases hr with rfl | rfl <;> norm_num [abs_lt]
    · simp at hr
      rcases hr with rfl | rfl <;> norm_num [abs_lt]
  obtain ⟨a, h1, h2⟩ := c27_uncertainty_min_violated [("land", exampleInput false)] (example_fit false) "land" "Tmean" 0
    (by decide) (280, 1) [(281, 2)] (by rw [example_records]; rfl) (by have := hb false; rwa [example_records] at this)
    (by intro r hr; simp at hr; subst hr; norm_num)
  obtain ⟨b, h3, h4⟩ := c27_uncertainty_min_violated [("land", exampleInput true)] (example_fit true) "land" "Tmean" 0
    (by decide) (281, 2) [(280, 1)] (by rw [example_records]; rfl) (by have := hb true; rwa [example_records] at this)
    (by intro r hr; simp at hr; subst hr; norm_num)
  refine ⟨_, _, a, b, ?_, h1, h3, h2, h4⟩
  intro s o g
  by_cases hs : "land" = s ∧ "Tmean" = o
  · obtain ⟨rfl, rfl⟩ := hs
    by_cases hg : g = 0
    · subst hg
      rw [example_records, example_records]
      exact List.Perm.swap _ _ _
    · have h0 : ¬(0 = g) := fun h => hg h.symm
      simp [recordsIn, exampleInput, Input.records, h0]
  · have hn : ∀ swap, recordsIn [("land", exampleInput swap)] s o g = [] := by
      intro swap
      apply recordsIn_not_called
      rintro ⟨c, hc, h5⟩
      rw [List.mem_singleton] at hc
      subst hc
      apply hs
      unfold exampleInput at h5
      cases swap <;> exact h5
    rw [hn, hn]

/-- What is called precision is the sum of inverse uncertainties, not of inverse variances: for one observation the two differ
unless its uncertainty is one. -/
theorem c27_precision_violated (calls : List (String × Input)) (hf : Fit calls) (s o : String) (g : Nat) (ho : '_' ∉ o.toList)
    (x u : ℝ) (hr : recordsIn calls s o g = [(x, u)]) (hb : Bounded [(x, u)]) (hu : 0 < u) (h1 : u ≠ 1) :
    ∃ fields, createAll [] calls = .ok fields ∧ value fields s o "precision_sum" g ≠ some (1 / u ^ 2) := by
  obtain ⟨fields, h2, h3⟩ := c27_fields calls hf
  refine ⟨fields, h2, ?_⟩
  rw [(h3 s o g ho (by rw [hr]; exact hb)).precision (by rw [hr]; simp), hr]
  intro h
  simp only [List.map_cons, List.map_nil, List.sum_cons, List.sum_nil, add_zero, Option.some.injEq] at h
  apply h1
  field_simp at h
  linarith

/-- C27: a call with an uncertainty of zero raises an error. -/
theorem c27_zero_violated (fields : List Field) (s : String) (i : Input) (hi : i.Sized) (h : (0 : ℝ) ∈ i.uncertainty) :
    createFields fields s i = .error .zeroDivision := by
  unfold createFields
  rw [if_pos]
  obtain ⟨k, hk, hke⟩ := List.getElem_of_mem h
  have hlen : k < i.records.length := by
    unfold Input.records
    rw [List.length_zip, List.length_zip, hi.1, hi.2]
    rw [hi.2] at hk
    simpa using hk
  refine ⟨i.records[k], List.getElem_mem hlen, ?_⟩
  simp [Input.records, hke]

end Verif.Eustace.Diagnostic
