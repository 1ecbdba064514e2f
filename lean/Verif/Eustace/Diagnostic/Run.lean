import Verif.Eustace.Diagnostic.Props
import Verif.Eustace.RawBinary.Props
import Verif.Eustace.ObsSource.Props

/-! C27: the program which makes diagnostic grids of a day from sources of observations. -/

namespace Verif.Eustace.Diagnostic

open Verif Verif.Eustace.RawBinary Verif.Eustace.ObsSource Verif.Eustace.Satgrid

/-! ### Specification -/

/-- A place is in a box of the quarter degree grid of the globe; for the rules at its edges see `PutAt`. -/
def AtBox (p : ℝ × ℝ) (g : Nat) : Prop :=
  PutAt (-90) (1 / 4) 720 true p.1 (g / 1440) ∧ PutAt (-180) (1 / 4) 1440 true p.2 (g % 1440)

/-- The positions of the observations which are not masked and of the day. -/
noncomputable def Source.seen (s : Source) (day : Int) : List Nat :=
  open Classical in
  (List.range s.obs.mask.length).filter fun i => decide (s.obs.mask[i]? = some false ∧ OnDay s.obs.time day i)

/-- The place of an observation. -/
def Source.place (s : Source) (i : Nat) : ℝ × ℝ := s.lookup.getD (s.obs.location.getD i 0).toNat (0, 0)

/-- The observations of the day in a box, with uncertainties. -/
noncomputable def Source.inBox (s : Source) (day : Int) (g : Nat) : List (ℝ × ℝ) :=
  open Classical in
  ((s.seen day).filter fun i => decide (AtBox (s.place i) g)).map fun i =>
    (s.obs.measurement.getD i 0, s.obs.uncorrelated.getD i 0)

/-- A source which can be used: arrays of the same length, at least one observation (masked or not, of the day or not), locations
in the table and on the grid, uncertainties not zero, times not before the epoch, no underscore in the name of the observable. -/
structure Source.Usable (s : Source) (day : Int) : Prop where
  measurement : s.obs.measurement.length = s.obs.mask.length
  uncorrelated : s.obs.uncorrelated.length = s.obs.mask.length
  location : s.obs.location.length = s.obs.mask.length
  time : TimeSized s.obs.time s.obs.mask.length
  some : s.obs.mask ≠ []
  known : ∀ i ∈ s.seen day, (s.obs.location.getD i 0).toNat < s.lookup.length
  grid : ∀ p ∈ s.lookup, ∃ g, AtBox p g
  positive : ∀ i ∈ s.seen day, s.obs.uncorrelated.getD i 0 ≠ 0
  name : '_' ∉ s.observable.toList

/-! ### Lemmas -/

theorem seen_eq (s : Source) (day : Int) (days : List Int)
    (h : ∀ i < s.obs.mask.length, ∀ day : Int, days[i]? = some day ↔ OnDay s.obs.time day i) :
    validIndices s.obs.mask days day = s.seen day := by
  classical
  unfold validIndices Source.seen
  apply List.filter_congr
  intro i hi
  rw [Bool.eq_iff_iff, Bool.and_eq_true, beq_iff_eq, beq_iff_eq, decide_eq_true_eq, h i (List.mem_range.1 hi) day]

theorem seen_lt (s : Source) (day : Int) (i : Nat) (h : i ∈ s.seen day) : i < s.obs.mask.length :=
  List.mem_range.1 (List.mem_filter.1 h).1

theorem atBox_unique (p : ℝ × ℝ) (g g' : Nat) (h : AtBox p g) (h' : AtBox p g') : g = g' := by
  have h1 := put_unique _ _ (by norm_num) _ _ _ _ _ h.1 h'.1
  have h2 := put_unique _ _ (by norm_num) _ _ _ _ _ h.2 h'.2
  rw [← Nat.div_add_mod g 1440, ← Nat.div_add_mod g' 1440, h1, h2]

theorem atBox_lt (p : ℝ × ℝ) (g : Nat) (h : AtBox p g) : g < 720 * 1440 := by
  have := h.1.1
  omega

theorem connector_ok (day : Int) (lookup : List (ℝ × ℝ)) (grid : List Nat) :
    connector (globalAxes day) lookup = .ok grid ↔ List.Forall₂ AtBox lookup grid := by
  have h1 : connector (globalAxes day) lookup = flatFieldIndices (fieldAxisOfArguments (-90) (1 / 4) 720 true)
      (fieldAxisOfArguments (-180) (1 / 4) 1440 true) lookup := by
    unfold connector globalAxes fieldAxisOfArguments
    simp
  have h2 : flatFieldIndices (fieldAxisOfArguments (-90) (1 / 4) 720 true) (fieldAxisOfArguments (-180) (1 / 4) 1440 true) lookup =
      flatIndices (axisOfArguments (-90) (1 / 4) 720 true) (axisOfArguments (-180) (1 / 4) 1440 true) lookup := by
    unfold flatFieldIndices flatIndices
    rw [c59_field_axis _ _ (by norm_num), c59_field_axis _ _ (by norm_num)]
    rfl
  rw [h1, h2, c59_flat _ _ (by norm_num [axisOfArguments]) (by norm_num [axisOfArguments])]
  rfl

theorem grid_exists (lookup : List (ℝ × ℝ)) (h : ∀ p ∈ lookup, ∃ g, AtBox p g) : ∃ grid, List.Forall₂ AtBox lookup grid := by
  induction lookup with
  | nil => exact ⟨[], .nil⟩
  | cons p rest ih =>
    obtain ⟨g, hg⟩ := h p (by simp)
    obtain ⟨gs, hgs⟩ := ih fun q hq => h q (List.mem_cons_of_mem _ hq)
    exact ⟨g :: gs, .cons hg hgs⟩

theorem forall₂_getD {α β : Type} {R : α → β → Prop} {l : List α} {m : List β} (h : List.Forall₂ R l m) (i : Nat) (hi : i < l.length)
    (a : α) (b : β) : R (l.getD i a) (m.getD i b) := by
  induction h generalizing i with
  | nil => simp at hi
  | cons h1 _ ih =>
    cases i with
    | zero => simpa using h1
    | succ i => simpa using ih i (by simpa using hi)

theorem zip3_map {α : Type} (l : List α) (f : α → Nat) (a b : α → ℝ) :
    (l.map f).zip ((l.map a).zip (l.map b)) = l.map fun i => (f i, a i, b i) := by
  induction l with
  | nil => rfl
  | cons x rest ih => simp [ih]

/-- What the program takes from a source. -/
theorem getDay_ok (s : Source) (day : Int) (hs : s.Usable day) (grid : List Nat) (hg : List.Forall₂ AtBox s.lookup grid) :
    ∃ i : Input, getDay grid s.observable s.obs day = .ok i ∧ i.observable = s.observable ∧ i.Sized ∧
      (∀ u ∈ i.uncertainty, u ≠ 0) ∧ i.indices.length = (s.seen day).length ∧
      ∀ g, (i.records.filter fun r => decide (r.1 = g)).map Prod.snd = s.inBox day g := by
  classical
  obtain ⟨days, hdays, hon⟩ := dayNumbers_ok s.obs.time s.obs.mask.length hs.time
  have hseen := seen_eq s day days hon
  have hlen := hg.length_eq
  have h1 := gather_ok s.obs.measurement 0 (s.seen day) fun i hi => by rw [hs.measurement]; exact seen_lt s day i hi
  have h2 := gather_ok s.obs.uncorrelated 0 (s.seen day) fun i hi => by rw [hs.uncorrelated]; exact seen_lt s day i hi
  have h3 := gather_ok s.obs.location 0 (s.seen day) fun i hi => by rw [hs.location]; exact seen_lt s day i hi
  have h4 := gather_ok grid 0 (((s.seen day).map fun i => s.obs.location.getD i 0).map UInt64.toNat) fun k hk => by
    rw [List.map_map] at hk
    obtain ⟨i, hi, rfl⟩ := List.mem_map.1 hk
    rw [← hlen]
    exact hs.known i hi
  refine ⟨⟨s.observable, ((s.seen day).map fun i => s.obs.location.getD i 0).map UInt64.toNat |>.map fun k => grid.getD k 0,
    (s.seen day).map fun i => s.obs.measurement.getD i 0, (s.seen day).map fun i => s.obs.uncorrelated.getD i 0⟩, ?_, rfl, ?_, ?_,
    by simp, ?_⟩
  · unfold getDay
    rw [hdays]
    dsimp only
    rw [hseen, h1]
    dsimp only
    rw [h2]
    dsimp only
    rw [h3]
    dsimp only
    rw [h4]
  · exact ⟨by simp, by simp⟩
  · intro u hu
    obtain ⟨i, hi, rfl⟩ := List.mem_map.1 hu
    exact hs.positive i hi
  · intro g
    unfold Input.records Source.inBox
    dsimp only
    rw [List.map_map, List.map_map, zip3_map, List.filter_map, List.map_map]
    have hf : (s.seen day).filter ((fun r : Nat × ℝ × ℝ => decide (r.1 = g)) ∘ fun i =>
        ((((fun k => grid.getD k 0) ∘ UInt64.toNat) ∘ fun i => s.obs.location.getD i 0) i,
          s.obs.measurement.getD i 0, s.obs.uncorrelated.getD i 0)) =
        (s.seen day).filter fun i => decide (AtBox (s.place i) g) := by
      apply List.filter_congr
      intro i hi
      have hat : AtBox (s.place i) (grid.getD (s.obs.location.getD i 0).toNat 0) := forall₂_getD hg _ (hs.known i hi) _ _
      rw [Bool.eq_iff_iff]
      simp only [Function.comp, decide_eq_true_eq]
      constructor
      · intro h; rw [← h]; exact hat
      · intro h; exact atBox_unique _ _ _ hat h
    rw [hf]
    rfl

/-- The means in the fields after calls: those of the first call for each source and observable. -/
def Means (fields : List Field) (calls : List (String × Input)) : Prop :=
  ∀ s o, '_' ∉ o.toList →
    match calls.find? fun c => decide (c.1 = s ∧ c.2.observable = o) with
    | none => getField fields (fieldName s o "observation_weightedmean") = none
    | some c => ∃ f, getField fields (fieldName s o "observation_weightedmean") = some f ∧
        (∀ g, f.data g = ((recordsIn [c] s o g).map fun r => r.1 / r.2).sum / ((recordsIn [c] s o g).map fun r => 1 / r.2).sum) ∧
        ∀ g, f.mask g = true ↔ recordsIn [c] s o g = [] ∨ ((recordsIn [c] s o g).map fun r => 1 / r.2).sum = 0

theorem recordsIn_first (calls : List (String × Input)) (c : String × Input) (s o : String) (g : Nat) (h : ¬Called calls s o) :
    recordsIn (calls ++ [c]) s o g = recordsIn [c] s o g := by
  rw [recordsIn_snoc, recordsIn_not_called calls s o h]
  simp [recordsIn]

theorem find_called (calls : List (String × Input)) (s o : String) :
    (calls.find? fun c => decide (c.1 = s ∧ c.2.observable = o)) = none ↔ ¬Called calls s o := by
  rw [List.find?_eq_none]
  constructor
  · rintro h ⟨c, hc, hm⟩
    exact h c hc (by simpa using hm)
  · intro h c hc hm
    exact h ⟨c, hc, by simpa using hm⟩

theorem mean_diagnostic : "observation_weightedmean" ∉ diagnostics := by decide

theorem after_append (fields : List Field) (calls : List (String × Input)) (h : After fields calls) (s o : String)
    (ho : '_' ∉ o.toList) (data : Nat → ℝ) (mask : Nat → Bool) :
    After (fields ++ [⟨fieldName s o "observation_weightedmean", data, mask⟩]) calls := by
  have hne : ∀ s' o', '_' ∉ o'.toList → ∀ d ∈ initialValues,
      fieldName s o "observation_weightedmean" ≠ fieldName s' o' d.1 := by
    intro s' o' ho' d hd he
    obtain ⟨_, _, h3⟩ := fieldName_inj _ _ _ _ _ _ ho ho' (by simp) (List.mem_cons_of_mem _ (mem_diagnostics hd)) he
    exact mean_diagnostic (h3 ▸ mem_diagnostics hd)
  constructor
  · intro s' o' ho' d hd hc
    obtain ⟨f, hf, h1, h2⟩ := h.called s' o' ho' d hd hc
    refine ⟨f, ?_, h1, h2⟩
    rw [getField_append, hf]
  · intro s' o' ho' d hd hc
    rw [getField_append, h.other s' o' ho' d hd hc]
    exact if_neg (hne s' o' ho' d hd)

theorem combineOne_ok (s : Source) (day : Int) (hs : s.Usable day) (fields : List Field) (calls : List (String × Input))
    (ha : After fields calls) (hm : Means fields calls) :
    ∃ (i : Input) (fields' : List Field), combineOne (globalAxes day) day fields s = .ok fields' ∧ i.observable = s.observable ∧
      (∀ g, (i.records.filter fun r => decide (r.1 = g)).map Prod.snd = s.inBox day g) ∧
      After fields' (calls ++ [(s.source, i)]) ∧ Means fields' (calls ++ [(s.source, i)]) := by
  classical
  obtain ⟨grid, hg⟩ := grid_exists s.lookup hs.grid
  obtain ⟨i, hi, hobs, hsized, hu, _, hrec⟩ := getDay_ok s day hs grid hg
  have hcalled : Called (calls ++ [(s.source, i)]) s.source s.observable := 
    ⟨(s.source, i), by simp, rfl, hobs⟩
  have ha1 := after_call fields calls ha s.source i hsized (by rw [hobs]; exact hs.name)
  obtain ⟨w, hw, hwd, hwm⟩ := ha1.called s.source s.observable hs.name ("observation_weightedsum", 0) (by simp [initialValues]) hcalled
  obtain ⟨p, hp, hpd, hpm⟩ := ha1.called s.source s.observable hs.name ("precision_sum", 0) (by simp [initialValues]) hcalled
  have ho1 : operation "observation_weightedsum" = fun b r => b + (fun r : ℝ × ℝ => r.1 / r.2) r := by
    funext b r; simp [operation]
  have ho2 : operation "precision_sum" = fun b r => b + (fun r : ℝ × ℝ => 1 / r.2) r := by
    funext b r; simp [operation]
  refine ⟨i, initialValues.foldl (createField s.source i) fields ++ [⟨fieldName s.source s.observable "observation_weightedmean",
    fun g => w.data g / p.data g, fun g => w.mask g || p.mask g || decide (p.data g = 0)⟩], ?_, hobs, hrec, ?_, ?_⟩
  · unfold combineOne
    have hne : s.obs.measurement ≠ [] := fun h => hs.some (List.length_eq_zero_iff.1 (by rw [← hs.measurement, h]; rfl))
    have hp' : printStats s.obs = .ok () := by
      unfold printStats
      cases hmeas : s.obs.measurement with
      | nil => exact absurd hmeas hne
      | cons x xs => rfl
    rw [hp']
    dsimp only
    rw [(connector_ok day s.lookup grid).2 hg]
    dsimp only
    rw [hi]
    dsimp only
    rw [createFields_ok fields s.source i hu]
    dsimp only
    unfold weightedMean
    dsimp only at hw hp
    rw [hw]
    dsimp only
    rw [hp]
  · exact after_append _ _ ha1 _ _ hs.name _ _
  · intro s' o' ho'
    have hmeanold : getField (initialValues.foldl (createField s.source i) fields) (fieldName s' o' "observation_weightedmean") =
        getField fields (fieldName s' o' "observation_weightedmean") := by
      apply getField_other
      intro d hd he
      obtain ⟨_, _, h3⟩ := fieldName_inj _ _ _ _ _ _ ho' (by rw [hobs]; exact hs.name) (by simp) (List.mem_cons_of_mem _ hd) he
      exact mean_diagnostic (h3 ▸ hd)
    have hold := hm s' o' ho'
    rw [List.find?_append]
    cases hf : calls.find? fun c => decide (c.1 = s' ∧ c.2.observable = o') with
    | some c =>
      rw [hf] at hold
      obtain ⟨f, hf1, hf2, hf3⟩ := hold
      show ∃ f, _
      refine ⟨f, ?_, hf2, hf3⟩
      rw [getField_append, hmeanold, hf1]
    | none =>
      rw [hf] at hold
      by_cases hsame : s.source = s' ∧ i.observable = o'
      · obtain ⟨rfl, rfl⟩ := hsame
        have hnc := (find_called calls _ _).1 hf
        have hfind : (none : Option (String × Input)).or
            ([(s.source, i)].find? fun c => decide (c.1 = s.source ∧ c.2.observable = i.observable)) = some (s.source, i) := by
          simp
        rw [hfind]
        show ∃ f, _
        have hrecs : ∀ g, recordsIn (calls ++ [(s.source, i)]) s.source s.observable g =
            recordsIn [(s.source, i)] s.source i.observable g := fun g => by
          rw [← hobs]; exact recordsIn_first _ _ _ _ _ hnc
        refine ⟨_, by rw [getField_append, hmeanold, hold]; exact if_pos (by rw [hobs]), ?_, ?_⟩
        · intro g
          dsimp only
          rw [hwd, hpd, hrecs]
          dsimp only
          rw [ho1, ho2, fold_sum, fold_sum, zero_add, zero_add]
        · intro g
          dsimp only
          rw [hwm, hpm, hpd, hrecs]
          dsimp only
          rw [ho2, fold_sum, zero_add]
          simp
      · have hfind : (none : Option (String × Input)).or
            ([(s.source, i)].find? fun c => decide (c.1 = s' ∧ c.2.observable = o')) = none := by
          simpa using hsame
        rw [hfind]
        show getField _ _ = none
        rw [getField_append, hmeanold, hold]
        refine if_neg fun he => hsame ?_
        obtain ⟨h1, h2, _⟩ := fieldName_inj _ _ _ _ _ _ hs.name ho' (by simp) (by simp) he
        exact ⟨h1, hobs.trans h2⟩

/-- The calls which the program makes have the observations of sources. -/
def Calls (day : Int) (sources : List Source) (calls : List (String × Input)) : Prop :=
  List.Forall₂ (fun s c => c.1 = s.source ∧ c.2.observable = s.observable ∧
    ∀ g, (c.2.records.filter fun r => decide (r.1 = g)).map Prod.snd = s.inBox day g) sources calls

theorem combine_ok (day : Int) (sources : List Source) : ∀ (fields : List Field) (before : List (String × Input)),
    (∀ s ∈ sources, s.Usable day) → After fields before → Means fields before →
    ∃ fields' calls, combine (globalAxes day) day fields sources = .ok fields' ∧ Calls day sources calls ∧
      After fields' (before ++ calls) ∧ Means fields' (before ++ calls) := by
  induction sources with
  | nil => intro fields before _ ha hm; exact ⟨fields, [], rfl, .nil, by simpa using ha, by simpa using hm⟩
  | cons s rest ih =>
    intro fields before hs ha hm
    obtain ⟨i, f1, h1, h2, h3, h4, h5⟩ := combineOne_ok s day (hs s (by simp)) fields before ha hm
    obtain ⟨f2, calls, h6, h7, h8, h9⟩ := ih f1 _ (fun x hx => hs x (List.mem_cons_of_mem _ hx)) h4 h5
    refine ⟨f2, (s.source, i) :: calls, ?_, .cons ⟨rfl, h2, h3⟩ h7, by simpa using h8, by simpa using h9⟩
    rw [combine, h1]
    exact h6

theorem means_nil : Means [] [] := by
  intro s o _
  rfl

theorem calls_records (day : Int) (sources : List Source) (calls : List (String × Input)) (h : Calls day sources calls) (a o : String)
    (g : Nat) : recordsIn calls a o g =
      (sources.filter fun s => decide (s.source = a ∧ s.observable = o)).flatMap fun s => s.inBox day g := by
  induction h with
  | nil => rfl
  | @cons s c sources calls h1 _ ih =>
    obtain ⟨h2, h3, h4⟩ := h1
    have : recordsIn (c :: calls) a o g = recordsIn [c] a o g ++ recordsIn calls a o g := by
      simp [recordsIn]
    rw [this, ih]
    by_cases hm : s.source = a ∧ s.observable = o
    · rw [List.filter_cons_of_pos (by simpa using hm), List.flatMap_cons, ← h4]
      simp only [recordsIn, List.flatMap_cons, List.flatMap_nil, List.append_nil]
      rw [if_pos (by rw [h2, h3]; exact hm)]
    · rw [List.filter_cons_of_neg (by simpa using hm)]
      simp only [recordsIn, List.flatMap_cons, List.flatMap_nil, List.append_nil]
      rw [if_neg (by rw [h2, h3]; exact hm), List.nil_append]

theorem calls_first (day : Int) (sources : List Source) (calls : List (String × Input)) (h : Calls day sources calls) (a o : String)
    (s : Source) (hs : (sources.find? fun s => decide (s.source = a ∧ s.observable = o)) = some s) :
    ∃ c, (calls.find? fun c => decide (c.1 = a ∧ c.2.observable = o)) = some c ∧ ∀ g, recordsIn [c] a o g = s.inBox day g := by
  induction h with
  | nil => simp at hs
  | @cons t c sources calls h1 _ ih =>
    obtain ⟨h2, h3, h4⟩ := h1
    by_cases hm : t.source = a ∧ t.observable = o
    · rw [List.find?_cons_of_pos (by simpa using hm)] at hs
      cases hs
      have hc : c.1 = a ∧ c.2.observable = o := by rw [h2, h3]; exact hm
      refine ⟨c, List.find?_cons_of_pos (by simpa using hc), fun g => ?_⟩
      simp only [recordsIn, List.flatMap_cons, List.flatMap_nil, List.append_nil]
      rw [if_pos hc, h4]
    · rw [List.find?_cons_of_neg (by simpa using hm)] at hs
      obtain ⟨x, hx, h5⟩ := ih hs
      have hc : ¬(c.1 = a ∧ c.2.observable = o) := by rw [h2, h3]; exact hm
      exact ⟨x, by rw [List.find?_cons_of_neg (by simpa using hc)]; exact hx, h5⟩

theorem sum_pos_of {l : List (ℝ × ℝ)} (hne : l ≠ []) (hp : ∀ r ∈ l, 0 < r.2) : 0 < (l.map fun r => 1 / r.2).sum := by
  induction l with
  | nil => exact absurd rfl hne
  | cons x rest ih =>
    rw [List.map_cons, List.sum_cons]
    have hx : 0 < 1 / x.2 := one_div_pos.2 (hp x (by simp))
    by_cases hr : rest = []
    · rw [hr]; simpa using hx
    · have := ih hr fun r h => hp r (List.mem_cons_of_mem _ h)
      linarith

theorem weighted_bounds (l : List (ℝ × ℝ)) (hp : ∀ r ∈ l, 0 < r.2) (a b : ℝ) (ha : ∀ r ∈ l, a ≤ r.1) (hb : ∀ r ∈ l, r.1 ≤ b) :
    a * (l.map fun r => 1 / r.2).sum ≤ (l.map fun r => r.1 / r.2).sum ∧
      (l.map fun r => r.1 / r.2).sum ≤ b * (l.map fun r => 1 / r.2).sum := by
  induction l with
  | nil => simp
  | cons x rest ih =>
    obtain ⟨h1, h2⟩ := ih (fun r h => hp r (List.mem_cons_of_mem _ h)) (fun r h => ha r (List.mem_cons_of_mem _ h))
      (fun r h => hb r (List.mem_cons_of_mem _ h))
    have hx : 0 < 1 / x.2 := one_div_pos.2 (hp x (by simp))
    have hd : x.1 / x.2 = x.1 * (1 / x.2) := by ring
    simp only [List.map_cons, List.sum_cons]
    rw [hd]
    constructor
    · nlinarith [mul_le_mul_of_nonneg_right (ha x (by simp)) hx.le]
    · nlinarith [mul_le_mul_of_nonneg_right (hb x (by simp)) hx.le]

/-! ### Theorems -/

/-- C27: the fields which the program writes describe, for each source and observable and in each box, the observations of the
day in that box which are not masked. -/
theorem c27_run (day : Int) (sources : List Source) (hs : ∀ s ∈ sources, s.Usable day) :
    ∃ fields, combine (globalAxes day) day [] sources = .ok fields ∧ ∀ a o g, '_' ∉ o.toList →
      Bounded ((sources.filter fun s => decide (s.source = a ∧ s.observable = o)).flatMap fun s => s.inBox day g) →
      Describes fields a o g
        ((sources.filter fun s => decide (s.source = a ∧ s.observable = o)).flatMap fun s => s.inBox day g) := by
  obtain ⟨fields, calls, h1, h2, h3, _⟩ := combine_ok day sources [] [] hs after_nil means_nil
  refine ⟨fields, h1, fun a o g ho hb => ?_⟩
  rw [← calls_records day sources calls h2] at hb ⊢
  exact after_describes (by simpa using h3) a o ho g hb

/-- C27, means: the mean of a source and observable which occur once is the mean of observations with the inverse of uncertainties
as weights, and within the range of observations. -/
theorem c27_mean (day : Int) (sources : List Source) (hs : ∀ s ∈ sources, s.Usable day) (s : Source) (hm : s ∈ sources)
    (honce : ∀ t ∈ sources, t.source = s.source → t.observable = s.observable → t = s) (g : Nat) (hne : s.inBox day g ≠ [])
    (hp : ∀ r ∈ s.inBox day g, 0 < r.2) :
    ∃ fields x, combine (globalAxes day) day [] sources = .ok fields ∧
      value fields s.source s.observable "observation_weightedmean" g = some x ∧
      x = ((s.inBox day g).map fun r => r.1 / r.2).sum / ((s.inBox day g).map fun r => 1 / r.2).sum ∧
      ∀ a b, (∀ r ∈ s.inBox day g, a ≤ r.1) → (∀ r ∈ s.inBox day g, r.1 ≤ b) → a ≤ x ∧ x ≤ b := by
  obtain ⟨fields, calls, h1, h2, _, h4⟩ := combine_ok day sources [] [] hs after_nil means_nil
  rw [List.nil_append] at h4
  have hfind : (sources.find? fun t => decide (t.source = s.source ∧ t.observable = s.observable)) = some s := by
    cases hf : sources.find? fun t => decide (t.source = s.source ∧ t.observable = s.observable) with
    | none =>
      rw [List.find?_eq_none] at hf
      exact absurd (by simp) (hf s hm)
    | some t =>
      have h5 := List.find?_some hf
      simp only [decide_eq_true_eq] at h5
      rw [honce t (List.mem_of_find?_eq_some hf) h5.1 h5.2]
  obtain ⟨c, hc, hrec⟩ := calls_first day sources calls h2 _ _ s hfind
  have h6 := h4 s.source s.observable (hs s hm).name
  rw [hc] at h6
  obtain ⟨f, hf, hdata, hmask⟩ := h6
  have hpos := sum_pos_of hne hp
  refine ⟨fields, _, h1, ?_, rfl, ?_⟩
  · unfold value
    rw [hf]
    show (if f.mask g = true then none else some (f.data g)) = _
    rw [if_neg, hdata, hrec]
    rw [hmask, hrec]
    rintro (h | h)
    · exact hne h
    · exact hpos.ne' h
  · intro a b ha hb
    obtain ⟨h7, h8⟩ := weighted_bounds _ hp a b ha hb
    exact ⟨(le_div_iff₀ hpos).2 h7, (div_le_iff₀ hpos).2 h8⟩

/-- C27 fails for means: if a source and observable occur again, the mean remains that of the first, while the number of
observations (and other fields) are those of all. -/
theorem c27_stale_mean_violated (day : Int) (s t : Source) (hs : s.Usable day) (ht : t.Usable day) (h1 : t.source = s.source)
    (h2 : t.observable = s.observable) (g : Nat) (hne : s.inBox day g ≠ [])
    (hp : ∀ r ∈ s.inBox day g, 0 < r.2) (hb : Bounded (s.inBox day g ++ t.inBox day g)) :
    ∃ fields, combine (globalAxes day) day [] [s, t] = .ok fields ∧
      value fields s.source s.observable "count" g = some ((s.inBox day g).length + (t.inBox day g).length) ∧
      value fields s.source s.observable "observation_weightedmean" g =
        some (((s.inBox day g).map fun r => r.1 / r.2).sum / ((s.inBox day g).map fun r => 1 / r.2).sum) := by
  have hu : ∀ x ∈ [s, t], x.Usable day := by
    intro x hx
    simp only [List.mem_cons, List.not_mem_nil, or_false] at hx
    rcases hx with rfl | rfl
    · exact hs
    · exact ht
  obtain ⟨fields, calls, h3, h4, h5, h6⟩ := combine_ok day [s, t] [] [] hu after_nil means_nil
  rw [List.nil_append] at h5 h6
  have hrecs := calls_records day _ calls h4 s.source s.observable g
  have hfilter : ([s, t].filter fun x => decide (x.source = s.source ∧ x.observable = s.observable)) = [s, t] := by
    simp [h1, h2]
  rw [hfilter] at hrecs
  simp only [List.flatMap_cons, List.flatMap_nil, List.append_nil] at hrecs
  have hd := after_describes h5 s.source s.observable hs.name g (by rw [hrecs]; exact hb)
  rw [hrecs] at hd
  have hpos := sum_pos_of hne hp
  refine ⟨fields, h3, ?_, ?_⟩
  · rw [hd.count (by simp [hne])]
    simp
  · obtain ⟨c, hc, hrec⟩ := calls_first day [s, t] calls h4 s.source s.observable s (by simp)
    have h7 := h6 s.source s.observable hs.name
    rw [hc] at h7
    obtain ⟨f, hf, hdata, hmask⟩ := h7
    unfold value
    rw [hf]
    show (if f.mask g = true then none else some (f.data g)) = _
    rw [if_neg, hdata, hrec]
    rw [hmask, hrec]
    rintro (h | h)
    · exact hne h
    · exact hpos.ne' h

/-- C27, every observation counts once: the numbers of all boxes add up to the number of observations of the day which are not
masked. -/
theorem c27_total (s : Source) (day : Int) (hs : s.Usable day) :
    ∑ g ∈ Finset.range (720 * 1440), (s.inBox day g).length = (s.seen day).length := by
  classical
  have key : ∀ l : List Nat, (∀ i ∈ l, ∃ g, AtBox (s.place i) g) →
      ∑ g ∈ Finset.range (720 * 1440), (l.filter fun i => decide (AtBox (s.place i) g)).length = l.length := by
    intro l
    induction l with
    | nil => intro _; simp
    | cons i rest ih =>
      intro h
      obtain ⟨g, hg⟩ := h i (by simp)
      have : ∀ k, ((i :: rest).filter fun i => decide (AtBox (s.place i) k)).length =
          (rest.filter fun i => decide (AtBox (s.place i) k)).length + if k = g then 1 else 0 := by
        intro k
        by_cases hk : k = g
        · subst hk
          rw [List.filter_cons_of_pos (by simpa using hg)]
          simp
        · rw [List.filter_cons_of_neg, if_neg hk, Nat.add_zero]
          simp only [decide_eq_true_eq]
          exact fun hl => hk (atBox_unique _ _ _ hl hg)
      have hlt : g ∈ Finset.range (720 * 1440) := Finset.mem_range.2 (atBox_lt _ _ hg)
      rw [Finset.sum_congr rfl fun k _ => this k, Finset.sum_add_distrib, ih fun j hj => h j (List.mem_cons_of_mem _ hj),
        Finset.sum_ite_eq', if_pos hlt, List.length_cons]
  have hseen : ∀ i ∈ s.seen day, ∃ g, AtBox (s.place i) g := by
    intro i hi
    apply hs.grid
    unfold Source.place
    rw [List.getD_eq_getElem?_getD, List.getElem?_eq_getElem (hs.known i hi), Option.getD_some]
    exact List.getElem_mem _
  rw [← key (s.seen day) hseen]
  apply Finset.sum_congr rfl
  intro g _
  unfold Source.inBox
  rw [List.length_map]

/-- C27 fails for days without observations: a source with an empty file, or one that is missing, ends the program. -/
theorem c27_missing_violated (axes : List GridFieldAxis) (day : Int) (before after : List Source) (fields fields' : List Field)
    (s : Source) (hb : combine axes day fields before = .ok fields') (h : s.obs.measurement = []) :
    combine axes day fields (before ++ s :: after) = .error .valueError := by
  induction before generalizing fields with
  | nil =>
    rw [List.nil_append, combine]
    unfold combineOne printStats
    rw [h]
  | cons b rest ih =>
    rw [List.cons_append, combine]
    rw [combine] at hb
    cases hc : combineOne axes day fields b with
    | error e => rw [hc] at hb; exact absurd hb (by simp)
    | ok f =>
      rw [hc] at hb
      exact ih f hb

/-- A source of raw binary files without a file for the day has no observations. -/
theorem c27_missing_source (ranges : Nat) (lookup : Option Bytes) (day : Int) :
    ∃ obs, sourceObservations ranges none lookup day = .ok obs ∧ obs.mask = [] ∧ obs.location = [] ∧ obs.measurement = [] ∧
      obs.uncorrelated = [] ∧ obs.correlated = [] := ⟨_, rfl, rfl, rfl, rfl, rfl, rfl⟩

/-- One station at the equator, two observations on day 5, one masked. -/
noncomputable def exampleSource : Source :=
  ⟨"insitu_land", "Tmean", [(1 / 8, 1 / 8)], ⟨[false, true], .scalar 5, [0, 0], [280, 999], [1, 1], []⟩⟩

theorem example_seen : exampleSource.seen 5 = [0] := by
  classical
  unfold Source.seen exampleSource
  simp only [OnDay]
  rw [show List.range [false, true].length = [0, 1] from rfl, List.filter_cons_of_pos (by simp), List.filter_cons_of_neg (by simp)]
  rfl

example : exampleSource.Usable 5 := by
  have hp : AtBox (1 / 8, 1 / 8) (360 * 1440 + 720) := by
    refine ⟨⟨by norm_num, Or.inl ?_⟩, ⟨by norm_num, Or.inl ?_⟩⟩ <;> norm_num [InCell]
  refine ⟨rfl, rfl, rfl, trivial, by simp [exampleSource], ?_, ?_, ?_, by decide⟩
  · rw [example_seen]
    intro i hi
    simp at hi
    subst hi
    simp [exampleSource]
  · intro p hp'
    simp [exampleSource] at hp'
    subst hp'
    exact ⟨_, by simpa using hp⟩
  · rw [example_seen]
    intro i hi
    simp at hi
    subst hi
    simp [exampleSource]

end Verif.Eustace.Diagnostic
