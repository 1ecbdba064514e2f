import Verif.Eustace.Descriptor.Names

/-! C143: every operation uses the latest estimates of the other components. -/

namespace Verif.Eustace.Descriptor
open Verif

/-- A storage argument of an operation by number of the component. -/
def sel : ℕ → Facts → StorageFacts
  | 0, x => x.climatology
  | 1, x => x.largeScale
  | _, x => x.localScale

/-- Name of the solution of a component. -/
def solutionOf (c : Config) : ℕ → String
  | 0 => c.solutionClimatologyName
  | 1 => c.solutionLargeScaleName
  | _ => c.solutionLocalScaleName

/-- The estimate which there is before the first operation. -/
def initial (c : Config) (m : ℕ) : Option String := if 0 < c.first then some (numbered (solutionOf c m) (c.first - 1)) else none

/-- The last data set which some operations write. -/
def latestOf (f : Facts → Option String) (prev : List Facts) : Option String := (prev.filterMap f).getLast?

/-- The latest estimate of a component. -/
def current (c : Config) (m : ℕ) (prev : List Facts) : Option String := (latestOf (fun x => (sel m x).stateWritten) prev).or (initial c m)

theorem latestOf_append (f : Facts → Option String) (prev : List Facts) (x : Facts) : latestOf f (prev ++ [x]) = (f x).or (latestOf f prev) := by
  unfold latestOf
  rw [List.filterMap_append, List.getLast?_append]
  cases h : f x <;> simp [h]

theorem current_append (c : Config) (m : ℕ) (prev : List Facts) (x : Facts) :
    current c m (prev ++ [x]) = ((sel m x).stateWritten).or (current c m prev) := by
  unfold current
  rw [latestOf_append]
  cases (sel m x).stateWritten <;> simp

/-- All that is claimed of an operation after others. -/
structure Fresh (c : Config) (prev : List Facts) (x : Facts) : Prop where
  states : (x.function = some (fullName "process_inputs_batch") ∨ x.function = some (fullName "process_inputs")) → ∀ m : ℕ, m < 3 →
    x.component ≠ some (m : ℤ) → (sel m x).stateRead = current c m prev
  none_stale : ∀ m < 3, ∀ n, (sel m x).stateRead = some n → current c m prev = some n
  measurements : x.function = some (fullName "solve") → x.prior = some 0 → ∀ m : ℕ, m < 3 → x.component = some (m : ℤ) →
    ∃ n, (sel m x).measurementRead = some n ∧ latestOf (fun y => (sel m y).measurementWritten) prev = some n
  gridding : x.function = some (fullName "output_grid_batch") → ∀ m < 3,
    (∃ n, (sel m x).stateRead = some n ∧ latestOf (fun y => (sel m y).stateWritten) prev = some n) ∧
    (∃ n, (sel m x).sampleRead = some n ∧ latestOf (fun y => (sel m y).sampleWritten) prev = some n) ∧
    (∃ n, (sel m x).priorRead = some n ∧ latestOf (fun y => (sel m y).priorWritten) prev = some n)

/-- Names of functions are different. -/
theorem functions_ne : fullName "process_inputs_batch" ≠ fullName "process_inputs" ∧ fullName "process_inputs_batch" ≠ fullName "solve" ∧
    fullName "process_inputs_batch" ≠ fullName "output_grid_batch" ∧ fullName "process_inputs" ≠ fullName "solve" ∧
    fullName "process_inputs" ≠ fullName "output_grid_batch" ∧ fullName "solve" ≠ fullName "output_grid_batch" := by
  decide +kernel

theorem below_three {P : ℕ → Prop} (h0 : P 0) (h1 : P 1) (h2 : P 2) : ∀ m < 3, P m := by
  intro m hm
  match m, hm with
  | 0, _ => exact h0
  | 1, _ => exact h1
  | 2, _ => exact h2

/-- An operation which computes measurement updates. -/
theorem fresh_measurement {c : Config} {prev : List Facts} {x : Facts} (hf : x.function = some (fullName "process_inputs_batch"))
    (hs : ∀ m < 3, (sel m x).stateRead = current c m prev ∨ ((sel m x).stateRead = none ∧ x.component = some (m : ℤ))) : Fresh c prev x where
  states _ m hm hc := by
    rcases hs m hm with h | h
    · exact h
    · exact absurd h.2 hc
  none_stale m hm n hn := by
    rcases hs m hm with h | h
    · rw [← h]; exact hn
    · rw [h.1] at hn; cases hn
  measurements h := by
    rw [hf] at h
    exact absurd (Option.some.inj h) functions_ne.2.1
  gridding h := by
    rw [hf] at h
    exact absurd (Option.some.inj h) functions_ne.2.2.1

/-- An operation which solves for a component. -/
theorem fresh_solution {c : Config} {prev : List Facts} {x : Facts} (hf : x.function = some (fullName "solve"))
    (hs : ∀ m < 3, (sel m x).stateRead = none)
    (hm : x.prior = some 0 → ∀ m : ℕ, m < 3 → x.component = some (m : ℤ) →
      ∃ n, (sel m x).measurementRead = some n ∧ latestOf (fun y => (sel m y).measurementWritten) prev = some n) : Fresh c prev x where
  states h := by
    rw [hf] at h
    rcases h with h | h
    · exact absurd (Option.some.inj h).symm functions_ne.2.1
    · exact absurd (Option.some.inj h).symm functions_ne.2.2.2.1
  none_stale m hm n hn := by
    rw [hs m hm] at hn
    cases hn
  measurements _ := hm
  gridding h := by
    rw [hf] at h
    exact absurd (Option.some.inj h) functions_ne.2.2.2.2.2

/-- An operation which solves for the local component. -/
theorem fresh_local {c : Config} {prev : List Facts} {x : Facts} (hf : x.function = some (fullName "process_inputs"))
    (hs : ∀ m < 3, (sel m x).stateRead = current c m prev ∨ ((sel m x).stateRead = none ∧ x.component = some (m : ℤ))) : Fresh c prev x where
  states _ m hm hc := by
    rcases hs m hm with h | h
    · exact h
    · exact absurd h.2 hc
  none_stale m hm n hn := by
    rcases hs m hm with h | h
    · rw [← h]; exact hn
    · rw [h.1] at hn; cases hn
  measurements h := by
    rw [hf] at h
    exact absurd (Option.some.inj h) functions_ne.2.2.2.1
  gridding h := by
    rw [hf] at h
    exact absurd (Option.some.inj h) functions_ne.2.2.2.2.1

/-- The operation which computes grids. -/
theorem fresh_grid {c : Config} {prev : List Facts} {x : Facts} (hf : x.function = some (fullName "output_grid_batch"))
    (hs : ∀ m < 3,
      (∃ n, (sel m x).stateRead = some n ∧ latestOf (fun y => (sel m y).stateWritten) prev = some n) ∧
      (∃ n, (sel m x).sampleRead = some n ∧ latestOf (fun y => (sel m y).sampleWritten) prev = some n) ∧
      (∃ n, (sel m x).priorRead = some n ∧ latestOf (fun y => (sel m y).priorWritten) prev = some n)) : Fresh c prev x where
  states h := by
    rw [hf] at h
    rcases h with h | h
    · exact absurd (Option.some.inj h).symm functions_ne.2.2.1
    · exact absurd (Option.some.inj h).symm functions_ne.2.2.2.2.1
  none_stale m hm n hn := by
    obtain ⟨⟨n', h1, h2⟩, -⟩ := hs m hm
    rw [hn] at h1
    unfold current
    rw [h2, ← h1]
    rfl
  measurements h := by
    rw [hf] at h
    exact absurd (Option.some.inj h).symm functions_ne.2.2.2.2.2
  gridding _ := hs

/-- The estimates with which an iteration begins. -/
def Begins (c : Config) (i : ℤ) (prev : List Facts) : Prop :=
  ∀ m < 3, current c m prev = if 0 < i then some (numbered (solutionOf c m) (i - 1)) else none

theorem measurement0_written (c : Config) (i : ℤ) (m : ℕ) :
    (sel m (measurement0Facts c i)).stateWritten = none ∧ (sel m (measurement0Facts c i)).sampleWritten = none ∧
    (sel m (measurement0Facts c i)).priorWritten = none ∧
    (sel m (measurement0Facts c i)).measurementWritten = if m = 0 then some (numbered c.measurementClimatologyName i) else none := by
  by_cases hi : i = 0
  · rw [measurement0Facts, if_pos hi, hi]
    match m with
    | 0 => exact ⟨rfl, rfl, rfl, rfl⟩
    | 1 => exact ⟨rfl, rfl, rfl, rfl⟩
    | m + 2 => exact ⟨rfl, rfl, rfl, rfl⟩
  · rw [measurement0Facts, if_neg hi]
    match m with
    | 0 => exact ⟨rfl, rfl, rfl, rfl⟩
    | 1 => exact ⟨rfl, rfl, rfl, rfl⟩
    | m + 2 => exact ⟨rfl, rfl, rfl, rfl⟩

theorem measurement1_written (c : Config) (i : ℤ) (m : ℕ) :
    (sel m (measurement1Facts c i)).stateWritten = none ∧ (sel m (measurement1Facts c i)).sampleWritten = none ∧
    (sel m (measurement1Facts c i)).priorWritten = none ∧
    (sel m (measurement1Facts c i)).measurementWritten = if m = 1 then some (numbered c.measurementLargeScaleName i) else none := by
  by_cases hi : i = 0
  · rw [measurement1Facts, if_pos hi, hi]
    match m with
    | 0 => exact ⟨rfl, rfl, rfl, rfl⟩
    | 1 => exact ⟨rfl, rfl, rfl, rfl⟩
    | m + 2 => exact ⟨rfl, rfl, rfl, rfl⟩
  · rw [measurement1Facts, if_neg hi]
    match m with
    | 0 => exact ⟨rfl, rfl, rfl, rfl⟩
    | 1 => exact ⟨rfl, rfl, rfl, rfl⟩
    | m + 2 => exact ⟨rfl, rfl, rfl, rfl⟩

theorem measurement0_fresh {c : Config} {i : ℤ} (hi : 0 ≤ i) {prev : List Facts} (h : Begins c i prev) : Fresh c prev (measurement0Facts c i) := by
  by_cases h0 : i = 0
  · rw [measurement0Facts, if_pos h0]
    subst h0
    refine fresh_measurement rfl (below_three (.inr ⟨rfl, rfl⟩) (.inl ?_) (.inl ?_))
    · rw [h 1 (by omega)]; rfl
    · rw [h 2 (by omega)]; rfl
  · rw [measurement0Facts, if_neg h0]
    have hp : 0 < i := by omega
    refine fresh_measurement rfl (below_three (.inl ?_) (.inl ?_) (.inl ?_))
    · rw [h 0 (by omega), if_pos hp]; rfl
    · rw [h 1 (by omega), if_pos hp]; rfl
    · rw [h 2 (by omega), if_pos hp]; rfl

theorem measurement1_fresh {c : Config} {i : ℤ} (hi : 0 ≤ i) {prev : List Facts}
    (h0 : current c 0 prev = some (numbered c.solutionClimatologyName i))
    (h1 : current c 1 prev = if 0 < i then some (numbered (solutionOf c 1) (i - 1)) else none)
    (h2 : current c 2 prev = if 0 < i then some (numbered (solutionOf c 2) (i - 1)) else none) : Fresh c prev (measurement1Facts c i) := by
  by_cases hz : i = 0
  · rw [measurement1Facts, if_pos hz]
    subst hz
    refine fresh_measurement rfl (below_three (.inl ?_) (.inr ⟨rfl, rfl⟩) (.inl ?_))
    · rw [h0]; rfl
    · rw [h2]; rfl
  · rw [measurement1Facts, if_neg hz]
    have hp : 0 < i := by omega
    refine fresh_measurement rfl (below_three (.inl ?_) (.inl ?_) (.inl ?_))
    · rw [h0]; rfl
    · rw [h1, if_pos hp]; rfl
    · rw [h2, if_pos hp]; rfl

theorem latestOf_cons (f : Facts → Option String) (x : Facts) (l : List Facts) : latestOf f (x :: l) = (latestOf f l).or (f x) := by
  unfold latestOf
  rw [List.filterMap_cons]
  cases h : f x with
  | none => simp
  | some n =>
    rw [List.getLast?_cons]
    cases (List.filterMap f l).getLast? <;> rfl

theorem current_list (c : Config) (m : ℕ) (prev l : List Facts) :
    current c m (prev ++ l) = (latestOf (fun x => (sel m x).stateWritten) l).or (current c m prev) := by
  unfold current latestOf
  rw [List.filterMap_append, List.getLast?_append, Option.or_assoc]

theorem iteration_fresh {c : Config} {i : ℤ} (hi : 0 ≤ i) {prev : List Facts} (h : Begins c i prev) :
    Chain (Fresh c) prev (iterationFacts c i) ∧ Begins c (i + 1) (prev ++ iterationFacts c i) := by
  have h0 := h 0 (by omega)
  have h1 := h 1 (by omega)
  have h2 := h 2 (by omega)
  have hpos : 0 < i + 1 := by omega
  have hsub : i + 1 - 1 = i := by omega
  have w0 := measurement0_written c i
  have w1 := measurement1_written c i
  by_cases hg : c.gridNow i
  · rw [iterationFacts, if_pos hg, griddedFacts]
    constructor
    · refine .cons (measurement0_fresh hi h) (.cons ?_ (.cons ?_ (.cons ?_ (.cons ?_ (.cons ?_ (.cons ?_ (.cons ?_ .nil)))))))
      · refine fresh_solution rfl (below_three rfl rfl rfl) fun _ => below_three (fun _ => ⟨_, rfl, ?_⟩) (fun hc => ?_) (fun hc => ?_)
        · rw [latestOf_append, (w0 0).2.2.2]; rfl
        · exact absurd (Option.some.inj hc) (by decide)
        · exact absurd (Option.some.inj hc) (by decide)
      · refine fresh_solution rfl (below_three rfl rfl rfl) fun hp => ?_
        exact absurd (Option.some.inj hp) (by decide)
      · refine measurement1_fresh hi ?_ ?_ ?_
        · rw [current_append, current_append]; rfl
        · rw [current_append, current_append, current_append, (w0 1).1, ← h1]; rfl
        · rw [current_append, current_append, current_append, (w0 2).1, ← h2]; rfl
      · refine fresh_solution rfl (below_three rfl rfl rfl) fun _ => below_three (fun hc => ?_) (fun _ => ⟨_, rfl, ?_⟩) (fun hc => ?_)
        · exact absurd (Option.some.inj hc) (by decide)
        · rw [latestOf_append, (w1 1).2.2.2]; rfl
        · exact absurd (Option.some.inj hc) (by decide)
      · refine fresh_solution rfl (below_three rfl rfl rfl) fun hp => ?_
        exact absurd (Option.some.inj hp) (by decide)
      · refine fresh_local rfl (below_three (.inl ?_) (.inl ?_) (.inr ⟨rfl, rfl⟩))
        · simp only [current_append, (w1 0).1]; rfl
        · simp only [current_append]; rfl
      · refine fresh_grid rfl (below_three ⟨⟨_, rfl, ?_⟩, ⟨_, rfl, ?_⟩, ⟨_, rfl, ?_⟩⟩ ⟨⟨_, rfl, ?_⟩, ⟨_, rfl, ?_⟩, ⟨_, rfl, ?_⟩⟩ ⟨⟨_, rfl, ?_⟩, ⟨_, rfl, ?_⟩, ⟨_, rfl, ?_⟩⟩)
        all_goals simp only [latestOf_append, (w0 _).1, (w0 _).2.1, (w0 _).2.2.1, (w1 _).1, (w1 _).2.1, (w1 _).2.2.1]
        all_goals rfl
    · refine below_three ?_ ?_ ?_
      all_goals
        rw [if_pos hpos, hsub]
        rw [current_list]
        simp only [latestOf_cons, (w0 _).1, (w1 _).1]
        rfl
  · rw [iterationFacts, if_neg hg, plainFacts]
    constructor
    · refine .cons (measurement0_fresh hi h) (.cons ?_ (.cons ?_ (.cons ?_ (.cons ?_ .nil))))
      · refine fresh_solution rfl (below_three rfl rfl rfl) fun _ => below_three (fun _ => ⟨_, rfl, ?_⟩) (fun hc => ?_) (fun hc => ?_)
        · rw [latestOf_append, (w0 0).2.2.2]; rfl
        · exact absurd (Option.some.inj hc) (by decide)
        · exact absurd (Option.some.inj hc) (by decide)
      · refine measurement1_fresh hi ?_ ?_ ?_
        · rw [current_append]; rfl
        · rw [current_append, current_append, (w0 1).1, ← h1]; rfl
        · rw [current_append, current_append, (w0 2).1, ← h2]; rfl
      · refine fresh_solution rfl (below_three rfl rfl rfl) fun _ => below_three (fun hc => ?_) (fun _ => ⟨_, rfl, ?_⟩) (fun hc => ?_)
        · exact absurd (Option.some.inj hc) (by decide)
        · rw [latestOf_append, (w1 1).2.2.2]; rfl
        · exact absurd (Option.some.inj hc) (by decide)
      · refine fresh_local rfl (below_three (.inl ?_) (.inl ?_) (.inr ⟨rfl, rfl⟩))
        · simp only [current_append, (w1 0).1]; rfl
        · simp only [current_append]; rfl
    · refine below_three ?_ ?_ ?_
      all_goals
        rw [if_pos hpos, hsub]
        rw [current_list]
        simp only [latestOf_cons, (w0 _).1, (w1 _).1]
        rfl

theorem fresh {c : Config} (h0 : 0 ≤ c.first) : Chain (Fresh c) [] (c.range.flatMap (iterationFacts c)) := by
  refine Chain.iterate (Begins c) (fun i prev hi _ _ h => iteration_fresh hi h) h0 ?_
  intro m _
  unfold current initial
  rfl

/-! ### The same for descriptors -/

/-- The storage arguments with numbers of components and names of solutions. -/
def storages (c : Config) : List (ℤ × String × String) :=
  [(0, "storage_climatology", c.solutionClimatologyName), (1, "storage_large_scale", c.solutionLargeScaleName),
   (2, "storage_local", c.solutionLocalScaleName)]

/-- The estimate before the first operation of a descriptor: there is none in iteration 0. -/
def before (c : Config) (name : String) : Option String := if 0 < c.first then some (Spec.numberedName name (c.first - 1)) else none

theorem latestOf_map (f : Facts → Option String) (ops : List Json) : latestOf f (ops.map facts) = Spec.latest (fun op => f (facts op)) ops := by
  unfold latestOf Spec.latest
  rw [List.filterMap_map]
  rfl

theorem storages_cases {c : Config} {m : ℤ} {S s : String} (h : (m, S, s) ∈ storages c) {P : ℤ → String → String → Prop}
    (h0 : P 0 "storage_climatology" c.solutionClimatologyName) (h1 : P 1 "storage_large_scale" c.solutionLargeScaleName)
    (h2 : P 2 "storage_local" c.solutionLocalScaleName) : P m S s := by
  simp only [storages, List.mem_cons, Prod.mk.injEq, List.not_mem_nil, or_false] at h
  rcases h with ⟨rfl, rfl, rfl⟩ | ⟨rfl, rfl, rfl⟩ | ⟨rfl, rfl, rfl⟩
  · exact h0
  · exact h1
  · exact h2

theorem descriptor_fresh {c : Config} (h0 : 0 ≤ c.first) (hn : (stems c).Nodup) {d : Json} (hd : createBatchDescriptor c false = .ok d)
    {k : ℕ} {op : Json} (hk : (Spec.operations d)[k]? = some op) : Fresh c (((Spec.operations d).take k).map facts) (facts op) :=
  descriptor_chain h0 hn hd (fresh h0) hk

/-- **C143.** An operation which compares observations with estimates is given, for every component other than its own, the state written
last before it in the descriptor, or the one of the iteration before the first if there is none; it is given no state only if there
is none at all. -/
theorem c143_states {c : Config} (h0 : 0 ≤ c.first) (hn : (stems c).Nodup) {d : Json} (hd : createBatchDescriptor c false = .ok d)
    {k : ℕ} {op : Json} (hk : (Spec.operations d)[k]? = some op)
    (hf : Spec.function op = some "eustace.analysis.advanced_standard.examples.moving_climatology.process_inputs_batch" ∨
      Spec.function op = some "eustace.analysis.advanced_standard.examples.moving_climatology.process_inputs")
    {m : ℤ} {S s : String} (hm : (m, S, s) ∈ storages c) (hc : Spec.component op ≠ some m) :
    Spec.stateRead S op = (Spec.latest (Spec.stateWritten S) ((Spec.operations d).take k)).or (before c s) := by
  have h := (descriptor_fresh h0 hn hd hk).states hf
  revert hc
  refine storages_cases (P := fun m S s => Spec.component op ≠ some m →
    Spec.stateRead S op = (Spec.latest (Spec.stateWritten S) ((Spec.operations d).take k)).or (before c s)) hm ?_ ?_ ?_
  · intro hc
    have := h 0 (by omega) hc
    rw [current, latestOf_map] at this
    exact this
  · intro hc
    have := h 1 (by omega) hc
    rw [current, latestOf_map] at this
    exact this
  · intro hc
    have := h 2 (by omega) hc
    rw [current, latestOf_map] at this
    exact this

/-- **C143.** No operation of a descriptor reads a state which is not the latest one of its component. -/
theorem c143_none_stale {c : Config} (h0 : 0 ≤ c.first) (hn : (stems c).Nodup) {d : Json} (hd : createBatchDescriptor c false = .ok d)
    {k : ℕ} {op : Json} (hk : (Spec.operations d)[k]? = some op) {m : ℤ} {S s : String} (hm : (m, S, s) ∈ storages c) {n : String}
    (hr : Spec.stateRead S op = some n) : (Spec.latest (Spec.stateWritten S) ((Spec.operations d).take k)).or (before c s) = some n := by
  have h := (descriptor_fresh h0 hn hd hk).none_stale
  revert hr
  refine storages_cases (P := fun m S s => Spec.stateRead S op = some n →
    (Spec.latest (Spec.stateWritten S) ((Spec.operations d).take k)).or (before c s) = some n) hm ?_ ?_ ?_
  · intro hr
    have := h 0 (by omega) n hr
    rw [current, latestOf_map] at this
    exact this
  · intro hr
    have := h 1 (by omega) n hr
    rw [current, latestOf_map] at this
    exact this
  · intro hr
    have := h 2 (by omega) n hr
    rw [current, latestOf_map] at this
    exact this

/-- **C143.** An operation which solves for a component (and is not there for a sample of the prior) reads the measurement updates written
last for that component. -/
theorem c143_measurements {c : Config} (h0 : 0 ≤ c.first) (hn : (stems c).Nodup) {d : Json} (hd : createBatchDescriptor c false = .ok d)
    {k : ℕ} {op : Json} (hk : (Spec.operations d)[k]? = some op)
    (hf : Spec.function op = some "eustace.analysis.advanced_standard.examples.moving_climatology.solve")
    (hp : Spec.flag "compute_prior_sample" op = some 0) {m : ℤ} {S s : String} (hm : (m, S, s) ∈ storages c)
    (hc : Spec.component op = some m) :
    ∃ n, Spec.measurementRead S op = some n ∧ Spec.latest (Spec.measurementWritten S) ((Spec.operations d).take k) = some n := by
  have h := (descriptor_fresh h0 hn hd hk).measurements hf hp
  revert hc
  refine storages_cases (P := fun m S s => Spec.component op = some m →
    ∃ n, Spec.measurementRead S op = some n ∧ Spec.latest (Spec.measurementWritten S) ((Spec.operations d).take k) = some n) hm ?_ ?_ ?_
  · intro hc
    have := h 0 (by omega) hc
    rw [latestOf_map] at this
    exact this
  · intro hc
    have := h 1 (by omega) hc
    rw [latestOf_map] at this
    exact this
  · intro hc
    have := h 2 (by omega) hc
    rw [latestOf_map] at this
    exact this

/-- **C143.** The operation which computes grids is given, for all three components, the state, the sample and the sample of the prior
written last in the descriptor. -/
theorem c143_gridding {c : Config} (h0 : 0 ≤ c.first) (hn : (stems c).Nodup) {d : Json} (hd : createBatchDescriptor c false = .ok d)
    {k : ℕ} {op : Json} (hk : (Spec.operations d)[k]? = some op)
    (hf : Spec.function op = some "eustace.analysis.advanced_standard.examples.moving_climatology.output_grid_batch")
    {m : ℤ} {S s : String} (hm : (m, S, s) ∈ storages c) :
    (∃ n, Spec.stateRead S op = some n ∧ Spec.latest (Spec.stateWritten S) ((Spec.operations d).take k) = some n) ∧
    (∃ n, Spec.sampleRead S op = some n ∧ Spec.latest (Spec.sampleWritten S) ((Spec.operations d).take k) = some n) ∧
    (∃ n, Spec.priorRead S op = some n ∧ Spec.latest (Spec.priorWritten S) ((Spec.operations d).take k) = some n) := by
  have h := (descriptor_fresh h0 hn hd hk).gridding hf
  refine storages_cases (P := fun m S s =>
    (∃ n, Spec.stateRead S op = some n ∧ Spec.latest (Spec.stateWritten S) ((Spec.operations d).take k) = some n) ∧
    (∃ n, Spec.sampleRead S op = some n ∧ Spec.latest (Spec.sampleWritten S) ((Spec.operations d).take k) = some n) ∧
    (∃ n, Spec.priorRead S op = some n ∧ Spec.latest (Spec.priorWritten S) ((Spec.operations d).take k) = some n)) hm ?_ ?_ ?_
  · have := h 0 (by omega)
    rw [latestOf_map, latestOf_map, latestOf_map] at this
    exact this
  · have := h 1 (by omega)
    rw [latestOf_map, latestOf_map, latestOf_map] at this
    exact this
  · have := h 2 (by omega)
    rw [latestOf_map, latestOf_map, latestOf_map] at this
    exact this

end Verif.Eustace.Descriptor
