import Verif.Eustace.Descriptor.Fresh

/-! C144: operations call existing functions with the arguments which these have, and name files for all that is written. -/

namespace Verif.Eustace.Descriptor
open Verif

/-- A function is called with all of its parameters, each of them once. -/
def Callable (x : Facts) : Prop := ∃ f ps, x.function = some f ∧ (f, ps) ∈ Spec.parameters ∧ x.arguments.Perm ps

/-- A storage object is made with parameters of its class, each at most once. -/
def Storable (spacetime : Bool) (s : StorageFacts) : Prop :=
  ∃ cls ps, s.cls = some cls ∧ (cls, spacetime, ps) ∈ Spec.storageParameters ∧ (∀ a ∈ s.arguments, a ∈ ps) ∧ s.arguments.Nodup

/-- The files which a storage object of the component of the operation is given for writing are those which are written. -/
def Written (f : String) (sample prior : ℤ) (s : StorageFacts) : Prop :=
  (s.stateWritten ≠ none ↔ Spec.writesState f prior) ∧ (s.sampleWritten ≠ none ↔ Spec.writesSample f sample prior) ∧
  (s.priorWritten ≠ none ↔ Spec.writesPrior f sample prior) ∧ (s.measurementWritten ≠ none ↔ Spec.writesMeasurement f)

/-- Nothing is written for another component. -/
def Unwritten (s : StorageFacts) : Prop :=
  s.stateWritten = none ∧ s.sampleWritten = none ∧ s.priorWritten = none ∧ s.measurementWritten = none

/-- Samples are computed if there is a size for them, and the other way round; the output uses no more than there are. -/
def Sized (x : Facts) : Prop :=
  ∃ f sample prior size, x.function = some f ∧ x.sample = some sample ∧ x.prior = some prior ∧ x.size = some size ∧ x.uncertainties = some 0 ∧
    (f ≠ fullName "output_grid_batch" → (size = 30 ∧ (sample = 1 ∨ prior = 1)) ∨ (size = 0 ∧ sample = 0 ∧ prior = 0)) ∧
    (f = fullName "output_grid_batch" → size = 10)

/-- All that is claimed of an operation. -/
structure Sound (x : Facts) : Prop where
  callable : Callable x
  climatology : Storable true x.climatology
  largeScale : Storable true x.largeScale
  localScale : Storable false x.localScale
  written : ∀ f sample prior, x.function = some f → x.sample = some sample → x.prior = some prior → ∀ m : ℕ, m < 3 →
    (x.component = some (m : ℤ) → Written f sample prior (sel m x)) ∧ (x.component ≠ some (m : ℤ) → Unwritten (sel m x))
  sized : Sized x

/-- The four functions. -/
theorem functions_distinct :
    ("eustace.analysis.advanced_standard.examples.moving_climatology.solve" ≠ "eustace.analysis.advanced_standard.examples.moving_climatology.process_inputs") ∧
    ("eustace.analysis.advanced_standard.examples.moving_climatology.solve" ≠ "eustace.analysis.advanced_standard.examples.moving_climatology.process_inputs_batch") ∧
    ("eustace.analysis.advanced_standard.examples.moving_climatology.process_inputs" ≠ "eustace.analysis.advanced_standard.examples.moving_climatology.process_inputs_batch") := by
  decide +kernel

theorem written_measurement {s : StorageFacts} {n : String} {sample prior : ℤ} (h : s.stateWritten = none) (h' : s.sampleWritten = none)
    (h'' : s.priorWritten = none) (hm : s.measurementWritten = some n) : Written (fullName "process_inputs_batch") sample prior s := by
  obtain ⟨h1, h2, h3⟩ := functions_distinct
  have hf : fullName "process_inputs_batch" = "eustace.analysis.advanced_standard.examples.moving_climatology.process_inputs_batch" := rfl
  simp [Written, h, h', h'', hm, Spec.writesState, Spec.writesSample, Spec.writesPrior, Spec.writesMeasurement, hf]

theorem written_solution {s : StorageFacts} {n : String} {sample : ℤ} (h : s.stateWritten = some n) (h' : s.sampleWritten ≠ none ↔ sample ≠ 0)
    (h'' : s.priorWritten = none) (hm : s.measurementWritten = none) : Written (fullName "solve") sample 0 s := by
  have hf : fullName "solve" = "eustace.analysis.advanced_standard.examples.moving_climatology.solve" := rfl
  refine ⟨?_, ?_, ?_, ?_⟩
  · simp [h, Spec.writesState, hf]
  · rw [h']; simp [Spec.writesSample, Spec.writesState, hf]
  · simp [h'', Spec.writesPrior]
  · simp [hm, Spec.writesMeasurement, hf]

theorem written_prior {s : StorageFacts} {n : String} (h : s.stateWritten = none) (h' : s.sampleWritten = none)
    (h'' : s.priorWritten = some n) (hm : s.measurementWritten = none) : Written (fullName "solve") 0 1 s := by
  have hf : fullName "solve" = "eustace.analysis.advanced_standard.examples.moving_climatology.solve" := rfl
  refine ⟨?_, ?_, ?_, ?_⟩
  · simp [h, Spec.writesState, hf]
  · simp [h', Spec.writesSample]
  · simp [h'', Spec.writesPrior, hf]
  · simp [hm, Spec.writesMeasurement, hf]

theorem written_local {s : StorageFacts} {n : String} {b : ℤ} (h : s.stateWritten = some n) (h' : s.sampleWritten ≠ none ↔ b ≠ 0)
    (h'' : s.priorWritten ≠ none ↔ b ≠ 0) (hm : s.measurementWritten = none) : Written (fullName "process_inputs") b b s := by
  have hf : fullName "process_inputs" = "eustace.analysis.advanced_standard.examples.moving_climatology.process_inputs" := rfl
  refine ⟨?_, ?_, ?_, ?_⟩
  · simp [h, Spec.writesState, hf]
  · rw [h']; simp [Spec.writesSample, Spec.writesState, hf]
  · rw [h'']; simp [Spec.writesPrior, hf]
  · simp [hm, Spec.writesMeasurement, hf]

/-- Classes of storage and their parameters. -/
theorem storable {spacetime : Bool} {s : StorageFacts} {cls : String} {ps : List String} (h : s.cls = some cls)
    (hp : (cls, spacetime, ps) ∈ Spec.storageParameters) (ha : s.arguments.all (fun a => ps.contains a) = true) (hn : s.arguments.Nodup) :
    Storable spacetime s :=
  ⟨cls, ps, h, hp, fun a hm => by simpa using List.all_eq_true.1 ha a hm, hn⟩

theorem storable_files0 {s : StorageFacts} (h : s.cls = some spaceTimeFiles)
    (ha : s.arguments.all (fun a => (Spec.storageParameters[0]).2.2.contains a) = true) (hn : s.arguments.Nodup) : Storable true s :=
  storable h (List.getElem_mem (by decide : 0 < Spec.storageParameters.length)) ha hn

theorem storable_files1 {s : StorageFacts} (h : s.cls = some spatialFiles)
    (ha : s.arguments.all (fun a => (Spec.storageParameters[1]).2.2.contains a) = true) (hn : s.arguments.Nodup) : Storable false s :=
  storable h (List.getElem_mem (by decide : 1 < Spec.storageParameters.length)) ha hn

theorem storable_files2 {s : StorageFacts} (h : s.cls = some spatialIndexed)
    (ha : s.arguments.all (fun a => (Spec.storageParameters[2]).2.2.contains a) = true) (hn : s.arguments.Nodup) : Storable false s :=
  storable h (List.getElem_mem (by decide : 2 < Spec.storageParameters.length)) ha hn

theorem storable_files3 {s : StorageFacts} (h : s.cls = some spaceTimeBatched)
    (ha : s.arguments.all (fun a => (Spec.storageParameters[3]).2.2.contains a) = true) (hn : s.arguments.Nodup) : Storable true s :=
  storable h (List.getElem_mem (by decide : 3 < Spec.storageParameters.length)) ha hn

theorem callable {x : Facts} {k : ℕ} (hk : k < Spec.parameters.length) (hf : x.function = some (Spec.parameters[k]).1)
    (ha : x.arguments.isPerm (Spec.parameters[k]).2 = true) : Callable x :=
  ⟨_, _, hf, List.getElem_mem hk, List.isPerm_iff.1 ha⟩

/-- The claims about writing for one component out of three. -/
theorem written_of {x : Facts} {f : String} {sample prior : ℤ} {k : ℕ} (hk : k < 3) (hf : x.function = some f) (hs : x.sample = some sample)
    (hp : x.prior = some prior) (hc : x.component = some (k : ℤ)) (hw : Written f sample prior (sel k x))
    (hu : ∀ m < 3, m ≠ k → Unwritten (sel m x)) :
    ∀ f sample prior, x.function = some f → x.sample = some sample → x.prior = some prior → ∀ m : ℕ, m < 3 →
      (x.component = some (m : ℤ) → Written f sample prior (sel m x)) ∧ (x.component ≠ some (m : ℤ) → Unwritten (sel m x)) := by
  intro f' sample' prior' hf' hs' hp' m hm
  rw [hf, Option.some.injEq] at hf'
  rw [hs, Option.some.injEq] at hs'
  rw [hp, Option.some.injEq] at hp'
  subst hf' hs' hp'
  rw [hc]
  constructor
  · intro h
    have : k = m := by simpa using h
    subst this
    exact hw
  · intro h
    exact hu m hm fun e => h (by rw [e])

theorem unwritten_but {P : ℕ → Prop} {k : ℕ} (h : ∀ m < 3, P m ∨ m = k) : ∀ m < 3, m ≠ k → P m := fun m hm hne => (h m hm).resolve_right hne

theorem zero_size {x : Facts} {f : String} (hf : x.function = some f) (hne : f ≠ fullName "output_grid_batch") (hs : x.sample = some 0)
    (hp : x.prior = some 0) (hz : x.size = some 0) (hu : x.uncertainties = some 0) : Sized x :=
  ⟨f, 0, 0, 0, hf, hs, hp, hz, hu, fun _ => .inr ⟨rfl, rfl, rfl⟩, fun h => absurd h hne⟩

theorem full_size {x : Facts} {f : String} {s p : ℤ} (hf : x.function = some f) (hne : f ≠ fullName "output_grid_batch") (hs : x.sample = some s)
    (hp : x.prior = some p) (hz : x.size = some 30) (hu : x.uncertainties = some 0) (h : s = 1 ∨ p = 1) : Sized x :=
  ⟨f, s, p, 30, hf, hs, hp, hz, hu, fun _ => .inl ⟨rfl, h⟩, fun h => absurd h hne⟩

/-- Tactic for lists of arguments of an operation. -/
macro "listed" : tactic => `(tactic| (
  dsimp only [measurement0_zeroFacts, measurement0_posFacts, measurement1_zeroFacts, measurement1_posFacts,
    solution0_plainFacts, solution0_gridFacts, solution1_plainFacts, solution1_gridFacts, prior0Facts, prior1Facts, local_plainFacts,
    local_gridFacts, gridFacts]
  decide +kernel))

theorem measurement0_sound (c : Config) (i : ℤ) : Sound (measurement0Facts c i) := by
  obtain ⟨n1, n2, n3, n4, n5, n6⟩ := functions_ne
  rw [measurement0Facts]
  split
  · exact {
      callable := callable (k := 1) (by decide) rfl (by listed)
      climatology := storable_files3 rfl (by listed) (by listed)
      largeScale := storable_files3 rfl (by listed) (by listed)
      localScale := storable_files2 rfl (by listed) (by listed)
      written := written_of (k := 0) (by omega) rfl rfl rfl rfl (written_measurement rfl rfl rfl rfl)
        (unwritten_but (below_three (.inr rfl) (.inl ⟨rfl, rfl, rfl, rfl⟩) (.inl ⟨rfl, rfl, rfl, rfl⟩)))
      sized := zero_size rfl n3 rfl rfl rfl rfl }
  · exact {
      callable := callable (k := 1) (by decide) rfl (by listed)
      climatology := storable_files3 rfl (by listed) (by listed)
      largeScale := storable_files3 rfl (by listed) (by listed)
      localScale := storable_files2 rfl (by listed) (by listed)
      written := written_of (k := 0) (by omega) rfl rfl rfl rfl (written_measurement rfl rfl rfl rfl)
        (unwritten_but (below_three (.inr rfl) (.inl ⟨rfl, rfl, rfl, rfl⟩) (.inl ⟨rfl, rfl, rfl, rfl⟩)))
      sized := zero_size rfl n3 rfl rfl rfl rfl }

theorem measurement1_sound (c : Config) (i : ℤ) : Sound (measurement1Facts c i) := by
  obtain ⟨n1, n2, n3, n4, n5, n6⟩ := functions_ne
  rw [measurement1Facts]
  split
  · exact {
      callable := callable (k := 1) (by decide) rfl (by listed)
      climatology := storable_files3 rfl (by listed) (by listed)
      largeScale := storable_files3 rfl (by listed) (by listed)
      localScale := storable_files2 rfl (by listed) (by listed)
      written := written_of (k := 1) (by omega) rfl rfl rfl rfl (written_measurement rfl rfl rfl rfl)
        (unwritten_but (below_three (.inl ⟨rfl, rfl, rfl, rfl⟩) (.inr rfl) (.inl ⟨rfl, rfl, rfl, rfl⟩)))
      sized := zero_size rfl n3 rfl rfl rfl rfl }
  · exact {
      callable := callable (k := 1) (by decide) rfl (by listed)
      climatology := storable_files3 rfl (by listed) (by listed)
      largeScale := storable_files3 rfl (by listed) (by listed)
      localScale := storable_files2 rfl (by listed) (by listed)
      written := written_of (k := 1) (by omega) rfl rfl rfl rfl (written_measurement rfl rfl rfl rfl)
        (unwritten_but (below_three (.inl ⟨rfl, rfl, rfl, rfl⟩) (.inr rfl) (.inl ⟨rfl, rfl, rfl, rfl⟩)))
      sized := zero_size rfl n3 rfl rfl rfl rfl }

theorem iteration_sound (c : Config) (i : ℤ) : ∀ x ∈ iterationFacts c i, Sound x := by
  obtain ⟨n1, n2, n3, n4, n5, n6⟩ := functions_ne
  rw [iterationFacts]
  split
  · intro x hx
    simp only [griddedFacts, List.mem_cons, List.not_mem_nil, or_false] at hx
    rcases hx with rfl | rfl | rfl | rfl | rfl | rfl | rfl | rfl
    · exact measurement0_sound c i
    · exact {
        callable := callable (k := 2) (by decide) rfl (by listed)
        climatology := storable_files0 rfl (by listed) (by listed)
        largeScale := storable_files0 rfl (by listed) (by listed)
        localScale := storable_files1 rfl (by listed) (by listed)
        written := written_of (k := 0) (by omega) rfl rfl rfl rfl (written_solution rfl (by simp [sel, solution0_gridFacts]) rfl rfl)
          (unwritten_but (below_three (.inr rfl) (.inl ⟨rfl, rfl, rfl, rfl⟩) (.inl ⟨rfl, rfl, rfl, rfl⟩)))
        sized := full_size rfl n6 rfl rfl rfl rfl (.inl rfl) }
    · exact {
        callable := callable (k := 2) (by decide) rfl (by listed)
        climatology := storable_files0 rfl (by listed) (by listed)
        largeScale := storable_files0 rfl (by listed) (by listed)
        localScale := storable_files1 rfl (by listed) (by listed)
        written := written_of (k := 0) (by omega) rfl rfl rfl rfl (written_prior rfl rfl rfl rfl)
          (unwritten_but (below_three (.inr rfl) (.inl ⟨rfl, rfl, rfl, rfl⟩) (.inl ⟨rfl, rfl, rfl, rfl⟩)))
        sized := full_size rfl n6 rfl rfl rfl rfl (.inr rfl) }
    · exact measurement1_sound c i
    · exact {
        callable := callable (k := 2) (by decide) rfl (by listed)
        climatology := storable_files0 rfl (by listed) (by listed)
        largeScale := storable_files0 rfl (by listed) (by listed)
        localScale := storable_files1 rfl (by listed) (by listed)
        written := written_of (k := 1) (by omega) rfl rfl rfl rfl (written_solution rfl (by simp [sel, solution1_gridFacts]) rfl rfl)
          (unwritten_but (below_three (.inl ⟨rfl, rfl, rfl, rfl⟩) (.inr rfl) (.inl ⟨rfl, rfl, rfl, rfl⟩)))
        sized := full_size rfl n6 rfl rfl rfl rfl (.inl rfl) }
    · exact {
        callable := callable (k := 2) (by decide) rfl (by listed)
        climatology := storable_files0 rfl (by listed) (by listed)
        largeScale := storable_files0 rfl (by listed) (by listed)
        localScale := storable_files1 rfl (by listed) (by listed)
        written := written_of (k := 1) (by omega) rfl rfl rfl rfl (written_prior rfl rfl rfl rfl)
          (unwritten_but (below_three (.inl ⟨rfl, rfl, rfl, rfl⟩) (.inr rfl) (.inl ⟨rfl, rfl, rfl, rfl⟩)))
        sized := full_size rfl n6 rfl rfl rfl rfl (.inr rfl) }
    · exact {
        callable := callable (k := 0) (by decide) rfl (by listed)
        climatology := storable_files0 rfl (by listed) (by listed)
        largeScale := storable_files0 rfl (by listed) (by listed)
        localScale := storable_files1 rfl (by listed) (by listed)
        written := written_of (k := 2) (by omega) rfl rfl rfl rfl
          (written_local rfl (by simp [sel, local_gridFacts]) (by simp [sel, local_gridFacts]) rfl)
          (unwritten_but (below_three (.inl ⟨rfl, rfl, rfl, rfl⟩) (.inl ⟨rfl, rfl, rfl, rfl⟩) (.inr rfl)))
        sized := full_size rfl n5 rfl rfl rfl rfl (.inl rfl) }
    · exact {
        callable := callable (k := 3) (by decide) rfl (by listed)
        climatology := storable_files3 rfl (by listed) (by listed)
        largeScale := storable_files3 rfl (by listed) (by listed)
        localScale := storable_files2 rfl (by listed) (by listed)
        written := fun _ _ _ _ _ _ => below_three ⟨fun h => (nomatch h), fun _ => ⟨rfl, rfl, rfl, rfl⟩⟩
          ⟨fun h => (nomatch h), fun _ => ⟨rfl, rfl, rfl, rfl⟩⟩ ⟨fun h => (nomatch h), fun _ => ⟨rfl, rfl, rfl, rfl⟩⟩
        sized := ⟨_, 0, 0, 10, rfl, rfl, rfl, rfl, rfl, fun h => absurd rfl h, fun _ => rfl⟩ }
  · intro x hx
    simp only [plainFacts, List.mem_cons, List.not_mem_nil, or_false] at hx
    rcases hx with rfl | rfl | rfl | rfl | rfl
    · exact measurement0_sound c i
    · exact {
        callable := callable (k := 2) (by decide) rfl (by listed)
        climatology := storable_files0 rfl (by listed) (by listed)
        largeScale := storable_files0 rfl (by listed) (by listed)
        localScale := storable_files1 rfl (by listed) (by listed)
        written := written_of (k := 0) (by omega) rfl rfl rfl rfl (written_solution rfl (by simp [sel, solution0_plainFacts]) rfl rfl)
          (unwritten_but (below_three (.inr rfl) (.inl ⟨rfl, rfl, rfl, rfl⟩) (.inl ⟨rfl, rfl, rfl, rfl⟩)))
        sized := zero_size rfl n6 rfl rfl rfl rfl }
    · exact measurement1_sound c i
    · exact {
        callable := callable (k := 2) (by decide) rfl (by listed)
        climatology := storable_files0 rfl (by listed) (by listed)
        largeScale := storable_files0 rfl (by listed) (by listed)
        localScale := storable_files1 rfl (by listed) (by listed)
        written := written_of (k := 1) (by omega) rfl rfl rfl rfl (written_solution rfl (by simp [sel, solution1_plainFacts]) rfl rfl)
          (unwritten_but (below_three (.inl ⟨rfl, rfl, rfl, rfl⟩) (.inr rfl) (.inl ⟨rfl, rfl, rfl, rfl⟩)))
        sized := zero_size rfl n6 rfl rfl rfl rfl }
    · exact {
        callable := callable (k := 0) (by decide) rfl (by listed)
        climatology := storable_files0 rfl (by listed) (by listed)
        largeScale := storable_files0 rfl (by listed) (by listed)
        localScale := storable_files1 rfl (by listed) (by listed)
        written := written_of (k := 2) (by omega) rfl rfl rfl rfl
          (written_local rfl (by simp [sel, local_plainFacts]) (by simp [sel, local_plainFacts]) rfl)
          (unwritten_but (below_three (.inl ⟨rfl, rfl, rfl, rfl⟩) (.inl ⟨rfl, rfl, rfl, rfl⟩) (.inr rfl)))
        sized := zero_size rfl n5 rfl rfl rfl rfl }

theorem descriptor_sound {c : Config} (h0 : 0 ≤ c.first) (hn : (stems c).Nodup) {d : Json} (hd : createBatchDescriptor c false = .ok d)
    {op : Json} (ho : op ∈ Spec.operations d) : Sound (facts op) :=
  descriptor_all h0 hn hd (fun i _ => iteration_sound c i) ho

/-- **C144.** Every operation of a descriptor runs one of four existing functions, and gives it each of its parameters, once, and nothing
else. -/
theorem c144_arguments {c : Config} (h0 : 0 ≤ c.first) (hn : (stems c).Nodup) {d : Json} (hd : createBatchDescriptor c false = .ok d)
    {op : Json} (ho : op ∈ Spec.operations d) :
    ∃ f ps, Spec.function op = some f ∧ (f, ps) ∈ Spec.parameters ∧ (Spec.arguments op).Perm ps :=
  (descriptor_sound h0 hn hd ho).callable

/-- **C144.** Every operation of a descriptor gives storage objects of the right kind for the three components, made with parameters
which their classes have. -/
theorem c144_storage {c : Config} (h0 : 0 ≤ c.first) (hn : (stems c).Nodup) {d : Json} (hd : createBatchDescriptor c false = .ok d)
    {op : Json} (ho : op ∈ Spec.operations d) {m : ℤ} {S s : String} (hm : (m, S, s) ∈ storages c) :
    ∃ cls ps, Spec.storageClass S op = some cls ∧ (cls, decide (m ≠ 2), ps) ∈ Spec.storageParameters ∧
      (∀ a ∈ Spec.storageArguments S op, a ∈ ps) ∧ (Spec.storageArguments S op).Nodup := by
  have h := descriptor_sound h0 hn hd ho
  exact storages_cases (P := fun m S s => ∃ cls ps, Spec.storageClass S op = some cls ∧ (cls, decide (m ≠ 2), ps) ∈ Spec.storageParameters ∧
      (∀ a ∈ Spec.storageArguments S op, a ∈ ps) ∧ (Spec.storageArguments S op).Nodup) hm h.climatology h.largeScale h.localScale

/-- **C144.** The storage object of the component which an operation handles is given files for exactly that which the function writes:
state, sample, sample of the prior, measurement updates. -/
theorem c144_written {c : Config} (h0 : 0 ≤ c.first) (hn : (stems c).Nodup) {d : Json} (hd : createBatchDescriptor c false = .ok d)
    {op : Json} (ho : op ∈ Spec.operations d) {f : String} {sample prior : ℤ} (hf : Spec.function op = some f)
    (hs : Spec.flag "compute_sample" op = some sample) (hp : Spec.flag "compute_prior_sample" op = some prior)
    {m : ℤ} {S s : String} (hm : (m, S, s) ∈ storages c) (hc : Spec.component op = some m) :
    (Spec.stateWritten S op ≠ none ↔ Spec.writesState f prior) ∧ (Spec.sampleWritten S op ≠ none ↔ Spec.writesSample f sample prior) ∧
    (Spec.priorWritten S op ≠ none ↔ Spec.writesPrior f sample prior) ∧ (Spec.measurementWritten S op ≠ none ↔ Spec.writesMeasurement f) := by
  have h := (descriptor_sound h0 hn hd ho).written f sample prior hf hs hp
  revert hc
  exact storages_cases (P := fun m S s => Spec.component op = some m →
    (Spec.stateWritten S op ≠ none ↔ Spec.writesState f prior) ∧ (Spec.sampleWritten S op ≠ none ↔ Spec.writesSample f sample prior) ∧
    (Spec.priorWritten S op ≠ none ↔ Spec.writesPrior f sample prior) ∧ (Spec.measurementWritten S op ≠ none ↔ Spec.writesMeasurement f)) hm
    (h 0 (by omega)).1 (h 1 (by omega)).1 (h 2 (by omega)).1

/-- **C144.** The storage objects of the other components are given no files to write to. -/
theorem c144_unwritten {c : Config} (h0 : 0 ≤ c.first) (hn : (stems c).Nodup) {d : Json} (hd : createBatchDescriptor c false = .ok d)
    {op : Json} (ho : op ∈ Spec.operations d) {m : ℤ} {S s : String} (hm : (m, S, s) ∈ storages c) (hc : Spec.component op ≠ some m) :
    Spec.stateWritten S op = none ∧ Spec.sampleWritten S op = none ∧ Spec.priorWritten S op = none ∧ Spec.measurementWritten S op = none := by
  have hs := descriptor_sound h0 hn hd ho
  obtain ⟨f, sample, prior, size, hf, hsa, hp, -⟩ := hs.sized
  have h := hs.written f sample prior hf hsa hp
  revert hc
  exact storages_cases (P := fun m S s => Spec.component op ≠ some m →
    Spec.stateWritten S op = none ∧ Spec.sampleWritten S op = none ∧ Spec.priorWritten S op = none ∧ Spec.measurementWritten S op = none) hm
    (h 0 (by omega)).2 (h 1 (by omega)).2 (h 2 (by omega)).2

/-- **C144.** Whenever samples are computed there are thirty of them, and gridding asks for ten; uncertainties are not computed in any
other way. -/
theorem c144_sizes {c : Config} (h0 : 0 ≤ c.first) (hn : (stems c).Nodup) {d : Json} (hd : createBatchDescriptor c false = .ok d)
    {op : Json} (ho : op ∈ Spec.operations d) :
    ∃ f sample prior size, Spec.function op = some f ∧ Spec.flag "compute_sample" op = some sample ∧
      Spec.flag "compute_prior_sample" op = some prior ∧ Spec.flag "sample_size" op = some size ∧ Spec.flag "compute_uncertainties" op = some 0 ∧
      (f ≠ "eustace.analysis.advanced_standard.examples.moving_climatology.output_grid_batch" →
        (size = 30 ∧ (sample = 1 ∨ prior = 1)) ∨ (size = 0 ∧ sample = 0 ∧ prior = 0)) ∧
      (f = "eustace.analysis.advanced_standard.examples.moving_climatology.output_grid_batch" → size = 10) :=
  (descriptor_sound h0 hn hd ho).sized

end Verif.Eustace.Descriptor
