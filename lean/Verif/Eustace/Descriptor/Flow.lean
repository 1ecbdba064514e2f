import Verif.Eustace.Descriptor.Runs

/-! C142: where the data come from which an operation reads. -/

namespace Verif.Eustace.Descriptor
open Verif

/-- A name which an operation may read when `prev` come before it. -/
def Available (c : Config) (prev : List Facts) (n : String) : Prop :=
  n ∈ Spec.observations ∨ (∃ y ∈ prev, n ∈ y.writes) ∨
  (0 < c.first ∧ ∃ s ∈ [c.solutionClimatologyName, c.solutionLargeScaleName, c.solutionLocalScaleName], n = Spec.numberedName s (c.first - 1))

theorem sources_available : ∀ n ∈ sourceNames, n ∈ Spec.observations := by
  have : sourceNames.all (fun n => Spec.observations.contains n) = true := by decide +kernel
  intro n hn
  have h := List.all_eq_true.1 this n hn
  simpa using h

/-- All that an iteration may read from the one before. -/
def Ready (c : Config) (i : ℤ) (prev : List Facts) : Prop :=
  ∀ s ∈ [c.solutionClimatologyName, c.solutionLargeScaleName, c.solutionLocalScaleName], i ≠ 0 → Available c prev (numbered s (i - 1))

theorem Available.mono {c : Config} {prev : List Facts} {n : String} (h : Available c prev n) (l : List Facts) : Available c (prev ++ l) n := by
  rcases h with h | ⟨y, hy, h⟩ | h
  · exact .inl h
  · exact .inr (.inl ⟨y, by simp [hy], h⟩)
  · exact .inr (.inr h)

theorem Ready.mono {c : Config} {i : ℤ} {prev : List Facts} (h : Ready c i prev) (l : List Facts) : Ready c i (prev ++ l) :=
  fun s hs hi => (h s hs hi).mono l

theorem available_sources {c : Config} {prev : List Facts} : ∀ n ∈ sourceNames, Available c prev n :=
  fun n hn => .inl (sources_available n hn)

theorem available_written {c : Config} {prev : List Facts} {y : Facts} (hy : y ∈ prev) {n : String} (h : n ∈ y.writes) : Available c prev n :=
  .inr (.inl ⟨y, hy, h⟩)

theorem measurement0_available {c : Config} {i : ℤ} {prev : List Facts} (h : Ready c i prev) :
    ∀ n ∈ (measurement0Facts c i).reads, Available c prev n := by
  by_cases hi : i = 0
  · rw [measurement0Facts, if_pos hi]
    exact available_sources
  · rw [measurement0Facts, if_neg hi]
    intro n hn
    rcases List.mem_append.1 hn with hn | hn
    · simp only [List.mem_cons, List.not_mem_nil, or_false] at hn
      rcases hn with rfl | rfl | rfl <;> exact h _ (by simp) hi
    · exact available_sources n hn

theorem measurement1_available {c : Config} {i : ℤ} {prev : List Facts} (h : Ready c i prev)
    (h0 : Available c prev (numbered c.solutionClimatologyName i)) : ∀ n ∈ (measurement1Facts c i).reads, Available c prev n := by
  by_cases hi : i = 0
  · rw [measurement1Facts, if_pos hi]
    subst hi
    intro n hn
    rcases List.mem_append.1 hn with hn | hn
    · rw [List.mem_singleton.1 hn]
      exact h0
    · exact available_sources n hn
  · rw [measurement1Facts, if_neg hi]
    intro n hn
    rcases List.mem_append.1 hn with hn | hn
    · simp only [List.mem_cons, List.not_mem_nil, or_false] at hn
      rcases hn with rfl | rfl | rfl
      · exact h0
      · exact h _ (by simp) hi
      · exact h _ (by simp) hi
    · exact available_sources n hn

theorem measurement0_writes (c : Config) (i : ℤ) : (measurement0Facts c i).writes = [numbered c.measurementClimatologyName i] := by
  by_cases hi : i = 0
  · rw [measurement0Facts, if_pos hi, hi]; rfl
  · rw [measurement0Facts, if_neg hi]; rfl

theorem measurement1_writes (c : Config) (i : ℤ) : (measurement1Facts c i).writes = [numbered c.measurementLargeScaleName i] := by
  by_cases hi : i = 0
  · rw [measurement1Facts, if_pos hi, hi]; rfl
  · rw [measurement1Facts, if_neg hi]; rfl

/-- `Available` for all that an operation reads. -/
def Supplied (c : Config) (prev : List Facts) (x : Facts) : Prop := ∀ n ∈ x.reads, Available c prev n

theorem iteration_supplied {c : Config} {i : ℤ} {prev : List Facts} (h : Ready c i prev) :
    Chain (Supplied c) prev (iterationFacts c i) ∧ Ready c (i + 1) (prev ++ iterationFacts c i) := by
  have hm : ∀ l : List Facts, Ready c i (prev ++ l) := fun l => h.mono l
  by_cases hg : c.gridNow i
  · rw [iterationFacts, if_pos hg, griddedFacts]
    constructor
    · refine .cons (measurement0_available h) (.cons ?_ (.cons ?_ (.cons (measurement1_available ?_ ?_) (.cons ?_ (.cons ?_ (.cons ?_ (.cons ?_ .nil)))))))
      · intro n hn
        rw [List.mem_singleton.1 hn]
        exact available_written (y := measurement0Facts c i) (by simp) (by rw [measurement0_writes]; simp)
      · intro n hn
        exact absurd hn (by simp [prior0Facts])
      · simpa using hm _
      · exact available_written (y := solution0_gridFacts c i c.solutionClimatologyCommand c.solutionClimatologyName c.measurementClimatologyName)
          (by simp) (by simp [solution0_gridFacts])
      · intro n hn
        rw [List.mem_singleton.1 hn]
        exact available_written (y := measurement1Facts c i) (by simp) (by rw [measurement1_writes]; simp)
      · intro n hn
        exact absurd hn (by simp [prior1Facts])
      · intro n hn
        rcases List.mem_append.1 hn with hn | hn
        · simp only [List.mem_cons, List.not_mem_nil, or_false] at hn
          rcases hn with rfl | rfl
          · exact available_written (y := solution0_gridFacts c i c.solutionClimatologyCommand c.solutionClimatologyName c.measurementClimatologyName)
              (by simp) (by simp [solution0_gridFacts])
          · exact available_written (y := solution1_gridFacts c i c.solutionLargeScaleCommand c.solutionLargeScaleName c.measurementLargeScaleName)
              (by simp) (by simp [solution1_gridFacts])
        · exact available_sources n hn
      · intro n hn
        simp only [gridFacts, List.mem_cons, List.not_mem_nil, or_false] at hn
        rcases hn with rfl | rfl | rfl | rfl | rfl | rfl | rfl | rfl | rfl
        · exact available_written (y := solution0_gridFacts c i c.solutionClimatologyCommand c.solutionClimatologyName c.measurementClimatologyName)
              (by simp) (by simp [solution0_gridFacts])
        · exact available_written (y := solution0_gridFacts c i c.solutionClimatologyCommand c.solutionClimatologyName c.measurementClimatologyName)
              (by simp) (by simp [solution0_gridFacts])
        · exact available_written (y := prior0Facts c i c.solutionClimatologyCommand c.solutionClimatologyName) (by simp) (by simp [prior0Facts])
        · exact available_written (y := solution1_gridFacts c i c.solutionLargeScaleCommand c.solutionLargeScaleName c.measurementLargeScaleName)
              (by simp) (by simp [solution1_gridFacts])
        · exact available_written (y := solution1_gridFacts c i c.solutionLargeScaleCommand c.solutionLargeScaleName c.measurementLargeScaleName)
              (by simp) (by simp [solution1_gridFacts])
        · exact available_written (y := prior1Facts c i c.solutionLargeScaleCommand c.solutionLargeScaleName) (by simp) (by simp [prior1Facts])
        · exact available_written (y := local_gridFacts c i) (by simp) (by simp [local_gridFacts])
        · exact available_written (y := local_gridFacts c i) (by simp) (by simp [local_gridFacts])
        · exact available_written (y := local_gridFacts c i) (by simp) (by simp [local_gridFacts])
    · intro s hs _
      rw [show i + 1 - 1 = i by omega]
      simp only [List.mem_cons, List.not_mem_nil, or_false] at hs
      rcases hs with rfl | rfl | rfl
      · exact available_written (y := solution0_gridFacts c i c.solutionClimatologyCommand c.solutionClimatologyName c.measurementClimatologyName)
              (by simp) (by simp [solution0_gridFacts])
      · exact available_written (y := solution1_gridFacts c i c.solutionLargeScaleCommand c.solutionLargeScaleName c.measurementLargeScaleName)
              (by simp) (by simp [solution1_gridFacts])
      · exact available_written (y := local_gridFacts c i) (by simp) (by simp [local_gridFacts])
  · rw [iterationFacts, if_neg hg, plainFacts]
    constructor
    · refine .cons (measurement0_available h) (.cons ?_ (.cons (measurement1_available ?_ ?_) (.cons ?_ (.cons ?_ .nil))))
      · intro n hn
        rw [List.mem_singleton.1 hn]
        exact available_written (y := measurement0Facts c i) (by simp) (by rw [measurement0_writes]; simp)
      · simpa using hm _
      · exact available_written (y := solution0_plainFacts c i c.solutionClimatologyCommand c.solutionClimatologyName c.measurementClimatologyName)
          (by simp) (by simp [solution0_plainFacts])
      · intro n hn
        rw [List.mem_singleton.1 hn]
        exact available_written (y := measurement1Facts c i) (by simp) (by rw [measurement1_writes]; simp)
      · intro n hn
        rcases List.mem_append.1 hn with hn | hn
        · simp only [List.mem_cons, List.not_mem_nil, or_false] at hn
          rcases hn with rfl | rfl
          · exact available_written (y := solution0_plainFacts c i c.solutionClimatologyCommand c.solutionClimatologyName c.measurementClimatologyName)
              (by simp) (by simp [solution0_plainFacts])
          · exact available_written (y := solution1_plainFacts c i c.solutionLargeScaleCommand c.solutionLargeScaleName c.measurementLargeScaleName)
              (by simp) (by simp [solution1_plainFacts])
        · exact available_sources n hn
    · intro s hs _
      rw [show i + 1 - 1 = i by omega]
      simp only [List.mem_cons, List.not_mem_nil, or_false] at hs
      rcases hs with rfl | rfl | rfl
      · exact available_written (y := solution0_plainFacts c i c.solutionClimatologyCommand c.solutionClimatologyName c.measurementClimatologyName)
              (by simp) (by simp [solution0_plainFacts])
      · exact available_written (y := solution1_plainFacts c i c.solutionLargeScaleCommand c.solutionLargeScaleName c.measurementLargeScaleName)
              (by simp) (by simp [solution1_plainFacts])
      · exact available_written (y := local_plainFacts c i) (by simp) (by simp [local_plainFacts])

theorem supplied {c : Config} (h0 : 0 ≤ c.first) : Chain (Supplied c) [] (c.range.flatMap (iterationFacts c)) := by
  refine Chain.iterate (Ready c) (fun i prev _ _ _ h => iteration_supplied h) h0 ?_
  intro s hs hi
  exact .inr (.inr ⟨by omega, s, hs, rfl⟩)

/-- **C142.** Every data set which an operation of a descriptor reads is one of observations, or is written by an operation before it in the
descriptor, or (if the descriptor does not begin with iteration 0) is one of the three solutions of the iteration before the first. -/
theorem c142_reads {c : Config} (h0 : 0 ≤ c.first) (hn : (stems c).Nodup) {d : Json} (hd : createBatchDescriptor c false = .ok d)
    {k : ℕ} {op : Json} (hk : (Spec.operations d)[k]? = some op) {n : String} (hr : n ∈ Spec.reads op) :
    n ∈ Spec.observations ∨ (∃ k' < k, ∃ op', (Spec.operations d)[k']? = some op' ∧ n ∈ Spec.writes op') ∨
    (0 < c.first ∧ ∃ s ∈ [c.solutionClimatologyName, c.solutionLargeScaleName, c.solutionLocalScaleName], n = Spec.numberedName s (c.first - 1)) := by
  rcases descriptor_chain h0 hn hd (supplied h0) hk n hr with h | ⟨y, hy, h⟩ | h
  · exact .inl h
  · obtain ⟨op', ho, rfl⟩ := List.mem_map.1 hy
    obtain ⟨k', hk', ho⟩ := List.getElem_of_mem ho
    have hlt : k' < k := by rw [List.length_take] at hk'; omega
    refine .inr (.inl ⟨k', hlt, op', ?_, h⟩)
    rw [← ho, List.getElem_take, List.getElem?_eq_getElem]
  · exact .inr (.inr h)

/-- The data sets which an operation adds to the catalogue are those which it writes, and they have patterns for names of files. -/
def Declared (x : Facts) : Prop :=
  ∃ l p, x.creates = some l ∧ l.Perm x.writes ∧ x.patterns = some p ∧ p.map Prod.fst = l

theorem measurement0_declared (c : Config) (i : ℤ) : Declared (measurement0Facts c i) := by
  rw [measurement0Facts]
  split
  · exact ⟨_, _, rfl, .refl _, rfl, rfl⟩
  · exact ⟨_, _, rfl, .refl _, rfl, rfl⟩

theorem measurement1_declared (c : Config) (i : ℤ) : Declared (measurement1Facts c i) := by
  rw [measurement1Facts]
  split
  · exact ⟨_, _, rfl, .refl _, rfl, rfl⟩
  · exact ⟨_, _, rfl, .refl _, rfl, rfl⟩

theorem declared_iteration (c : Config) (i : ℤ) : ∀ x ∈ iterationFacts c i, Declared x := by
  rw [iterationFacts]
  split
  · intro x hx
    simp only [griddedFacts, List.mem_cons, List.not_mem_nil, or_false] at hx
    rcases hx with rfl | rfl | rfl | rfl | rfl | rfl | rfl | rfl
    · exact measurement0_declared c i
    · exact ⟨_, _, rfl, .swap _ _ _, rfl, rfl⟩
    · exact ⟨_, _, rfl, .refl _, rfl, rfl⟩
    · exact measurement1_declared c i
    · exact ⟨_, _, rfl, .swap _ _ _, rfl, rfl⟩
    · exact ⟨_, _, rfl, .refl _, rfl, rfl⟩
    · exact ⟨_, _, rfl, (List.Perm.swap _ _ _).trans (.cons _ (.swap _ _ _)), rfl, rfl⟩
    · exact ⟨_, _, rfl, .refl _, rfl, rfl⟩
  · intro x hx
    simp only [plainFacts, List.mem_cons, List.not_mem_nil, or_false] at hx
    rcases hx with rfl | rfl | rfl | rfl | rfl
    · exact measurement0_declared c i
    · exact ⟨_, _, rfl, .refl _, rfl, rfl⟩
    · exact measurement1_declared c i
    · exact ⟨_, _, rfl, .refl _, rfl, rfl⟩
    · exact ⟨_, _, rfl, .refl _, rfl, rfl⟩

/-- A property of every operation of every iteration is one of every operation of a descriptor. -/
theorem descriptor_all {Q : Facts → Prop} {c : Config} (h0 : 0 ≤ c.first) (hn : (stems c).Nodup) {d : Json}
    (hd : createBatchDescriptor c false = .ok d) (h : ∀ i ∈ c.range, ∀ x ∈ iterationFacts c i, Q x) {op : Json}
    (ho : op ∈ Spec.operations d) : Q (facts op) := by
  have hm : facts op ∈ (Spec.operations d).map facts := List.mem_map_of_mem ho
  rw [operations_facts h0 hn hd] at hm
  obtain ⟨i, hi, hx⟩ := List.mem_flatMap.1 hm
  exact h i hi _ hx

/-- **C142.** Every operation of a descriptor adds to the catalogue exactly the data sets which it writes, each with patterns for names of
files. -/
theorem c142_declared {c : Config} (h0 : 0 ≤ c.first) (hn : (stems c).Nodup) {d : Json} (hd : createBatchDescriptor c false = .ok d)
    {op : Json} (ho : op ∈ Spec.operations d) :
    ∃ l p, Spec.creates op = some l ∧ l.Perm (Spec.writes op) ∧ Spec.createsPatterns op = some p ∧ p.map Prod.fst = l :=
  descriptor_all (Q := Declared) h0 hn hd (fun i _ => declared_iteration c i) ho

end Verif.Eustace.Descriptor
