import Verif.Eustace.Descriptor.Table
import Mathlib.Data.List.Nodup

/-! A whole descriptor, operation by operation. -/

namespace Verif.Eustace.Descriptor
open Verif

/-- The names of the five data sets of every iteration without numbers of iterations. -/
def plainStems (c : Config) : List String :=
  [c.measurementClimatologyName, c.solutionClimatologyName, c.measurementLargeScaleName, c.solutionLargeScaleName, c.solutionLocalScaleName]

/-- The names of all data sets when there is gridding, without numbers of iterations. -/
def griddedStems (c : Config) : List String :=
  [c.measurementClimatologyName,
   c.solutionClimatologyName, c.solutionClimatologyName ++ "_sample", c.solutionClimatologyName ++ "_prior_sample",
   c.measurementLargeScaleName,
   c.solutionLargeScaleName, c.solutionLargeScaleName ++ "_sample", c.solutionLargeScaleName ++ "_prior_sample",
   c.solutionLocalScaleName, c.solutionLocalScaleName ++ "_sample", c.solutionLocalScaleName ++ "_prior_sample",
   c.outputGridName, c.outputClimatologyName, c.outputLargeScaleName, c.outputLocalName]

/-- The names of data sets without numbers of iterations. -/
def stems (c : Config) : List String := if c.gridLast ≠ 0 then griddedStems c else plainStems c

/-- The names of the five operations of every iteration without numbers of iterations. -/
def plainCommands (c : Config) : List String :=
  [c.measurementClimatologyCommand, c.solutionClimatologyCommand, c.measurementLargeScaleCommand, c.solutionLargeScaleCommand,
   c.localScaleCommand]

/-- The names of all operations when there is gridding, without numbers of iterations. -/
def griddedCommands (c : Config) : List String :=
  [c.measurementClimatologyCommand, c.solutionClimatologyCommand, c.solutionClimatologyCommand ++ "_prior_sample",
   c.measurementLargeScaleCommand, c.solutionLargeScaleCommand, c.solutionLargeScaleCommand ++ "_prior_sample",
   c.localScaleCommand, c.outputGridCommand]

/-- The names of operations without numbers of iterations. -/
def commandStems (c : Config) : List String := if c.gridLast ≠ 0 then griddedCommands c else plainCommands c

theorem plain_sublist (c : Config) : (plainStems c).Sublist (stems c) := by
  unfold stems
  split
  · exact .cons₂ _ (.cons₂ _ (.cons _ (.cons _ (.cons₂ _ (.cons₂ _ (.cons _ (.cons _ (.cons₂ _ (List.nil_sublist _)))))))))
  · exact .refl _

theorem plain_commands_sublist (c : Config) : (plainCommands c).Sublist (commandStems c) := by
  unfold commandStems
  split
  · exact .cons₂ _ (.cons₂ _ (.cons _ (.cons₂ _ (.cons₂ _ (.cons _ (.cons₂ _ (List.nil_sublist _)))))))
  · exact .refl _

/-- First operation of an iteration. -/
def measurement0Facts (c : Config) (i : ℤ) : Facts :=
  if i = 0 then measurement0_zeroFacts c c.measurementClimatologyCommand c.measurementClimatologyName
  else measurement0_posFacts c i c.measurementClimatologyCommand c.measurementClimatologyName

/-- Measurement updates of the large scale component. -/
def measurement1Facts (c : Config) (i : ℤ) : Facts :=
  if i = 0 then measurement1_zeroFacts c c.measurementLargeScaleCommand c.measurementLargeScaleName
  else measurement1_posFacts c i c.measurementLargeScaleCommand c.measurementLargeScaleName

/-- What is said about the operations of an iteration without gridding. -/
def plainFacts (c : Config) (i : ℤ) : List Facts :=
  [measurement0Facts c i,
   solution0_plainFacts c i c.solutionClimatologyCommand c.solutionClimatologyName c.measurementClimatologyName,
   measurement1Facts c i,
   solution1_plainFacts c i c.solutionLargeScaleCommand c.solutionLargeScaleName c.measurementLargeScaleName,
   local_plainFacts c i]

/-- What is said about the operations of an iteration with gridding. -/
def griddedFacts (c : Config) (i : ℤ) : List Facts :=
  [measurement0Facts c i,
   solution0_gridFacts c i c.solutionClimatologyCommand c.solutionClimatologyName c.measurementClimatologyName,
   prior0Facts c i c.solutionClimatologyCommand c.solutionClimatologyName,
   measurement1Facts c i,
   solution1_gridFacts c i c.solutionLargeScaleCommand c.solutionLargeScaleName c.measurementLargeScaleName,
   prior1Facts c i c.solutionLargeScaleCommand c.solutionLargeScaleName,
   local_gridFacts c i,
   gridFacts c i]

/-- What is said about the operations of an iteration. -/
def iterationFacts (c : Config) (i : ℤ) : List Facts := if c.gridNow i then griddedFacts c i else plainFacts c i

theorem measurement0 (c : Config) {i : ℤ} (hi : 0 ≤ i) :
    ∃ j, fillBatchMeasurement c batchTemplate i 0 c.measurementClimatologyCommand c.measurementClimatologyName = .ok j ∧
      facts j = measurement0Facts c i := by
  by_cases h : i = 0
  · subst h
    obtain ⟨j, h1, h2⟩ := measurement0_zero c c.measurementClimatologyCommand c.measurementClimatologyName
    exact ⟨j, h1, by rw [h2, measurement0Facts, if_pos rfl]⟩
  · obtain ⟨j, h1, h2⟩ := measurement0_pos c (i := i) (by omega) c.measurementClimatologyCommand c.measurementClimatologyName
    exact ⟨j, h1, by rw [h2, measurement0Facts, if_neg h]⟩

theorem measurement1 (c : Config) {i : ℤ} (hi : 0 ≤ i) :
    ∃ j, fillBatchMeasurement c batchTemplate i 1 c.measurementLargeScaleCommand c.measurementLargeScaleName = .ok j ∧
      facts j = measurement1Facts c i := by
  by_cases h : i = 0
  · subst h
    obtain ⟨j, h1, h2⟩ := measurement1_zero c c.measurementLargeScaleCommand c.measurementLargeScaleName
    exact ⟨j, h1, by rw [h2, measurement1Facts, if_pos rfl]⟩
  · obtain ⟨j, h1, h2⟩ := measurement1_pos c (i := i) (by omega) c.measurementLargeScaleCommand c.measurementLargeScaleName
    exact ⟨j, h1, by rw [h2, measurement1Facts, if_neg h]⟩

theorem collect_append {a b : List (Except PyErr Json)} {x y : List Json} (ha : collect a = .ok x) (hb : collect b = .ok y) :
    collect (a ++ b) = .ok (x ++ y) := by
  induction a generalizing x with
  | nil => simp only [collect, Except.ok.injEq] at ha; subst ha; exact hb
  | cons e a ih =>
    cases e with
    | error e => simp [collect] at ha
    | ok j =>
      simp only [collect] at ha
      cases h : collect a with
      | error e => rw [h] at ha; simp at ha
      | ok r =>
        rw [h] at ha
        simp only [Except.ok.injEq] at ha
        subst ha
        simp [collect, ih h]

theorem stems_solutions {c : Config} (hn : (stems c).Nodup) :
    c.solutionClimatologyName ≠ c.solutionLocalScaleName ∧ c.solutionLargeScaleName ≠ c.solutionLocalScaleName := by
  have h := hn.sublist (plain_sublist c)
  simp only [plainStems, List.nodup_cons, List.mem_cons, List.not_mem_nil, or_false, not_or] at h
  exact ⟨h.2.1.2.2, h.2.2.2.1⟩

/-- The names of the solutions are different from that of the local solution. -/
def Solutions (c : Config) : Prop := c.solutionClimatologyName ≠ c.solutionLocalScaleName ∧ c.solutionLargeScaleName ≠ c.solutionLocalScaleName

theorem iteration_facts {c : Config} (hn : Solutions c) {i : ℤ} (hi : 0 ≤ i) :
    ∃ js, collect (batchIteration c operationTemplate batchTemplate i) = .ok js ∧ js.map facts = iterationFacts c i := by
  obtain ⟨h0, h1⟩ := hn
  obtain ⟨a, ha, fa⟩ := measurement0 c hi
  obtain ⟨b, hb, fb⟩ := measurement1 c hi
  by_cases hg : c.gridNow i
  · obtain ⟨p, hp, fp⟩ := solution0_grid c hg c.solutionClimatologyCommand c.solutionClimatologyName c.measurementClimatologyName
    obtain ⟨q, hq, fq⟩ := prior0 c hg c.solutionClimatologyCommand c.solutionClimatologyName
    obtain ⟨r, hr, fr⟩ := solution1_grid c hg c.solutionLargeScaleCommand c.solutionLargeScaleName c.measurementLargeScaleName
    obtain ⟨s, hs, fs⟩ := prior1 c hg c.solutionLargeScaleCommand c.solutionLargeScaleName
    obtain ⟨t, ht, ft⟩ := local_grid c hi hg
    obtain ⟨u, hu, fu⟩ := grid c i h0 h1
    refine ⟨[a, p, q, b, r, s, t, u], ?_, ?_⟩
    · rw [batchIteration, if_pos hg, if_pos hg, if_pos hg, ha, hb, hp, hq, hr, hs, ht, hu]
      rfl
    · rw [iterationFacts, if_pos hg, griddedFacts, ← fa, ← fb, ← fp, ← fq, ← fr, ← fs, ← ft, ← fu]
      rfl
  · obtain ⟨p, hp, fp⟩ := solution0_plain c hg c.solutionClimatologyCommand c.solutionClimatologyName c.measurementClimatologyName
    obtain ⟨r, hr, fr⟩ := solution1_plain c hg c.solutionLargeScaleCommand c.solutionLargeScaleName c.measurementLargeScaleName
    obtain ⟨t, ht, ft⟩ := local_plain c hi hg
    refine ⟨[a, p, b, r, t], ?_, ?_⟩
    · rw [batchIteration, if_neg hg, if_neg hg, if_neg hg, ha, hb, hp, hr, ht]
      rfl
    · rw [iterationFacts, if_neg hg, plainFacts, ← fa, ← fb, ← fp, ← fr, ← ft]
      rfl

theorem iterations_facts {c : Config} (hn : Solutions c) : ∀ l : List ℤ, (∀ i ∈ l, 0 ≤ i) →
    ∃ js, collect (l.flatMap (batchIteration c operationTemplate batchTemplate)) = .ok js ∧ js.map facts = l.flatMap (iterationFacts c)
  | [], _ => ⟨[], rfl, rfl⟩
  | i :: l, h => by
    obtain ⟨x, hx, fx⟩ := iteration_facts hn (h i (by simp))
    obtain ⟨y, hy, fy⟩ := iterations_facts hn l fun i hi => h i (by simp [hi])
    refine ⟨x ++ y, ?_, ?_⟩
    · rw [List.flatMap_cons]; exact collect_append hx hy
    · rw [List.flatMap_cons, List.map_append, fx, fy]

theorem range_nonneg {c : Config} (h : 0 ≤ c.first) : ∀ i ∈ c.range, 0 ≤ i := by
  intro i hi
  obtain ⟨n, _, rfl⟩ := List.mem_map.1 hi
  omega

/-- The value which is written is the descriptor with all operations, and there is one. -/
theorem descriptor_facts {c : Config} (h0 : 0 ≤ c.first) (hn : Solutions c) :
    ∃ js, js.map facts = c.range.flatMap (iterationFacts c) ∧
      createBatchDescriptor c false = if c.iterations = 0 then .error .valueError else .ok (finalDictionary js) := by
  obtain ⟨js, hj, hf⟩ := iterations_facts hn c.range (range_nonneg h0)
  refine ⟨js, hf, ?_⟩
  rw [createBatchDescriptor, fillBatchDescriptor, restrict_operation, restrict_batch, restrict_grid]
  dsimp only
  by_cases h : c.iterations = 0
  · rw [if_pos h, if_pos h]
  · rw [if_neg h, if_neg h, hj]
    rfl

/-- The operations of a descriptor which has been written. -/
theorem operations_facts_of {c : Config} (h0 : 0 ≤ c.first) (hn : Solutions c) {d : Json} (hd : createBatchDescriptor c false = .ok d) :
    (Spec.operations d).map facts = c.range.flatMap (iterationFacts c) := by
  obtain ⟨js, hj, h⟩ := descriptor_facts h0 hn
  rw [hd] at h
  by_cases hz : c.iterations = 0
  · rw [if_pos hz] at h; exact absurd h (by simp)
  · rw [if_neg hz, Except.ok.injEq] at h
    subst h
    exact hj

/-- The operations of a descriptor which has been written. -/
theorem operations_facts {c : Config} (h0 : 0 ≤ c.first) (hn : (stems c).Nodup) {d : Json} (hd : createBatchDescriptor c false = .ok d) :
    (Spec.operations d).map facts = c.range.flatMap (iterationFacts c) := operations_facts_of h0 (stems_solutions hn) hd

/-! ### What holds of each operation in view of those before it -/

/-- Every member of a list has a property which may depend on the members before it. -/
def Chain (P : List Facts → Facts → Prop) (prev l : List Facts) : Prop := ∀ pre x post, l = pre ++ x :: post → P (prev ++ pre) x

theorem Chain.nil {P : List Facts → Facts → Prop} {prev : List Facts} : Chain P prev [] := by
  intro pre x post h
  simp at h

theorem Chain.cons {P : List Facts → Facts → Prop} {prev l : List Facts} {x : Facts} (hx : P prev x) (hl : Chain P (prev ++ [x]) l) :
    Chain P prev (x :: l) := by
  intro pre y post h
  cases pre with
  | nil => simp only [List.nil_append, List.cons.injEq] at h; rw [List.append_nil, ← h.1]; exact hx
  | cons z pre =>
    simp only [List.cons_append, List.cons.injEq] at h
    have := hl pre y post h.2
    rw [List.append_assoc, List.singleton_append] at this
    rw [← h.1]
    exact this

theorem Chain.append {P : List Facts → Facts → Prop} : ∀ {prev a b : List Facts}, Chain P prev a → Chain P (prev ++ a) b → Chain P prev (a ++ b)
  | prev, [], b, _, hb => by simpa using hb
  | prev, x :: a, b, ha, hb => by
    refine Chain.cons ?_ (Chain.append (a := a) ?_ ?_)
    · have := ha [] x a rfl
      simpa using this
    · intro pre y post h
      have := ha (x :: pre) y post (by rw [h]; rfl)
      simpa using this
    · simpa using hb

/-- From iteration to iteration: an invariant of the operations so far, which is kept by every iteration, and which is enough for it. -/
theorem Chain.iterate {P : List Facts → Facts → Prop} {c : Config} (Inv : ℤ → List Facts → Prop)
    (hstep : ∀ i prev, 0 ≤ i → c.first ≤ i → i ≤ c.last → Inv i prev → Chain P prev (iterationFacts c i) ∧ Inv (i + 1) (prev ++ iterationFacts c i))
    (h0 : 0 ≤ c.first) (hi : Inv c.first []) : Chain P [] (c.range.flatMap (iterationFacts c)) := by
  have key : ∀ n : ℕ, (n : ℤ) ≤ c.iterations.toNat →
      Chain P [] (((List.range n).map fun n : ℕ => c.first + n).flatMap (iterationFacts c)) ∧
      Inv (c.first + n) (((List.range n).map fun n : ℕ => c.first + n).flatMap (iterationFacts c)) := by
    intro n
    induction n with
    | zero => intro _; exact ⟨by simpa using Chain.nil, by simpa using hi⟩
    | succ n ih =>
      intro hn
      obtain ⟨h1, h2⟩ := ih (by omega)
      obtain ⟨h3, h4⟩ := hstep (c.first + n) _ (by omega) (by omega) (by unfold Config.iterations at hn; omega) h2
      rw [List.range_succ, List.map_append, List.flatMap_append]
      simp only [List.map_cons, List.map_nil, List.flatMap_cons, List.flatMap_nil, List.append_nil]
      refine ⟨Chain.append h1 (by simpa using h3), ?_⟩
      rw [Nat.cast_succ, ← add_assoc]
      exact h4
  exact (key _ (le_refl _)).1

theorem Chain.get {P : List Facts → Facts → Prop} {l : List Facts} (h : Chain P [] l) {k : ℕ} {x : Facts} (hk : l[k]? = some x) :
    P (l.take k) x := by
  obtain ⟨hlt, hx⟩ := List.getElem?_eq_some_iff.1 hk
  have := h (l.take k) x (l.drop (k + 1)) (by rw [← hx]; simp)
  simpa using this

/-- A property of every operation of a descriptor. -/
theorem descriptor_chain {P : List Facts → Facts → Prop} {c : Config} (h0 : 0 ≤ c.first) (hn : (stems c).Nodup) {d : Json}
    (hd : createBatchDescriptor c false = .ok d) (h : Chain P [] (c.range.flatMap (iterationFacts c))) {k : ℕ} {op : Json}
    (hk : (Spec.operations d)[k]? = some op) : P (((Spec.operations d).take k).map facts) (facts op) := by
  rw [← operations_facts h0 hn hd] at h
  have := Chain.get h (k := k) (x := facts op) (by rw [List.getElem?_map, hk]; rfl)
  rwa [← List.map_take] at this

end Verif.Eustace.Descriptor
