import Verif.Eustace.Submit.Shell

/-! Where the order of stages is not kept, and examples for C129 and C130. -/
namespace Verif.Eustace.Submit
open Verif Verif.Eumopps.Run Spec

/-- A statement about every event of a sequence and the events before it. -/
def AtEach (P : List Event → Event → Prop) : List Event → List Event → Prop
  | _, [] => True
  | acc, x :: xs => P acc x ∧ AtEach P (acc ++ [x]) xs

theorem atEach {P : List Event → Event → Prop} {acc t : List Event} (h : AtEach P acc t) {past future : List Event} {x : Event}
    (e : t = past ++ x :: future) : P (acc ++ past) x := by
  induction t generalizing acc past with
  | nil => simp at e
  | cons y t ih =>
    cases past with
    | nil =>
      rw [List.nil_append, List.cons.injEq] at e
      rw [List.append_nil, ← e.1]
      exact h.1
    | cons z past =>
      rw [List.cons_append, List.cons.injEq] at e
      have := ih h.2 e.2
      rw [← e.1]
      simpa using this

/-- A sequence of events is permitted if each of them is. -/
theorem permitted_of {ops : List StoredOp} {ids : ℕ → Text} {log : List Submission} {trace : List Event}
    (h : AtEach (fun past ev => match ev with
      | .ran j e p _ => ∃ s a, log[j]? = some s ∧ e ∈ elements s ∧ (commands ops s e)[p]? = some a ∧
          ∀ l, Means s.wait l → ∀ j', ids j' ∈ l → Done log past j'
      | .ended j e true => ∃ s, log[j]? = some s ∧ e ∈ elements s ∧ ∃ outcomes : List Bool,
          outcomes.length = (commands ops s e).length ∧ exitOk s (ranFull ops s e) outcomes = true ∧
          ∀ p ok, outcomes[p]? = some ok → Event.ran j e p ok ∈ past
      | .ended _ _ false => True) [] trace) : Permitted ops ids log trace := by
  constructor
  · intro past future j e p ok hs
    exact atEach h hs
  · intro past future j e hs
    exact atEach h hs

theorem waits_nothing {ids : ℕ → Text} {log : List Submission} {past : List Event} {w : Text} (hw : w = []) :
    ∀ l, Means w l → ∀ j', ids j' ∈ l → Done log past j' := by
  intro l hl j' hj'
  subst hw
  rw [means_unique hl Means.nothing] at hj'
  cases hj'

theorem waits_first {answers : ℕ → Answer} {ids : ℕ → Text} (ha : Accepting answers ids) {log : List Submission} {past : List Event} {w : Text}
    (hw : w = doneCondition [ids 0]) (hd : Done log past 0) : ∀ l, Means w l → ∀ j', ids j' ∈ l → Done log past j' := by
  intro l hl j' hj'
  subst hw
  rw [means_unique hl (means_done (by simpa using (ha.1 0).2.1)), List.mem_singleton] at hj'
  rw [ha.2 _ _ hj']
  exact hd

/-! ### Grouped operations -/

/-- Two local operations and one of output. -/
def ops1 : List StoredOp := [op0 "local_input_and_solve_0" 2, op0 "output_grid_0" 1]

/-- Local operations and output only. -/
def options1 : Options := ⟨false, false, false, false, true, true, false, false⟩

/-- What is submitted for them. -/
def log1 : List Submission :=
  [⟨.group, "local_input_and_solve_0", 1, 1, 2000, 0, 100, 20, []⟩, ⟨.single, "output_grid_0", 1, 1, 366, 0, 0, 0, "done(1)".toList⟩]

/-- An execution in which the first local operation fails, and output is produced nevertheless. -/
def trace1 : List Event := [.ran 0 1 0 false, .ran 0 1 1 true, .ended 0 1 true, .ran 1 1 0 true]

theorem submitted1 : multiIteration ops1 answers0 true options1 0 0 0 [] [] = (log1, .ok "done(11)".toList) := by decide +kernel

theorem permitted1 : Permitted ops1 ids0 log1 trace1 := by
  apply permitted_of
  unfold trace1
  refine ⟨⟨_, (0, 2000, 0), rfl, by decide +kernel, by decide +kernel, waits_nothing rfl⟩,
    ⟨_, (1, 2000, 0), rfl, by decide +kernel, by decide +kernel, waits_nothing rfl⟩,
    ⟨_, rfl, by decide +kernel, [false, true], by decide +kernel, by decide +kernel, ?_⟩,
    ⟨_, (0, 366, 0), rfl, by decide +kernel, by decide +kernel, waits_first accepting0 rfl ?_⟩, trivial⟩
  · intro p ok hp
    match p, hp with
    | 0, hp => simp at hp; subst hp; simp
    | 1, hp => simp at hp; subst hp; simp
    | p + 2, hp => simp at hp
  · intro s hs e he
    simp only [log1, List.getElem?_cons_zero, Option.some.injEq] at hs
    subst hs
    have : e = 1 := by
      have h : e ∈ [(1 : ℤ)] := he
      simpa using h
    subst this
    simp

/-- **C129, violated.** If operations are grouped, a failed local operation does not keep the output from being produced: the script
of a group ends with the status of its last command, or with zero if it is cut short. -/
theorem c129_grouped_violated : ∃ ops answers ids o log w' trace, Accepting answers ids ∧
    multiIteration ops answers true o 0 0 0 [] [] = (log, .ok w') ∧ Kind.wanted o 0 0 .localSolve ∧
    Operations ops (moduleName .localSolve 0) 2 ∧ Permitted ops ids log trace ∧
    (∃ ev ∈ trace, Performs ops log (moduleName .outputGrid 0) 0 true ev) ∧
    ∀ ev ∈ trace, ¬ Performs ops log (moduleName .localSolve 0) 0 true ev := by
  refine ⟨ops1, answers0, ids0, options1, log1, _, trace1, accepting0, submitted1, rfl, Or.inl ⟨op0 "local_input_and_solve_0" 2, by decide +kernel, rfl⟩, permitted1,
    ⟨.ran 1 1 0 true, by decide, 1, 1, 0, _, (0, 366, 0), rfl, rfl, by decide +kernel, by decide +kernel, by decide +kernel, by decide +kernel⟩, ?_⟩
  rintro ev hev ⟨j, e, p, s, a, rfl, hj, hm, he, hc, hp⟩
  simp only [trace1, List.mem_cons, Event.ran.injEq, List.not_mem_nil, or_false, reduceCtorEq, false_or] at hev
  rcases hev with ⟨-, -, -, h⟩ | ⟨rfl, rfl, rfl, -⟩ | ⟨rfl, rfl, rfl, -⟩
  · cases h
  · simp only [log1, List.getElem?_cons_zero, Option.some.injEq] at hj
    subst hj
    have h1 : (commands ops1 ⟨.group, "local_input_and_solve_0", 1, 1, 2000, 0, 100, 20, []⟩ 1)[1]? = some (1, 2000, 0) := by decide +kernel
    rw [h1] at hc
    injection hc with hc
    subst hc
    have h2 : performed (1, 2000, 0) = .ok 1 := by decide +kernel
    rw [h2] at hp
    cases hp
  · simp only [log1, List.getElem?_cons_succ, List.getElem?_cons_zero, Option.some.injEq] at hj
    subst hj
    revert hm
    decide +kernel

/-! ### Optimisation -/

/-- The three modules of the optimisation of the model of local behaviour. -/
def ops2 : List StoredOp := [op0 "split_local_component" 1, op0 "input_summaries_create" 1, op0 "input_summaries_merge" 1]

/-- What is submitted for them. -/
def log2 : List Submission :=
  [⟨.single, "split_local_component", 1, 1, 366, 0, 0, 0, []⟩, ⟨.single, "input_summaries_create", 1, 1, 366, 0, 0, 0, []⟩,
   ⟨.single, "input_summaries_merge", 1, 1, 366, 0, 0, 0, []⟩]

/-- **C129, violated.** The three stages of optimisation do not wait for each other, nor for the condition which is asked for: summaries
may be merged before any has been created. -/
theorem c129_optimisation_violated (w : Text) : ∃ ops answers ids log w' trace, Accepting answers ids ∧
    optimisation ops answers none w [] = (log, .ok w') ∧ Operations ops "input_summaries_create" 1 ∧ Permitted ops ids log trace ∧
    (∃ ev ∈ trace, Performs ops log "input_summaries_merge" 0 true ev) ∧
    ∀ ev ∈ trace, ¬ ∃ q ok, Performs ops log "input_summaries_create" q ok ev := by
  refine ⟨ops2, answers0, ids0, log2, "done(111)".toList, [.ran 2 1 0 true], accepting0, ?_, Or.inl ⟨op0 "input_summaries_create" 1, by decide +kernel, rfl⟩, ?_,
    ⟨.ran 2 1 0 true, by decide, 2, 1, 0, _, (0, 366, 0), rfl, rfl, by decide +kernel, by decide +kernel, by decide +kernel, by decide +kernel⟩, ?_⟩
  · have h : optimisation ops2 answers0 none [] [] = (log2, .ok "done(111)".toList) := by decide +kernel
    exact h
  · apply permitted_of
    exact ⟨⟨_, (0, 366, 0), rfl, by decide +kernel, by decide +kernel, waits_nothing rfl⟩, trivial⟩
  · rintro ev hev ⟨q, ok, j, e, p, s, a, rfl, hj, hm, -⟩
    simp only [List.mem_singleton, Event.ran.injEq] at hev
    obtain ⟨rfl, -⟩ := hev
    simp only [log2, List.getElem?_cons_succ, List.getElem?_cons_zero, Option.some.injEq] at hj
    subst hj
    revert hm
    decide +kernel

/-! ### One iteration -/

/-- **C129, violated.** `eustace_single_iteration` never succeeds: the script for its second stage does not exist. -/
theorem c129_single_violated (ops : List StoredOp) (answers : ℕ → Answer) (log : List Submission) :
    ∃ log' e, singleIteration ops answers log = (log', .error e) := by
  unfold singleIteration
  rw [chain]
  cases h : submitStage ops answers log [] ⟨"climatology_input", "lsf_commandrun.sh", false⟩ with
  | mk log1 r =>
    cases r with
    | error e => exact ⟨log1, e, rfl⟩
    | ok l =>
      dsimp only
      rw [chain]
      cases h2 : submitStage ops answers log1 (doneCondition l) ⟨"climatology_solve", "lsf_commandrun_solver_testing.sh", false⟩ with
      | mk log2 r =>
        cases r with
        | error e => exact ⟨log2, e, rfl⟩
        | ok l =>
          exfalso
          unfold submitStage at h2
          rw [if_neg (by simp)] at h2
          obtain ⟨-, N, k, -, -, hk⟩ := submitJobs_pre h2
          have : scriptNamed "lsf_commandrun_solver_testing.sh" = none := by decide +kernel
          rw [this] at hk
          cases hk

/-- The first stage has been submitted by then. -/
example : singleIteration [op0 "climatology_input" 1, op0 "climatology_solve" 1] answers0 [] =
    ([⟨.single, "climatology_input", 1, 1, 366, 0, 0, 0, []⟩], .error .other) := by decide +kernel

/-! ### Shell script -/

/-- A catalogue in which one stage has no operations. -/
def ops3 : List StoredOp := [op0 "climatology_input_0" 1, op0 "large_scale_input_0" 1]

/-- What is submitted for it. -/
def log3 : List Submission :=
  [⟨.single, "climatology_input_0", 1, 1, 366, 0, 0, 0, []⟩, ⟨.single, "large_scale_input_0", 1, 1, 366, 0, 0, 0, []⟩]

/-- **C130, violated.** If a stage has no operations, the shell script forgets what was to be waited for: stages after it may be run
before those before it. -/
theorem c130_empty_violated : ∃ ops answers ids trace, Accepting answers ids ∧
    Operations ops (moduleName .climatologyInput 0) 1 ∧ Operations ops (moduleName .climatologySolve 0) 0 ∧
    Permitted ops ids (shellChain ops answers (shellStages 0 0) [] []).1 trace ∧
    (∃ ev ∈ trace, Performs ops (shellChain ops answers (shellStages 0 0) [] []).1 (moduleName .largeScaleInput 0) 0 true ev) ∧
    ∀ ev ∈ trace, ¬ ∃ q ok, Performs ops (shellChain ops answers (shellStages 0 0) [] []).1 (moduleName .climatologyInput 0) q ok ev := by
  have hl : (shellChain ops3 answers0 (shellStages 0 0) [] []).1 = log3 := by decide +kernel
  refine ⟨ops3, answers0, ids0, [.ran 1 1 0 true], accepting0, Or.inl ⟨op0 "climatology_input_0" 1, by decide +kernel, rfl⟩, Or.inr ⟨by decide +kernel, rfl⟩, ?_⟩
  rw [hl]
  refine ⟨?_,
    ⟨.ran 1 1 0 true, by decide, 1, 1, 0, _, (0, 366, 0), rfl, rfl, by decide +kernel, by decide +kernel, by decide +kernel, by decide +kernel⟩, ?_⟩
  · apply permitted_of
    exact ⟨⟨_, (0, 366, 0), rfl, by decide +kernel, by decide +kernel, waits_nothing rfl⟩, trivial⟩
  · rintro ev hev ⟨q, ok, j, e, p, s, a, rfl, hj, hm, -⟩
    simp only [List.mem_singleton, Event.ran.injEq] at hev
    obtain ⟨rfl, -⟩ := hev
    simp only [log3, List.getElem?_cons_succ, List.getElem?_cons_zero, Option.some.injEq] at hj
    subst hj
    revert hm
    decide +kernel

/-! ### Examples -/

/-- The same operations without grouping: the hypotheses of `c129_order` are met, and the execution without the failure is permitted. -/
example : multiIteration ops1 answers0 false options1 0 0 0 [] [] =
    ([⟨.single, "local_input_and_solve_0", 1, 2, 366, 0, 0, 0, []⟩, ⟨.single, "output_grid_0", 1, 1, 366, 0, 0, 0, "done(1)".toList⟩],
      .ok "done(11)".toList) := by decide +kernel

example : Kind.wanted options1 0 0 .localSolve ∧ Kind.rank .localSolve < Kind.rank .outputGrid ∧
    Operations ops1 (moduleName .localSolve 0) 2 := ⟨rfl, by decide, Or.inl ⟨op0 "local_input_and_solve_0" 2, by decide +kernel, rfl⟩⟩

/-- Every stage of two iterations has operations. -/
def ops4 : List StoredOp :=
  [op0 "climatology_input_0" 3, op0 "climatology_solve_0" 1, op0 "large_scale_input_0" 3, op0 "large_scale_solve_0" 1,
   op0 "local_input_and_solve_0" 3, op0 "climatology_input_1" 3, op0 "climatology_solve_1" 1, op0 "large_scale_input_1" 3,
   op0 "large_scale_solve_1" 1, op0 "local_input_and_solve_1" 3, op0 "output_grid" 3]

example : ((shellChain ops4 answers0 (shellStages 0 1) [] []).1.map fun s => (s.module, s.wait)).take 3 =
    [("climatology_input_0", []), ("climatology_solve_0", "done(1)".toList), ("large_scale_input_0", "done(11)".toList)] := by
  decide +kernel

example : ∀ i, 0 ≤ i → i ≤ 1 → ∀ k, InShell k → ∃ N, Operations ops4 (moduleName k i) N ∧ 0 < N := by
  intro i _ hi k hk
  have hi' : i = 0 ∨ i = 1 := by omega
  obtain ⟨h1, h2, h3⟩ := hk
  rcases hi' with rfl | rfl
  · cases k
    · exact ⟨3, Or.inl ⟨op0 "climatology_input_0" 3, by decide +kernel, rfl⟩, by decide⟩
    · exact ⟨1, Or.inl ⟨op0 "climatology_solve_0" 1, by decide +kernel, rfl⟩, by decide⟩
    · exact absurd rfl h1
    · exact ⟨3, Or.inl ⟨op0 "large_scale_input_0" 3, by decide +kernel, rfl⟩, by decide⟩
    · exact ⟨1, Or.inl ⟨op0 "large_scale_solve_0" 1, by decide +kernel, rfl⟩, by decide⟩
    · exact absurd rfl h2
    · exact ⟨3, Or.inl ⟨op0 "local_input_and_solve_0" 3, by decide +kernel, rfl⟩, by decide⟩
    · exact absurd rfl h3
  · cases k
    · exact ⟨3, Or.inl ⟨op0 "climatology_input_1" 3, by decide +kernel, rfl⟩, by decide⟩
    · exact ⟨1, Or.inl ⟨op0 "climatology_solve_1" 1, by decide +kernel, rfl⟩, by decide⟩
    · exact absurd rfl h1
    · exact ⟨3, Or.inl ⟨op0 "large_scale_input_1" 3, by decide +kernel, rfl⟩, by decide⟩
    · exact ⟨1, Or.inl ⟨op0 "large_scale_solve_1" 1, by decide +kernel, rfl⟩, by decide⟩
    · exact absurd rfl h2
    · exact ⟨3, Or.inl ⟨op0 "local_input_and_solve_1" 3, by decide +kernel, rfl⟩, by decide⟩
    · exact absurd rfl h3

end Verif.Eustace.Submit
