import Verif.Eustace.Descriptor.Fresh
import Verif.Eustace.Submit.Iterations

/-! C145: operations of a descriptor as they are run by the batch system. -/

namespace Verif.Eustace.Descriptor
open Verif Verif.Eustace.Submit Verif.Eustace.Submit.Spec Verif.Eumopps.Run

/-- The stages of iteration `i` out of iterations up to `last`, of which the last one is gridded. -/
def Spec.stages (last i : ℕ) : List Kind :=
  if i = last then [.climatologyInput, .climatologySolve, .climatologyPrior, .largeScaleInput, .largeScaleSolve, .largeScalePrior, .localSolve,
    .outputGrid]
  else [.climatologyInput, .climatologySolve, .largeScaleInput, .largeScaleSolve, .localSolve]

/-- The names of operations are those which are the default (generate_json_descriptors.py 43-70). -/
structure DefaultCommands (c : Config) : Prop where
  climatologyInput : c.measurementClimatologyCommand = "climatology_input"
  climatologySolve : c.solutionClimatologyCommand = "climatology_solve"
  largeScaleInput : c.measurementLargeScaleCommand = "large_scale_input"
  largeScaleSolve : c.solutionLargeScaleCommand = "large_scale_solve"
  localSolve : c.localScaleCommand = "local_input_and_solve"
  outputGrid : c.outputGridCommand = "output_grid"

/-- Everything is to be run. -/
structure Everything (o : Options) : Prop where
  climatologyInput : o.climatologyInput = true
  climatologySolve : o.climatologySolve = true
  largeScaleInput : o.largeScaleInput = true
  largeScaleSolve : o.largeScaleSolve = true
  localSolve : o.localInputAndSolve = true
  outputGrid : o.gridOutput = true

theorem numbered_nat (s : String) (i : ℕ) : numbered s (i : ℤ) = s ++ "_" ++ toString i := rfl

theorem iteration_commands {c : Config} (hc : DefaultCommands c) {last : ℕ} (hl : c.last = last) (hg : c.gridLast ≠ 0) (i : ℕ) :
    (iterationFacts c i).map Facts.command = (Spec.stages last i).map fun k => some (moduleName k i) := by
  by_cases h : i = last
  · have hn : c.gridNow (i : ℤ) := ⟨by rw [hl, h], hg⟩
    rw [iterationFacts, if_pos hn, griddedFacts, Spec.stages, if_pos h]
    simp only [List.map_cons, List.map_nil, measurement0_command, measurement1_command, solution0_gridFacts, solution1_gridFacts, prior0Facts,
      prior1Facts, local_gridFacts, gridFacts, prior_numbered, hc.climatologyInput, hc.climatologySolve, hc.largeScaleInput, hc.largeScaleSolve,
      hc.localSolve, hc.outputGrid, numbered_nat, moduleName, Kind.name]
    rfl
  · have hn : ¬ c.gridNow (i : ℤ) := fun hn => h (by have := hn.1; rw [hl] at this; exact_mod_cast this)
    rw [iterationFacts, if_neg hn, plainFacts, Spec.stages, if_neg h]
    simp only [List.map_cons, List.map_nil, measurement0_command, measurement1_command, solution0_plainFacts, solution1_plainFacts,
      local_plainFacts, hc.climatologyInput, hc.climatologySolve, hc.largeScaleInput, hc.largeScaleSolve,
      hc.localSolve, numbered_nat, moduleName, Kind.name]
    rfl

/-- **C145.** The operations of a descriptor have the names which are submitted, iteration by iteration and stage by stage. -/
theorem c145_names {c : Config} (hc : DefaultCommands c) {first last : ℕ} (hf : c.first = first) (hl : c.last = last) (hg : c.gridLast ≠ 0)
    (hn : (stems c).Nodup) {d : Json} (hd : createBatchDescriptor c false = .ok d) :
    (Spec.operations d).map Spec.command =
      (List.range (last + 1 - first)).flatMap fun n => (Spec.stages last (first + n)).map fun k => some (moduleName k (first + n)) := by
  have h := congrArg (List.map Facts.command) (operations_facts (c := c) (by omega) hn hd)
  rw [List.map_map] at h
  have e : (Facts.command ∘ facts) = Spec.command := rfl
  rw [e] at h
  rw [h, Config.range, List.map_flatMap, List.flatMap_map]
  have hr : c.iterations.toNat = last + 1 - first := by
    unfold Config.iterations
    omega
  rw [hr]
  apply List.flatMap_congr
  intro n _
  have : c.first + (n : ℤ) = ((first + n : ℕ) : ℤ) := by rw [hf]; push_cast; rfl
  rw [this]
  exact iteration_commands hc hl hg (first + n)

theorem stages_sorted (last i : ℕ) : (Spec.stages last i).Pairwise fun a b => a.rank < b.rank := by
  unfold Spec.stages
  split <;> simp [Kind.rank]

theorem stages_wanted {o : Options} (ho : Everything o) {last i : ℕ} {k : Kind} (hk : k ∈ Spec.stages last i) : k.wanted o last i := by
  unfold Spec.stages at hk
  split at hk
  · cases k <;> simp [Kind.wanted, ho.climatologyInput, ho.climatologySolve, ho.largeScaleInput, ho.largeScaleSolve, ho.localSolve,
      ho.outputGrid, *]
  · cases k <;> first
      | (simp [Kind.wanted, ho.climatologyInput, ho.climatologySolve, ho.largeScaleInput, ho.largeScaleSolve, ho.localSolve]; done)
      | exact absurd hk (by simp)

/-- The stages of all iterations. -/
def plan (first last : ℕ) : List (ℕ × Kind) :=
  (List.range (last + 1 - first)).flatMap fun n => (Spec.stages last (first + n)).map fun k => (first + n, k)

theorem plan_sorted (first last : ℕ) : (plan first last).Pairwise keyLt := by
  unfold plan
  rw [List.pairwise_flatMap]
  refine ⟨?_, ?_⟩
  · intro n _
    rw [List.pairwise_map]
    exact (stages_sorted last (first + n)).imp fun h => .inr ⟨rfl, h⟩
  · refine List.pairwise_lt_range.imp ?_
    intro a b hab x hx y hy
    obtain ⟨k, _, rfl⟩ := List.mem_map.1 hx
    obtain ⟨k', _, rfl⟩ := List.mem_map.1 hy
    exact .inl (show first + a < first + b by omega)

theorem plan_mem {first last : ℕ} {x : ℕ × Kind} (h : x ∈ plan first last) :
    first ≤ x.1 ∧ x.1 ≤ last ∧ x.2 ∈ Spec.stages last x.1 := by
  unfold plan at h
  obtain ⟨n, hn, h⟩ := List.mem_flatMap.1 h
  obtain ⟨k, hk, rfl⟩ := List.mem_map.1 h
  rw [List.mem_range] at hn
  exact ⟨by show first ≤ first + n; omega, by show first + n ≤ last; omega, hk⟩

/-- **C145.** When all iterations of a descriptor have been submitted, then in every execution which the batch system allows, whenever a
step of an operation has been run, every data set which it reads is one of the observations, or a solution which was there before the
first iteration, or written by an operation of the descriptor all steps of which had been performed successfully before. -/
theorem c145_inputs {c : Config} (hc : DefaultCommands c) {first last : ℕ} (hf : c.first = first) (hl : c.last = last) (hg : c.gridLast ≠ 0)
    (hn : (stems c).Nodup) {d : Json} (hd : createBatchDescriptor c false = .ok d)
    {ops : List StoredOp} {answers : ℕ → Answer} {ids : ℕ → Text} (ha : Accepting answers ids)
    {o : Options} (ho : Everything o) {w w' : Text} {log : List Submission}
    (h : multiIteration ops answers false o first last last w [] = (log, .ok w')) {trace : List Event}
    (ht : Permitted ops ids log trace) {op : Json} (hop : op ∈ Spec.operations d) {m : String} (hm : Spec.command op = some m)
    {past future : List Event} {ev : Event} {q : ℤ} {ok : Bool} (hs : trace = past ++ ev :: future) (hev : Performs ops log m q ok ev)
    {n : String} (hr : n ∈ Spec.reads op) :
    n ∈ Spec.observations ∨
    (∃ op' ∈ Spec.operations d, ∃ m', Spec.command op' = some m' ∧ n ∈ Spec.writes op' ∧
      ∀ N, Operations ops m' N → ∀ q' < N, ∃ ev' ∈ past, Performs ops log m' (q' : ℕ) true ev') ∨
    (0 < first ∧ ∃ s ∈ [c.solutionClimatologyName, c.solutionLargeScaleName, c.solutionLocalScaleName],
      n = Spec.numberedName s ((first : ℤ) - 1)) := by
  obtain ⟨k, hk⟩ := List.mem_iff_getElem?.1 hop
  have hnames := c145_names hc hf hl hg hn hd
  have hplan : (Spec.operations d).map Spec.command = (plan first last).map fun x => some (moduleName x.2 x.1) := by
    rw [hnames, plan, List.map_flatMap]
    apply List.flatMap_congr
    intro n _
    rw [List.map_map]
    rfl
  have key : ∀ {k : ℕ} {op : Json}, (Spec.operations d)[k]? = some op →
      ∃ x, (plan first last)[k]? = some x ∧ Spec.command op = some (moduleName x.2 x.1) := by
    intro k op hk
    have h1 : ((Spec.operations d).map Spec.command)[k]? = some (Spec.command op) := by rw [List.getElem?_map, hk]; rfl
    rw [hplan, List.getElem?_map] at h1
    obtain ⟨x, hx, h2⟩ := Option.map_eq_some_iff.1 h1
    exact ⟨x, hx, h2.symm⟩
  rcases c142_reads (by omega) hn hd hk hr with h1 | ⟨k', hlt, op', hk', hw⟩ | ⟨h0, h1⟩
  · exact .inl h1
  · refine .inr (.inl ?_)
    obtain ⟨x, hx, hcx⟩ := key hk
    obtain ⟨y, hy, hcy⟩ := key hk'
    have hm' : m = moduleName x.2 x.1 := by rw [hm] at hcx; exact Option.some.inj hcx
    subst hm'
    refine ⟨op', List.mem_iff_getElem?.2 ⟨k', hk'⟩, _, hcy, hw, ?_⟩
    intro N hN q' hq'
    obtain ⟨hkx, hx'⟩ := List.getElem?_eq_some_iff.1 hx
    obtain ⟨hky, hy'⟩ := List.getElem?_eq_some_iff.1 hy
    have hlt' : keyLt y x := by
      have := List.pairwise_iff_getElem.1 (plan_sorted first last) k' k hky hkx hlt
      rwa [hx', hy'] at this
    obtain ⟨h1, h2, h3⟩ := plan_mem (List.mem_iff_getElem?.2 ⟨k', hy⟩)
    exact c129_order ha h ht ⟨h1, h2⟩ (stages_wanted ho h3) hlt' hs hev hN hq'
  · exact .inr (.inr ⟨by omega, by rw [← hf]; exact h1⟩)

end Verif.Eustace.Descriptor
