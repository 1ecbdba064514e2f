import Verif.Eustace.Descriptor.Calls
import Verif.Eustace.Descriptor.Order
import Verif.Eustace.Descriptor.Files

/-! C147 and C148: options and checks of descriptors, cases in which descriptors are not as expected, and examples. -/

namespace Verif.Eustace.Descriptor
open Verif Verif.Eumopps.Names

/-! ### When descriptors are written -/

/-- **C148.** With different names of data sets, a descriptor is written exactly if the number of iterations is not zero. -/
theorem c148_written {c : Config} (h0 : 0 ≤ c.first) (hn : (stems c).Nodup) :
    (∃ d, createBatchDescriptor c false = .ok d) ↔ c.last ≠ c.first - 1 := by
  obtain ⟨js, -, h⟩ := descriptor_facts h0 (stems_solutions hn)
  rw [h]
  by_cases hz : c.iterations = 0
  · rw [if_pos hz]
    unfold Config.iterations at hz
    constructor
    · rintro ⟨d, h⟩; exact absurd h (by simp)
    · intro h; exact absurd (by omega) h
  · rw [if_neg hz]
    unfold Config.iterations at hz
    exact ⟨fun _ => by omega, fun _ => ⟨_, rfl⟩⟩

/-- **C148.** A descriptor without any operation is written if the last iteration is two or more before the first one, although only
one before is refused. -/
theorem c148_empty_violated {c : Config} (h0 : 0 ≤ c.first) (hn : (stems c).Nodup) (hl : c.last < c.first - 1) :
    ∃ d, createBatchDescriptor c false = .ok d ∧ Spec.operations d = [] := by
  obtain ⟨d, hd⟩ := (c148_written h0 hn).2 (by omega)
  refine ⟨d, hd, ?_⟩
  have h := operations_facts h0 hn hd
  have : c.range = [] := by
    unfold Config.range
    have : c.iterations.toNat = 0 := by unfold Config.iterations; omega
    rw [this]; rfl
  rw [this] at h
  simpa using h

/-- **C148.** `fill_descriptor` never gives a descriptor, whatever the templates. -/
theorem c148_single_violated (c : Config) (single batch grid d : Json) : fillDescriptor c single batch grid ≠ .ok d := by
  unfold fillDescriptor
  split
  · simp
  · simp
  · simp
  · split
    · simp
    · split <;> simp

/-! ### The check for missing values -/

theorem checkNoneList_ok {l : List Json} (h : ∀ j ∈ l, checkNone j = .ok ()) : checkNoneList l = .ok () := by
  induction l with
  | nil => rw [checkNoneList]
  | cons j l ih =>
    rw [checkNoneList, h j (by simp)]
    exact ih fun j hj => h j (by simp [hj])

theorem checkNoneList_error {l : List Json} (h : ∀ j ∈ l, checkNone j = .ok () ∨ checkNone j = .error .valueError)
    (he : ∃ j ∈ l, checkNone j = .error .valueError) : checkNoneList l = .error .valueError := by
  induction l with
  | nil => obtain ⟨j, hj, -⟩ := he; cases hj
  | cons j l ih =>
    rw [checkNoneList]
    rcases h j (by simp) with hj | hj
    · rw [hj]
      refine ih (fun j hj => h j (by simp [hj])) ?_
      obtain ⟨k, hk, hek⟩ := he
      rcases List.mem_cons.1 hk with rfl | hk
      · rw [hj] at hek; cases hek
      · exact ⟨k, hk, hek⟩
    · rw [hj]

theorem checkNone_final (js : List Json) : checkNone (finalDictionary js) = checkNoneList js := by
  unfold finalDictionary
  rw [checkNone, checkNoneDict, checkNone]
  dsimp only
  rw [checkNoneDict, checkNone]
  cases checkNoneList js with
  | error e => rfl
  | ok u => cases u; dsimp only; rw [checkNoneDict]

theorem iteration_complete (c : Config) (i : ℤ) : ∀ x ∈ iterationFacts c i, x.complete = .ok () ∨ (c.gridNow i ∧ x = gridFacts c i) := by
  intro x hx
  have m0 : (measurement0Facts c i).complete = .ok () := by unfold measurement0Facts; split <;> rfl
  have m1 : (measurement1Facts c i).complete = .ok () := by unfold measurement1Facts; split <;> rfl
  unfold iterationFacts at hx
  split at hx
  · rename_i hg
    simp only [griddedFacts, List.mem_cons, List.not_mem_nil, or_false] at hx
    rcases hx with rfl | rfl | rfl | rfl | rfl | rfl | rfl | rfl
    · exact .inl m0
    · exact .inl rfl
    · exact .inl rfl
    · exact .inl m1
    · exact .inl rfl
    · exact .inl rfl
    · exact .inl rfl
    · exact .inr ⟨hg, rfl⟩
  · simp only [plainFacts, List.mem_cons, List.not_mem_nil, or_false] at hx
    rcases hx with rfl | rfl | rfl | rfl | rfl
    · exact .inl m0
    · exact .inl rfl
    · exact .inl m1
    · exact .inl rfl
    · exact .inl rfl

theorem final_operations {c : Config} {d : Json} (hd : createBatchDescriptor c false = .ok d) : d = finalDictionary (Spec.operations d) := by
  unfold createBatchDescriptor at hd
  cases hf : fillBatchDescriptor c operationTemplate batchTemplate gridTemplate with
  | error e => rw [hf] at hd; cases hd
  | ok d' =>
    rw [hf] at hd
    have : d' = d := by simpa using hd
    subst this
    unfold fillBatchDescriptor at hf
    split at hf
    · cases hf
    · cases hf
    · cases hf
    · split at hf
      · cases hf
      · split at hf
        · cases hf
        · simp only [Except.ok.injEq] at hf
          rw [← hf]
          rfl

theorem checked {c : Config} {d : Json} (hd : createBatchDescriptor c false = .ok d) :
    createBatchDescriptor c true = match checkNone d with
      | .error e => .error e
      | .ok () => .ok d := by
  unfold createBatchDescriptor at hd ⊢
  cases hf : fillBatchDescriptor c operationTemplate batchTemplate gridTemplate with
  | error e => rw [hf] at hd; cases hd
  | ok d' =>
    rw [hf] at hd
    have : d' = d := by simpa using hd
    subst this
    rfl

/-- **C148.** Without gridding the descriptor which is written has no missing values, and the check finds none. -/
theorem c148_check_partial {c : Config} (h0 : 0 ≤ c.first) (hn : (stems c).Nodup) (hg : c.gridLast = 0) {d : Json}
    (hd : createBatchDescriptor c false = .ok d) : createBatchDescriptor c true = .ok d := by
  rw [checked hd]
  have h : checkNone d = .ok () := by
    rw [final_operations hd, checkNone_final]
    apply checkNoneList_ok
    intro op ho
    have := descriptor_all (Q := fun x => x.complete = .ok ()) h0 hn hd (fun i _ x hx =>
      (iteration_complete c i x hx).resolve_right fun h => h.1.2 hg) ho
    exact this
  rw [h]

/-- **C148.** With gridding of the last iteration the check always fails, although the descriptor is the one which is used: the
operation for gridding has no number of a component. -/
theorem c148_check_violated {c : Config} (h0 : 0 ≤ c.first) (hn : (stems c).Nodup) (hf : c.first ≤ c.last) (hg : c.gridLast ≠ 0) :
    (∃ d, createBatchDescriptor c false = .ok d) ∧ createBatchDescriptor c true = .error .valueError := by
  obtain ⟨d, hd⟩ := (c148_written h0 hn).2 (by omega)
  refine ⟨⟨d, hd⟩, ?_⟩
  rw [checked hd]
  have h : checkNone d = .error .valueError := by
    rw [final_operations hd, checkNone_final]
    apply checkNoneList_error
    · intro op ho
      have := descriptor_all (Q := fun x => x.complete = .ok () ∨ x.complete = .error .valueError) h0 hn hd (fun i _ x hx => by
        rcases iteration_complete c i x hx with h | ⟨-, rfl⟩
        · exact .inl h
        · exact .inr rfl) ho
      exact this
    · have hm : gridFacts c c.last ∈ (Spec.operations d).map facts := by
        rw [operations_facts h0 hn hd, List.mem_flatMap]
        refine ⟨c.last, ?_, ?_⟩
        · unfold Config.range
          rw [List.mem_map]
          refine ⟨(c.last - c.first).toNat, ?_, by omega⟩
          rw [List.mem_range]
          unfold Config.iterations
          omega
        · rw [iterationFacts, if_pos ⟨rfl, hg⟩, griddedFacts]
          simp
      obtain ⟨op, ho, hop⟩ := List.mem_map.1 hm
      exact ⟨op, ho, (congrArg Facts.complete hop : checkNone op = _)⟩
  rw [h]

/-! ### Options for biases -/

/-- Whether Python takes a value for true. -/
def Spec.truth : Json → Bool
  | .null => false
  | .int n => decide (n ≠ 0)
  | .str s => decide (s ≠ "")
  | .list l => !l.isEmpty
  | .dict d => !d.isEmpty

theorem iteration_biases (c : Config) (i : ℤ) : ∀ x ∈ iterationFacts c i, x.land = some c.landBiases.json ∧ x.global = some c.globalBiases.json := by
  intro x hx
  have m0 : (measurement0Facts c i).land = some c.landBiases.json ∧ (measurement0Facts c i).global = some c.globalBiases.json := by
    unfold measurement0Facts; split <;> exact ⟨rfl, rfl⟩
  have m1 : (measurement1Facts c i).land = some c.landBiases.json ∧ (measurement1Facts c i).global = some c.globalBiases.json := by
    unfold measurement1Facts; split <;> exact ⟨rfl, rfl⟩
  unfold iterationFacts at hx
  split at hx
  · simp only [griddedFacts, List.mem_cons, List.not_mem_nil, or_false] at hx
    rcases hx with rfl | rfl | rfl | rfl | rfl | rfl | rfl | rfl <;> first | exact m0 | exact m1 | exact ⟨rfl, rfl⟩
  · simp only [plainFacts, List.mem_cons, List.not_mem_nil, or_false] at hx
    rcases hx with rfl | rfl | rfl | rfl | rfl <;> first | exact m0 | exact m1 | exact ⟨rfl, rfl⟩

/-- **C147.** All operations of a descriptor are given the same two options for biases, those of the command line: so all of them agree
about the structure of the components. -/
theorem c147_biases {c : Config} (h0 : 0 ≤ c.first) (hn : (stems c).Nodup) {d : Json} (hd : createBatchDescriptor c false = .ok d) {op : Json}
    (ho : op ∈ Spec.operations d) :
    Spec.item [.key "runmodule", .key "insitu_biases"] op = some c.landBiases.json ∧
    Spec.item [.key "runmodule", .key "global_biases"] op = some c.globalBiases.json :=
  descriptor_all (Q := fun x => x.land = some c.landBiases.json ∧ x.global = some c.globalBiases.json) h0 hn hd
    (fun i _ => iteration_biases c i) ho

/-- **C147.** Biases cannot be switched off by the options of the program: 0 is kept as text, which counts as true, and so does every
other text but the empty one. -/
theorem c147_switch_violated {first last : ℤ} (h0 : 0 ≤ first) (hl : first ≤ last) (start stop text : String) (ht : text ≠ "") :
    ∃ d, createBatchDescriptor (defaultConfig first last 0 start stop (some text) (some text)) false = .ok d ∧ Spec.operations d ≠ [] ∧
      ∀ op ∈ Spec.operations d, ∃ land global, Spec.item [.key "runmodule", .key "insitu_biases"] op = some land ∧ Spec.truth land = true ∧
        Spec.item [.key "runmodule", .key "global_biases"] op = some global ∧ Spec.truth global = true := by
  have hn : (stems (defaultConfig first last 0 start stop (some text) (some text))).Nodup := by
    have : stems (defaultConfig first last 0 start stop (some text) (some text)) =
      ["measurement_climatology", "solution_climatology", "measurement_large_scale", "solution_large_scale", "solution_local"] := rfl
    rw [this]
    decide +kernel
  obtain ⟨d, hd⟩ := (c148_written (c := defaultConfig first last 0 start stop (some text) (some text)) h0 hn).2
    (by show last ≠ first - 1; omega)
  refine ⟨d, hd, ?_, ?_⟩
  · intro he
    have h := operations_facts h0 hn hd
    rw [he] at h
    have hr : first ∈ Config.range (defaultConfig first last 0 start stop (some text) (some text)) := by
      unfold Config.range
      rw [List.mem_map]
      refine ⟨0, ?_, by show first + ((0 : ℕ) : ℤ) = first; omega⟩
      rw [List.mem_range]
      show 0 < (last - first + 1).toNat
      omega
    have h2 := List.flatMap_eq_nil_iff.1 h.symm first hr
    unfold iterationFacts at h2
    split at h2
    · cases h2
    · cases h2
  · intro op ho
    obtain ⟨h1, h2⟩ := c147_biases h0 hn hd ho
    exact ⟨_, _, h1, by simp [defaultConfig, untypedOption, OptionValue.json, Spec.truth, ht], h2,
      by simp [defaultConfig, untypedOption, OptionValue.json, Spec.truth, ht]⟩

/-! ### Defaults of the names of outputs -/

/-- **C146.** With the default names of outputs and gridding, the analysis and its three components are all in data sets of one name
with the same patterns, so that the four files of a day are the same file. -/
theorem c146_default_violated {first last grid : ℤ} (h0 : 0 ≤ first) (hl : first ≤ last) (hg : grid ≠ 0) (start stop : String)
    (land global : Option String) :
    ∃ d, createBatchDescriptor (defaultConfig first last grid start stop land global) false = .ok d ∧
      ∃ op ∈ Spec.operations d, Spec.createsPatterns op =
        some (List.replicate 4 (numbered "eustace_infilled" last,
          [numbered "eustace_infilled" last ++ "/%Y/", numbered "eustace_infilled" last ++ "_%Y%m%d." ++ "nc"])) := by
  have hs : Solutions (defaultConfig first last grid start stop land global) := by
    have h1 : ("solution_climatology" : String) ≠ "solution_local" := by decide +kernel
    have h2 : ("solution_large_scale" : String) ≠ "solution_local" := by decide +kernel
    exact ⟨h1, h2⟩
  obtain ⟨js, hj, h⟩ := descriptor_facts (c := defaultConfig first last grid start stop land global) h0 hs
  rw [if_neg (by show last - first + 1 ≠ 0; omega)] at h
  refine ⟨_, h, ?_⟩
  have hm : gridFacts (defaultConfig first last grid start stop land global) last ∈ js.map facts := by
    rw [hj, List.mem_flatMap]
    refine ⟨last, ?_, ?_⟩
    · unfold Config.range
      rw [List.mem_map]
      refine ⟨(last - first).toNat, ?_, by show first + ((last - first).toNat : ℤ) = last; omega⟩
      rw [List.mem_range]
      show (last - first).toNat < (last - first + 1).toNat
      omega
    · rw [iterationFacts, if_pos ⟨rfl, hg⟩, griddedFacts]
      simp
  obtain ⟨op, ho, hop⟩ := List.mem_map.1 hm
  exact ⟨op, ho, (congrArg Facts.patterns hop : Spec.createsPatterns op = _)⟩

/-! ### The descriptor of build_descriptors.sh -/

theorem script_stems (first last : ℤ) {grid : ℤ} (hg : grid ≠ 0) (start stop : String) : stems (scriptConfig first last grid start stop) =
    ["climatology_increment",
     "climatology_solution", "climatology_solution" ++ "_sample", "climatology_solution" ++ "_prior_sample",
     "large_scale_increment",
     "large_scale_solution", "large_scale_solution" ++ "_sample", "large_scale_solution" ++ "_prior_sample",
     "local_solution", "local_solution" ++ "_sample", "local_solution" ++ "_prior_sample",
     "eustace_analysis", "eustace_climatology_component", "eustace_large_scale_component", "eustace_local_component"] := if_pos hg

/-- The names of build_descriptors.sh are different. -/
theorem script_nodup (first last : ℤ) {grid : ℤ} (hg : grid ≠ 0) (start stop : String) : (stems (scriptConfig first last grid start stop)).Nodup := by
  rw [script_stems first last hg]
  decide +kernel

/-- They contain neither fields nor directories. -/
theorem script_plain (first last : ℤ) {grid : ℤ} (hg : grid ≠ 0) (start stop : String) :
    ∀ s ∈ stems (scriptConfig first last grid start stop), Spec.Plain s := by
  rw [script_stems first last hg]
  have h : (["climatology_increment",
     "climatology_solution", "climatology_solution" ++ "_sample", "climatology_solution" ++ "_prior_sample",
     "large_scale_increment",
     "large_scale_solution", "large_scale_solution" ++ "_sample", "large_scale_solution" ++ "_prior_sample",
     "local_solution", "local_solution" ++ "_sample", "local_solution" ++ "_prior_sample",
     "eustace_analysis", "eustace_climatology_component", "eustace_large_scale_component", "eustace_local_component"] : List String).all
     (fun s => s.toList.all fun x => decide (x ≠ '%' ∧ x ≠ '/')) = true := by decide +kernel
  intro s hs x hx
  simpa using List.all_eq_true.1 (List.all_eq_true.1 h s hs) x hx

theorem script_commands (first last grid : ℤ) (start stop : String) : DefaultCommands (scriptConfig first last grid start stop) :=
  ⟨rfl, rfl, rfl, rfl, rfl, rfl⟩

/-- The names of operations are different too. -/
example : (commandStems (scriptConfig 0 5 1 "18800101" "20151231")).Nodup := by decide +kernel

/-- The script writes a descriptor, which has 5 + 5 + 5 + 5 + 5 + 8 operations. -/
example : ∃ d, buildDescriptors = .ok d ∧ (Spec.operations d).length = 33 := by
  have hn := script_nodup 0 5 (grid := 1) (by decide) "18800101" "20151231"
  obtain ⟨d, hd⟩ := (c148_written (c := scriptConfig 0 5 1 "18800101" "20151231") (by decide) hn).2 (by decide)
  refine ⟨d, hd, ?_⟩
  have h := congrArg List.length (c145_names (c := scriptConfig 0 5 1 "18800101" "20151231") (script_commands _ _ _ _ _) (first := 0)
    (last := 5) rfl rfl (by decide) hn hd)
  rw [List.length_map] at h
  rw [h]
  rfl

/-- All theorems about descriptors apply to it: as an example, nothing of an iteration is read before it is written. -/
example {d : Json} (hd : buildDescriptors = .ok d) {k : ℕ} {op : Json} (hk : (Spec.operations d)[k]? = some op) {n : String}
    (hr : n ∈ Spec.reads op) : n ∈ Spec.observations ∨ ∃ k' < k, ∃ op', (Spec.operations d)[k']? = some op' ∧ n ∈ Spec.writes op' := by
  rcases c142_reads (c := scriptConfig 0 5 1 "18800101" "20151231") (by decide) (script_nodup 0 5 (by decide) _ _) hd hk hr with h | h | ⟨h, -⟩
  · exact .inl h
  · exact .inr h
  · exact absurd h (by decide)

/-- Days of the output of the script: the file of the analysis for the second of January 1880. -/
example : Spec.fileDay (numbered "eustace_analysis" 5) "nc" ⟨⟨1880, 1, 2⟩, 0, 0, 0⟩ = "eustace_analysis_5/1880/eustace_analysis_5_18800102.nc".toList := by
  decide +kernel

/-- A configuration with negative number of iterations. -/
example : ∃ d, createBatchDescriptor (scriptConfig 5 3 1 "18800101" "20151231") false = .ok d ∧ Spec.operations d = [] :=
  c148_empty_violated (by decide) (script_nodup 5 3 (by decide) _ _) (by decide)

end Verif.Eustace.Descriptor
