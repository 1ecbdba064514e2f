import Verif.Eustace.Descriptor.BiasModel
import Verif.Eustace.Descriptor.Files

/-! C165: the descriptor for biases of stations. -/

namespace Verif.Eustace.Descriptor
open Verif Verif.Eumopps.Names

/-- Names of the parameters of functions for diagnostics, none of which has a default value (station_bias_model.py 31-36, 120-123;
moving_climatology.py 524-529). -/
def Spec.diagnosticParameters : List (String × List String) :=
  [("eustace.analysis.advanced_standard.examples.station_bias_model.extract_station_biases",
    ["storage_climatology", "storage_large_scale", "storage_local", "outputfile", "first_year", "last_year", "component_index",
     "covariates_descriptor", "insitu_biases", "breakpoints_file", "global_biases", "global_biases_group_list", "compute_uncertainties",
     "method", "compute_sample", "sample_size", "compute_prior_sample"]),
   ("eustace.analysis.advanced_standard.examples.station_bias_model.store_analysissystem",
    ["storage_climatology", "storage_large_scale", "storage_local", "component_index",
     "covariates_descriptor", "insitu_biases", "breakpoints_file", "global_biases", "global_biases_group_list", "compute_uncertainties",
     "method", "compute_sample", "sample_size", "compute_prior_sample"]),
   ("eustace.analysis.advanced_standard.examples.moving_climatology.early_look_grid_batch",
    ["storage_climatology", "storage_large_scale", "storage_local", "outputfiles", "time_indices",
     "covariates_descriptor", "insitu_biases", "breakpoints_file", "global_biases", "global_biases_group_list", "compute_uncertainties",
     "method", "compute_sample", "sample_size", "compute_prior_sample"])]

/-- The classes of steps which there are (eumopps/catalogue/step.py, eustace/analysis/advanced_standard/examples/step.py). -/
def Spec.stepClasses : List String :=
  ["eumopps.catalogue.step.StepOnce", "eumopps.catalogue.step.StepDaily",
   "eustace.analysis.advanced_standard.examples.step.StepAnnual", "eustace.analysis.advanced_standard.examples.step.StepMonthly"]

/-! ### What the operations say -/

theorem inputs_large {c : Config} {n i : ℤ} (h0 : c.solutionClimatologyName ≠ c.solutionLargeScaleName)
    (h1 : c.solutionLargeScaleName ≠ c.solutionLocalScaleName) :
    stateInputs c n i (some [c.solutionLargeScaleName]) = spacetimeInputs n i "storage_large_scale" c.solutionLargeScaleName := by
  simp [stateInputs, stateInput, h0, h1, h1.symm]

/-- What is said about an operation which extracts biases, with what it reads besides the state and the arguments for it. -/
def extractFacts (c : Config) (i : ℤ) (command dataset : String) (more keys : List String) (sample prior : Option String) : Facts := {
      command := some (numbered command i), function := some (stationBiasModel "extract_station_biases"), component := some 1
      step := some "eumopps.catalogue.step.StepOnce", times := (none, none)
      arguments := storageArgs ++ ["component_index"] ++ commonArguments ++ ["first_year", "last_year", "outputfile"]
      sample := some 0, prior := some 0, size := some 30, uncertainties := some 0, land := some c.landBiases.json, global := some c.globalBiases.json
      reads := numbered c.solutionLargeScaleName i :: more
      writes := [numbered dataset i]
      creates := some [numbered dataset i]
      patterns := some [(numbered dataset i, [numbered dataset i, numbered dataset i ++ ".pickle"])]
      climatology := { cls := some spaceTimeFiles, arguments := [] }
      largeScale := { cls := some spaceTimeFiles, arguments := "statefilename_read" :: keys
                      stateRead := some (numbered c.solutionLargeScaleName i), sampleRead := sample, priorRead := prior }
      localScale := { cls := some spatialFiles, arguments := [] } }

theorem extract_plain {c : Config} {n i : ℤ} (h0 : c.solutionClimatologyName ≠ c.solutionLargeScaleName)
    (h1 : c.solutionLargeScaleName ≠ c.solutionLocalScaleName) (hi : i ≠ n - 1) (command dataset : String) :
    ∃ j, fillExtractStationBiases c n operationTemplate i 1 command dataset = .ok j ∧
      (facts j = extractFacts c i command dataset [] [] none none ∧
        Spec.text [.key "runmodule", .key "first_year"] j = some (firstFour c.start) ∧
        Spec.text [.key "runmodule", .key "last_year"] j = some (firstFour c.stop)) := by
  have hs : spacetimeInputs n i "storage_large_scale" c.solutionLargeScaleName =
      [([.key "runmodule", .key "storage_large_scale"], "statefilename_read", dataPlaceholder inputFile (numbered c.solutionLargeScaleName i))] := by
    simp [spacetimeInputs, hi]
  evaluate [fillExtractStationBiases, inputs_large h0 h1, hs, biasSettings]
  refine ⟨?_, rfl, rfl⟩
  conclude c in extractFacts

theorem extract_last {c : Config} {n i : ℤ} (h0 : c.solutionClimatologyName ≠ c.solutionLargeScaleName)
    (h1 : c.solutionLargeScaleName ≠ c.solutionLocalScaleName) (hi : i = n - 1) (command dataset : String) :
    ∃ j, fillExtractStationBiases c n operationTemplate i 1 command dataset = .ok j ∧
      (facts j = extractFacts c i command dataset [numberedSample c.solutionLargeScaleName i, numberedPrior c.solutionLargeScaleName i]
          ["sample_filename_read", "prior_sample_filename_read"]
          (some (numberedSample c.solutionLargeScaleName i)) (some (numberedPrior c.solutionLargeScaleName i)) ∧
        Spec.text [.key "runmodule", .key "first_year"] j = some (firstFour c.start) ∧
        Spec.text [.key "runmodule", .key "last_year"] j = some (firstFour c.stop)) := by
  have hs : spacetimeInputs n i "storage_large_scale" c.solutionLargeScaleName =
      [([.key "runmodule", .key "storage_large_scale"], "statefilename_read", dataPlaceholder inputFile (numbered c.solutionLargeScaleName i)),
       ([.key "runmodule", .key "storage_large_scale"], "sample_filename_read", dataPlaceholder inputFile (numberedSample c.solutionLargeScaleName i)),
       ([.key "runmodule", .key "storage_large_scale"], "prior_sample_filename_read", dataPlaceholder inputFile (numberedPrior c.solutionLargeScaleName i))] := by
    simp [spacetimeInputs, hi]
  evaluate [fillExtractStationBiases, inputs_large h0 h1, hs, biasSettings]
  refine ⟨?_, rfl, rfl⟩
  conclude c in extractFacts

/-- What is said about the operation for iteration `i` out of `n`. -/
structure Extracted (c : Config) (n i : ℤ) (j : Json) : Prop where
  facts : facts j = if i = n - 1 then extractFacts c i "store_station_biases" "station_biases"
          [numberedSample c.solutionLargeScaleName i, numberedPrior c.solutionLargeScaleName i]
          ["sample_filename_read", "prior_sample_filename_read"]
          (some (numberedSample c.solutionLargeScaleName i)) (some (numberedPrior c.solutionLargeScaleName i))
        else extractFacts c i "store_station_biases" "station_biases" [] [] none none
  first : Spec.text [.key "runmodule", .key "first_year"] j = some (firstFour c.start)
  last : Spec.text [.key "runmodule", .key "last_year"] j = some (firstFour c.stop)

/-- The three solutions have different names. -/
def Separate (c : Config) : Prop := c.solutionClimatologyName ≠ c.solutionLargeScaleName ∧ c.solutionLargeScaleName ≠ c.solutionLocalScaleName

theorem extract_any {c : Config} (h : Separate c) (n i : ℤ) :
    ∃ j, fillExtractStationBiases c n operationTemplate i 1 "store_station_biases" "station_biases" = .ok j ∧ Extracted c n i j := by
  by_cases hi : i = n - 1
  · obtain ⟨j, h1, h2, h3, h4⟩ := extract_last (c := c) h.1 h.2 hi "store_station_biases" "station_biases"
    exact ⟨j, h1, ⟨by rw [if_pos hi]; exact h2, h3, h4⟩⟩
  · obtain ⟨j, h1, h2, h3, h4⟩ := extract_plain (c := c) h.1 h.2 hi "store_station_biases" "station_biases"
    exact ⟨j, h1, ⟨by rw [if_neg hi]; exact h2, h3, h4⟩⟩

theorem collect_all {P : ℤ → Json → Prop} {f : ℤ → Except PyErr Json} (h : ∀ i, ∃ j, f i = .ok j ∧ P i j) :
    ∀ l : List ℤ, ∃ js, collect (l.map f) = .ok js ∧ List.Forall₂ P l js
  | [] => ⟨[], rfl, .nil⟩
  | i :: l => by
    obtain ⟨j, h1, h2⟩ := h i
    obtain ⟨js, h3, h4⟩ := collect_all h l
    exact ⟨j :: js, by simp [collect, h1, h3], .cons h2 h4⟩

theorem diagnostic_all {c : Config} (h : Separate c) (n : ℤ) :
    ∃ js, List.Forall₂ (Extracted c n) (diagnosticRange n) js ∧
      createDiagnosticDescriptor c n = if n = 0 then .error .valueError else .ok (finalDictionary js) := by
  obtain ⟨js, h1, h2⟩ := collect_all (extract_any h n) (diagnosticRange n)
  refine ⟨js, h2, ?_⟩
  rw [createDiagnosticDescriptor, fillDiagnosticDescriptor, restrict_operation, restrict_batch, restrict_grid]
  dsimp only
  by_cases hn : n = 0
  · rw [if_pos hn, if_pos hn]
  · rw [if_neg hn, if_neg hn, h1]

theorem diagnostic_get {c : Config} (h : Separate c) {n : ℤ} {d : Json} (hd : createDiagnosticDescriptor c n = .ok d) {k : ℕ} {op : Json}
    (hk : (Spec.operations d)[k]? = some op) : (k : ℤ) < n ∧ Extracted c n k op := by
  obtain ⟨js, h1, h2⟩ := diagnostic_all h n
  rw [hd] at h2
  by_cases hz : n = 0
  · rw [if_pos hz] at h2; exact absurd h2 (by simp)
  rw [if_neg hz, Except.ok.injEq] at h2
  have ho : Spec.operations d = js := by rw [h2]; rfl
  rw [ho] at hk
  obtain ⟨hlt, hop⟩ := List.getElem?_eq_some_iff.1 hk
  have hlen := h1.length_eq
  rw [diagnosticRange, List.length_map, List.length_range] at hlen
  have hget := h1.get (i := k) (by rw [diagnosticRange, List.length_map, List.length_range]; omega) hlt
  rw [List.get_eq_getElem, List.get_eq_getElem, hop] at hget
  refine ⟨by omega, ?_⟩
  simpa [diagnosticRange] using hget

theorem diagnostic_shape {c : Config} (h : Separate c) {n : ℤ} {d : Json} (hd : createDiagnosticDescriptor c n = .ok d) {k : ℕ} {op : Json}
    (hk : (Spec.operations d)[k]? = some op) :
    ∃ more keys s p, (keys = [] ∨ keys = ["sample_filename_read", "prior_sample_filename_read"]) ∧
      facts op = extractFacts c k "store_station_biases" "station_biases" more keys s p := by
  have hf := (diagnostic_get h hd hk).2.facts
  split at hf
  · exact ⟨_, _, _, _, .inr rfl, hf⟩
  · exact ⟨_, _, _, _, .inl rfl, hf⟩

/-! ### The descriptor -/

/-- **C165.** A descriptor is written unless the number of iterations is zero, with one operation for each iteration. -/
theorem c165_written {c : Config} (h : Separate c) (n : ℤ) :
    (n = 0 → createDiagnosticDescriptor c n = .error .valueError) ∧
    (n ≠ 0 → ∃ d, createDiagnosticDescriptor c n = .ok d ∧ (Spec.operations d).length = n.toNat) := by
  obtain ⟨js, h1, h2⟩ := diagnostic_all h n
  refine ⟨fun hn => by rw [h2, if_pos hn], fun hn => ⟨finalDictionary js, by rw [h2, if_neg hn], ?_⟩⟩
  have hlen := h1.length_eq
  rw [diagnosticRange, List.length_map, List.length_range] at hlen
  exact hlen.symm

/-- **C165.** Every operation extracts biases: the function is called with each of its parameters, once, and nothing else; the component
is that of the large scale; the operation is run once. -/
theorem c165_arguments {c : Config} (h : Separate c) {n : ℤ} {d : Json} (hd : createDiagnosticDescriptor c n = .ok d) {k : ℕ} {op : Json}
    (hk : (Spec.operations d)[k]? = some op) :
    (∃ ps, Spec.function op = some "eustace.analysis.advanced_standard.examples.station_bias_model.extract_station_biases" ∧
      ("eustace.analysis.advanced_standard.examples.station_bias_model.extract_station_biases", ps) ∈ Spec.diagnosticParameters ∧
      (Spec.arguments op).Perm ps) ∧
    Spec.component op = some 1 ∧ Spec.stepClass op = some "eumopps.catalogue.step.StepOnce" ∧
    Spec.command op = some (Spec.numberedName "store_station_biases" k) ∧ Spec.fits op = true ∧ checkNone op = .ok () := by
  obtain ⟨more, keys, s, p, -, hx⟩ := diagnostic_shape h hd hk
  have e2 : Spec.arguments op = storageArgs ++ ["component_index"] ++ commonArguments ++ ["first_year", "last_year", "outputfile"] :=
    congrArg Facts.arguments hx
  refine ⟨⟨(Spec.diagnosticParameters[0]).2, congrArg Facts.function hx,
    List.getElem_mem (by decide : 0 < Spec.diagnosticParameters.length), ?_⟩,
    congrArg Facts.component hx, congrArg Facts.step hx, congrArg Facts.command hx, congrArg Facts.fits hx, congrArg Facts.complete hx⟩
  rw [e2]
  exact List.isPerm_iff.1 (by decide +kernel)

/-- **C165.** Storage objects are of the right classes and are made with parameters of these, once; the state of the large scale is that of
the iteration, and states of other components are not asked for. -/
theorem c165_state {c : Config} (h : Separate c) {n : ℤ} {d : Json} (hd : createDiagnosticDescriptor c n = .ok d) {k : ℕ} {op : Json}
    (hk : (Spec.operations d)[k]? = some op) :
    Spec.stateRead "storage_large_scale" op = some (Spec.numberedName c.solutionLargeScaleName k) ∧
    Spec.stateRead "storage_climatology" op = none ∧ Spec.stateRead "storage_local" op = none ∧
    ∀ m S s, (m, S, s) ∈ storages c → ∃ cls ps, Spec.storageClass S op = some cls ∧ (cls, decide (m ≠ 2), ps) ∈ Spec.storageParameters ∧
      (∀ a ∈ Spec.storageArguments S op, a ∈ ps) ∧ (Spec.storageArguments S op).Nodup ∧
      Spec.stateWritten S op = none ∧ Spec.sampleWritten S op = none ∧ Spec.priorWritten S op = none ∧ Spec.measurementWritten S op = none := by
  obtain ⟨more, keys, s, p, hkeys, hx⟩ := diagnostic_shape h hd hk
  have e1 : storageFacts "storage_climatology" op = { cls := some spaceTimeFiles, arguments := [] } := by
    have := congrArg Facts.climatology hx; exact this
  have e2 : storageFacts "storage_large_scale" op = { cls := some spaceTimeFiles, arguments := "statefilename_read" :: keys
                                                      stateRead := some (numbered c.solutionLargeScaleName k), sampleRead := s
                                                      priorRead := p } := by
    have := congrArg Facts.largeScale hx; exact this
  have e3 : storageFacts "storage_local" op = { cls := some spatialFiles, arguments := [] } := by
    have := congrArg Facts.localScale hx; exact this
  have part : ∀ (S : String) (b : Bool), Storable b (storageFacts S op) → Unwritten (storageFacts S op) →
      ∃ cls ps, Spec.storageClass S op = some cls ∧ (cls, b, ps) ∈ Spec.storageParameters ∧
    (∀ a ∈ Spec.storageArguments S op, a ∈ ps) ∧ (Spec.storageArguments S op).Nodup ∧
    Spec.stateWritten S op = none ∧ Spec.sampleWritten S op = none ∧ Spec.priorWritten S op = none ∧ Spec.measurementWritten S op = none := by
    rintro S b ⟨cls, ps, a1, a2, a3, a4⟩ ⟨b1, b2, b3, b4⟩
    exact ⟨cls, ps, a1, a2, a3, a4, b1, b2, b3, b4⟩
  refine ⟨congrArg StorageFacts.stateRead e2, congrArg StorageFacts.stateRead e1, congrArg StorageFacts.stateRead e3, ?_⟩
  intro m S s' hm
  refine storages_cases (P := fun m S _ => ∃ cls ps, Spec.storageClass S op = some cls ∧ (cls, decide (m ≠ 2), ps) ∈ Spec.storageParameters ∧
    (∀ a ∈ Spec.storageArguments S op, a ∈ ps) ∧ (Spec.storageArguments S op).Nodup ∧
    Spec.stateWritten S op = none ∧ Spec.sampleWritten S op = none ∧ Spec.priorWritten S op = none ∧ Spec.measurementWritten S op = none) hm
    ?_ ?_ ?_
  · exact part "storage_climatology" true (by rw [e1]; exact storable_files0 rfl rfl (by simp)) (by rw [e1]; exact ⟨rfl, rfl, rfl, rfl⟩)
  · refine part "storage_large_scale" true ?_ (by rw [e2]; exact ⟨rfl, rfl, rfl, rfl⟩)
    rw [e2]
    rcases hkeys with rfl | rfl
    · exact storable_files0 rfl (by dsimp only; decide +kernel) (by simp)
    · exact storable_files0 rfl (by dsimp only; decide +kernel) (by simp)
  · exact part "storage_local" false (by rw [e3]; exact storable_files1 rfl rfl (by simp)) (by rw [e3]; exact ⟨rfl, rfl, rfl, rfl⟩)

/-- **C165.** Every operation writes one data set of one file, which is `station_biases_<i>/station_biases_<i>.pickle`, and adds it to the
catalogue; the years are those of the first and last date. -/
theorem c165_file {c : Config} (h : Separate c) {n : ℤ} {d : Json} (hd : createDiagnosticDescriptor c n = .ok d) {k : ℕ} {op : Json}
    (hk : (Spec.operations d)[k]? = some op) :
    Spec.writes op = [Spec.numberedName "station_biases" k] ∧
    (∃ p, Spec.createsPatterns op = some [(Spec.numberedName "station_biases" k, p)] ∧
      ∀ t, Spec.fileName "eumopps.catalogue.step.StepOnce" p t = .ok (Spec.fileOnce (Spec.numberedName "station_biases" k))) ∧
    (∀ s t : List Char, s.length = 4 → c.startDate.toList = s ++ t → Spec.text [.key "runmodule", .key "first_year"] op = some (String.ofList s)) ∧
    (∀ s t : List Char, s.length = 4 → c.endDate.toList = s ++ t → Spec.text [.key "runmodule", .key "last_year"] op = some (String.ofList s)) := by
  obtain ⟨-, hf, h1, h2⟩ := diagnostic_get h hd hk
  have four : ∀ (date : String) (s t : List Char), s.length = 4 → date.toList = s ++ t → firstFour (date ++ "000000") = String.ofList s := by
    intro date s t hs hd
    rw [firstFour, String.toList_append, hd, List.append_assoc, List.take_append_of_le_length (by omega), List.take_of_length_le (by omega)]
  have hw : (facts op).writes = [Spec.numberedName "station_biases" k] ∧
      (facts op).patterns = some [(Spec.numberedName "station_biases" k, [Spec.numberedName "station_biases" k, Spec.numberedName "station_biases" k ++ ".pickle"])] := by
    rw [hf]; split <;> exact ⟨rfl, rfl⟩
  refine ⟨hw.1, ⟨_, hw.2, fun t => ?_⟩, fun s t hs hd => by rw [h1, Config.start, four _ s t hs hd], fun s t hs hd => by rw [h2, Config.stop, four _ s t hs hd]⟩
  generalize hm : Spec.numberedName "station_biases" (k : ℤ) = m
  have hj : Spec.fileName "eumopps.catalogue.step.StepOnce" [m, m ++ ".pickle"] t = .ok (join2 m.toList (m ++ ".pickle").toList) := rfl
  rw [hj, String.toList_append]
  have hs : m.toList = "station_biases".toList ++ ['_'] ++ (toString (k : ℤ)).toList := by
    rw [← hm, Spec.numberedName, String.toList_append, String.toList_append]; rfl
  have hlast : ∀ x ∈ m.toList, x ≠ '/' := by
    rw [hs]
    intro x hx
    rcases List.mem_append.1 hx with hx | hx
    · clear hm
      revert hx
      generalize x = y
      revert y
      decide
    · have : x ∈ Nat.toDigits 10 k := by
        have : toString ((k : ℕ) : ℤ) = toString k := rfl
        rw [this] at hx
        simpa using hx
      have h := Nat.isDigit_of_mem_toDigits (by decide) (by decide) this
      rintro rfl
      exact absurd h (by decide)
  have hne : m.toList ≠ [] := by rw [hs]; simp
  unfold join2 Spec.fileOnce
  rw [if_neg, if_neg]
  · simp
  · rintro (hc | hc)
    · exact hne hc
    · exact hlast '/' (List.mem_of_getLast? hc) rfl
  · intro hc
    have : '/' ∈ m.toList := by
      cases hl : m.toList with
      | nil => exact absurd hl hne
      | cons x l => rw [hl] at hc; simp only [List.cons_append, List.head?_cons, Option.some.injEq] at hc; simp [hc]
    exact hlast '/' this rfl

/-- The names of the data sets of an analysis with gridding are different; names which meet the conditions. -/
theorem Separate.of {c : Config} (hn : (griddedStems c).Nodup) : Separate c := by
  simp only [griddedStems, List.nodup_cons, List.mem_cons, List.not_mem_nil, or_false, not_or] at hn
  exact ⟨hn.2.1.2.2.2.1, hn.2.2.2.2.2.1.2.2.1⟩

theorem stems_of {c : Config} (hn : (griddedStems c).Nodup) : (stems c).Nodup := by
  unfold stems
  split
  · exact hn
  · refine hn.sublist ?_
    exact .cons₂ _ (.cons₂ _ (.cons _ (.cons _ (.cons₂ _ (.cons₂ _ (.cons _ (.cons _ (.cons₂ _ (List.nil_sublist _)))))))))

/-- What is written by an operation of an analysis has the name of a data set and the number of an iteration, with gridding only in the
last. -/
theorem written_stem {c : Config} (h0 : 0 ≤ c.first) (hn : (griddedStems c).Nodup) {d : Json} (hd : createBatchDescriptor c false = .ok d)
    {op : Json} (ho : op ∈ Spec.operations d) {s : String} {i : ℤ} (hw : numbered s i ∈ Spec.writes op) :
    i ∈ c.range ∧ s ∈ (if c.gridNow i then griddedStems c else plainStems c) := by
  obtain ⟨l, p, h1, h2, -, -⟩ := c142_declared h0 (stems_of hn) hd ho
  have hm : numbered s i ∈ created ((Spec.operations d).map facts) := by
    rw [created, List.mem_flatMap]
    refine ⟨facts op, List.mem_map_of_mem ho, ?_⟩
    change numbered s i ∈ (Spec.creates op).getD []
    rw [h1]
    exact h2.mem_iff.2 hw
  rw [operations_facts h0 (stems_of hn) hd, created, List.flatMap_assoc] at hm
  obtain ⟨i', hi', hm⟩ := List.mem_flatMap.1 hm
  change numbered s i ∈ created (iterationFacts c i') at hm
  by_cases hg : c.gridNow i'
  · have : created (iterationFacts c i') = (griddedStems c).map fun s => numbered s i' := by
      rw [iterationFacts, if_pos hg, griddedFacts]
      simp only [created, List.flatMap_cons, List.flatMap_nil, measurement0_creates, measurement1_creates]
      simp [solution0_gridFacts, solution1_gridFacts, prior0Facts, prior1Facts, local_gridFacts, gridFacts, griddedStems, sample_numbered, prior_numbered]
    rw [this] at hm
    obtain ⟨s', hs', he⟩ := List.mem_map.1 hm
    obtain ⟨rfl, rfl⟩ := numbered_inj he
    exact ⟨hi', by rw [if_pos hg]; exact hs'⟩
  · have : created (iterationFacts c i') = (plainStems c).map fun s => numbered s i' := by
      rw [iterationFacts, if_neg hg, plainFacts]
      simp only [created, List.flatMap_cons, List.flatMap_nil, measurement0_creates, measurement1_creates]
      simp [solution0_plainFacts, solution1_plainFacts, local_plainFacts, plainStems]
    rw [this] at hm
    obtain ⟨s', hs', he⟩ := List.mem_map.1 hm
    obtain ⟨rfl, rfl⟩ := numbered_inj he
    exact ⟨hi', by rw [if_neg hg]; exact hs'⟩

/-- Operations with given facts are in the descriptor. -/
theorem facts_mem {c : Config} (h0 : 0 ≤ c.first) (hn : (stems c).Nodup) {d : Json} (hd : createBatchDescriptor c false = .ok d)
    {i : ℤ} (hi : i ∈ c.range) {x : Facts} (hx : x ∈ iterationFacts c i) : ∃ op ∈ Spec.operations d, facts op = x := by
  have : x ∈ (Spec.operations d).map facts := by
    rw [operations_facts h0 hn hd]
    exact List.mem_flatMap.2 ⟨i, hi, hx⟩
  obtain ⟨op, ho, h⟩ := List.mem_map.1 this
  exact ⟨op, ho, h⟩

/-- **C165.** All that the operations read is written by those of an analysis from iteration 0 with the same names if and only if the
analysis ends with the iteration which is the last for both, and this one is gridded: samples are asked for which are only there in that
case. -/
theorem c165_reads {c : Config} (hc : c.first = 0) (hn : (griddedStems c).Nodup) {n : ℤ} (hp : 0 < n) {d dm : Json}
    (hd : createDiagnosticDescriptor c n = .ok d) (hm : createBatchDescriptor c false = .ok dm) :
    (∀ op ∈ Spec.operations d, ∀ s ∈ Spec.reads op, ∃ op' ∈ Spec.operations dm, s ∈ Spec.writes op') ↔ c.last = n - 1 ∧ c.gridLast ≠ 0 := by
  have hsep := Separate.of hn
  have h0 : 0 ≤ c.first := by omega
  constructor
  · intro h
    obtain ⟨d', hd', hlen⟩ := (c165_written hsep n).2 (by omega)
    rw [hd, Except.ok.injEq] at hd'
    subst hd'
    have hlt : (n - 1).toNat < (Spec.operations d).length := by omega
    obtain ⟨-, hf, -, -⟩ := diagnostic_get hsep hd (List.getElem?_eq_getElem hlt)
    have hcast : ((n - 1).toNat : ℤ) = n - 1 := by omega
    rw [hcast, if_pos rfl] at hf
    have hr : numberedSample c.solutionLargeScaleName (n - 1) ∈ Spec.reads (Spec.operations d)[(n - 1).toNat] := by
      have : Spec.reads (Spec.operations d)[(n - 1).toNat] = (facts (Spec.operations d)[(n - 1).toNat]).reads := rfl
      rw [this, hf]
      simp [extractFacts]
    obtain ⟨op', ho', hw⟩ := h _ (List.getElem_mem hlt) _ hr
    rw [sample_numbered] at hw
    obtain ⟨-, hs⟩ := written_stem h0 hn hm ho' hw
    by_cases hg : c.gridNow (n - 1)
    · exact ⟨hg.1.symm, hg.2⟩
    · rw [if_neg hg] at hs
      exfalso
      simp only [griddedStems, List.nodup_cons, List.mem_cons, List.not_mem_nil, or_false, not_or] at hn
      simp only [plainStems, List.mem_cons, List.not_mem_nil, or_false] at hs
      rcases hs with hs | hs | hs | hs | hs
      · exact hn.1.2.2.2.2.2.1 hs.symm
      · exact hn.2.1.2.2.2.2.1 hs.symm
      · exact hn.2.2.2.2.1.2.1 hs.symm
      · exact hn.2.2.2.2.2.1.1 hs.symm
      · exact hn.2.2.2.2.2.2.1.2.1 hs
  · rintro ⟨hl, hg⟩ op ho s hs
    obtain ⟨k, hk, rfl⟩ := List.getElem_of_mem ho
    obtain ⟨hkn, hf, -, -⟩ := diagnostic_get hsep hd (List.getElem?_eq_getElem hk)
    have hr : Spec.reads (Spec.operations d)[k] = (facts (Spec.operations d)[k]).reads := rfl
    rw [hr, hf] at hs
    have hmem : (k : ℤ) ∈ c.range := by
      unfold Config.range Config.iterations
      exact List.mem_map.2 ⟨k, List.mem_range.2 (by omega), by omega⟩
    by_cases hlast : (k : ℤ) = n - 1
    · have hgn : c.gridNow k := ⟨by omega, hg⟩
      rw [if_pos hlast] at hs
      have hi : ∀ x ∈ griddedFacts c k, ∃ op ∈ Spec.operations dm, facts op = x := by
        intro x hx
        exact facts_mem h0 (stems_of hn) hm hmem (by rw [iterationFacts, if_pos hgn]; exact hx)
      obtain ⟨o1, ho1, e1⟩ := hi (solution1_gridFacts c k c.solutionLargeScaleCommand c.solutionLargeScaleName c.measurementLargeScaleName) (by simp [griddedFacts])
      obtain ⟨o2, ho2, e2⟩ := hi (prior1Facts c k c.solutionLargeScaleCommand c.solutionLargeScaleName) (by simp [griddedFacts])
      have w1 : Spec.writes o1 = (facts o1).writes := rfl
      have w2 : Spec.writes o2 = (facts o2).writes := rfl
      simp only [extractFacts, List.mem_cons, List.not_mem_nil, or_false] at hs
      rcases hs with rfl | rfl | rfl
      · exact ⟨o1, ho1, by rw [w1, e1]; simp [solution1_gridFacts]⟩
      · exact ⟨o1, ho1, by rw [w1, e1]; simp [solution1_gridFacts]⟩
      · exact ⟨o2, ho2, by rw [w2, e2]; simp [prior1Facts]⟩
    · have hgn : ¬ c.gridNow k := fun h => hlast (by have := h.1; omega)
      rw [if_neg hlast] at hs
      obtain ⟨o1, ho1, e1⟩ := facts_mem h0 (stems_of hn) hm hmem
        (x := solution1_plainFacts c k c.solutionLargeScaleCommand c.solutionLargeScaleName c.measurementLargeScaleName)
        (by rw [iterationFacts, if_neg hgn]; simp [plainFacts])
      have w1 : Spec.writes o1 = (facts o1).writes := rfl
      simp only [extractFacts, List.mem_cons, List.not_mem_nil, or_false] at hs
      subst hs
      exact ⟨o1, ho1, by rw [w1, e1]; simp [solution1_plainFacts]⟩

/-- **C165.** Data sets of the diagnostics have names which those of the analysis do not have, if no name given for the analysis is
one of theirs. -/
theorem c165_separate {c : Config} (h0 : 0 ≤ c.first) (hn : (griddedStems c).Nodup) (hs : "station_biases" ∉ griddedStems c) {n : ℤ}
    {d dm : Json} (hd : createDiagnosticDescriptor c n = .ok d) (hm : createBatchDescriptor c false = .ok dm) :
    (∀ op ∈ Spec.operations d, ∀ s ∈ Spec.writes op, ∀ op' ∈ Spec.operations dm, s ∉ Spec.writes op') ∧
    ((Spec.operations d).flatMap Spec.writes).Nodup := by
  have hsep := Separate.of hn
  constructor
  · intro op ho s hw op' ho' hw'
    obtain ⟨k, hk, rfl⟩ := List.getElem_of_mem ho
    rw [(c165_file hsep hd (List.getElem?_eq_getElem hk)).1, List.mem_singleton] at hw
    subst hw
    have := (written_stem h0 hn hm ho' hw').2
    refine hs ?_
    split at this
    · exact this
    · exact List.Sublist.mem this (.cons₂ _ (.cons₂ _ (.cons _ (.cons _ (.cons₂ _ (.cons₂ _ (.cons _ (.cons _ (.cons₂ _ (List.nil_sublist _))))))))))
  · have hl : (Spec.operations d).flatMap Spec.writes = (List.range (Spec.operations d).length).map fun k : ℕ => Spec.numberedName "station_biases" k := by
      have : (Spec.operations d).map Spec.writes = (List.range (Spec.operations d).length).map fun k : ℕ => [Spec.numberedName "station_biases" k] := by
        refine List.ext_getElem (by simp) fun k h1 h2 => ?_
        rw [List.length_map] at h1
        rw [List.getElem_map, (c165_file hsep hd (List.getElem?_eq_getElem h1)).1]
        simp
      rw [List.flatMap_def, this]
      generalize List.range (Spec.operations d).length = l
      induction l with
      | nil => rfl
      | cons k l ih => simp [ih]
    rw [hl]
    refine List.nodup_range.map fun a b hab => ?_
    have := (numbered_inj (a := "station_biases") (b := "station_biases") hab).2
    exact_mod_cast this

/-! ### Operations which the generator can make but does not put into the descriptor -/

theorem early_eq {c : Config} (i : ℤ) (h0 : c.solutionClimatologyName ≠ c.solutionLocalScaleName)
    (h1 : c.solutionLargeScaleName ≠ c.solutionLocalScaleName) :
    earlyInput c i "storage_climatology" c.solutionClimatologyName ++ earlyInput c i "storage_large_scale" c.solutionLargeScaleName ++
      earlyInput c i "storage_local" c.solutionLocalScaleName =
    [([.key "runmodule", .key "storage_climatology"], "statefilename_read", dataPlaceholder inputFile (numbered c.solutionClimatologyName i)),
     ([.key "runmodule", .key "storage_large_scale"], "statefilename_read", dataPlaceholder inputFile (numbered c.solutionLargeScaleName i)),
     ([.key "runmodule", .key "storage_local"], "statefilelist_read", optionalPlaceholder annualBatchDays (numbered c.solutionLocalScaleName i)),
     ([.key "runmodule", .key "storage_local"], "time_list", placeholder batchDayIndices)] := by
  simp [earlyInput, h0, h1]

/-- What is said about the operation of the preview. -/
def earlyFacts (c : Config) (i : ℤ) : Facts := {
      command := some (numbered (c.outputGridCommand ++ "_preview") i), function := some (fullName "early_look_grid_batch"), component := none
      step := some "eustace.analysis.advanced_standard.examples.step.StepMonthly"
      times := (some c.start, some c.stop), arguments := storageArgs ++ ["time_indices"] ++ commonArguments ++ ["outputfiles"]
      sample := some 0, prior := some 0, size := some 10, uncertainties := some 0, land := some c.landBiases.json, global := some c.globalBiases.json
      reads := [numbered c.solutionClimatologyName i, numbered c.solutionLargeScaleName i, numbered c.solutionLocalScaleName i]
      writes := [numbered (c.outputGridName ++ "_preview") i]
      creates := some [numbered (c.outputGridName ++ "_preview") i]
      patterns := some [daily (numbered (c.outputGridName ++ "_preview") i) "nc"]
      climatology := { cls := some spaceTimeBatched, arguments := ["keep_in_memory", "statefilename_read"], stateRead := some (numbered c.solutionClimatologyName i) }
      largeScale := { cls := some spaceTimeBatched, arguments := ["keep_in_memory", "statefilename_read"], stateRead := some (numbered c.solutionLargeScaleName i) }
      localScale := { cls := some spatialIndexed, arguments := ["statefilelist_read", "time_list"], stateRead := some (numbered c.solutionLocalScaleName i) }
      complete := .error .valueError }

theorem early {c : Config} (i : ℤ) (h0 : c.solutionClimatologyName ≠ c.solutionLocalScaleName)
    (h1 : c.solutionLargeScaleName ≠ c.solutionLocalScaleName) :
    ∃ j, fillEarlyLook c batchTemplate i = .ok j ∧ facts j = earlyFacts c i := by
  have hl := early_eq (c := c) i h0 h1
  unfold fillEarlyLook
  rw [List.append_assoc, List.append_assoc, ← List.append_assoc (earlyInput _ _ _ _), hl]
  evaluate [outputSampleSize]
  conclude c in earlyFacts

/-- **C165.** The operation for a preview calls an existing function with each of its parameters, once, for steps of an existing class, and
adds what it writes; for every iteration of an analysis, with or without gridding, all that it reads is written by the analysis. -/
theorem c165_preview {c : Config} (h0 : 0 ≤ c.first) (hn : (stems c).Nodup) (i : ℤ) :
    ∃ op, fillEarlyLook c batchTemplate i = .ok op ∧
      (∃ ps, Spec.function op = some "eustace.analysis.advanced_standard.examples.moving_climatology.early_look_grid_batch" ∧
        ("eustace.analysis.advanced_standard.examples.moving_climatology.early_look_grid_batch", ps) ∈ Spec.diagnosticParameters ∧
        (Spec.arguments op).Perm ps) ∧
      (∃ s ∈ Spec.stepClasses, Spec.stepClass op = some s) ∧ Spec.fits op = true ∧
      (∃ p, Spec.writes op = [p] ∧ Spec.creates op = some [p]) ∧
      ∀ dm, createBatchDescriptor c false = .ok dm → c.first ≤ i → i ≤ c.last →
        ∀ s ∈ Spec.reads op, ∃ op' ∈ Spec.operations dm, s ∈ Spec.writes op' := by
  obtain ⟨ha, hb⟩ := stems_solutions hn
  obtain ⟨op, h1, hx⟩ := early i ha hb
  have e2 : Spec.arguments op = storageArgs ++ ["time_indices"] ++ commonArguments ++ ["outputfiles"] := congrArg Facts.arguments hx
  refine ⟨op, h1, ⟨(Spec.diagnosticParameters[2]).2, congrArg Facts.function hx,
    List.getElem_mem (by decide : 2 < Spec.diagnosticParameters.length), ?_⟩,
    ⟨_, List.getElem_mem (by decide : 3 < Spec.stepClasses.length), congrArg Facts.step hx⟩, congrArg Facts.fits hx,
    ⟨_, congrArg Facts.writes hx, congrArg Facts.creates hx⟩, ?_⟩
  · rw [e2]
    exact List.isPerm_iff.1 (by decide +kernel)
  · intro dm hd h2 h3 s hs
    have hr : Spec.reads op = [numbered c.solutionClimatologyName i, numbered c.solutionLargeScaleName i, numbered c.solutionLocalScaleName i] :=
      congrArg Facts.reads hx
    rw [hr] at hs
    have hmem : i ∈ c.range := by
      unfold Config.range Config.iterations
      exact List.mem_map.2 ⟨(i - c.first).toNat, List.mem_range.2 (by omega), by omega⟩
    have hw : ∀ x ∈ iterationFacts c i, s ∈ x.writes → ∃ op' ∈ Spec.operations dm, s ∈ Spec.writes op' := by
      intro x hx hsx
      obtain ⟨o, ho, e⟩ := facts_mem h0 hn hd hmem hx
      have w1 : Spec.writes o = (facts o).writes := rfl
      exact ⟨o, ho, by rw [w1, e]; exact hsx⟩
    simp only [List.mem_cons, List.not_mem_nil, or_false] at hs
    by_cases hg : c.gridNow i
    · rw [iterationFacts, if_pos hg] at hw
      rcases hs with rfl | rfl | rfl
      · exact hw (solution0_gridFacts c i c.solutionClimatologyCommand c.solutionClimatologyName c.measurementClimatologyName)
          (by simp [griddedFacts]) (by simp [solution0_gridFacts])
      · exact hw (solution1_gridFacts c i c.solutionLargeScaleCommand c.solutionLargeScaleName c.measurementLargeScaleName)
          (by simp [griddedFacts]) (by simp [solution1_gridFacts])
      · exact hw (local_gridFacts c i) (by simp [griddedFacts]) (by simp [local_gridFacts])
    · rw [iterationFacts, if_neg hg] at hw
      rcases hs with rfl | rfl | rfl
      · exact hw (solution0_plainFacts c i c.solutionClimatologyCommand c.solutionClimatologyName c.measurementClimatologyName)
          (by simp [plainFacts]) (by simp [solution0_plainFacts])
      · exact hw (solution1_plainFacts c i c.solutionLargeScaleCommand c.solutionLargeScaleName c.measurementLargeScaleName)
          (by simp [plainFacts]) (by simp [solution1_plainFacts])
      · exact hw (local_plainFacts c i) (by simp [plainFacts]) (by simp [local_plainFacts])

theorem save_inputs {c : Config} (n i : ℤ) (h0 : c.solutionClimatologyName ≠ c.solutionLocalScaleName)
    (h1 : c.solutionLargeScaleName ≠ c.solutionLocalScaleName) :
    stateInputs c n i none = spacetimeInputs n i "storage_climatology" c.solutionClimatologyName ++
      spacetimeInputs n i "storage_large_scale" c.solutionLargeScaleName ++ localInputs n i "storage_local" c.solutionLocalScaleName := by
  simp [stateInputs, stateInput, h0, h1]

/-- **C165, violated.** The operation to save the analysis, which can be made for every iteration, has steps of a class which does not
exist, and writes to none of the data sets which it adds to the catalogue. -/
theorem c165_save_violated {c : Config} (hn : (stems c).Nodup) (n i component : ℤ) (command dataset : String) :
    ∃ op, fillAnalysissystemSave c n batchTemplate i component command dataset = .ok op ∧
      (∀ s, Spec.stepClass op = some s → s ∉ Spec.stepClasses) ∧ Spec.stepClass op ≠ none ∧
      Spec.creates op = some [Spec.numberedName dataset i] ∧ Spec.writes op = [] := by
  obtain ⟨h0, h1⟩ := stems_solutions hn
  have hcls : "eustace.analysis.advanced_standard.examples.StepAnnual" ∉ Spec.stepClasses := by decide +kernel
  by_cases hi : i = n - 1
  · have hs : ∀ a b, spacetimeInputs n i a b = [([.key "runmodule", .key a], "statefilename_read", dataPlaceholder inputFile (numbered b i)),
       ([.key "runmodule", .key a], "sample_filename_read", dataPlaceholder inputFile (numberedSample b i)),
       ([.key "runmodule", .key a], "prior_sample_filename_read", dataPlaceholder inputFile (numberedPrior b i))] := by
      intro a b; simp [spacetimeInputs, hi]
    have hl : ∀ a b, localInputs n i a b = [([.key "runmodule", .key a], "statefilelist_read", optionalPlaceholder annualBatchDays (numbered b i)),
       ([.key "runmodule", .key a], "time_list", placeholder batchDayIndices),
       ([.key "runmodule", .key a], "sample_filelist_read", optionalPlaceholder annualBatchDays (numberedSample b i)),
       ([.key "runmodule", .key a], "prior_sample_filelist_read", optionalPlaceholder annualBatchDays (numberedPrior b i))] := by
      intro a b; simp [localInputs, hi]
    evaluate [fillAnalysissystemSave, save_inputs n i h0 h1, hs, hl, biasSettings, placeholder]
    refine ⟨?_, ?_, rfl, ?_⟩
    · intro s hs
      have : s = "eustace.analysis.advanced_standard.examples.StepAnnual" := (Option.some.inj hs).symm
      rw [this]; exact hcls
    · exact Option.some_ne_none _
    · generalize c.landBiases = l
      generalize c.globalBiases = g
      cases l <;> cases g <;> rfl
  · have hs : ∀ a b, spacetimeInputs n i a b = [([.key "runmodule", .key a], "statefilename_read", dataPlaceholder inputFile (numbered b i))] := by
      intro a b; simp [spacetimeInputs, hi]
    have hl : ∀ a b, localInputs n i a b = [([.key "runmodule", .key a], "statefilelist_read", optionalPlaceholder annualBatchDays (numbered b i)),
       ([.key "runmodule", .key a], "time_list", placeholder batchDayIndices)] := by
      intro a b; simp [localInputs, hi]
    evaluate [fillAnalysissystemSave, save_inputs n i h0 h1, hs, hl, biasSettings, placeholder]
    refine ⟨?_, ?_, rfl, ?_⟩
    · intro s hs
      have : s = "eustace.analysis.advanced_standard.examples.StepAnnual" := (Option.some.inj hs).symm
      rw [this]; exact hcls
    · exact Option.some_ne_none _
    · generalize c.landBiases = l
      generalize c.globalBiases = g
      cases l <;> cases g <;> rfl

/-! ### Cases -/

/-- An analysis of six iterations with gridding, in which outputs have different names: the conditions hold and the descriptor has all
that it reads. -/
example : ∃ c : Config, c.first = 0 ∧ c.last = 5 ∧ (griddedStems c).Nodup ∧ "station_biases" ∉ griddedStems c ∧ c.gridLast ≠ 0 :=
  ⟨scriptConfig 0 5 1 "18800101" "20151231", rfl, rfl, by decide +kernel, by decide +kernel, by decide⟩

/-- **C165, violated.** Without gridding the descriptor asks for samples which no operation of the analysis writes. -/
theorem c165_samples_violated {c : Config} (hc : c.first = 0) (hn : (griddedStems c).Nodup) (hg : c.gridLast = 0) {n : ℤ} (hp : 0 < n)
    {d dm : Json} (hd : createDiagnosticDescriptor c n = .ok d) (hm : createBatchDescriptor c false = .ok dm) :
    ∃ op ∈ Spec.operations d, ∃ s ∈ Spec.reads op, ∀ op' ∈ Spec.operations dm, s ∉ Spec.writes op' := by
  by_contra h
  push Not at h
  exact ((c165_reads hc hn hp hd hm).1 h).2 hg

end Verif.Eustace.Descriptor
