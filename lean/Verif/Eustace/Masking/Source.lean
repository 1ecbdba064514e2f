import Verif.Eustace.Masking.Missing
import Verif.Eustace.Format.Model

/-! The files which quality control reads are those which the analysis writes: C141. Model of the output in
src/eustace/analysis/advanced_standard/examples/moving_climatology.py, with the definitions of variables in `Format`. -/
namespace Verif.Eustace.Masking
open Verif Verif.Calendar Verif.Eustace.Flags

/-- `Cube.name()` (Iris): the standard name, or else the long name, or else the name of the variable. -/
def cubeName (v : Format.OutVar) : String :=
  match v.members "standard_name" with
  | some (.text s) => s
  | _ =>
    match v.longName with
    | some l => String.ofList l
    | none => v.name

/-- `add_global_field`, globalfield_filebuilder.py 105-133, of a variable in definitions.py, read again by Iris. Simplified: values are
taken as stored; packing is in `Format`. -/
def fieldCube (d : Format.Template × String × Format.Keywords) (g : Grid) : Option Cube :=
  match Format.fromTemplate d.1 d.2.1 d.2.2 with
  | .error _ => none
  | .ok v => some ⟨cubeName v, v.name, g⟩

/-- The same where the name is replaced by `variable.name + '_' + str(index)`, moving_climatology.py 280-281 and 456-457. -/
def memberCube (d : Format.Template × String × Format.Keywords) (index : ℕ) (g : Grid) : Option Cube :=
  match Format.fromTemplate d.1 d.2.1 d.2.2 with
  | .error _ => none
  | .ok v => some ⟨cubeName v, String.ofList (v.name.toList ++ '_' :: Nat.toDigits 10 index), g⟩

/-- The cubes of a file. -/
def fileOf : List (Option Cube) → Option (List Cube)
  | [] => some []
  | none :: _ => none
  | some c :: l => (fileOf l).map (c :: ·)

/-- `TAS`, definitions.py 182. -/
def TAS : Format.Template × String × Format.Keywords := Format.definitions.getD 0 (Format.templateTemperature, "", [])

/-- `TASUNCERTAINTY`, definitions.py 186. -/
def TASUNCERTAINTY : Format.Template × String × Format.Keywords := Format.definitions.getD 3 (Format.templateTemperature, "", [])

/-- `TAS_CLIMATOLOGY_FRACTION`, definitions.py 190. -/
def TAS_CLIMATOLOGY_FRACTION : Format.Template × String × Format.Keywords := Format.definitions.getD 6 (Format.templateTemperature, "", [])

/-- `TAS_OBSERVATION_INFLUENCE`, definitions.py 194. -/
def TAS_OBSERVATION_INFLUENCE : Format.Template × String × Format.Keywords := Format.definitions.getD 9 (Format.templateTemperature, "", [])

/-- `TASENSEMBLE`, definitions.py 198. -/
def TASENSEMBLE : Format.Template × String × Format.Keywords := Format.definitions.getD 12 (Format.templateTemperature, "", [])

/-- `TASPERTURBATION`, definitions.py 202. -/
def TASPERTURBATION : Format.Template × String × Format.Keywords := Format.definitions.getD 15 (Format.templateTemperature, "", [])

/-- What is computed for a component, moving_climatology.py 382-386. -/
structure Result where
  expected : Grid
  uncertainty : Grid
  unconstraint : Grid
  samples : ℕ → Grid

/-- What is computed for a day; `rootSum` is `numpy.sqrt(a**2 + b**2 + c**2)` in floating point, moving_climatology.py 449. -/
structure Results where
  climatology : Result
  largeScale : Result
  localScale : Result
  rootSum : ℚ → ℚ → ℚ → ℚ

/-- `result_expected_value`, moving_climatology.py 448. -/
def Results.expected (r : Results) : Grid := fun i j => r.climatology.expected i j + r.largeScale.expected i j + r.localScale.expected i j

/-- `result_expected_uncertainties`, moving_climatology.py 449. -/
def Results.uncertainty (r : Results) : Grid := fun i j =>
  r.rootSum (r.climatology.uncertainty i j) (r.largeScale.uncertainty i j) (r.localScale.uncertainty i j)

/-- `selected_sample`, moving_climatology.py 459. -/
def Results.sample (r : Results) (k : ℕ) : Grid := fun i j =>
  r.climatology.samples k i j + r.largeScale.samples k i j + r.localScale.samples k i j

/-- The members, moving_climatology.py 456-460; `n` is `GLOBAL_SAMPLE_SHAPE[3]`. -/
def memberCubes (n : ℕ) (r : Results) : List (Option Cube) := (List.range n).map fun k => memberCube TASENSEMBLE k (r.sample k)

/-- A file of a component in `output_grid_batch`, moving_climatology.py 464-517. -/
def componentFile (d : Format.Template × String × Format.Keywords) (r : Result) : Option (List Cube) :=
  fileOf [fieldCube d r.expected, fieldCube TASUNCERTAINTY r.uncertainty,
    fieldCube TAS_OBSERVATION_INFLUENCE fun i j => 1 - r.unconstraint i j]

/-- The files of a day in `output_grid_batch`, moving_climatology.py 436-517. -/
def outputBatch (n : ℕ) (r : Results) : DayFiles where
  analysis := fileOf ([fieldCube TAS r.expected, fieldCube TASUNCERTAINTY r.uncertainty,
    fieldCube TAS_OBSERVATION_INFLUENCE fun i j => 1 - r.localScale.unconstraint i j] ++ memberCubes n r)
  climatology := componentFile TAS r.climatology
  largeScale := componentFile TASPERTURBATION r.largeScale
  localScale := componentFile TASPERTURBATION r.localScale

/-- A file of a component in `output_grid`, moving_climatology.py 299-301, 316-318 and 332-334. -/
def fractionFile (d : Format.Template × String × Format.Keywords) (r : Result) : Option (List Cube) :=
  fileOf [fieldCube d r.expected, fieldCube TASUNCERTAINTY r.uncertainty, fieldCube TAS_CLIMATOLOGY_FRACTION r.unconstraint]

/-- The files of a day in `output_grid`, moving_climatology.py 257-334. -/
def outputGrid (n : ℕ) (r : Results) : DayFiles where
  analysis := fileOf ([fieldCube TAS r.expected, fieldCube TASUNCERTAINTY r.uncertainty,
    fieldCube TAS_CLIMATOLOGY_FRACTION r.localScale.unconstraint] ++ memberCubes n r)
  climatology := fractionFile TAS r.climatology
  largeScale := fractionFile TASPERTURBATION r.largeScale
  localScale := fractionFile TASPERTURBATION r.localScale

/-! ### Names -/

/-- The names under which a variable is read. -/
def namesOf (d : Format.Template × String × Format.Keywords) : Option (String × String) :=
  match Format.fromTemplate d.1 d.2.1 d.2.2 with
  | .error _ => none
  | .ok v => some (cubeName v, v.name)

theorem fieldCube_eq {d : Format.Template × String × Format.Keywords} {a b : String} (h : namesOf d = some (a, b)) (g : Grid) :
    fieldCube d g = some ⟨a, b, g⟩ := by
  unfold namesOf at h
  unfold fieldCube
  cases hv : Format.fromTemplate d.1 d.2.1 d.2.2 with
  | error e => rw [hv] at h; exact absurd h (by simp)
  | ok v =>
    rw [hv] at h
    simp only [Option.some.injEq, Prod.mk.injEq] at h
    simp only [h.1, h.2]

theorem names_tas : namesOf TAS = some ("air_temperature", "tas") := by decide +kernel
theorem names_perturbation : namesOf TASPERTURBATION = some ("air_temperature", "tas_perturbation") := by decide +kernel
theorem names_uncertainty :
    namesOf TASUNCERTAINTY = some ("Total uncertainty in average daily surface air temperature", "tasuncertainty") := by decide +kernel
theorem names_influence : namesOf TAS_OBSERVATION_INFLUENCE =
    some ("Observation influence for average daily surface air temperature", "tasobservationinfluence") := by decide +kernel
theorem names_fraction : namesOf TAS_CLIMATOLOGY_FRACTION =
    some ("Climatology fraction for average daily surface air temperature", "tasclimatologyfraction") := by decide +kernel
theorem names_ensemble : namesOf TASENSEMBLE = some ("Average daily surface air temperature ensemble", "tasensemble") := by decide +kernel

theorem memberCube_eq (k : ℕ) (g : Grid) :
    memberCube TASENSEMBLE k g = some ⟨"Average daily surface air temperature ensemble", Spec.memberVariable k, g⟩ := by
  have h := names_ensemble
  unfold namesOf at h
  unfold memberCube
  cases hv : Format.fromTemplate TASENSEMBLE.1 TASENSEMBLE.2.1 TASENSEMBLE.2.2 with
  | error e => rw [hv] at h; exact absurd h (by simp)
  | ok v =>
    rw [hv] at h
    simp only [Option.some.injEq, Prod.mk.injEq] at h
    simp only [h.1, h.2, Option.some.injEq, Cube.mk.injEq, true_and, and_true]
    rw [← String.ofList_toList (s := Spec.memberVariable k), toList_memberVariable]
    congr 1

theorem fileOf_some (l : List Cube) : fileOf (l.map some) = some l := by
  induction l with
  | nil => rfl
  | cons c l ih => rw [List.map_cons, fileOf, ih]; rfl

/-! ### C141 -/

/-- What the files of a day should say. -/
def dayOf (n : ℕ) (r : Results) : Spec.Day where
  analysis := ⟨fun i j => r.climatology.expected i j + r.largeScale.expected i j + r.localScale.expected i j,
    fun i j => r.rootSum (r.climatology.uncertainty i j) (r.largeScale.uncertainty i j) (r.localScale.uncertainty i j),
    fun i j => 1 - r.localScale.unconstraint i j⟩
  climatology := ⟨r.climatology.expected, r.climatology.uncertainty, fun i j => 1 - r.climatology.unconstraint i j⟩
  largeScale := ⟨r.largeScale.expected, r.largeScale.uncertainty, fun i j => 1 - r.largeScale.unconstraint i j⟩
  localScale := ⟨r.localScale.expected, r.localScale.uncertainty, fun i j => 1 - r.localScale.unconstraint i j⟩
  size := n
  members := fun k i j => r.climatology.samples k i j + r.largeScale.samples k i j + r.localScale.samples k i j

theorem memberCubes_eq (n : ℕ) (r : Results) : memberCubes n r =
    (((List.range n).map fun k => (⟨"Average daily surface air temperature ensemble", Spec.memberVariable k, r.sample k⟩ : Cube)).map some) := by
  unfold memberCubes
  rw [List.map_map]
  exact List.map_congr_left fun k _ => memberCube_eq k _

theorem stores_component {d : Format.Template × String × Format.Keywords} {b : String} (h : namesOf d = some ("air_temperature", b))
    (r : Result) : Spec.Stores (componentFile d r) ⟨r.expected, r.uncertainty, fun i j => 1 - r.unconstraint i j⟩ := by
  unfold componentFile
  rw [fieldCube_eq h, fieldCube_eq names_uncertainty, fieldCube_eq names_influence]
  refine ⟨_, rfl, ⟨b, ?_⟩, ⟨"tasuncertainty", ?_⟩, ⟨"tasobservationinfluence", ?_⟩⟩ <;> rfl

/-- C141: the files which the analysis writes for a day with `output_grid_batch` are complete for quality control. -/
theorem c141_complete (n : ℕ) (r : Results) : Spec.Complete (outputBatch n r) (dayOf n r) := by
  have ha : (outputBatch n r).analysis = some ([⟨"air_temperature", "tas", r.expected⟩,
      ⟨"Total uncertainty in average daily surface air temperature", "tasuncertainty", r.uncertainty⟩,
      ⟨"Observation influence for average daily surface air temperature", "tasobservationinfluence",
        fun i j => 1 - r.localScale.unconstraint i j⟩] ++
      (List.range n).map fun k => ⟨"Average daily surface air temperature ensemble", Spec.memberVariable k, r.sample k⟩) := by
    unfold outputBatch
    simp only
    rw [fieldCube_eq names_tas, fieldCube_eq names_uncertainty, fieldCube_eq names_influence, memberCubes_eq]
    exact fileOf_some (_ :: _ :: _ :: _)
  have hmem : ∀ name : String, name ≠ "Average daily surface air temperature ensemble" →
      ((List.range n).map fun k => (⟨"Average daily surface air temperature ensemble", Spec.memberVariable k, r.sample k⟩ : Cube)).filter
        (·.name = name) = [] := by
    intro name hn
    rw [List.filter_eq_nil_iff]
    intro c hc
    rw [List.mem_map] at hc
    obtain ⟨k, _, rfl⟩ := hc
    simpa using fun h => hn h.symm
  refine ⟨⟨_, ha, ⟨"tas", ?_⟩, ⟨"tasuncertainty", ?_⟩, ⟨"tasobservationinfluence", ?_⟩⟩, ⟨_, List.range n, ha, List.Perm.refl _, ?_⟩,
    stores_component names_tas _, stores_component names_perturbation _, stores_component names_perturbation _⟩
  · rw [List.filter_append, hmem _ (by decide)]; rfl
  · rw [List.filter_append, hmem _ (by decide)]; rfl
  · rw [List.filter_append, hmem _ (by decide)]; rfl
  · rw [List.filter_append]
    have : ((List.range n).map fun k => (⟨"Average daily surface air temperature ensemble", Spec.memberVariable k, r.sample k⟩ : Cube)).filter
        (·.name = "Average daily surface air temperature ensemble") =
        (List.range n).map fun k => ⟨"Average daily surface air temperature ensemble", Spec.memberVariable k, r.sample k⟩ := by
      rw [List.filter_eq_self]
      intro c hc
      rw [List.mem_map] at hc
      obtain ⟨k, _, rfl⟩ := hc
      simp
    rw [this]
    rfl

/-- C141: from the results of the analysis to the published files: each has temperature, uncertainty and influence of the analysis
or component, and the members, which are missing exactly where the rules of quality control say so. -/
theorem c141_published {x : Inputs} {s : Settings} {n : ℕ} {r : Date → Results} (hs : Spec.Consistent s)
    (hx : ∀ d, Spec.InYears s.startYear s.endYear d → x.files d = outputBatch n (r d)) {iteration : ℕ}
    (hiter : iteration = 4 ∨ iteration = 9) {d : Date} (hd : Spec.InYears s.startYear s.endYear d) :
    ∃ fields, ((published x s iteration).filter fun e => decide (e.1 = d ∧ e.2.1 = .analysis)).map (·.2.2) = [fields] ∧
      List.Forall₂ (fun o e => o.name = e.1 ∧ ∀ i j : ℕ, i < 720 → j < 1440 →
        (Spec.Masked s (fun d => dayOf n (r d)) x.altitude x.coast d i j → o.values i j = none) ∧
        (¬ Spec.Masked s (fun d => dayOf n (r d)) x.altitude x.coast d i j → o.values i j = some (e.2 i j))) fields
      ([("tas", (r d).expected), ("tasuncertainty", (r d).uncertainty),
        ("tasobservationinfluence", fun i j => 1 - (r d).localScale.unconstraint i j)] ++
        (List.range n).map fun k => (Spec.memberVariable k, (r d).sample k)) :=
  (c139_published hs (fun d hd => by rw [hx d hd]; exact c141_complete n (r d)) hiter).1 d hd .analysis

/-- The cubes of the whole analysis written by `output_grid`. -/
def gridCubes (n : ℕ) (r : Results) : List Cube :=
  [⟨"air_temperature", "tas", r.expected⟩,
    ⟨"Total uncertainty in average daily surface air temperature", "tasuncertainty", r.uncertainty⟩,
    ⟨"Climatology fraction for average daily surface air temperature", "tasclimatologyfraction", r.localScale.unconstraint⟩] ++
  (List.range n).map fun k => ⟨"Average daily surface air temperature ensemble", Spec.memberVariable k, r.sample k⟩

/-- C141: files written by `output_grid` have no influence of observations under any name which is read, and quality control stops
at the first of them: nothing at all is published. -/
theorem c141_output_grid_violated {x : Inputs} {s : Settings} {n : ℕ} {r : Date → Results} (iteration : ℕ)
    (hx : ∀ d, x.files d = outputGrid n (r d)) : published x s iteration = [] := by
  rw [List.eq_nil_iff_forall_not_mem]
  intro e he
  have hmem := mem_published he
  have hload : loadAnalysis (x.files e.1).analysis = .error .nameError := by
    rw [hx]
    unfold outputGrid
    simp only
    rw [fieldCube_eq names_tas, fieldCube_eq names_uncertainty, fieldCube_eq names_fraction, memberCubes_eq]
    have hfile := fileOf_some (gridCubes n (r e.1))
    rw [gridCubes, List.map_append, ← gridCubes] at hfile
    refine (congrArg loadAnalysis hfile).trans ?_
    unfold loadAnalysis
    simp only
    rw [loadFold_influence]
    have hnone : (gridCubes n (r e.1)).filter (·.name = "Observation influence for average daily surface air temperature") = [] := by
      rw [List.filter_eq_nil_iff]
      intro c hc
      unfold gridCubes at hc
      simp only [List.mem_append, List.mem_cons, List.not_mem_nil, or_false, List.mem_map] at hc
      rcases hc with (rfl | rfl | rfl) | ⟨k, _, rfl⟩ <;> simp
    rw [hnone, List.foldl_nil]
    split
    · rename_i h; exact absurd h (by simp)
    · rfl
  unfold maskDay at hmem
  cases hf : mergedFiles x s e.1 <;> cases hl : locationFiles x s e.1 <;> rw [hf, hl] at hmem
  · exact absurd hmem (by simp)
  · exact absurd hmem (by simp)
  · exact absurd hmem (by simp)
  · simp only [applyMask, hload] at hmem
    exact absurd hmem (by simp)

/-! ### An archive -/

/-- A day which is 280 K everywhere, with observations everywhere. -/
def warmDay (u : ℚ) : Results where
  climatology := ⟨fun _ _ => 280, fun _ _ => u, fun _ _ => 0, fun k _ _ => 280 + k⟩
  largeScale := ⟨fun _ _ => 0, fun _ _ => 0, fun _ _ => 0, fun _ _ _ => 0⟩
  localScale := ⟨fun _ _ => 0, fun _ _ => 0, fun _ _ => 0, fun _ _ _ => 0⟩
  rootSum := fun a b c => max a (max b c)

/-- Results for all days; the climatology is uncertain in 1900. -/
def archive (d : Date) : Results := warmDay (if d.year = 1900 then 1 else 0)

/-- Its files, on land at the height of the sea. -/
def archiveInputs : Inputs := ⟨fun d => outputBatch 10 (archive d), fun _ _ => 0, fun _ _ => 0⟩

theorem settings1880_consistent : Spec.Consistent settings1880 := by
  refine ⟨?_, ?_, ?_, ?_, ?_, ?_, ?_, ?_, ?_, ?_, ?_⟩ <;> decide

theorem areaMean_const (n : ℕ) (c : ℚ) (i j : ℕ) : Spec.areaMean n (fun _ _ => c) i j = c := by
  unfold Spec.areaMean
  have hcard : (n : ℤ) + 1 - -(n : ℤ) = ((2 * n + 1 : ℕ) : ℤ) := by push_cast; ring
  rw [Finset.sum_const, Finset.sum_const, Int.card_Icc, hcard, Int.toNat_natCast, nsmul_eq_mul, nsmul_eq_mul]
  push_cast
  field_simp

theorem quantile_const {p : ℚ} (h0 : 0 ≤ p) (h1 : p ≤ 1) {values : Multiset ℚ} (hv : values ≠ 0) {c : ℚ} (hc : ∀ v ∈ values, v = c) :
    Spec.quantile p values = c := by
  obtain ⟨ha, hb⟩ := c138_quantile h0 h1 hv
  have hpos : 1 ≤ values.card := Multiset.card_pos.2 hv
  have hq : (1 : ℚ) ≤ values.card := by exact_mod_cast hpos
  refine le_antisymm ?_ ?_
  · have : 0 < (values.filter (Spec.quantile p values ≤ ·)).card := by
      have : (0 : ℚ) ≤ (1 - p) * (values.card - 1) := mul_nonneg (by linarith) (by linarith)
      exact_mod_cast this.trans_lt hb
    obtain ⟨v, hv⟩ := Multiset.card_pos_iff_exists_mem.1 this
    rw [Multiset.mem_filter] at hv
    rw [← hc v hv.1]
    exact hv.2
  · have : 0 < (values.filter (· ≤ Spec.quantile p values)).card := by
      have : (0 : ℚ) ≤ p * (values.card - 1) := mul_nonneg h0 (by linarith)
      exact_mod_cast this.trans_lt ha
    obtain ⟨v, hv⟩ := Multiset.card_pos_iff_exists_mem.1 this
    rw [Multiset.mem_filter] at hv
    rw [← hc v hv.1]
    exact hv.2

theorem archive_observed (d : Date) (i j : ℕ) : Spec.Observed settings1880 (fun d => dayOf 10 (archive d)) d i j := by
  unfold Spec.Observed
  have : (dayOf 10 (archive d)).analysis.influence = fun _ _ => 1 := by
    funext i j
    show (1 : ℚ) - 0 = 1
    norm_num
  rw [this, areaMean_const]
  show (6 / 10 : ℚ) ≤ 1
  norm_num

theorem archive_years (d : Date) (i j : ℕ) : Spec.supportedYears settings1880 (fun d => dayOf 10 (archive d)) d i j = 136 := by
  classical
  have h : ∀ y : ℕ, Spec.Supported settings1880 (fun d => dayOf 10 (archive d)) (Spec.inYear d y) i j :=
    fun y => Or.inl (archive_observed _ _ _)
  unfold Spec.supportedYears
  simp only [h, Finset.filter_true, Nat.card_Icc]
  rfl

/-- In 1900 the rules mask the archive, because the climatology is uncertain. -/
theorem archive_masked : Spec.Masked settings1880 (fun d => dayOf 10 (archive d)) archiveInputs.altitude archiveInputs.coast
    ⟨1900, 1, 1⟩ 400 700 := by
  left
  show (7 / 10 : ℚ) < Spec.areaMean 6 (fun _ _ => 1) 400 700
  rw [areaMean_const]
  norm_num

set_option linter.constructorNameAsVariable false in
/-- In 2000 they do not. -/
theorem archive_kept : ¬ Spec.Masked settings1880 (fun d => dayOf 10 (archive d)) archiveInputs.altitude archiveInputs.coast
    ⟨2000, 1, 1⟩ 400 700 := by
  have ht : ∀ d i j, (dayOf 10 (archive d)).analysis.temperature i j = 280 := by
    intro d i j
    show (280 : ℚ) + 0 + 0 = 280
    norm_num
  have hsea : ∀ d i j, Spec.seaLevel (fun d => dayOf 10 (archive d)) archiveInputs.altitude d i j = 280 := by
    intro d i j
    unfold Spec.seaLevel
    rw [ht]
    show (280 : ℚ) + 9 / 2 * (0 / 1000) = 280
    norm_num
  have hreg : ∀ p d i j, 0 ≤ p → p ≤ 1 → Spec.regional (fun d => dayOf 10 (archive d)) archiveInputs.altitude p d i j = 280 := by
    intro p d i j h0 h1
    unfold Spec.regional
    refine quantile_const h0 h1 ?_ ?_
    · unfold Spec.areaValues
      rw [Ne, Multiset.map_eq_zero, Finset.val_eq_zero]
      refine Finset.Nonempty.ne_empty ⟨(0, 0), ?_⟩
      rw [Finset.mem_product, Finset.mem_Icc, Finset.mem_Icc]
      simp
    · intro v hv
      unfold Spec.areaValues at hv
      rw [Multiset.mem_map] at hv
      obtain ⟨o, _, rfl⟩ := hv
      exact hsea _ _ _
  have hcal : ∀ p d i j, 0 ≤ p → p ≤ 1 → Spec.calendarQuantile settings1880 (fun d => dayOf 10 (archive d)) p d i j = 280 := by
    intro p d i j h0 h1
    unfold Spec.calendarQuantile
    refine quantile_const h0 h1 ?_ ?_
    · rw [Ne, Multiset.map_eq_zero, Finset.val_eq_zero]
      refine Finset.Nonempty.ne_empty ⟨1981, ?_⟩
      rw [Finset.mem_Icc]
      decide
    · intro v hv
      rw [Multiset.mem_map] at hv
      obtain ⟨o, _, rfl⟩ := hv
      exact ht _ _ _
  rintro (h | h | h | h | h | h | h | h)
  · revert h
    show ¬ (7 / 10 : ℚ) < Spec.areaMean 6 (fun _ _ => 0) 400 700
    rw [areaMean_const]
    norm_num
  · revert h
    show ¬ (7 / 10 : ℚ) < Spec.areaMean 8 (fun _ _ => 0) 400 700
    rw [areaMean_const]
    norm_num
  · obtain ⟨i, j, _, _, _, _, h⟩ := h
    simp only [ht] at h
    norm_num at h
  · obtain ⟨i, j, _, _, _, _, h⟩ := h
    unfold Spec.RegionalCold Spec.RegionalWarm at h
    rw [hsea, hreg _ _ _ _ (by norm_num) (by norm_num), hreg _ _ _ _ (by norm_num) (by norm_num),
      hreg _ _ _ _ (by norm_num) (by norm_num)] at h
    norm_num at h
  · unfold Spec.LocallyCold at h
    rw [ht, hcal _ _ _ _ (by norm_num) (by norm_num), hcal _ _ _ _ (by norm_num) (by norm_num)] at h
    norm_num at h
  · unfold Spec.LocallyWarm at h
    rw [ht, hcal _ _ _ _ (by norm_num) (by norm_num), hcal _ _ _ _ (by norm_num) (by norm_num)] at h
    norm_num at h
  · have h2 := h.2
    rw [archive_years] at h2
    omega
  · have h2 : 2012 < 2000 := h.2
    omega

/-- The hypotheses of C137 to C141 hold for this archive, and both cases occur: in 1900 the temperature of a cell is missing and in
2000 it is 280 K. -/
example : ∃ f g : List MaskedField,
    ((published archiveInputs settings1880 9).filter fun e => decide (e.1 = ⟨1900, 1, 1⟩ ∧ e.2.1 = .analysis)).map (·.2.2) = [f] ∧
    ((published archiveInputs settings1880 9).filter fun e => decide (e.1 = ⟨2000, 1, 1⟩ ∧ e.2.1 = .analysis)).map (·.2.2) = [g] ∧
    f.length = 13 ∧ f.head?.map (fun o => (o.name, o.values 400 700)) = some ("tas", none) ∧
    g.head?.map (fun o => (o.name, o.values 400 700)) = some ("tas", some 280) := by
  obtain ⟨f, hf, hf2⟩ := c141_published (x := archiveInputs) (r := archive) settings1880_consistent (fun d _ => rfl) (iteration := 9)
    (Or.inr rfl) (d := ⟨1900, 1, 1⟩) ⟨by decide, by decide, by decide⟩
  obtain ⟨g, hg, hg2⟩ := c141_published (x := archiveInputs) (r := archive) settings1880_consistent (fun d _ => rfl) (iteration := 9)
    (Or.inr rfl) (d := ⟨2000, 1, 1⟩) ⟨by decide, by decide, by decide⟩
  refine ⟨f, g, hf, hg, ?_, ?_, ?_⟩
  · rw [hf2.length_eq]; simp
  · cases hf2 with
    | cons h _ =>
      rw [List.head?_cons, Option.map_some, h.1, (h.2 400 700 (by omega) (by omega)).1 archive_masked]
  · cases hg2 with
    | cons h _ =>
      rw [List.head?_cons, Option.map_some, h.1, (h.2 400 700 (by omega) (by omega)).2 archive_kept]
      show some ("tas", some ((280 : ℚ) + 0 + 0)) = _
      norm_num

/-- C140 in this archive: without the analysis of 1995-06-10, there is nothing for 1880-06-30, which has all its files. -/
example : ∀ e ∈ published ⟨fun d => if d = ⟨1995, 6, 10⟩ then ⟨none, none, none, none⟩ else outputBatch 10 (archive d),
    fun _ _ => 0, fun _ _ => 0⟩ settings1880 9, e.1 ≠ ⟨1880, 6, 30⟩ := by
  intro e he h
  refine c140_percentile_violated 9 (d := ⟨1995, 6, 10⟩) (by decide) (by decide) (by simp) he ?_
  rw [h]
  exact ⟨rfl, by decide⟩

/-- C140: such a file, with members 3 and 2 only. -/
example (g : Grid) : Spec.Stores (some [⟨"air_temperature", "tas", g⟩, ⟨"Average daily surface air temperature ensemble", "tasensemble_3", g⟩,
    ⟨"Total uncertainty in average daily surface air temperature", "tasuncertainty", g⟩,
    ⟨"Observation influence for average daily surface air temperature", "tasobservationinfluence", g⟩,
    ⟨"Average daily surface air temperature ensemble", "tasensemble_2", g⟩]) ⟨g, g, g⟩ ∧
    List.Perm [3, 2] (2 :: [3]) ∧ Spec.memberVariable 3 = "tasensemble_3" :=
  ⟨⟨_, rfl, ⟨"tas", rfl⟩, ⟨"tasuncertainty", rfl⟩, ⟨"tasobservationinfluence", rfl⟩⟩, by decide, by decide⟩

end Verif.Eustace.Masking
