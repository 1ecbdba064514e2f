import Verif.Eustace.Masking.Spec
import Verif.Eustace.Smooth.Props
import Mathlib.Data.Finset.Prod
import Mathlib.Analysis.SpecialFunctions.Trigonometric.Bounds
import Mathlib.Tactic.NormNum.OfScientific
import Mathlib.Tactic.IntervalCases

/-! Windows, percentiles and ranges. -/
namespace Verif.Eustace.Masking
open Verif Verif.Calendar Verif.Eustace.Flags Finset

/-! ### Windows -/

theorem mirror_eq {k : ℤ} (h0 : -719 ≤ k) (h1 : k ≤ 1438) : Smooth.reflectIndex rows k = Spec.mirror k := by
  unfold Spec.mirror rows
  by_cases h : k < 0
  · rw [if_pos h, Smooth.reflectIndex_below (by omega) (by omega)]
    all_goals omega
  · rw [if_neg h]
    by_cases h' : k < 720
    · rw [if_pos h', Smooth.reflectIndex_inside (by omega) (by omega)]
    · rw [if_neg h', Smooth.reflectIndex_above (by omega) (by omega)]
      all_goals omega

theorem around_eq (k : ℤ) : Smooth.wrapIndex columns k = Spec.around k := rfl

theorem icc_val (r : ℕ) : (Icc (-(r : ℤ)) r).val = ((List.range (2 * r + 1)).map fun a : ℕ => (a : ℤ) - r : Multiset ℤ) := by
  refine (Multiset.Nodup.ext (Finset.nodup _) ?_).2 ?_
  · rw [Multiset.coe_nodup]
    refine List.Nodup.map (fun a b h => ?_) List.nodup_range
    have h : (a : ℤ) - r = b - r := h
    omega
  · intro k
    rw [Finset.mem_val, Finset.mem_Icc, Multiset.mem_coe, List.mem_map]
    constructor
    · intro ⟨h0, h1⟩
      exact ⟨(k + r).toNat, by rw [List.mem_range]; omega, by omega⟩
    · rintro ⟨a, ha, rfl⟩
      rw [List.mem_range] at ha
      omega

theorem windowAt_coe {r : ℕ} (hr : r ≤ 700) (s : ℕ) (g : Grid) {i : ℕ} (hi : i < 720) (j : ℕ) :
    ((Smooth.windowAt rows columns r s g i j : List ℚ) : Multiset ℚ) = Spec.areaValues r s g i j := by
  unfold Spec.areaValues Smooth.windowAt
  rw [Finset.product_val, icc_val, icc_val, Multiset.coe_product, Multiset.map_coe]
  congr 1
  show _ = List.map _ (List.product _ _)
  unfold List.product
  rw [List.map_flatMap, List.flatMap_map]
  refine List.flatMap_congr fun a ha => ?_
  rw [List.mem_range] at ha
  rw [List.map_map, List.map_map]
  refine List.map_congr_left fun b _ => ?_
  simp only [Function.comp]
  rw [mirror_eq (by omega) (by omega), around_eq, add_sub_assoc, add_sub_assoc]

theorem smooth_eq {w : ℕ} {r : ℕ} (h : w / 2 = r) (hr : r ≤ 700) (g : Grid) {i j : ℕ} (hi : i < 720) (hj : j < 1440) :
    smooth w g i j = Spec.areaMean r g i j := by
  unfold smooth Spec.areaMean
  rw [h]
  have hm := Smooth.c56_mean_value_partial (n := rows) (m := columns) (by decide) (by decide) r r g (i := i) (j := j) hi hj
  have hsum : (Smooth.windowAt rows columns r r g i j).sum =
      ∑ a ∈ Icc (-(r : ℤ)) r, ∑ b ∈ Icc (-(r : ℤ)) r, g (Spec.mirror (i + a)) (Spec.around (j + b)) := by
    rw [← Multiset.sum_coe, windowAt_coe hr r g hi, ← Finset.sum_product']
    rfl
  rw [← hsum, ← hm]
  have h1 : ((2 * (r : ℚ) + 1) * (2 * r + 1)) ≠ 0 := by positivity
  push_cast
  rw [pow_two, mul_div_cancel_right₀ _ h1]

/-! ### Percentiles -/

theorem insertionSort_eq (l : List ℚ) : l.insertionSort (· ≤ ·) = (l : Multiset ℚ).sort (· ≤ ·) := by
  refine List.Perm.eq_of_pairwise (le := (· ≤ ·)) (fun a b _ _ h h' => le_antisymm h h') (List.pairwise_insertionSort _ _) (Multiset.pairwise_sort _ _) ?_
  refine (List.perm_insertionSort _ l).trans ?_
  rw [← Multiset.coe_eq_coe, Multiset.sort_eq]

theorem percentile_eq (p : ℚ) (l : List ℚ) : percentile p l = Spec.quantile (p / 100) l := by
  unfold percentile Spec.quantile
  simp only [insertionSort_eq, Multiset.length_sort, Multiset.coe_card]
  have h : ∀ x : ℚ, x.floor = ⌊x⌋ := fun x => rfl
  rw [h]
  generalize ⌊p / 100 * ((l.length : ℚ) - 1)⌋.toNat = k
  ring

theorem quartiles_eq (l : List ℚ) : quartiles l = ⟨Spec.quantile (1 / 4) l, Spec.quantile (1 / 2) l, Spec.quantile (3 / 4) l⟩ := by
  unfold quartiles
  rw [percentile_eq, percentile_eq, percentile_eq]
  norm_num

/-! ### Ranges -/

theorem latitudeRange_eq : latitudeRange = 27 := by
  unfold latitudeRange latitudeDelta searchRange maxRange
  have h1 := Real.pi_gt_d2
  have h2 := Real.pi_lt_d2
  have hp := Real.pi_pos
  have : ⌈(750 : ℝ) / 6371 * 180 / Real.pi / (1 / 4)⌉ = 27 := by
    rw [Int.ceil_eq_iff]
    push_cast
    constructor
    · rw [lt_div_iff₀ (by norm_num), lt_div_iff₀ hp]
      nlinarith
    · rw [div_le_iff₀ (by norm_num), div_le_iff₀ hp]
      nlinarith
  rw [this]
  rfl

theorem centreLatitude_eq (i : ℕ) : centreLatitude (i / 20) = Spec.bandLatitude i := by
  unfold centreLatitude Spec.bandLatitude latitudeBlock
  push_cast
  norm_num
  ring

theorem cos_band_pos {i : ℕ} (hi : i < 720) : 0 < Real.cos (Spec.bandLatitude i * Real.pi / 180) := by
  have hp := Real.pi_pos
  have hb : i / 20 ≤ 35 := by omega
  have hb' : ((i / 20 : ℕ) : ℝ) ≤ 35 := by exact_mod_cast hb
  have hb0 : (0 : ℝ) ≤ ((i / 20 : ℕ) : ℝ) := by positivity
  refine Real.cos_pos_of_mem_Ioo ⟨?_, ?_⟩
  · unfold Spec.bandLatitude
    nlinarith
  · unfold Spec.bandLatitude
    nlinarith

theorem ceil_toNat_eq {x c : ℝ} (hc : 0 < c) : ⌈x / c⌉.toNat = sInf {n : ℕ | x ≤ n * c} := by
  have : {n : ℕ | x ≤ n * c} = {n : ℕ | ⌈x / c⌉.toNat ≤ n} := by
    ext n
    simp only [Set.mem_setOf_eq]
    rw [Int.toNat_le, Int.ceil_le, div_le_iff₀ hc]
    push_cast
    rfl
  rw [this]
  exact (csInf_Ici).symm

theorem longitudeRange_eq {i : ℕ} (hi : i < 720) : longitudeRange (i / 20) = Spec.eastward (Spec.bandLatitude i) := by
  unfold longitudeRange Spec.eastward longitudeDelta searchRange maxRange
  rw [centreLatitude_eq, Real.sin_pi_div_two_sub]
  have hc := cos_band_pos hi
  have hp := Real.pi_pos
  generalize Real.cos (Spec.bandLatitude i * Real.pi / 180) = c at *
  congr 1
  have := ceil_toNat_eq (x := 750) (c := 1 / 4 * (Real.pi / 180) * 6371 * c) (by positivity)
  rw [show (750 / (6371 * c) * 180 / Real.pi / (1 / 4) : ℝ) = 750 / (1 / 4 * (Real.pi / 180) * 6371 * c) by field_simp, this]
  congr 1
  ext n
  simp only [Set.mem_setOf_eq]
  rw [show (n : ℝ) * (1 / 4 * (Real.pi / 180) * 6371 * c) = (n / 4 : ℝ) * (Real.pi / 180) * 6371 * c by ring]

/-! ### Extension -/

theorem extended_iff (flagged : Smooth.Field Bool) {i j : ℕ} (hi : i < 720) (hj : j < 1440) :
    extended flagged (i, j) = true ↔ Spec.Near (fun i j => flagged i j = true) i j := by
  unfold extended
  show Smooth.extend rows columns (outlierWindow / 2) (outlierWindow / 2) flagged i j = true ↔ _
  rw [Smooth.c56_extend_partial (n := rows) (m := columns) (by decide) (by decide) (outlierWindow / 2) (by decide) flagged hi hj]
  unfold Spec.Near Spec.NearColumns
  have h2 : outlierWindow / 2 = 2 := rfl
  rw [h2]
  constructor
  · rintro ⟨i', h1, j', h2, hf, h3, h4, d, h5, h6, h7⟩
    exact ⟨i', j', h1, h2, by rw [abs_le]; omega, ⟨d, abs_le.2 ⟨h5, h6⟩, h7⟩, hf⟩
  · rintro ⟨i', j', h1, h2, h3, ⟨d, h4, h5⟩, hf⟩
    rw [abs_le] at h3 h4
    exact ⟨i', h1, j', h2, hf, by omega, by omega, d, h4.1, h4.2, h5⟩

/-! ### Loading -/

theorem loadFold_analysis (cubes : List Cube) (s : Loading) : (cubes.foldl loadStep s).analysis =
    (cubes.filter (·.name = "air_temperature")).foldl (fun _ c => some c.data) s.analysis := by
  induction cubes generalizing s with
  | nil => rfl
  | cons c cubes ih =>
    rw [List.foldl_cons, ih, List.filter_cons]
    by_cases h : c.name = "air_temperature"
    · simp [loadStep, h]
    · simp only [loadStep, h, if_false, decide_false]
      congr 1
      split_ifs <;> rfl

theorem loadFold_uncertainty (cubes : List Cube) (s : Loading) : (cubes.foldl loadStep s).uncertainty =
    (cubes.filter (·.name = "Total uncertainty in average daily surface air temperature")).foldl (fun _ c => some c.data)
      s.uncertainty := by
  induction cubes generalizing s with
  | nil => rfl
  | cons c cubes ih =>
    rw [List.foldl_cons, ih, List.filter_cons]
    by_cases h : c.name = "Total uncertainty in average daily surface air temperature"
    · simp [loadStep, h]
    · simp only [loadStep, h, if_false, decide_false]
      congr 1
      split_ifs <;> rfl

theorem loadFold_influence (cubes : List Cube) (s : Loading) : (cubes.foldl loadStep s).influence =
    (cubes.filter (·.name = "Observation influence for average daily surface air temperature")).foldl (fun _ c => some c.data)
      s.influence := by
  induction cubes generalizing s with
  | nil => rfl
  | cons c cubes ih =>
    rw [List.foldl_cons, ih, List.filter_cons]
    by_cases h : c.name = "Observation influence for average daily surface air temperature"
    · simp [loadStep, h]
    · simp only [loadStep, h, if_false, decide_false]
      congr 1
      split_ifs <;> rfl

theorem loadFold_ensemble (cubes : List Cube) (s : Loading) : (cubes.foldl loadStep s).ensemble =
    s.ensemble ++ cubes.filter (·.name = "Average daily surface air temperature ensemble") := by
  induction cubes generalizing s with
  | nil => simp
  | cons c cubes ih =>
    rw [List.foldl_cons, ih, List.filter_cons]
    by_cases h : c.name = "Average daily surface air temperature ensemble"
    · simp [loadStep, h]
    · simp only [loadStep, h, if_false, decide_false]
      congr 1
      split_ifs <;> rfl

theorem loadAnalysis_eq {file : Option (List Cube)} {t : Spec.Contents} (h : Spec.Stores file t) :
    ∃ cubes, file = some cubes ∧ loadAnalysis file = .ok ⟨t.temperature, t.uncertainty, t.influence,
      cubes.filter (·.name = "Average daily surface air temperature ensemble")⟩ := by
  obtain ⟨cubes, rfl, ⟨v1, h1⟩, ⟨v2, h2⟩, ⟨v3, h3⟩⟩ := h.file
  refine ⟨cubes, rfl, ?_⟩
  unfold loadAnalysis
  simp only
  rw [loadFold_analysis, loadFold_uncertainty, loadFold_influence, loadFold_ensemble, h1, h2, h3]
  rfl

theorem loadComponent_eq {file : Option (List Cube)} {t : Spec.Contents} (h : Spec.Stores file t) :
    loadComponent file = .ok ⟨t.temperature, t.uncertainty, t.influence, []⟩ := by
  obtain ⟨cubes, _, hl⟩ := loadAnalysis_eq h
  unfold loadComponent
  rw [hl]

/-! ### Coast -/

theorem coastMap_eq (coast : Grid) {i j : ℕ} : coastMap coast i j = Spec.water coast i j := by
  unfold coastMap copyLastColumn copyFirstColumn setLastRow setFirstRow Spec.water rows columns
  by_cases h1 : j = 1439
  · subst h1
    by_cases h3 : i = 719
    · subst h3; simp
    · simp [h3]
  · by_cases h2 : j = 0
    · subst h2
      by_cases h3 : i = 719
      · subst h3; simp
      · simp [h3]
    · by_cases h3 : i = 719
      · subst h3; simp [h1, h2]
      · simp [h1, h2, h3]

end Verif.Eustace.Masking
