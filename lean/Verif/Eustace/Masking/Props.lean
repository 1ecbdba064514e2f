import Verif.Eustace.Masking.Lemmas
import Verif.Eustace.Flags.Props

/-! Properties of the flags of one day: C137 (uncertainty and observations) and C138 (outliers). -/
namespace Verif.Eustace.Masking
open Verif Verif.Calendar Verif.Eustace.Flags

theorem null_bit (n : ℕ) : NULL.getLsbD n = false := by simp [NULL]

/-! ### C137: thresholds -/

/-- C137: for a day with complete files the flags are exactly: climatology (bit 5) and large scale (bit 6) where the uncertainty
averaged over 13 by 13 and 17 by 17 cells exceeds the limits, day (bit 0) where the influence of observations averaged over 5
by 5 cells is below the threshold, and marine (bit 12) where there is only water. Averages continue across poles and date
line. -/
theorem c137_threshold {f : DayFiles} {ta tc tl : Spec.Contents} (ha : Spec.Stores f.analysis ta)
    (hc : Spec.Stores f.climatology tc) (hl : Spec.Stores f.largeScale tl) (coast : Grid) (climatologyLimit largeScaleLimit constraintLimit : ℚ) :
    ∃ out, thresholdFlags coast climatologyLimit largeScaleLimit constraintLimit f = .ok out ∧
      ∀ i j : ℕ, i < 720 → j < 1440 → ∀ n, (out (i, j)).getLsbD n = true ↔
        (n = 5 ∧ climatologyLimit < Spec.areaMean 6 tc.uncertainty i j) ∨
        (n = 6 ∧ largeScaleLimit < Spec.areaMean 8 tl.uncertainty i j) ∨
        (n = 0 ∧ Spec.areaMean 2 ta.influence i j < constraintLimit) ∨ (n = 12 ∧ Spec.water coast i j = 100) := by
  obtain ⟨cubes, _, hla⟩ := loadAnalysis_eq ha
  have hlc := loadComponent_eq hc
  have hll := loadComponent_eq hl
  unfold thresholdFlags climatologyFlags largeScaleFlags localFlags
  rw [hla, hlc, hll]
  refine ⟨_, rfl, fun i j hi hj n => ?_⟩
  simp only [BitVec.getLsbD_or, Bool.or_eq_true]
  unfold marineFlag
  rw [show CLIMATOLOGY_UNC = bit 5 from rfl, show LARGE_SCALE_UNC = bit 6 from rfl, show DAY = bit 0 from rfl,
    show MISSING_MARINE = bit 12 from rfl, setFlag_bit 5 (by omega), setFlag_bit 6 (by omega), setFlag_bit 0 (by omega),
    setFlag_bit 12 (by omega), null_bit]
  simp only [Bool.false_eq_true, false_or, beq_iff_eq, decide_eq_true_eq, gt_iff_lt]
  rw [smooth_eq (r := 6) rfl (by omega) _ hi hj, smooth_eq (r := 8) rfl (by omega) _ hi hj,
    smooth_eq (r := 2) rfl (by omega) _ hi hj, coastMap_eq, or_assoc, or_assoc]

/-- C137: a file which is missing, or without one of the three fields, gives an error instead of flags. -/
theorem c137_complete (coast : Grid) (climatologyLimit largeScaleLimit constraintLimit : ℚ) {f : DayFiles} {out : FlagField}
    (h : thresholdFlags coast climatologyLimit largeScaleLimit constraintLimit f = .ok out) :
    ∀ file ∈ [f.analysis, f.climatology, f.largeScale], ∃ cubes, file = some cubes ∧
      ∀ name ∈ ["air_temperature", "Total uncertainty in average daily surface air temperature",
        "Observation influence for average daily surface air temperature"], ∃ c ∈ cubes, c.name = name := by
  have key : ∀ file p, loadAnalysis file = .ok p → ∃ cubes, file = some cubes ∧
      ∀ name ∈ ["air_temperature", "Total uncertainty in average daily surface air temperature",
        "Observation influence for average daily surface air temperature"], ∃ c ∈ cubes, c.name = name := by
    intro file p hp
    cases file with
    | none => cases hp
    | some cubes =>
      refine ⟨cubes, rfl, ?_⟩
      unfold loadAnalysis at hp
      simp only [loadFold_analysis, loadFold_uncertainty, loadFold_influence] at hp
      intro name hname
      by_contra hno
      have hempty : cubes.filter (·.name = name) = [] := by
        rw [List.filter_eq_nil_iff]
        intro c hc hn
        exact hno ⟨c, hc, by simpa using hn⟩
      simp only [List.mem_cons, List.not_mem_nil, or_false] at hname
      rcases hname with rfl | rfl | rfl
      · rw [hempty] at hp; simp at hp
      · rw [hempty] at hp
        simp only [List.foldl_nil] at hp
        split at hp <;> simp_all
      · rw [hempty] at hp
        simp only [List.foldl_nil] at hp
        split at hp <;> simp_all
  have key' : ∀ file p, loadComponent file = .ok p → ∃ p', loadAnalysis file = .ok p' := by
    intro file p hp
    unfold loadComponent at hp
    cases hl : loadAnalysis file with
    | error e => rw [hl] at hp; cases hp
    | ok p' => exact ⟨p', rfl⟩
  unfold thresholdFlags climatologyFlags largeScaleFlags localFlags at h
  cases hc : loadComponent f.climatology with
  | error e => rw [hc] at h; cases h
  | ok pc =>
    cases hl : loadComponent f.largeScale with
    | error e => rw [hc, hl] at h; cases h
    | ok pl =>
      cases ha : loadAnalysis f.analysis with
      | error e => rw [hc, hl, ha] at h; cases h
      | ok pa =>
        obtain ⟨pc', hpc⟩ := key' _ _ hc
        obtain ⟨pl', hpl⟩ := key' _ _ hl
        intro file hf
        simp only [List.mem_cons, List.not_mem_nil, or_false] at hf
        rcases hf with rfl | rfl | rfl
        · exact key _ _ ha
        · exact key _ _ hpc
        · exact key _ _ hpl

/-! ### C138: outliers -/

/-- C138: the region for statistics has 27 rows to either side, and the smallest number of columns which reach 750 km at the
middle latitude of its band of 20 rows, but not more than 50. -/
theorem c138_region : latitudeRange = 27 ∧ ∀ i < 720, longitudeRange (i / 20) = Spec.eastward (Spec.bandLatitude i) :=
  ⟨latitudeRange_eq, fun _ hi => longitudeRange_eq hi⟩

/-- The ranges are those of the sphere: 27 rows are the least which reach 750 km to the north. -/
theorem c138_north : IsLeast {n : ℕ | 750 ≤ (n / 4 : ℝ) * (Real.pi / 180) * 6371} latitudeRange := by
  rw [latitudeRange_eq]
  have h1 := Real.pi_gt_d2
  have h2 := Real.pi_lt_d2
  constructor
  · simp only [Set.mem_setOf_eq]
    push_cast
    nlinarith
  · intro n hn
    simp only [Set.mem_setOf_eq] at hn
    by_contra hlt
    have : (n : ℝ) ≤ 26 := by exact_mod_cast (by omega : n ≤ 26)
    nlinarith [Real.pi_pos]

/-- C138: near the poles the limit of 50 columns cuts the region: in the last band it reaches 61 km to the east. -/
theorem c138_pole_violated : (longitudeRange (719 / 20) / 4 : ℝ) * (Real.pi / 180) * 6371 *
    Real.cos (Spec.bandLatitude 719 * Real.pi / 180) < 61 := by
  have h50 : longitudeRange (719 / 20) ≤ 50 := min_le_right _ _
  have h50' : (longitudeRange (719 / 20) : ℝ) ≤ 50 := by exact_mod_cast h50
  have hcos : Real.cos (Spec.bandLatitude 719 * Real.pi / 180) ≤ 2.5 * Real.pi / 180 := by
    have : Spec.bandLatitude 719 * Real.pi / 180 = Real.pi / 2 - 2.5 * Real.pi / 180 := by
      unfold Spec.bandLatitude
      norm_num
      ring
    rw [this, Real.cos_pi_div_two_sub]
    exact Real.sin_le (by positivity)
  have hc0 := cos_band_pos (i := 719) (by omega)
  have h2 := Real.pi_lt_d4
  have hp := Real.pi_pos
  calc (longitudeRange (719 / 20) / 4 : ℝ) * (Real.pi / 180) * 6371 * Real.cos (Spec.bandLatitude 719 * Real.pi / 180)
      ≤ (50 / 4 : ℝ) * (Real.pi / 180) * 6371 * (2.5 * Real.pi / 180) := by gcongr
    _ < 61 := by nlinarith

theorem arealQuartiles_eq (g : Grid) {i j : ℕ} (hi : i < 720) (hj : j < 1440) :
    arealQuartiles g i j = some ⟨Spec.quantile (1 / 4) (Spec.areaValues 27 (Spec.eastward (Spec.bandLatitude i)) g i j),
      Spec.quantile (1 / 2) (Spec.areaValues 27 (Spec.eastward (Spec.bandLatitude i)) g i j),
      Spec.quantile (3 / 4) (Spec.areaValues 27 (Spec.eastward (Spec.bandLatitude i)) g i j)⟩ := by
  unfold arealQuartiles
  rw [Smooth.c73_blocks quartiles _ rows (m := columns) (size := latitudeBlock) (by decide) _ _ _ (by unfold rows latitudeBlock; omega) hj,
    quartiles_eq, latitudeRange_eq, windowAt_coe (by omega) _ _ hi]
  have : longitudeRange (i / latitudeBlock) = Spec.eastward (Spec.bandLatitude i) := longitudeRange_eq hi
  rw [this]

theorem seaLevel_eq (t : Date → Spec.Day) (altitude : Grid) (d : Date) :
    altitudeAdjusted altitude (t d).analysis.temperature = Spec.seaLevel t altitude d := by
  funext i j
  unfold altitudeAdjusted Spec.seaLevel
  ring

theorem near_congr {P Q : ℕ → ℕ → Prop} (h : ∀ i j, i < 720 → j < 1440 → (P i j ↔ Q i j)) (i j : ℕ) :
    Spec.Near P i j ↔ Spec.Near Q i j := by
  unfold Spec.Near
  constructor
  · rintro ⟨i', j', h1, h2, h3, h4, h5⟩
    exact ⟨i', j', h1, h2, h3, h4, (h _ _ h1 h2).1 h5⟩
  · rintro ⟨i', j', h1, h2, h3, h4, h5⟩
    exact ⟨i', j', h1, h2, h3, h4, (h _ _ h1 h2).2 h5⟩

/-- C138: for a day with a complete file of the analysis the flags are exactly: areal low (bit 7) and high (bit 8) within two cells
of a cell whose temperature, reduced to sea level, is more than four times the distance from median to quartile beyond a
quartile of the region, and extreme low (bit 9) and high (bit 10) within two cells of a cell below 193.15 K or above 333.15 K. -/
theorem c138_outliers {f : DayFiles} (t : Date → Spec.Day) (d : Date) (ha : Spec.Stores f.analysis (t d).analysis) (altitude : Grid) :
    ∃ out, outlierFlags altitude f = .ok out ∧ ∀ i j : ℕ, i < 720 → j < 1440 → ∀ n, (out (i, j)).getLsbD n = true ↔
        (n = 7 ∧ Spec.Near (Spec.RegionalCold t altitude d) i j) ∨ (n = 8 ∧ Spec.Near (Spec.RegionalWarm t altitude d) i j) ∨
        (n = 9 ∧ Spec.Near (fun i j => (t d).analysis.temperature i j < 193.15) i j) ∨
        (n = 10 ∧ Spec.Near (fun i j => 333.15 < (t d).analysis.temperature i j) i j) := by
  obtain ⟨cubes, _, hla⟩ := loadAnalysis_eq ha
  unfold outlierFlags arealFlags extremeFlags
  rw [hla]
  simp only [seaLevel_eq]
  refine ⟨_, rfl, fun i j hi hj n => ?_⟩
  simp only [BitVec.getLsbD_or, Bool.or_eq_true]
  rw [show AREAL_LOW = bit 7 from rfl, show AREAL_HIGH = bit 8 from rfl, show EXTREME_LOW = bit 9 from rfl,
    show EXTREME_HIGH = bit 10 from rfl, setFlag_bit 8 (by omega), setFlag_bit 7 (by omega), setFlag_bit 10 (by omega),
    setFlag_bit 9 (by omega), null_bit]
  simp only [Bool.false_eq_true, false_or]
  rw [extended_iff _ hi hj, extended_iff _ hi hj, extended_iff _ hi hj, extended_iff _ hi hj, or_assoc]
  have e1 := near_congr (P := fun i j => arealLow (arealQuartiles (Spec.seaLevel t altitude d) i j) (Spec.seaLevel t altitude d i j) = true)
    (Q := Spec.RegionalCold t altitude d) (fun i j hi hj => by
      rw [arealQuartiles_eq _ hi hj]
      unfold arealLow quartileLimit Spec.RegionalCold Spec.regional
      simp only [decide_eq_true_eq]) i j
  have e2 := near_congr (P := fun i j => arealHigh (arealQuartiles (Spec.seaLevel t altitude d) i j) (Spec.seaLevel t altitude d i j) = true)
    (Q := Spec.RegionalWarm t altitude d) (fun i j hi hj => by
      rw [arealQuartiles_eq _ hi hj]
      unfold arealHigh quartileLimit Spec.RegionalWarm Spec.regional
      simp only [decide_eq_true_eq, gt_iff_lt]) i j
  have e3 := near_congr (P := fun i j => decide ((t d).analysis.temperature i j < extremeLow) = true)
    (Q := fun i j => (t d).analysis.temperature i j < 193.15) (fun i j hi hj => by
      rw [decide_eq_true_eq]
      have : extremeLow = 193.15 := by unfold extremeLow; norm_num
      rw [this]) i j
  have e4 := near_congr (P := fun i j => decide ((t d).analysis.temperature i j > extremeHigh) = true)
    (Q := fun i j => 333.15 < (t d).analysis.temperature i j) (fun i j hi hj => by
      rw [decide_eq_true_eq, gt_iff_lt]
      have : extremeHigh = 333.15 := by unfold extremeHigh; norm_num
      rw [this]) i j
  rw [e1, e2, e3, e4]

/-- C138: the location flags (13 and 14) compare with eight times the distances from the median to the quartiles of the
cell. -/
theorem c138_location {f : DayFiles} {ta : Spec.Contents} (ha : Spec.Stores f.analysis ta) {d : Date}
    {percentiles : ℕ × ℕ → Option QuartileGrid} {q : QuartileGrid} (hq : percentiles (d.month, d.day) = some q) :
    ∃ out, locationFlags percentiles f d = .ok out ∧ ∀ i j n, (out (i, j)).getLsbD n = true ↔
        (n = 13 ∧ ta.temperature i j < (q i j).median - 8 * ((q i j).median - (q i j).lower)) ∨
        (n = 14 ∧ (q i j).median + 8 * ((q i j).upper - (q i j).median) < ta.temperature i j) := by
  obtain ⟨cubes, _, hla⟩ := loadAnalysis_eq ha
  unfold locationFlags Percentiles.inputKey
  rw [hla, hq]
  refine ⟨_, rfl, fun i j n => ?_⟩
  rw [show LOCATION_LOW = bit 13 from rfl, show LOCATION_HIGH = bit 14 from rfl, setFlag_bit 14 (by omega), setFlag_bit 13 (by omega),
    null_bit]
  simp only [Bool.false_eq_true, false_or, decide_eq_true_eq, gt_iff_lt]
  rfl

/-! ### What the percentiles are -/

/-- C138: more than a fraction `p` of all other values lie at or below a percentile, and more than the rest at or above. -/
theorem c138_quantile {p : ℚ} (h0 : 0 ≤ p) (h1 : p ≤ 1) {values : Multiset ℚ} (hv : values ≠ 0) :
    p * (values.card - 1) < (values.filter (· ≤ Spec.quantile p values)).card ∧
      (1 - p) * (values.card - 1) < (values.filter (Spec.quantile p values ≤ ·)).card := by
  have hs : ((values.sort (· ≤ ·) : List ℚ) : Multiset ℚ) = values := Multiset.sort_eq _ _
  have hsort := Multiset.pairwise_sort values (· ≤ ·)
  have hlen := Multiset.length_sort (s := values) (r := (· ≤ ·))
  have hpos : 1 ≤ values.card := Multiset.card_pos.2 hv
  unfold Spec.quantile
  simp only
  generalize values.sort (· ≤ ·) = s at *
  generalize hn : values.card = n at *
  have hnq : (1 : ℚ) ≤ n := by exact_mod_cast hpos
  have hx0 : 0 ≤ p * ((n : ℚ) - 1) := mul_nonneg h0 (by linarith)
  have hx1 : p * ((n : ℚ) - 1) ≤ n - 1 := by nlinarith
  have hx2 : (1 - p) * ((n : ℚ) - 1) = n - 1 - p * ((n : ℚ) - 1) := by ring
  rw [hx2]
  generalize p * ((n : ℚ) - 1) = x at *
  have hk1 := Int.floor_le x
  have hk2 := Int.lt_floor_add_one x
  have hk0 : 0 ≤ ⌊x⌋ := Int.floor_nonneg.2 hx0
  obtain ⟨k, hk⟩ := Int.eq_ofNat_of_zero_le hk0
  rw [hk] at hk1 hk2 ⊢
  push_cast at hk1 hk2
  rw [Int.toNat_natCast]
  have hkn : k < n := by
    have : (k : ℚ) < n := by linarith
    exact_mod_cast this
  have hks : k < s.length := by omega
  rw [List.getD_eq_getElem _ _ hks]
  have hmono : ∀ a b (ha : a < s.length) (hb : b < s.length), a ≤ b → s[a] ≤ s[b] := by
    intro a b ha hb hab
    rcases Nat.lt_or_eq_of_le hab with h | h
    · exact (List.pairwise_iff_getElem.1 hsort) a b ha hb h
    · subst h; exact le_refl _
  have hQ1 : s[k] ≤ s[k] + (x - k) * (s.getD (k + 1) 0 - s[k]) := by
    by_cases hk' : k + 1 < s.length
    · rw [List.getD_eq_getElem _ _ hk']
      have := hmono k (k + 1) hks hk' (by omega)
      nlinarith
    · have hkn' : n = k + 1 := by omega
      have : x = k := by
        rw [hkn'] at hx1
        push_cast at hx1
        linarith
      rw [this]; simp
  have hQ2 : ∃ m, m < n ∧ (n : ℚ) - 1 - x < (n - m : ℕ) ∧ ∃ hm : m < s.length, s[k] + (x - k) * (s.getD (k + 1) 0 - s[k]) ≤ s[m] := by
    by_cases hf : x = k
    · refine ⟨k, hkn, ?_, hks, ?_⟩
      · rw [Nat.cast_sub hkn.le, hf]; linarith
      · rw [hf]; simp
    · have hlt : (k : ℚ) < x := lt_of_le_of_ne hk1 (fun h => hf h.symm)
      have hk' : k + 1 < n := by
        have : (k : ℚ) < n - 1 := by linarith
        have : ((k + 1 : ℕ) : ℚ) < n := by push_cast; linarith
        exact_mod_cast this
      refine ⟨k + 1, hk', ?_, by omega, ?_⟩
      · rw [Nat.cast_sub hk'.le]; push_cast; linarith
      · rw [List.getD_eq_getElem _ _ (by omega : k + 1 < s.length)]
        have := hmono k (k + 1) hks (by omega) (by omega)
        nlinarith
  generalize s[k] + (x - k) * (s.getD (k + 1) 0 - s[k]) = Q at *
  obtain ⟨m, hmn, hm1, hm, hm2⟩ := hQ2
  rw [← hs, Multiset.filter_coe, Multiset.filter_coe, Multiset.coe_card, Multiset.coe_card]
  constructor
  · have h1 : k + 1 ≤ (s.filter (· ≤ Q)).length := by
      have : ((s.take (k + 1)).filter (· ≤ Q)) = s.take (k + 1) := by
        rw [List.filter_eq_self]
        intro a ha
        obtain ⟨i, hi, rfl⟩ := List.mem_iff_getElem.1 ha
        rw [List.length_take] at hi
        rw [List.getElem_take, decide_eq_true_eq]
        exact (hmono i k (by omega) hks (by omega)).trans hQ1
      have hsub := ((List.take_sublist (k + 1) s).filter (· ≤ Q)).length_le
      rw [this, List.length_take] at hsub
      omega
    have : ((k + 1 : ℕ) : ℚ) ≤ ((s.filter (· ≤ Q)).length : ℚ) := by exact_mod_cast h1
    push_cast at this
    linarith
  · have h1 : n - m ≤ (s.filter (Q ≤ ·)).length := by
      have : ((s.drop m).filter (Q ≤ ·)) = s.drop m := by
        rw [List.filter_eq_self]
        intro a ha
        obtain ⟨i, hi, rfl⟩ := List.mem_iff_getElem.1 ha
        rw [List.length_drop] at hi
        rw [List.getElem_drop, decide_eq_true_eq]
        exact hm2.trans (hmono m (m + i) hm (by omega) (by omega))
      have hsub := ((List.drop_sublist m s).filter (Q ≤ ·)).length_le
      rw [this, List.length_drop] at hsub
      omega
    have : ((n - m : ℕ) : ℚ) ≤ ((s.filter (Q ≤ ·)).length : ℚ) := by exact_mod_cast h1
    linarith

end Verif.Eustace.Masking
