import Verif.Eustace.Masking.Props
import Verif.Eustace.Percentiles.Props
import Verif.Eustace.Dates.Props
import Mathlib.Data.Finset.Card
import Mathlib.Data.List.Range

/-! The steps of quality control one after the other: C139. -/
namespace Verif.Eustace.Masking
open Verif Verif.Calendar Verif.Eustace.Flags Finset

/-! ### Days of the jobs -/

theorem year_bounds {d : Date} (hd : d.Valid) : daysBeforeYear d.year ≤ d.number ∧ d.number < daysBeforeYear (d.year + 1) := by
  have := dayOfYear_lt hd
  unfold Date.number
  constructor
  · omega
  · show _ < daysBeforeYear d.year + daysInYear d.year
    omega

theorem mem_days {a b : ℕ} {d : Date} (hd : d.Valid) :
    (daysBeforeYear a ≤ d.number ∧ d.number < daysBeforeYear (b + 1)) ↔ a ≤ d.year ∧ d.year ≤ b := by
  obtain ⟨h1, h2⟩ := year_bounds hd
  constructor
  · intro ⟨ha, hb⟩
    constructor
    · by_contra hlt
      have := daysBeforeYear_mono (show d.year + 1 ≤ a by omega)
      omega
    · by_contra hlt
      have := daysBeforeYear_mono (show b + 1 ≤ d.year by omega)
      omega
  · intro ⟨ha, hb⟩
    have h3 := daysBeforeYear_mono ha
    have h4 := daysBeforeYear_mono (show d.year + 1 ≤ b + 1 by omega)
    omega

theorem mem_jobs {a b : ℕ} (h : a ≤ b + 1) (d : Date) : d ∈ (jobs a b).flatten ↔ Spec.InYears a b d := by
  unfold jobs
  rw [← List.flatMap_def, Dates.c55_years h, List.mem_map]
  have hm := daysBeforeYear_mono h
  constructor
  · rintro ⟨n, hn, rfl⟩
    rw [List.mem_range'_1] at hn
    obtain ⟨hv, hnum⟩ := ofNumber_spec n
    refine ⟨hv, (mem_days hv).1 ?_⟩
    rw [hnum]; omega
  · intro ⟨hv, h'⟩
    have := (mem_days hv).2 h'
    exact ⟨d.number, by rw [List.mem_range'_1]; omega, ofNumber_number hv⟩

/-! ### Running a step -/

theorem find_processed {α β : Type} [DecidableEq α] (step : α → Except PyErr β) (l : List α)
    (h : ∀ d ∈ l, ∃ v, step d = .ok v) (d : α) :
    (d ∈ l → ∀ v, step d = .ok v → (processed step l).find? (·.1 = d) = some (d, v)) ∧
      (d ∉ l → (processed step l).find? (·.1 = d) = none) := by
  induction l with
  | nil => exact ⟨fun h => absurd h (by simp), fun _ => rfl⟩
  | cons a l ih =>
    obtain ⟨w, hw⟩ := h a (by simp)
    obtain ⟨h1, h2⟩ := ih (fun d hd => h d (by simp [hd]))
    unfold processed
    rw [hw]
    simp only [List.find?_cons]
    by_cases hd : a = d
    · subst hd
      refine ⟨fun _ v hv => ?_, fun hn => absurd (by simp) hn⟩
      rw [hw] at hv
      cases hv
      simp
    · simp only [hd, decide_false, List.mem_cons]
      refine ⟨fun hm v hv => h1 (hm.resolve_left fun h => hd h.symm) v hv, fun hn => h2 fun hm => hn (Or.inr hm)⟩

theorem stage_ok {α β : Type} [DecidableEq α] (step : α → Except PyErr β) (operations : List (List α))
    (h : ∀ d ∈ operations.flatten, ∃ v, step d = .ok v) (d : α) :
    (d ∈ operations.flatten → ∀ v, step d = .ok v → stage step operations d = some v) ∧
      (d ∉ operations.flatten → stage step operations d = none) := by
  unfold stage
  induction operations with
  | nil => exact ⟨fun h => absurd h (by simp), fun _ => rfl⟩
  | cons l ops ih =>
    obtain ⟨i1, i2⟩ := ih (fun d hd => h d (by simp only [List.flatten_cons, List.mem_append]; exact Or.inr hd))
    obtain ⟨f1, f2⟩ := find_processed step l (fun d hd => h d (by simp only [List.flatten_cons, List.mem_append]; exact Or.inl hd)) d
    simp only [List.flatMap_cons, List.find?_append, List.flatten_cons, List.mem_append]
    by_cases hd : d ∈ l
    · refine ⟨fun _ v hv => ?_, fun hn => absurd (Or.inl hd) hn⟩
      rw [f1 hd v hv]; rfl
    · rw [f2 hd]
      simp only [Option.none_or]
      exact ⟨fun hm v hv => i1 (hm.resolve_left hd) v hv, fun hn => i2 fun hm => hn (Or.inr hm)⟩

/-- The directory which a step writes when it succeeds on every day. -/
theorem stage_spec {β : Type} {a b : ℕ} (hab : a ≤ b + 1) (step : Date → Except PyErr β) (P : Date → β → Prop)
    (h : ∀ d, Spec.InYears a b d → ∃ v, step d = .ok v ∧ P d v) :
    ∀ d, (Spec.InYears a b d → ∃ v, stage step (jobs a b) d = some v ∧ P d v) ∧
      (¬ Spec.InYears a b d → stage step (jobs a b) d = none) := by
  intro d
  have key := stage_ok step (jobs a b) (fun d hd => by
    obtain ⟨v, hv, _⟩ := h d ((mem_jobs hab d).1 hd)
    exact ⟨v, hv⟩) d
  rw [mem_jobs hab] at key
  refine ⟨fun hd => ?_, key.2⟩
  obtain ⟨v, hv, hP⟩ := h d hd
  exact ⟨v, key.1 hd v hv, hP⟩

/-! ### Counting -/

theorem howMany_eq_card (a n : ℕ) (P : ℕ → Prop) [DecidablePred P] : howMany (List.range' a n) P = #{k ∈ Ico a (a + n) | P k} := by
  unfold howMany
  rw [List.countP_eq_length_filter]
  have : ({k ∈ Ico a (a + n) | P k}) = ((List.range' a n).filter fun k => decide (P k)).toFinset := by
    ext k
    simp [List.mem_range'_1]
  rw [this]
  rw [List.toFinset_card_of_nodup (List.Nodup.filter _ (List.nodup_range' _ (by omega)))]
  congr 1
  refine List.filter_congr fun k _ => ?_
  exact decide_eq_decide.2 Iff.rfl

section Steps
variable {x : Inputs} {s : Settings} {t : Date → Spec.Day} (hs : Spec.Consistent s)
  (hx : ∀ d, Spec.InYears s.startYear s.endYear d → Spec.Complete (x.files d) (t d))

/-- A day of the analysis. -/
abbrev Within (s : Settings) (d : Date) : Prop := Spec.InYears s.startYear s.endYear d

/-- The flags after the first step. -/
def ThresholdSpec (x : Inputs) (s : Settings) (t : Date → Spec.Day) (d : Date) (v : FlagField) : Prop :=
  ∀ i j : ℕ, i < 720 → j < 1440 → ∀ n, (v (i, j)).getLsbD n = true ↔
    (n = 5 ∧ s.climatologyLimit < Spec.areaMean 6 (t d).climatology.uncertainty i j) ∨
    (n = 6 ∧ s.largeScaleLimit < Spec.areaMean 8 (t d).largeScale.uncertainty i j) ∨
    (n = 0 ∧ ¬ Spec.Observed s t d i j) ∨ (n = 12 ∧ Spec.water x.coast i j = 100)

include hs hx in
theorem threshold_files (d : Date) : (Within s d → ∃ v, thresholdFiles x s d = some v ∧ ThresholdSpec x s t d v) ∧
    (¬ Within s d → thresholdFiles x s d = none) := by
  refine stage_spec (by have := hs.years; omega) _ (ThresholdSpec x s t) (fun d hd => ?_) d
  have hc := hx d hd
  obtain ⟨out, ho, hb⟩ := c137_threshold hc.analysis hc.climatology hc.largeScale x.coast s.climatologyLimit s.largeScaleLimit
    s.constraintLimit
  refine ⟨out, ho, fun i j hi hj n => ?_⟩
  rw [hb i j hi hj n]
  unfold Spec.Observed
  rw [not_le]

theorem day_bit (n : ℕ) : DAY.getLsbD n = true ↔ n = 0 := by
  rw [show DAY = bit 0 from rfl, bit_getLsbD]
  simp only [Bool.and_eq_true, decide_eq_true_eq]
  omega

theorem calendar_bit (n : ℕ) : CALENDAR_DAY.getLsbD n = true ↔ n = 0 ∨ n = 1 ∨ n = 2 := by
  rw [show CALENDAR_DAY = bit 0 ||| bit 1 ||| bit 2 from rfl]
  simp only [BitVec.getLsbD_or, bit_getLsbD, Bool.or_eq_true, Bool.and_eq_true, decide_eq_true_eq]
  omega

include hs hx in
theorem constrained_day {i j : ℕ} (hi : i < 720) (hj : j < 1440) (d : Date) :
    ConstrainedOn (thresholdFiles x s) DAY (i, j) d ↔ Within s d ∧ Spec.Observed s t d i j := by
  obtain ⟨h1, h2⟩ := threshold_files hs hx d
  unfold ConstrainedOn
  by_cases hd : Within s d
  · obtain ⟨v, hv, hb⟩ := h1 hd
    rw [hv]
    simp only [Option.some.injEq, exists_eq_left', day_bit, hd, true_and, exists_eq_left]
    rw [← Bool.not_eq_true, hb i j hi hj]
    simp
  · rw [h2 hd]
    simp [hd]

include hs hx in
open Classical in
theorem constrained_days {i j : ℕ} (hi : i < 720) (hj : j < 1440) {a n b : ℕ} (hb : b + 1 = a + n) :
    constrainedDays (thresholdFiles x s) DAY (i, j) a n = Spec.observedDays s t a b i j := by
  unfold constrainedDays Spec.observedDays
  rw [howMany_eq_card]
  congr 1
  ext k
  simp only [mem_filter, mem_Ico, mem_Icc]
  rw [constrained_day hs hx hi hj]
  refine and_congr_left fun _ => ?_
  omega

/-- The flags after the second step. -/
def WindowSpec (x : Inputs) (s : Settings) (t : Date → Spec.Day) (d : Date) (v : FlagField) : Prop :=
  ∀ i j : ℕ, i < 720 → j < 1440 → ∀ n, (v (i, j)).getLsbD n = true ↔
    (n = 5 ∧ s.climatologyLimit < Spec.areaMean 6 (t d).climatology.uncertainty i j) ∨
    (n = 6 ∧ s.largeScaleLimit < Spec.areaMean 8 (t d).largeScale.uncertainty i j) ∨
    (n = 0 ∧ ¬ Spec.Observed s t d i j) ∨ (n = 12 ∧ Spec.water x.coast i j = 100) ∨
    (n = 1 ∧ Spec.observedDays s t (d.number - s.windowRange) (d.number - 1) i j < s.windowCount) ∨
    (n = 2 ∧ Spec.observedDays s t (d.number + 1) (d.number + s.windowRange) i j < s.windowCount)

include hs in
theorem number_large {d : Date} (hd : Within s d) : 365 ≤ d.number := by
  have h1 := (year_bounds hd.1).1
  have h2 := daysBeforeYear_mono (show 1 ≤ d.year from le_trans hs.year hd.2.1)
  have h3 : daysBeforeYear 1 = 366 := by decide
  omega

include hs hx in
theorem window_files (d : Date) : (Within s d → ∃ v, windowFiles x s d = some v ∧ WindowSpec x s t d v) ∧
    (¬ Within s d → windowFiles x s d = none) := by
  refine stage_spec (by have := hs.years; omega) _ (WindowSpec x s t) (fun d hd => ?_) d
  obtain ⟨centre, hc, hb⟩ := (threshold_files hs hx d).1 hd
  have hnum := number_large hs hd
  have hrange := hs.range
  obtain ⟨out, ho, hw⟩ := c51_window (thresholdFiles x s) hd.1 (w := s.windowRange) (by omega) hs.count DAY hc
  refine ⟨out, ho, fun i j hi hj n => ?_⟩
  rw [hw, hb i j hi hj, constrained_days hs hx hi hj (b := d.number - 1) (by omega),
    constrained_days hs hx hi hj (b := d.number + s.windowRange) (by omega)]
  simp only [or_assoc]

include hs hx in
theorem constrained_calendar {i j : ℕ} (hi : i < 720) (hj : j < 1440) (d : Date) :
    ConstrainedOn (windowFiles x s) CALENDAR_DAY (i, j) d ↔ Within s d ∧ Spec.Supported s t d i j := by
  obtain ⟨h1, h2⟩ := window_files hs hx d
  unfold ConstrainedOn
  by_cases hd : Within s d
  · obtain ⟨v, hv, hb⟩ := h1 hd
    rw [hv]
    simp only [Option.some.injEq, exists_eq_left', calendar_bit, hd, true_and]
    unfold Spec.Supported
    constructor
    · rintro ⟨n, hn, hf⟩
      rw [← Bool.not_eq_true, hb i j hi hj] at hf
      rcases hn with rfl | rfl | rfl
      · exact Or.inl (by simpa using hf)
      · exact Or.inr (Or.inl (by simpa using hf))
      · exact Or.inr (Or.inr (by simpa using hf))
    · rintro (h | h | h)
      · refine ⟨0, by simp, ?_⟩
        rw [← Bool.not_eq_true, hb i j hi hj]
        simpa using h
      · refine ⟨1, by simp, ?_⟩
        rw [← Bool.not_eq_true, hb i j hi hj]
        simpa using h
      · refine ⟨2, by simp, ?_⟩
        rw [← Bool.not_eq_true, hb i j hi hj]
        simpa using h
  · rw [h2 hd]
    simp [hd]

theorem inYear_eq (d : Date) (y : ℕ) : sameDay d y = Spec.inYear d y := rfl

theorem inYear_valid {d : Date} (hd : d.Valid) (y : ℕ) : (Spec.inYear d y).Valid := by
  have := daysInMonth_pos y d.month
  exact ⟨hd.1, hd.2.1, by have := hd.2.2.1; show 1 ≤ min _ _; omega, min_le_right _ _⟩

include hs hx in
open Classical in
theorem constrained_years {i j : ℕ} (hi : i < 720) (hj : j < 1440) {d : Date} (hd : Within s d) :
    constrainedYears (windowFiles x s) CALENDAR_DAY (i, j) d s.searchStart (s.searchEnd + 1 - s.searchStart) =
      Spec.supportedYears s t d i j := by
  unfold constrainedYears Spec.supportedYears
  rw [howMany_eq_card]
  congr 1
  ext y
  simp only [mem_filter, mem_Ico, mem_Icc]
  rw [constrained_calendar hs hx hi hj, inYear_eq]
  have h1 := hs.searchStart
  have h2 := hs.searchEnd
  have h3 := hs.years
  constructor
  · rintro ⟨_, hw, hsup⟩
    exact ⟨hw.2, hsup⟩
  · rintro ⟨hy, hsup⟩
    exact ⟨by omega, ⟨inYear_valid hd.1 y, hy⟩, hsup⟩

/-- The flags of the third step which the mask depends on; the areal low flag is not among them. -/
def CalendarSpec (s : Settings) (t : Date → Spec.Day) (d : Date) (v : FlagField) : Prop :=
  ∀ i j : ℕ, i < 720 → j < 1440 → ∀ n, 5 ≤ n → n ≠ 12 → ((v (i, j)).getLsbD n = true ↔
    (n = 5 ∧ s.climatologyLimit < Spec.areaMean 6 (t d).climatology.uncertainty i j) ∨
    (n = 6 ∧ s.largeScaleLimit < Spec.areaMean 8 (t d).largeScale.uncertainty i j) ∨
    (n = 15 ∧ Spec.supportedYears s t d i j < 3))

include hs hx in
theorem calendar_files (d : Date) : (Within s d → ∃ v, calendarFiles x s d = some v ∧ CalendarSpec s t d v) ∧
    (¬ Within s d → calendarFiles x s d = none) := by
  refine stage_spec (by have := hs.years; omega) _ (CalendarSpec s t) (fun d hd => ?_) d
  obtain ⟨centre, hc, hb⟩ := (window_files hs hx d).1 hd
  obtain ⟨out, ho, hw⟩ := c52_calendar (windowFiles x s) hd.1 (le_trans hs.searchStart hd.2.1) (le_trans hd.2.2 hs.searchEnd)
    CALENDAR_DAY hc
  refine ⟨out, ho, fun i j hi hj n h5 h12 => ?_⟩
  rw [hw, hb i j hi hj, constrained_years hs hx hi hj hd]
  have e0 : n ≠ 0 := by omega
  have e1 : n ≠ 1 := by omega
  have e2 : n ≠ 2 := by omega
  have e3 : n ≠ 3 := by omega
  have e4 : n ≠ 4 := by omega
  simp only [e0, e1, e2, e3, e4, h12, false_and, or_false, false_or, or_assoc]

/-- The flags of outliers. -/
def OutlierSpec (x : Inputs) (t : Date → Spec.Day) (d : Date) (v : FlagField) : Prop :=
  ∀ i j : ℕ, i < 720 → j < 1440 → ∀ n, n ≠ 11 → ((v (i, j)).getLsbD n = true ↔
    (n = 7 ∧ Spec.Near (Spec.RegionalCold t x.altitude d) i j) ∨ (n = 8 ∧ Spec.Near (Spec.RegionalWarm t x.altitude d) i j) ∨
    (n = 9 ∧ Spec.Near (fun i j => (t d).analysis.temperature i j < 193.15) i j) ∨
    (n = 10 ∧ Spec.Near (fun i j => 333.15 < (t d).analysis.temperature i j) i j))

include hs hx in
theorem outlier_files (d : Date) : (Within s d → ∃ v, outlierFiles x s d = some v ∧ OutlierSpec x t d v) ∧
    (¬ Within s d → outlierFiles x s d = none) := by
  refine stage_spec (by have := hs.years; omega) _ (OutlierSpec x t) (fun d hd => ?_) d
  obtain ⟨out, ho, hb⟩ := c138_outliers t d (hx d hd).analysis x.altitude
  exact ⟨out, ho, fun i j hi hj n _ => hb i j hi hj n⟩

include hs hx in
theorem persistent_files (d : Date) : (Within s d → ∃ v, persistentFiles x s d = some v ∧ OutlierSpec x t d v) ∧
    (¬ Within s d → persistentFiles x s d = none) := by
  refine stage_spec (by have := hs.years; omega) _ (OutlierSpec x t) (fun d hd => ?_) d
  obtain ⟨centre, hc, hb⟩ := (outlier_files hs hx d).1 hd
  have hnum := number_large hs hd
  have hrange := hs.outlierRange
  obtain ⟨out, ho, hw⟩ := c53_outliers (outlierFiles x s) hd.1 (w := s.outlierRange) (by omega) s.outlierCount hc
  refine ⟨out, ho, fun i j hi hj n h11 => ?_⟩
  rw [hw, ← hb i j hi hj n h11]
  simp [h11]

/-- The merged flags which the mask depends on. -/
def MergedSpec (x : Inputs) (s : Settings) (t : Date → Spec.Day) (d : Date) (v : FlagField) : Prop :=
  ∀ i j : ℕ, i < 720 → j < 1440 → ∀ n, 5 ≤ n → n ≠ 11 → n ≠ 12 → ((v (i, j)).getLsbD n = true ↔
    (n = 7 ∧ Spec.Near (Spec.RegionalCold t x.altitude d) i j) ∨ (n = 8 ∧ Spec.Near (Spec.RegionalWarm t x.altitude d) i j) ∨
    (n = 9 ∧ Spec.Near (fun i j => (t d).analysis.temperature i j < 193.15) i j) ∨
    (n = 10 ∧ Spec.Near (fun i j => 333.15 < (t d).analysis.temperature i j) i j) ∨
    (n = 5 ∧ s.climatologyLimit < Spec.areaMean 6 (t d).climatology.uncertainty i j) ∨
    (n = 6 ∧ s.largeScaleLimit < Spec.areaMean 8 (t d).largeScale.uncertainty i j) ∨
    (n = 15 ∧ Spec.supportedYears s t d i j < 3))

include hs hx in
theorem merged_files (d : Date) : (Within s d → ∃ v, mergedFiles x s d = some v ∧ MergedSpec x s t d v) ∧
    (¬ Within s d → mergedFiles x s d = none) := by
  refine stage_spec (by have := hs.years; omega) _ (MergedSpec x s t) (fun d hd => ?_) d
  obtain ⟨a, ha, hba⟩ := (persistent_files hs hx d).1 hd
  obtain ⟨b, hb, hbb⟩ := (calendar_files hs hx d).1 hd
  refine ⟨merged a b, by unfold mergeStep; rw [ha, hb], fun i j hi hj n h5 h11 h12 => ?_⟩
  rw [c54_merged, hba i j hi hj n h11, hbb i j hi hj n h5 h12]
  have h7 : n = 7 → ¬ (n = 5 ∨ n = 6 ∨ n = 15) := by omega
  simp only [h12, false_and, or_false, or_assoc]
  have key : ∀ A B C : Prop, ((n = 5 ∧ A ∨ n = 6 ∧ B ∨ n = 15 ∧ C) ∧ n ≠ 7) ↔ (n = 5 ∧ A ∨ n = 6 ∧ B ∨ n = 15 ∧ C) := by
    intro A B C
    constructor
    · exact fun h => h.1
    · intro h
      exact ⟨h, by rcases h with h | h | h <;> omega⟩
  rw [key]

/-! ### Percentiles -/

include hx in
theorem loadTemperatures_eq (dates : List Date) (h : ∀ d ∈ dates, Within s d) :
    loadTemperatures x.files dates = some (dates.map fun d => (t d).analysis.temperature) := by
  induction dates with
  | nil => rfl
  | cons d ds ih =>
    unfold loadTemperatures
    obtain ⟨cubes, hc, ⟨v, hv⟩, _⟩ := (hx d (h d (by simp))).analysis.file
    rw [hc, ih fun d hd => h d (by simp [hd])]
    simp only [hv]
    rfl

include hs hx in
theorem cellPercentiles_eq {k : ℕ} (hk : (Percentiles.referenceTime k).year = Percentiles.referenceYear) :
    ∃ q, cellPercentiles x.files s.percentileStart s.percentileEnd k = .ok q ∧ ∀ i j,
      q i j = ⟨Spec.calendarQuantile s t (1 / 4) (Percentiles.referenceTime k) i j,
        Spec.calendarQuantile s t (1 / 2) (Percentiles.referenceTime k) i j,
        Spec.calendarQuantile s t (3 / 4) (Percentiles.referenceTime k) i j⟩ := by
  have h1 := hs.percentileStart
  have h2 := hs.percentiles
  have h3 := hs.percentileEnd
  have hdates := Percentiles.c74_dates (startYear := s.percentileStart) (endYear := s.percentileEnd) k hk
  unfold cellPercentiles
  rw [loadTemperatures_eq hx _ (fun d hd => by
    rw [hdates, List.mem_map] at hd
    obtain ⟨y, hy, rfl⟩ := hd
    rw [List.mem_range'_1] at hy
    refine ⟨inYear_valid (Percentiles.referenceTime_valid k) y, ?_, ?_⟩
    · show s.startYear ≤ y; omega
    · show y ≤ s.endYear; omega)]
  rw [hdates]
  have hne : s.percentileEnd + 1 - s.percentileStart = (s.percentileEnd - s.percentileStart) + 1 := by omega
  have hcons : ∀ g : ℕ → Grid, ∃ a l, (List.range' s.percentileStart (s.percentileEnd + 1 - s.percentileStart)).map g = a :: l := by
    intro g
    rw [hne, List.range'_succ, List.map_cons]
    exact ⟨_, _, rfl⟩
  rw [List.map_map]
  obtain ⟨a, l, hal⟩ := hcons ((fun d => (t d).analysis.temperature) ∘ fun y => sameDay (Percentiles.referenceTime k) y)
  have hred : ∀ m : List Grid, m = a :: l → ∃ q, (match some m with
      | none => Except.error PyErr.other
      | some [] => .error .valueError
      | some grids => .ok fun i j => quartiles (grids.map fun g : Grid => g i j)) = .ok q ∧
        q = fun i j => quartiles (m.map fun g : Grid => g i j) := by
    intro m hm
    subst hm
    exact ⟨_, rfl, rfl⟩
  obtain ⟨q, hq, he⟩ := hred _ hal
  refine ⟨q, hq, fun i j => ?_⟩
  rw [he]
  simp only
  rw [quartiles_eq, List.map_map]
  unfold Spec.calendarQuantile
  have hval : ((((List.range' s.percentileStart (s.percentileEnd + 1 - s.percentileStart)).map
      ((fun g : Grid => g i j) ∘ (fun d => (t d).analysis.temperature) ∘ fun y => sameDay (Percentiles.referenceTime k) y)) : List ℚ) : Multiset ℚ) =
      (Icc s.percentileStart s.percentileEnd).val.map fun y =>
        (t (Spec.inYear (Percentiles.referenceTime k) y)).analysis.temperature i j := by
    rw [← Multiset.map_coe]
    rfl
  rw [hval]

theorem find_percentiles {β : Type} (step : ℕ → Except PyErr β) (h : ∀ k, (Percentiles.referenceTime k).year = Percentiles.referenceYear →
    ∃ v, step k = .ok v) {d : Date} (hd : d.Valid) :
    ∃ k v, step k = .ok v ∧ (Percentiles.referenceTime k).month = d.month ∧ (Percentiles.referenceTime k).day = d.day ∧
      (Percentiles.referenceTime k).year = Percentiles.referenceYear ∧
      ((List.range' 1 12).flatMap fun month => processed step (Percentiles.calendarDays month)).find?
        (fun e => Percentiles.outputKey e.1 = Percentiles.inputKey d) = some (k, v) := by
  obtain ⟨k, hkey, hmem, huniq⟩ := Percentiles.c74_one_file hd
  obtain ⟨hy, hm⟩ := (Percentiles.mem_calendarDays hd.1 hd.2.1 k).1 hmem
  obtain ⟨v, hv⟩ := h k hy
  have hkey' := hkey
  unfold Percentiles.outputKey Percentiles.inputKey at hkey'
  simp only [Prod.mk.injEq] at hkey'
  refine ⟨k, v, hv, hkey'.1, hkey'.2, hy, ?_⟩
  have hproc : ∀ l : List ℕ, (∀ k ∈ l, ∃ v, step k = .ok v) → ∀ e, e ∈ processed step l ↔ e.1 ∈ l ∧ step e.1 = .ok e.2 := by
    intro l hl e
    induction l with
    | nil => simp [processed]
    | cons a l ih =>
      obtain ⟨w, hw⟩ := hl a (by simp)
      unfold processed
      rw [hw]
      simp only [List.mem_cons]
      rw [ih fun k hk => hl k (by simp [hk])]
      constructor
      · rintro (rfl | h)
        · exact ⟨Or.inl rfl, hw⟩
        · exact ⟨Or.inr h.1, h.2⟩
      · rintro ⟨h1 | h1, h2⟩
        · left
          rw [h1, hw] at h2
          cases h2
          exact Prod.ext h1 rfl
        · exact Or.inr ⟨h1, h2⟩
  have hall : ∀ e ∈ (List.range' 1 12).flatMap fun month => processed step (Percentiles.calendarDays month),
      Percentiles.outputKey e.1 = Percentiles.inputKey d → e = (k, v) := by
    intro e he hke
    rw [List.mem_flatMap] at he
    obtain ⟨month, hmonth, he⟩ := he
    rw [List.mem_range'_1] at hmonth
    rw [hproc _ (fun k hk => h k ((Percentiles.mem_calendarDays (by omega) (by omega) k).1 hk).1)] at he
    obtain ⟨h1, _⟩ := huniq month e.1 (by omega) (by omega) he.1 hke
    have := he.2
    rw [h1, hv] at this
    cases this
    exact Prod.ext h1 rfl
  have hin : (k, v) ∈ (List.range' 1 12).flatMap fun month => processed step (Percentiles.calendarDays month) := by
    rw [List.mem_flatMap]
    have := hd.1
    have := hd.2.1
    refine ⟨d.month, by rw [List.mem_range'_1]; omega, ?_⟩
    rw [hproc _ (fun k hk => h k ((Percentiles.mem_calendarDays hd.1 hd.2.1 k).1 hk).1)]
    exact ⟨hmem, hv⟩
  cases hf : ((List.range' 1 12).flatMap fun month => processed step (Percentiles.calendarDays month)).find?
      (fun e => Percentiles.outputKey e.1 = Percentiles.inputKey d) with
  | none =>
    rw [List.find?_eq_none] at hf
    exact absurd (hf _ hin) (by simp [hkey])
  | some e =>
    have h1 := List.mem_of_find?_eq_some hf
    have h2 := List.find?_some hf
    rw [hall e h1 (by simpa using h2)]

include hs hx in
theorem percentile_files {d : Date} (hd : d.Valid) : ∃ q, percentileFiles x.files s.percentileStart s.percentileEnd (d.month, d.day) = some q ∧
    ∀ i j, q i j = ⟨Spec.calendarQuantile s t (1 / 4) d i j, Spec.calendarQuantile s t (1 / 2) d i j,
      Spec.calendarQuantile s t (3 / 4) d i j⟩ := by
  obtain ⟨k, v, hv, hm, hday, hy, hf⟩ := find_percentiles (cellPercentiles x.files s.percentileStart s.percentileEnd)
    (fun k hk => by
      obtain ⟨q, hq, _⟩ := cellPercentiles_eq hs hx hk
      exact ⟨q, hq⟩) hd
  obtain ⟨q, hq, hb⟩ := cellPercentiles_eq hs hx hy
  rw [hv] at hq
  cases hq
  refine ⟨v, ?_, fun i j => ?_⟩
  · unfold percentileFiles
    rw [show (d.month, d.day) = Percentiles.inputKey d from rfl, hf]
    rfl
  · rw [hb]
    unfold Spec.calendarQuantile Spec.inYear
    rw [hm, hday]

/-- The flags of the location check. -/
def LocationSpec (s : Settings) (t : Date → Spec.Day) (d : Date) (v : FlagField) : Prop :=
  ∀ i j n, (v (i, j)).getLsbD n = true ↔ (n = 13 ∧ Spec.LocallyCold s t d i j) ∨ (n = 14 ∧ Spec.LocallyWarm s t d i j)

include hs hx in
theorem location_files (d : Date) : (Within s d → ∃ v, locationFiles x s d = some v ∧ LocationSpec s t d v) ∧
    (¬ Within s d → locationFiles x s d = none) := by
  refine stage_spec (by have := hs.years; omega) _ (LocationSpec s t) (fun d hd => ?_) d
  obtain ⟨q, hq, hb⟩ := percentile_files hs hx hd.1
  obtain ⟨out, ho, hw⟩ := c138_location (hx d hd).analysis hq
  refine ⟨out, ho, fun i j n => ?_⟩
  rw [hw, hb]
  rfl

/-! ### The mask -/

theorem near_or (P Q : ℕ → ℕ → Prop) (i j : ℕ) : Spec.Near (fun i j => P i j ∨ Q i j) i j ↔ Spec.Near P i j ∨ Spec.Near Q i j := by
  unfold Spec.Near
  constructor
  · rintro ⟨i', j', h1, h2, h3, h4, h5 | h5⟩
    · exact Or.inl ⟨i', j', h1, h2, h3, h4, h5⟩
    · exact Or.inr ⟨i', j', h1, h2, h3, h4, h5⟩
  · rintro (⟨i', j', h1, h2, h3, h4, h5⟩ | ⟨i', j', h1, h2, h3, h4, h5⟩)
    · exact ⟨i', j', h1, h2, h3, h4, Or.inl h5⟩
    · exact ⟨i', j', h1, h2, h3, h4, Or.inr h5⟩

theorem isMarine_iff (coast : Grid) (i j : ℕ) : isMarine coast (i, j) = true ↔ 95 < Spec.water coast i j := by
  unfold isMarine
  rw [decide_eq_true_eq, coastMap_eq]

theorem mask_iff {d : Date} {a b : FlagField} (ha : MergedSpec x s t d a) (hb : LocationSpec s t d b) {i j : ℕ} (hi : i < 720)
    (hj : j < 1440) : combinedMask (isMarine x.coast) (rulesForYear d.year) a (some b) (i, j) = true ↔
      Spec.Masked s t x.altitude x.coast d i j := by
  rw [c50_masked, ← Bool.not_eq_true, isMarine_iff, not_lt]
  have hbit : ∀ n, 5 ≤ n → n ≠ 11 → n ≠ 12 → (combinedBit a (some b) (i, j) n ↔ (a (i, j)).getLsbD n = true ∨ (b (i, j)).getLsbD n = true) := by
    intro n _ _ _
    unfold combinedBit
    simp
  unfold Spec.Masked
  rw [near_or, near_or]
  simp only [List.mem_cons, List.not_mem_nil, or_false, exists_eq_or_imp, exists_eq_left]
  rw [hbit 5 (by omega) (by omega) (by omega), hbit 6 (by omega) (by omega) (by omega), hbit 7 (by omega) (by omega) (by omega),
    hbit 8 (by omega) (by omega) (by omega), hbit 9 (by omega) (by omega) (by omega), hbit 10 (by omega) (by omega) (by omega),
    hbit 13 (by omega) (by omega) (by omega), hbit 14 (by omega) (by omega) (by omega), hbit 15 (by omega) (by omega) (by omega)]
  simp only [hb i j]
  rw [ha i j hi hj 5 (by omega) (by omega) (by omega), ha i j hi hj 6 (by omega) (by omega) (by omega),
    ha i j hi hj 7 (by omega) (by omega) (by omega), ha i j hi hj 8 (by omega) (by omega) (by omega),
    ha i j hi hj 9 (by omega) (by omega) (by omega), ha i j hi hj 10 (by omega) (by omega) (by omega),
    ha i j hi hj 13 (by omega) (by omega) (by omega), ha i j hi hj 14 (by omega) (by omega) (by omega),
    ha i j hi hj 15 (by omega) (by omega) (by omega)]
  simp only [Nat.reduceEqDiff, false_and, true_and, or_false, false_or]
  have e : (15 : ℕ) ≠ 15 ↔ False := by simp
  tauto

end Steps

end Verif.Eustace.Masking
