import Verif.Eustace.Masking.Published

/-! What happens if a file is missing: C140. -/
namespace Verif.Eustace.Masking
open Verif Verif.Calendar Verif.Eustace.Flags

/-! ### Steps which fail -/

theorem mem_processed {α β : Type} {step : α → Except PyErr β} {l : List α} {e : α × β} (h : e ∈ processed step l) :
    e.1 ∈ l ∧ step e.1 = .ok e.2 := by
  induction l with
  | nil => exact absurd h (by simp [processed])
  | cons a l ih =>
    unfold processed at h
    cases hs : step a with
    | error err => rw [hs] at h; exact absurd h (by simp)
    | ok v =>
      rw [hs] at h
      simp only [List.mem_cons] at h
      rcases h with rfl | h
      · exact ⟨by simp, hs⟩
      · exact ⟨by simp [(ih h).1], (ih h).2⟩

theorem stage_none {α β : Type} [DecidableEq α] {step : α → Except PyErr β} {operations : List (List α)} {d : α} {err : PyErr}
    (h : step d = .error err) : stage step operations d = none := by
  unfold stage
  rw [Option.map_eq_none_iff, List.find?_eq_none]
  intro e he
  rw [List.mem_flatMap] at he
  obtain ⟨l, _, he⟩ := he
  have := (mem_processed he).2
  simp only [decide_eq_true_eq]
  rintro rfl
  rw [h] at this
  exact absurd this (by simp)

theorem processed_before {β : Type} {step : ℕ → Except PyErr β} {l : List ℕ} (hl : l.Pairwise (· < ·)) {k : ℕ} (hk : k ∈ l)
    {err : PyErr} (h : step k = .error err) {e : ℕ × β} (he : e ∈ processed step l) : e.1 < k := by
  induction l with
  | nil => exact absurd hk (by simp)
  | cons a l ih =>
    rw [List.pairwise_cons] at hl
    unfold processed at he
    cases hs : step a with
    | error err' => rw [hs] at he; exact absurd he (by simp)
    | ok v =>
      rw [hs] at he
      have hak : k ≠ a := by
        rintro rfl
        rw [h] at hs
        exact absurd hs (by simp)
      have hkl : k ∈ l := (List.mem_cons.1 hk).resolve_left hak
      simp only [List.mem_cons] at he
      rcases he with rfl | he
      · exact hl.1 k hkl
      · exact ih hl.2 hkl he

theorem windowCheck_none {files : Files Cell} {d : Date} (hd : d.Valid) (h : files d = none) (w c : ℕ) (target : Word) :
    windowCheck files d w c target = .error .nameError := by
  have hc := windowFold_centre files d target (rangeInt (-w) (w + 1)) Counts.init
  rw [addDays_zero hd, h] at hc
  unfold windowCheck
  simp only [hc]
  simp [Counts.init]

theorem calendarCheck_none {files : Files Cell} {d : Date} (hd : d.Valid) (h : files d = none) (a b : ℕ) (target : Word) :
    calendarCheck files d a b target = .error .nameError := by
  have hc := calendarFold_centre files d target (rangeInt ((a : ℤ) - d.year) ((b : ℤ) - d.year + 1)) Counts.init (by
    intro k hk
    unfold rangeInt at hk
    rw [List.mem_map] at hk
    obtain ⟨i, _, rfl⟩ := hk
    omega)
  rw [addYears_sameDay d (by omega), show ((d.year : ℤ) + 0).toNat = d.year by omega, sameDay_self hd, h] at hc
  unfold calendarCheck
  simp only [hc]
  simp [Counts.init]

/-! ### Months -/

theorem mem_maskMonth {step : Date → List (Kind × List MaskedField) × Option PyErr} {l : List Date} {e : Date × Kind × List MaskedField}
    (h : e ∈ maskMonth step l) : e.1 ∈ l ∧ e.2 ∈ (step e.1).1 := by
  induction l with
  | nil => exact absurd h (by simp [maskMonth])
  | cons d l ih =>
    have hout : ∀ o ∈ (step d).1.map (fun o => (d, o.1, o.2)), o.1 ∈ d :: l ∧ o.2 ∈ (step o.1).1 := by
      intro o ho
      rw [List.mem_map] at ho
      obtain ⟨p, hp, rfl⟩ := ho
      exact ⟨by simp, hp⟩
    unfold maskMonth at h
    cases hs : (step d).2 with
    | some err => rw [hs] at h; exact hout e h
    | none =>
      rw [hs] at h
      simp only [List.mem_append] at h
      rcases h with h | h
      · exact hout e h
      · exact ⟨List.mem_cons_of_mem _ (ih h).1, (ih h).2⟩

theorem maskMonth_before {step : Date → List (Kind × List MaskedField) × Option PyErr} {l : List Date}
    (hl : l.Pairwise fun a b => a.number < b.number) {d : Date} (hd : d ∈ l) {err : PyErr} (h : step d = ([], some err))
    {e : Date × Kind × List MaskedField} (he : e ∈ maskMonth step l) : e.1.number < d.number := by
  induction l with
  | nil => exact absurd hd (by simp)
  | cons a l ih =>
    rw [List.pairwise_cons] at hl
    unfold maskMonth at he
    by_cases ha : a = d
    · subst ha
      rw [h] at he
      exact absurd he (by simp)
    · have hdl : d ∈ l := (List.mem_cons.1 hd).resolve_left fun h => ha h.symm
      have hout : ∀ o ∈ (step a).1.map (fun o => (a, o.1, o.2)), o.1.number < d.number := by
        intro o ho
        rw [List.mem_map] at ho
        obtain ⟨p, hp, rfl⟩ := ho
        exact hl.1 d hdl
      cases hs : (step a).2 with
      | some err => rw [hs] at he; exact hout e he
      | none =>
        rw [hs] at he
        simp only [List.mem_append] at he
        rcases he with he | he
        · exact hout e he
        · exact ih hl.2 hdl he

theorem mem_published {x : Inputs} {s : Settings} {iteration : ℕ} {e : Date × Kind × List MaskedField} (h : e ∈ published x s iteration) :
    e.2 ∈ (maskDay x iteration (mergedFiles x s) (locationFiles x s) e.1).1 := by
  unfold published at h
  rw [List.mem_flatMap] at h
  obtain ⟨l, _, h⟩ := h
  exact (mem_maskMonth h).2

theorem published_before {x : Inputs} {s : Settings} {iteration : ℕ} (hs : s.startYear ≤ s.endYear + 1) {d : Date}
    (hd : Spec.InYears s.startYear s.endYear d) {err : PyErr}
    (h : maskDay x iteration (mergedFiles x s) (locationFiles x s) d = ([], some err)) {e : Date × Kind × List MaskedField}
    (he : e ∈ published x s iteration) : ¬ (e.1.year = d.year ∧ e.1.month = d.month ∧ d.day ≤ e.1.day) := by
  rintro ⟨hy, hm, hday⟩
  have hfirst : (⟨s.startYear, 1, 1⟩ : Date) = firstOf (12 * s.startYear) := by
    unfold firstOf; congr 1 <;> omega
  have hv1 : (⟨s.startYear, 1, 1⟩ : Date).Valid := by rw [hfirst]; exact firstOf_valid _
  have hfn : (⟨s.startYear, 1, 1⟩ : Date).number = daysBeforeYear s.startYear := by
    unfold Date.number
    simp [daysBeforeMonth]
  have hle : ∀ d, Spec.InYears s.startYear s.endYear d → (⟨s.startYear, 1, 1⟩ : Date).number ≤ d.number := by
    intro d hd
    rw [hfn]
    exact ((mem_days hd.1).2 hd.2).1
  unfold published at he
  rw [List.mem_flatMap] at he
  obtain ⟨l, hl, he⟩ := he
  have hel := (mem_maskMonth he).1
  have hey : Spec.InYears s.startYear s.endYear e.1 := (mem_jobs hs _).1 (List.mem_flatten.2 ⟨l, hl, hel⟩)
  unfold jobs at hl
  rw [List.mem_map] at hl
  obtain ⟨i, _, rfl⟩ := hl
  have hdl : d ∈ Dates.operationDates ⟨s.startYear, 1, 1⟩ i := by
    rw [Dates.c55_each_day_once hv1 rfl hd.1 (hle d hd)]
    rw [Dates.c55_each_day_once hv1 rfl hey.1 (hle _ hey)] at hel
    rw [hel, hy, hm]
  have hsorted : (Dates.operationDates ⟨s.startYear, 1, 1⟩ i).Pairwise fun a b => a.number < b.number := by
    rw [hfirst, Dates.operationDates_first, List.pairwise_map]
    refine (List.pairwise_lt_range' ..).imp fun {a b} hab => ?_
    rwa [(ofNumber_spec a).2, (ofNumber_spec b).2]
  have hlt := maskMonth_before hsorted hdl h he
  rcases Nat.lt_or_eq_of_le hday with hlt' | heq
  · have := number_lt_of hd.1 hey.1 (.inr ⟨hy.symm, .inr ⟨hm.symm, hlt'⟩⟩)
    omega
  · have : e.1 = d := by
      cases he1 : e.1
      cases hd1 : d
      rw [he1, hd1] at hy hm heq
      simp only at hy hm heq
      simp [hy, hm, heq]
    rw [this] at hlt
    omega

/-! ### Missing files -/

theorem threshold_missing {x : Inputs} {s : Settings} {d : Date}
    (h : (x.files d).analysis = none ∨ (x.files d).climatology = none ∨ (x.files d).largeScale = none) : thresholdFiles x s d = none := by
  have : ∃ err, thresholdFlags x.coast s.climatologyLimit s.largeScaleLimit s.constraintLimit (x.files d) = .error err := by
    cases ht : thresholdFlags x.coast s.climatologyLimit s.largeScaleLimit s.constraintLimit (x.files d) with
    | error err => exact ⟨err, rfl⟩
    | ok out =>
      exfalso
      have hc := c137_complete _ _ _ _ ht
      rcases h with h | h | h
      · obtain ⟨c, hc, _⟩ := hc _ (List.mem_cons_self)
        rw [h] at hc; exact absurd hc (by simp)
      · obtain ⟨c, hc, _⟩ := hc _ (List.mem_cons_of_mem _ List.mem_cons_self)
        rw [h] at hc; exact absurd hc (by simp)
      · obtain ⟨c, hc, _⟩ := hc _ (List.mem_cons_of_mem _ (List.mem_cons_of_mem _ List.mem_cons_self))
        rw [h] at hc; exact absurd hc (by simp)
  obtain ⟨err, herr⟩ := this
  exact stage_none herr

/-- C140: if the analysis, climatology or large-scale file of a day is missing, no masked file is published for that day or any
later day of its month, whatever is in the files of those days. -/
theorem c140_month_violated {x : Inputs} {s : Settings} (iteration : ℕ) (hs : s.startYear ≤ s.endYear + 1) {d : Date}
    (hd : Spec.InYears s.startYear s.endYear d)
    (h : (x.files d).analysis = none ∨ (x.files d).climatology = none ∨ (x.files d).largeScale = none)
    {e : Date × Kind × List MaskedField} (he : e ∈ published x s iteration) :
    ¬ (e.1.year = d.year ∧ e.1.month = d.month ∧ d.day ≤ e.1.day) := by
  have h1 : thresholdFiles x s d = none := threshold_missing h
  have h2 : windowFiles x s d = none := stage_none (windowCheck_none hd.1 h1 _ _ _)
  have h3 : calendarFiles x s d = none := stage_none (calendarCheck_none hd.1 h2 _ _ _)
  have h4 : mergedFiles x s d = none := by
    refine stage_none (err := .other) ?_
    unfold mergeStep
    rw [h3]
    cases persistentFiles x s d <;> rfl
  refine published_before (err := .other) hs hd ?_ he
  unfold maskDay
  rw [h4]

theorem loadTemperatures_none {files : Date → DayFiles} {dates : List Date} {d : Date} (hd : d ∈ dates) (h : (files d).analysis = none) :
    loadTemperatures files dates = none := by
  induction dates with
  | nil => exact absurd hd (by simp)
  | cons a l ih =>
    unfold loadTemperatures
    rcases List.mem_cons.1 hd with rfl | hd
    · rw [h]
    · rw [ih hd]
      cases (files a).analysis <;> rfl

/-- C140: if the analysis of one day of the reference period is missing, nothing is published for this calendar day and later days
of the same month in any year. -/
theorem c140_percentile_violated {x : Inputs} {s : Settings} (iteration : ℕ) {d : Date} (hd : d.Valid)
    (hyear : s.percentileStart ≤ d.year ∧ d.year ≤ s.percentileEnd) (h : (x.files d).analysis = none)
    {e : Date × Kind × List MaskedField} (he : e ∈ published x s iteration) : ¬ (e.1.month = d.month ∧ d.day ≤ e.1.day) := by
  rintro ⟨hm, hday⟩
  obtain ⟨k, hkey, hk, _⟩ := Percentiles.c74_one_file hd
  have hload : cellPercentiles x.files s.percentileStart s.percentileEnd k = .error .other := by
    unfold cellPercentiles
    rw [loadTemperatures_none (Percentiles.c74_contributes hd hyear.1 hyear.2 hk hkey) h]
  have hnone : percentileFiles x.files s.percentileStart s.percentileEnd (e.1.month, e.1.day) = none := by
    unfold percentileFiles
    rw [Option.map_eq_none_iff, List.find?_eq_none]
    intro o ho
    rw [List.mem_flatMap] at ho
    obtain ⟨month, hmonth, ho⟩ := ho
    rw [List.mem_range'_1] at hmonth
    simp only [decide_eq_true_eq]
    intro hc
    unfold Percentiles.outputKey at hc hkey
    unfold Percentiles.inputKey at hkey
    simp only [Prod.mk.injEq] at hc hkey
    obtain ⟨hoy, hom⟩ := (Percentiles.mem_calendarDays (by omega) (by omega) o.1).1 (mem_processed ho).1
    obtain ⟨hky, hkm⟩ := (Percentiles.mem_calendarDays hd.1 hd.2.1 k).1 hk
    have hmd : month = d.month := by rw [← hom, hc.1, hm]
    subst hmd
    have hlt : o.1 < k := by
      refine processed_before ?_ hk hload ho
      unfold Percentiles.calendarDays
      exact List.pairwise_lt_range' ..
    have hn := number_lt_of (Percentiles.referenceTime_valid k) (Percentiles.referenceTime_valid o.1)
    have h1 := Percentiles.referenceTime_number k
    have h2 := Percentiles.referenceTime_number o.1
    rcases Nat.lt_or_eq_of_le (show (Percentiles.referenceTime k).day ≤ (Percentiles.referenceTime o.1).day by omega) with hl | hl
    · have := hn (.inr ⟨by omega, .inr ⟨by omega, hl⟩⟩)
      omega
    · have : Percentiles.referenceTime k = Percentiles.referenceTime o.1 := by
        have e1 : (Percentiles.referenceTime k).year = (Percentiles.referenceTime o.1).year := by omega
        have e2 : (Percentiles.referenceTime k).month = (Percentiles.referenceTime o.1).month := by omega
        generalize Percentiles.referenceTime k = a at *
        generalize Percentiles.referenceTime o.1 = b at *
        cases a; cases b
        simp only at e1 e2 hl
        simp [e1, e2, hl]
      rw [this] at h1
      omega
  have hloc : locationFiles x s e.1 = none := by
    have : ∃ err, locationFlags (percentileFiles x.files s.percentileStart s.percentileEnd) (x.files e.1) e.1 = .error err := by
      unfold locationFlags Percentiles.inputKey
      rw [hnone]
      cases loadAnalysis (x.files e.1).analysis with
      | error err => exact ⟨_, rfl⟩
      | ok p => exact ⟨_, rfl⟩
    obtain ⟨err, herr⟩ := this
    exact stage_none herr
  have hmem := mem_published he
  unfold maskDay at hmem
  rw [hloc] at hmem
  cases hf : mergedFiles x s e.1 <;> rw [hf] at hmem <;> exact absurd hmem (by simp)

/-- C140: for any iteration other than 4 and 9 nothing is published. -/
theorem c140_iteration_violated (x : Inputs) (s : Settings) {iteration : ℕ} (h : iteration ≠ 4 ∧ iteration ≠ 9) :
    published x s iteration = [] := by
  rw [List.eq_nil_iff_forall_not_mem]
  intro e he
  have hmem := mem_published he
  have happly : ∀ f mask, (applyMask iteration f mask).1 = [] := by
    intro f mask
    unfold applyMask
    cases loadAnalysis f.analysis with
    | error err => rfl
    | ok p =>
      simp only
      rw [if_neg (by omega)]
  unfold maskDay at hmem
  cases hf : mergedFiles x s e.1 <;> cases hl : locationFiles x s e.1 <;> rw [hf, hl] at hmem
  · exact absurd hmem (by simp)
  · exact absurd hmem (by simp)
  · exact absurd hmem (by simp)
  · simp only [happly] at hmem
    exact absurd hmem (by simp)

/-- C140: if some members are not in the file of a day, those which are there get new numbers: the first of them is published as
member 0 whatever its number. -/
theorem c140_members_violated {f : DayFiles} {ta : Spec.Contents} (ha : Spec.Stores f.analysis ta) {cubes : List Cube}
    (hf : f.analysis = some cubes) {order : List ℕ} {first : ℕ} {rest : List ℕ} (hsort : (first :: rest).Pairwise (· ≤ ·))
    (hperm : List.Perm order (first :: rest)) (members : ℕ → Grid)
    (hm : cubes.filter (·.name = "Average daily surface air temperature ensemble") =
      order.map fun k => ⟨"Average daily surface air temperature ensemble", Spec.memberVariable k, members k⟩)
    {iteration : ℕ} (hiter : iteration = 4 ∨ iteration = 9) (mask : Cell → Bool) :
    ∃ fields others, (applyMask iteration f mask).1 = (.analysis, fields) :: others ∧
      fields[3]? = some ⟨Spec.memberVariable 0, maskedWhere mask (members first)⟩ := by
  obtain ⟨cubes', hc, hla⟩ := loadAnalysis_eq ha
  rw [hf] at hc
  cases hc
  unfold applyMask
  rw [hla]
  simp only
  rw [if_pos hiter, hm, sortedMembers_perm hsort hperm]
  simp only
  have hfield : (mainFields "tas" mask ⟨ta.temperature, ta.uncertainty, ta.influence,
      order.map fun k => ⟨"Average daily surface air temperature ensemble", Spec.memberVariable k, members k⟩⟩ ++
      memberFields mask ((first :: rest).map fun k => ⟨"Average daily surface air temperature ensemble", Spec.memberVariable k, members k⟩))[3]? =
      some ⟨Spec.memberVariable 0, maskedWhere mask (members first)⟩ := by
    rw [← memberName_eq]
    unfold memberFields mainFields
    rw [List.length_map, List.length_cons, List.range_succ_eq_map]
    rfl
  cases loadComponent f.climatology with
  | error e => exact ⟨_, _, rfl, hfield⟩
  | ok c =>
    simp only
    cases loadComponent f.largeScale with
    | error e => exact ⟨_, _, rfl, hfield⟩
    | ok l =>
      simp only
      cases loadComponent f.localScale with
      | error e => exact ⟨_, _, rfl, hfield⟩
      | ok s => exact ⟨_, _, rfl, hfield⟩

end Verif.Eustace.Masking
