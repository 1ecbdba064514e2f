import Verif.Eustace.MonthInput.Month
import Verif.PyLemmas

/-!
C152: the days of a month at once or one after the other, and what makes a month fail.
-/

namespace Verif.Eustace.MonthInput

open Verif Verif.Eustace.RawBinary Verif.Eustace.ObsSource Verif.Eustace.Components Verif.Eustace.Linear

/-! ### Days one after the other -/

/-- The operations for single days, one after the other. -/
noncomputable def runDays (value : UInt64 → ℝ) (disk : Disk) (A : Analysis) (k : Fin A.K) : List (Int × List DaySource) → Store A → Except PyErr (Store A)
  | [], S => .ok S
  | p :: rest, S =>
    match processInputs value disk A p.2 p.1 k S with
    | .error e => .error e
    | .ok S => runDays value disk A k rest S

theorem updateComponentTime_const {A : Analysis} (S : Store A) (k : Fin A.K) (ls : List Loader) (t : Int) :
    updateComponentTime A (ls.map fun l => fun _ => l t) k t S = updateComponentTime A ls k t S := by
  unfold updateComponentTime
  rw [stLoaders_const, spLoaders_const]
  simp only [List.map_eq_nil_iff]

/-- One of the days of a month by itself. -/
theorem c151_single {value : UInt64 → ℝ} {disk : Disk} {days : List Int} {inputs : List Given} (h : ∀ g ∈ inputs, g.OnDisk value disk days)
    {i : Nat} {t : Int} (ht : days[i]? = some t) (A : Analysis) (k : Fin A.K) (S : Store A) :
    processInputs value disk A (inputs.map fun g => dayNames g.source i) t k S = updateComponentTime A (inputs.map (Given.loader value)) k t S := by
  have := one_ok (value := value) (disk := disk) (t := t) (inputs := inputs.map fun g => (dayNames g.source i, g.table t, g.records t)) (by
    intro q hq
    obtain ⟨g, hg, rfl⟩ := List.mem_map.1 hq
    exact (h g hg).2 i t ht) A k S
  rw [List.map_map, List.map_map] at this
  rw [← updateComponentTime_const, List.map_map]
  exact this

theorem runDays_ok {value : UInt64 → ℝ} {disk : Disk} {days : List Int} {inputs : List Given} (h : ∀ g ∈ inputs, g.OnDisk value disk days)
    (A : Analysis) (k : Fin A.K) (l : List (Nat × Int)) (hl : ∀ p ∈ l, days[p.1]? = some p.2) (S : Store A) :
    runDays value disk A k (l.map fun p => (p.2, inputs.map fun g => dayNames g.source p.1)) S =
      updateTimes A (inputs.map (Given.loader value)) k (l.map Prod.snd) S := by
  induction l generalizing S with
  | nil => rfl
  | cons p l ih =>
    simp only [List.map_cons, runDays, updateTimes]
    rw [c151_single h (hl p List.mem_cons_self)]
    cases updateComponentTime A (inputs.map (Given.loader value)) k p.2 S with
    | error e => rfl
    | ok S' => exact ih (fun q hq => hl q (List.mem_cons_of_mem _ hq)) S'

/-- The days of a month with their sources. -/
def eachDay (inputs : List Given) (days : List Int) : List (Int × List DaySource) :=
  ((List.range days.length).zip days).map fun p => (p.2, inputs.map fun g => dayNames g.source p.1)

theorem eachDay_ok {value : UInt64 → ℝ} {disk : Disk} {days : List Int} {inputs : List Given} (h : ∀ g ∈ inputs, g.OnDisk value disk days)
    (A : Analysis) (k : Fin A.K) (S : Store A) :
    runDays value disk A k (eachDay inputs days) S = updateTimes A (inputs.map (Given.loader value)) k days S := by
  rw [eachDay, runDays_ok h A k]
  · rw [List.map_snd_zip (by simp)]
  · intro p hp
    obtain ⟨i, hi, rfl⟩ := List.mem_iff_getElem.1 hp
    rw [List.getElem_zip, List.getElem_range]
    exact List.getElem?_eq_getElem _

theorem loader_time {value : UInt64 → ℝ} {inputs : List Given} {l : Loader} (hl : l ∈ inputs.map (Given.loader value)) (t : Int) : (l t).time = t := by
  obtain ⟨g, _, rfl⟩ := List.mem_map.1 hl
  rfl

theorem hasData_records {value : UInt64 → ℝ} {inputs : List Given} {t : Int} :
    HasData (inputs.map (Given.loader value)) t ↔ ∃ g ∈ inputs, g.records t ≠ [] := by
  constructor
  · rintro ⟨l, hl, h⟩
    obtain ⟨g, hg, rfl⟩ := List.mem_map.1 hl
    exact ⟨g, hg, List.ne_nil_of_length_pos h⟩
  · rintro ⟨g, hg, h⟩
    exact ⟨_, List.mem_map_of_mem hg, List.length_pos_of_ne_nil h⟩

/-- **C152**: after the operation for a month, the component is solved for the observations of all days of the month, if there are any. -/
theorem c152_solved {value : UInt64 → ℝ} {disk : Disk} {days : List Int} {inputs : List Given} (h : ∀ g ∈ inputs, g.OnDisk value disk days)
    (A : Analysis) (k : Fin A.K) (hk : (A.comp k).kind = .spaceTime)
    {J : ∀ o : Obs, Matrix (Fin o.m) (Fin (A.comp k).n) ℝ} (hJ : IsLinear (A.comp k) J) (S : Store A) (he : (S k).measurement = [])
    (hd : ∃ t ∈ days, ∃ g ∈ inputs, g.records t ≠ []) :
    ∃ S₁ S', processInputsBatch value disk A (inputs.map Given.source) days k S = .ok S₁ ∧ updateComponentSolution A k S₁ = .ok S' ∧
      (∀ j, j ≠ k → S' j = S j) ∧
      (S' k).state = some (systemOf (A.comp k).prior (inputBatches J S (days.map fun t => (t, inputs.map (Given.loader value))))).maximumAPosteriori := by
  rw [c151_month h]
  obtain ⟨t, ht, g, hg, hr⟩ := hd
  refine c33_batch S k hk hJ _ ?_ ⟨_, List.mem_map_of_mem ht, hasData_records.2 ⟨g, hg, hr⟩⟩ he
  intro p hp
  obtain ⟨u, _, rfl⟩ := List.mem_map.1 hp
  exact ⟨List.ne_nil_of_mem (List.mem_map_of_mem hg), fun l hl => loader_time hl u⟩

/-- **C152**: for a space-time component, the month at once and its days one after the other give the same state. -/
theorem c152_days {value : UInt64 → ℝ} {disk : Disk} {days : List Int} {inputs : List Given} (h : ∀ g ∈ inputs, g.OnDisk value disk days)
    (A : Analysis) (k : Fin A.K) (hk : (A.comp k).kind = .spaceTime)
    {J : ∀ o : Obs, Matrix (Fin o.m) (Fin (A.comp k).n) ℝ} (hJ : IsLinear (A.comp k) J) (S : Store A) (he : (S k).measurement = [])
    (hn : days.Nodup) (hne : days ≠ []) (hd : ∀ t ∈ days, ∃ g ∈ inputs, g.records t ≠ []) :
    ∃ S₁ S₂ T₁ T₂, processInputsBatch value disk A (inputs.map Given.source) days k S = .ok S₁ ∧ updateComponentSolution A k S₁ = .ok S₂ ∧
      runDays value disk A k (eachDay inputs days) S = .ok T₁ ∧ updateComponentSolution A k T₁ = .ok T₂ ∧ (S₂ k).state = (T₂ k).state := by
  rw [c151_month h, eachDay_ok h]
  obtain ⟨S₁, S₂, S₃, h1, h2, h3, h4⟩ := c33_routes S k hk hJ (inputs.map (Given.loader value)) days hn hne
    (fun l hl t _ => loader_time hl t) (fun t ht => hasData_records.2 (hd t ht)) he
  rw [updateComponent] at h3
  cases hu : updateTimes A (inputs.map (Given.loader value)) k days S with
  | error e => rw [hu] at h3; simp at h3
  | ok T => rw [hu] at h3; exact ⟨S₁, S₂, T, S₃, h1, h2, rfl, h3, h4⟩

/-- **C152**: for a spatial component, the month at once and its days one after the other are the same in every respect. -/
theorem c152_days_spatial {value : UInt64 → ℝ} {disk : Disk} {days : List Int} {inputs : List Given} (h : ∀ g ∈ inputs, g.OnDisk value disk days)
    (A : Analysis) (k : Fin A.K) (hk : (A.comp k).kind = .spatial) (S : Store A) :
    processInputsBatch value disk A (inputs.map Given.source) days k S = runDays value disk A k (eachDay inputs days) S := by
  rw [c151_month h, eachDay_ok h, c33_routes_spatial S k hk]

/-! ### What makes a month fail -/

theorem stLoaders_none {A : Analysis} (S : Store A) (k : Fin A.K) (t : Int) (ls : List Loader) (h : ¬HasData ls t)
    (r : Storage (A.comp k).n × STSolution (A.comp k).n) : stLoaders A S k t ls r = .ok r := by
  induction ls with
  | nil => rfl
  | cons l ls ih =>
    rw [stLoaders, if_neg fun h0 => h ⟨l, List.mem_cons_self, h0⟩]
    exact ih fun ⟨l', hl', h'⟩ => h ⟨l', List.mem_cons_of_mem _ hl', h'⟩

theorem stBatch_none {A : Analysis} (S : Store A) (k : Fin A.K) (ls : List Loader) (hl : ls ≠ []) (days : List Int) (h : ∀ t ∈ days, ¬HasData ls t)
    (r : Storage (A.comp k).n × STSolution (A.comp k).n) (ht : r.2.time = none) : stBatch A S k (days.map fun t => (t, ls)) r = .ok r := by
  induction days with
  | nil => rfl
  | cons t days ih =>
    rw [List.map_cons, stBatch, if_neg hl, stLoaders_none S k t ls (h t List.mem_cons_self)]
    dsimp only
    rw [← ht]
    exact ih fun u hu => h u (List.mem_cons_of_mem _ hu)

/-- **C152 violated**: a month without observations is accepted, and then the component cannot be solved, whatever there is in other
months. -/
theorem c152_empty_month_violated {value : UInt64 → ℝ} {disk : Disk} {days : List Int} {inputs : List Given} (h : ∀ g ∈ inputs, g.OnDisk value disk days)
    (hi : inputs ≠ []) (A : Analysis) (k : Fin A.K) (hk : (A.comp k).kind = .spaceTime) (S : Store A)
    (hd : ∀ t ∈ days, ∀ g ∈ inputs, g.records t = []) :
    ∃ S₁, processInputsBatch value disk A (inputs.map Given.source) days k S = .ok S₁ ∧ updateComponentSolution A k S₁ = .error .attributeError := by
  rw [c151_month h]
  have h1 := stBatch_none S k (inputs.map (Given.loader value)) (by simpa using hi) days
    (fun t ht hh => by
      obtain ⟨g, hg, hr⟩ := hasData_records.1 hh
      exact hr (hd t ht g hg)) (S k, STSolution.new _) rfl
  refine ⟨_, by rw [updateComponentTimes, hk]; dsimp only; rw [h1], ?_⟩
  rw [updateComponentSolution, hk]
  dsimp only
  rw [stUpdate, Function.update_self]
  rw [appendAll_none _ _ ⟨none, by
    simp only [stUpdateTimeStep, STSolution.new]
    exact dictWrite_has _ _ _⟩]

/-- A day which fails makes the month fail. -/
theorem month_fails {value : UInt64 → ℝ} {disk : Disk} {days : List Int} {sources : List MonthSource} {i : Nat} {t : Int} (ht : days[i]? = some t)
    {s : MonthSource} (hs : s ∈ sources) (hf : ∀ d l o, slice s i = .ok d → oneDay disk d = .ok l → loadDay value disk t l ≠ .ok o)
    (A : Analysis) (k : Fin A.K) (S S' : Store A) : processInputsBatch value disk A sources days k S ≠ .ok S' := by
  intro h
  have hi : i < days.length := (List.getElem?_eq_some_iff.1 ht).1
  rw [processInputsBatch] at h
  cases h1 : monthLoaders disk sources days.length with
  | error e => rw [h1] at h; cases h
  | ok L =>
    rw [h1] at h
    replace h : (loadMonth value disk days L).bind _ = _ := h
    cases h2 : loadMonth value disk days L with
    | error e => rw [h2] at h; cases h
    | ok input =>
      clear h
      rw [monthLoaders] at h1
      obtain ⟨e1, e2⟩ := Verif.Py.mapM_ok h1
      obtain ⟨ls, e3, e4⟩ := e2 i i (by simp [hi])
      cases h3 : sources.mapM fun s => slice s i with
      | error e => rw [h3] at e4; cases e4
      | ok ds =>
        rw [h3] at e4
        replace e4 : ds.mapM (oneDay disk) = .ok ls := e4
        obtain ⟨j, hj⟩ := List.mem_iff_getElem?.1 hs
        obtain ⟨d, d1, d2⟩ := (Verif.Py.mapM_ok h3).2 j s hj
        obtain ⟨l, l1, l2⟩ := (Verif.Py.mapM_ok e4).2 j d d1
        rw [loadMonth] at h2
        obtain ⟨x, _, x2⟩ := (Verif.Py.mapM_ok h2).2 i (t, ls) (by rw [List.getElem?_zip_eq_some]; exact ⟨ht, e3⟩)
        cases h4 : ls.mapM (loadDay value disk t) with
        | error e => rw [h4] at x2; cases x2
        | ok os =>
          obtain ⟨o, _, o2⟩ := (Verif.Py.mapM_ok h4).2 j l l1
          exact hf d l o d2 l2 o2

/-- **C152 violated**: where a day has a file of maxima but none of minima, and there are correlated errors, the whole month fails. -/
theorem c152_one_missing_violated {value : UInt64 → ℝ} {disk : Disk} {days : List Int} {sources : List MonthSource} {i : Nat} {t : Int} (ht : days[i]? = some t)
    {s : MonthSource} (hs : s ∈ sources) (hc : Covers s days.length) {c : Nat} (hc0 : c ≠ 0) {uuid : Bytes} {table : List (UInt64 × UInt64)}
    {f : String} {obs : Observations UInt64} (hr : RangesOf disk (dayNames s i) c) (hl : LocationsOf disk (dayNames s i) uuid table)
    (hn : (dayNames s i).observables.lookup "Tmean" = none) (hmin : (dayNames s i).observables.lookup "Tmin" = some none)
    (hmax : (dayNames s i).observables.lookup "Tmax" = some (some f)) (hf : FileOf disk f uuid obs t c)
    (A : Analysis) (k : Fin A.K) (S S' : Store A) : processInputsBatch value disk A sources days k S ≠ .ok S' := by
  refine month_fails ht hs ?_ A k S S'
  intro d l o e1 e2 e3
  have hi : i < days.length := (List.getElem?_eq_some_iff.1 ht).1
  rw [slice_ok hi hc] at e1
  obtain rfl := Except.ok.inj e1
  obtain ⟨fixed, f1, f2⟩ := fixed_ok hl
  obtain ⟨l', h1, h2, h3, h4, specs, h5, h6, h6'⟩ := oneDay_ok hr f1
  rw [h1] at e2
  obtain rfl := Except.ok.inj e2
  obtain ⟨values, h7, h8⟩ := h6 _ _ hmin
  obtain ⟨values', h7', h8'⟩ := h6 _ _ hmax
  obtain ⟨r, hr'⟩ : ∃ r, DayRecords value obs t r := by
    obtain ⟨n, bytes, g1, g2, -⟩ := hf
    obtain ⟨_, kept, _, hk, -⟩ := c24_round_trip uuid uuid hl.1 obs n g1 g2 t
    exact ⟨_, kept, hk, rfl⟩
  obtain ⟨x, h9, h10⟩ := read_file (table := table) hl.1 hf hr' h8'
  rw [loadDay, f2 _ h3 h4] at e3
  replace e3 : ((filespecs _).bind fun specs => _) = _ := e3
  rw [h5] at e3
  replace e3 : ((dailyMean value disk (some (uuid, table)) t specs).bind fun obs => _) = _ := e3
  have : dailyMean value disk (some (uuid, table)) t specs = .error .valueError := by
    rw [dailyMean, h6' _ hn]
    dsimp only
    rw [h7, h7']
    dsimp only
    rw [read_nothing _ _ _ _ _ (.inl rfl), h9]
    have := mean_none t x h10.time
    rw [h10.correlated, if_neg hc0] at this
    exact this
  rw [this] at e3
  cases e3

/-- **C152 violated**: where a day has no file of correlation ranges, the whole month fails, even if the observations of that day are
missing too. -/
theorem c152_no_ranges_violated {value : UInt64 → ℝ} {disk : Disk} {days : List Int} {sources : List MonthSource} {i : Nat} {t : Int} (ht : days[i]? = some t)
    {s : MonthSource} (hs : s ∈ sources) (hc : Covers s days.length) {v : String} (hv : (v, none) ∈ (dayNames s i).ranges)
    (A : Analysis) (k : Fin A.K) (S S' : Store A) : processInputsBatch value disk A sources days k S ≠ .ok S' := by
  refine month_fails ht hs ?_ A k S S'
  intro d l o e1 e2 _
  have hi : i < days.length := (List.getElem?_eq_some_iff.1 ht).1
  rw [slice_ok hi hc] at e1
  obtain rfl := Except.ok.inj e1
  rw [oneDay] at e2
  cases h1 : (dayNames s i).ranges.mapM fun p => (openFile disk p.2).bind fun bytes => (readRanges bytes).bind fun r => Except.ok (p.1, r) with
  | error e => rw [h1] at e2; cases e2
  | ok ranges =>
    obtain ⟨j, hj⟩ := List.mem_iff_getElem?.1 hv
    obtain ⟨b, _, hb⟩ := (Verif.Py.mapM_ok h1).2 j _ hj
    cases hb

/-! ### A month of two days -/

/-- Files of ranges, locations and one day of observations. -/
def exampleDisk (uuid file : Bytes) : Disk := fun name =>
  if name = "ranges" then some (writeRanges [7])
  else if name = "locations" then some (writeLookup uuid (List.replicate 9 (1, 2)))
  else if name = "day10" then some file
  else none

/-- Two days with fixed locations, the second without observations. -/
def exampleSource : MonthSource where
  ranges := [("Tmean", [some "ranges", some "ranges"])]
  observables := [("Tmean", [some "day10", none])]
  fixed := some [some "locations", some "locations"]
  mobile := none

/-- What is to be seen of it: two observations on the first day. -/
noncomputable def exampleGiven (value : UInt64 → ℝ) : Given where
  source := exampleSource
  table := fun _ => List.replicate 9 (1, 2)
  records := fun t => if t = 10 then [(5, value 1, value 11), (8, value 4, value 14)] else []

/-- The hypotheses are met by a month with a day of observations and one without. -/
example (value : UInt64 → ℝ) (uuid : Bytes) (hu : uuid.length = 16) :
    ∃ disk, (∀ g ∈ [exampleGiven value], g.OnDisk value disk [10, 11]) ∧ ∃ t ∈ [(10 : Int), 11], ∃ g ∈ [exampleGiven value], g.records t ≠ [] := by
  have hk : Kept exampleObservations 10 [0, 3] := by
    refine ⟨by simp, fun i => ?_⟩
    match i with
    | 0 => simp [exampleObservations, OnDay]
    | 1 => simp [exampleObservations, OnDay]
    | 2 => simp [exampleObservations, OnDay]; norm_num
    | 3 => simp [exampleObservations, OnDay]; norm_num
    | i + 4 => simp [exampleObservations, OnDay]
  have hs : exampleObservations.Sized 4 := ⟨rfl, rfl, rfl, rfl, by simp [exampleObservations]⟩
  have ht : TimeSized exampleObservations.time 4 := ⟨rfl, by simp; norm_num⟩
  obtain ⟨file, _, h1, -⟩ := c24_round_trip uuid uuid hu exampleObservations 4 hs ht 10
  have hl : ∀ i < 2, LocationsOf (exampleDisk uuid file) (dayNames exampleSource i) uuid (List.replicate 9 (1, 2)) := by
    intro i hi
    refine ⟨hu, .inl ⟨"locations", ?_, rfl⟩⟩
    match i with
    | 0 => rfl
    | 1 => rfl
  have hr : ∀ i < 2, RangesOf (exampleDisk uuid file) (dayNames exampleSource i) 1 := by
    intro i hi
    match i with
    | 0 => exact ⟨by simp [dayNames, exampleSource], by simp [dayNames, exampleSource]; exact ⟨[7], rfl, rfl⟩⟩
    | 1 => exact ⟨by simp [dayNames, exampleSource], by simp [dayNames, exampleSource]; exact ⟨[7], rfl, rfl⟩⟩
  refine ⟨exampleDisk uuid file, ?_, 10, by simp, exampleGiven value, by simp, by simp [exampleGiven]⟩
  intro g hg
  obtain rfl := List.mem_singleton.1 hg
  refine ⟨⟨by simp [exampleGiven, exampleSource], by simp [exampleGiven, exampleSource], by simp [exampleGiven, exampleSource],
    by simp [exampleGiven, exampleSource]⟩, fun i t hit => ?_⟩
  match i with
  | 0 =>
    obtain rfl : (10 : Int) = t := by simpa using hit
    refine ⟨1, hr 0 (by omega), .mean (hl 0 (by omega)) rfl ⟨4, file, hs, ht, rfl, h1, rfl⟩ ⟨[0, 3], hk, rfl⟩ ?_⟩
    simp [exampleGiven]
  | 1 =>
    obtain rfl : (11 : Int) = t := by simpa using hit
    have : (exampleGiven value).records 11 = [] := by simp [exampleGiven]
    rw [this]
    exact ⟨1, hr 1 (by omega), .nothing (hl 1 (by omega)) (.inl rfl)⟩
  | i + 2 => simp at hit

/-- Minimum missing on the only day. -/
def exampleMissing : MonthSource where
  ranges := [("Tmin", [some "ranges"]), ("Tmax", [some "ranges"])]
  observables := [("Tmin", [none]), ("Tmax", [some "day10"])]
  fixed := some [some "locations"]
  mobile := none

/-- The hypotheses of `c152_one_missing_violated` are met by a day with maxima only. -/
example (uuid : Bytes) (hu : uuid.length = 16) : ∃ disk f obs, Covers exampleMissing [(10 : Int)].length ∧ RangesOf disk (dayNames exampleMissing 0) 1 ∧
    LocationsOf disk (dayNames exampleMissing 0) uuid (List.replicate 9 (1, 2)) ∧ (dayNames exampleMissing 0).observables.lookup "Tmean" = none ∧
    (dayNames exampleMissing 0).observables.lookup "Tmin" = some none ∧ (dayNames exampleMissing 0).observables.lookup "Tmax" = some (some f) ∧
    FileOf disk f uuid obs 10 1 := by
  have hs : exampleObservations.Sized 4 := ⟨rfl, rfl, rfl, rfl, by simp [exampleObservations]⟩
  have ht : TimeSized exampleObservations.time 4 := ⟨rfl, by simp; norm_num⟩
  obtain ⟨file, _, h1, -⟩ := c24_round_trip uuid uuid hu exampleObservations 4 hs ht 10
  refine ⟨exampleDisk uuid file, "day10", exampleObservations, ⟨by simp [exampleMissing], by simp [exampleMissing], by simp [exampleMissing], by simp [exampleMissing]⟩,
    ⟨by simp [dayNames, exampleMissing], ?_⟩, ⟨hu, .inl ⟨"locations", rfl, rfl⟩⟩, by decide, by decide, by decide, 4, file, hs, ht, rfl, h1, rfl⟩
  intro q hq
  have : q.2 = some "ranges" := by
    simp [dayNames, exampleMissing] at hq
    rcases hq with rfl | rfl <;> rfl
  exact ⟨"ranges", [7], this, rfl, rfl⟩

/-- The hypotheses of `c152_no_ranges_violated` are met by a day without observations and without ranges. -/
example : Covers ⟨[("Tmean", [none])], [("Tmean", [none])], none, none⟩ [(10 : Int)].length ∧
    ("Tmean", none) ∈ (dayNames ⟨[("Tmean", [none])], [("Tmean", [none])], none, none⟩ 0).ranges := by
  refine ⟨⟨by simp, by simp, by simp, by simp⟩, by simp [dayNames]⟩

end Verif.Eustace.MonthInput
