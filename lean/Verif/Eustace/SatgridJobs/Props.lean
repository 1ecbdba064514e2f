import Verif.Eustace.SatgridJobs.Model

/-! C183: the array of jobs for gridded satellite data: one job for each day,
one file for each job, and day and night apart. -/

namespace Verif.Eustace.SatgridJobs

open Verif Verif.Calendar Verif.Eumopps.Names Verif.Eustace.Satgrid

theorem jobDate_number (s : Settings) {i : Nat} (hi : 1 ≤ i) :
    (jobDate s i).number = s.start.number + (i - 1) := by
  rw [jobDate, (ofNumber_spec _).2]
  omega

/-- C183: a date is done by exactly one job if it is one of the days from the
first date on, and by none otherwise; there are no other dates. -/
theorem c183_once (s : Settings) (d : Date) (hd : d.Valid) :
    ((s.start.number ≤ d.number ∧ d.number < s.start.number + s.days)
        → ∃! i, i ∈ jobs s ∧ jobDate s i = d)
      ∧ ((∃ i, i ∈ jobs s ∧ jobDate s i = d)
        → s.start.number ≤ d.number ∧ d.number < s.start.number + s.days) := by
  constructor
  · rintro ⟨h1, h2⟩
    refine ⟨d.number - s.start.number + 1, ⟨?_, ?_⟩, ?_⟩
    · simp only [jobs, List.mem_range'_1]; omega
    · have : s.start.number + (d.number - s.start.number + 1) - 1 = d.number := by omega
      rw [jobDate, this, ofNumber_number hd]
    · rintro j ⟨hj, he⟩
      simp only [jobs, List.mem_range'_1] at hj
      have := jobDate_number s hj.1
      rw [he] at this
      omega
  · rintro ⟨i, hi, he⟩
    simp only [jobs, List.mem_range'_1] at hi
    have := jobDate_number s hi.1
    rw [he] at this
    omega

/-- C183: all dates of jobs are dates of the calendar, each job has its own,
and the job after has the day after. -/
theorem c183_order (s : Settings) (i : Nat) (hi : i ∈ jobs s) :
    (jobDate s i).Valid ∧ (jobDate s (i + 1)).number = (jobDate s i).number + 1
      ∧ ∀ j ∈ jobs s, jobDate s j = jobDate s i → j = i := by
  simp only [jobs, List.mem_range'_1] at hi ⊢
  refine ⟨(ofNumber_spec _).1, ?_, ?_⟩
  · rw [jobDate_number s hi.1, jobDate_number s (by omega : 1 ≤ i + 1)]; omega
  · intro j hj h
    have h1 := jobDate_number s hi.1
    have h2 := jobDate_number s hj.1
    rw [h] at h2
    omega

theorem timeString_inj {a b : Date} (ha : a.Valid) (hb : b.Valid) (hy : a.year < 10000)
    (hy' : b.year < 10000) (h : timeString a = timeString b) : a = b := by
  have bound : ∀ c : Date, c.Valid → c.month < 100 ∧ c.day < 100 := by
    intro c hc
    have h4 := hc.2.2.2
    have h5 : daysInMonth c.year c.month ≤ 31 := by unfold daysInMonth; split <;> (try split) <;> omega
    exact ⟨by have := hc.2.1; omega, by omega⟩
  simp only [timeString] at h
  obtain ⟨h, h4⟩ := List.append_inj h (by simp [pad_length])
  obtain ⟨h, h3⟩ := List.append_inj h (by simp [pad_length])
  obtain ⟨h1, h2⟩ := List.append_inj h (by simp [pad_length])
  have e1 := pad_inj 2 (by norm_num; omega) (by norm_num; omega) h1
  have e2 := pad_inj 2 (by norm_num; omega) (by norm_num; omega) h2
  have e3 := pad_inj 2 (by have := (bound a ha).1; norm_num; omega)
    (by have := (bound b hb).1; norm_num; omega) h3
  have e4 := pad_inj 2 (by have := (bound a ha).2; norm_num; omega)
    (by have := (bound b hb).2; norm_num; omega) h4
  have e0 : a.year = b.year := by omega
  cases a; cases b
  simp_all

/-- C183: two jobs of one array never write the same file, as long as the
years have four digits. -/
theorem c183_names (s : Settings) (i j : Nat) (hi : i ∈ jobs s) (hj : j ∈ jobs s)
    (hyi : (jobDate s i).year < 10000) (hyj : (jobDate s j).year < 10000)
    (h : jobOutput s i = jobOutput s j) : i = j := by
  simp only [jobOutput, List.append_assoc, List.append_cancel_left_eq,
    List.append_cancel_right_eq] at h
  have h := timeString_inj (c183_order s i hi).1 (c183_order s j hj).1 hyi hyj h
  exact (c183_order s j hj).2.2 i hi h

/-- C183: the jobs of the day and the jobs of the night never write the same
file. -/
theorem c183_day_night_names (i j : Nat) : jobOutput daySettings i ≠ jobOutput nightSettings j := by
  intro h
  simp [jobOutput, daySettings, nightSettings] at h

theorem mem_qcIndices (qc : List Nat) (mask filter k : Nat) :
    k ∈ qcIndices qc mask filter ↔ ∃ q, qc[k]? = some q ∧ q &&& mask = filter := by
  simp only [qcIndices, List.mem_filter, List.mem_range, Option.any_eq_true, decide_eq_true_eq]
  constructor
  · rintro ⟨_, q, h1, h2⟩; exact ⟨q, h1, h2⟩
  · rintro ⟨q, h1, h2⟩
    exact ⟨(List.getElem?_eq_some_iff.1 h1).1, q, h1, h2⟩

theorem and_one_cases (q : Nat) : q &&& 1 = 0 ∨ q &&& 1 = 1 := by
  rw [Nat.and_one_is_mod]; omega

theorem and_seven (q : Nat) : q &&& 7 = q % 8 := Nat.and_two_pow_sub_one_eq_mod q 3

/-- C183: every pixel of every file is an observation of the day or of the
night and never of both. -/
theorem c183_day_night (qc : List Nat) (k : Nat) :
    (k < qc.length ↔ (k ∈ observed daySettings qc ∨ k ∈ observed nightSettings qc))
      ∧ ¬ (k ∈ observed daySettings qc ∧ k ∈ observed nightSettings qc) := by
  simp only [observed, mem_qcIndices, daySettings, nightSettings]
  constructor
  · constructor
    · intro hk
      rcases and_one_cases qc[k] with h | h
      · exact Or.inl ⟨qc[k], List.getElem?_eq_getElem hk, h⟩
      · exact Or.inr ⟨qc[k], List.getElem?_eq_getElem hk, h⟩
    · rintro (⟨q, h, _⟩ | ⟨q, h, _⟩) <;> exact (List.getElem?_eq_some_iff.1 h).1
  · rintro ⟨⟨q, h1, h2⟩, ⟨q', h3, h4⟩⟩
    rw [h1] at h3
    cases h3
    omega

/-- C183: a pixel is valid in the day or in the night exactly if the second
and the third bit of its quality are not set; what is valid is an observation
of the same part of the day. -/
theorem c183_valid (qc : List Nat) (k : Nat) :
    ((k ∈ valid daySettings qc ∨ k ∈ valid nightSettings qc)
        ↔ ∃ q, qc[k]? = some q ∧ q.testBit 1 = false ∧ q.testBit 2 = false)
      ∧ (k ∈ valid daySettings qc → k ∈ observed daySettings qc)
      ∧ (k ∈ valid nightSettings qc → k ∈ observed nightSettings qc) := by
  simp only [observed, valid, mem_qcIndices, daySettings, nightSettings, and_seven,
    Nat.and_one_is_mod, Nat.testBit_eq_decide_div_mod_eq, decide_eq_false_iff_not]
  refine ⟨⟨?_, ?_⟩, ?_, ?_⟩
  · rintro (⟨q, h, e⟩ | ⟨q, h, e⟩) <;> refine ⟨q, h, ?_, ?_⟩ <;> norm_num <;> omega
  · rintro ⟨q, h, e1, e2⟩
    norm_num at e1 e2
    have : q % 8 = 0 ∨ q % 8 = 1 := by omega
    rcases this with e | e
    · exact Or.inl ⟨q, h, e⟩
    · exact Or.inr ⟨q, h, e⟩
  · rintro ⟨q, h, e⟩; exact ⟨q, h, by omega⟩
  · rintro ⟨q, h, e⟩; exact ⟨q, h, by omega⟩

/-- A day pixel which is valid, a night pixel which is not. -/
example : 0 ∈ valid daySettings [8, 3] ∧ 1 ∈ observed nightSettings [8, 3]
    ∧ 1 ∉ valid nightSettings [8, 3] := by
  simp [valid, observed, mem_qcIndices, daySettings, nightSettings]

/-- C183: with the numbers and the step of the scripts the cells cover the
whole globe: each place is put in the one cell that contains it. -/
theorem c183_grid (s : Settings) (hs : s = daySettings ∨ s = nightSettings)
    (latitudes longitudes : List ℝ) (h1 : ∀ v ∈ latitudes, -90 ≤ v ∧ v < 90)
    (h2 : ∀ v ∈ longitudes, -180 ≤ v ∧ v < 180) :
    (∃ r, (jobArguments s).iris.latitude.computeIndices latitudes = .ok r ∧
        List.Forall₂ (fun v i => i < 720 ∧ ∀ k : Nat, InCell (-90) (1 / 4) k v ↔ k = i) latitudes r)
      ∧ ∃ r, (jobArguments s).iris.longitude.computeIndices longitudes = .ok r ∧
        List.Forall₂ (fun v i => i < 1440 ∧ ∀ k : Nat, InCell (-180) (1 / 4) k v ↔ k = i)
          longitudes r := by
  have e : s.resolution = 1 / 4 ∧ s.nlat = 720 ∧ s.nlon = 1440 := by
    rcases hs with rfl | rfl <;> simp [daySettings, nightSettings]
  obtain ⟨e1, e2, e3⟩ := e
  simp only [jobArguments, Arguments.iris, e1, e2, e3]
  rw [c59_field_axis _ _ (by norm_num), c59_field_axis _ _ (by norm_num)]
  constructor
  · refine c59_cell ⟨-90, 1 / 4, 720, true⟩ (by norm_num) latitudes ?_
    intro v hv
    have := h1 v hv
    norm_num
    exact this
  · refine c59_cell ⟨-180, 1 / 4, 1440, true⟩ (by norm_num) longitudes ?_
    intro v hv
    have := h2 v hv
    norm_num
    exact this

theorem year_iff (d : Date) (hd : d.Valid) (y : Nat) :
    d.year = y ↔ daysBeforeYear y ≤ d.number ∧ d.number < daysBeforeYear (y + 1) := by
  have h1 := dayOfYear_lt hd
  have h2 : daysBeforeYear (d.year + 1) = daysBeforeYear d.year + daysInYear d.year := rfl
  have h3 : d.number = daysBeforeYear d.year + daysBeforeMonth d.year d.month + (d.day - 1) := rfl
  constructor
  · rintro rfl; omega
  · rintro ⟨h4, h5⟩
    rcases Nat.lt_trichotomy d.year y with h | h | h
    · have := daysBeforeYear_mono (by omega : d.year + 1 ≤ y); omega
    · exact h
    · have := daysBeforeYear_mono (by omega : y + 1 ≤ d.year); omega

theorem daysBeforeYear_succ (y : Nat) : daysBeforeYear (y + 1) = daysBeforeYear y + daysInYear y :=
  rfl

theorem newYear_number (y : Nat) : (Date.mk y 1 1).number = daysBeforeYear y := by
  simp [Date.number, daysBeforeMonth]

/-- C183 (violation): the arrays are not the days of the year 2010: they are
all its days and the first of January of 2011 as well. -/
theorem c183_year_violated (s : Settings) (hs : s = daySettings ∨ s = nightSettings)
    (d : Date) (hd : d.Valid) :
    (∃ i, i ∈ jobs s ∧ jobDate s i = d) ↔ (d.year = 2010 ∨ d = ⟨2011, 1, 1⟩) := by
  have e : s.start = ⟨2010, 1, 1⟩ ∧ s.days = 366 := by
    rcases hs with rfl | rfl <;> simp [daySettings, nightSettings]
  have h := c183_once s d hd
  rw [e.1, e.2, newYear_number] at h
  have hv : (Date.mk 2011 1 1).Valid := by
    refine ⟨by simp, by simp, by simp, ?_⟩
    have := daysInMonth_pos 2011 1
    show 1 ≤ daysInMonth 2011 1
    omega
  have h2 : daysBeforeYear 2011 = daysBeforeYear 2010 + daysInYear 2010 := daysBeforeYear_succ 2010
  rw [show daysInYear 2010 = 365 by decide] at h2
  have h3 : d.year = 2010 ↔ daysBeforeYear 2010 ≤ d.number ∧ d.number < daysBeforeYear 2011 :=
    year_iff d hd 2010
  have h4 := newYear_number 2011
  have h5 : (∃ i, i ∈ jobs s ∧ jobDate s i = d)
      ↔ daysBeforeYear 2010 ≤ d.number ∧ d.number < daysBeforeYear 2010 + 366 :=
    ⟨h.2, fun hh => (h.1 hh).exists⟩
  rw [h5, h3]
  have h6 : d = ⟨2011, 1, 1⟩ ↔ d.number = daysBeforeYear 2011 := by
    constructor
    · rintro rfl; exact h4
    · intro hn; exact number_inj hd hv (hn.trans h4.symm)
  rw [h6]
  generalize daysBeforeYear 2010 = a at *
  generalize daysBeforeYear 2011 = b at *
  generalize d.number = n
  clear * - h2
  omega

/-- An array which is not empty, with its first date. -/
example : 1 ∈ jobs daySettings ∧ jobDate daySettings 1 = ⟨2010, 1, 1⟩ := by
  refine ⟨by simp [jobs, daySettings, List.mem_range'_1], ?_⟩
  have hv : (Date.mk 2010 1 1).Valid := by
    refine ⟨by simp, by simp, by simp, ?_⟩
    have := daysInMonth_pos 2010 1
    show 1 ≤ daysInMonth 2010 1
    omega
  have h (a : Date) (ha : a.Valid) (he : daySettings.start = a) : jobDate daySettings 1 = a := by
    rw [jobDate, he, Nat.add_sub_cancel, ofNumber_number ha]
  exact h _ hv rfl

end Verif.Eustace.SatgridJobs
