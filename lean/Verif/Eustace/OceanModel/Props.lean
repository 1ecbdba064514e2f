import Verif.Eustace.OceanModel.Model
import Mathlib.Tactic.Linarith
import Mathlib.Tactic.NormNum
import Mathlib.Tactic.Ring
import Mathlib.Tactic.FieldSimp
import Mathlib.Tactic.Positivity
import Mathlib.Tactic.IntervalCases

/-! C177: air temperatures over the ocean. -/

namespace Verif.Eustace.OceanModel

open Verif Verif.Calendar

noncomputable section

/-! ### Specification -/

/-- The day of a year of 365 days, from nought; the 29th of February counts as the 28th. -/
def calendarDay (month day : ℕ) : ℕ := daysBeforeMonth 2001 month + (if month = 2 ∧ day = 29 then 28 else day) - 1

/-- Mean and two harmonics of the year. -/
def basis (t : ℕ) : ℕ → ℝ
  | 0 => 1 / 365
  | 1 => 2 / 365 * Real.sin (2 * Real.pi * t / 365)
  | 2 => 2 / 365 * Real.cos (2 * Real.pi * t / 365)
  | 3 => 2 / 365 * Real.sin (4 * Real.pi * t / 365)
  | 4 => 2 / 365 * Real.cos (4 * Real.pi * t / 365)
  | _ => 0

/-- The value of a series of the year at a box. -/
def series (p : Params) (t : ℕ) (c : ℕ × ℕ) : ℝ :=
  p 0 c.1 c.2 * basis t 0 + p 1 c.1 c.2 * basis t 1 + p 2 c.1 c.2 * basis t 2 + p 3 c.1 c.2 * basis t 3 + p 4 c.1 c.2 * basis t 4

/-- The places are the centres of boxes of a quarter of a degree, from the south west; there is at least one. -/
structure Centred (f : Input) : Prop where
  columns : 0 < f.longitudes.length ∧ f.longitudes.length ≤ 1440
  rows : 0 < f.latitudes.length ∧ f.latitudes.length ≤ 720
  lon : ∀ x < f.longitudes.length, f.longitudes.getD x 0 = -180 + 0.125 + 0.25 * x
  lat : ∀ y < f.latitudes.length, f.latitudes.getD y 0 = -90 + 0.125 + 0.25 * y
  /-- numbers of 16 bits -/
  short : ∀ c, -32768 ≤ f.sst c

/-- A cell of the file. -/
def InFile (f : Input) (c : ℕ × ℕ) : Prop := c.1 < f.longitudes.length ∧ c.2 < f.latitudes.length

/-- A cell which is given an air temperature: it is not the coldest of the file, and the series have values which can be used. -/
def Converted (k : Climatology) (f : Input) (t : ℕ) (c : ℕ × ℕ) : Prop :=
  (∃ c', InFile f c' ∧ f.sst c' < f.sst c) ∧ |series k.params t c| < 10 ∧ |series k.stdev t c| ≤ 10

/-- A number of thousandths stands for a value. -/
def Near (n : ℤ) (x : ℝ) : Prop := |n * 0.001 - x| ≤ 0.0005

/-! ### The calendar -/

/-- **C177**, for all dates: the day is that of a year of 365 days, the 29th of February as the 28th. -/
theorem c177_day_of_year (d : Date) (h : d.Valid) :
    dayInYear d.year d.month d.day = calendarDay d.month d.day + 1 ∧ calendarDay d.month d.day < 365 := by
  obtain ⟨year, month, day⟩ := d
  obtain ⟨h1, h2, h3, h4⟩ := h
  simp only at h1 h2 h3 h4 ⊢
  have hl : ((year % 4 = 0 ∧ year % 100 ≠ 0) ∨ year % 400 = 0) ↔ leap year = true := by
    unfold leap
    simp only [decide_eq_true_eq]
    omega
  have hl' : isLeap year = leap year := by
    unfold isLeap leap
    by_cases h1 : year % 4 = 0 <;> by_cases h2 : year % 100 = 0 <;> by_cases h3 : year % 400 = 0 <;> simp [h1, h2, h3]
  unfold daysInMonth at h4
  rw [hl'] at h4
  unfold dayInYear ymd2dn calendarDay
  simp only [hl]
  generalize leap year = b at *
  interval_cases month <;> cases b <;> simp [idays, daysBeforeMonth, daysInMonth, isLeap] at h4 ⊢ <;> (try split_ifs) <;> omega

/-! ### Fourier series -/

/-- The sum of cosines over whole periods. -/
theorem cos_sum (k : ℕ) (hk : 0 < k) (hk' : k < 365) : ∑ t ∈ Finset.range 365, Real.cos (2 * (k * Real.pi * t / 365)) = 0 := by
  have hs : 0 < Real.sin (k * Real.pi / 365) := by
    apply Real.sin_pos_of_pos_of_lt_pi
    · have : (0 : ℝ) < k := by exact_mod_cast hk
      positivity
    · rw [div_lt_iff₀ (by norm_num)]
      have : (k : ℝ) < 365 := by exact_mod_cast hk'
      nlinarith [Real.pi_pos]
  have hstep : ∀ t : ℕ, 2 * Real.sin (k * Real.pi / 365) * Real.cos (2 * (k * Real.pi * t / 365)) =
      Real.sin ((2 * ((t + 1 : ℕ) : ℝ) - 1) * (k * Real.pi / 365)) - Real.sin ((2 * (t : ℝ) - 1) * (k * Real.pi / 365)) := by
    intro t
    have e1 : (2 * ((t + 1 : ℕ) : ℝ) - 1) * (k * Real.pi / 365) = 2 * (k * Real.pi * t / 365) + k * Real.pi / 365 := by
      push_cast; ring
    have e2 : (2 * (t : ℝ) - 1) * (k * Real.pi / 365) = 2 * (k * Real.pi * t / 365) - k * Real.pi / 365 := by ring
    rw [e1, e2, Real.sin_add, Real.sin_sub]
    ring
  have htel : 2 * Real.sin (k * Real.pi / 365) * ∑ t ∈ Finset.range 365, Real.cos (2 * (k * Real.pi * t / 365)) = 0 := by
    rw [Finset.mul_sum, Finset.sum_congr rfl fun t _ => hstep t,
      Finset.sum_range_sub (fun t : ℕ => Real.sin ((2 * (t : ℝ) - 1) * (k * Real.pi / 365)))]
    have e1 : (2 * ((365 : ℕ) : ℝ) - 1) * (k * Real.pi / 365) = -(k * Real.pi / 365) + k * (2 * Real.pi) := by
      push_cast; field_simp; ring
    rw [e1, Real.sin_add_nat_mul_two_pi]
    have e2 : (2 * ((0 : ℕ) : ℝ) - 1) * (k * Real.pi / 365) = -(k * Real.pi / 365) := by push_cast; ring
    rw [e2, sub_self]
  rcases mul_eq_zero.1 htel with h | h
  · linarith
  · exact h

theorem sin_squares (k : ℕ) (hk : 0 < k) (hk' : k < 365) :
    ∑ t ∈ Finset.range 365, Real.sin (k * Real.pi * t / 365) * Real.sin (k * Real.pi * t / 365) = 365 / 2 := by
  have h : ∀ t : ℕ, Real.sin (k * Real.pi * t / 365) * Real.sin (k * Real.pi * t / 365) =
      1 / 2 - 1 / 2 * Real.cos (2 * (k * Real.pi * t / 365)) := by
    intro t
    rw [Real.cos_two_mul', Real.cos_sq']
    ring
  rw [Finset.sum_congr rfl fun t _ => h t, Finset.sum_sub_distrib, ← Finset.mul_sum, cos_sum k hk hk']
  simp
  norm_num

theorem cos_squares (k : ℕ) (hk : 0 < k) (hk' : k < 365) :
    ∑ t ∈ Finset.range 365, Real.cos (k * Real.pi * t / 365) * Real.cos (k * Real.pi * t / 365) = 365 / 2 := by
  have h : ∀ t : ℕ, Real.cos (k * Real.pi * t / 365) * Real.cos (k * Real.pi * t / 365) =
      1 / 2 + 1 / 2 * Real.cos (2 * (k * Real.pi * t / 365)) := by
    intro t
    rw [Real.cos_two_mul]
    ring
  rw [Finset.sum_congr rfl fun t _ => h t, Finset.sum_add_distrib, ← Finset.mul_sum, cos_sum k hk hk']
  simp
  norm_num

/-- **C177**, for all days: the columns are a mean and two harmonics of the year of 365 days. -/
theorem c177_basis (t i : ℕ) (hi : i < 5) : fourier t i = basis t i := by
  unfold fourier normalise
  interval_cases i
  · simp [harmonic, basis, npts]
  · have e : ∀ s, harmonic 1 s = Real.sin ((2 : ℕ) * Real.pi * s / 365) := by intro s; simp [harmonic, npts]
    simp only [e, npts, sin_squares 2 (by norm_num) (by norm_num), basis]
    push_cast; ring
  · have e : ∀ s, harmonic 2 s = Real.cos ((2 : ℕ) * Real.pi * s / 365) := by intro s; simp [harmonic, npts]
    simp only [e, npts, cos_squares 2 (by norm_num) (by norm_num), basis]
    push_cast; ring
  · have e : ∀ s, harmonic 3 s = Real.sin ((4 : ℕ) * Real.pi * s / 365) := by intro s; simp [harmonic, npts]
    simp only [e, npts, sin_squares 4 (by norm_num) (by norm_num), basis]
    push_cast; ring
  · have e : ∀ s, harmonic 4 s = Real.cos ((4 : ℕ) * Real.pi * s / 365) := by intro s; simp [harmonic, npts]
    simp only [e, npts, cos_squares 4 (by norm_num) (by norm_num), basis]
    push_cast; ring

/-! ### Boxes -/

/-- **C177**, for all boxes: the centre of a box is in it. -/
theorem c177_boxes (x y : ℕ) (hx : x < 1440) (hy : y < 720) :
    boxes (-90 + 0.125 + 0.25 * y) (-180 + 0.125 + 0.25 * x) = .ok (x, y) := by
  have hx' : (x : ℝ) ≤ 1439 := by exact_mod_cast Nat.le_of_lt_succ hx
  have hy' : (y : ℝ) ≤ 719 := by exact_mod_cast Nat.le_of_lt_succ hy
  have hx0 : (0 : ℝ) ≤ x := Nat.cast_nonneg x
  have hy0 : (0 : ℝ) ≤ y := Nat.cast_nonneg y
  have f1 : ⌊((-180 + 0.125 + 0.25 * x : ℝ) + 0.001 - (-180)) / 0.25⌋ = (x : ℤ) := by
    rw [Int.floor_eq_iff]
    constructor
    · rw [le_div_iff₀ (by norm_num)]; push_cast; linarith
    · rw [div_lt_iff₀ (by norm_num)]; push_cast; linarith
  have f2 : ⌊((-90 + 0.125 + 0.25 * y : ℝ) + 0.001 - (-90)) / 0.25⌋ = (y : ℤ) := by
    rw [Int.floor_eq_iff]
    constructor
    · rw [le_div_iff₀ (by norm_num)]; push_cast; linarith
    · rw [div_lt_iff₀ (by norm_num)]; push_cast; linarith
  have g1 : whichLonBox (-180 + 0.125 + 0.25 * x) 0.25 = .ok (x : ℤ) := by
    unfold whichLonBox
    rw [if_neg (by rintro (h | h) <;> linarith)]
    simp only [f1]
    have h0 : ¬ (x : ℤ) < 0 := by omega
    have h1 : ¬ ((360 : ℝ) / 0.25 - 1 < ((x : ℤ) : ℝ)) := by push_cast; norm_num; linarith
    simp only [if_neg h0, if_neg h1]
  have g2 : whichLatBox (-90 + 0.125 + 0.25 * y) 0.25 = .ok (y : ℤ) := by
    unfold whichLatBox
    rw [if_neg (by rintro (h | h) <;> linarith)]
    simp only [f2]
    have h0 : ¬ (y : ℤ) < 0 := by omega
    have h1 : ¬ ((180 : ℝ) / 0.25 - 1 < ((y : ℤ) : ℝ)) := by push_cast; norm_num; linarith
    simp only [if_neg h0, if_neg h1]
  unfold boxes
  rw [g1]
  simp only
  rw [g2]

/-! ### One day -/

theorem mem_cells (f : Input) (c : ℕ × ℕ) : c ∈ f.cells ↔ InFile f c := by
  unfold Input.cells InFile
  simp only [List.mem_flatMap, List.mem_range, List.mem_map]
  constructor
  · rintro ⟨x, hx, y, hy, rfl⟩
    exact ⟨hx, hy⟩
  · rintro ⟨hx, hy⟩
    exact ⟨c.1, hx, c.2, hy, rfl⟩

theorem cells_nodup (f : Input) : f.cells.Nodup := by
  unfold Input.cells
  refine List.nodup_flatMap.2 ⟨fun x _ => ?_, ?_⟩
  · exact List.Nodup.map (fun a b h => (Prod.mk.inj h).2) List.nodup_range
  · refine List.Pairwise.imp (R := fun a b => a ≠ b) ?_ List.nodup_range
    intro a b hab
    unfold Function.onFun
    intro c h1 h2
    obtain ⟨_, _, rfl⟩ := List.mem_map.1 h1
    obtain ⟨_, _, h⟩ := List.mem_map.1 h2
    exact hab (Prod.mk.inj h).1.symm

theorem foldl_min (l : List ℝ) : ∀ a, l.foldl min a ≤ a ∧ (∀ x ∈ l, l.foldl min a ≤ x) ∧ (l.foldl min a = a ∨ l.foldl min a ∈ l) := by
  induction l with
  | nil => intro a; exact ⟨le_refl _, fun x hx => (nomatch hx), Or.inl rfl⟩
  | cons b l ih =>
    intro a
    obtain ⟨h1, h2, h3⟩ := ih (min a b)
    rw [List.foldl_cons]
    refine ⟨h1.trans (min_le_left _ _), ?_, ?_⟩
    · intro x hx
      rcases List.mem_cons.1 hx with rfl | hx
      · exact h1.trans (min_le_right _ _)
      · exact h2 x hx
    · rcases h3 with h3 | h3
      · rw [h3]
        rcases min_choice a b with h | h
        · exact Or.inl h
        · rw [h]; exact Or.inr List.mem_cons_self
      · exact Or.inr (List.mem_cons_of_mem _ h3)

theorem minimum_spec (l : List ℝ) (h : l ≠ []) : minimum l ∈ l ∧ ∀ x ∈ l, minimum l ≤ x := by
  obtain ⟨h1, h2, h3⟩ := foldl_min l (l.headD 0)
  refine ⟨?_, h2⟩
  rcases h3 with h3 | h3
  · unfold minimum
    rw [h3]
    cases l with
    | nil => exact absurd rfl h
    | cons a l => exact List.mem_cons_self
  · exact h3

/-- The loop sets each cell once. -/
theorem cellLoop_ok (k : Climatology) (f : Input) (day : ℕ) (lowest : ℝ) (r : ℕ × ℕ → Option Cell) : ∀ (l : List (ℕ × ℕ)), l.Nodup →
    (∀ c ∈ l, cellOf k f day lowest c = .ok (r c)) → ∀ s, ∃ s', cellLoop k f day lowest l s = .ok s' ∧
      ∀ c, s' c = if c ∈ l then (r c).getD (s c) else s c := by
  intro l
  induction l with
  | nil => intro _ _ s; exact ⟨s, rfl, fun c => by simp⟩
  | cons c l ih =>
    intro hn hr s
    obtain ⟨hc, hn⟩ := List.nodup_cons.1 hn
    have h1 := hr c List.mem_cons_self
    simp only [cellLoop, h1]
    cases h2 : r c with
    | none =>
      obtain ⟨s', e, he⟩ := ih hn (fun c' h => hr c' (List.mem_cons_of_mem _ h)) s
      refine ⟨s', e, fun c' => ?_⟩
      rw [he c']
      by_cases h : c' = c
      · subst h
        simp [hc, h2]
      · simp [h]
    | some v =>
      obtain ⟨s', e, he⟩ := ih hn (fun c' h => hr c' (List.mem_cons_of_mem _ h)) (Function.update s c v)
      refine ⟨s', e, fun c' => ?_⟩
      rw [he c']
      by_cases h : c' = c
      · subst h
        simp [hc, h2]
      · simp [h]

theorem hires_eq (f : Input) (hf : Centred f) (c : ℕ × ℕ) (hc : InFile f c) (p : Params) (t : ℕ) :
    hiresOffset fourier p (f.latitudes.getD c.2 0) (f.longitudes.getD c.1 0) t = .ok (series p t c) := by
  unfold hiresOffset
  rw [hf.lat c.2 hc.2, hf.lon c.1 hc.1,
    c177_boxes c.1 c.2 (lt_of_lt_of_le hc.1 hf.columns.2) (lt_of_lt_of_le hc.2 hf.rows.2)]
  simp only [List.range_succ, List.range_zero, List.nil_append, List.cons_append, List.foldl_cons, List.foldl_nil]
  rw [c177_basis t 0 (by norm_num), c177_basis t 1 (by norm_num), c177_basis t 2 (by norm_num), c177_basis t 3 (by norm_num),
    c177_basis t 4 (by norm_num)]
  unfold series
  congr 1
  ring

open Classical in
/-- What the loop finds in a cell. -/
theorem cellOf_eq (k : Climatology) (f : Input) (hf : Centred f) (t : ℕ) (lowest : ℝ) (c : ℕ × ℕ) (hc : InFile f c) :
    cellOf k f (t + 1) lowest c = .ok (if f.degrees c ≠ lowest ∧ |series k.params t c| < 10 ∧ |series k.stdev t c| ≤ 10 then
      some ⟨f.degrees c + series k.params t c, max (series k.stdev t c) 0.3, fun i => k.unc i c.1 c.2,
        fun i => |fourier t i * k.unc i c.1 c.2|⟩ else none) := by
  unfold cellOf
  by_cases h0 : f.degrees c = lowest
  · rw [if_pos h0, if_neg fun h => h.1 h0]
  · rw [if_neg h0]
    simp only [Nat.add_sub_cancel]
    rw [hires_eq f hf c hc, hires_eq f hf c hc, hf.lat c.2 hc.2, hf.lon c.1 hc.1,
      c177_boxes c.1 c.2 (lt_of_lt_of_le hc.1 hf.columns.2) (lt_of_lt_of_le hc.2 hf.rows.2)]
    simp only
    by_cases h1 : |series k.params t c| < 10 ∧ |series k.stdev t c| ≤ 10
    · have hm : (if series k.stdev t c < 0.3 then 0.3 else series k.stdev t c) = max (series k.stdev t c) 0.3 := by
        split_ifs with h2
        · rw [max_eq_right h2.le]
        · rw [max_eq_left (not_lt.1 h2)]
      rw [if_pos h1, hm]
      rw [if_pos (⟨h0, h1⟩ : f.degrees c ≠ lowest ∧ |series k.params t c| < 10 ∧ |series k.stdev t c| ≤ 10)]
      simp only [single, one_mul]
    · rw [if_neg h1, if_neg fun h => h1 h.2]

theorem idlRound_near (x : ℝ) : Near (idlRound (x / 0.001)) x := by
  have h : |(idlRound (x / 0.001) : ℝ) - x / 0.001| ≤ 1 / 2 := by
    unfold idlRound
    rw [abs_le]
    split_ifs
    · have h1 := Int.floor_le (x / 0.001 + 1 / 2)
      have h2 := Int.lt_floor_add_one (x / 0.001 + 1 / 2)
      constructor <;> linarith
    · have h1 := Int.le_ceil (x / 0.001 - 1 / 2)
      have h2 := Int.ceil_lt_add_one (x / 0.001 - 1 / 2)
      constructor <;> linarith
  unfold Near
  have e : (idlRound (x / 0.001) : ℝ) * 0.001 - x = 0.001 * ((idlRound (x / 0.001) : ℝ) - x / 0.001) := by
    have : x / 0.001 = 1000 * x := by norm_num; ring
    rw [this]
    ring
  rw [e, abs_mul, abs_of_pos (by norm_num : (0 : ℝ) < 0.001)]
  linarith

theorem idlRound_int (n : ℤ) : idlRound ((n * 0.001 : ℝ) / 0.001) = n := by
  have e : (n * 0.001 : ℝ) / 0.001 = n := by field_simp
  rw [e]
  unfold idlRound
  split_ifs
  · rw [Int.floor_eq_iff]
    constructor <;> linarith
  · rw [Int.ceil_eq_iff]
    constructor <;> linarith

theorem lowest_spec (f : Input) (hf : Centred f) (c : ℕ × ℕ) (hc : InFile f c) :
    (f.degrees c ≠ minimum (f.cells.map f.degrees) ↔ ∃ c', InFile f c' ∧ f.sst c' < f.sst c) := by
  have hne : f.cells.map f.degrees ≠ [] := by
    intro h
    rw [List.map_eq_nil_iff] at h
    have := (mem_cells f c).2 hc
    rw [h] at this
    exact (nomatch this)
  obtain ⟨h1, h2⟩ := minimum_spec _ hne
  obtain ⟨c0, hc0, he⟩ := List.mem_map.1 h1
  constructor
  · intro h
    refine ⟨c0, (mem_cells f c0).1 hc0, ?_⟩
    have h3 := lt_of_le_of_ne (h2 _ (List.mem_map.2 ⟨c, (mem_cells f c).2 hc, rfl⟩)) (Ne.symm h)
    rw [← he] at h3
    unfold Input.degrees at h3
    have h4 : (f.sst c0 : ℝ) < f.sst c := by linarith
    exact_mod_cast h4
  · rintro ⟨c', hc', hlt⟩ h
    have h3 := h2 _ (List.mem_map.2 ⟨c', (mem_cells f c').2 hc', rfl⟩)
    rw [← h] at h3
    unfold Input.degrees at h3
    have h4 : (f.sst c' : ℝ) < f.sst c := by exact_mod_cast hlt
    linarith

open Classical in
/-- The arrays after the loop. -/
theorem loop_eq (k : Climatology) (f : Input) (hf : Centred f) (t : ℕ) :
    ∃ s, cellLoop k f (t + 1) (minimum (f.cells.map f.degrees)) f.cells (fun _ => Cell.empty) = .ok s ∧
      ∀ c, InFile f c → s c = if Converted k f t c then
        ⟨f.degrees c + series k.params t c, max (series k.stdev t c) 0.3, fun i => k.unc i c.1 c.2,
          fun i => |fourier t i * k.unc i c.1 c.2|⟩ else Cell.empty := by
  obtain ⟨s, h1, h2⟩ := cellLoop_ok k f (t + 1) (minimum (f.cells.map f.degrees)) _ f.cells (cells_nodup f)
    (fun c hc => cellOf_eq k f hf t _ c ((mem_cells f c).1 hc)) (fun _ => Cell.empty)
  refine ⟨s, h1, fun c hc => ?_⟩
  rw [h2 c, if_pos ((mem_cells f c).2 hc)]
  by_cases h : Converted k f t c
  · rw [if_pos h, if_pos ⟨(lowest_spec f hf c hc).2 h.1, h.2⟩]
    rfl
  · rw [if_neg h, if_neg fun h' => h ⟨(lowest_spec f hf c hc).1 h'.1, h'.2⟩]
    rfl

/-- In every file there is a cell without air temperature: the coldest. -/
theorem coldest (f : Input) (hf : Centred f) : ∃ c, InFile f c ∧ ∀ c', InFile f c' → f.sst c ≤ f.sst c' := by
  have h00 : InFile f (0, 0) := ⟨hf.columns.1, hf.rows.1⟩
  have hne : f.cells.map f.degrees ≠ [] := by
    intro h
    rw [List.map_eq_nil_iff] at h
    have := (mem_cells f (0, 0)).2 h00
    rw [h] at this
    exact (nomatch this)
  obtain ⟨h1, h2⟩ := minimum_spec _ hne
  obtain ⟨c0, hc0, he⟩ := List.mem_map.1 h1
  refine ⟨c0, (mem_cells f c0).1 hc0, fun c' hc' => ?_⟩
  have h3 := h2 _ (List.mem_map.2 ⟨c', (mem_cells f c').2 hc', rfl⟩)
  rw [← he] at h3
  unfold Input.degrees at h3
  have h4 : (f.sst c0 : ℝ) ≤ f.sst c' := by linarith
  exact_mod_cast h4

/-- **C177**, for all files, parameters and dates: a cell which is not the coldest of its file and for which the series of the year give
values which can be used has the air temperature which the series gives for its box and day, with the uncertainties of the satellite as
they were and those of the model from its series; all other cells have no data in any variable. -/
theorem c177_day (k : Climatology) (d : Date) (hd : d.Valid) (f : Input) (hf : Centred f) :
    ∃ o, run k d.year d.month d.day f = .ok o ∧
      o.time = (Date.number d : ℤ) - (Date.number ⟨1850, 1, 1⟩ : ℤ) ∧ o.latitudes = f.latitudes ∧ o.longitudes = f.longitudes ∧
      ∀ c, InFile f c →
        (Converted k f (calendarDay d.month d.day) c →
          Near (o.tas c) (f.sst c * 0.01 + series k.params (calendarDay d.month d.day) c) ∧
          o.rand c = f.random c ∧ o.corr c = f.correlated c ∧ o.syst c = f.systematic c ∧
          Near (o.corr2 c) (max (series k.stdev (calendarDay d.month d.day) c) 0.3) ∧
          ∀ i < 5, Near (o.parameterTas i c) |basis (calendarDay d.month d.day) i * k.unc i c.1 c.2| ∧
            Near (o.parameter i c) (k.unc i c.1 c.2)) ∧
        (¬ Converted k f (calendarDay d.month d.day) c →
          o.tas c = -32768 ∧ o.rand c = -32768 ∧ o.corr c = -32768 ∧ o.syst c = -32768 ∧ o.corr2 c = -32768 ∧ o.syst2 c = -32768 ∧
          ∀ i, o.parameterTas i c = -32768 ∧ o.parameter i c = -32768) := by
  classical
  obtain ⟨hday, _⟩ := c177_day_of_year d hd
  set t := calendarDay d.month d.day
  obtain ⟨s, s1, s2⟩ := loop_eq k f hf t
  have hmat : ∀ c, InFile f c → ((s c).mat = fill ↔ ¬ Converted k f t c) := by
    intro c hc
    rw [s2 c hc]
    by_cases h : Converted k f t c
    · rw [if_pos h]
      simp only [h, not_true_eq_false, iff_false]
      have h1 := (abs_lt.1 h.2.1).1
      have h2 : (-32768 : ℝ) ≤ f.sst c := by exact_mod_cast hf.short c
      unfold fill Input.degrees
      intro h3
      linarith
    · rw [if_neg h]
      simp [h, Cell.empty]
  obtain ⟨c0, hc0, hmin⟩ := coldest f hf
  have hex : ∃ c ∈ f.cells, (fun c => (s c).mat) c = fill :=
    ⟨c0, (mem_cells f c0).2 hc0, (hmat c0 hc0).2 fun h => by obtain ⟨c', h1, h2⟩ := h.1; exact absurd (hmin c' h1) (not_le.2 h2)⟩
  have hset : ∀ {α : Type} (v : α) (a : ℕ × ℕ → α),
      setWhereFill f (fun c => (s c).mat) v a = fun c => if (s c).mat = fill then v else a c := by
    intro α v a
    unfold setWhereFill
    rw [if_pos hex]
  unfold run
  simp only [hday, s1]
  refine ⟨_, rfl, rfl, rfl, rfl, fun c hc => ⟨fun h => ?_, fun h => ?_⟩⟩
  · have hne : ¬ (s c).mat = fill := fun e => (hmat c hc).1 e h
    have hsc := s2 c hc
    rw [if_pos h] at hsc
    simp only [scaled, hset, if_neg hne]
    refine ⟨?_, idlRound_int _, idlRound_int _, idlRound_int _, ?_, fun i hi => ⟨?_, ?_⟩⟩
    · rw [hsc]; exact idlRound_near _
    · rw [hsc]; exact idlRound_near _
    · rw [hsc, ← c177_basis t i hi]; exact idlRound_near _
    · rw [hsc]; exact idlRound_near _
  · have he := (hmat c hc).2 h
    simp only [scaled, hset, if_pos he]
    simp

/-- **C177**, for all lists of files: each output is made from its own input and date alone. -/
theorem c177_files (k : Climatology) (l : List (Date × Input × String)) (hl : ∀ e ∈ l, e.1.Valid ∧ Centred e.2.1) :
    ∃ os, runAll k l = .ok os ∧ os.length = l.length ∧ ∀ i : ℕ, ∀ e, l[i]? = some e →
      ∃ o, os[i]? = some (e.2.2, o) ∧ run k e.1.year e.1.month e.1.day e.2.1 = .ok o := by
  induction l with
  | nil => exact ⟨[], rfl, rfl, fun i e h => by simp at h⟩
  | cons e l ih =>
    obtain ⟨os, h1, h2, h3⟩ := ih fun e he => hl e (List.mem_cons_of_mem _ he)
    obtain ⟨hv, hc⟩ := hl e List.mem_cons_self
    obtain ⟨o, ho, _⟩ := c177_day k e.1 hv e.2.1 hc
    refine ⟨(e.2.2, o) :: os, ?_, by simp [h2], fun i e' he' => ?_⟩
    · obtain ⟨d, f, name⟩ := e
      simp only [runAll]
      simp only at ho
      rw [ho, h1]
    · cases i with
      | zero =>
        have : e = e' := by simpa using he'
        subst this
        exact ⟨o, rfl, ho⟩
      | succ i => exact h3 i e' (by simpa using he')

/-! ### What fails -/

/-- **C177 violated**, for all files, parameters and dates: also if all cells of a file have data, the coldest has no air
temperature. -/
theorem c177_coldest_violated (k : Climatology) (d : Date) (hd : d.Valid) (f : Input) (hf : Centred f) :
    ∃ o c, run k d.year d.month d.day f = .ok o ∧ InFile f c ∧ (∀ c', InFile f c' → f.sst c ≤ f.sst c') ∧ o.tas c = -32768 := by
  obtain ⟨o, h1, _, _, _, h2⟩ := c177_day k d hd f hf
  obtain ⟨c0, hc0, hmin⟩ := coldest f hf
  refine ⟨o, c0, h1, hc0, hmin, ((h2 c0 hc0).2 fun h => ?_).1⟩
  obtain ⟨c', h3, h4⟩ := h.1
  exact absurd (hmin c' h3) (not_le.2 h4)

/-- **C177 violated**, for all files, parameters and dates: the systematic uncertainty of measurements in place, which is 0.1, is not
written: the variable has once more the one of the satellite. -/
theorem c177_systematic_violated (k : Climatology) (d : Date) (hd : d.Valid) (f : Input) (hf : Centred f) :
    ∃ o, run k d.year d.month d.day f = .ok o ∧ (∀ c, o.syst2 c = o.syst c) ∧
      ∀ c, InFile f c → Converted k f (calendarDay d.month d.day) c → f.systematic c ≠ 100 → ¬ Near (o.syst2 c) 0.1 := by
  obtain ⟨o, h1, _, _, _, h2⟩ := c177_day k d hd f hf
  have hs : ∀ c, o.syst2 c = o.syst c := by
    unfold run at h1
    simp only at h1
    split at h1
    · exact (nomatch h1)
    · rw [← Except.ok.inj h1]
      intro c; rfl
  refine ⟨o, h1, hs, fun c hc hconv hne hnear => hne ?_⟩
  rw [hs c, ((h2 c hc).1 hconv).2.2.2.1] at hnear
  unfold Near at hnear
  obtain ⟨a, b⟩ := abs_le.1 hnear
  have h3 : (f.systematic c : ℝ) < 101 := by norm_num at b; linarith
  have h4 : (99 : ℝ) < f.systematic c := by norm_num at a; linarith
  have h3' : f.systematic c < 101 := by exact_mod_cast h3
  have h4' : 99 < f.systematic c := by exact_mod_cast h4
  omega

/-! ### Non-vacuity -/

/-- Two cells of 20 and 21 degrees. -/
def two : Input where
  latitudes := [-90 + 0.125]
  longitudes := [-180 + 0.125, -180 + 0.125 + 0.25]
  sst := fun c => 2000 + 100 * c.1
  random := fun _ => 50
  correlated := fun _ => 60
  systematic := fun _ => 70

theorem two_centred : Centred two where
  columns := by simp [two]
  rows := by simp [two]
  lon := by
    intro x hx
    have hx : x < 2 := hx
    interval_cases x <;> norm_num [two]
  lat := by
    intro y hy
    have hy : y < 1 := hy
    interval_cases y; norm_num [two]
  short := by intro c; simp only [two]; omega

/-- Parameters with half a degree all over the year. -/
def flat : Climatology where
  params := fun i _ _ => if i = 0 then 365 / 2 else 0
  unc := fun i _ _ => if i = 0 then 73 else 0
  stdev := fun _ _ _ => 0

/-- The warmer of the two cells is converted. -/
example : Converted flat two (calendarDay 2 29) (1, 0) ∧ ¬ Converted flat two (calendarDay 2 29) (0, 0) := by
  refine ⟨⟨⟨(0, 0), ⟨by simp [two], by simp [two]⟩, by simp [two]⟩, ?_, ?_⟩, ?_⟩
  · norm_num [series, flat, basis, abs_of_pos]
  · norm_num [series, flat, basis]
  · rintro ⟨⟨c', _, h⟩, _⟩
    simp only [two] at h
    push_cast at h
    have : (0 : ℤ) ≤ c'.1 := Int.natCast_nonneg _
    omega

example := c177_day flat ⟨2004, 2, 29⟩ (by decide) two two_centred

example := c177_files flat [(⟨2004, 2, 29⟩, two, "a"), (⟨2004, 3, 1⟩, two, "b")] (by
  intro e he
  rcases List.mem_cons.1 he with rfl | he
  · exact ⟨by decide, two_centred⟩
  · rcases List.mem_cons.1 he with rfl | he
    · exact ⟨by decide, two_centred⟩
    · exact (nomatch he))

end

end Verif.Eustace.OceanModel
