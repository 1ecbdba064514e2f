import Verif.Eumopps.Periods.Model
import Verif.Eumopps.Time.Props

/-! Property C15: annual and monthly numbering against the calendar. -/
namespace Verif.Eumopps.Periods
open Verif Verif.Calendar Verif.Float32 Verif.Eumopps.Time

/-- Start of the `y`-th year. -/
def yearStart (y : Nat) : Instant := midnight ⟨y, 1, 1⟩
/-- Start of the month with number `o` (12·year + month − 1). -/
def monthStart (o : Nat) : Instant := midnight (firstOf o)

theorem yearStart_eq (y : Nat) : yearStart y = monthStart (12 * y) := by
  unfold yearStart monthStart firstOf
  congr 2 <;> omega

/-! ### Calendar part -/

theorem dateOf_valid (t : Instant) : (dateOf t).Valid := (ofNumber_spec _).1

theorem dateOf_midnight {d : Date} (h : d.Valid) : dateOf (midnight d) = d := by
  unfold dateOf midnight
  have : ((d.number : Int) * dayUs / dayUs).toNat = d.number := by unfold dayUs; omega
  rw [this]; exact ofNumber_number h

theorem le_ordOf_iff {t : Instant} (ht : 0 ≤ t) (o : Nat) : (o : Int) ≤ (dateOf t).ord ↔ monthStart o ≤ t := by
  rw [le_ord_iff (dateOf_valid t) o]
  have : (dateOf t).number = (t / dayUs).toNat := (ofNumber_spec _).2
  rw [this]; unfold monthStart midnight dayUs; omega

theorem monthStart_gap (o : Nat) : monthStart o + 28 * dayUs ≤ monthStart (o + 1) := by
  have h := firstOf_succ o
  have h2 := daysInMonth_pos (o / 12) (o % 12 + 1)
  unfold monthStart midnight dayUs; omega

theorem monthStart_length (o : Nat) : monthStart (o + 1) - monthStart o = daysInMonth (o / 12) (o % 12 + 1) * dayUs := by
  have h := firstOf_succ o
  unfold monthStart midnight dayUs; omega

theorem yearStart_length (y : Nat) : yearStart (y + 1) - yearStart y = daysInYear y * dayUs := by
  unfold yearStart midnight Date.number dayUs
  simp only [daysBeforeYear, daysBeforeMonth]
  omega

theorem yearStart_gap (n : Nat) : yearStart n + secUs < yearStart (n + 1) := by
  have := yearStart_length n
  have := daysInYear_pos n
  unfold dayUs secUs at *; omega

theorem monthStart_gap' (n : Nat) : monthStart n + 125000 < monthStart (n + 1) := by
  have := monthStart_gap n
  unfold dayUs at *; omega

theorem ord_nonneg (t : Instant) : 0 ≤ (dateOf t).ord := by
  unfold Date.ord; have := (dateOf_valid t).1; omega

theorem month_bounds {t : Instant} (ht : 0 ≤ t) :
    monthStart (dateOf t).ord.toNat ≤ t ∧ t < monthStart ((dateOf t).ord.toNat + 1) := by
  have h0 := ord_nonneg t
  refine ⟨(le_ordOf_iff ht _).1 (by omega), ?_⟩
  by_contra hc
  have := (le_ordOf_iff ht _).2 (by omega : monthStart ((dateOf t).ord.toNat + 1) ≤ t)
  omega

theorem year_bounds {t : Instant} (ht : 0 ≤ t) :
    yearStart (dateOf t).year ≤ t ∧ t < yearStart ((dateOf t).year + 1) := by
  have hv := dateOf_valid t
  rw [yearStart_eq, yearStart_eq]
  refine ⟨(le_ordOf_iff ht _).1 (by unfold Date.ord; have := hv.1; omega), ?_⟩
  by_contra hc
  have := (le_ordOf_iff ht _).2 (by omega : monthStart (12 * ((dateOf t).year + 1)) ≤ t)
  unfold Date.ord at this; have := hv.2.1; omega

/-- Cells of a sequence of instants shifted by `c`. -/
theorem shifted_cells {B : Nat → Int} {c : Int} (hc : 0 ≤ c) (hB : ∀ n, B n + c < B (n + 1)) {t : Int} {y : Nat}
    (h1 : B y ≤ t) (h2 : t < B (y + 1)) (j : Nat) :
    (if t < B (y + 1) - c then y else y + 1) = j ↔ B j - c ≤ t ∧ t < B (j + 1) - c := by
  have hlt : ∀ a b : Nat, a < b → B a + c < B b := by
    intro a b hab
    induction b with
    | zero => omega
    | succ b ih =>
      by_cases h : a = b
      · subst h; exact hB a
      · have := ih (by omega); have := hB b; omega
  rcases Nat.lt_trichotomy j y with hj | hj | hj
  · have a1 : B (j + 1) ≤ B y := by
      by_cases h : j + 1 = y
      · rw [h]
      · have := hlt (j + 1) y (by omega); omega
    constructor
    · intro h; split at h <;> omega
    · intro h; omega
  · subst hj
    split <;> omega
  · by_cases hj2 : j = y + 1
    · subst hj2
      have := hlt (y + 1) (y + 1 + 1) (by omega)
      split <;> omega
    · have a1 := hlt (y + 1) j (by omega)
      constructor
      · intro h; split at h <;> omega
      · intro h; omega

/-! ### Fractions -/

theorem secs_nonneg {a : Int} (h : 0 ≤ a) : 0 ≤ totalSeconds a := by
  unfold totalSeconds; exact div_nonneg (by exact_mod_cast h) (by norm_num)

theorem secs_lt {a b : Int} : totalSeconds a < totalSeconds b ↔ a < b := by
  unfold totalSeconds
  rw [div_lt_div_iff_of_pos_right (by norm_num : (0:ℚ) < 1000000)]
  exact_mod_cast Iff.rfl

theorem year_total (y : Nat) : totalSeconds (yearStart (y + 1) - yearStart y) = ((daysInYear y * 43200 : Int) : ℚ) * 2 ^ ((24 : Int) - 23) := by
  rw [yearStart_length]; unfold totalSeconds dayUs; push_cast; norm_num; ring

theorem month_total (o : Nat) : totalSeconds (monthStart (o + 1) - monthStart o) =
    ((daysInMonth (o / 12) (o % 12 + 1) * 345600 : Int) : ℚ) * 2 ^ ((21 : Int) - 23) := by
  rw [monthStart_length]; unfold totalSeconds dayUs; push_cast; norm_num; ring

theorem daysInYear_le (y : Nat) : daysInYear y ≤ 366 := by unfold daysInYear; split <;> omega
theorem daysInMonth_le (y m : Nat) : daysInMonth y m ≤ 31 := by unfold daysInMonth; split <;> split <;> omega

/-- The fraction of a year: below 1 until one second before the end of the year, then 1. -/
theorem year_fraction {t : Instant} (ht : 0 ≤ t) :
    0 ≤ yearFraction t ∧
    (t < yearStart ((dateOf t).year + 1) - secUs → yearFraction t < 1) ∧
    (yearStart ((dateOf t).year + 1) - secUs ≤ t → yearFraction t = 1) := by
  obtain ⟨h1, h2⟩ := year_bounds ht
  set y := (dateOf t).year with hy
  have hd := daysInYear_pos y
  have hd' := daysInYear_le y
  have hs0 := secs_nonneg (show 0 ≤ t - yearStart y by omega)
  have hs1 := secs_lt.2 (show t - yearStart y < yearStart (y + 1) - yearStart y by omega)
  obtain ⟨fa, fb⟩ := fraction (year_total y) (by omega) (by omega) (by omega) hs0 hs1
  have hu : totalSeconds (yearStart (y + 1) - yearStart y) - 2 ^ ((24 : Int) - 23) / 2 =
      totalSeconds (yearStart (y + 1) - yearStart y - secUs) := by
    unfold totalSeconds secUs; push_cast; norm_num; ring
  rw [hu] at fa fb
  refine ⟨f32_nonneg (div_nonneg (f32_nonneg hs0) (f32_nonneg (le_trans hs0 hs1.le))), ?_, ?_⟩
  · intro h; exact fa (secs_lt.2 (by omega))
  · intro h; exact fb (not_lt.1 (fun hc => by have := secs_lt.1 hc; omega))

theorem monthStart_of (t : Instant) : midnight ⟨(dateOf t).year, (dateOf t).month, 1⟩ = monthStart (dateOf t).ord.toNat := by
  have hv := dateOf_valid t
  unfold monthStart firstOf
  congr 2 <;> (unfold Date.ord; have := hv.1; have := hv.2.1; omega)

theorem monthEnd_of (t : Instant) :
    midnight (addMonths ⟨(dateOf t).year, (dateOf t).month, 1⟩ 1) = monthStart ((dateOf t).ord.toNat + 1) := by
  have hv := dateOf_valid t
  have : (⟨(dateOf t).year, (dateOf t).month, 1⟩ : Date) = firstOf (dateOf t).ord.toNat := by
    unfold firstOf Date.ord; have := hv.1; have := hv.2.1; congr 1 <;> omega
  rw [this, addMonths_firstOf _ (by omega)]
  unfold monthStart
  congr 2

/-- The fraction of a month: below 1 until 1/8 second before the end of the month, then 1. -/
theorem month_fraction {t : Instant} (ht : 0 ≤ t) :
    0 ≤ monthFraction t ∧
    (t < monthStart ((dateOf t).ord.toNat + 1) - 125000 → monthFraction t < 1) ∧
    (monthStart ((dateOf t).ord.toNat + 1) - 125000 ≤ t → monthFraction t = 1) := by
  obtain ⟨h1, h2⟩ := month_bounds ht
  unfold monthFraction
  simp only
  rw [monthStart_of, monthEnd_of]
  set o := (dateOf t).ord.toNat with ho
  have hd := daysInMonth_pos (o / 12) (o % 12 + 1)
  have hd' := daysInMonth_le (o / 12) (o % 12 + 1)
  have hs0 := secs_nonneg (show 0 ≤ t - monthStart o by omega)
  have hs1 := secs_lt.2 (show t - monthStart o < monthStart (o + 1) - monthStart o by omega)
  obtain ⟨fa, fb⟩ := fraction (month_total o) (by omega) (by omega) (by omega) hs0 hs1
  have hu : totalSeconds (monthStart (o + 1) - monthStart o) - 2 ^ ((21 : Int) - 23) / 2 =
      totalSeconds (monthStart (o + 1) - monthStart o - 125000) := by
    unfold totalSeconds; push_cast; norm_num; ring
  rw [hu] at fa fb
  refine ⟨f32_nonneg (div_nonneg (f32_nonneg hs0) (f32_nonneg (le_trans hs0 hs1.le))), ?_, ?_⟩
  · intro h; exact fa (secs_lt.2 (by omega))
  · intro h; exact fb (not_lt.1 (fun hc => by have := secs_lt.1 hc; omega))

theorem f32_div_zero_iff {a b : ℚ} (ha : 0 ≤ a) (hb : 0 < b) : f32 (f32 a / f32 b) = 0 ↔ a = 0 := by
  constructor
  · intro h
    by_contra hc
    have hp : 0 < a := lt_of_le_of_ne ha (Ne.symm hc)
    have := f32_pos (div_pos (f32_pos hp) (f32_pos hb))
    linarith
  · rintro rfl; simp [f32_zero]

/-- **C15.** An annual time base is accepted exactly for the start of a year, a monthly one for the start of a month. -/
theorem c15_epoch {t : Instant} (ht : 0 ≤ t) :
    (annualInit t = .ok t ↔ ∃ y, t = yearStart y) ∧ (monthlyInit t = .ok t ↔ ∃ o, t = monthStart o) := by
  constructor
  · obtain ⟨h1, h2⟩ := year_bounds ht
    have hz : yearFraction t = 0 ↔ t = yearStart (dateOf t).year := by
      unfold yearFraction; simp only
      rw [f32_div_zero_iff (secs_nonneg (by unfold yearStart at h1; omega))]
      · unfold totalSeconds
        rw [div_eq_zero_iff]
        constructor
        · rintro (h | h)
          · have : t - midnight ⟨(dateOf t).year, 1, 1⟩ = 0 := by exact_mod_cast h
            unfold yearStart; omega
          · norm_num at h
        · intro h; left; unfold yearStart at h; exact_mod_cast (by omega : t - midnight ⟨(dateOf t).year, 1, 1⟩ = 0)
      · have := secs_lt.2 (show 0 < midnight ⟨(dateOf t).year + 1, 1, 1⟩ - midnight ⟨(dateOf t).year, 1, 1⟩ by
          unfold yearStart at h1 h2; omega)
        simpa [totalSeconds] using this
    unfold annualInit
    constructor
    · intro h
      split at h
      · rename_i hf; exact ⟨_, hz.1 hf⟩
      · cases h
    · rintro ⟨y, rfl⟩
      have : dateOf (yearStart y) = ⟨y, 1, 1⟩ := dateOf_midnight (by
        have := daysInMonth_pos y 1
        refine ⟨?_, ?_, ?_, ?_⟩ <;> simp only <;> omega)
      rw [if_pos (hz.2 (by rw [this]))]
  · obtain ⟨h1, h2⟩ := month_bounds ht
    have hz : monthFraction t = 0 ↔ t = monthStart (dateOf t).ord.toNat := by
      unfold monthFraction; simp only
      rw [monthStart_of, monthEnd_of, f32_div_zero_iff (secs_nonneg (by omega))]
      · unfold totalSeconds
        rw [div_eq_zero_iff]
        constructor
        · rintro (h | h)
          · have : t - monthStart (dateOf t).ord.toNat = 0 := by exact_mod_cast h
            omega
          · norm_num at h
        · intro h; left; exact_mod_cast (by omega : t - monthStart (dateOf t).ord.toNat = 0)
      · have := secs_lt.2 (show 0 < monthStart ((dateOf t).ord.toNat + 1) - monthStart (dateOf t).ord.toNat by omega)
        simpa [totalSeconds] using this
    unfold monthlyInit
    constructor
    · intro h
      split at h
      · rename_i hf; exact ⟨_, hz.1 hf⟩
      · cases h
    · rintro ⟨o, rfl⟩
      have : dateOf (monthStart o) = firstOf o := dateOf_midnight (firstOf_valid o)
      rw [if_pos (hz.2 (by rw [this, firstOf_ord]; rfl))]

theorem midnight_nonneg (d : Date) : 0 ≤ midnight d := by unfold midnight dayUs; omega

theorem yearStart_nonneg (y : Nat) : 0 ≤ yearStart y := midnight_nonneg _
theorem monthStart_nonneg (o : Nat) : 0 ≤ monthStart o := midnight_nonneg _

theorem annualEpoch_ok (start : Instant) : annualEpoch start = .ok (yearStart (dateOf start).year) :=
  (c15_epoch (midnight_nonneg _)).1.2 ⟨_, rfl⟩

theorem monthlyEpoch_ok (start : Instant) : monthlyEpoch start = .ok (monthStart (dateOf start).ord.toNat) := by
  unfold monthlyEpoch
  rw [monthStart_of]
  exact (c15_epoch (midnight_nonneg _)).2.2 ⟨_, rfl⟩

theorem year_yearStart (y : Nat) : (dateOf (yearStart y)).year = y := by
  rw [yearStart_eq]; unfold monthStart
  rw [dateOf_midnight (firstOf_valid _)]; unfold firstOf; simp

theorem floor_add_fraction (k : Int) {q : ℚ} (h0 : 0 ≤ q) : (q < 1 → ⌊(k : ℚ) + q⌋ = k) ∧ (q = 1 → ⌊(k : ℚ) + q⌋ = k + 1) := by
  constructor
  · intro h; rw [Int.floor_eq_iff]; constructor <;> linarith
  · intro h
    have : (k : ℚ) + q = ((k + 1 : Int) : ℚ) := by rw [h]; push_cast; ring
    rw [this, Int.floor_intCast]

/-- **C15, annual index.** An instant gets index `k` exactly if it lies between one second before the `k`-th year and one
second before the next year: the calendar year shifted by one second, because single precision cannot represent the last
second of a year. -/
theorem c15_annual_index {start t : Instant} (ht : 0 ≤ t) (k : Int) (hk : 0 ≤ ((dateOf start).year : Int) + k) :
    annualIndex start t = .ok k ↔
      yearStart (((dateOf start).year : Int) + k).toNat - secUs ≤ t ∧
      t < yearStart ((((dateOf start).year : Int) + k).toNat + 1) - secUs := by
  unfold annualIndex
  rw [annualEpoch_ok]
  simp only [Except.map]
  set ey := (dateOf start).year
  obtain ⟨h1, h2⟩ := year_bounds ht
  obtain ⟨f0, fa, fb⟩ := year_fraction ht
  set y := (dateOf t).year with hy
  have hidx : ⌊annualNumber (yearStart ey) t⌋ = ((if t < yearStart (y + 1) - secUs then y else y + 1 : Nat) : Int) - ey := by
    unfold annualNumber
    rw [year_yearStart, ← hy]
    have e : ((y : ℚ) - (ey : ℚ)) = (((y : Int) - (ey : Int) : Int) : ℚ) := by push_cast; ring
    rw [e]
    obtain ⟨g1, g2⟩ := floor_add_fraction ((y : Int) - (ey : Int)) f0
    split
    · rw [g1 (fa (by assumption))]
    · rw [g2 (fb (by omega))]; omega
  have hc := shifted_cells (B := yearStart) (c := secUs) (by decide) yearStart_gap h1 h2 ((ey : Int) + k).toNat
  rw [← hc, hidx]
  constructor
  · intro h
    have : ((if t < yearStart (y + 1) - secUs then y else y + 1 : Nat) : Int) - ey = k := by injection h
    omega
  · intro h; rw [h]; congr 1; omega

/-- **C15, annual, partial.** Apart from the last second of each year, an instant gets index `k` exactly if it lies in the
`k`-th calendar year from the year of the start. The full claim is false, see `c15_annual_violated`. -/
theorem c15_annual_index_partial {start t : Instant} (ht : 0 ≤ t) (hlast : ∀ y, ¬ (yearStart y - secUs ≤ t ∧ t < yearStart y))
    (k : Int) (hk : 0 ≤ ((dateOf start).year : Int) + k) :
    annualIndex start t = .ok k ↔
      yearStart (((dateOf start).year : Int) + k).toNat ≤ t ∧ t < yearStart ((((dateOf start).year : Int) + k).toNat + 1) := by
  rw [c15_annual_index ht k hk]
  have a := hlast (((dateOf start).year : Int) + k).toNat
  have b := hlast ((((dateOf start).year : Int) + k).toNat + 1)
  unfold secUs at *
  omega

/-- **C15, negative result.** The last second of every year is given the index of the next year. -/
theorem c15_annual_violated (start : Instant) (k : Nat) :
    annualIndex start (yearStart ((dateOf start).year + k + 1) - secUs) = .ok (k + 1) := by
  have hp : (0 : Int) ≤ yearStart ((dateOf start).year + k + 1) - secUs := by
    have := yearStart_length ((dateOf start).year + k)
    have := daysInYear_pos ((dateOf start).year + k)
    have := midnight_nonneg ⟨(dateOf start).year + k, 1, 1⟩
    unfold yearStart dayUs secUs at *; omega
  have hl := yearStart_length ((dateOf start).year + k + 1)
  have hd := daysInYear_pos ((dateOf start).year + k + 1)
  refine (c15_annual_index hp (k + 1) (by omega)).2 ?_
  have : (((dateOf start).year : Int) + (k + 1)).toNat = (dateOf start).year + k + 1 := by omega
  rw [this]
  unfold dayUs secUs at *; omega

/-- **C15, annual time.** The time of step `k` is the start of the `k`-th year, and its index is `k`. -/
theorem c15_annual_time (start : Instant) (k : Int) (hk : 0 ≤ ((dateOf start).year : Int) + k) :
    annualTime start k = .ok (yearStart (((dateOf start).year : Int) + k).toNat) ∧
    annualIndex start (yearStart (((dateOf start).year : Int) + k).toNat) = .ok k := by
  constructor
  · unfold annualTime
    rw [annualEpoch_ok]
    simp only [Except.map, annualDatetime, Int.floor_intCast, sub_self, zero_mul, year_yearStart]
    have : deltaSecondsOf 0 = 0 := by unfold deltaSecondsOf; norm_num
    rw [this]; simp [yearStart]
  · refine (c15_annual_index (yearStart_nonneg _) k hk).2 ?_
    have hl := yearStart_gap (((dateOf start).year : Int) + k).toNat
    have hs : (0 : Int) ≤ secUs := by decide
    show yearStart _ - secUs ≤ yearStart _ ∧ yearStart _ < _
    omega

theorem intOf_add_fraction {k : Int} (hk : 0 ≤ k) {q : ℚ} (h0 : 0 ≤ q) : intOf ((k : ℚ) + q) = ⌊(k : ℚ) + q⌋ := by
  apply intOf_nonneg
  have : (0 : ℚ) ≤ k := by exact_mod_cast hk
  linarith

/-- **C15, annual count.** If the end is not in a year before the start, the number of steps is the index of the end plus
one (so the steps are the years from the start's to the end's, inclusive). -/
theorem c15_annual_count {start stop : Instant} (ht : 0 ≤ stop) (hle : (dateOf start).year ≤ (dateOf stop).year) :
    ∃ k, annualIndex start stop = .ok k ∧ annualCount start stop = .ok (k + 1) := by
  unfold annualIndex annualCount
  rw [annualEpoch_ok]
  simp only [Except.map]
  refine ⟨_, rfl, ?_⟩
  have : intOf (annualNumber (yearStart (dateOf start).year) stop) = ⌊annualNumber (yearStart (dateOf start).year) stop⌋ := by
    unfold annualNumber
    rw [year_yearStart]
    have e : (((dateOf stop).year : ℚ) - ((dateOf start).year : ℚ)) =
        ((((dateOf stop).year : Int) - ((dateOf start).year : Int) : Int) : ℚ) := by push_cast; ring
    rw [e]
    exact intOf_add_fraction (by omega) (year_fraction ht).1
  rw [this]

/-! ### Months -/

theorem ord_monthStart (o : Nat) : (dateOf (monthStart o)).ord = o := by
  unfold monthStart; rw [dateOf_midnight (firstOf_valid _), firstOf_ord]

theorem monthlyNumber_eq (o : Nat) (t : Instant) :
    monthlyNumber (monthStart o) t = (((dateOf t).ord - (o : Int) : Int) : ℚ) + monthFraction t := by
  unfold monthlyNumber
  have h1 := (dateOf_valid t).1
  have h2 := (dateOf_valid (monthStart o)).1
  have h3 := ord_monthStart o
  have e : (dateOf t).ord - (o : Int) = (((dateOf t).year * 12 + (dateOf t).month : Nat) : Int) -
      (((dateOf (monthStart o)).year * 12 + (dateOf (monthStart o)).month : Nat) : Int) := by
    unfold Date.ord at *; omega
  rw [e]; push_cast; ring

/-- **C15, monthly index.** An instant gets index `k` exactly if it lies between 1/8 second before the `k`-th month and 1/8
second before the next month. -/
theorem c15_monthly_index {start t : Instant} (ht : 0 ≤ t) (k : Int) (hk : 0 ≤ (dateOf start).ord + k) :
    monthlyIndex start t = .ok k ↔
      monthStart ((dateOf start).ord + k).toNat - 125000 ≤ t ∧
      t < monthStart (((dateOf start).ord + k).toNat + 1) - 125000 := by
  unfold monthlyIndex
  rw [monthlyEpoch_ok]
  simp only [Except.map]
  have hs0 := ord_nonneg start
  obtain ⟨h1, h2⟩ := month_bounds ht
  obtain ⟨f0, fa, fb⟩ := month_fraction ht
  have ho := ord_nonneg t
  set o := (dateOf t).ord.toNat with hodef
  set e := (dateOf start).ord.toNat with hedef
  have hidx : ⌊monthlyNumber (monthStart e) t⌋ = ((if t < monthStart (o + 1) - 125000 then o else o + 1 : Nat) : Int) - e := by
    rw [monthlyNumber_eq]
    obtain ⟨g1, g2⟩ := floor_add_fraction ((dateOf t).ord - (e : Int)) f0
    split
    · rw [g1 (fa (by assumption))]; omega
    · rw [g2 (fb (by omega))]; omega
  have hc := shifted_cells (B := monthStart) (c := 125000) (by decide) monthStart_gap' h1 h2 ((dateOf start).ord + k).toNat
  rw [← hc, hidx]
  constructor
  · intro h
    have : ((if t < monthStart (o + 1) - 125000 then o else o + 1 : Nat) : Int) - e = k := by injection h
    omega
  · intro h; rw [h]; congr 1; omega

/-- **C15, monthly, whole seconds.** An instant on a whole second gets index `k` exactly if it lies in the `k`-th calendar
month from the month of the start. (For fractions of a second the claim is false, see `c15_monthly_violated`.) -/
theorem c15_monthly_index_partial {start t : Instant} (ht : 0 ≤ t) (hsec : t % secUs = 0)
    (k : Int) (hk : 0 ≤ (dateOf start).ord + k) :
    monthlyIndex start t = .ok k ↔
      monthStart ((dateOf start).ord + k).toNat ≤ t ∧ t < monthStart (((dateOf start).ord + k).toNat + 1) := by
  rw [c15_monthly_index ht k hk]
  unfold monthStart midnight dayUs secUs at *
  omega

/-- **C15, negative result.** The last microsecond of every month is given the index of the next month. -/
theorem c15_monthly_violated (start : Instant) (k : Nat) :
    monthlyIndex start (monthStart ((dateOf start).ord.toNat + k + 1) - 1) = .ok (k + 1) := by
  have h0 := ord_nonneg start
  have hg := monthStart_gap ((dateOf start).ord.toNat + k)
  have hp : (0 : Int) ≤ monthStart ((dateOf start).ord.toNat + k + 1) - 1 := by
    have := midnight_nonneg (firstOf ((dateOf start).ord.toNat + k))
    unfold monthStart dayUs at *; omega
  have hl := monthStart_gap ((dateOf start).ord.toNat + k + 1)
  refine (c15_monthly_index hp (k + 1) (by omega)).2 ?_
  have : ((dateOf start).ord + (k + 1)).toNat = (dateOf start).ord.toNat + k + 1 := by omega
  rw [this]
  unfold dayUs at *; omega

/-- **C15, monthly time.** The time of step `k` is the start of the `k`-th month, and its index is `k`. -/
theorem c15_monthly_time (start : Instant) (k : Int) (hk : 0 ≤ (dateOf start).ord + k) :
    monthlyTime start k = .ok (monthStart ((dateOf start).ord + k).toNat) ∧
    monthlyIndex start (monthStart ((dateOf start).ord + k).toNat) = .ok k := by
  have h0 := ord_nonneg start
  constructor
  · unfold monthlyTime
    rw [monthlyEpoch_ok]
    simp only [Except.map, monthlyDatetime, Int.floor_intCast, sub_self, zero_mul]
    have h1 : deltaSecondsOf 0 = 0 := by unfold deltaSecondsOf; norm_num
    have h2 : monthStart (dateOf start).ord.toNat % dayUs = 0 := by unfold monthStart midnight dayUs; omega
    have h3 : dateOf (monthStart (dateOf start).ord.toNat) = firstOf (dateOf start).ord.toNat :=
      dateOf_midnight (firstOf_valid _)
    rw [h1, h2, h3, addMonths_firstOf _ (by omega)]
    have : (((dateOf start).ord.toNat : Int) + k).toNat = ((dateOf start).ord + k).toNat := by omega
    rw [this]; simp [monthStart]
  · refine (c15_monthly_index (monthStart_nonneg _) k hk).2 ?_
    have hg := monthStart_gap' ((dateOf start).ord + k).toNat
    show monthStart _ - 125000 ≤ monthStart _ ∧ monthStart _ < _
    omega

/-- **C15, monthly count.** -/
theorem c15_monthly_count {start stop : Instant} (ht : 0 ≤ stop) (hle : (dateOf start).ord ≤ (dateOf stop).ord) :
    ∃ k, monthlyIndex start stop = .ok k ∧ monthlyCount start stop = .ok (k + 1) := by
  unfold monthlyIndex monthlyCount
  rw [monthlyEpoch_ok]
  simp only [Except.map]
  refine ⟨_, rfl, ?_⟩
  have h0 := ord_nonneg start
  rw [monthlyNumber_eq, intOf_add_fraction (by omega) (month_fraction ht).1]

/-! ### Round trip of arbitrary datetimes -/

theorem delta_near (x : ℚ) : |(deltaSecondsOf x : ℚ) - x * 1000000| ≤ 1 / 2 := by
  unfold deltaSecondsOf
  have h1 := Int.floor_le (x * 1000000 + 1 / 2)
  have h2 := Int.lt_floor_add_one (x * 1000000 + 1 / 2)
  rw [abs_le]; constructor <;> linarith

/-- Error of a fraction computed in single precision and multiplied out again. -/
theorem fraction_error {s total : ℚ} {e : Int} (hs : 0 ≤ s) (hst : s ≤ total) (h0 : 0 < total) (htop : total ≤ 2 ^ (e + 1))
    (hrep : f32 total = total) (hle : f32 s ≤ total) :
    |f32 (f32 s / f32 total) * f32 total - s| ≤ total * 2 ^ (-25 : Int) + 2 ^ (e - 24) := by
  rw [hrep]
  have h1 := f32_near (e := e) hs (le_trans hst htop)
  have hq0 : 0 ≤ f32 s / total := div_nonneg (f32_nonneg hs) h0.le
  have hq1 : f32 s / total ≤ 2 ^ ((-1 : Int) + 1) := by
    rw [div_le_iff₀ h0]; norm_num; exact hle
  have h2 := f32_near (e := -1) hq0 hq1
  have e1 : f32 (f32 s / total) * total - s = (f32 (f32 s / total) - f32 s / total) * total + (f32 s - s) := by
    rw [sub_mul, div_mul_cancel₀ _ h0.ne']; ring
  rw [e1]
  refine le_trans (abs_add_le _ _) (add_le_add ?_ h1)
  rw [abs_mul, abs_of_pos h0, mul_comm]
  exact mul_le_mul_of_nonneg_left h2 h0.le

/-- **C15, precision.** Converting any datetime of a year not before the epoch to an annual number and back changes it by
less than two seconds. -/
theorem c15_annual_roundtrip (ey : Nat) {t : Instant} (ht : 0 ≤ t) :
    |annualDatetime (yearStart ey) (annualNumber (yearStart ey) t) - t| < 2 * secUs := by
  obtain ⟨h1, h2⟩ := year_bounds ht
  obtain ⟨f0, fa, fb⟩ := year_fraction ht
  have hmain : annualDatetime (yearStart ey) (annualNumber (yearStart ey) t) =
      yearStart (dateOf t).year + deltaSecondsOf (yearFraction t *
        f32 (totalSeconds (yearStart ((dateOf t).year + 1) - yearStart (dateOf t).year))) := by
    unfold annualDatetime annualNumber
    simp only [year_yearStart]
    have e : (((dateOf t).year : ℚ) - (ey : ℚ)) = ((((dateOf t).year : Int) - (ey : Int) : Int) : ℚ) := by push_cast; ring
    rw [e]
    obtain ⟨g1, g2⟩ := floor_add_fraction (((dateOf t).year : Int) - (ey : Int)) f0
    by_cases hl : t < yearStart ((dateOf t).year + 1) - secUs
    · rw [g1 (fa hl)]
      have i1 : ((ey : Int) + (((dateOf t).year : Int) - (ey : Int))).toNat = (dateOf t).year := by omega
      have i2 : ((ey : Int) + (((dateOf t).year : Int) - (ey : Int)) + 1).toNat = (dateOf t).year + 1 := by omega
      rw [i1, i2, add_sub_cancel_left]; rfl
    · have hf := fb (by omega)
      rw [g2 hf, hf]
      have i1 : ((ey : Int) + (((dateOf t).year : Int) - (ey : Int) + 1)).toNat = (dateOf t).year + 1 := by omega
      rw [i1]
      have z : ((((dateOf t).year : Int) - (ey : Int) : Int) : ℚ) + 1 -
          ((((dateOf t).year : Int) - (ey : Int) + 1 : Int) : ℚ) = 0 := by push_cast; ring
      rw [z, zero_mul]
      have d0 : deltaSecondsOf 0 = 0 := by unfold deltaSecondsOf; norm_num
      rw [d0, one_mul]
      have hd := daysInYear_pos (dateOf t).year
      have hd' := daysInYear_le (dateOf t).year
      rw [year_total, f32_rep (by positivity) ⟨_, _, by omega, by omega, rfl⟩, ← year_total]
      have hdel : deltaSecondsOf (totalSeconds (yearStart ((dateOf t).year + 1) - yearStart (dateOf t).year)) =
          yearStart ((dateOf t).year + 1) - yearStart (dateOf t).year := by
        unfold deltaSecondsOf totalSeconds
        rw [div_mul_cancel₀ _ (by norm_num)]
        rw [Int.floor_eq_iff]; constructor <;> linarith
      rw [hdel]; unfold yearStart; omega
  rw [hmain]
  set y := (dateOf t).year with hy
  have hd := daysInYear_pos y
  have hd' := daysInYear_le y
  have hs0 := secs_nonneg (show 0 ≤ t - yearStart y by omega)
  have hs1 := secs_lt.2 (show t - yearStart y < yearStart (y + 1) - yearStart y by omega)
  have hrt : Rep (totalSeconds (yearStart (y + 1) - yearStart y)) := ⟨_, _, by omega, by omega, year_total y⟩
  have htp : 0 < totalSeconds (yearStart (y + 1) - yearStart y) := lt_of_le_of_lt hs0 hs1
  have htb : totalSeconds (yearStart (y + 1) - yearStart y) ≤ 31622400 := by
    rw [year_total]
    have : ((daysInYear y * 43200 : Int) : ℚ) ≤ 15811200 := by exact_mod_cast (by omega : (daysInYear y * 43200 : Int) ≤ 15811200)
    norm_num at this ⊢; linarith
  have hle : f32 (totalSeconds (t - yearStart y)) ≤ totalSeconds (yearStart (y + 1) - yearStart y) := by
    rcases eq_or_lt_of_le hs0 with h | h
    · rw [← h, f32_zero]; exact htp.le
    · exact f32_le h hs1.le hrt
  have herr := fraction_error (e := 24) hs0 hs1.le htp (by norm_num; linarith) (f32_rep htp.le hrt) hle
  have hyf : yearFraction t = f32 (f32 (totalSeconds (t - yearStart y)) / f32 (totalSeconds (yearStart (y + 1) - yearStart y))) := rfl
  rw [← hyf] at herr
  have hdn := delta_near (yearFraction t * f32 (totalSeconds (yearStart (y + 1) - yearStart y)))
  set D := deltaSecondsOf (yearFraction t * f32 (totalSeconds (yearStart (y + 1) - yearStart y)))
  set P := yearFraction t * f32 (totalSeconds (yearStart (y + 1) - yearStart y))
  have hs : totalSeconds (t - yearStart y) * 1000000 = ((t - yearStart y : Int) : ℚ) := by
    unfold totalSeconds; rw [div_mul_cancel₀ _ (by norm_num)]
  have hfin : |(D : ℚ) - ((t - yearStart y : Int) : ℚ)| < 2000000 := by
    rw [abs_le] at hdn herr
    norm_num at herr
    rw [abs_lt]
    constructor <;> nlinarith [hdn.1, hdn.2, herr.1, herr.2]
  have : |yearStart y + D - t| = |D - (t - yearStart y)| := by congr 1; omega
  rw [this]
  unfold secUs
  exact_mod_cast hfin

/-- **C15, precision.** Converting any datetime to a monthly number and back changes it by less than a quarter of a second
("accurate to second resolution", as the comment in the code says). -/
theorem c15_monthly_roundtrip (eo : Nat) {t : Instant} (ht : 0 ≤ t) :
    |monthlyDatetime (monthStart eo) (monthlyNumber (monthStart eo) t) - t| < 250000 := by
  obtain ⟨h1, h2⟩ := month_bounds ht
  obtain ⟨f0, fa, fb⟩ := month_fraction ht
  have ho := ord_nonneg t
  have hbase : dateOf (monthStart eo) = firstOf eo := dateOf_midnight (firstOf_valid _)
  have hmod : monthStart eo % dayUs = 0 := by unfold monthStart midnight dayUs; omega
  have hmid : ∀ k : Int, 0 ≤ (eo : Int) + k → midnight (addMonths (firstOf eo) k) = monthStart ((eo : Int) + k).toNat ∧
      midnight (addMonths (addMonths (firstOf eo) k) 1) = monthStart (((eo : Int) + k).toNat + 1) := by
    intro k hk
    rw [addMonths_firstOf _ hk, addMonths_firstOf _ (by omega)]
    exact ⟨rfl, rfl⟩
  have hmain : monthlyDatetime (monthStart eo) (monthlyNumber (monthStart eo) t) =
      monthStart (dateOf t).ord.toNat + deltaSecondsOf (monthFraction t *
        f32 (totalSeconds (monthStart ((dateOf t).ord.toNat + 1) - monthStart (dateOf t).ord.toNat))) := by
    rw [monthlyNumber_eq]
    unfold monthlyDatetime
    simp only [hbase, hmod]
    obtain ⟨g1, g2⟩ := floor_add_fraction ((dateOf t).ord - (eo : Int)) f0
    by_cases hl : t < monthStart ((dateOf t).ord.toNat + 1) - 125000
    · rw [g1 (fa hl), (hmid _ (by omega)).1, (hmid _ (by omega)).2]
      have i1 : ((eo : Int) + ((dateOf t).ord - (eo : Int))).toNat = (dateOf t).ord.toNat := by omega
      rw [i1, add_sub_cancel_left, add_zero]
    · have hf := fb (by omega)
      rw [g2 hf, hf, (hmid _ (by omega)).1, (hmid _ (by omega)).2]
      have i1 : ((eo : Int) + ((dateOf t).ord - (eo : Int) + 1)).toNat = (dateOf t).ord.toNat + 1 := by omega
      rw [i1]
      have z : (((dateOf t).ord - (eo : Int) : Int) : ℚ) + 1 - (((dateOf t).ord - (eo : Int) + 1 : Int) : ℚ) = 0 := by
        push_cast; ring
      rw [z, zero_mul]
      have d0 : deltaSecondsOf 0 = 0 := by unfold deltaSecondsOf; norm_num
      rw [d0, one_mul]
      have hd := daysInMonth_pos ((dateOf t).ord.toNat / 12) ((dateOf t).ord.toNat % 12 + 1)
      have hd' := daysInMonth_le ((dateOf t).ord.toNat / 12) ((dateOf t).ord.toNat % 12 + 1)
      rw [month_total, f32_rep (by positivity) ⟨_, _, by omega, by omega, rfl⟩, ← month_total]
      have hdel : deltaSecondsOf (totalSeconds (monthStart ((dateOf t).ord.toNat + 1) - monthStart (dateOf t).ord.toNat)) =
          monthStart ((dateOf t).ord.toNat + 1) - monthStart (dateOf t).ord.toNat := by
        unfold deltaSecondsOf totalSeconds
        rw [div_mul_cancel₀ _ (by norm_num)]
        rw [Int.floor_eq_iff]; constructor <;> linarith
      rw [hdel]; omega
  rw [hmain]
  have hmf : monthFraction t = f32 (f32 (totalSeconds (t - monthStart (dateOf t).ord.toNat)) /
      f32 (totalSeconds (monthStart ((dateOf t).ord.toNat + 1) - monthStart (dateOf t).ord.toNat))) := by
    unfold monthFraction; simp only
    rw [monthStart_of, monthEnd_of]
  set y := (dateOf t).ord.toNat with hy
  have hd := daysInMonth_pos (y / 12) (y % 12 + 1)
  have hd' := daysInMonth_le (y / 12) (y % 12 + 1)
  have hs0 := secs_nonneg (show 0 ≤ t - monthStart y by omega)
  have hs1 := secs_lt.2 (show t - monthStart y < monthStart (y + 1) - monthStart y by omega)
  have hrt : Rep (totalSeconds (monthStart (y + 1) - monthStart y)) := ⟨_, _, by omega, by omega, month_total y⟩
  have htp : 0 < totalSeconds (monthStart (y + 1) - monthStart y) := lt_of_le_of_lt hs0 hs1
  have htb : totalSeconds (monthStart (y + 1) - monthStart y) ≤ 2678400 := by
    rw [month_total]
    have : ((daysInMonth (y / 12) (y % 12 + 1) * 345600 : Int) : ℚ) ≤ 10713600 := by
      exact_mod_cast (by omega : (daysInMonth (y / 12) (y % 12 + 1) * 345600 : Int) ≤ 10713600)
    norm_num at this ⊢; linarith
  have hle : f32 (totalSeconds (t - monthStart y)) ≤ totalSeconds (monthStart (y + 1) - monthStart y) := by
    rcases eq_or_lt_of_le hs0 with h | h
    · rw [← h, f32_zero]; exact htp.le
    · exact f32_le h hs1.le hrt
  have herr := fraction_error (e := 21) hs0 hs1.le htp (by norm_num; linarith) (f32_rep htp.le hrt) hle
  rw [← hmf] at herr
  have hdn := delta_near (monthFraction t * f32 (totalSeconds (monthStart (y + 1) - monthStart y)))
  set D := deltaSecondsOf (monthFraction t * f32 (totalSeconds (monthStart (y + 1) - monthStart y)))
  set P := monthFraction t * f32 (totalSeconds (monthStart (y + 1) - monthStart y))
  have hs : totalSeconds (t - monthStart y) * 1000000 = ((t - monthStart y : Int) : ℚ) := by
    unfold totalSeconds; rw [div_mul_cancel₀ _ (by norm_num)]
  have hfin : |(D : ℚ) - ((t - monthStart y : Int) : ℚ)| < 250000 := by
    rw [abs_le] at hdn herr
    norm_num at herr
    rw [abs_lt]
    constructor <;> nlinarith [hdn.1, hdn.2, herr.1, herr.2]
  have e : monthStart y + D - t = D - (t - monthStart y) := by omega
  rw [e]
  exact_mod_cast hfin

/-! ### Non-vacuity -/

example : (0 : Int) ≤ ((dateOf (yearStart 1850)).year : Int) + 5 := by rw [year_yearStart]; decide
example : (dateOf (midnight ⟨1984, 2, 29⟩ + 5 * secUs)).ord = 12 * 1984 + 1 := by decide +kernel

end Verif.Eumopps.Periods
