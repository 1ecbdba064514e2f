import Verif.Eustace.LandSun.Model
import Mathlib.Tactic.IntervalCases
import Mathlib.Tactic.Linarith
import Mathlib.Tactic.NormNum
import Mathlib.Tactic.Push

/-! Days of the year and Julian days of the place of the sun. -/

namespace Verif.Eustace.LandSun

open Verif Verif.Calendar

/-- Days before a year of the Gregorian calendar. -/
theorem daysBeforeYear_closed (y : ℕ) : daysBeforeYear y + (y + 99) / 100 = 365 * y + (y + 3) / 4 + (y + 399) / 400 := by
  induction y with
  | zero => rfl
  | succ y ih =>
    simp only [daysBeforeYear, daysInYear, isLeap]
    by_cases h4 : y % 4 = 0 <;> by_cases h100 : y % 100 = 0 <;> by_cases h400 : y % 400 = 0 <;>
      simp [h4, h100, h400] <;> omega

theorem leap_eq (y : ℕ) (hy : 1 ≤ y) : leap y = isLeap y := by
  have h : y ≠ 0 := by omega
  have h400 : y % 400 = 0 → y % 4 = 0 := by omega
  rw [Bool.eq_iff_iff]
  simp only [leap, isLeap, if_neg h, Bool.or_eq_true, Bool.and_eq_true, bne_iff_ne, beq_iff_eq]
  tauto

theorem number_sub (y m k : ℕ) (hk : 1 ≤ k) :
    ((Date.number ⟨y, m, k⟩ : ℕ) : ℤ) - (Date.number ⟨y, 1, 1⟩ : ℕ) + 1 = daysBeforeMonth y m + k := by
  simp only [Date.number, daysBeforeMonth]
  omega

/-- `DayofYear` gives the day of the year from one. -/
theorem c179_day_of_year (d : Date) (hy : 1 ≤ d.year) (hd : d.Valid) :
    dayOfYear d.month d.day d.year = d.number - (Date.number ⟨d.year, 1, 1⟩ : ℤ) + 1 := by
  obtain ⟨y, m, k⟩ := d
  obtain ⟨h1, h2, h3, h4⟩ := hd
  simp only at *
  rw [number_sub y m k h3]
  simp only [dayOfYear, leap_eq y hy]
  cases hl : isLeap y <;> interval_cases m <;> simp [daysBeforeMonth, daysInMonth, hl] <;> omega

example : (1 ≤ (⟨2000, 12, 31⟩ : Date).year ∧ (⟨2000, 12, 31⟩ : Date).Valid) ∧ dayOfYear 12 31 2000 = 366 :=
  ⟨⟨by norm_num, by decide⟩, by simp [dayOfYear, leap]⟩

theorem month_day (y m k : ℕ) (hy : 1 ≤ y) (h1 : 1 ≤ m) (h2 : m ≤ 12) (h3 : 1 ≤ k) (h4 : k ≤ daysInMonth y m) :
    calcMDY (daysBeforeMonth y m + k) y = (m, (k : ℤ)) := by
  simp only [calcMDY, monthLengths, leap_eq y hy, daysIn, List.map_cons, List.map_nil]
  cases hl : isLeap y <;> interval_cases m <;> simp [daysBeforeMonth, daysInMonth, hl] at h4 ⊢ <;>
    simp (disch := omega) only [if_neg, if_pos, lowest, List.foldl_cons, List.foldl_nil, min_eq_left, min_eq_right]
  all_goals simp (disch := omega) only [List.findIdx_cons, beq_false_of_ne, beq_self_eq_true, cond_true, cond_false, and_self]

/-- `CalcMDY` gives the month and the day of a day of the year. -/
theorem c179_month_day (d : Date) (hy : 1 ≤ d.year) (hd : d.Valid) :
    calcMDY (d.number - (Date.number ⟨d.year, 1, 1⟩ : ℤ) + 1) d.year = (d.month, (d.day : ℤ)) := by
  obtain ⟨y, m, k⟩ := d
  obtain ⟨h1, h2, h3, h4⟩ := hd
  rw [number_sub y m k h3]
  exact month_day y m k hy h1 h2 h3 h4

theorem floor_years (n : ℤ) : ⌊(365.25 : ℝ) * (n + 4716)⌋ = (1461 * (n + 4716)) / 4 := by
  rw [Int.floor_eq_iff]
  have h1 : 4 * ((1461 * (n + 4716)) / 4) ≤ 1461 * (n + 4716) := by omega
  have h2 : 1461 * (n + 4716) < 4 * ((1461 * (n + 4716)) / 4) + 4 := by omega
  have h1' : (4 : ℝ) * (((1461 * (n + 4716)) / 4 : ℤ) : ℝ) ≤ 1461 * (n + 4716) := by exact_mod_cast h1
  have h2' : (1461 : ℝ) * (n + 4716) < 4 * (((1461 * (n + 4716)) / 4 : ℤ) : ℝ) + 4 := by exact_mod_cast h2
  constructor <;> norm_num <;> linarith

theorem floor_months (m : ℕ) (h1 : 1 ≤ m) (h2 : m ≤ 12) :
    ⌊(30.6001 : ℝ) * (((if m ≤ 2 then (m : ℤ) + 12 else m : ℤ) : ℝ) + 1)⌋
      = if m ≤ 2 then 30 * (m + 13 : ℤ) + (6 * (m + 13)) / 10 else 30 * (m + 1 : ℤ) + (6 * (m + 1)) / 10 := by
  interval_cases m <;> (rw [Int.floor_eq_iff]; norm_num)

theorem leap_cases (y : ℕ) : (isLeap y = true ∧ y % 4 = 0 ∧ (y % 100 = 0 → y % 400 = 0)) ∨
    (isLeap y = false ∧ (y % 4 = 0 → y % 100 = 0 ∧ y % 400 ≠ 0)) := by
  cases h : isLeap y
  · right
    refine ⟨rfl, fun h4 => ?_⟩
    simp only [isLeap, h4] at h
    constructor
    · by_contra h100
      simp [h100] at h
    · intro h400
      simp [h400] at h
  · left
    simp only [isLeap, Bool.or_eq_true, Bool.and_eq_true, bne_iff_ne, beq_iff_eq] at h
    refine ⟨rfl, h.1, fun h100 => ?_⟩
    rcases h.2 with h' | h'
    · exact absurd h100 h'
    · exact h'

theorem ceil_floor (y : ℕ) : (y + 3) / 4 + (y + 399) / 400 + y / 100 = (y + 99) / 100 + y / 4 + y / 100 / 4 + if isLeap y then 0 else 1 := by
  have h400 : y / 100 / 4 = y / 400 := by omega
  rw [h400]
  rcases leap_cases y with ⟨hl, h4, h5⟩ | ⟨hl, h5⟩ <;> rw [hl]
  · have e4 : (y + 3) / 4 = y / 4 := by omega
    by_cases h100 : y % 100 = 0
    · have := h5 h100
      have e100 : (y + 99) / 100 = y / 100 := by omega
      have e400 : (y + 399) / 400 = y / 400 := by omega
      simp; omega
    · have e100 : (y + 99) / 100 = y / 100 + 1 := by omega
      have e400 : (y + 399) / 400 = y / 400 + 1 := by omega
      simp; omega
  · by_cases h4 : y % 4 = 0
    · obtain ⟨h100, h401⟩ := h5 h4
      have e4 : (y + 3) / 4 = y / 4 := by omega
      have e100 : (y + 99) / 100 = y / 100 := by omega
      have e400 : (y + 399) / 400 = y / 400 + 1 := by omega
      simp; omega
    · have e4 : (y + 3) / 4 = y / 4 + 1 := by omega
      have e100 : (y + 99) / 100 = y / 100 + 1 := by omega
      have e400 : (y + 399) / 400 = y / 400 + 1 := by omega
      simp; omega

/-- The integers of `calcJD`. -/
theorem julian_integer (y m k : ℕ) (hy : 1 ≤ y) (h1 : 1 ≤ m) (h2 : m ≤ 12) (h3 : 1 ≤ k) :
    1461 * ((if m ≤ 2 then (y : ℤ) - 1 else y) + 4716) / 4
      + (if m ≤ 2 then 30 * (m + 13 : ℤ) + (6 * (m + 13)) / 10 else 30 * (m + 1 : ℤ) + (6 * (m + 1)) / 10) + (k : ℤ)
      + (2 - (if m ≤ 2 then (y : ℤ) - 1 else y) / 100 + (if m ≤ 2 then (y : ℤ) - 1 else y) / 100 / 4)
      = (Date.number ⟨y, m, k⟩ : ℤ) + 1722584 := by
  have hc := daysBeforeYear_closed y
  simp only [Date.number, Nat.cast_add]
  generalize daysBeforeYear y = q at hc
  have hf := ceil_floor y
  by_cases hm : m ≤ 2
  · have e4 : (y + 3) / 4 = (y - 1) / 4 + 1 := by omega
    have e100 : (y + 99) / 100 = (y - 1) / 100 + 1 := by omega
    have e400 : (y + 399) / 400 = (y - 1) / 100 / 4 + 1 := by omega
    clear hf
    interval_cases m <;> simp [daysBeforeMonth, daysInMonth] <;> omega
  · have hy4 : 1461 * ((y : ℤ) + 4716) / 4 = 365 * y + y / 4 + 1722519 := by omega
    have hq : (q : ℤ) = 365 * y + y / 4 - y / 100 + y / 100 / 4 + if isLeap y then 0 else 1 := by
      split_ifs at hf ⊢ <;> omega
    simp only [if_neg hm, hy4, hq]
    clear hf hc hy4 hq
    cases hl : isLeap y <;> interval_cases m <;> simp [daysBeforeMonth, daysInMonth, hl] at hm ⊢ <;> omega

theorem calcJD_eq (y m k : ℕ) (hy : 1 ≤ y) (h1 : 1 ≤ m) (h2 : m ≤ 12) (h3 : 1 ≤ k) :
    calcJD y m k = (Date.number ⟨y, m, k⟩ : ℝ) + 1721059.5 := by
  have key := julian_integer y m k hy h1 h2 h3
  have ht : ∀ a b : ℤ, 0 ≤ a → Int.tdiv a b = a / b := fun a b h => Int.tdiv_eq_ediv_of_nonneg h
  have h0 : (0 : ℤ) ≤ if m ≤ 2 then (y : ℤ) - 1 else y := by split_ifs <;> omega
  simp only [calcJD]
  rw [floor_years, floor_months m h1 h2, ht _ 100 h0, ht _ 4 (Int.ediv_nonneg h0 (by norm_num))]
  generalize Date.number ⟨y, m, k⟩ = q at key
  generalize (if m ≤ 2 then (y : ℤ) - 1 else y) = a at key
  generalize (if m ≤ 2 then 30 * (m + 13 : ℤ) + (6 * (m + 13)) / 10 else 30 * (m + 1 : ℤ) + (6 * (m + 1)) / 10) = b at key
  have := congrArg (Int.cast : ℤ → ℝ) key
  simp only [Int.cast_add, Int.cast_sub, Int.cast_natCast, Int.cast_ofNat] at this ⊢
  norm_num
  linarith

/-- `calcJD` is the Julian day at midnight: days since 1 January of the year nought and 1721059.5. -/
theorem c179_julian (d : Date) (hy : 1 ≤ d.year) (hd : d.Valid) : calcJD d.year d.month d.day = (d.number : ℝ) + 1721059.5 :=
  calcJD_eq d.year d.month d.day hy hd.1 hd.2.1 hd.2.2.1

example : (⟨2000, 1, 1⟩ : Date).Valid ∧ calcJD 2000 1 1 = 2451544.5 := by
  refine ⟨by decide, ?_⟩
  have h := c179_julian ⟨2000, 1, 1⟩ (by norm_num) (by decide)
  have hc := daysBeforeYear_closed 2000
  have hn : Date.number ⟨2000, 1, 1⟩ = 730485 := by
    simp only [Date.number, daysBeforeMonth]
    generalize daysBeforeYear 2000 = q at hc
    omega
  rw [hn] at h
  norm_num at h ⊢
  exact h

/-- `jday` is the Julian day from noon on the day of the year. -/
theorem c179_jday (y : ℕ) (hy : 1 ≤ y) (k : ℤ) : jday y k = (Date.number ⟨y, 1, 1⟩ : ℤ) + (k - 1) + 1721060 := by
  have hc := daysBeforeYear_closed y
  have ht : ∀ a b : ℤ, 0 ≤ a → Int.tdiv a b = a / b := fun a b h => Int.tdiv_eq_ediv_of_nonneg h
  simp only [jday, Date.number, daysBeforeMonth]
  have hl : Int.tdiv (1 - 14 : ℤ) 12 = -1 := by decide
  rw [hl, ht _ 4 (by omega), ht _ 12 (by omega), ht (_ + _ + _) 100 (by omega), ht _ 4 (by omega)]
  omega

/-- `jd` with a day of the year is the Julian day from noon on that day, for the years from 1901 to 2100 and for no others. -/
theorem c179_jd (y : ℕ) (k : ℤ) :
    jd y 1 k = (Date.number ⟨y, 1, 1⟩ : ℤ) + (k - 1) + 1721060 ↔ 1901 ≤ y ∧ y ≤ 2100 := by
  have hc := daysBeforeYear_closed y
  have ha : (y + 399) / 400 = ((y + 99) / 100 + 3) / 4 := by omega
  have hb : 7 * (y + (1 + 9) / 12) / 4 + (y + 3) / 4 = 2 * y := by omega
  simp only [jd, Date.number, daysBeforeMonth]
  generalize daysBeforeYear y = q at hc
  rw [ha] at hc
  constructor
  · intro h
    have h15 : (y + 99) / 100 = 15 + ((y + 99) / 100 + 3) / 4 := by omega
    have : (y + 99) / 100 = 20 ∨ (y + 99) / 100 = 21 := by clear hc h hb ha; omega
    clear hc h hb ha h15
    omega
  · intro h
    have : (y + 99) / 100 = 20 ∨ (y + 99) / 100 = 21 := by clear hc hb ha; omega
    rcases this with e | e <;> rw [e] at hc <;> clear ha e h <;> norm_num at hc <;> omega

end Verif.Eustace.LandSun
