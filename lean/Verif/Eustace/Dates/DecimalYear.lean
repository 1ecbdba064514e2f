import Verif.Calendar
import Verif.Py
import Mathlib.Data.Rat.Floor
import Mathlib.Tactic.Linarith
import Mathlib.Tactic.FieldSimp
import Mathlib.Tactic.Ring
import Mathlib.Tactic.Positivity

/-!
C93: conversion of times into decimal years.
`/repo/src/eustace/timeutils/decimaltime.py` 6-22 and `elements/seasonal.py` 242-258 (the same text).

Simplified: a `datetime` is its number of microseconds since the beginning of the calendar; float64 is replaced by the rational
numbers.
-/

namespace Verif.Eustace.DecimalYear

open Verif Verif.Calendar

/-- Microseconds of a day. -/
@[irreducible] def dayMicros : Nat := 86400 * 10 ^ 6

/-- `t_datetime.year`. -/
def yearOf (t : Nat) : Nat := (Date.ofNumber (t / dayMicros)).year

/-- `datetime(year, 1, 1)`: years after 9999 are refused. -/
def newYear (year : Nat) : Except PyErr Nat :=
  if 9999 < year then .error .valueError
  else .ok ((Date.mk year 1 1).number * dayMicros)

/-- `timedelta.total_seconds()`. -/
def totalSeconds (micros : Int) : ℚ := micros / 10 ^ 6

/-- `datetime_to_decimal_year` (decimaltime.py 6-22). -/
def decimalYear (t : Nat) : Except PyErr ℚ :=
  match newYear (yearOf t) with
  | .error e => .error e
  | .ok yearStart =>
    match newYear (yearOf t + 1) with
    | .error e => .error e
    | .ok yearEnd =>
      let tSeconds := totalSeconds (t - yearStart)
      let total := totalSeconds (yearEnd - yearStart)
      .ok (yearOf t + tSeconds / total)

/-! ### Properties -/

theorem newYear_number (y : Nat) : (Date.mk y 1 1).number = daysBeforeYear y := by
  simp [Date.number, daysBeforeMonth]

theorem year_bounds (t : Nat) :
    daysBeforeYear (yearOf t) * dayMicros ≤ t ∧ t < daysBeforeYear (yearOf t + 1) * dayMicros := by
  have hd : 0 < dayMicros := by unfold dayMicros; norm_num
  obtain ⟨hv, hn⟩ := ofNumber_spec (t / dayMicros)
  have h1 := dayOfYear_lt hv
  have h2 : t / dayMicros * dayMicros ≤ t := Nat.div_mul_le_self _ _
  have h3 : t < (t / dayMicros + 1) * dayMicros := by
    rw [Nat.mul_comm]; exact Nat.lt_mul_div_succ t hd
  unfold Date.number at hn
  unfold yearOf
  set d := Date.ofNumber (t / dayMicros)
  constructor
  · refine le_trans (Nat.mul_le_mul_right _ ?_) h2
    omega
  · refine lt_of_lt_of_le h3 (Nat.mul_le_mul_right _ ?_)
    show _ ≤ daysBeforeYear d.year + daysInYear d.year
    omega

theorem decimalYear_eq {t : Nat} (h : yearOf t < 9999) :
    decimalYear t = .ok (yearOf t + ((t : ℚ) - daysBeforeYear (yearOf t) * dayMicros) / (daysInYear (yearOf t) * dayMicros)) := by
  have hn : ∀ y ≤ 9999, newYear y = .ok (daysBeforeYear y * dayMicros) := by
    intro y hy
    unfold newYear
    rw [if_neg (by omega), newYear_number]
  unfold decimalYear
  rw [hn _ (by omega), hn _ (by omega)]
  simp only [totalSeconds]
  rw [show daysBeforeYear (yearOf t + 1) = daysBeforeYear (yearOf t) + daysInYear (yearOf t) from rfl]
  congr 2
  push_cast
  rw [div_div_div_cancel_right₀ (by norm_num)]
  congr 1
  ring

/-- The part of the year which has passed. -/
theorem fraction_bounds (t : Nat) :
    0 ≤ ((t : ℚ) - daysBeforeYear (yearOf t) * dayMicros) / (daysInYear (yearOf t) * dayMicros) ∧
      ((t : ℚ) - daysBeforeYear (yearOf t) * dayMicros) / (daysInYear (yearOf t) * dayMicros) < 1 := by
  obtain ⟨h1, h2⟩ := year_bounds t
  have hd : (0 : ℚ) < dayMicros := by unfold dayMicros; norm_num
  have hy : (0 : ℚ) < daysInYear (yearOf t) := by
    have := daysInYear_pos (yearOf t)
    exact_mod_cast (by omega : 0 < daysInYear (yearOf t))
  rw [show daysBeforeYear (yearOf t + 1) = daysBeforeYear (yearOf t) + daysInYear (yearOf t) from rfl] at h2
  have h1' : (daysBeforeYear (yearOf t) : ℚ) * dayMicros ≤ t := by exact_mod_cast h1
  have h2' : (t : ℚ) < (daysBeforeYear (yearOf t) + daysInYear (yearOf t)) * dayMicros := by exact_mod_cast h2
  constructor
  · exact div_nonneg (by linarith) (by positivity)
  · rw [div_lt_one (by positivity)]; linarith

theorem div_general (n r m : Nat) (h : r < m) : (n * m + r) / m = n := by
  rw [Nat.mul_comm, Nat.mul_add_div (by omega), Nat.div_eq_of_lt h, Nat.add_zero]

theorem yearOf_eq (t : Nat) {n : Nat} (h : t / dayMicros = n) : yearOf t = (Date.ofNumber n).year := by
  subst h
  rfl

theorem yearOf_date {d : Date} (h : d.Valid) {rest : Nat} (hr : rest < dayMicros) :
    yearOf (d.number * dayMicros + rest) = d.year := by
  rw [yearOf_eq _ (div_general d.number rest dayMicros hr), ofNumber_number h]

/-- **C93, year.**  The whole part of the decimal year is the calendar year. -/
theorem c93_floor {d : Date} (hv : d.Valid) (h : d.year < 9999) {rest : Nat} (hr : rest < dayMicros) :
    ∃ y, decimalYear (d.number * dayMicros + rest) = .ok y ∧ ⌊y⌋ = d.year := by
  have hy := yearOf_date hv hr
  refine ⟨_, decimalYear_eq (by omega), ?_⟩
  obtain ⟨h1, h2⟩ := fraction_bounds (d.number * dayMicros + rest)
  rw [hy] at h1 h2 ⊢
  rw [Int.floor_eq_iff, Int.cast_natCast]
  constructor <;> linarith

theorem yearOf_mono {a b : Nat} (h : a ≤ b) : yearOf a ≤ yearOf b := by
  by_contra hc
  have h1 := (year_bounds a).1
  have h2 := (year_bounds b).2
  have := Nat.mul_le_mul_right dayMicros (daysBeforeYear_mono (show yearOf b + 1 ≤ yearOf a by omega))
  omega

/-- **C93, order.**  Later times have larger decimal years. -/
theorem c93_increasing {a b : Nat} (h : a < b) (hb : yearOf b < 9999) :
    ∃ y z, decimalYear a = .ok y ∧ decimalYear b = .ok z ∧ y < z := by
  have hm := yearOf_mono h.le
  refine ⟨_, _, decimalYear_eq (by omega), decimalYear_eq hb, ?_⟩
  rcases Nat.lt_or_ge (yearOf a) (yearOf b) with hlt | hge
  · have h1 := (fraction_bounds a).2
    have h2 := (fraction_bounds b).1
    have : (yearOf a : ℚ) + 1 ≤ yearOf b := by exact_mod_cast hlt
    linarith
  · have he : yearOf a = yearOf b := by omega
    rw [he]
    have hd : (0 : ℚ) < dayMicros := by unfold dayMicros; norm_num
    have hy : (0 : ℚ) < daysInYear (yearOf b) := by
      have := daysInYear_pos (yearOf b)
      exact_mod_cast (by omega : 0 < daysInYear (yearOf b))
    have hab : (a : ℚ) < b := by exact_mod_cast h
    gcongr

/-- **C93, speed.**  Within a year the decimal year grows evenly, by one in all. -/
theorem c93_even {a b : Nat} (h : yearOf a = yearOf b) (hb : yearOf b < 9999) :
    ∃ y z, decimalYear a = .ok y ∧ decimalYear b = .ok z ∧
      (z - y) * (daysInYear (yearOf b) * 86400) = ((b : ℚ) - a) / 10 ^ 6 := by
  refine ⟨_, _, decimalYear_eq (by omega), decimalYear_eq hb, ?_⟩
  have hd : (dayMicros : ℚ) = 86400 * 10 ^ 6 := by unfold dayMicros; norm_num
  have hy : (daysInYear (yearOf b) : ℚ) ≠ 0 := by
    have := daysInYear_pos (yearOf b)
    exact_mod_cast (by omega : daysInYear (yearOf b) ≠ 0)
  rw [h, hd]
  field_simp
  ring

/-- **C93 fails in the last year of the calendar**, since the next one cannot be built. -/
theorem c93_last_violated {t : Nat} (h : yearOf t = 9999) : decimalYear t = .error .valueError := by
  have h1 : newYear (yearOf t + 1) = .error .valueError := by
    unfold newYear
    rw [if_pos (by omega)]
  unfold decimalYear
  rw [h1]
  generalize hs : newYear (yearOf t) = s
  cases s with
  | error e =>
    unfold newYear at hs
    rw [if_neg (by omega)] at hs
    cases hs
  | ok s => simp only

/-- A time in the middle of a leap year. -/
example : (⟨2000, 7, 2⟩ : Date).Valid ∧ (⟨2000, 7, 2⟩ : Date).year < 9999 ∧ 5 < dayMicros :=
  ⟨by decide, by norm_num, by unfold dayMicros; norm_num⟩

end Verif.Eustace.DecimalYear
