import Verif.Eustace.Elements.Model
import Verif.Eustace.Dates.DecimalYear
import Mathlib.Analysis.SpecialFunctions.Trigonometric.Bounds

/-!
Seasonal harmonics follow the calendar: the weights of the seasonal element (seasonal.py 107-122, 234-240) at decimal years
made from times (seasonal.py 242-258, modelled in `Dates/DecimalYear`).

Simplified: decimal years are exact rationals and harmonics are reals.
-/

namespace Verif.Eustace.Elements

open Verif Verif.Calendar Verif.Eustace.DecimalYear

/-- The specification: two times have weights of every order which differ by `order * bound` times the full circle at most. -/
def SeasonsWithin (y z : ℚ) (bound : ℚ) : Prop :=
  ∀ order : Nat, |sineHarmonic y order - sineHarmonic z order| ≤ order * (2 * Real.pi * bound) ∧
    |cosineHarmonic y order - cosineHarmonic z order| ≤ order * (2 * Real.pi * bound)

theorem within_of {y z bound : ℚ} (years : ℤ) (h : |y - z - years| ≤ bound) : SeasonsWithin y z bound := by
  intro order
  have hr : |(y : ℝ) - z - years| ≤ (bound : ℝ) := by exact_mod_cast h
  have ho : (0 : ℝ) ≤ order * (2 * Real.pi) := by have := Real.pi_pos; positivity
  have h2 : (2.0 : ℝ) = 2 := by norm_num
  have hz : (order : ℝ) * 2.0 * Real.pi * z + ((order * years : ℤ) : ℝ) * (2 * Real.pi) =
      order * (2 * Real.pi) * (z + years) := by rw [h2]; push_cast; ring
  have hy : (order : ℝ) * 2.0 * Real.pi * y = order * (2 * Real.pi) * y := by rw [h2]; ring
  have hd : |(order : ℝ) * (2 * Real.pi) * y - order * (2 * Real.pi) * (z + years)| ≤ order * (2 * Real.pi * bound) := by
    rw [← mul_sub, abs_mul, abs_of_nonneg ho, ← mul_assoc (order : ℝ) (2 * Real.pi) (bound : ℝ)]
    refine mul_le_mul_of_nonneg_left ?_ ho
    rw [← sub_sub]
    exact hr
  unfold sineHarmonic cosineHarmonic
  rw [← Real.sin_add_int_mul_two_pi (order * 2.0 * Real.pi * z) (order * years),
    ← Real.cos_add_int_mul_two_pi (order * 2.0 * Real.pi * z) (order * years), hz, hy]
  exact ⟨(Real.abs_sin_sub_sin_le _ _).trans hd, (Real.abs_cos_sub_cos_le _ _).trans hd⟩

theorem daysInYear_cases (y : Nat) : daysInYear y = 365 ∨ daysInYear y = 366 := by
  unfold daysInYear; split <;> simp

theorem daysBeforeYear_ge (y k : Nat) : daysBeforeYear y + 365 * k ≤ daysBeforeYear (y + k) := by
  induction k with
  | zero => simp
  | succ k ih =>
    rw [← Nat.add_assoc, show daysBeforeYear (y + k + 1) = daysBeforeYear (y + k) + daysInYear (y + k) from rfl]
    rcases daysInYear_cases (y + k) with h | h <;> omega

/-- The decimal year gains a year in 365 days at the quickest, and never goes back. -/
theorem decimalYear_gain {a b : Nat} (hab : a ≤ b) (hb : yearOf b < 9999) {y z : ℚ} (hya : yearOf a < 9999)
    (hy : decimalYear a = .ok y) (hz : decimalYear b = .ok z) : |z - y| ≤ ((b : ℚ) - a) / (365 * dayMicros) := by
  rw [decimalYear_eq hya] at hy
  rw [decimalYear_eq hb] at hz
  have hy' := (Except.ok.inj hy).symm
  have hz' := (Except.ok.inj hz).symm
  obtain ⟨fa0, fa1⟩ := fraction_bounds a
  obtain ⟨fb0, fb1⟩ := fraction_bounds b
  have hd : (0 : ℚ) < dayMicros := by unfold dayMicros; norm_num
  have hab' : (a : ℚ) ≤ b := by exact_mod_cast hab
  obtain ⟨a1, a2⟩ := year_bounds a
  obtain ⟨b1, b2⟩ := year_bounds b
  have hle : yearOf a ≤ yearOf b := by
    by_contra hcon
    have := Nat.mul_le_mul_right dayMicros (daysBeforeYear_mono (show yearOf b + 1 ≤ yearOf a by omega))
    omega
  have len : ∀ t, (365 : ℚ) ≤ daysInYear (yearOf t) := by
    intro t; rcases daysInYear_cases (yearOf t) with h | h <;> rw [h] <;> norm_num
  set fa := ((a : ℚ) - daysBeforeYear (yearOf a) * dayMicros) / (daysInYear (yearOf a) * dayMicros) with hfa
  set fb := ((b : ℚ) - daysBeforeYear (yearOf b) * dayMicros) / (daysInYear (yearOf b) * dayMicros) with hfb
  have la := len a
  have lb := len b
  have ea : (a : ℚ) = (daysBeforeYear (yearOf a) + fa * daysInYear (yearOf a)) * dayMicros := by
    rw [hfa]; field_simp; ring
  have eb : (b : ℚ) = (daysBeforeYear (yearOf b) + fb * daysInYear (yearOf b)) * dayMicros := by
    rw [hfb]; field_simp; ring
  clear_value fa fb
  rw [le_div_iff₀ (by positivity)]
  rcases Nat.eq_or_lt_of_le hle with he | hlt
  · rw [← he] at hz' eb
    have hf : fa ≤ fb := by
      by_contra hcon
      have : fb * daysInYear (yearOf a) < fa * daysInYear (yearOf a) :=
        mul_lt_mul_of_pos_right (not_le.mp hcon) (by linarith)
      have := mul_lt_mul_of_pos_right this hd
      nlinarith
    rw [hz', hy', abs_of_nonneg (by linarith)]
    have : (fb - fa) * 365 ≤ (fb - fa) * daysInYear (yearOf a) := mul_le_mul_of_nonneg_left la (by linarith)
    have := mul_le_mul_of_nonneg_right this hd.le
    rw [ea, eb]
    nlinarith
  · obtain ⟨k, hk⟩ := Nat.exists_eq_add_of_lt hlt
    have hN := daysBeforeYear_ge (yearOf a + 1) k
    rw [show yearOf a + 1 + k = yearOf b by omega,
      show daysBeforeYear (yearOf a + 1) = daysBeforeYear (yearOf a) + daysInYear (yearOf a) from rfl] at hN
    have hN' : (daysBeforeYear (yearOf a) : ℚ) + daysInYear (yearOf a) + 365 * k ≤ daysBeforeYear (yearOf b) := by
      exact_mod_cast hN
    have hk' : (yearOf b : ℚ) = yearOf a + k + 1 := by exact_mod_cast hk
    have hk0 : (0 : ℚ) ≤ k := by positivity
    rw [hz', hy', hk', abs_of_nonneg (by linarith)]
    have h1 : fb * 365 ≤ fb * daysInYear (yearOf b) := mul_le_mul_of_nonneg_left lb fb0
    have h2 : (1 - fa) * 365 ≤ (1 - fa) * daysInYear (yearOf a) := mul_le_mul_of_nonneg_left la (by linarith)
    rw [ea, eb, ← sub_mul, ← mul_assoc]
    refine mul_le_mul_of_nonneg_right ?_ hd.le
    linarith

/-- C191: weights of the season change slowly with time, in all years and over every new year: between two times, the weights
of an order change by the part of the circle which the time between them takes in a year of 365 days at most, times the
order. -/
theorem c191_slow {a b : Nat} (hab : a ≤ b) (hb : yearOf b < 9999) (ha : yearOf a < 9999) :
    ∃ y z, decimalYear a = .ok y ∧ decimalYear b = .ok z ∧ SeasonsWithin z y (((b : ℚ) - a) / (365 * dayMicros)) := by
  refine ⟨_, _, decimalYear_eq ha, decimalYear_eq hb, within_of 0 ?_⟩
  have := decimalYear_gain hab hb ha (decimalYear_eq ha) (decimalYear_eq hb)
  simpa using this

/-- Days before a month in any year. -/
theorem daysBeforeMonth_leap (y m : Nat) (h1 : 1 ≤ m) (h2 : m ≤ 12) :
    daysBeforeMonth y m = daysBeforeMonth 1 m + (if isLeap y ∧ 2 < m then 1 else 0) := by
  cases hl : isLeap y <;> interval_cases m <;> simp [daysBeforeMonth, daysInMonth, hl, show isLeap 1 = false from rfl]

/-- The fraction of the year of a day of the calendar. -/
theorem decimalYear_date {d : Date} (h : d.Valid) (hy : d.year < 9999) {rest : Nat} (hr : rest < dayMicros) :
    decimalYear (d.number * dayMicros + rest) = .ok ((d.year : ℚ) +
      ((daysBeforeMonth d.year d.month + (d.day - 1) : Nat) + (rest : ℚ) / dayMicros) / daysInYear d.year) := by
  have hyear := yearOf_date h hr
  rw [decimalYear_eq (by rw [hyear]; exact hy), hyear]
  have hd : (0 : ℚ) < dayMicros := by unfold dayMicros; norm_num
  have hl : (0 : ℚ) < daysInYear d.year := by rcases daysInYear_cases d.year with h | h <;> rw [h] <;> norm_num
  congr 2
  unfold Date.number
  rw [Nat.add_assoc]
  generalize daysBeforeMonth d.year d.month + (d.day - 1) = n
  push_cast
  field_simp
  ring

theorem day_fractions {n s : Nat} {r : ℚ} (hr0 : 0 ≤ r) (hr1 : r < 1) (hn : n < 365) (hs : s ≤ 1) :
    |((n + s : Nat) + r) / 366 - (n + r) / 365| ≤ 1 / 366 := by
  have h1 : (n : ℚ) + 1 ≤ 365 := by exact_mod_cast hn
  have h0 : (0 : ℚ) ≤ n := by positivity
  rw [abs_le]
  rcases Nat.le_one_iff_eq_zero_or_eq_one.mp hs with rfl | rfl <;> push_cast <;> constructor <;> linarith

/-- C191: the season of a day of the calendar is the same in all years, up to one day: at the same time of the same day of
two years, weights of an order differ by the part of the circle of one day of a leap year at most, times the order; and they
are the same if both years are leap years or neither is. -/
theorem c191_same_day {d e : Date} (hd : d.Valid) (he : e.Valid) (hm : d.month = e.month) (hday : d.day = e.day)
    (hdy : d.year < 9999) (hey : e.year < 9999) {rest : Nat} (hr : rest < dayMicros) :
    ∃ y z, decimalYear (d.number * dayMicros + rest) = .ok y ∧ decimalYear (e.number * dayMicros + rest) = .ok z ∧
      SeasonsWithin y z (if isLeap d.year = isLeap e.year then 0 else 1 / 366) := by
  have key : ∀ {d e : Date}, d.Valid → e.Valid → d.month = e.month → d.day = e.day → isLeap d.year = true →
      isLeap e.year = false →
      |((daysBeforeMonth d.year d.month + (d.day - 1) : Nat) + (rest : ℚ) / dayMicros) / daysInYear d.year -
        ((daysBeforeMonth e.year e.month + (e.day - 1) : Nat) + (rest : ℚ) / dayMicros) / daysInYear e.year| ≤ 1 / 366 := by
    intro d e hd he hm hday h1 h2
    have lt := dayOfYear_lt he
    have hpos : (0 : ℚ) < dayMicros := by unfold dayMicros; norm_num
    have hr0 : (0 : ℚ) ≤ (rest : ℚ) / dayMicros := by positivity
    have hr1 : (rest : ℚ) / dayMicros < 1 := by rw [div_lt_one hpos]; exact_mod_cast hr
    rw [daysBeforeMonth_leap _ _ hd.1 hd.2.1, daysBeforeMonth_leap _ _ he.1 he.2.1] at *
    rw [show daysInYear d.year = 366 by simp [daysInYear, h1]]
    rw [show daysInYear e.year = 365 by simp [daysInYear, h2]] at lt ⊢
    simp only [h2, Bool.false_eq_true, false_and, if_false, Nat.add_zero] at lt ⊢
    rw [hm, hday]
    have := day_fractions (s := if isLeap d.year = true ∧ 2 < e.month then 1 else 0) hr0 hr1 lt (by split <;> simp)
    rw [Nat.add_right_comm]
    exact_mod_cast this
  refine ⟨_, _, decimalYear_date hd hdy hr, decimalYear_date he hey hr,
    within_of ((d.year : ℤ) - e.year) ?_⟩
  have hsplit : ∀ p q : ℚ, (d.year : ℚ) + p - (e.year + q) - (((d.year : ℤ) - e.year : ℤ) : ℚ) = p - q := by
    intro p q; push_cast; ring
  rw [hsplit]
  cases h1 : isLeap d.year <;> cases h2 : isLeap e.year
  · rw [daysBeforeMonth_leap _ _ hd.1 hd.2.1, daysBeforeMonth_leap _ _ he.1 he.2.1]
    simp [daysInYear, h1, h2, hm, hday]
  · rw [abs_sub_comm]
    simpa using key he hd hm.symm hday.symm h2 h1
  · simpa using key hd he hm hday h1 h2
  · rw [daysBeforeMonth_leap _ _ hd.1 hd.2.1, daysBeforeMonth_leap _ _ he.1 he.2.1]
    simp [daysInYear, h1, h2, hm, hday]

/-- C191: every year begins with the season of year nought: sines have no weight and cosines have full weight. -/
theorem c191_new_year (year : Nat) (hy : year < 9999) :
    ∃ y, decimalYear ((⟨year, 1, 1⟩ : Date).number * dayMicros) = .ok y ∧
      ∀ order : Nat, sineHarmonic y order = 0 ∧ cosineHarmonic y order = 1 := by
  have hpos : 0 < dayMicros := by unfold dayMicros; norm_num
  have hv : (⟨year, 1, 1⟩ : Date).Valid := ⟨by simp, by simp, by simp, by simp [daysInMonth]⟩
  have h := decimalYear_date hv hy hpos
  rw [Nat.add_zero] at h
  refine ⟨_, h, fun order => ?_⟩
  have e : (order : ℝ) * 2.0 * Real.pi * (year : ℝ) = ((order * year : Nat) : ℝ) * (2 * Real.pi) := by
    push_cast; norm_num; ring
  unfold sineHarmonic cosineHarmonic
  simp only [daysBeforeMonth, Nat.sub_self, Nat.cast_zero, zero_div, add_zero, Rat.cast_natCast]
  rw [e]
  refine ⟨?_, Real.cos_nat_mul_two_pi _⟩
  have := Real.sin_nat_mul_pi (order * year * 2)
  rw [← this]
  congr 1
  push_cast
  ring

/-- The hypotheses are met by the first of March of a leap year and of the year after it. -/
example : (⟨2000, 3, 1⟩ : Date).Valid ∧ (⟨2001, 3, 1⟩ : Date).Valid ∧ isLeap 2000 ≠ isLeap 2001 := by decide

/-- The last microsecond of a year and the new year after it are times that meet the hypotheses of `c191_slow`. -/
example : yearOf ((⟨1999, 12, 31⟩ : Date).number * dayMicros + (dayMicros - 1)) < 9999 ∧
    yearOf ((⟨2000, 1, 1⟩ : Date).number * dayMicros + 0) < 9999 := by
  have hpos : 0 < dayMicros := by unfold dayMicros; norm_num
  rw [yearOf_date (by decide) (by omega), yearOf_date (by decide) hpos]
  decide

end Verif.Eustace.Elements
