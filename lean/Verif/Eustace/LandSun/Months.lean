import Verif.Eustace.LandSun.Dates
import Mathlib.Tactic.IntervalCases

/-!
C179: the function `jd` in all months.
-/

namespace Verif.Eustace.LandSun

open Verif.Calendar

/-- `jd` with a month and a day is the Julian day from noon on that day, in all months of the years from 1901 to 2099. -/
theorem c179_jd_months (y m : ℕ) (k : ℤ) (hy : 1901 ≤ y ∧ y ≤ 2099) (hm : 1 ≤ m ∧ m ≤ 12) :
    jd y m k = (Date.number ⟨y, m, 1⟩ : ℤ) + (k - 1) + 1721060 := by
  have h1 := (c179_jd y k).2 ⟨hy.1, by omega⟩
  have hleap : isLeap y = decide (y % 4 = 0) := by
    unfold isLeap
    by_cases h4 : y % 4 = 0 <;> by_cases h100 : y % 100 = 0 <;> by_cases h400 : y % 400 = 0 <;>
      simp [h4, h100, h400] <;> omega
  simp only [jd, Date.number, daysBeforeMonth] at h1 ⊢
  obtain ⟨a, r, ha, hr⟩ : ∃ a r, y = 4 * a + r ∧ r < 4 := ⟨y / 4, y % 4, by omega, by omega⟩
  have e0 : 7 * (y + 0) / 4 = 7 * a + 7 * r / 4 := by omega
  have e1 : 7 * (y + 1) / 4 = 7 * a + 7 * (r + 1) / 4 := by omega
  have hl : isLeap y = decide (r = 0) := by
    rw [hleap]
    congr 1
    exact propext ⟨fun h => by omega, fun h => by omega⟩
  obtain ⟨m1, m2⟩ := hm
  have h0 : (1 + 9) / 12 = 0 := by decide
  rw [h0, e0] at h1
  generalize daysBeforeYear y = q at h1 ⊢
  have hmm : (m + 9) / 12 = if m < 3 then 0 else 1 := by split <;> omega
  have hq : 7 * (y + (m + 9) / 12) / 4 = if m < 3 then 7 * a + 7 * r / 4 else 7 * a + 7 * (r + 1) / 4 := by
    rw [hmm]; split
    · exact e0
    · exact e1
  rw [hq]
  clear hq hmm e0 e1 hleap hy ha
  interval_cases r <;> simp only [decide_true, reduceCtorEq, decide_false] at hl <;>
    interval_cases m <;> norm_num [daysBeforeMonth, daysInMonth, hl] at h1 ⊢ <;> linarith

/-- In March 2100 it is a day late. -/
theorem c179_jd_2100_violated (k : ℤ) : jd 2100 3 k = (Date.number ⟨2100, 3, 1⟩ : ℤ) + (k - 1) + 1721060 + 1 := by
  have h1 := (c179_jd 2100 k).2 (by omega)
  have : isLeap 2100 = false := by decide
  simp only [jd, Date.number, daysBeforeMonth, daysInMonth, this] at h1 ⊢
  generalize daysBeforeYear 2100 = q at h1 ⊢
  norm_num at h1 ⊢
  linarith

end Verif.Eustace.LandSun
