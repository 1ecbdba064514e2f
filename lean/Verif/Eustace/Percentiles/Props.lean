import Verif.Eustace.Percentiles.Model
import Verif.Eustace.Flags.Props

/-! Properties of the location percentiles: C74. -/
namespace Verif.Eustace.Percentiles
open Verif Verif.Calendar
open Verif.Eustace.Flags (sameDay addYears_sameDay)

theorem jan1_valid : (⟨referenceYear, 1, 1⟩ : Date).Valid := by decide

theorem referenceTime_valid (k : Nat) : (referenceTime k).Valid := (ofNumber_spec _).1

theorem referenceTime_number (k : Nat) : (referenceTime k).number = (⟨referenceYear, 1, 1⟩ : Date).number + k := by
  unfold referenceTime addDays
  rw [(ofNumber_spec _).2]; omega

/-- The days of a month's run are the days of that month of the reference year. -/
theorem mem_calendarDays {month : Nat} (h1 : 1 ≤ month) (h2 : month ≤ 12) (k : Nat) :
    k ∈ calendarDays month ↔ (referenceTime k).year = referenceYear ∧ (referenceTime k).month = month := by
  have hs : (⟨referenceYear, month, 1⟩ : Date) = firstOf (12 * referenceYear + (month - 1)) := by
    unfold firstOf; congr 1 <;> omega
  have he : (if month ≠ 12 then (⟨referenceYear, month + 1, 1⟩ : Date) else ⟨referenceYear + 1, 1, 1⟩) =
      firstOf (12 * referenceYear + (month - 1) + 1) := by
    unfold firstOf
    split
    · congr 1 <;> omega
    · congr 1 <;> omega
  have h0 : (⟨referenceYear, 1, 1⟩ : Date) = firstOf (12 * referenceYear) := by
    unfold firstOf; congr 1 <;> omega
  have hlt := firstOf_lt (show 12 * referenceYear + (month - 1) < 12 * referenceYear + (month - 1) + 1 by omega)
  have hle := firstOf_le (show 12 * referenceYear ≤ 12 * referenceYear + (month - 1) by omega)
  have hord := ord_iff (referenceTime_valid k) (12 * referenceYear + (month - 1))
  have hv := referenceTime_valid k
  have hnum := referenceTime_number k
  have hl : (addDays (if month ≠ 12 then (⟨referenceYear, month + 1, 1⟩ : Date) else ⟨referenceYear + 1, 1, 1⟩) (-1)).number + 1 =
      (firstOf (12 * referenceYear + (month - 1) + 1)).number := by
    rw [he]; unfold addDays; rw [(ofNumber_spec _).2]; omega
  unfold calendarDays
  simp only [List.mem_range'_1]
  rw [hs, h0]
  rw [h0] at hnum
  have key : ((firstOf (12 * referenceYear + (month - 1))).number ≤ (referenceTime k).number ∧
      (referenceTime k).number < (firstOf (12 * referenceYear + (month - 1) + 1)).number) ↔
      ((referenceTime k).year = referenceYear ∧ (referenceTime k).month = month) := by
    rw [← hord]
    have m1 := hv.1
    have m2 := hv.2.1
    unfold Date.ord
    constructor
    · intro h; omega
    · rintro ⟨a, b⟩; rw [a, b]; omega
  rw [← key]
  generalize (addDays (if month ≠ 12 then (⟨referenceYear, month + 1, 1⟩ : Date) else ⟨referenceYear + 1, 1, 1⟩) (-1)).number = last at *
  omega

/-- C74: for every date there is exactly one calendar day, in the run for the month of the date and in no other run, whose
percentile file is the one the location check reads for that date; this includes 29 February. -/
theorem c74_one_file {d : Date} (hd : d.Valid) :
    ∃ k, outputKey k = inputKey d ∧ k ∈ calendarDays d.month ∧
      ∀ month k', 1 ≤ month → month ≤ 12 → k' ∈ calendarDays month → outputKey k' = inputKey d → k' = k ∧ month = d.month := by
  have hle : ∀ y m, daysInMonth y m ≤ daysInMonth referenceYear m := by
    intro y m
    unfold daysInMonth
    have : isLeap referenceYear = true := by decide
    rw [this]
    split <;> simp
    split <;> omega
  have hv : (⟨referenceYear, d.month, d.day⟩ : Date).Valid :=
    ⟨hd.1, hd.2.1, hd.2.2.1, Nat.le_trans hd.2.2.2 (hle _ _)⟩
  have hge : (⟨referenceYear, 1, 1⟩ : Date).number ≤ (⟨referenceYear, d.month, d.day⟩ : Date).number := by
    have h0 : (⟨referenceYear, 1, 1⟩ : Date) = firstOf (12 * referenceYear) := by
      unfold firstOf; congr 1 <;> omega
    rw [h0, ← le_ord_iff hv]
    unfold Date.ord; simp only
    have := hd.1; omega
  have href : ∀ k, outputKey k = inputKey d → (referenceTime k).year = referenceYear →
      k = (⟨referenceYear, d.month, d.day⟩ : Date).number - (⟨referenceYear, 1, 1⟩ : Date).number := by
    intro k hk hy
    have hn := referenceTime_number k
    have : referenceTime k = ⟨referenceYear, d.month, d.day⟩ := by
      unfold outputKey inputKey at hk
      simp only [Prod.mk.injEq] at hk
      cases hr : referenceTime k
      rw [hr] at hk hy
      simp only at hk hy
      rw [hk.1, hk.2, hy]
    rw [this] at hn
    omega
  have hrt : referenceTime ((⟨referenceYear, d.month, d.day⟩ : Date).number - (⟨referenceYear, 1, 1⟩ : Date).number) =
      ⟨referenceYear, d.month, d.day⟩ := by
    refine number_inj (referenceTime_valid _) hv ?_
    rw [referenceTime_number]; omega
  refine ⟨(⟨referenceYear, d.month, d.day⟩ : Date).number - (⟨referenceYear, 1, 1⟩ : Date).number, ?_, ?_, ?_⟩
  · unfold outputKey inputKey; rw [hrt]
  · rw [mem_calendarDays hd.1 hd.2.1, hrt]; exact ⟨rfl, rfl⟩
  · intro month k' h1 h2 hk' hkey
    obtain ⟨hy, hm⟩ := (mem_calendarDays h1 h2 k').1 hk'
    refine ⟨href k' hkey hy, ?_⟩
    unfold outputKey inputKey at hkey
    simp only [Prod.mk.injEq] at hkey
    omega

/-- C74: each percentile file is computed from one date per year of the period, the same calendar day of that year (28 February
stands in for 29 February in common years). -/
theorem c74_dates {startYear endYear : Nat} (k : Nat) (hk : (referenceTime k).year = referenceYear) :
    datesToLoad startYear endYear k =
      (List.range' startYear (endYear + 1 - startYear)).map fun y => sameDay (referenceTime k) y := by
  unfold datesToLoad
  rw [List.range'_eq_map_range, List.map_map]
  have : ((endYear : Int) - referenceYear + 1 - ((startYear : Int) - referenceYear)).toNat = endYear + 1 - startYear := by
    generalize referenceYear = y; omega
  rw [this]
  refine List.map_congr_left fun i _ => ?_
  simp only [Function.comp]
  have e : ((referenceYear : Int) + ((startYear : Int) - referenceYear + i)).toNat = startYear + i := by
    generalize referenceYear = y; omega
  rw [addYears_sameDay _ (by rw [hk]; generalize referenceYear = y; omega), hk, e]

/-- C74: every date of the period contributes to the percentile file that is read for it. -/
theorem c74_contributes {startYear endYear : Nat} {d : Date} (hd : d.Valid) (h1 : startYear ≤ d.year) (h2 : d.year ≤ endYear)
    {k : Nat} (hk : k ∈ calendarDays d.month) (hkey : outputKey k = inputKey d) : d ∈ datesToLoad startYear endYear k := by
  obtain ⟨hy, _⟩ := (mem_calendarDays hd.1 hd.2.1 k).1 hk
  rw [c74_dates k hy, List.mem_map]
  refine ⟨d.year, by rw [List.mem_range'_1]; omega, ?_⟩
  unfold outputKey inputKey at hkey
  simp only [Prod.mk.injEq] at hkey
  unfold sameDay
  rw [hkey.1, hkey.2, Nat.min_eq_left hd.2.2.2]

/-- 28 February of a common year contributes to the percentiles of 29 February too. -/
example : outputKey 59 = (2, 29) ∧ 59 ∈ calendarDays 2 ∧ datesToLoad 1999 2001 59 = [⟨1999, 2, 28⟩, ⟨2000, 2, 29⟩, ⟨2001, 2, 28⟩] := by
  decide +kernel

end Verif.Eustace.Percentiles
