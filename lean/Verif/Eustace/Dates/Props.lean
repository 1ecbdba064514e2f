import Verif.Eustace.Dates.Model
import Verif.PyLemmas

/-! Properties C55 and C68. -/
namespace Verif.Eustace.Dates
open Verif Verif.Calendar

theorem addDays_number (d : Date) {k : Int} (h : 0 ≤ (d.number : Int) + k) : ((addDays d k).number : Int) = d.number + k := by
  unfold addDays; rw [(ofNumber_spec _).2]; omega

theorem addDays_valid (d : Date) (k : Int) : (addDays d k).Valid := (ofNumber_spec _).1

/-- The dates of operation `i` from the first of a month: all days of the `i`-th month. -/
theorem operationDates_first (o i : Nat) :
    operationDates (firstOf o) i =
      (List.range' (firstOf (o + i)).number (daysInMonth ((o + i) / 12) ((o + i) % 12 + 1))).map Date.ofNumber := by
  unfold operationDates
  simp only
  rw [addMonths_firstOf o (by omega)]
  have e1 : ((o : Int) + i).toNat = o + i := by omega
  rw [e1, addMonths_firstOf (o + i) (by omega)]
  have e2 : (((o + i : Nat) : Int) + 1).toNat = o + i + 1 := by omega
  rw [e2]
  have hs := firstOf_succ (o + i)
  have hp := daysInMonth_pos ((o + i) / 12) ((o + i) % 12 + 1)
  have hl := addDays_number (firstOf (o + i + 1)) (k := -1) (by omega)
  rw [hl]
  have e3 : (((firstOf (o + i + 1)).number : Int) + -1 - (firstOf (o + i)).number + 1).toNat =
      daysInMonth ((o + i) / 12) ((o + i) % 12 + 1) := by omega
  rw [e3, List.range'_eq_map_range, List.map_map]
  apply List.map_congr_left
  intro k _
  simp only [addDays, Function.comp]
  congr 1

/-- **C55.** For a reference date on the first of a month the dates of operations 0, …, n−1, concatenated, are the
consecutive days from the reference date on up to (not including) the date `n` months later: no day is missed, repeated or
out of order. -/
theorem c55_consecutive (reference : Date) (hv : reference.Valid) (h1 : reference.day = 1) (n : Nat) :
    ((List.range n).flatMap fun i : Nat => operationDates reference i) =
      (List.range' reference.number ((addMonths reference n).number - reference.number)).map Date.ofNumber := by
  have hn : 0 ≤ reference.ord := by unfold Date.ord; have := hv.1; omega
  rw [eq_firstOf hv h1]
  generalize reference.ord.toNat = o
  rw [addMonths_firstOf o (by omega)]
  have e1 : ((o : Int) + n).toNat = o + n := by omega
  rw [e1]
  induction n with
  | zero => simp
  | succ n ih =>
    rw [List.range_succ, List.flatMap_append, ih (by omega), List.flatMap_singleton, operationDates_first, ← List.map_append]
    congr 1
    have hs := firstOf_succ (o + n)
    have hle := firstOf_le (show o ≤ o + n by omega)
    have e2 : (firstOf (o + n)).number = (firstOf o).number + 1 * ((firstOf (o + n)).number - (firstOf o).number) := by omega
    have e3 : o + (n + 1) = o + n + 1 := by omega
    rw [e3, hs]
    have e4 : (firstOf (o + n)).number + daysInMonth ((o + n) / 12) ((o + n) % 12 + 1) - (firstOf o).number =
        ((firstOf (o + n)).number - (firstOf o).number) + daysInMonth ((o + n) / 12) ((o + n) % 12 + 1) := by omega
    rw [e4, ← List.range'_append]
    congr 1
    rw [← e2]

/-- **C55.** Every day from the reference date on belongs to exactly one operation, namely that of its calendar month. -/
theorem c55_each_day_once {reference d : Date} (hv : reference.Valid) (h1 : reference.day = 1) (hd : d.Valid)
    (hle : reference.number ≤ d.number) (i : Nat) :
    d ∈ operationDates reference i ↔ (i : Int) = 12 * ((d.year : Int) - reference.year) + ((d.month : Int) - reference.month) := by
  have hn : 0 ≤ reference.ord := by unfold Date.ord; have := hv.1; omega
  have hro : reference = firstOf reference.ord.toNat := eq_firstOf hv h1
  have key : d ∈ operationDates reference i ↔ d.ord = ((reference.ord.toNat + i : Nat) : Int) := by
    rw [ord_iff hd, firstOf_succ]
    rw [hro, operationDates_first, ← hro]
    rw [List.mem_map]
    constructor
    · rintro ⟨k, hk, rfl⟩
      rw [List.mem_range'_1] at hk
      rw [(ofNumber_spec k).2]; omega
    · intro ⟨ha, hb⟩
      exact ⟨d.number, by rw [List.mem_range'_1]; omega, ofNumber_number hd⟩
  rw [key]
  unfold Date.ord at *
  omega

/-- **C55.** The number of operations of a range of years. -/
theorem c55_count {startYear endYear : Nat} (h : startYear ≤ endYear + 1) :
    operationCount startYear endYear = 12 * ((endYear : Int) + 1 - startYear) := by
  have hv : (⟨endYear, 12, 31⟩ : Date).Valid := by
    refine ⟨?_, ?_, ?_, ?_⟩ <;> simp [daysInMonth]
  have hnum : (⟨endYear, 12, 31⟩ : Date).number + 1 = (firstOf (12 * (endYear + 1))).number := by
    have hs := firstOf_succ (12 * endYear + 11)
    have e1 : (12 * endYear + 11) / 12 = endYear := by omega
    have e2 : (12 * endYear + 11) % 12 = 11 := by omega
    have e3 : 12 * endYear + 11 + 1 = 12 * (endYear + 1) := by omega
    rw [e1, e2, e3] at hs
    have hd : daysInMonth endYear (11 + 1) = 31 := by simp [daysInMonth]
    rw [hs, hd]
    unfold firstOf Date.number
    rw [e1, e2]
    simp only [Nat.reduceAdd, Nat.reduceSub]
  have hadd : addDays ⟨endYear, 12, 31⟩ 1 = firstOf (12 * (endYear + 1)) := by
    unfold addDays
    have : (((⟨endYear, 12, 31⟩ : Date).number : Int) + 1).toNat = (firstOf (12 * (endYear + 1))).number := by omega
    rw [this, ofNumber_number (firstOf_valid _)]
  have hfirst : (⟨startYear, 1, 1⟩ : Date) = firstOf (12 * startYear) := by
    unfold firstOf; congr 1 <;> omega
  unfold operationCount
  simp only
  rw [hadd, hfirst]
  unfold monthDifference
  simp only
  have hk : (((firstOf (12 * (endYear + 1))).year : Int) - (firstOf (12 * startYear)).year) * 12 +
      (((firstOf (12 * (endYear + 1))).month : Int) - (firstOf (12 * startYear)).month) = 12 * ((endYear : Int) + 1 - startYear) := by
    unfold firstOf; simp only; omega
  rw [hk]
  have hadj : adjustMonths (firstOf (12 * (endYear + 1))) (firstOf (12 * startYear))
      (decide ((firstOf (12 * (endYear + 1))).number < (firstOf (12 * startYear)).number)) 12
      (12 * ((endYear : Int) + 1 - startYear)) = 12 * ((endYear : Int) + 1 - startYear) := by
    unfold adjustMonths
    rw [addMonths_firstOf _ (by omega)]
    have : (((12 * startYear : Nat) : Int) + 12 * ((endYear : Int) + 1 - startYear)).toNat = 12 * (endYear + 1) := by omega
    rw [this, if_neg (by omega), if_neg (by omega)]
  rw [hadj]
  have := (splitMonths_sum (12 * ((endYear : Int) + 1 - startYear))).1
  omega

/-- **C55.** Together: running all operations of a range of years, from the first of January of the first year, treats
exactly the days of those years, each once and in order. -/
theorem c55_years {startYear endYear : Nat} (h : startYear ≤ endYear + 1) :
    ((List.range (operationCount startYear endYear).toNat).flatMap fun i : Nat => operationDates ⟨startYear, 1, 1⟩ i) =
      (List.range' (daysBeforeYear startYear) (daysBeforeYear (endYear + 1) - daysBeforeYear startYear)).map Date.ofNumber := by
  have hv : (⟨startYear, 1, 1⟩ : Date).Valid := by
    have := daysInMonth_pos startYear 1
    refine ⟨?_, ?_, ?_, ?_⟩ <;> simp only <;> omega
  have hfirst : ∀ y : Nat, (⟨y, 1, 1⟩ : Date) = firstOf (12 * y) := by
    intro y; unfold firstOf; congr 1 <;> omega
  have hnum : ∀ y : Nat, (⟨y, 1, 1⟩ : Date).number = daysBeforeYear y := by
    intro y; simp [Date.number, daysBeforeMonth]
  rw [c55_consecutive _ hv rfl, hnum, c55_count h]
  have e : addMonths ⟨startYear, 1, 1⟩ ((12 * ((endYear : Int) + 1 - startYear)).toNat : Int) = ⟨endYear + 1, 1, 1⟩ := by
    rw [hfirst, hfirst, addMonths_firstOf _ (by omega)]
    congr 1; omega
  rw [e, hnum]

/-- **C55, why the reference must be the first of a month.** From the 31st of January the last days of March belong to no
operation: the second operation ends on 27 March and the third begins on the 31st. -/
theorem c55_not_first_violated :
    (operationDates ⟨2001, 1, 31⟩ 1).getLast? = some ⟨2001, 3, 27⟩ ∧
    (operationDates ⟨2001, 1, 31⟩ 2).head? = some ⟨2001, 3, 31⟩ := by decide +kernel

example : (⟨1850, 1, 1⟩ : Date).Valid ∧ operationCount 1850 1851 = 24 := ⟨by decide, by rw [c55_count (by omega)]; rfl⟩

/-! ### Mid-month steps -/

theorem midMonthTime_first (epoch : Date) (i : Nat) : (midMonthTime epoch i).1 = firstOf (12 * epoch.year + i) := by
  unfold midMonthTime firstOf; simp only; congr 1; omega

theorem midMonthDate_ord (epoch : Date) (i : Nat) :
    (midMonthDate epoch i).Valid ∧ (midMonthDate epoch i).ord = ((12 * epoch.year + i : Nat) : Int) := by
  refine ⟨addDays_valid _ _, ?_⟩
  rw [ord_iff (show (midMonthDate epoch i).Valid from addDays_valid _ _)]
  have hs := firstOf_succ (12 * epoch.year + i)
  have hp := daysInMonth_pos ((12 * epoch.year + i) / 12) ((12 * epoch.year + i) % 12 + 1)
  have h1 : (⟨(12 * epoch.year + i) / 12, 1 + (12 * epoch.year + i) % 12, 1⟩ : Date) = firstOf (12 * epoch.year + i) := by
    unfold firstOf; congr 1; omega
  have h2 : (⟨(12 * epoch.year + i + 1) / 12, 1 + (12 * epoch.year + i + 1) % 12, 1⟩ : Date) =
      firstOf (12 * epoch.year + i + 1) := by
    unfold firstOf; congr 1; omega
  have ht : midMonthTime epoch i = (firstOf (12 * epoch.year + i),
      ((firstOf (12 * epoch.year + i + 1)).number - (firstOf (12 * epoch.year + i)).number) * 24 / 2) := by
    unfold midMonthTime; simp only; rw [h1, h2]
  have hnum := addDays_number (midMonthTime epoch i).1 (k := ((midMonthTime epoch i).2 / 24 : Nat)) (by omega)
  unfold midMonthDate
  rw [ht] at hnum ⊢
  simp only at hnum ⊢
  omega

/-- **C68.** For an epoch in January, the time of step `i` is assigned back to step `i`. -/
theorem c68_january_partial {epoch : Date} (h : epoch.month = 1) (n i : Nat) :
    midMonthIndices epoch n (some (midMonthDate epoch i)) = [(i : Int)] := by
  obtain ⟨hv, ho⟩ := midMonthDate_ord epoch i
  unfold midMonthIndices
  simp only [List.cons.injEq, and_true]
  unfold Date.ord at ho
  rw [h]
  omega

/-- **C68, negative result.** For any other month of the epoch every step's time is assigned to a different step: the output
time uses only the year of the epoch, the input lookup also its month. -/
theorem c68_violated {epoch : Date} (hv : epoch.Valid) (h : epoch.month ≠ 1) (n i : Nat) :
    midMonthIndices epoch n (some (midMonthDate epoch i)) ≠ [(i : Int)] := by
  obtain ⟨_, ho⟩ := midMonthDate_ord epoch i
  have := hv.1
  unfold midMonthIndices
  intro hc
  simp only [List.cons.injEq, and_true] at hc
  unfold Date.ord at ho
  omega

example : (⟨1850, 4, 1⟩ : Date).Valid ∧ midMonthIndices ⟨1850, 4, 1⟩ 5 (some (midMonthDate ⟨1850, 4, 1⟩ 3)) = [0] := by
  decide +kernel

end Verif.Eustace.Dates
