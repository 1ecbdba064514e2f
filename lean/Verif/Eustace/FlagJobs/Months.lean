import Verif.Eustace.FlagJobs.Props
import Verif.Eustace.Dates.Props

/-! C189 for the jobs of the scripts: one for each month of some years. -/

namespace Verif.Eustace.FlagJobs
open Verif.Calendar Verif.Eustace.Dates

/-- The jobs of `submit_masking_window.sh` at their start: operation `i` has the
days of month `i` from the start of the first year
(src/eustace/postprocess/lsf/submit_masking_window.sh:45-59,
src/eustace/postprocess/window_check.py:141-143). -/
def array {F : Type} (files : Files F) (startYear endYear : Nat) : Sys F :=
  ⟨files, fun i => fresh (if i < (operationCount startYear endYear).toNat
    then (operationDates ⟨startYear, 1, 1⟩ i).map Date.number else [])⟩

variable {F : Type} {check : (Nat → Entry F) → Nat → Option F}

theorem first_valid (y : Nat) : (⟨y, 1, 1⟩ : Date).Valid := by
  have := daysInMonth_pos y 1
  refine ⟨?_, ?_, ?_, ?_⟩ <;> simp only <;> omega

/-- The days of one operation as numbers. -/
theorem days_eq (y i : Nat) : ∃ a n, (operationDates ⟨y, 1, 1⟩ i).map Date.number = List.range' a n
    ∧ ∀ d ∈ operationDates ⟨y, 1, 1⟩ i, d.Valid ∧ (⟨y, 1, 1⟩ : Date).number ≤ d.number := by
  have e : (⟨y, 1, 1⟩ : Date) = firstOf (12 * y) := by
    unfold firstOf
    have h1 : 12 * y / 12 = y := by omega
    have h2 : 12 * y % 12 = 0 := by omega
    simp [h2]
  have hc := c55_consecutive ⟨y, 1, 1⟩ (first_valid y) rfl (i + 1)
  have hall : ∀ d ∈ operationDates ⟨y, 1, 1⟩ i, d.Valid ∧ (⟨y, 1, 1⟩ : Date).number ≤ d.number := by
    intro d hd
    have hm : d ∈ (List.range (i + 1)).flatMap fun i : Nat => operationDates ⟨y, 1, 1⟩ i :=
      List.mem_flatMap.2 ⟨i, by simp, hd⟩
    rw [hc, List.mem_map] at hm
    obtain ⟨k, hk, rfl⟩ := hm
    rw [List.mem_range'_1] at hk
    refine ⟨(ofNumber_spec k).1, ?_⟩
    rw [(ofNumber_spec k).2]
    exact hk.1
  rw [e, operationDates_first]
  refine ⟨(firstOf (12 * y + i)).number, daysInMonth ((12 * y + i) / 12) ((12 * y + i) % 12 + 1), ?_, ?_⟩
  · rw [List.map_map]
    conv_rhs => rw [← List.map_id (List.range' _ _)]
    exact List.map_congr_left fun k _ => (ofNumber_spec k).2
  · rw [e, operationDates_first] at hall
    exact hall

/-- C189: the jobs of the months of any years have no day in common. -/
theorem c189_months (files : Files F) (startYear endYear : Nat) : Ready (array files startYear endYear) := by
  refine ⟨fun i => rfl, fun i => ?_, fun i j hij d hd hd' => ?_⟩
  · simp only [array, fresh]
    split
    · obtain ⟨a, n, h, _⟩ := days_eq startYear i
      rw [h]
      exact List.nodup_range'
    · exact List.nodup_nil
  · simp only [array, fresh] at hd hd'
    split at hd
    · split at hd'
      · rw [List.mem_map] at hd hd'
        obtain ⟨t, ht, rfl⟩ := hd
        obtain ⟨u, hu, hn⟩ := hd'
        obtain ⟨_, _, _, hi⟩ := days_eq startYear i
        obtain ⟨_, _, _, hj⟩ := days_eq startYear j
        have hut : u = t := by
          rw [← ofNumber_number (hj u hu).1, ← ofNumber_number (hi t ht).1, hn]
        subst hut
        have h1 := (c55_each_day_once (first_valid startYear) rfl (hi u ht).1 (hi u ht).2 i).1 ht
        have h2 := (c55_each_day_once (first_valid startYear) rfl (hi u ht).1 (hi u ht).2 j).1 hu
        omega
      · simp at hd'
    · simp at hd

/-- C189: when all jobs have ended without an error there are complete flags of
every day of the years, made from the inputs as they were at the start. -/
theorem c189_years (files : Files F) {startYear endYear : Nat} (h : startYear ≤ endYear + 1) (es : List Event)
    (hd : ∀ i < (operationCount startYear endYear).toNat,
      ((run check true (array files startYear endYear) es).jobs i).todo = [])
    (d : Date) (hv : d.Valid) (h1 : startYear ≤ d.year) (h2 : d.year ≤ endYear) :
    ∃ f, check (files false) d.number = some f
      ∧ (run check true (array files startYear endYear) es).files true d.number = .full f := by
  have hn1 : (⟨startYear, 1, 1⟩ : Date).number ≤ d.number := by
    have hm := daysBeforeYear_mono h1
    have : (⟨startYear, 1, 1⟩ : Date).number = daysBeforeYear startYear := by simp [Date.number, daysBeforeMonth]
    rw [this]
    unfold Date.number
    omega
  have hmv := hv
  obtain ⟨m1, m2, _, _⟩ := hmv
  have hi : ((12 * (d.year - startYear) + (d.month - 1) : Nat) : Int)
      = 12 * ((d.year : Int) - (⟨startYear, 1, 1⟩ : Date).year) + ((d.month : Int) - (⟨startYear, 1, 1⟩ : Date).month) := by
    simp only
    omega
  have hmem := (c55_each_day_once (first_valid startYear) rfl hv hn1 _).2 hi
  have hlt : 12 * (d.year - startYear) + (d.month - 1) < (operationCount startYear endYear).toNat := by
    rw [c55_count h]
    omega
  refine c189_finished _ (c189_months files startYear endYear) es _ (hd _ hlt) d.number ?_
  simp only [array, fresh, if_pos hlt]
  exact List.mem_map_of_mem hmem

example : Ready (array (F := Nat) (fun _ _ => .absent) 1850 2015) := c189_months _ _ _

example : (⟨2012, 2, 29⟩ : Date).Valid := by decide

end Verif.Eustace.FlagJobs
