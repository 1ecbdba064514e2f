import Verif.Eustace.MonthlyBatch.Lemmas
import Verif.Eumopps.Placeholder.Spec

/-! C149: batches of a month are given the days of the month and one file for each of them. -/

namespace Verif.Eustace.MonthlyBatch

open Verif Verif.Py Verif.Calendar Verif.Eumopps.Catalogue Verif.Eumopps.Placeholder Verif.Eumopps.Placeholder.Spec Verif.Eumopps.Periods
  Verif.Eumopps.Time Verif.Eumopps.Names
open Verif.Eustace.AnnualBatch (epoch daysSince range2 place searchsorted dateTimeOf nameToIndex policy addEntries dayStart FileOn
  Slot bind_ok Outcome policy_outcome midnight_mod epoch_mod' dayStart_eq arith_year arith_period floor_daysSince daysSince_midnight intOf_int
  mem_range2 sorted_range2 daysSince_whole searchsorted_get place_spec last_greatest pairwise_flatten_lt dayStart_lt numberToDays_int dictGet_mapM
  day_of_time arith_exact arith_exact' dateTime_midnight filename_total dictGet_filterMap nameDict' NamedSlots triples_length arith_seconds IsOutput
  dayStart_mod output_entry unique_ne_nil addEntries_append addEntries_length addEntries_spec forall₂_flatten forall₂_comp exampleOutputs
  arith_file exampleByName no_year)

/-! ### Days -/

/-- **C149.** There is one list for every month from that of the start to that of the end; each has the days of the month which have some time in the period, in order. -/
theorem c149_days {start stop : Int} (hs : start % secUs = 0) (he : stop % secUs = 0) (h0 : 0 ≤ stop)
    (hle : (monthOf start) ≤ (monthOf stop)) :
    ∃ L, dayIndices start stop = .ok L ∧
      L.length = (monthOf stop) - (monthOf start) + 1 ∧
      ∀ (i : Nat) l, L[i]? = some l → IsDays start stop ((monthOf start) + i) l := by
  have hy : ∀ i : Nat, (((monthOf start) : Int) + (i : Int)).toNat = (monthOf start) + i := fun i => by omega
  have hf : ∀ i < steps start stop, ∃ a, available start (⌊daysSince start⌋ : Int) (⌊daysSince stop⌋ : Int) (i : Int) = .ok a :=
    fun i _ => by
      obtain ⟨l, h, _⟩ := available_floor hs he start (i : Int) (by omega)
      exact ⟨l, h⟩
  obtain ⟨L, h1, h2, h3⟩ := overSteps_ok h0 he hle hf
  refine ⟨L, h1, ?_, fun i l hl => ?_⟩
  · rw [h2]; rfl
  · have hi : i < steps start stop := by rw [← h2]; exact (List.getElem?_eq_some_iff.1 hl).1
    obtain ⟨a, ha, hb⟩ := h3 i hi
    obtain ⟨l', h, h'⟩ := available_floor hs he start (i : Int) (by omega)
    rw [hl] at ha
    injection ha with ha
    rw [hb] at h
    injection h with h
    rw [ha, h, ← hy]
    exact h'

theorem monthStart_mono {a b : Nat} (h : a ≤ b) : monthStart a ≤ monthStart b := by
  induction h with
  | refl => exact le_refl _
  | step _ ih =>
    refine le_trans ih ?_
    have := monthStart_gap (by assumption)
    have hs : (0 : Int) ≤ dayUs := by decide
    linarith

/-- A day lies in one month. -/
theorem day_in_month {D : Int} (h : 0 ≤ dayStart D) :
    monthStart (monthOf (dayStart D)) ≤ dayStart D ∧ dayStart D < monthStart ((monthOf (dayStart D)) + 1) := bounds h

theorem month_mono {s t : Int} (hs : 0 ≤ s) (h : s ≤ t) : (monthOf s) ≤ (monthOf t) := by
  have a := (bounds hs).1
  have b := (bounds (le_trans hs h)).2
  by_contra hc
  have := monthStart_mono (show (monthOf t) + 1 ≤ (monthOf s) by omega)
  linarith

/-- **C149.** Together the lists have every day with some time in the period once, in order. -/
theorem c149_all_days {start stop : Int} (hs : start % secUs = 0) (he : stop % secUs = 0) (hp : 0 ≤ start) (hle : start ≤ stop) :
    ∃ L, dayIndices start stop = .ok L ∧ L.flatten.Pairwise (· < ·) ∧
      ∀ D, D ∈ L.flatten ↔ start < dayStart (D + 1) ∧ dayStart D ≤ stop := by
  obtain ⟨L, h1, h2, h3⟩ := c149_days hs he (le_trans hp hle) (month_mono hp hle)
  refine ⟨L, h1, pairwise_flatten_lt ?_ ?_, fun D => ?_⟩
  · intro l hl
    obtain ⟨i, hi⟩ := List.mem_iff_getElem?.1 hl
    exact (h3 i l hi).sorted
  · intro i j l l' hij hi hj a ha b hb
    have ha := ((h3 i l hi).mem a).1 ha
    have hb := ((h3 j l' hj).mem b).1 hb
    rw [← dayStart_lt]
    have := monthStart_mono (show (monthOf start) + i + 1 ≤ (monthOf start) + j by omega)
    linarith [ha.1.2, hb.1.1]
  · constructor
    · intro h
      obtain ⟨l, hl, hD⟩ := List.mem_flatten.1 h
      obtain ⟨i, hi⟩ := List.mem_iff_getElem?.1 hl
      exact (((h3 i l hi).mem D).1 hD).2
    · intro h
      -- the day is in the month of its start, and this is one of the months
      have hn : monthStart (monthOf start) ≤ dayStart D := by
        have a := (bounds hp).1
        have b := h.1
        have m := monthStart_mod (monthOf start)
        rw [dayStart_eq] at b ⊢
        have e := epoch_mod'
        generalize monthStart (monthOf start) = Y at *
        generalize epoch = E at *
        omega
      have hD0 : 0 ≤ dayStart D := le_trans (monthStart_nonneg _) hn
      obtain ⟨a, b⟩ := day_in_month hD0
      have y1 : (monthOf start) ≤ (monthOf (dayStart D)) := by
        by_contra hc
        have := monthStart_mono (show (monthOf (dayStart D)) + 1 ≤ (monthOf start) by omega)
        linarith
      have y2 : (monthOf (dayStart D)) ≤ (monthOf stop) := month_mono hD0 h.2
      have hi : (monthOf (dayStart D)) - (monthOf start) < L.length := by rw [h2]; omega
      have hm := (h3 _ _ (List.getElem?_eq_getElem hi)).mem D
      rw [show (monthOf start) + ((monthOf (dayStart D)) - (monthOf start)) = (monthOf (dayStart D)) by omega] at hm
      exact List.mem_flatten.2 ⟨_, List.getElem_mem hi, hm.2 ⟨⟨a, b⟩, h⟩⟩

/-- **C149.** The times given to a batch are the starts of its days. -/
theorem c149_times {start stop : Int} (hs : start % secUs = 0) (he : stop % secUs = 0) (h0 : 0 ≤ stop)
    (hle : (monthOf start) ≤ (monthOf stop)) :
    ∃ L, dayIndices start stop = .ok L ∧ dayTimes start stop = .ok (L.map fun l => l.map dayStart) := by
  have hf : ∀ i < steps start stop, ∃ a, available start (⌊daysSince start⌋ : Int) (⌊daysSince stop⌋ : Int) (i : Int) = .ok a :=
    fun i _ => by
      obtain ⟨l, h, _⟩ := available_floor hs he start (i : Int) (by omega)
      exact ⟨l, h⟩
  obtain ⟨L, h1, h2, h3⟩ := overSteps_ok h0 he hle hf
  obtain ⟨L', h1', h2', h3'⟩ := overSteps_ok h0 he hle
    (f := fun i : Nat => (available start (⌊daysSince start⌋ : Int) (⌊daysSince stop⌋ : Int) (i : Int)).bind
      fun days => .ok (days.map fun d : Int => numberToDays epoch (d : ℚ)))
    (fun i hi => by obtain ⟨a, ha⟩ := hf i hi; exact ⟨_, by rw [ha, bind_ok]⟩)
  refine ⟨L, h1, h1'.trans ?_⟩
  congr 1
  apply List.ext_getElem?
  intro i
  by_cases hi : i < steps start stop
  · obtain ⟨a, ha, hb⟩ := h3 i hi
    obtain ⟨a', ha', hb'⟩ := h3' i hi
    rw [hb, bind_ok] at hb'
    injection hb' with hb'
    rw [ha', List.getElem?_map, ha, ← hb']
    simp only [numberToDays_int, Option.map_some]
  · rw [List.getElem?_eq_none (by omega), List.getElem?_eq_none (by rw [List.length_map]; omega)]

end Verif.Eustace.MonthlyBatch
