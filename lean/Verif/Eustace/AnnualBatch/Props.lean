import Verif.Eustace.AnnualBatch.Lemmas
import Verif.Eumopps.Placeholder.Spec

/-! C63: batches of a year are given the days of the year and one file for each of them. -/

namespace Verif.Eustace.AnnualBatch

open Verif Verif.Py Verif.Calendar Verif.Eumopps.Catalogue Verif.Eumopps.Placeholder Verif.Eumopps.Placeholder.Spec Verif.Eumopps.Periods
  Verif.Eumopps.Time Verif.Eumopps.Names

/-! ### Days -/

/-- **C63.** There is one list for every year from that of the start to that of the end (and an empty one more if the end is in the
last second of its year); each has the days of the year which have some time in the period, in order. -/
theorem c63_days {start stop : Int} (hs : start % secUs = 0) (he : stop % secUs = 0) (h0 : 0 ≤ stop)
    (hle : (dateOf start).year ≤ (dateOf stop).year) :
    ∃ L, dayIndices start stop = .ok L ∧
      L.length = (dateOf stop).year - (dateOf start).year + (if yearStart ((dateOf stop).year + 1) - secUs ≤ stop then 2 else 1) ∧
      ∀ (i : Nat) l, L[i]? = some l → IsDays start stop ((dateOf start).year + i) l := by
  have hy : ∀ i : Nat, (((dateOf start).year : Int) + (i : Int)).toNat = (dateOf start).year + i := fun i => by omega
  have hf : ∀ i < steps start stop, ∃ a, available start (⌊daysSince start⌋ : Int) (⌊daysSince stop⌋ : Int) (i : Int) = .ok a :=
    fun i _ => by
      obtain ⟨l, h, _⟩ := available_floor hs he start (i : Int) (by omega)
      exact ⟨l, h⟩
  obtain ⟨L, h1, h2, h3⟩ := overSteps_ok h0 hle hf
  refine ⟨L, h1, ?_, fun i l hl => ?_⟩
  · rw [h2]; unfold steps; split <;> rfl
  · have hi : i < steps start stop := by rw [← h2]; exact (List.getElem?_eq_some_iff.1 hl).1
    obtain ⟨a, ha, hb⟩ := h3 i hi
    obtain ⟨l', h, h'⟩ := available_floor hs he start (i : Int) (by omega)
    rw [hl] at ha
    injection ha with ha
    rw [hb] at h
    injection h with h
    rw [ha, h, ← hy]
    exact h'

theorem pairwise_flatten_lt {L : List (List Int)} (h1 : ∀ l ∈ L, l.Pairwise (· < ·))
    (h2 : ∀ (i j : Nat) l l', i < j → L[i]? = some l → L[j]? = some l' → ∀ a ∈ l, ∀ b ∈ l', a < b) : L.flatten.Pairwise (· < ·) := by
  rw [List.pairwise_flatten]
  refine ⟨h1, ?_⟩
  rw [List.pairwise_iff_getElem]
  intro i j hi hj hij a ha b hb
  exact h2 i j _ _ hij (List.getElem?_eq_getElem hi) (List.getElem?_eq_getElem hj) a ha b hb

theorem dayStart_lt {a b : Int} : dayStart a < dayStart b ↔ a < b := by
  rw [dayStart_eq, dayStart_eq]
  generalize epoch = E
  omega

theorem yearStart_mono {a b : Nat} (h : a ≤ b) : yearStart a ≤ yearStart b := by
  induction h with
  | refl => exact le_refl _
  | step _ ih =>
    refine le_trans ih ?_
    have := yearStart_gap (by assumption)
    have hs : (0 : Int) ≤ secUs := by decide
    linarith

/-- A day lies in one year. -/
theorem day_in_year {D : Int} (h : 0 ≤ dayStart D) :
    yearStart (dateOf (dayStart D)).year ≤ dayStart D ∧ dayStart D < yearStart ((dateOf (dayStart D)).year + 1) := year_bounds h

theorem year_mono {s t : Int} (hs : 0 ≤ s) (h : s ≤ t) : (dateOf s).year ≤ (dateOf t).year := by
  have a := (year_bounds hs).1
  have b := (year_bounds (le_trans hs h)).2
  by_contra hc
  have := yearStart_mono (show (dateOf t).year + 1 ≤ (dateOf s).year by omega)
  linarith

/-- **C63.** Together the lists have every day with some time in the period once, in order. -/
theorem c63_all_days {start stop : Int} (hs : start % secUs = 0) (he : stop % secUs = 0) (hp : 0 ≤ start) (hle : start ≤ stop) :
    ∃ L, dayIndices start stop = .ok L ∧ L.flatten.Pairwise (· < ·) ∧
      ∀ D, D ∈ L.flatten ↔ start < dayStart (D + 1) ∧ dayStart D ≤ stop := by
  obtain ⟨L, h1, h2, h3⟩ := c63_days hs he (le_trans hp hle) (year_mono hp hle)
  refine ⟨L, h1, pairwise_flatten_lt ?_ ?_, fun D => ?_⟩
  · intro l hl
    obtain ⟨i, hi⟩ := List.mem_iff_getElem?.1 hl
    exact (h3 i l hi).sorted
  · intro i j l l' hij hi hj a ha b hb
    have ha := ((h3 i l hi).mem a).1 ha
    have hb := ((h3 j l' hj).mem b).1 hb
    rw [← dayStart_lt]
    have := yearStart_mono (show (dateOf start).year + i + 1 ≤ (dateOf start).year + j by omega)
    linarith [ha.1.2, hb.1.1]
  · constructor
    · intro h
      obtain ⟨l, hl, hD⟩ := List.mem_flatten.1 h
      obtain ⟨i, hi⟩ := List.mem_iff_getElem?.1 hl
      exact (((h3 i l hi).mem D).1 hD).2
    · intro h
      -- the day is in the year of its start, and this is one of the years
      have hn : yearStart (dateOf start).year ≤ dayStart D := by
        have a := (year_bounds hp).1
        have b := h.1
        have m := yearStart_mod (dateOf start).year
        rw [dayStart_eq] at b ⊢
        have e := epoch_mod'
        generalize yearStart (dateOf start).year = Y at *
        generalize epoch = E at *
        omega
      have hD0 : 0 ≤ dayStart D := le_trans (yearStart_nonneg _) hn
      obtain ⟨a, b⟩ := day_in_year hD0
      have y1 : (dateOf start).year ≤ (dateOf (dayStart D)).year := by
        by_contra hc
        have := yearStart_mono (show (dateOf (dayStart D)).year + 1 ≤ (dateOf start).year by omega)
        linarith
      have y2 : (dateOf (dayStart D)).year ≤ (dateOf stop).year := year_mono hD0 h.2
      have hi : (dateOf (dayStart D)).year - (dateOf start).year < L.length := by rw [h2]; split <;> omega
      have hm := (h3 _ _ (List.getElem?_eq_getElem hi)).mem D
      rw [show (dateOf start).year + ((dateOf (dayStart D)).year - (dateOf start).year) = (dateOf (dayStart D)).year by omega] at hm
      exact List.mem_flatten.2 ⟨_, List.getElem_mem hi, hm.2 ⟨⟨a, b⟩, h⟩⟩

theorem numberToDays_int (D : Int) : numberToDays epoch (D : ℚ) = dayStart D := by
  have h := (c12_inverse epoch D).1
  unfold dailyTime at h
  rw [h, dayStart_eq]
  rfl

/-- **C63.** The times given to a batch are the starts of its days. -/
theorem c63_times {start stop : Int} (hs : start % secUs = 0) (he : stop % secUs = 0) (h0 : 0 ≤ stop)
    (hle : (dateOf start).year ≤ (dateOf stop).year) :
    ∃ L, dayIndices start stop = .ok L ∧ dayTimes start stop = .ok (L.map fun l => l.map dayStart) := by
  have hf : ∀ i < steps start stop, ∃ a, available start (⌊daysSince start⌋ : Int) (⌊daysSince stop⌋ : Int) (i : Int) = .ok a :=
    fun i _ => by
      obtain ⟨l, h, _⟩ := available_floor hs he start (i : Int) (by omega)
      exact ⟨l, h⟩
  obtain ⟨L, h1, h2, h3⟩ := overSteps_ok h0 hle hf
  obtain ⟨L', h1', h2', h3'⟩ := overSteps_ok h0 hle
    (f := fun i : Nat => (available start (⌊daysSince start⌋ : Int) (⌊daysSince stop⌋ : Int) (i : Int)).bind
      fun days => .ok (days.map fun d : Int => numberToDays epoch (d : ℚ)))
    (fun i hi => by obtain ⟨a, ha⟩ := hf i hi; exact ⟨_, by rw [ha, bind_ok]⟩)
  refine ⟨L, h1, h1'.trans ?_⟩
  congr 1
  apply List.ext_getElem?
  intro i
  by_cases hi : i < steps start stop
  · obtain ⟨a, ha, hb⟩ := h3 i hi
    obtain ⟨a', ha', hb'⟩ := h3' i hi
    rw [hb, bind_ok] at hb'
    injection hb' with hb'
    rw [ha', List.getElem?_map, ha, ← hb']
    simp only [numberToDays_int, Option.map_some]
  · rw [List.getElem?_eq_none (by omega), List.getElem?_eq_none (by rw [List.length_map]; omega)]

end Verif.Eustace.AnnualBatch
