import Verif.Eustace.SurfaceAir.Spec

/-! C119: the date in the name of a file. -/

namespace Verif.Eustace.SurfaceAir

open Verif

theorem isDigit_iff (c : Char) : isDigit c = true ↔ '0' ≤ c ∧ c ≤ '9' := by
  simp [isDigit]

theorem written_facts : ∀ n : Fin 10, isDigit (written n) = true ∧ digit (written n) = n := by decide

theorem written_digit {n : ℕ} (h : n < 10) : isDigit (written n) = true ∧ digit (written n) = n := written_facts ⟨n, h⟩

theorem daysIn_iff (y m d : ℕ) : IsDate y m d ↔ 1 ≤ y ∧ y ≤ 9999 ∧ 1 ≤ m ∧ m ≤ 12 ∧ 1 ≤ d ∧ d ≤ daysIn y m := by
  have h4 : 4 ∣ y ↔ y % 4 = 0 := Nat.dvd_iff_mod_eq_zero
  have h100 : 100 ∣ y ↔ y % 100 = 0 := Nat.dvd_iff_mod_eq_zero
  have h400 : 400 ∣ y ↔ y % 400 = 0 := Nat.dvd_iff_mod_eq_zero
  simp only [IsDate, daysIn, h4, h100, h400, List.mem_cons, List.not_mem_nil, or_false]
  constructor
  · rintro ⟨a, b, c, h⟩
    refine ⟨a, b, ?_⟩
    rcases h with ⟨hm, hd⟩ | ⟨hm, hd⟩ | ⟨hm, hd⟩
    · rw [if_neg (by omega), if_neg (by omega)]
      omega
    · rw [if_neg (by omega), if_pos (by omega)]
      omega
    · rw [if_pos hm]
      split <;> omega
  · rintro ⟨a, b, c, d', e, h⟩
    refine ⟨a, b, e, ?_⟩
    split at h
    · split at h <;> omega
    · split at h <;> omega

/-- A text without eight digits in succession before a character which is no digit is passed over. -/
theorem searchPattern_skip (pre : List Char) (c : Char) (tail : List Char) (hc : isDigit c = false) :
    ¬ EightDigits pre → searchPattern (pre ++ c :: tail) = searchPattern (c :: tail) := by
  induction pre with
  | nil => intro _; rfl
  | cons a pre ih =>
    intro hno
    have hno' : ¬ EightDigits pre := by
      rintro ⟨x, w, y, h, hw⟩
      exact hno ⟨a :: x, w, y, by rw [h]; rfl, hw⟩
    rw [List.cons_append, searchPattern, if_neg, ih hno']
    intro hm
    unfold matchesHere at hm
    simp only [Bool.and_eq_true, decide_eq_true_eq] at hm
    obtain ⟨⟨⟨_, hlen⟩, hall⟩, _⟩ := hm
    by_cases hp : 8 ≤ pre.length
    · apply hno'
      refine ⟨[], pre.take 8, pre.drop 8, by simp, by simp [hp], ?_⟩
      intro d hd
      rw [List.take_append_of_le_length hp] at hall
      exact (isDigit_iff d).1 (List.all_eq_true.1 hall d hd)
    · have hmem : c ∈ (pre ++ c :: tail).take 8 := by
        rw [List.take_append]
        apply List.mem_append_right
        have : 8 - pre.length = (7 - pre.length) + 1 := by omega
        rw [this, List.take_succ_cons]
        exact List.mem_cons_self ..
      have := List.all_eq_true.1 hall c hmem
      rw [hc] at this
      cases this

/-- C119: the name of a file which ends in a date and `.nc`, has a character other than a digit or line feed before the date, and nowhere
earlier eight digits in succession, gives just that date, for every day of the years 1 to 9999. -/
theorem c119_date (pre : List Char) (c : Char) (y m d : ℕ) (hc : ¬ ('0' ≤ c ∧ c ≤ '9')) (hl : c ≠ '\n') (hpre : ¬ EightDigits pre)
    (hd : IsDate y m d) : fileDate (pre ++ c :: (dateText y m d ++ ['.', 'n', 'c'])) = .ok (y, m, d) := by
  obtain ⟨hy1, hy2, hm1, hm2, hd1, hd2⟩ := (daysIn_iff y m d).1 hd
  have hcd : isDigit c = false := by
    cases hcd : isDigit c with
    | false => rfl
    | true => exact absurd ((isDigit_iff c).1 hcd) hc
  have hd31 : d ≤ 31 := by
    have : daysIn y m ≤ 31 := by unfold daysIn; split <;> split <;> omega
    omega
  obtain ⟨a1, b1⟩ := written_digit (show y / 1000 < 10 by omega)
  obtain ⟨a2, b2⟩ := written_digit (show y / 100 % 10 < 10 by omega)
  obtain ⟨a3, b3⟩ := written_digit (show y / 10 % 10 < 10 by omega)
  obtain ⟨a4, b4⟩ := written_digit (show y % 10 < 10 by omega)
  obtain ⟨a5, b5⟩ := written_digit (show m / 10 < 10 by omega)
  obtain ⟨a6, b6⟩ := written_digit (show m % 10 < 10 by omega)
  obtain ⟨a7, b7⟩ := written_digit (show d / 10 < 10 by omega)
  obtain ⟨a8, b8⟩ := written_digit (show d % 10 < 10 by omega)
  unfold fileDate
  rw [searchPattern_skip pre c _ hcd hpre]
  unfold dateText
  generalize hw1 : written (y / 1000) = w1 at *
  generalize hw2 : written (y / 100 % 10) = w2 at *
  generalize hw3 : written (y / 10 % 10) = w3 at *
  generalize hw4 : written (y % 10) = w4 at *
  generalize hw5 : written (m / 10) = w5 at *
  generalize hw6 : written (m % 10) = w6 at *
  generalize hw7 : written (d / 10) = w7 at *
  generalize hw8 : written (d % 10) = w8 at *
  have hs : searchPattern (c :: ([w1, w2, w3, w4, w5, w6, w7, w8] ++ ['.', 'n', 'c']))
      = .ok [c, w1, w2, w3, w4, w5, w6, w7, w8, '.', 'n', 'c'] := by
    rw [searchPattern, if_pos]
    · rfl
    · simp [matchesHere, hl, a1, a2, a3, a4, a5, a6, a7, a8]
  rw [hs]
  dsimp only
  have hdig : searchDigits [c, w1, w2, w3, w4, w5, w6, w7, w8, '.', 'n', 'c'] = .ok [w1, w2, w3, w4, w5, w6, w7, w8] := by
    rw [searchDigits, if_neg (by simp [hcd]), searchDigits, if_pos (by simp [a1, a2, a3, a4, a5, a6, a7, a8])]
    rfl
  rw [hdig]
  dsimp only
  have n1 : number ([w1, w2, w3, w4, w5, w6, w7, w8].take 4) = y := by
    simp [number, b1, b2, b3, b4]
    omega
  have n2 : number (([w1, w2, w3, w4, w5, w6, w7, w8].drop 4).take 2) = m := by
    simp [number, b5, b6]
    omega
  have n3 : number (([w1, w2, w3, w4, w5, w6, w7, w8].drop 6).take 2) = d := by
    simp [number, b7, b8]
    omega
  unfold parseDate
  dsimp only
  rw [n1, n2, n3, if_pos ⟨hy1, hm1, hm2, hd1, hd2⟩]

/-- A name as in the project meets the hypotheses. -/
theorem c119_date_example : fileDate "satgrid.night.20160229.nc".toList = .ok (2016, 2, 29) := by
  have h := c119_date "satgrid.night".toList '.' 2016 2 29 (by decide) (by decide)
    (by
      rintro ⟨a, w, b, h, hw, hd⟩
      cases w with
      | nil => cases hw
      | cons c w =>
        have hc := hd c (List.mem_cons_self ..)
        have hm : c ∈ "satgrid.night".toList := by rw [h]; simp
        have hall : ∀ c ∈ "satgrid.night".toList, ¬ ('0' ≤ c ∧ c ≤ '9') := by decide
        exact hall c hm hc)
    (by unfold IsDate; norm_num)
  exact h

/-- C119 is violated for names with a digit just before the date: the date is one place off, here 1200-11-23 in place of 2001-12-31. -/
theorem c119_date_violated : fileDate "day120011231.nc".toList = .ok (1200, 11, 23) := by
  rfl

/-- C119 is violated for dates in names of directories: `/20150101_nc/` comes before the date of the file. -/
theorem c119_directory_violated : fileDate "/20150101_nc/day.20160101.nc".toList = .ok (2015, 1, 1) := by
  rfl

/-- C119: a name without a date stops the run. -/
theorem c119_no_date : fileDate "day.nc".toList = .error .attributeError := by
  rfl

end Verif.Eustace.SurfaceAir
