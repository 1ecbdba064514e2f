import Verif.Eustace.LandFiles.Model
import Verif.Eumopps.Names.Props
import Mathlib.Tactic.Ring
import Mathlib.Tactic.Linarith
import Mathlib.Tactic.NormNum

/-! Dates as texts. -/

namespace Verif.Eustace.LandFiles

open Verif Verif.Calendar Verif.Eustace.LandModel
open Verif.Eumopps.Names (pad digit pad_length pad_digits)

/-- The eight digits of a date. -/
def dateText (d : Date) : Text := pad 4 d.year ++ pad 2 d.month ++ pad 2 d.day

/-- The Julian day at noon of a date of the Gregorian calendar. -/
def dayNumber (d : Date) : ℤ := d.number + 1721060

theorem digitChar_eq (n : ℕ) (h : n < 10) : n.digitChar = digit n := by
  match n, h with
  | 0, _ | 1, _ | 2, _ | 3, _ | 4, _ | 5, _ | 6, _ | 7, _ | 8, _ | 9, _ => decide

theorem digit_mod (n : ℕ) : digit (n % 10) = digit n := by unfold digit; rw [Nat.mod_mod]

theorem decimal_small (n : ℕ) (h : n < 10) : decimal n = [digit n] := by
  unfold decimal; rw [Nat.toDigits_of_lt_base h, digitChar_eq n h]

theorem decimal_large (n : ℕ) (h : 10 ≤ n) : decimal n = decimal (n / 10) ++ [digit n] := by
  unfold decimal
  rw [Nat.toDigits_of_base_le (by norm_num) h, digitChar_eq _ (Nat.mod_lt _ (by norm_num)), digit_mod]

theorem pad_zero : ∀ k, pad k 0 = List.replicate k '0'
  | 0 => rfl
  | k + 1 => by
    simp only [pad, Nat.zero_div, pad_zero k, List.replicate_succ']
    rfl

theorem last_digits : ∀ (k n : ℕ), (List.replicate k '0' ++ decimal n).drop (decimal n).length = pad k n
  | 0, n => by simp [pad]
  | k + 1, n => by
    by_cases h : n < 10
    · have h10 : n / 10 = 0 := by omega
      rw [decimal_small n h]
      simp only [pad, h10, pad_zero, List.replicate_succ, List.cons_append, List.length_singleton, List.drop_one, List.tail_cons]
    · have ih := last_digits k (n / 10)
      rw [decimal_large n (by omega)]
      simp only [pad, List.length_append, List.length_singleton, List.replicate_succ, List.cons_append, List.drop_succ_cons]
      rw [← List.append_assoc, List.drop_append_of_le_length (by simp), ih]

theorem strmidReverse_pad (k n : ℕ) (hk : 1 ≤ k) : strmidReverse (List.replicate k '0' ++ decimal n) (k - 1) k = pad k n := by
  unfold strmidReverse
  have : (List.replicate k '0' ++ decimal n).length - 1 - (k - 1) = (decimal n).length := by
    simp only [List.length_append, List.length_replicate]; omega
  rw [this, last_digits, List.take_of_length_le (by rw [pad_length])]

theorem digit_isDigit (c : Char) (h : c ∈ ['0', '1', '2', '3', '4', '5', '6', '7', '8', '9']) : c.isDigit = true ∧ blank c = false := by
  simp only [List.mem_cons, List.not_mem_nil, or_false] at h
  rcases h with h | h | h | h | h | h | h | h | h | h <;> subst h <;> decide

theorem digit_toNat (n : ℕ) : (digit n).toNat - '0'.toNat = n % 10 := by
  unfold digit
  have h : n % 10 < 10 := by omega
  generalize n % 10 = m at h
  match m, h with
  | 0, _ | 1, _ | 2, _ | 3, _ | 4, _ | 5, _ | 6, _ | 7, _ | 8, _ | 9, _ => decide

theorem ofDigitChars_pad : ∀ (k n : ℕ), n < 10 ^ k → Nat.ofDigitChars 10 (pad k n) 0 = n
  | 0, n, h => by simp at h; subst h; simp [pad]
  | k + 1, n, h => by
    have h10 : 10 ^ (k + 1) = 10 ^ k * 10 := Nat.pow_succ 10 k
    rw [pad, Nat.ofDigitChars_append, ofDigitChars_pad k (n / 10) (by omega), Nat.ofDigitChars_cons, digit_toNat, Nat.ofDigitChars_nil]
    omega

theorem fixText_pad (k n : ℕ) (h : n < 10 ^ k) (h' : n < 32768) : fixText (pad k n) = n := by
  unfold fixText
  rw [if_pos (List.all_eq_true.2 fun c hc => (digit_isDigit c (pad_digits k n c hc)).1), ofDigitChars_pad k n h]
  unfold fix
  omega

theorem strcompress_eq (s : Text) (h : ∀ c ∈ s, blank c = false) : strcompress s = s := by
  induction s with
  | nil => rfl
  | cons c s ih =>
    rw [strcompress, h c List.mem_cons_self, ih fun c hc => h c (List.mem_cons_of_mem _ hc)]
    rfl

theorem dateText_length (d : Date) : (dateText d).length = 8 := by simp [dateText, pad_length]

theorem dateText_parts (d : Date) : strmid (dateText d) 0 4 = pad 4 d.year ∧ strmid (dateText d) 4 2 = pad 2 d.month ∧
    strmid (dateText d) 6 2 = pad 2 d.day := by
  have h4 := pad_length 4 d.year
  have h2 := pad_length 2 d.month
  have h2' := pad_length 2 d.day
  unfold dateText strmid
  refine ⟨?_, ?_, ?_⟩
  · rw [List.drop_zero, List.append_assoc, List.take_append_of_le_length (by omega), List.take_of_length_le (by omega)]
  · rw [List.append_assoc, List.drop_append_of_le_length (by omega), List.drop_of_length_le (by omega), List.nil_append,
      List.take_append_of_le_length (by omega), List.take_of_length_le (by omega)]
  · rw [List.drop_append_of_le_length (by simp [pad_length]), List.drop_of_length_le (by simp [pad_length]), List.nil_append,
      List.take_of_length_le (by omega)]

theorem valid_small (d : Date) (hd : d.Valid) : d.month < 100 ∧ d.day < 100 := by
  obtain ⟨h1, h2, h3, h4⟩ := hd
  have : daysInMonth d.year d.month ≤ 31 := by unfold daysInMonth; split_ifs <;> omega
  omega

theorem julday_eq (d : Date) (hd : d.Valid) : julday d.month d.day d.year = dayNumber d := by
  have := hd.2.2.1
  unfold julday dayNumber Date.number
  omega

theorem text_blank (d : Date) : ∀ c ∈ dateText d, blank c = false := by
  intro c hc
  unfold dateText at hc
  simp only [List.mem_append] at hc
  rcases hc with (hc | hc) | hc <;> exact (digit_isDigit c (pad_digits _ _ c hc)).2

/-- The text of a Julian day is that of its date. -/
theorem c181_text (d : Date) (hd : d.Valid) : jdToYyyymmdd (dayNumber d) = dateText d := by
  have hc : caldat (dayNumber d) = d := by
    unfold caldat dayNumber
    rw [show ((d.number : ℤ) + 1721060 - 1721060).toNat = d.number by omega]
    exact ofNumber_number hd
  unfold jdToYyyymmdd
  simp only [hc]
  unfold dateText
  rw [← strmidReverse_pad 4 d.year (by norm_num), ← strmidReverse_pad 2 d.month (by norm_num), ← strmidReverse_pad 2 d.day (by norm_num)]
  rfl

/-- The Julian day of the text of a date is that of the date. -/
theorem c181_julian_day (d : Date) (hd : d.Valid) (hy : d.year ≤ 9999) : yyyymmddToJd (dateText d) = .ok (dayNumber d) := by
  obtain ⟨hm, hk⟩ := valid_small d hd
  obtain ⟨p1, p2, p3⟩ := dateText_parts d
  unfold yyyymmddToJd
  simp only [strcompress_eq _ (text_blank d), dateText_length, p1, p2, p3]
  rw [if_neg (by simp), fixText_pad 4 d.year (by omega) (by omega), fixText_pad 2 d.month (by omega) (by omega),
    fixText_pad 2 d.day (by omega) (by omega)]
  simp only [Int.toNat_natCast]
  rw [julday_eq d hd]

/-- From a day to its text and back. -/
theorem c181_round_trip (jd : ℤ) (h0 : 1721060 ≤ jd) (h : (Date.ofNumber (jd - 1721060).toNat).year ≤ 9999) :
    yyyymmddToJd (jdToYyyymmdd jd) = .ok jd := by
  obtain ⟨hv, hn⟩ := ofNumber_spec (jd - 1721060).toNat
  have hj : dayNumber (Date.ofNumber (jd - 1721060).toNat) = jd := by unfold dayNumber; rw [hn]; omega
  have h1 := c181_text _ hv
  have h2 := c181_julian_day _ hv h
  rw [hj] at h1 h2
  rw [h1, h2]

theorem doy_eq (d : Date) (hd : d.Valid) (hy : d.year ≤ 9999) (z : Bool) :
    dateToDoy (dateText d) z = .ok (daysBeforeMonth d.year d.month + d.day - if z then 1 else 0) := by
  obtain ⟨hm, hk⟩ := valid_small d hd
  obtain ⟨p1, p2, p3⟩ := dateText_parts d
  unfold dateToDoy
  simp only [dateText_length, p1, p2, p3]
  rw [if_neg (by simp), fixText_pad 4 d.year (by omega) (by omega), fixText_pad 2 d.month (by omega) (by omega),
    fixText_pad 2 d.day (by omega) (by omega)]
  simp only [Int.toNat_natCast, julday, daysBeforeMonth]
  refine congrArg Except.ok ?_
  generalize daysBeforeYear d.year = y
  cases z <;> simp <;> ring

/-- Days of the year, from one or from nought, are the days since the first of January. -/
theorem c181_day_of_year (d : Date) (hd : d.Valid) (hy : d.year ≤ 9999) (z : Bool) :
    dateToDoy (dateText d) z = .ok ((d.number : ℤ) - (Date.number ⟨d.year, 1, 1⟩ : ℕ) + if z then 0 else 1) := by
  rw [doy_eq d hd hy z]
  have := hd.2.2.1
  simp only [Date.number, daysBeforeMonth]
  refine congrArg Except.ok ?_
  cases z <;> simp <;> omega

/-- The text of a day of the year has three digits. -/
theorem c181_day_of_year_text (d : Date) (hd : d.Valid) (hy : d.year ≤ 9999) (z : Bool) :
    ∃ n : ℕ, n < 367 ∧ (n : ℤ) = (d.number : ℤ) - (Date.number ⟨d.year, 1, 1⟩ : ℕ) + (if z then 0 else 1) ∧
      dateToDoyText (dateText d) z = .ok (pad 3 n) := by
  have hlt := dayOfYear_lt hd
  have hyear : daysInYear d.year ≤ 366 := by unfold daysInYear; split <;> omega
  have hd1 := hd.2.2.1
  have heq := c181_day_of_year d hd hy z
  have hnum : (d.number : ℤ) - (Date.number ⟨d.year, 1, 1⟩ : ℕ) = (daysBeforeMonth d.year d.month + (d.day - 1) : ℕ) := by
    simp only [Date.number, daysBeforeMonth]
    omega
  refine ⟨daysBeforeMonth d.year d.month + (d.day - 1) + (if z then 0 else 1), by cases z <;> simp <;> omega,
    by rw [hnum]; cases z <;> simp, ?_⟩
  unfold dateToDoyText
  rw [heq]
  simp only [hnum]
  have hn : (((daysBeforeMonth d.year d.month + (d.day - 1) : ℕ) : ℤ) + (if z then 0 else 1)).toNat =
      daysBeforeMonth d.year d.month + (d.day - 1) + (if z then 0 else 1) := by
    cases z <;> simp only [Bool.false_eq_true, if_true, if_false] <;> omega
  rw [hn]
  generalize hN : daysBeforeMonth d.year d.month + (d.day - 1) + (if z then 0 else 1) = n
  congr 1
  -- three digits of a text with two noughts before
  have hlen : 1 ≤ (decimal n).length := by
    have : decimal n ≠ [] := Nat.toDigits_ne_nil
    exact List.length_pos_iff.2 this
  obtain ⟨m, hm⟩ : ∃ m, (decimal n).length = m + 1 := ⟨(decimal n).length - 1, by omega⟩
  have key := last_digits 3 n
  rw [hm, show List.replicate 3 '0' = ['0', '0', '0'] from rfl] at key
  unfold strmidReverse
  rw [show (['0', '0'] ++ decimal n).length - 1 - 2 = m by simp [hm]]
  rw [show (['0', '0'] ++ decimal n).drop m = pad 3 n from key, List.take_of_length_le (by rw [pad_length])]

example : (⟨2010, 3, 22⟩ : Date).Valid := by decide

/-- Of the texts with other than eight characters `date_to_doy` refuses those with an odd number of them. -/
theorem c181_refused (s : Text) (z : Bool) : (∃ e, dateToDoy s z = .error e) ↔ s.length % 2 = 1 := by
  unfold dateToDoy
  by_cases h8 : s.length = 8
  · rw [if_neg (by rw [h8]; simp)]
    simp [h8]
  · have h1 : (1 &&& s.length) % 2 = s.length % 2 := by rw [Nat.and_comm, Nat.and_one_is_mod]; omega
    simp only [ne_eq, h8, not_false_eq_true, if_true, h1]
    by_cases h : s.length % 2 = 1
    · rw [if_pos h]; simp [h]
    · rw [if_neg h]; simp [h]

/-- Not all texts which are no dates are refused: March 2010 is taken for the last day of February. -/
theorem c181_short_violated : dateToDoy ['2', '0', '1', '0', '0', '3'] false = .ok 59 ∧
    dateToDoy (dateText ⟨2010, 2, 28⟩) false = .ok 59 := by
  constructor
  · have e1 : fixText (strmid ['2', '0', '1', '0', '0', '3'] 0 4) = 2010 := by decide
    have e2 : fixText (strmid ['2', '0', '1', '0', '0', '3'] 4 2) = 3 := by decide
    have e3 : fixText (strmid ['2', '0', '1', '0', '0', '3'] 6 2) = 0 := by decide
    unfold dateToDoy
    rw [if_neg (by decide)]
    simp only [e1, e2, e3, julday]
    have : daysBeforeMonth (2010 : ℤ).toNat (3 : ℤ).toNat = 59 := by decide
    rw [this]
    have : daysBeforeMonth (2010 : ℤ).toNat 1 = 0 := by decide
    rw [this]
    generalize daysBeforeYear _ = y
    refine congrArg Except.ok ?_
    simp
  · rw [doy_eq ⟨2010, 2, 28⟩ (by decide) (by norm_num)]
    have : daysBeforeMonth 2010 2 = 31 := by decide
    simp [this]

/-- From the year 10000 on the first digit of the year is lost. -/
theorem c181_year_violated : jdToYyyymmdd (dayNumber ⟨10000, 1, 1⟩) = jdToYyyymmdd (dayNumber ⟨0, 1, 1⟩) := by
  rw [c181_text _ (by decide), c181_text _ (by decide)]
  decide

end Verif.Eustace.LandFiles
