import Verif.Eustace.Insitu.Ocean
import Verif.Eustace.RawBinary.Props

/-! C135, C136: measurements by ships. -/

namespace Verif.Eustace.Insitu.Ocean

open Verif Verif.Eustace.RawBinary Verif.Float32

/-! ### What is expected -/

/-- A report of a ship: tenths of degrees, a date, and hundredths of degrees Celsius. -/
structure Report where
  lat : Int
  lon : Int
  date : Calendar.Date
  airt : Int

/-- The decimal form of a number. -/
def decimal (n : Int) : List Char := if n < 0 then '-' :: Nat.toDigits 10 n.natAbs else Nat.toDigits 10 n.toNat

/-- A text shows a number: its decimal form, between spaces. -/
def Shows (text : List Char) (n : Int) : Prop := ∃ a b, text = List.replicate a ' ' ++ (decimal n ++ List.replicate b ' ')

/-- The text of the column with a given title. -/
def textOf (titles : List String) (line : List Char) (title : String) : List Char := (line.drop (8 * titles.idxOf title)).take 8

/-- A line shows a report: under each title is the number which belongs to it, and there is something in all columns. -/
structure LineShows (titles : List String) (line : List Char) (r : Report) : Prop where
  long : ∀ title ∈ fields, 8 * titles.idxOf title < line.length
  lat : Shows (textOf titles line "Lat") r.lat
  lon : Shows (textOf titles line "Lon") r.lon
  year : Shows (textOf titles line "year") r.date.year
  month : Shows (textOf titles line "month") r.date.month
  day : Shows (textOf titles line "day") r.date.day
  airt : Shows (textOf titles line "Air") r.airt

/-- A date of the calendar within the years which Python has. -/
def DateOk (d : Calendar.Date) : Prop := d.Valid ∧ 1 ≤ d.year ∧ d.year ≤ 9999

/-- Days from the first of January 1850. -/
def dayNumber (d : Calendar.Date) : Int := (d.number : Int) - (Calendar.Date.number ⟨1850, 1, 1⟩ : Int)

/-! ### Numbers in text -/

theorem digit_not_space {c : Char} (h : c.isDigit = true) : c.isWhitespace = false := by
  simp only [Char.isDigit, Bool.and_eq_true, decide_eq_true_eq] at h
  have h1 : 48 ≤ c.val.toNat := by have := h.1; exact this
  simp only [Char.isWhitespace, Bool.or_eq_false_iff, decide_eq_false_iff_not]
  refine ⟨⟨⟨?_, ?_⟩, ?_⟩, ?_⟩ <;>
  · rintro rfl
    revert h1
    decide

theorem toDigits_digit (n : Nat) : ∀ c ∈ Nat.toDigits 10 n, c.isDigit = true := fun _ hc =>
  Nat.isDigit_of_mem_toDigits (by norm_num) (by norm_num) hc

theorem decimal_not_space (n : Int) : ∀ c ∈ decimal n, c.isWhitespace = false := by
  intro c hc
  rw [decimal] at hc
  split at hc
  · rcases List.mem_cons.1 hc with rfl | hc
    · decide
    · exact digit_not_space (toDigits_digit _ c hc)
  · exact digit_not_space (toDigits_digit _ c hc)

theorem decimal_ne_nil (n : Int) : decimal n ≠ [] := by
  rw [decimal]
  split
  · exact List.cons_ne_nil _ _
  · exact Nat.toDigits_ne_nil

theorem dropWhile_space (a : Nat) (s : List Char) :
    (List.replicate a ' ' ++ s).dropWhile Char.isWhitespace = s.dropWhile Char.isWhitespace := by
  induction a with
  | zero => rfl
  | succ a ih => rw [List.replicate_succ, List.cons_append, List.dropWhile_cons_of_pos (by decide), ih]

theorem dropWhile_none (s t : List Char) (hs : s ≠ []) (h : ∀ c ∈ s, c.isWhitespace = false) :
    (s ++ t).dropWhile Char.isWhitespace = s ++ t := by
  cases s with
  | nil => exact absurd rfl hs
  | cons c s => rw [List.cons_append, List.dropWhile_cons_of_neg (by simp [h c List.mem_cons_self])]

theorem strip_of (a b : Nat) (s : List Char) (hs : s ≠ []) (h : ∀ c ∈ s, c.isWhitespace = false) :
    strip (List.replicate a ' ' ++ (s ++ List.replicate b ' ')) = s := by
  rw [strip, dropWhile_space, dropWhile_none s _ hs h, List.reverse_append, List.reverse_replicate, dropWhile_space]
  have := dropWhile_none s.reverse [] (by simpa using hs) (by simpa using h)
  rw [List.append_nil] at this
  rw [this, List.reverse_reverse]

theorem digitsOf_toDigits (n : Nat) : digitsOf (Nat.toDigits 10 n) = some n := by
  rw [digitsOf, if_pos ⟨Nat.toDigits_ne_nil, List.all_eq_true.2 (toDigits_digit n)⟩, Nat.ofDigitChars_ten_toDigits]

theorem convert_of {text : List Char} {n : Int} (h : Shows text n) : convert text = n := by
  obtain ⟨a, b, rfl⟩ := h
  rw [convert, intOf, strip_of a b _ (decimal_ne_nil n) (decimal_not_space n), decimal]
  by_cases hn : n < 0
  · rw [if_pos hn, signed, digitsOf_toDigits]
    show -(n.natAbs : Int) = n
    omega
  · rw [if_neg hn]
    have hd := toDigits_digit n.toNat
    have hv : digitsOf (Nat.toDigits 10 n.toNat) = some n.toNat := digitsOf_toDigits _
    have : signed (Nat.toDigits 10 n.toNat) = some n := by
      rw [signed.eq_def]
      split
      · rename_i ds he
        have := hd '-' (by rw [he]; exact List.mem_cons_self)
        exact absurd this (by decide)
      · rename_i ds he
        have := hd '+' (by rw [he]; exact List.mem_cons_self)
        exact absurd this (by decide)
      · rw [hv]
        show some (n.toNat : Int) = some n
        rw [Int.toNat_of_nonneg (by omega)]
    rw [this]
    rfl

/-! ### Rounding -/

theorem f32_abs_near {x : ℚ} {e : Int} (hx : |x| < 2 ^ (e + 1)) : |f32 x - x| ≤ 2 ^ (e - 24) := by
  by_cases h : x = 0
  · rw [h, f32_zero]
    simp
    positivity
  have hpos : 0 < |x| := abs_pos.2 h
  have hu := ulp_pos x
  have hul : ulp x ≤ 2 ^ (e - 23) := by
    unfold ulp
    have : Int.log 2 |x| < e + 1 := (Int.lt_zpow_iff_log_lt (by norm_num) hpos).1 (by exact_mod_cast hx)
    exact zpow_le_zpow_right₀ (by norm_num) (by omega)
  rw [f32, if_neg h]
  have : (rne (x / ulp x) : ℚ) * ulp x - x = (rne (x / ulp x) - x / ulp x) * ulp x := by
    rw [sub_mul, div_mul_cancel₀ _ hu.ne']
  rw [this, abs_mul, abs_of_pos hu]
  have h2 : (2 : ℚ) ^ (e - 23) = 2 * 2 ^ (e - 24) := by
    rw [show e - 23 = (e - 24) + 1 by omega, zpow_add₀ (by norm_num)]; ring
  calc _ ≤ 1 / 2 * (2 : ℚ) ^ (e - 23) := mul_le_mul (rne_near _) hul hu.le (by norm_num)
    _ = 2 ^ (e - 24) := by rw [h2]; ring

theorem rne_int (n : Int) : rne (n : ℚ) = n := by
  rw [rne, Int.floor_intCast, if_pos (by norm_num)]

/-- Whole numbers of less than 24 bits are exact. -/
theorem f32_int (n : Int) (h : |n| < 2 ^ 24) : f32 n = n := by
  by_cases h0 : (n : ℚ) = 0
  · rw [h0, f32_zero]
  have hpos : 0 < |(n : ℚ)| := abs_pos.2 h0
  have hlog : Int.log 2 |(n : ℚ)| < 24 := (Int.lt_zpow_iff_log_lt (by norm_num) hpos).1 (by
    have : (|n| : ℚ) < ((2 : ℕ) : ℚ) ^ (24 : ℤ) := by exact_mod_cast h
    simpa using this)
  obtain ⟨k, hk⟩ : ∃ k : Nat, Int.log 2 |(n : ℚ)| - 23 = -(k : Int) := ⟨(23 - Int.log 2 |(n : ℚ)|).toNat, by omega⟩
  have hul : ulp (n : ℚ) = ((2 : ℚ) ^ k)⁻¹ := by rw [ulp, hk, zpow_neg, zpow_natCast]
  rw [f32, if_neg h0, hul, div_inv_eq_mul]
  have : (n : ℚ) * 2 ^ k = ((n * 2 ^ k : Int) : ℚ) := by push_cast; ring
  rw [this, rne_int]
  push_cast
  field_simp

theorem scale_near : |temperatureScale - 1 / 100| ≤ 2 ^ (-31 : Int) := by
  have := f32_abs_near (x := 1 / 100) (e := -7) (by norm_num [abs_of_pos])
  exact this

theorem offset_near : |temperatureOffset - 27315 / 100| ≤ 2 ^ (-16 : Int) := by
  have := f32_abs_near (x := 27315 / 100) (e := 8) (by norm_num [abs_of_pos])
  exact this

/-- **C135**: temperatures between -163.84 and 163.84 degrees Celsius are right within 0.00005 K. -/
theorem c135_kelvin (airt : Int) (h : |airt| < 2 ^ 14) : |kelvin airt - ((airt : ℚ) / 100 + 273.15)| ≤ 0.00005 := by
  have h' : |(airt : ℚ)| < 2 ^ 14 := by exact_mod_cast h
  rw [kelvin, f32_int airt (lt_trans h (by norm_num))]
  have hs := scale_near
  have ho := offset_near
  have e1 : (2 : ℚ) ^ (-31 : Int) = 1 / 2147483648 := by norm_num
  have e2 : (2 : ℚ) ^ (-16 : Int) = 1 / 65536 := by norm_num
  rw [e1] at hs
  rw [e2] at ho
  rw [abs_le] at hs ho
  have h2 : |(airt : ℚ) * temperatureScale - airt * (1 / 100)| ≤ 1 / 131072 := by
    rw [← mul_sub, abs_mul]
    calc |(airt : ℚ)| * |temperatureScale - 1 / 100| ≤ 2 ^ 14 * (1 / 2147483648) :=
          mul_le_mul h'.le (abs_le.2 hs) (abs_nonneg _) (by norm_num)
      _ = 1 / 131072 := by norm_num
  rw [abs_lt] at h'
  rw [abs_le] at h2
  have hp : |(airt : ℚ) * temperatureScale| < 2 ^ ((7 : Int) + 1) := by
    rw [abs_lt]
    norm_num at h' ⊢
    constructor <;> linarith [h2.1, h2.2, h'.1, h'.2]
  have h3 := f32_abs_near hp
  have e3 : (2 : ℚ) ^ ((7 : Int) - 24) = 1 / 131072 := by norm_num
  rw [e3, abs_le] at h3
  have hq : |f32 ((airt : ℚ) * temperatureScale) + temperatureOffset| < 2 ^ ((8 : Int) + 1) := by
    rw [abs_lt]
    norm_num at h' ⊢
    constructor <;> linarith [h2.1, h2.2, h3.1, h3.2, ho.1, ho.2, h'.1, h'.2]
  have h4 := f32_abs_near hq
  have e4 : (2 : ℚ) ^ ((8 : Int) - 24) = 1 / 65536 := by norm_num
  rw [e4, abs_le] at h4
  rw [abs_le]
  norm_num
  constructor <;> linarith [h2.1, h2.2, h3.1, h3.2, h4.1, h4.2, ho.1, ho.2]

/-- Non-vacuity: 12.34 degrees. -/
example : |(1234 : Int)| < 2 ^ 14 := by decide

/-- **C135**: coordinates are right within 0.00002 degrees. -/
theorem c135_degrees (n : Int) (h : |n| ≤ 3600) : |(n : ℚ) * locationScale - n / 10| ≤ 0.00002 := by
  have h' : |(n : ℚ)| ≤ 3600 := by exact_mod_cast h
  have hs := f32_abs_near (x := 1 / 10) (e := -4) (by norm_num [abs_of_pos])
  have e1 : (2 : ℚ) ^ ((-4 : Int) - 24) = 1 / 268435456 := by norm_num
  rw [e1] at hs
  have : (n : ℚ) * locationScale - n / 10 = n * (f32 (1 / 10) - 1 / 10) := by
    rw [locationScale]
    ring
  rw [this, abs_mul]
  calc |(n : ℚ)| * |f32 (1 / 10) - 1 / 10| ≤ 3600 * (1 / 268435456) := mul_le_mul h' hs (abs_nonneg _) (by norm_num)
    _ ≤ 0.00002 := by norm_num

/-! ### Lines -/

theorem useColumns_ok (titles : List String) (names : List String) (h : ∀ f ∈ names, f ∈ titles) :
    useColumns titles names = .ok (names.map titles.idxOf) := by
  induction names with
  | nil => rfl
  | cons f names ih =>
    rw [useColumns, titleIndex, if_pos (h f List.mem_cons_self), ih fun g hg => h g (List.mem_cons_of_mem _ hg)]
    rfl

theorem split_get (line : List Char) (i : Nat) (h : 8 * i < line.length) :
    (splitFixed line)[i]? = some ((line.drop (8 * i)).take 8) := by
  rw [splitFixed, List.getElem?_map, List.getElem?_range]
  · rfl
  · show i < (line.length + 8 - 1) / 8
    omega

theorem pickColumns_ok (values : List (List Char)) (cols : List Nat) (f : Nat → List Char)
    (h : ∀ i ∈ cols, values[i]? = some (f i)) : pickColumns values cols = some (cols.map f) := by
  induction cols with
  | nil => rfl
  | cons i cols ih =>
    rw [pickColumns, h i List.mem_cons_self, ih fun j hj => h j (List.mem_cons_of_mem _ hj)]
    rfl

theorem line_ne_nil {titles : List String} {line : List Char} {r : Report} (h : LineShows titles line r) : line ≠ [] := by
  rintro rfl
  have := h.long "ID" (by simp [fields])
  simp at this

theorem genfromtxt_ok (titles : List String) (lines : List (List Char)) (reports : List Report)
    (h : List.Forall₂ (LineShows titles) lines reports) :
    genfromtxt (fields.map titles.idxOf) lines = .ok (lines.map fun line => fields.map fun f => textOf titles line f) := by
  induction h with
  | nil => rfl
  | @cons line r lines reports hl _ ih =>
    rw [genfromtxt, if_neg (line_ne_nil hl), ih, pickColumns_ok _ _ fun i => (line.drop (8 * i)).take 8]
    · rw [List.map_cons, List.map_map]
      rfl
    · intro i hi
      obtain ⟨f, hf, rfl⟩ := List.mem_map.1 hi
      exact split_get line _ (hl.long f hf)

/-- The record of a line is that of the report. -/
theorem recordOf_line (titles : List String) (line : List Char) (r : Report) (h : LineShows titles line r) :
    recordOf (fields.map fun f => textOf titles line f) =
      ⟨r.lat, r.lon, r.date.year, r.date.month, r.date.day, r.airt⟩ := by
  have h1 := convert_of h.lat
  have h2 := convert_of h.lon
  have h3 := convert_of h.year
  have h4 := convert_of h.month
  have h5 := convert_of h.day
  have h6 := convert_of h.airt
  rw [recordOf]
  simp only [fields, List.map_cons, List.getD_cons_succ, List.getD_cons_zero]
  rw [h1, h2, h3, h4, h5, h6]

theorem records_ok (titles : List String) (lines : List (List Char)) (reports : List Report)
    (h : List.Forall₂ (LineShows titles) lines reports) :
    (lines.map fun line => fields.map fun f => textOf titles line f).map recordOf =
      reports.map fun r => ⟨r.lat, r.lon, r.date.year, r.date.month, r.date.day, r.airt⟩ := by
  induction h with
  | nil => rfl
  | @cons line r lines reports hl _ ih =>
    rw [List.map_cons, List.map_cons, List.map_cons, ih, recordOf_line titles line r hl]

theorem daysSinceEpoch_ok (d : Calendar.Date) (h : DateOk d) : daysSinceEpoch d.year d.month d.day = .ok (dayNumber d) := by
  obtain ⟨⟨h1, h2, h3, h4⟩, h5, h6⟩ := h
  rw [daysSinceEpoch, if_pos ⟨by omega, by omega, by omega, by omega, by omega, by simpa using h4⟩]
  rfl

theorem timesOf_ok (reports : List Report) (h : ∀ r ∈ reports, DateOk r.date) :
    timesOf (reports.map fun r => ⟨r.lat, r.lon, r.date.year, r.date.month, r.date.day, r.airt⟩) =
      .ok (reports.map fun r => (dayNumber r.date : ℚ)) := by
  induction reports with
  | nil => rfl
  | cons r reports ih =>
    rw [List.map_cons, timesOf, daysSinceEpoch_ok r.date (h r List.mem_cons_self), ih fun s hs => h s (List.mem_cons_of_mem _ hs)]
    rfl

/-- What the source holds. -/
def sourceOf (reports : List Report) : Source where
  coords := reports.map fun r => (r.lat * locationScale, r.lon * locationScale)
  time := reports.map fun r => (dayNumber r.date : ℚ)
  tmean := reports.map fun r => kelvin r.airt

theorem source_ok (titles : List String) (ht : ∀ f ∈ fields, f ∈ titles) (lines : List (List Char)) (reports : List Report)
    (h : List.Forall₂ (LineShows titles) lines reports) (hd : ∀ r ∈ reports, DateOk r.date) (hone : reports.length ≠ 1) :
    source titles lines = .ok (sourceOf reports) := by
  have hlen : lines.length = reports.length := h.length_eq
  rw [source, useColumns_ok titles fields ht]
  dsimp only
  rw [genfromtxt_ok titles lines reports h]
  dsimp only
  rw [if_neg (by rw [List.length_map]; omega), records_ok titles lines reports h, timesOf_ok reports hd]
  simp only [List.map_map]
  rfl

/-- **C135**: a file of reports, not of exactly one, is read with all reports in order.  Each gives one observation which is not masked, at
its place within 0.00002 degrees, on its day, with its temperature in kelvin within 0.00005 K and with an error of 1.1 K within
0.0000001 K. -/
theorem c135_read (titles : List String) (ht : ∀ f ∈ fields, f ∈ titles) (lines : List (List Char)) (reports : List Report)
    (h : List.Forall₂ (LineShows titles) lines reports) (hd : ∀ r ∈ reports, DateOk r.date) (hone : reports.length ≠ 1)
    (hr : ∀ r ∈ reports, |r.lat| ≤ 900 ∧ |r.lon| ≤ 3600 ∧ |r.airt| < 2 ^ 14) :
    ∃ s obs, source titles lines = .ok s ∧ observations s "Tmean" = some obs ∧ s.coords.length = reports.length ∧
      obs.mask = List.replicate reports.length false ∧
      obs.time = .array (reports.map fun r => (dayNumber r.date : ℚ)) ∧
      obs.location = (List.range reports.length).map UInt64.ofNat ∧
      obs.measurement.length = reports.length ∧ obs.uncorrelated.length = reports.length ∧ obs.correlated = [] ∧
      ∀ (i : Nat) (r : Report), reports[i]? = some r →
        (∃ p, s.coords[i]? = some p ∧ |p.1 - r.lat / 10| ≤ 0.00002 ∧ |p.2 - r.lon / 10| ≤ 0.00002) ∧
        (∃ v, obs.measurement[i]? = some v ∧ |v - ((r.airt : ℚ) / 100 + 273.15)| ≤ 0.00005) ∧
        ∃ e, obs.uncorrelated[i]? = some e ∧ |e - 1.1| ≤ 0.0000001 := by
  refine ⟨sourceOf reports, ⟨(sourceOf reports).tmean.map fun _ => false, .array (sourceOf reports).time,
    (List.range (sourceOf reports).tmean.length).map UInt64.ofNat, (sourceOf reports).tmean,
    (sourceOf reports).tmean.map fun _ => f32 (11 / 10), []⟩, source_ok titles ht lines reports h hd hone, if_pos rfl, ?_, ?_, rfl, ?_,
    ?_, ?_, rfl, ?_⟩
  · exact List.length_map _
  · simp only [sourceOf, List.map_map]
    rw [List.eq_replicate_iff]
    exact ⟨List.length_map _, fun b hb => by
      obtain ⟨_, _, rfl⟩ := List.mem_map.1 hb
      rfl⟩
  · simp [sourceOf]
  · simp [sourceOf]
  · simp [sourceOf]
  · intro i r hi
    have hmem : r ∈ reports := List.mem_of_getElem? hi
    obtain ⟨h1, h2, h3⟩ := hr r hmem
    refine ⟨⟨((r.lat : ℚ) * locationScale, (r.lon : ℚ) * locationScale), by simp [sourceOf, hi], c135_degrees r.lat (by omega),
      c135_degrees r.lon h2⟩, ⟨kelvin r.airt, by simp [sourceOf, hi], c135_kelvin r.airt h3⟩, ⟨f32 (11 / 10), by simp [sourceOf, hi], ?_⟩⟩
    have := f32_abs_near (x := 11 / 10) (e := 0) (by norm_num [abs_of_pos])
    have e1 : (2 : ℚ) ^ ((0 : Int) - 24) = 1 / 16777216 := by norm_num
    rw [e1] at this
    calc |f32 (11 / 10) - (1.1 : ℚ)| = |f32 (11 / 10) - 11 / 10| := by norm_num
      _ ≤ 1 / 16777216 := this
      _ ≤ 0.0000001 := by norm_num

/-- **C135**: nothing is read without one of the titles. -/
theorem c135_titles (titles : List String) (lines : List (List Char)) (f : String) (hf : f ∈ fields) (hn : f ∉ titles) :
    source titles lines = .error .valueError := by
  have : ∀ names : List String, f ∈ names → useColumns titles names = .error .valueError := by
    intro names
    induction names with
    | nil => exact fun h => absurd h List.not_mem_nil
    | cons g names ih =>
      intro h
      rw [useColumns, titleIndex]
      by_cases hg : g ∈ titles
      · rw [if_pos hg]
        rcases List.mem_cons.1 h with rfl | h
        · exact absurd hg hn
        · dsimp only
          rw [ih h]
      · rw [if_neg hg]
  rw [source, this fields hf]

/-- Non-vacuity: titles as in the file of the format, with the two words of the last title. -/
def titles0 : List String := ["ID", "Lat", "Lon", "year", "month", "day", "hour", "Air", "T"]

/-- A line for a ship at 50.1 N, 12.3 W. -/
def line0 : List Char := "SHIP#1       501    -123    1900       2      28      12    1234".toList

theorem shows0 : LineShows titles0 line0 ⟨501, -123, ⟨1900, 2, 28⟩, 1234⟩ where
  long := by decide
  lat := ⟨5, 0, by decide⟩
  lon := ⟨4, 0, by decide⟩
  year := ⟨4, 0, by decide⟩
  month := ⟨7, 0, by decide⟩
  day := ⟨6, 0, by decide⟩
  airt := ⟨4, 0, by decide⟩

theorem date0 : DateOk ⟨1900, 2, 28⟩ := ⟨⟨by decide, by decide, by decide, by decide⟩, by decide, by decide⟩

example : (∀ f ∈ fields, f ∈ titles0) ∧ List.Forall₂ (LineShows titles0) [line0, line0]
    [⟨501, -123, ⟨1900, 2, 28⟩, 1234⟩, ⟨501, -123, ⟨1900, 2, 28⟩, 1234⟩] := ⟨by decide, .cons shows0 (.cons shows0 .nil)⟩

/-- **C135 violated**: a file with exactly one report cannot be read. -/
theorem c135_single_violated (titles : List String) (ht : ∀ f ∈ fields, f ∈ titles) (line : List Char) (r : Report)
    (h : LineShows titles line r) : source titles [line] = .error .indexError := by
  rw [source, useColumns_ok titles fields ht]
  dsimp only
  rw [genfromtxt_ok titles [line] [r] (.cons h .nil)]
  rfl

/-- **C135 violated**: where no temperature was written, or no number, it is taken to be -0.01 degrees Celsius, and the observation is not
masked. -/
theorem c135_blank_violated : ∃ (lines : List (List Char)) (s : Source) (obs : Observations ℚ), source titles0 lines = .ok s ∧
    observations s "Tmean" = some obs ∧
    (lines[0]?.map fun line => textOf titles0 line "Air") = some (List.replicate 8 ' ') ∧ obs.mask[0]? = some false ∧
    obs.measurement[0]? = some (kelvin (-1)) := by
  let blank : List Char := "SHIP#1       501    -123    1900       2      28      12        ".toList
  have hsrc : source titles0 [blank, blank] = .ok (sourceOf [⟨501, -123, ⟨1900, 2, 28⟩, -1⟩, ⟨501, -123, ⟨1900, 2, 28⟩, -1⟩]) := by
    have h1 : useColumns titles0 fields = .ok [0, 1, 2, 3, 4, 5, 6, 7] := by decide
    have h2 : genfromtxt [0, 1, 2, 3, 4, 5, 6, 7] [blank, blank] =
        .ok (List.replicate 2 ["SHIP#1  ", "     501", "    -123", "    1900", "       2", "      28", "      12", "        "]
          |>.map fun l => l.map String.toList) := by decide
    have h3 : recordOf (["SHIP#1  ", "     501", "    -123", "    1900", "       2", "      28", "      12", "        "].map
        String.toList) = ⟨501, -123, 1900, 2, 28, -1⟩ := by decide
    rw [source, h1]
    dsimp only
    rw [h2]
    dsimp only
    rw [if_neg (by decide)]
    simp only [List.replicate, List.map_cons, List.map_nil] at h3 ⊢
    rw [h3]
    have h4 : daysSinceEpoch 1900 2 28 = .ok (dayNumber ⟨1900, 2, 28⟩) := daysSinceEpoch_ok ⟨1900, 2, 28⟩ date0
    simp only [timesOf]
    rw [h4]
    rfl
  refine ⟨[blank, blank], _, _, hsrc, if_pos rfl, ?_, rfl, rfl⟩
  decide

/-- **C135 violated**: a report at the pole has a latitude above 90 degrees, since a tenth is rounded up. -/
theorem c135_pole_violated : (90 : ℚ) < 900 * locationScale := by
  have : (1 : ℚ) / 10 < f32 (1 / 10) := by
    have hu : ulp (1 / 10) = 2 ^ (-27 : Int) := ulp_eq (e := -4) (by norm_num) (by norm_num)
    rw [f32, if_neg (by norm_num), hu]
    have hr : rne (1 / 10 / 2 ^ (-27 : Int)) = 13421773 := by
      apply le_antisymm
      · exact rne_le (by norm_num)
      · exact le_rne (by norm_num)
    rw [hr]
    norm_num
  rw [locationScale]
  linarith

/-! ### Files of days -/

/-- **C136**: for the mean both files are written with the same identifier.  The file of the day has all reports of that day
and no others, in order; the number which each has there is that of its coordinates in the file of locations. -/
theorem c136_written (bits : ℚ → UInt64) (uuid verify : Bytes) (hu : uuid.length = 16) (titles : List String)
    (ht : ∀ f ∈ fields, f ∈ titles) (lines : List (List Char)) (reports : List Report)
    (h : List.Forall₂ (LineShows titles) lines reports) (hd : ∀ r ∈ reports, DateOk r.date ∧ 1850 ≤ r.date.year)
    (hone : reports.length ≠ 1) (date : Calendar.Date) (hdate : date.Valid) :
    ∃ (file lookup : Bytes) (kept : List Nat), runDay bits uuid titles lines (dayNumber date) "Tmean" = (some file, some lookup, .ok ()) ∧
      kept.Pairwise (· < ·) ∧ (∀ i : Nat, i ∈ kept ↔ ∃ r, reports[i]? = some r ∧ r.date = date) ∧
      readDay 0 (some file) verify (dayNumber date) = .ok {
        mask := kept.map fun _ => false
        time := .scalar (dayNumber date)
        location := kept.map UInt64.ofNat
        measurement := kept.map fun i => (reports[i]?.map fun r => bits (kelvin r.airt)).getD 0
        uncorrelated := kept.map fun _ => bits (f32 (11 / 10))
        correlated := [] } ∧
      readLookup lookup = .ok (uuid, reports.map fun r => (bits (r.lat * locationScale), bits (r.lon * locationScale))) := by
  have hsrc := source_ok titles ht lines reports h (fun r hr => (hd r hr).1) hone
  set obs : Observations UInt64 := ⟨reports.map fun _ => false, .array (reports.map fun r => (dayNumber r.date : ℚ)),
    (List.range reports.length).map UInt64.ofNat, reports.map fun r => bits (kelvin r.airt),
    reports.map fun _ => bits (f32 (11 / 10)), []⟩ with hobs
  have hsized : obs.Sized reports.length := by
    refine ⟨?_, ?_, ?_, ?_, ?_⟩ <;> simp [hobs]
  have hnonneg : ∀ r ∈ reports, 0 ≤ dayNumber r.date := by
    intro r hr
    have hy := (hd r hr).2
    rw [dayNumber]
    have : Calendar.Date.number ⟨1850, 1, 1⟩ ≤ r.date.number := by
      have h1 := Calendar.daysBeforeYear_mono hy
      have h2 : Calendar.daysBeforeMonth 1850 1 = 0 := by decide
      rw [Calendar.Date.number, Calendar.Date.number]
      dsimp only
      omega
    omega
  have htime : TimeSized obs.time reports.length := by
    refine ⟨by simp, fun t ht => ?_⟩
    obtain ⟨r, hr, rfl⟩ := List.mem_map.1 ht
    exact_mod_cast hnonneg r hr
  obtain ⟨file, kept, h1, h2, h3, _⟩ := c24_round_trip uuid verify hu obs reports.length hsized htime (dayNumber date)
  have hkept : ∀ i : Nat, i ∈ kept ↔ ∃ r, reports[i]? = some r ∧ r.date = date := by
    intro i
    rw [h2.2]
    have hnum : ∀ r ∈ reports, ((dayNumber date : ℚ) ≤ (dayNumber r.date : ℚ) ∧ (dayNumber r.date : ℚ) < (dayNumber date : ℚ) + 1) ↔
        r.date = date := by
      intro r hr
      constructor
      · rintro ⟨a, b⟩
        have a' : dayNumber date ≤ dayNumber r.date := by exact_mod_cast a
        have b' : dayNumber r.date < dayNumber date + 1 := by exact_mod_cast b
        refine Calendar.number_inj (hd r hr).1.1 hdate ?_
        rw [dayNumber, dayNumber] at a' b'
        omega
      · intro he
        rw [he]
        exact ⟨le_rfl, by linarith⟩
    constructor
    · rintro ⟨_, t, ht, hle⟩
      rw [List.getElem?_map] at ht
      cases hr : reports[i]? with
      | none => rw [hr] at ht; cases ht
      | some r =>
        rw [hr] at ht
        obtain rfl := Option.some.inj ht
        exact ⟨r, rfl, (hnum r (List.mem_of_getElem? hr)).1 hle⟩
    · rintro ⟨r, hr, he⟩
      refine ⟨?_, (dayNumber r.date : ℚ), ?_, (hnum r (List.mem_of_getElem? hr)).2 he⟩
      · show (reports.map fun _ => false)[i]? = some false
        rw [List.getElem?_map, hr]
        rfl
      · rw [List.getElem?_map, hr]
        rfl
  refine ⟨file, writeLookup uuid ((sourceOf reports).coords.map fun p => (bits p.1, bits p.2)), kept, ?_, h2.1, hkept, ?_, ?_⟩
  · rw [runDay, hsrc]
    dsimp only
    rw [observations, if_pos rfl]
    have hw : writeDay uuid ⟨(sourceOf reports).tmean.map fun _ => false, .array (sourceOf reports).time,
        (List.range (sourceOf reports).tmean.length).map UInt64.ofNat, (sourceOf reports).tmean.map bits,
        ((sourceOf reports).tmean.map fun _ => f32 (11 / 10)).map bits, ([] : List (List ℚ)).map fun l => l.map bits⟩
        (dayNumber date) = .ok file := by
      rw [← h1, hobs]
      simp only [sourceOf, List.map_map, List.length_map, List.map_nil]
      rfl
    dsimp only
    rw [hw]
  · have hcor : obs.correlated = [] := rfl
    rw [hcor] at h3
    rw [show ([] : List (List UInt64)).length = 0 from rfl] at h3
    rw [h3, selection]
    have hj : ∀ i ∈ kept, i < reports.length := by
      intro i hi
      obtain ⟨r, hr, _⟩ := (hkept i).1 hi
      exact (List.getElem?_eq_some_iff.1 hr).1
    congr 2
    · refine List.map_congr_left fun i hi => ?_
      rw [List.getD_eq_getElem?_getD]
      show ((List.range reports.length).map UInt64.ofNat)[i]?.getD 0 = _
      rw [List.getElem?_map, List.getElem?_range (hj i hi)]
      rfl
    · refine List.map_congr_left fun i hi => ?_
      rw [List.getD_eq_getElem?_getD]
      show (reports.map fun r => bits (kelvin r.airt))[i]?.getD 0 = _
      rw [List.getElem?_map]
    · refine List.map_congr_left fun i hi => ?_
      rw [List.getD_eq_getElem?_getD]
      show (reports.map fun _ => bits (f32 (11 / 10)))[i]?.getD 0 = _
      rw [List.getElem?_map, List.getElem?_eq_getElem (hj i hi)]
      rfl
  · rw [(c24_lookup uuid hu _).1]
    simp only [sourceOf, List.map_map]
    rfl

/-- **C136 violated**: for a quantity which ships do not report the run fails, but it leaves a file which reads as a day without
observations. -/
theorem c136_quantity_violated (bits : ℚ → UInt64) (uuid verify : Bytes) (hu : uuid.length = 16) (day : Int) :
    ∃ (lines : List (List Char)) (file : Bytes),
      runDay bits uuid titles0 lines day "Tmin" = (some file, none, .error .attributeError) ∧
      readDay 0 (some file) verify day = .ok ⟨[], .scalar day, [], [], [], []⟩ := by
  have hsrc := source_ok titles0 (by decide) [] [] .nil (by simp) (by simp)
  refine ⟨[], header uuid, ?_, ?_⟩
  · rw [runDay, hsrc]
    rfl
  · have h := c24_round_trip uuid verify hu ⟨[], .scalar day, [], [], [], []⟩ 0 ⟨rfl, rfl, rfl, rfl, by simp⟩ trivial day
    obtain ⟨file, kept, h1, h2, h3, _⟩ := h
    have hfile : file = header uuid := by
      have : writeDay uuid ⟨[], .scalar day, [], [], [], []⟩ day = .ok (header uuid ++ []) := rfl
      rw [h1, List.append_nil] at this
      injection this
    have hk : kept = [] := by
      rw [List.eq_nil_iff_forall_not_mem]
      intro i hi
      have := ((h2.2 i).1 hi).1
      simp at this
    rw [hfile, hk] at h3
    exact h3

end Verif.Eustace.Insitu.Ocean
