/-!
The proleptic Gregorian calendar, as used by Python's `datetime` (trusted transcription of the library documentation, not
of code in /repo). Days are numbered from 0000-01-01; only differences matter. The limits of `datetime` (years 1 to 9999)
are not modelled.
-/
namespace Verif.Calendar

def isLeap (y : Nat) : Bool := y % 4 == 0 && (y % 100 != 0 || y % 400 == 0)

/-- Days in month `m` (1-12) of year `y`. -/
def daysInMonth (y m : Nat) : Nat :=
  if m = 2 then (if isLeap y then 29 else 28)
  else if m = 4 ∨ m = 6 ∨ m = 9 ∨ m = 11 then 30 else 31

def daysInYear (y : Nat) : Nat := if isLeap y then 366 else 365

/-- Days before the first of January of year `y`. -/
def daysBeforeYear : Nat → Nat
  | 0 => 0
  | y + 1 => daysBeforeYear y + daysInYear y

/-- Days of the year before the first day of month `m`. -/
def daysBeforeMonth (y : Nat) : Nat → Nat
  | 0 => 0
  | 1 => 0
  | m + 2 => daysBeforeMonth y (m + 1) + daysInMonth y (m + 1)

structure Date where
  year : Nat
  month : Nat
  day : Nat
  deriving DecidableEq, Repr

def Date.Valid (d : Date) : Prop := 1 ≤ d.month ∧ d.month ≤ 12 ∧ 1 ≤ d.day ∧ d.day ≤ daysInMonth d.year d.month
instance (d : Date) : Decidable d.Valid := by unfold Date.Valid; infer_instance

def Date.number (d : Date) : Nat := daysBeforeYear d.year + daysBeforeMonth d.year d.month + (d.day - 1)

/-- Year and day of the year (from 0) of the day `n` days after the start of year `y`. -/
def yearFrom : Nat → Nat → Nat → Nat × Nat
  | 0, y, n => (y, n)
  | fuel + 1, y, n => if n < daysInYear y then (y, n) else yearFrom fuel (y + 1) (n - daysInYear y)

/-- Month and day (from 0) of the day `n` days after the start of month `m`. -/
def monthFrom (y : Nat) : Nat → Nat → Nat → Nat × Nat
  | 0, m, n => (m, n)
  | fuel + 1, m, n => if n < daysInMonth y m then (m, n) else monthFrom y fuel (m + 1) (n - daysInMonth y m)

/-- The date with a given number. -/
def Date.ofNumber (n : Nat) : Date :=
  let yr := yearFrom n 0 n
  let md := monthFrom yr.1 11 1 yr.2
  ⟨yr.1, md.1, md.2 + 1⟩

theorem daysInMonth_pos (y m : Nat) : 28 ≤ daysInMonth y m := by
  unfold daysInMonth; split <;> split <;> omega

theorem daysInYear_pos (y : Nat) : 365 ≤ daysInYear y := by unfold daysInYear; split <;> omega

theorem daysBeforeMonth_succ (y m : Nat) (h : 1 ≤ m) :
    daysBeforeMonth y (m + 1) = daysBeforeMonth y m + daysInMonth y m := by
  cases m with
  | zero => omega
  | succ m => rfl

theorem daysBeforeMonth_13 (y : Nat) : daysBeforeMonth y 13 = daysInYear y := by
  simp only [daysBeforeMonth, daysInMonth, daysInYear]
  cases isLeap y <;> rfl

theorem daysBeforeMonth_mono (y : Nat) {m m' : Nat} (h1 : 1 ≤ m) (h : m ≤ m') :
    daysBeforeMonth y m ≤ daysBeforeMonth y m' := by
  induction m' with
  | zero => omega
  | succ k ih =>
    by_cases hk : m = k + 1
    · subst hk; exact Nat.le_refl _
    · rw [daysBeforeMonth_succ y k (by omega)]
      have := ih (by omega)
      omega

theorem daysBeforeYear_mono {y y' : Nat} (h : y ≤ y') : daysBeforeYear y ≤ daysBeforeYear y' := by
  induction y' with
  | zero => have : y = 0 := by omega
            subst this; exact Nat.le_refl _
  | succ k ih =>
    by_cases hk : y = k + 1
    · subst hk; exact Nat.le_refl _
    · have := ih (by omega)
      simp only [daysBeforeYear]; omega

theorem dayOfYear_lt {d : Date} (h : d.Valid) : daysBeforeMonth d.year d.month + (d.day - 1) < daysInYear d.year := by
  obtain ⟨h1, h2, h3, h4⟩ := h
  have a := daysBeforeMonth_succ d.year d.month h1
  have b := daysBeforeMonth_mono d.year (m := d.month + 1) (m' := 13) (by omega) (by omega)
  rw [daysBeforeMonth_13] at b
  omega

theorem yearFrom_spec : ∀ (fuel y n : Nat), n ≤ 364 * fuel + 364 →
    (yearFrom fuel y n).2 < daysInYear (yearFrom fuel y n).1 ∧
    daysBeforeYear (yearFrom fuel y n).1 + (yearFrom fuel y n).2 = daysBeforeYear y + n
  | 0, y, n, h => by
    have := daysInYear_pos y
    show n < daysInYear y ∧ daysBeforeYear y + n = _
    exact ⟨by omega, rfl⟩
  | fuel + 1, y, n, h => by
    unfold yearFrom
    have := daysInYear_pos y
    split
    · exact ⟨by assumption, rfl⟩
    · obtain ⟨a, b⟩ := yearFrom_spec fuel (y + 1) (n - daysInYear y) (by omega)
      refine ⟨a, ?_⟩
      rw [b]; simp only [daysBeforeYear]; omega

theorem monthFrom_spec (y : Nat) : ∀ (fuel m n : Nat), m + fuel = 12 → 1 ≤ m →
    daysBeforeMonth y m + n < daysInYear y →
    (monthFrom y fuel m n).2 < daysInMonth y (monthFrom y fuel m n).1 ∧ 1 ≤ (monthFrom y fuel m n).1 ∧
      (monthFrom y fuel m n).1 ≤ 12 ∧
    daysBeforeMonth y (monthFrom y fuel m n).1 + (monthFrom y fuel m n).2 = daysBeforeMonth y m + n
  | 0, m, n, h, h1, hn => by
    have : m = 12 := by omega
    subst this
    rw [← daysBeforeMonth_13, daysBeforeMonth_succ y 12 (by omega)] at hn
    show n < daysInMonth y 12 ∧ 1 ≤ 12 ∧ 12 ≤ 12 ∧ daysBeforeMonth y 12 + n = _
    exact ⟨by omega, by omega, by omega, rfl⟩
  | fuel + 1, m, n, h, h1, hn => by
    unfold monthFrom
    split
    · exact ⟨by assumption, by omega, by omega, rfl⟩
    · have hs := daysBeforeMonth_succ y m h1
      obtain ⟨a, b, c, d⟩ := monthFrom_spec y fuel (m + 1) (n - daysInMonth y m) (by omega) (by omega) (by omega)
      exact ⟨a, b, c, by omega⟩

theorem ofNumber_spec (n : Nat) : (Date.ofNumber n).Valid ∧ (Date.ofNumber n).number = n := by
  obtain ⟨a, b⟩ := yearFrom_spec n 0 n (by omega)
  obtain ⟨c, d, e, f⟩ := monthFrom_spec (yearFrom n 0 n).1 11 1 (yearFrom n 0 n).2 rfl (by omega)
    (by simpa [daysBeforeMonth] using a)
  simp only [Date.ofNumber, Date.Valid, Date.number]
  refine ⟨⟨d, e, by omega, by omega⟩, ?_⟩
  simp only [daysBeforeMonth, daysBeforeYear, Nat.zero_add] at b f
  omega

/-- Order of valid dates: by year, then month, then day. -/
theorem number_lt_of {a b : Date} (ha : a.Valid) (hb : b.Valid)
    (h : a.year < b.year ∨ (a.year = b.year ∧ (a.month < b.month ∨ (a.month = b.month ∧ a.day < b.day)))) :
    a.number < b.number := by
  unfold Date.number
  rcases h with h | ⟨hy, h | ⟨hm, h⟩⟩
  · have h1 := dayOfYear_lt ha
    have h2 := daysBeforeYear_mono (y := a.year + 1) (y' := b.year) h
    simp only [daysBeforeYear] at h2
    omega
  · have h1 := daysBeforeMonth_mono a.year (m := a.month + 1) (m' := b.month) (by have := ha.1; omega) h
    rw [daysBeforeMonth_succ a.year a.month ha.1] at h1
    have h3 := ha.2.2.1
    have h4 := ha.2.2.2
    rw [← hy]
    omega
  · have h3 := ha.2.2.1
    rw [← hy, ← hm]
    omega

theorem number_inj {a b : Date} (ha : a.Valid) (hb : b.Valid) (h : a.number = b.number) : a = b := by
  rcases Nat.lt_trichotomy a.year b.year with hy | hy | hy
  · have := number_lt_of ha hb (.inl hy); omega
  · rcases Nat.lt_trichotomy a.month b.month with hm | hm | hm
    · have := number_lt_of ha hb (.inr ⟨hy, .inl hm⟩); omega
    · rcases Nat.lt_trichotomy a.day b.day with hd | hd | hd
      · have := number_lt_of ha hb (.inr ⟨hy, .inr ⟨hm, hd⟩⟩); omega
      · cases a; cases b; simp_all
      · have := number_lt_of hb ha (.inr ⟨hy.symm, .inr ⟨hm.symm, hd⟩⟩); omega
    · have := number_lt_of hb ha (.inr ⟨hy.symm, .inl hm⟩); omega
  · have := number_lt_of hb ha (.inl hy); omega

theorem ofNumber_number {d : Date} (h : d.Valid) : Date.ofNumber d.number = d :=
  number_inj (ofNumber_spec _).1 h (ofNumber_spec _).2

example : (⟨2000, 2, 29⟩ : Date).Valid := by decide
example : Date.ofNumber ((⟨2015, 12, 31⟩ : Date).number + 60) = ⟨2016, 2, 29⟩ := by decide +kernel

end Verif.Calendar
