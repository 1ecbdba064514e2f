import Verif.Calendar

/-! `dateutil.relativedelta` with months, years and days, on dates (trusted transcription of the library, not of code in
/repo; a time of day is carried along unchanged by all of these). -/
namespace Verif.Calendar

/-- `relativedelta(months=k)` in normal form: (years, months), months of absolute value at most 11, same sign as `k`. -/
def splitMonths (k : Int) : Int × Int :=
  if 11 < k.natAbs then (k.sign * (k.natAbs / 12 : Nat), k.sign * (k.natAbs % 12 : Nat)) else (0, k)

/-- `date + relativedelta(months=k)`: the day is clipped to the length of the month. -/
def addMonths (d : Date) (k : Int) : Date :=
  let s := splitMonths k
  let year : Int := d.year + s.1
  let month : Int := d.month + s.2
  let ym : Int × Int :=
    if s.2 ≠ 0 ∧ 12 < month then (year + 1, month - 12)
    else if s.2 ≠ 0 ∧ month < 1 then (year - 1, month + 12)
    else (year, month)
  ⟨ym.1.toNat, ym.2.toNat, min (daysInMonth ym.1.toNat ym.2.toNat) d.day⟩

/-- `date + relativedelta(years=k)`. -/
def addYears (d : Date) (k : Int) : Date :=
  ⟨(d.year + k).toNat, d.month, min (daysInMonth (d.year + k).toNat d.month) d.day⟩

/-- `date + relativedelta(days=k)` (also `timedelta(days=k)`). -/
def addDays (d : Date) (k : Int) : Date := Date.ofNumber (d.number + k).toNat

/-- Adjustment loop of `relativedelta(dt1, dt2)`; the fuel bounds the iterations (the library's loop runs at most once). -/
def adjustMonths (a b : Date) (up : Bool) : Nat → Int → Int
  | 0, k => k
  | fuel + 1, k =>
    if up ∧ (addMonths b k).number < a.number then adjustMonths a b up fuel (k + 1)
    else if !up ∧ a.number < (addMonths b k).number then adjustMonths a b up fuel (k - 1)
    else k

/-- `relativedelta(a, b)`: years and months. -/
def monthDifference (a b : Date) : Int × Int :=
  let k : Int := ((a.year : Int) - b.year) * 12 + ((a.month : Int) - b.month)
  splitMonths (adjustMonths a b (decide (a.number < b.number)) 12 k)

/-- Number of the month of a date, counted from January of year 0. -/
def Date.ord (d : Date) : Int := 12 * d.year + ((d.month : Int) - 1)

theorem splitMonths_sum (k : Int) : 12 * (splitMonths k).1 + (splitMonths k).2 = k ∧
    -11 ≤ (splitMonths k).2 ∧ (splitMonths k).2 ≤ 11 := by
  unfold splitMonths
  split
  · rcases Int.lt_trichotomy k 0 with h | h | h
    · rw [Int.sign_eq_neg_one_of_neg h]; simp only; omega
    · subst h; simp at *
    · rw [Int.sign_eq_one_of_pos h]; simp only; omega
  · simp only; omega

theorem addMonths_spec {d : Date} (hd : d.Valid) {k : Int} (hk : 0 ≤ d.ord + k) :
    (addMonths d k).ord = d.ord + k ∧ 1 ≤ (addMonths d k).month ∧ (addMonths d k).month ≤ 12 ∧
    (addMonths d k).day = min (daysInMonth (addMonths d k).year (addMonths d k).month) d.day := by
  obtain ⟨h1, h2, h3, h4⟩ := hd
  obtain ⟨hs, hs1, hs2⟩ := splitMonths_sum k
  unfold Date.ord at *
  refine ⟨?_, ?_, ?_, rfl⟩
  all_goals
    simp only [addMonths]
    split
    · simp only; omega
    · split
      · simp only; omega
      · simp only; omega

theorem addMonths_valid {d : Date} (hd : d.Valid) {k : Int} (hk : 0 ≤ d.ord + k) : (addMonths d k).Valid := by
  obtain ⟨_, h1, h2, h3⟩ := addMonths_spec hd hk
  refine ⟨h1, h2, ?_, ?_⟩
  · rw [h3]
    have := daysInMonth_pos (addMonths d k).year (addMonths d k).month
    have := hd.2.2.1
    omega
  · rw [h3]; omega

/-- The first day of the month with number `o`. -/
def firstOf (o : Nat) : Date := ⟨o / 12, o % 12 + 1, 1⟩

theorem firstOf_valid (o : Nat) : (firstOf o).Valid := by
  refine ⟨by simp [firstOf], by simp only [firstOf]; omega, by simp [firstOf], ?_⟩
  have := daysInMonth_pos (firstOf o).year (firstOf o).month
  simp only [firstOf] at *; omega

theorem firstOf_ord (o : Nat) : (firstOf o).ord = o := by unfold Date.ord firstOf; simp only; omega

theorem date_eq_of_ord {a b : Date} (ha : 1 ≤ a.month ∧ a.month ≤ 12) (hb : 1 ≤ b.month ∧ b.month ≤ 12)
    (h : a.ord = b.ord) (hd : a.day = b.day) : a = b := by
  unfold Date.ord at h
  cases a; cases b; simp only [Date.mk.injEq] at *; omega

theorem eq_firstOf {d : Date} (hd : d.Valid) (h : d.day = 1) : d = firstOf d.ord.toNat := by
  have : 0 ≤ d.ord := by unfold Date.ord; have := hd.1; omega
  exact date_eq_of_ord ⟨hd.1, hd.2.1⟩ ⟨(firstOf_valid _).1, (firstOf_valid _).2.1⟩ (by rw [firstOf_ord]; omega) h

theorem addMonths_firstOf (o : Nat) {k : Int} (hk : 0 ≤ (o : Int) + k) : addMonths (firstOf o) k = firstOf (o + k).toNat := by
  have hk' : 0 ≤ (firstOf o).ord + k := by rw [firstOf_ord]; exact hk
  obtain ⟨h0, h1, h2, h3⟩ := addMonths_spec (firstOf_valid o) hk'
  refine date_eq_of_ord ⟨h1, h2⟩ ⟨(firstOf_valid _).1, (firstOf_valid _).2.1⟩ ?_ ?_
  · rw [h0, firstOf_ord, firstOf_ord]; omega
  · rw [h3]
    have := daysInMonth_pos (addMonths (firstOf o) k).year (addMonths (firstOf o) k).month
    simp only [firstOf] at *; omega

theorem firstOf_succ (o : Nat) : (firstOf (o + 1)).number = (firstOf o).number + daysInMonth (o / 12) (o % 12 + 1) := by
  unfold Date.number firstOf
  simp only
  by_cases h : o % 12 = 11
  · have e1 : (o + 1) / 12 = o / 12 + 1 := by omega
    have e2 : (o + 1) % 12 = 0 := by omega
    rw [e1, e2, h]
    have h13 := daysBeforeMonth_13 (o / 12)
    have hs := daysBeforeMonth_succ (o / 12) 12 (by omega)
    have hy : daysBeforeYear (o / 12 + 1) = daysBeforeYear (o / 12) + daysInYear (o / 12) := rfl
    have e0 : daysBeforeMonth (o / 12 + 1) (0 + 1) = 0 := rfl
    rw [e0, hy, ← h13, hs]
    simp only [Nat.reduceAdd]
    omega
  · have e1 : (o + 1) / 12 = o / 12 := by omega
    have e2 : (o + 1) % 12 = o % 12 + 1 := by omega
    rw [e1, e2, daysBeforeMonth_succ _ (o % 12 + 1) (by omega)]
    omega

theorem firstOf_lt {o o' : Nat} (h : o < o') : (firstOf o).number < (firstOf o').number := by
  induction o' with
  | zero => omega
  | succ k ih =>
    have hs := firstOf_succ k
    have := daysInMonth_pos (k / 12) (k % 12 + 1)
    by_cases hk : o = k
    · subst hk; omega
    · have := ih (by omega); omega

theorem firstOf_le {o o' : Nat} (h : o ≤ o') : (firstOf o).number ≤ (firstOf o').number := by
  rcases Nat.lt_or_eq_of_le h with h | h
  · exact Nat.le_of_lt (firstOf_lt h)
  · rw [h]; exact Nat.le_refl _

/-- The month of a valid date is the one whose days include it. -/
theorem ord_iff {d : Date} (hd : d.Valid) (o : Nat) :
    d.ord = o ↔ (firstOf o).number ≤ d.number ∧ d.number < (firstOf (o + 1)).number := by
  have key : ∀ o : Nat, d.ord = o → (firstOf o).number ≤ d.number ∧ d.number < (firstOf (o + 1)).number := by
    intro o h
    have hy : d.year = o / 12 := by unfold Date.ord at h; have := hd.1; have := hd.2.1; omega
    have hm : d.month = o % 12 + 1 := by unfold Date.ord at h; have := hd.1; have := hd.2.1; omega
    have hs := firstOf_succ o
    have h3 := hd.2.2.1
    have h4 := hd.2.2.2
    rw [hy, hm] at h4
    have e1 : d.number = daysBeforeYear (o / 12) + daysBeforeMonth (o / 12) (o % 12 + 1) + (d.day - 1) := by
      unfold Date.number; rw [hy, hm]
    have e2 : (firstOf o).number = daysBeforeYear (o / 12) + daysBeforeMonth (o / 12) (o % 12 + 1) := by
      unfold Date.number firstOf; simp
    omega
  refine ⟨key o, fun ⟨h1, h2⟩ => ?_⟩
  have hnn : 0 ≤ d.ord := by unfold Date.ord; have := hd.1; omega
  obtain ⟨k1, k2⟩ := key d.ord.toNat (by omega)
  rcases Nat.lt_trichotomy d.ord.toNat o with hlt | he | hgt
  · have := firstOf_le (show d.ord.toNat + 1 ≤ o by omega); omega
  · omega
  · have := firstOf_le (show o + 1 ≤ d.ord.toNat by omega); omega

theorem le_ord_iff {d : Date} (hd : d.Valid) (o : Nat) : (o : Int) ≤ d.ord ↔ (firstOf o).number ≤ d.number := by
  have hnn : 0 ≤ d.ord := by unfold Date.ord; have := hd.1; omega
  obtain ⟨k1, k2⟩ := (ord_iff hd d.ord.toNat).1 (by omega)
  constructor
  · intro h
    have := firstOf_le (show o ≤ d.ord.toNat by omega); omega
  · intro h
    by_cases hc : o ≤ d.ord.toNat
    · omega
    · have := firstOf_le (show d.ord.toNat + 1 ≤ o by omega); omega

end Verif.Calendar
