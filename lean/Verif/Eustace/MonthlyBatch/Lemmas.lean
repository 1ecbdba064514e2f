import Verif.Eustace.AnnualBatch.Outputs
import Verif.Eustace.MonthlyBatch.Model

/-! C149, C150: specification and lemmas. -/

namespace Verif.Eustace.MonthlyBatch

open Verif Verif.Py Verif.Calendar Verif.Eumopps.Catalogue Verif.Eumopps.Placeholder Verif.Eumopps.Periods Verif.Eumopps.Time Verif.Eumopps.Names
open Verif.Eustace.AnnualBatch (epoch daysSince range2 place searchsorted dateTimeOf nameToIndex policy addEntries dayStart FileOn
  Slot bind_ok Outcome policy_outcome midnight_mod epoch_mod' dayStart_eq arith_year arith_period floor_daysSince daysSince_midnight intOf_int
  mem_range2 sorted_range2)

/-! ### Specification -/

/-- The number of the month of a time: months are numbered from January of year 0. -/
def monthOf (t : Int) : Nat := 12 * (dateOf t).year + (dateOf t).month - 1

/-- The days of month `o` which have some time in the period from `start` to `stop`, in order. -/
structure IsDays (start stop : Int) (o : Nat) (l : List Int) : Prop where
  sorted : l.Pairwise (· < ·)
  mem : ∀ D, D ∈ l ↔ (monthStart o ≤ dayStart D ∧ dayStart D < monthStart (o + 1)) ∧ start < dayStart (D + 1) ∧ dayStart D ≤ stop

/-- Some file has a time in the month. -/
def MonthHasFile (entries : List FileEntry) (o : Nat) : Prop :=
  ∃ e ∈ entries, ∃ t, e.time = some t ∧ monthStart o ≤ t ∧ t < monthStart (o + 1)

/-- Times of files at whole seconds. -/
def GoodTimes (entries : List FileEntry) : Prop :=
  ∀ e ∈ entries, ∃ t, e.time = some t ∧ 0 ≤ t ∧ t % secUs = 0

/-! ### Months -/

theorem ord_monthOf (t : Int) : (dateOf t).ord = (monthOf t : Int) := by
  have := (dateOf_valid t).1
  unfold Date.ord monthOf
  omega

theorem monthOf_ord (t : Int) : (dateOf t).ord.toNat = monthOf t := by rw [ord_monthOf]; rfl

theorem bounds {t : Int} (h : 0 ≤ t) : monthStart (monthOf t) ≤ t ∧ t < monthStart (monthOf t + 1) := by
  have := month_bounds h
  rwa [monthOf_ord] at this

theorem month_index {start t : Int} (ht : 0 ≤ t) (hsec : t % secUs = 0) (k : Int) (hk : 0 ≤ (monthOf start : Int) + k) :
    monthlyIndex start t = .ok k ↔
      monthStart ((monthOf start : Int) + k).toNat ≤ t ∧ t < monthStart (((monthOf start : Int) + k).toNat + 1) := by
  have := c15_monthly_index_partial (start := start) ht hsec k (by rw [ord_monthOf]; exact hk)
  rwa [ord_monthOf] at this

theorem month_time (start : Int) (k : Int) (hk : 0 ≤ (monthOf start : Int) + k) :
    monthlyTime start k = .ok (monthStart ((monthOf start : Int) + k).toNat) := by
  have := (c15_monthly_time start k (by rw [ord_monthOf]; exact hk)).1
  rwa [ord_monthOf] at this

theorem monthStart_mod (o : Nat) : monthStart o % 86400000000 = 0 := by unfold monthStart; exact midnight_mod _

/-- Day number of a month's start. -/
theorem day_month (o : Nat) : intOf (daysSince (monthStart o)) = (monthStart o - epoch) / dayUs := by
  rw [daysSince_midnight (monthStart_mod o), intOf_int]

theorem dayNumbers_ok (start : Int) (i : Int) (hi : 0 ≤ (monthOf start : Int) + i) :
    dayNumbersInMonth start i = .ok (range2 ((monthStart ((monthOf start : Int) + i).toNat - epoch) / dayUs)
      ((monthStart (((monthOf start : Int) + i).toNat + 1) - epoch) / dayUs)) := by
  have : ((monthOf start : Int) + (i + 1)).toNat = ((monthOf start : Int) + i).toNat + 1 := by omega
  unfold dayNumbersInMonth
  rw [month_time start i hi, month_time start (i + 1) (by omega), this, bind_ok, bind_ok, day_month, day_month]

/-- The days between limits, for any limits. -/
theorem available_ok (start : Int) (lo hi : ℚ) (i : Int) (h : 0 ≤ (monthOf start : Int) + i) :
    ∃ l, available start lo hi i = .ok l ∧ l.Pairwise (· < ·) ∧ ∀ D, D ∈ l ↔
      (monthStart ((monthOf start : Int) + i).toNat ≤ dayStart D ∧
        dayStart D < monthStart (((monthOf start : Int) + i).toNat + 1)) ∧ lo ≤ (D : ℚ) ∧ (D : ℚ) ≤ hi := by
  unfold available
  rw [dayNumbers_ok start i h, bind_ok]
  refine ⟨_, rfl, (sorted_range2 _ _).filter _, fun D => ?_⟩
  rw [List.mem_filter, mem_range2, Bool.and_eq_true, decide_eq_true_iff, decide_eq_true_iff]
  refine and_congr ?_ Iff.rfl
  rw [dayStart_eq]
  exact arith_year epoch_mod' (monthStart_mod _) (monthStart_mod _)

/-- The limits rounded down: the days with some time in the period. -/
theorem available_floor {start stop : Int} (hs : start % secUs = 0) (he : stop % secUs = 0) (s0 : Int) (i : Int)
    (h : 0 ≤ (monthOf s0 : Int) + i) :
    ∃ l, available s0 (⌊daysSince start⌋ : Int) (⌊daysSince stop⌋ : Int) i = .ok l ∧
      IsDays start stop ((monthOf s0 : Int) + i).toNat l := by
  obtain ⟨l, h1, h2, h3⟩ := available_ok s0 (⌊daysSince start⌋ : Int) (⌊daysSince stop⌋ : Int) i h
  refine ⟨l, h1, h2, fun D => ?_⟩
  rw [h3]
  refine and_congr Iff.rfl ?_
  rw [Int.cast_le, Int.cast_le, floor_daysSince hs, floor_daysSince he, dayStart_eq, dayStart_eq]
  exact arith_period

/-- Days of a month are determined by the specification. -/
theorem IsDays.unique {start stop : Int} {o : Nat} {l l' : List Int} (h : IsDays start stop o l) (h' : IsDays start stop o l') : l = l' := by
  refine List.Perm.eq_of_pairwise (le := (· < ·)) (fun a b _ _ h1 h2 => by omega) h.sorted h'.sorted ?_
  rw [List.perm_ext_iff_of_nodup (h.sorted.imp fun {a b} h => by omega) (h'.sorted.imp fun {a b} h => by omega)]
  intro D
  rw [h.mem, h'.mem]

/-- Number of steps: months from start to stop. -/
def steps (start stop : Int) : Nat := monthOf stop - monthOf start + 1

theorem count_steps {start stop : Int} (h0 : 0 ≤ stop) (hsec : stop % secUs = 0) (hle : monthOf start ≤ monthOf stop) :
    monthlyCount start stop = .ok (steps start stop : Int) := by
  obtain ⟨k, hk, hc⟩ := c15_monthly_count h0 (start := start) (by rw [ord_monthOf, ord_monthOf]; omega)
  have := (month_index (start := start) h0 hsec ((monthOf stop : Int) - monthOf start) (by omega)).2
    (by
      have e : ((monthOf start : Int) + ((monthOf stop : Int) - monthOf start)).toNat = monthOf stop := by omega
      rw [e]
      exact bounds h0)
  rw [hk] at this
  injection this with this
  rw [hc, this]
  unfold steps
  congr 1
  omega

/-- A comprehension over steps succeeds if each of its elements does. -/
theorem overSteps_ok {α : Type} {start stop : Int} (h0 : 0 ≤ stop) (hsec : stop % secUs = 0) (hle : monthOf start ≤ monthOf stop)
    {f : Nat → Except PyErr α} (hf : ∀ i < steps start stop, ∃ a, f i = .ok a) :
    ∃ L, overSteps start stop f = .ok L ∧ L.length = steps start stop ∧ ∀ i < steps start stop, ∃ a, L[i]? = some a ∧ f i = .ok a := by
  unfold overSteps
  rw [count_steps h0 hsec hle, bind_ok, Int.toNat_natCast]
  obtain ⟨L, hL⟩ := mapM_total (f := f) (l := List.range (steps start stop)) (fun i hi => hf i (by simpa using hi))
  obtain ⟨h1, h2⟩ := mapM_ok hL
  refine ⟨L, hL, by simpa using h1, fun i hi => h2 i i (by simp [hi])⟩

end Verif.Eustace.MonthlyBatch
