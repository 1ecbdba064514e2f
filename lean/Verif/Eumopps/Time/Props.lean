import Mathlib.Tactic.Linarith
import Mathlib.Tactic.NormNum
import Mathlib.Tactic.FieldSimp
import Mathlib.Tactic.Ring
import Verif.Eumopps.Time.Model

/-! Properties C12, C13, C14 and C64. -/
namespace Verif.Eumopps.Time
open Verif

/-- The instant lies a whole number of seconds after (or before) the base. -/
def WholeSeconds (base d : Instant) : Prop := ∃ n : Int, d = base + n * secUs

theorem whole_mod {base d : Instant} : WholeSeconds base d ↔ (d - base) % secUs = 0 := by
  unfold WholeSeconds secUs
  constructor
  · rintro ⟨n, rfl⟩; omega
  · intro h; exact ⟨(d - base) / 1000000, by omega⟩

/-! ### Days -/

/-- The number is the elapsed time in days, plus an error of (nearly) one day for each microsecond of a second. -/
theorem daysToNumber_eq (epoch d : Instant) :
    daysToNumber epoch d = ((d - epoch : Int) : ℚ) / dayUs + (((d - epoch) % secUs : Int) : ℚ) * (1 / 1000000 - 1 / dayUs) := by
  have h : (d - epoch) = ((d - epoch) / dayUs) * dayUs + ((d - epoch) % dayUs / secUs) * secUs + (d - epoch) % secUs := by
    unfold dayUs secUs; omega
  have hq : ((d - epoch : Int) : ℚ) = (((d - epoch) / dayUs : Int) : ℚ) * dayUs + (((d - epoch) % dayUs / secUs : Int) : ℚ) * secUs
      + (((d - epoch) % secUs : Int) : ℚ) := by
    exact_mod_cast congrArg (fun x : Int => (x : ℚ)) h
  unfold daysToNumber sub
  simp only
  rw [hq]
  have h1 : ((dayUs : Int) : ℚ) = 86400000000 := by norm_num [dayUs]
  have h2 : ((secUs : Int) : ℚ) = 1000000 := by norm_num [secUs]
  rw [h1, h2]
  ring

/-- **C14.** For instants a whole number of seconds from the base the number is exactly the elapsed time in days. The full
claim (every datetime) is false, see `c14_violated`. -/
theorem c14_elapsed_partial {epoch d : Instant} (h : WholeSeconds epoch d) :
    daysToNumber epoch d = ((d - epoch : Int) : ℚ) / dayUs := by
  rw [daysToNumber_eq, whole_mod.1 h]; simp

/-- **C14.** On whole seconds conversion is strictly increasing. -/
theorem c14_strictMono_partial {epoch d d' : Instant} (h : WholeSeconds epoch d) (h' : WholeSeconds epoch d') :
    d < d' ↔ daysToNumber epoch d < daysToNumber epoch d' := by
  rw [c14_elapsed_partial h, c14_elapsed_partial h']
  have hd : (0 : ℚ) < ((dayUs : Int) : ℚ) := by norm_num [dayUs]
  rw [div_lt_div_iff_of_pos_right hd]
  constructor
  · intro hlt; exact_mod_cast (by omega : d - epoch < d' - epoch)
  · intro hlt
    have : d - epoch < d' - epoch := by exact_mod_cast hlt
    omega

/-- **C14.** On whole seconds converting back returns the datetime. -/
theorem c14_roundtrip_partial {epoch d : Instant} (h : WholeSeconds epoch d) :
    numberToDays epoch (daysToNumber epoch d) = d := by
  rw [c14_elapsed_partial h]
  unfold numberToDays deltaDays
  have hd : ((dayUs : Int) : ℚ) ≠ 0 := by norm_num [dayUs]
  rw [div_mul_cancel₀ _ hd]
  have : ⌊((d - epoch : Int) : ℚ) + 1 / 2⌋ = d - epoch := by
    rw [Int.floor_eq_iff]; constructor <;> linarith
  rw [this]; omega

/-- **C14.** Converting a number of whole microseconds to a datetime gives the instant that many days after the base. -/
theorem c14_back (epoch : Instant) (k : Int) : numberToDays epoch ((k : ℚ) / dayUs) = epoch + k := by
  unfold numberToDays deltaDays
  have hd : ((dayUs : Int) : ℚ) ≠ 0 := by norm_num [dayUs]
  rw [div_mul_cancel₀ _ hd]
  have : ⌊(k : ℚ) + 1 / 2⌋ = k := by rw [Int.floor_eq_iff]; constructor <;> linarith
  rw [this]

/-- **C14, negative result.** With a fraction of a second the number is wrong (microseconds are added as if a second were a
day): half a second counts as half a day, a later datetime can get a smaller number, and converting back does not return
the datetime. -/
theorem c14_violated :
    daysToNumber 0 500000 ≥ 1 / 2 ∧ (∃ d d' : Instant, d < d' ∧ daysToNumber 0 d' < daysToNumber 0 d) ∧
    (∃ d : Instant, numberToDays 0 (daysToNumber 0 d) ≠ d) := by
  refine ⟨?_, ⟨500000, 1000000, by norm_num, ?_⟩, ⟨500000, ?_⟩⟩
  · rw [daysToNumber_eq]; norm_num [dayUs, secUs]
  · rw [daysToNumber_eq, daysToNumber_eq]; norm_num [dayUs, secUs]
  · rw [daysToNumber_eq]; unfold numberToDays deltaDays; norm_num [dayUs, secUs]

/-! ### Seconds -/

/-- **C13.** The number of seconds is the elapsed time rounded down to whole seconds. -/
theorem c13_number (epoch d : Instant) : secondsToNumber epoch d = (d - epoch) / secUs := by
  unfold secondsToNumber sub dayUs secUs; simp only; omega

/-- **C13.** Converting to seconds and back returns the same datetime exactly for whole seconds after the base (all
others lose just their fraction of a second). -/
theorem c13_roundtrip (epoch d : Instant) :
    numberToSeconds epoch (secondsToNumber epoch d) = d - (d - epoch) % secUs ∧
    (numberToSeconds epoch (secondsToNumber epoch d) = d ↔ WholeSeconds epoch d) := by
  have h1 : numberToSeconds epoch (secondsToNumber epoch d) = d - (d - epoch) % secUs := by
    rw [c13_number]; unfold numberToSeconds deltaSeconds secUs; omega
  refine ⟨h1, ?_⟩
  rw [h1, whole_mod]; omega

/-- **C13.** Every number of seconds survives conversion to a datetime and back. -/
theorem c13_roundtrip_number (epoch : Instant) (n : Int) : secondsToNumber epoch (numberToSeconds epoch n) = n := by
  rw [c13_number]; unfold numberToSeconds deltaSeconds secUs; omega

example : WholeSeconds 5 (5 - 3 * 1000000) := ⟨-3, by decide⟩

/-! ### Daily steps -/

theorem intOf_nonneg {x : ℚ} (h : 0 ≤ x) : intOf x = ⌊x⌋ := by simp [intOf, h]

theorem floor_div_int (a b : Int) (hb : 0 < b) : ⌊(a : ℚ) / b⌋ = a / b := by
  have hbq : (0 : ℚ) < (b : ℚ) := by exact_mod_cast hb
  rw [Int.floor_eq_iff, le_div_iff₀ hbq, div_lt_iff₀ hbq]
  constructor
  · exact_mod_cast Int.ediv_mul_le a (Int.ne_of_gt hb)
  · have := Int.lt_ediv_add_one_mul_self a hb
    exact_mod_cast this

theorem ceil_div_int (a b : Int) (hb : 0 < b) : ⌈(a : ℚ) / b⌉ = -((-a) / b) := by
  have : (a : ℚ) / b = -(((-a : Int) : ℚ) / b) := by push_cast; ring
  rw [this, Int.ceil_neg, floor_div_int _ _ hb]

/-- Index of a whole-second instant: the day for instants at or after the start; rounding towards the start before. -/
theorem dailyIndex_whole {start t : Instant} (h : WholeSeconds start t) :
    dailyIndex start t = if start ≤ t then (t - start) / dayUs else -((start - t) / dayUs) := by
  unfold dailyIndex
  rw [c14_elapsed_partial h]
  have hd : (0 : Int) < dayUs := by decide
  have hdq : (0 : ℚ) < ((dayUs : Int) : ℚ) := by exact_mod_cast hd
  unfold intOf
  by_cases hst : start ≤ t
  · have h0 : (0 : ℚ) ≤ ((t - start : Int) : ℚ) / dayUs :=
      div_nonneg (by exact_mod_cast (by omega : (0 : Int) ≤ t - start)) hdq.le
    rw [if_pos h0, if_pos hst, floor_div_int _ _ hd]
  · have h0 : ¬ (0 : ℚ) ≤ ((t - start : Int) : ℚ) / dayUs := by
      rw [not_le]
      exact div_neg_of_neg_of_pos (by exact_mod_cast (by omega : t - start < 0)) hdq
    rw [if_neg h0, if_neg hst, ceil_div_int _ _ hd]
    congr 2; omega

/-- **C12.** The time of step `i` is `i` days after the start, and its index is `i` — for every step number. -/
theorem c12_inverse (start : Instant) (i : Int) :
    dailyTime start i = start + i * dayUs ∧ (0 ≤ i → dailyIndex start (dailyTime start i) = i) := by
  have ht : dailyTime start i = start + i * dayUs := by
    unfold dailyTime
    have : (i : ℚ) = ((i * dayUs : Int) : ℚ) / dayUs := by
      have hd : ((dayUs : Int) : ℚ) ≠ 0 := by norm_num [dayUs]
      push_cast; rw [mul_div_assoc, div_self hd, mul_one]
    rw [this, c14_back]
  refine ⟨ht, fun hi => ?_⟩
  have hw : WholeSeconds start (start + i * dayUs) := ⟨i * 86400, by unfold dayUs secUs; omega⟩
  rw [ht, dailyIndex_whole hw, if_pos (by unfold dayUs; omega)]
  unfold dayUs; omega

/-- **C12.** From the start on, an instant (on a whole second) gets index `i` exactly if it lies in the `i`-th day after the
start. Missing from the full claim: instants before the start and fractions of a second, see `c12_violated`. -/
theorem c12_day_partial {start t : Instant} (h : WholeSeconds start t) (hst : start ≤ t) (i : Int) :
    dailyIndex start t = i ↔ dailyTime start i ≤ t ∧ t < dailyTime start (i + 1) := by
  rw [dailyIndex_whole h, if_pos hst, (c12_inverse start i).1, (c12_inverse start (i + 1)).1]
  unfold dayUs; omega

/-- **C12.** No instant a day or more before the start gets an index of an operation. -/
theorem c12_before {start t : Instant} (h : WholeSeconds start t) (hst : t ≤ start - dayUs) : dailyIndex start t < 0 := by
  rw [dailyIndex_whole h, if_neg (by unfold dayUs at hst; omega)]
  unfold dayUs at *; omega

/-- **C12.** With start and end at the same time of day, the number of steps is the number of days from start to end
inclusive (zero if the end is the day before the start). -/
theorem c12_count (start : Instant) (n : Nat) : dailyCount start (start + ((n : Int) - 1) * dayUs) = n := by
  have hw : WholeSeconds start (start + ((n : Int) - 1) * dayUs) :=
    ⟨((n : Int) - 1) * 86400, by unfold dayUs secUs; omega⟩
  have := dailyIndex_whole hw
  unfold dailyIndex at this
  unfold dailyCount
  rw [this]
  split
  · unfold dayUs at *; omega
  · rename_i h
    unfold dayUs at *
    have : n = 0 := by omega
    subst this; omega

/-- **C12.** Whenever the end is a whole-second instant not before the start, the steps are exactly those days whose start
is not after the end. -/
theorem c12_count_days {start stop : Instant} (h : WholeSeconds start stop) (hst : start ≤ stop) (i : Int) (hi : 0 ≤ i) :
    i < dailyCount start stop ↔ dailyTime start i ≤ stop := by
  have := dailyIndex_whole h
  unfold dailyIndex at this
  unfold dailyCount
  rw [this, if_pos hst, (c12_inverse start i).1]
  unfold dayUs; omega

/-- **C12, negative result.** A file from the afternoon before the start belongs to step 0; a file of the last microsecond
of the first day belongs to step 1. -/
theorem c12_violated (start : Instant) :
    dailyIndex start (start - 12 * 3600 * secUs) = 0 ∧ dailyIndex start (start + dayUs - 1) = 1 := by
  constructor
  · have hw : WholeSeconds start (start - 12 * 3600 * secUs) := ⟨-43200, by unfold secUs; omega⟩
    rw [dailyIndex_whole hw, if_neg (by unfold secUs; omega)]
    unfold dayUs secUs; omega
  · unfold dailyIndex
    have e : start + dayUs - 1 - start = dayUs - 1 := by omega
    rw [daysToNumber_eq, e]
    have : (0 : ℚ) ≤ ((dayUs - 1 : Int) : ℚ) / dayUs + (((dayUs - 1) % secUs : Int) : ℚ) * (1 / 1000000 - 1 / dayUs) := by
      norm_num [dayUs, secUs]
    rw [intOf_nonneg this, Int.floor_eq_iff]
    norm_num [dayUs, secUs]

/-- **C12, negative result.** If the end is earlier in its day than the start in its own, the last calendar day has no
step: from noon of one day to six o'clock of the next there is one step, not two. -/
theorem c12_count_violated : dailyCount (12 * 3600 * secUs) (30 * 3600 * secUs) = 1 := by
  have hw : WholeSeconds (12 * 3600 * secUs) (30 * 3600 * secUs) := ⟨18 * 3600, by decide⟩
  have := dailyIndex_whole hw
  unfold dailyIndex at this
  unfold dailyCount
  rw [this]; decide

/-! ### Epoch-indexed daily step -/

/-- **C64.** If the period starts at the epoch, the epoch-indexed step behaves exactly as the daily step. -/
theorem c64_at_epoch_partial (epoch stop t : Instant) (i : Int) :
    epochCount epoch epoch stop = dailyCount epoch stop ∧ epochIndex epoch t = dailyIndex epoch t ∧
      epochTime epoch i = dailyTime epoch i := by
  have h0 : daysToNumber epoch epoch = 0 := by rw [daysToNumber_eq]; simp
  refine ⟨?_, rfl, rfl⟩
  unfold epochCount dailyCount; rw [h0, sub_zero]

/-- **C64, negative result.** If the period starts `k > 0` days after the epoch, the number of steps is still that of the
period, but step 0 has the time of the epoch and not of the start, the day of the start has index `k`, and no day from the
start on gets index 0 (so an operation over `n ≤ k` days gets none of its input files). -/
theorem c64_violated (epoch : Instant) (k : Int) (hk : 0 < k) (n : Nat) :
    let start := epoch + k * dayUs
    epochCount epoch start (start + ((n : Int) - 1) * dayUs) = n ∧
    epochTime epoch 0 = epoch ∧ epochTime epoch 0 ≠ start ∧ epochIndex epoch start = k ∧
    (n ≤ k → ∀ j : Int, 0 ≤ j → ¬ (epochIndex epoch (start + j * dayUs) < n)) := by
  intro start
  have hidx : ∀ j : Int, 0 ≤ j → epochIndex epoch (start + j * dayUs) = k + j := by
    intro j hj
    have hw : WholeSeconds epoch (start + j * dayUs) := ⟨(k + j) * 86400, by simp only [start]; unfold dayUs secUs; omega⟩
    have := dailyIndex_whole hw
    unfold epochIndex; unfold dailyIndex at this
    rw [this, if_pos (by simp only [start]; unfold dayUs; omega)]
    simp only [start]; unfold dayUs; omega
  have hnum : ∀ j : Int, daysToNumber epoch (epoch + j * dayUs) = j := by
    intro j
    rw [c14_elapsed_partial ⟨j * 86400, by unfold dayUs secUs; omega⟩]
    have hd : ((dayUs : Int) : ℚ) ≠ 0 := by norm_num [dayUs]
    have : epoch + j * dayUs - epoch = j * dayUs := by omega
    rw [this]; push_cast; rw [mul_div_assoc, div_self hd, mul_one]
  have ht0 : epochTime epoch 0 = epoch := by
    have := (c12_inverse epoch 0).1
    simpa [epochTime, dailyTime] using this
  refine ⟨?_, ht0, ?_, ?_, ?_⟩
  · unfold epochCount
    have e : start + ((n : Int) - 1) * dayUs = epoch + (k + ((n : Int) - 1)) * dayUs := by
      simp only [start]; ring
    rw [e, hnum, hnum]
    have : (((k + ((n : Int) - 1) : Int) : ℚ) - (k : ℚ)) = (((n : Int) - 1 : Int) : ℚ) := by push_cast; ring
    rw [this]
    unfold intOf
    split <;> simp
  · rw [ht0]; simp only [start]; unfold dayUs; omega
  · have := hidx 0 (by omega); simpa using this
  · intro hn j hj
    rw [hidx j hj]; omega

end Verif.Eumopps.Time
