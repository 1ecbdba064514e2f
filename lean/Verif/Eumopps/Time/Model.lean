import Mathlib.Data.Rat.Floor
import Verif.Py

/-! Model of src/eumopps/timeutils/timebase.py (days and seconds) and of the daily steps in
src/eumopps/catalogue/step.py and src/eustace/analysis/advanced_standard/fileio/step.py.

Instants are integer microseconds from a fixed midnight (`datetime` has microsecond resolution; its range limit is not
modelled). Floating point numbers are idealised to rationals. -/
namespace Verif.Eumopps.Time
open Verif

/-- `datetime.datetime`: microseconds from a fixed midnight. -/
scoped notation "Instant" => Int

/-- Microseconds in a day and in a second. -/
def dayUs : Int := 86400000000
def secUs : Int := 1000000

/-- `datetime.timedelta` in its normal form: 0 ≤ seconds < 86400, 0 ≤ microseconds < 10^6. -/
structure TimeDelta where
  days : Int
  seconds : Int
  microseconds : Int
  deriving DecidableEq, Repr

/-- Difference of two datetimes (Python library). -/
def sub (d e : Instant) : TimeDelta := ⟨(d - e) / dayUs, (d - e) % dayUs / secUs, (d - e) % secUs⟩

/-- `timedelta(days=n)` for a number `n`: rounded to whole microseconds (Python library; the direction of rounding of
exact halves is not relied on). -/
def deltaDays (n : ℚ) : Int := ⌊n * dayUs + 1 / 2⌋

/-- `timedelta(seconds=n)` for an integer `n`. -/
def deltaSeconds (n : Int) : Int := n * secUs

/-- Python `int(x)` of a float: truncation toward zero. -/
def intOf (x : ℚ) : Int := if 0 ≤ x then ⌊x⌋ else ⌈x⌉

/-- `TimeBaseDays.datetime_to_number`, timebase.py 53-56. -/
def daysToNumber (epoch d : Instant) : ℚ :=
  let td := sub d epoch
  (td.days : ℚ) + (td.seconds : ℚ) / 86400 + (td.microseconds : ℚ) / 1000000

/-- `TimeBaseDays.number_to_datetime`, timebase.py 58-60. -/
def numberToDays (epoch : Instant) (n : ℚ) : Instant := epoch + deltaDays n

/-- `TimeBaseSeconds.datetime_to_number`, timebase.py 86-89 (64-bit overflow cannot occur within the range of datetime). -/
def secondsToNumber (epoch d : Instant) : Int :=
  let td := sub d epoch
  td.days * 86400 + td.seconds

/-- `TimeBaseSeconds.number_to_datetime`, timebase.py 91-93. -/
def numberToSeconds (epoch : Instant) (n : Int) : Instant := epoch + deltaSeconds n

/-- `StepDaily.count`, step.py 88-91. -/
def dailyCount (start stop : Instant) : Int := intOf (daysToNumber start stop) + 1

/-- `StepDaily.index_at_time`, step.py 97-99. -/
def dailyIndex (start t : Instant) : Int := intOf (daysToNumber start t)

/-- `StepDaily.time_at_index`, step.py 101-103. -/
def dailyTime (start : Instant) (i : Int) : Instant := numberToDays start i

/-- `StepDailyEpoch.count`, fileio/step.py 19-22. -/
def epochCount (epoch start stop : Instant) : Int := intOf (daysToNumber epoch stop - daysToNumber epoch start) + 1

/-- `StepDailyEpoch.index_at_time`, fileio/step.py 43-44. -/
def epochIndex (epoch : Instant) (t : Instant) : Int := intOf (daysToNumber epoch t)

/-- `StepDailyEpoch.time_at_index`, fileio/step.py 46-47. -/
def epochTime (epoch : Instant) (i : Int) : Instant := numberToDays epoch i

end Verif.Eumopps.Time
