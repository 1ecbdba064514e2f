import Verif.Months
import Verif.Float32
import Verif.Eumopps.Time.Model

/-! Model of the annual and monthly time bases in src/eumopps/timeutils/timebase.py and the annual and monthly steps in
src/eustace/analysis/advanced_standard/examples/step.py.

Instants are microseconds from 0000-01-01 00:00. Conversions to `numpy.float32` and the division of two float32 are
rounded as the code does (`Verif.Float32`); 64-bit floating point is idealised to rationals. -/
namespace Verif.Eumopps.Periods
open Verif Verif.Calendar Verif.Float32 Verif.Eumopps.Time

/-- Date part of a datetime (Python library). -/
def dateOf (t : Instant) : Date := Date.ofNumber (t / dayUs).toNat

/-- `datetime(d.year, d.month, d.day)` (Python library). -/
def midnight (d : Date) : Instant := d.number * dayUs

/-- `timedelta.total_seconds()` (Python library). -/
def totalSeconds (delta : Int) : ℚ := (delta : ℚ) / 1000000

/-- `timedelta(seconds=x)` for a float: rounded to microseconds (Python library). -/
def deltaSecondsOf (x : ℚ) : Int := ⌊x * 1000000 + 1 / 2⌋

/-- `TimeBaseAnnual.year_fraction`, timebase.py 123-139. -/
def yearFraction (t : Instant) : ℚ :=
  let y := (dateOf t).year
  let yearStart := midnight ⟨y, 1, 1⟩
  let yearEnd := midnight ⟨y + 1, 1, 1⟩
  f32 (f32 (totalSeconds (t - yearStart)) / f32 (totalSeconds (yearEnd - yearStart)))

/-- `TimeBaseAnnual.__init__`, timebase.py 110-117. -/
def annualInit (epoch : Instant) : Except PyErr Int :=
  if yearFraction epoch = 0 then .ok epoch else .error .valueError

/-- `TimeBaseAnnual.datetime_to_number`, timebase.py 141-151. -/
def annualNumber (epoch t : Instant) : ℚ :=
  (((dateOf t).year : ℚ) - (dateOf epoch).year) + yearFraction t

/-- `TimeBaseAnnual.number_to_datetime`, timebase.py 153-168. -/
def annualDatetime (epoch : Instant) (n : ℚ) : Instant :=
  let y : Int := (dateOf epoch).year + ⌊n⌋
  let yearStart := midnight ⟨y.toNat, 1, 1⟩
  let yearEnd := midnight ⟨(y + 1).toNat, 1, 1⟩
  yearStart + deltaSecondsOf ((n - ⌊n⌋) * f32 (totalSeconds (yearEnd - yearStart)))

/-- `TimeBaseMonthly.month_fraction`, timebase.py 218-234. -/
def monthFraction (t : Instant) : ℚ :=
  let d := dateOf t
  let monthStart : Date := ⟨d.year, d.month, 1⟩
  let monthEnd := addMonths monthStart 1
  f32 (f32 (totalSeconds (t - midnight monthStart)) / f32 (totalSeconds (midnight monthEnd - midnight monthStart)))

/-- `TimeBaseMonthly.__init__`, timebase.py 187-194. -/
def monthlyInit (epoch : Instant) : Except PyErr Int :=
  if monthFraction epoch = 0 then .ok epoch else .error .valueError

/-- `TimeBaseMonthly.datetime_to_number`, timebase.py 236-239. -/
def monthlyNumber (epoch t : Instant) : ℚ :=
  ((((dateOf t).year * 12 + (dateOf t).month : Nat) : ℚ) - (((dateOf epoch).year * 12 + (dateOf epoch).month : Nat) : ℚ))
    + monthFraction t

/-- `TimeBaseMonthly.number_to_datetime`, timebase.py 242-254 (`epoch + relativedelta`: the time of day is carried along). -/
def monthlyDatetime (epoch : Instant) (n : ℚ) : Instant :=
  let monthStart := addMonths (dateOf epoch) ⌊n⌋
  let monthEnd := addMonths monthStart 1
  (midnight monthStart + epoch % dayUs)
    + deltaSecondsOf ((n - ⌊n⌋) * f32 (totalSeconds (midnight monthEnd - midnight monthStart)))

/-- `StepAnnual.timebase`, examples/step.py 41-44: the epoch of the time base. -/
def annualEpoch (start : Instant) : Except PyErr Int := annualInit (midnight ⟨(dateOf start).year, 1, 1⟩)

/-- `StepAnnual.index_at_time`, examples/step.py 46-48. -/
def annualIndex (start t : Instant) : Except PyErr Int :=
  (annualEpoch start).map fun epoch => ⌊annualNumber epoch t⌋

/-- `StepAnnual.time_at_index`, examples/step.py 50-52. -/
def annualTime (start : Instant) (i : Int) : Except PyErr Int :=
  (annualEpoch start).map fun epoch => (annualDatetime epoch i)

/-- `StepAnnual.count`, examples/step.py 36-39. -/
def annualCount (start stop : Instant) : Except PyErr Int :=
  (annualEpoch start).map fun epoch => (intOf (annualNumber epoch stop) + 1)

/-- `StepMonthly.timebase`, examples/step.py 111-114. -/
def monthlyEpoch (start : Instant) : Except PyErr Int :=
  monthlyInit (midnight ⟨(dateOf start).year, (dateOf start).month, 1⟩)

/-- `StepMonthly.index_at_time`, examples/step.py 116-118. -/
def monthlyIndex (start t : Instant) : Except PyErr Int :=
  (monthlyEpoch start).map fun epoch => ⌊monthlyNumber epoch t⌋

/-- `StepMonthly.time_at_index`, examples/step.py 120-122. -/
def monthlyTime (start : Instant) (i : Int) : Except PyErr Int :=
  (monthlyEpoch start).map fun epoch => (monthlyDatetime epoch i)

/-- `StepMonthly.count`, examples/step.py 106-109. -/
def monthlyCount (start stop : Instant) : Except PyErr Int :=
  (monthlyEpoch start).map fun epoch => (intOf (monthlyNumber epoch stop) + 1)

end Verif.Eumopps.Periods
