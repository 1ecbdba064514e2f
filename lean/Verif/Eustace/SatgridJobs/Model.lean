import Verif.Eustace.Satgrid.Iris
import Verif.Calendar
import Verif.Eumopps.Names.Props

/-! Model of bin/lsf_satgrid.sh, bin/eustace_runlsf_satgrid_day.sh and
bin/eustace_runlsf_satgrid_night.sh: the array of jobs which put one day of
satellite data each on a grid. -/

namespace Verif.Eustace.SatgridJobs

open Verif Verif.Calendar Verif.Eumopps.Names Verif.Eustace.Satgrid

/-- The parameters which a launching script exports
(bin/eustace_runlsf_satgrid_day.sh:20-31).  Simplified: names and patterns of
the input and the text of the version are left out. -/
structure Settings where
  start : Date
  days : Nat
  resolution : ℝ
  nlon : Nat
  nlat : Nat
  dayNight : List Char
  maskObs : Nat
  maskValid : Nat
  filterObs : Nat
  filterValid : Nat

/-- bin/eustace_runlsf_satgrid_day.sh:22-31. -/
noncomputable def daySettings : Settings where
  start := ⟨2010, 1, 1⟩
  days := 366
  resolution := 1 / 4
  nlon := 1440
  nlat := 720
  dayNight := ['d', 'a', 'y']
  maskObs := 1
  maskValid := 7
  filterObs := 0
  filterValid := 0

/-- bin/eustace_runlsf_satgrid_night.sh:22-31. -/
noncomputable def nightSettings : Settings where
  start := ⟨2010, 1, 1⟩
  days := 366
  resolution := 1 / 4
  nlon := 1440
  nlat := 720
  dayNight := ['n', 'i', 'g', 'h', 't']
  maskObs := 1
  maskValid := 7
  filterObs := 1
  filterValid := 1

/-- The indices of the jobs, `satgrid[1-$DAYS]`
(bin/eustace_runlsf_satgrid_day.sh:47). -/
def jobs (s : Settings) : List Nat := List.range' 1 s.days

/-- The date of a job, `$STARTDATE + $LSB_JOBINDEX days - 1 days`
(bin/lsf_satgrid.sh:42).  Simplified: `date` of the system counts days of the
Gregorian calendar. -/
def jobDate (s : Settings) (index : Nat) : Date := Date.ofNumber (s.start.number + index - 1)

/-- `date '+%C%y%m%d'` (bin/lsf_satgrid.sh:42). -/
def timeString (d : Date) : List Char :=
  pad 2 (d.year / 100) ++ pad 2 (d.year % 100) ++ pad 2 d.month ++ pad 2 d.day

/-- The name of the output, `satgrid.${DAYNIGHT}.${TIMESTRING}.nc`
(bin/lsf_satgrid.sh:45). -/
def jobOutput (s : Settings) (index : Nat) : List Char :=
  ['s', 'a', 't', 'g', 'r', 'i', 'd', '.'] ++ s.dayNight ++ ['.'] ++ timeString (jobDate s index)
    ++ ['.', 'n', 'c']

/-- The arguments given to `eustace.satgrid_iris` (bin/lsf_satgrid.sh:45); the
start of the axes and the wrapping are those which
src/eustace/satgrid_iris/command.py gives by default. -/
noncomputable def jobArguments (s : Settings) : Arguments where
  y0 := -90
  ys := s.resolution
  yn := s.nlat
  x0 := -180
  xs := s.resolution
  xn := s.nlon
  wrap := true
  maskObs := s.maskObs
  filterObs := s.filterObs
  maskValid := s.maskValid
  filterValid := s.filterValid

/-- The pixels of a file which a job counts as observations of interest
(bin/lsf_satgrid.sh:45 `-qc_mask_obs`, `-qc_filter_obs`). -/
def observed (s : Settings) (qc : List Nat) : List Nat := qcIndices qc s.maskObs s.filterObs

/-- The pixels of a file which a job takes as valid (bin/lsf_satgrid.sh:45
`-qc_mask_valid`, `-qc_filter_valid`). -/
def valid (s : Settings) (qc : List Nat) : List Nat := qcIndices qc s.maskValid s.filterValid

end Verif.Eustace.SatgridJobs
