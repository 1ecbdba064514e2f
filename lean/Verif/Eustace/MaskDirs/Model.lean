/-! Model of the directories through which the stages of the post-processing
hand on their flags: src/eustace/postprocess/lsf/submit_*.sh.

Simplified: only directories below /work/scratch/cmorice/masking/ are modelled,
each by the version and the name below it; values of the settings are texts
without `/`, and a `/` at the end means nothing.  The names of the files have
the iteration in them (for example src/eustace/postprocess/calendar_check.py:168
and cell_percentile_threshold.py:99), so that what is handed on is a directory
with an iteration. -/

namespace Verif.Eustace.MaskDirs

abbrev Text := List Char

/-- The exported settings of one script
(src/eustace/postprocess/lsf/submit_mask_apply.sh:16-36, which has all). -/
structure Settings where
  version : Text
  iteration : Nat
  climatology : Text
  largescale : Text
  constraint : Text
  window : Text
  count : Text
  outlierWindow : Text
  outlierCount : Text
deriving DecidableEq

/-- A directory `/work/scratch/cmorice/masking/<version>/<name>/`
(src/eustace/postprocess/lsf/submit_threshold_flags.sh:29). -/
structure Dir where
  version : Text
  name : Text
deriving DecidableEq

/-- What a stage reads and writes: directories with an iteration. -/
structure Stage where
  reads : List (Dir × Nat)
  writes : Option (Dir × Nat)

/-- The scripts (src/eustace/postprocess/lsf/). -/
inductive Script
  | threshold | window | calendar | outlier | outlierWindow | merge | percentile | location | apply
deriving DecidableEq

/-- submit_threshold_flags.sh:29. -/
def threshold (s : Settings) : Stage :=
  ⟨[], some (⟨s.version, "threshold_C".toList ++ s.climatology ++ "_L".toList ++ s.largescale ++ "_T".toList
    ++ s.constraint⟩, s.iteration)⟩

/-- submit_masking_window.sh:32-33. -/
def window (s : Settings) : Stage :=
  ⟨[(⟨s.version, "threshold_C".toList ++ s.climatology ++ "_L".toList ++ s.largescale ++ "_T".toList
      ++ s.constraint⟩, s.iteration)],
    some (⟨s.version, "threshold_C".toList ++ s.climatology ++ "_L".toList ++ s.largescale ++ "_T".toList
      ++ s.constraint ++ "_window_W".toList ++ s.window ++ "_C".toList ++ s.count⟩, s.iteration)⟩

/-- submit_masking_calendar.sh:37-38. -/
def calendar (s : Settings) : Stage :=
  ⟨[(⟨s.version, "threshold_C".toList ++ s.climatology ++ "_L".toList ++ s.largescale ++ "_T".toList
      ++ s.constraint ++ "_window_W".toList ++ s.window ++ "_C".toList ++ s.count⟩, s.iteration)],
    some (⟨s.version, "threshold_C".toList ++ s.climatology ++ "_L".toList ++ s.largescale ++ "_T".toList
      ++ s.constraint ++ "_window_W".toList ++ s.window ++ "_C".toList ++ s.count
      ++ "_calendar_extended".toList⟩, s.iteration)⟩

/-- submit_outlier_flagging.sh:27. -/
def outlier (s : Settings) : Stage := ⟨[], some (⟨s.version, "outlier_flags".toList⟩, s.iteration)⟩

/-- submit_outlier_window.sh:20-27; its `WINDOW_RANGE` and `COUNT_THRESHOLD`
are those called `OUTLIER_...` in the other scripts. -/
def outlierWindow (s : Settings) : Stage :=
  ⟨[(⟨s.version, "outlier_flags".toList⟩, s.iteration)],
    some (⟨s.version, "outlier_window_W".toList ++ s.outlierWindow ++ "_C".toList ++ s.outlierCount⟩,
      s.iteration)⟩

/-- submit_merge_flag_files.sh:37-39. -/
def merge (s : Settings) : Stage :=
  ⟨[(⟨s.version, "outlier_window_W".toList ++ s.outlierWindow ++ "_C".toList ++ s.outlierCount⟩, s.iteration),
    (⟨s.version, "threshold_C".toList ++ s.climatology ++ "_L".toList ++ s.largescale ++ "_T".toList
      ++ s.constraint ++ "_window_W".toList ++ s.window ++ "_C".toList ++ s.count
      ++ "_calendar_extended".toList⟩, s.iteration)],
    some (⟨s.version, "outlier_window_W".toList ++ s.outlierWindow ++ "_C".toList ++ s.outlierCount
      ++ "_threshold_C".toList ++ s.climatology ++ "_L".toList ++ s.largescale ++ "_T".toList
      ++ s.constraint ++ "_window_W".toList ++ s.window ++ "_C".toList ++ s.count
      ++ "_calendar_extended".toList⟩, s.iteration)⟩

/-- submit_cell_percentile_calculation.sh:24. -/
def percentile (s : Settings) : Stage := ⟨[], some (⟨s.version, "cell_percentiles".toList⟩, s.iteration)⟩

/-- submit_location_flags.sh:25-26. -/
def location (s : Settings) : Stage :=
  ⟨[(⟨s.version, "cell_percentiles".toList⟩, s.iteration)],
    some (⟨s.version, "location_threshold".toList⟩, s.iteration)⟩

/-- submit_mask_apply.sh:41-42; its output is elsewhere (line 19). -/
def applyMask (s : Settings) : Stage :=
  ⟨[(⟨s.version, "outlier_window_W".toList ++ s.outlierWindow ++ "_C".toList ++ s.outlierCount
      ++ "_threshold_C".toList ++ s.climatology ++ "_L".toList ++ s.largescale ++ "_T".toList
      ++ s.constraint ++ "_window_W".toList ++ s.window ++ "_C".toList ++ s.count
      ++ "_calendar_extended".toList⟩, s.iteration),
    (⟨s.version, "location_threshold".toList⟩, s.iteration)], none⟩

/-- What each script reads and writes (src/eustace/postprocess/lsf/submit_*.sh). -/
def stage : Script → Settings → Stage
  | .threshold => threshold
  | .window => window
  | .calendar => calendar
  | .outlier => outlier
  | .outlierWindow => outlierWindow
  | .merge => merge
  | .percentile => percentile
  | .location => location
  | .apply => applyMask

/-- The settings as they are: `ITERATION=4` and version `R1400` in
submit_threshold_flags.sh:16-18, submit_masking_window.sh:17-18,
submit_cell_percentile_calculation.sh:14-16 and submit_mask_apply.sh:16-18;
`ITERATION=9` and `R1413` in submit_masking_calendar.sh:24-25,
submit_outlier_flagging.sh:21-23, submit_outlier_window.sh:17-18,
submit_merge_flag_files.sh:21-22 and submit_location_flags.sh:20-22. -/
def committed (k : Script) : Settings :=
  let v := match k with
    | .threshold | .window | .percentile | .apply => ("R1400".toList, 4)
    | .calendar | .outlier | .outlierWindow | .merge | .location => ("R1413".toList, 9)
  ⟨v.1, v.2, "0.7".toList, "0.7".toList, "0.6".toList, "10".toList, "5".toList, "10".toList, "10".toList⟩

end Verif.Eustace.MaskDirs
