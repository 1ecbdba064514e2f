import Verif.Eustace.FlagStages.Props
import Verif.Eustace.MaskDirs.Props

/-! C190 for the scripts of the post-processing, and what happens without waiting. -/

namespace Verif.Eustace.FlagStages
open Verif.Eustace.FlagJobs Verif.Eustace.MaskDirs

/-- What the scripts submit with the same settings; `none` is the directory of
the masked analysis (src/eustace/postprocess/lsf/submit_mask_apply.sh:19,
src/eustace/postprocess/lsf/submit_*.sh as in `MaskDirs`). -/
def scripts {F : Type} (s : Settings) (check : Script → Tree (Option (Dir × Nat)) F → Nat → Option F)
    (waits : Script → List Script) (count : Script → Nat) (days : Script → Nat → List Nat) :
    Plan (Option (Dir × Nat)) Script F :=
  ⟨fun k => (stage k s).writes, check, waits, count, days⟩

/-- Specification: the directories which a script reads. -/
def readBy (s : Settings) (k : Script) : List (Option (Dir × Nat)) := (stage k s).reads.map some

variable {F : Type}

theorem writes_own (s : Settings) (hs : Plain s) (j k : Script) (h : (stage j s).writes = (stage k s).writes) : j = k := by
  cases hj : (stage j s).writes with
  | some p => exact c188_own s s hs hs j k p p hj (h ▸ hj) rfl
  | none =>
    have hk := h ▸ hj
    have key : ∀ i : Script, (stage i s).writes = none → i = .apply := by
      intro i hi
      cases i <;> first | rfl | (simp [stage, threshold, window, calendar, outlier, outlierWindow, merge, percentile,
        location] at hi)
    rw [key j hj, key k hk]

/-- C190: the scripts are sound if each waits for those which write what it
reads. -/
theorem c190_scripts (s : Settings) (hs : Plain s) (check : Script → Tree (Option (Dir × Nat)) F → Nat → Option F)
    (waits : Script → List Script) (count : Script → Nat) (days : Script → Nat → List Nat)
    (hc : ∀ k fs fs' d, (∀ p ∈ (stage k s).reads, ∀ n, fs (some p) n = fs' (some p) n) → check k fs d = check k fs' d)
    (hw : ∀ j k p, (stage j s).writes = some p → p ∈ (stage k s).reads → j ∈ waits k)
    (hn : ∀ k i, (days k i).Nodup) (ha : ∀ k i j, i ≠ j → ∀ d ∈ days k i, d ∉ days k j) :
    Sound (scripts s check waits count days) (readBy s) := by
  refine ⟨fun k fs fs' d h => ?_, fun j k h => writes_own s hs j k h, fun j k h => ?_, hn, ha⟩
  · exact hc k fs fs' d fun p hp n => h (some p) (List.mem_map_of_mem hp) n
  · simp only [scripts, readBy, List.mem_map] at h
    obtain ⟨p, hp, e⟩ := h
    exact hw j k p e.symm hp

/-- C190: then every run of the post-processing that has come to its end leaves
the same masked analysis and flags. -/
theorem c190_postprocess (s : Settings) (hs : Plain s)
    (check : Script → Tree (Option (Dir × Nat)) F → Nat → Option F)
    (waits : Script → List Script) (count : Script → Nat) (days : Script → Nat → List Nat)
    (hc : ∀ k fs fs' d, (∀ p ∈ (stage k s).reads, ∀ n, fs (some p) n = fs' (some p) n) → check k fs d = check k fs' d)
    (hw : ∀ j k p, (stage j s).writes = some p → p ∈ (stage k s).reads → j ∈ waits k)
    (hn : ∀ k i, (days k i).Nodup) (ha : ∀ k i j, i ≠ j → ∀ d ∈ days k i, d ∉ days k j)
    (fs : Tree (Option (Dir × Nat)) F) (es es' : List (Event Script))
    (h : ∀ k, ∀ i < count k, ((run (scripts s check waits count days)
      (submitted (scripts s check waits count days) fs) es).jobs k i).todo = [])
    (h' : ∀ k, ∀ i < count k, ((run (scripts s check waits count days)
      (submitted (scripts s check waits count days) fs) es').jobs k i).todo = []) :
    (run (scripts s check waits count days) (submitted (scripts s check waits count days) fs) es).files
      = (run (scripts s check waits count days) (submitted (scripts s check waits count days) fs) es').files := by
  refine c190_same _ (readBy s) (c190_scripts s hs check waits count days hc hw hn ha) rank ?_ fs es es' h h'
  intro j k hjk
  simp only [scripts, readBy, List.mem_map] at hjk
  obtain ⟨p, hp, e⟩ := hjk
  obtain ⟨i, hi, hwi⟩ := c188_closed s k p hp
  have : j = i := writes_own s hs j i (by rw [hwi, e])
  rw [this]
  exact hi

/-- For which scripts each has to wait. -/
def needed : Script → List Script
  | .threshold | .outlier | .percentile => []
  | .window => [.threshold]
  | .calendar => [.window]
  | .outlierWindow => [.outlier]
  | .merge => [.outlierWindow, .calendar]
  | .location => [.percentile]
  | .apply => [.merge, .location]

/-- C190: each script has to wait for two others at most. -/
theorem c190_needed (s : Settings) (hs : Plain s) (j k : Script) (p : Dir × Nat) (hj : (stage j s).writes = some p)
    (hp : p ∈ (stage k s).reads) : j ∈ needed k := by
  have key : ∀ i, (stage i s).writes = some p → j = i := fun i hi => writes_own s hs j i (hj.trans hi.symm)
  cases k <;> simp only [stage, threshold, window, calendar, outlier, outlierWindow, merge, percentile, location,
    applyMask, List.not_mem_nil, List.mem_cons, or_false] at hp
  · rw [key .threshold (by rw [hp]; rfl)]; decide
  · rw [key .window (by rw [hp]; rfl)]; decide
  · rw [key .outlier (by rw [hp]; rfl)]; decide
  · rcases hp with hp | hp
    · rw [key .outlierWindow (by rw [hp]; rfl)]; decide
    · rw [key .calendar (by rw [hp]; rfl)]; decide
  · rw [key .percentile (by rw [hp]; rfl)]; decide
  · rcases hp with hp | hp
    · rw [key .merge (by rw [hp]; rfl)]; decide
    · rw [key .location (by rw [hp]; rfl)]; decide

/-! ### Without waiting -/

/-- Two stages of one day: the first makes 1, the second adds 10 to what the
first has made. -/
def two (waits : Bool → List Bool) : Plan Bool Bool Nat where
  dst := id
  check k fs d := if k then (match fs false d with | .full n => some (n + 10) | _ => none) else some 1
  waits := waits
  count _ := 1
  days _ i := if i = 0 then [0] else []

theorem two_sound : Sound (two fun k => if k then [false] else []) fun k => if k then [false] else [] := by
  refine ⟨fun k fs fs' d h => ?_, fun j k h => h, fun j k h => h, fun k i => ?_, fun k i j hij d hd hd' => ?_⟩
  · cases k
    · rfl
    · simp only [two, if_true]
      rw [h false (by simp) d]
  · simp only [two]; split <;> simp
  · simp only [two] at hd hd'
    split at hd
    · split at hd'
      · omega
      · cases hd'
    · cases hd

/-- The flags of an earlier run. -/
def earlier : Tree Bool Nat := fun _ _ => .full 0

/-- C190 (violation): if the condition, which is the third argument of the
scripts, is left out, all jobs may end without an error though the second
stage has used flags of an earlier run. -/
theorem c190_no_wait_violated :
    ∃ es, (∀ k, ((run (two fun _ => []) (submitted (two fun _ => []) earlier) es).jobs k 0).todo = []
        ∧ ((run (two fun _ => []) (submitted (two fun _ => []) earlier) es).jobs k 0).failed = false)
      ∧ (run (two fun _ => []) (submitted (two fun _ => []) earlier) es).files true 0 = .full 10
      ∧ (two fun _ => []).check true (run (two fun _ => []) (submitted (two fun _ => []) earlier) es).files 0
        = some 11 := by
  refine ⟨[.own true 0, .own true 0, .own false 0, .own false 0], ?_, ?_, ?_⟩
  · intro k
    cases k <;> exact ⟨rfl, rfl⟩
  · rfl
  · rfl

/-- The same with the condition, and a failure of the host of the second stage. -/
example : (run (two fun k => if k then [false] else []) (submitted (two fun k => if k then [false] else []) earlier)
    [.own true 0, .own false 0, .own false 0, .own true 0, .restart true 0, .own true 0, .own true 0]).files true 0
      = .full 11 := rfl

/-- The two stages with the condition. -/
def chained : Plan Bool Bool Nat := two fun k => if k then [false] else []

example : ∃ f, chained.check true (run chained (submitted chained earlier)
    [.own false 0, .own false 0, .own true 0, .own true 0]).files 0 = some f
      ∧ (run chained (submitted chained earlier)
    [.own false 0, .own false 0, .own true 0, .own true 0]).files (chained.dst true) 0 = .full f :=
  c190_consistent chained _ two_sound earlier [.own false 0, .own false 0, .own true 0, .own true 0] true 0 rfl 0
    (by simp [chained, two])

example : Sound (scripts (F := Nat) (committed .merge) (fun _ _ d => some d) needed (fun _ => 1)
    fun _ i => [i]) (readBy (committed .merge)) :=
  have hs : Plain (committed .merge) := by refine ⟨?_, ?_, ?_, ?_, ?_, ?_, ?_⟩ <;> decide
  c190_scripts _ hs _ _ _ _ (fun _ _ _ _ _ => rfl) (fun j k p => c190_needed _ hs j k p) (by simp)
    (by intro k i j h d hd; simp at hd ⊢; omega)

end Verif.Eustace.FlagStages
