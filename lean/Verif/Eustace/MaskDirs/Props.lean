import Verif.Eustace.MaskDirs.Model
import Mathlib.Data.List.Basic

/-! C188: each stage of the post-processing reads what another has written. -/

namespace Verif.Eustace.MaskDirs

/-- Specification: the order in which the stages are to be run. -/
def rank : Script → Nat
  | .threshold => 0
  | .window => 1
  | .calendar => 2
  | .outlier => 3
  | .outlierWindow => 4
  | .merge => 5
  | .percentile => 6
  | .location => 7
  | .apply => 8

/-- C188: with the same settings in all scripts each stage reads only what an
earlier stage writes. -/
theorem c188_closed (s : Settings) (k : Script) (p : Dir × Nat) (hp : p ∈ (stage k s).reads) :
    ∃ j, rank j < rank k ∧ (stage j s).writes = some p := by
  cases k <;> simp only [stage, threshold, window, calendar, outlier, outlierWindow, merge, percentile, location,
    applyMask, List.not_mem_nil, List.mem_cons, or_false] at hp
  · subst hp; exact ⟨.threshold, by decide, rfl⟩
  · subst hp; exact ⟨.window, by decide, rfl⟩
  · subst hp; exact ⟨.outlier, by decide, rfl⟩
  · rcases hp with hp | hp
    · subst hp; exact ⟨.outlierWindow, by decide, rfl⟩
    · subst hp; exact ⟨.calendar, by decide, rfl⟩
  · subst hp; exact ⟨.percentile, by decide, rfl⟩
  · rcases hp with hp | hp
    · subst hp; exact ⟨.merge, by decide, rfl⟩
    · subst hp; exact ⟨.location, by decide, rfl⟩

/-- C188: all but the first stages read something, so that this says
something. -/
theorem c188_reads (s : Settings) (k : Script) :
    (stage k s).reads = [] ↔ k = .threshold ∨ k = .outlier ∨ k = .percentile := by
  cases k <;> simp [stage, threshold, window, calendar, outlier, outlierWindow, merge, percentile, location,
    applyMask]

/-- C188: what is read and written always has the version and the iteration of
the script. -/
theorem c188_version (s : Settings) (k : Script) (p : Dir × Nat)
    (hp : p ∈ (stage k s).reads ∨ (stage k s).writes = some p) : p.1.version = s.version ∧ p.2 = s.iteration := by
  cases k <;> simp only [stage, threshold, window, calendar, outlier, outlierWindow, merge, percentile, location,
    applyMask, List.not_mem_nil, List.mem_cons, or_false, false_or, Option.some.injEq, reduceCtorEq] at hp <;>
    (try rcases hp with hp | hp) <;> (try rcases hp with hp | hp) <;> (try subst hp) <;> exact ⟨rfl, rfl⟩

/-- C188 (violation): with the settings as they are the flags which the
calendar check, the location flags and the masking read are written by no
script. -/
theorem c188_committed_violated (k : Script) (hk : k = .calendar ∨ k = .location ∨ k = .apply) :
    ∃ p ∈ (stage k (committed k)).reads, ∀ j, (stage j (committed j)).writes ≠ some p := by
  rcases hk with rfl | rfl | rfl
  · refine ⟨_, List.mem_cons_self, fun j => ?_⟩
    cases j <;> decide
  · refine ⟨_, List.mem_cons_self, fun j => ?_⟩
    cases j <;> decide
  · refine ⟨_, List.mem_cons_self, fun j => ?_⟩
    cases j <;> decide

/-- C188: two scripts with different versions or iterations never hand on
anything to each other. -/
theorem c188_apart (s t : Settings) (h : s.version ≠ t.version ∨ s.iteration ≠ t.iteration) (j k : Script)
    (p : Dir × Nat) (hr : p ∈ (stage k s).reads) : (stage j t).writes ≠ some p := by
  intro hw
  obtain ⟨a1, a2⟩ := c188_version s k p (Or.inl hr)
  obtain ⟨b1, b2⟩ := c188_version t j p (Or.inr hw)
  rcases h with h | h
  · exact h (a1.symm.trans b1)
  · exact h (a2.symm.trans b2)

/-- Specification: no value of the settings has an underscore. -/
def Plain (s : Settings) : Prop :=
  '_' ∉ s.climatology ∧ '_' ∉ s.largescale ∧ '_' ∉ s.constraint ∧ '_' ∉ s.window ∧ '_' ∉ s.count
    ∧ '_' ∉ s.outlierWindow ∧ '_' ∉ s.outlierCount

/-- Reading up to an underscore. -/
theorem cut {a b x y : Text} (ha : '_' ∉ a) (hb : '_' ∉ b) (h : a ++ '_' :: x = b ++ '_' :: y) :
    a = b ∧ x = y := by
  induction a generalizing b with
  | nil =>
    cases b with
    | nil => simpa using h
    | cons c b =>
      simp only [List.nil_append, List.cons_append, List.cons.injEq] at h
      exact absurd (h.1 ▸ List.mem_cons_self) hb
  | cons c a ih =>
    cases b with
    | nil =>
      simp only [List.nil_append, List.cons_append, List.cons.injEq] at h
      exact absurd (h.1 ▸ List.mem_cons_self) ha
    | cons d b =>
      simp only [List.cons_append, List.cons.injEq] at h
      obtain ⟨e1, e2⟩ := ih (fun m => ha (List.mem_cons_of_mem _ m)) (fun m => hb (List.mem_cons_of_mem _ m)) h.2
      exact ⟨by rw [h.1, e1], e2⟩

/-- C188: directories with the merged flags are different for different
settings: whatever is found in them was made with the settings in their
names. -/
theorem c188_merged (s t : Settings) (hs : Plain s) (ht : Plain t)
    (h : (stage .merge s).writes = (stage .merge t).writes) : s = t := by
  obtain ⟨s1, s2, s3, s4, s5, s6, s7⟩ := hs
  obtain ⟨t1, t2, t3, t4, t5, t6, t7⟩ := ht
  simp only [stage, merge, Option.some.injEq, Prod.mk.injEq, Dir.mk.injEq] at h
  obtain ⟨⟨hv, hn⟩, hi⟩ := h
  simp only [List.append_assoc, String.toList, List.cons_append, List.nil_append] at hn
  simp at hn
  obtain ⟨e6, hn⟩ := cut s6 t6 hn
  simp at hn
  obtain ⟨e7, hn⟩ := cut s7 t7 hn
  simp at hn
  obtain ⟨e1, hn⟩ := cut s1 t1 hn
  simp at hn
  obtain ⟨e2, hn⟩ := cut s2 t2 hn
  simp at hn
  obtain ⟨e3, hn⟩ := cut s3 t3 hn
  simp at hn
  obtain ⟨e4, hn⟩ := cut s4 t4 hn
  simp at hn
  obtain ⟨v, i, _⟩ := s
  obtain ⟨v', i', _⟩ := t
  simp_all

/-- C188: and so are the directories with the flags of the thresholds. -/
theorem c188_threshold (s t : Settings) (hs : Plain s) (ht : Plain t)
    (h : (stage .threshold s).writes = (stage .threshold t).writes) :
    s.version = t.version ∧ s.iteration = t.iteration ∧ s.climatology = t.climatology
      ∧ s.largescale = t.largescale ∧ s.constraint = t.constraint := by
  obtain ⟨s1, s2, s3, _⟩ := hs
  obtain ⟨t1, t2, t3, _⟩ := ht
  simp only [stage, threshold, Option.some.injEq, Prod.mk.injEq, Dir.mk.injEq] at h
  obtain ⟨⟨hv, hn⟩, hi⟩ := h
  simp at hn
  obtain ⟨e1, hn⟩ := cut s1 t1 hn
  simp at hn
  obtain ⟨e2, hn⟩ := cut s2 t2 hn
  simp at hn
  exact ⟨hv, hi, e1, e2, hn⟩

/-- C188: and those with the flags of the windows and of the calendar. -/
theorem c188_window (s t : Settings) (hs : Plain s) (ht : Plain t)
    (h : (stage .window s).writes = (stage .window t).writes
      ∨ (stage .calendar s).writes = (stage .calendar t).writes) :
    s.version = t.version ∧ s.iteration = t.iteration ∧ s.climatology = t.climatology
      ∧ s.largescale = t.largescale ∧ s.constraint = t.constraint ∧ s.window = t.window ∧ s.count = t.count := by
  obtain ⟨s1, s2, s3, s4, s5, _⟩ := hs
  obtain ⟨t1, t2, t3, t4, t5, _⟩ := ht
  rcases h with h | h <;>
  · simp only [stage, window, calendar, Option.some.injEq, Prod.mk.injEq, Dir.mk.injEq] at h
    obtain ⟨⟨hv, hn⟩, hi⟩ := h
    simp at hn
    obtain ⟨e1, hn⟩ := cut s1 t1 hn
    simp at hn
    obtain ⟨e2, hn⟩ := cut s2 t2 hn
    simp at hn
    obtain ⟨e3, hn⟩ := cut s3 t3 hn
    simp at hn
    obtain ⟨e4, hn⟩ := cut s4 t4 hn
    simp at hn
    exact ⟨hv, hi, e1, e2, e3, e4, hn⟩

/-- C188: and those with the windows of the outliers. -/
theorem c188_outliers (s t : Settings) (hs : Plain s) (ht : Plain t)
    (h : (stage .outlierWindow s).writes = (stage .outlierWindow t).writes) :
    s.version = t.version ∧ s.iteration = t.iteration ∧ s.outlierWindow = t.outlierWindow
      ∧ s.outlierCount = t.outlierCount := by
  obtain ⟨_, _, _, _, _, s6, s7⟩ := hs
  obtain ⟨_, _, _, _, _, t6, t7⟩ := ht
  simp only [stage, outlierWindow, Option.some.injEq, Prod.mk.injEq, Dir.mk.injEq] at h
  obtain ⟨⟨hv, hn⟩, hi⟩ := h
  simp at hn
  obtain ⟨e6, hn⟩ := cut s6 t6 hn
  simp at hn
  exact ⟨hv, hi, e6, hn⟩

/-- The number of underscores and the first letter tell the stages apart. -/
def mark (n : Text) : Nat × Option Char := (n.count '_', n.head?)

theorem count_plain {a : Text} (h : '_' ∉ a) : a.count '_' = 0 := List.count_eq_zero.2 h

/-- C188: no two stages write to the same directory, with the same settings or
with others. -/
theorem c188_own (s t : Settings) (hs : Plain s) (ht : Plain t) (j k : Script) (p q : Dir × Nat)
    (hj : (stage j s).writes = some p) (hk : (stage k t).writes = some q) (h : p.1.name = q.1.name) : j = k := by
  obtain ⟨s1, s2, s3, s4, s5, s6, s7⟩ := hs
  obtain ⟨t1, t2, t3, t4, t5, t6, t7⟩ := ht
  have hm : mark p.1.name = mark q.1.name := by rw [h]
  clear h
  cases j <;> cases k <;> first
    | rfl
    | (exfalso
       simp only [stage, threshold, window, calendar, outlier, outlierWindow, merge, percentile, location,
        applyMask, Option.some.injEq, reduceCtorEq] at hj hk <;>
       subst hj <;> subst hk <;> simp [mark, count_plain, *] at hm)

/-- The settings of the calendar check. -/
def sample : Settings :=
  ⟨"R1413".toList, 9, "0.7".toList, "0.7".toList, "0.6".toList, "10".toList, "5".toList, "10".toList, "10".toList⟩

example : Plain sample := by simp [Plain, sample]

example : ((stage .calendar sample).writes.map fun p => String.ofList p.1.name)
    = some "threshold_C0.7_L0.7_T0.6_window_W10_C5_calendar_extended" := by decide

end Verif.Eustace.MaskDirs
