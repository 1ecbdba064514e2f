import Verif.Eumopps.Checksum.Lemmas

/-! Properties C01, C02, C03: multi-threaded checksum computation. -/
namespace Verif.Eumopps.Checksum
open Verif

/-- **C01.** For every number of files and every positive number of threads the ranges handed to the workers
are non-empty and enumerate `0 .. n-1` exactly once, in order. -/
theorem c01_ranges_partition (n numthreads : Nat) (h : 0 < numthreads) :
    ∃ ranges, threadIndices n numthreads = .ok ranges ∧ ExactPartition ranges n :=
  threadIndices_partition n numthreads (by omega)

/-- **C01**, reading per file: every file index lies in exactly one worker range. -/
theorem c01_each_file_one_worker (n numthreads i : Nat) (h : 0 < numthreads) (hi : i < n) :
    ∃ ranges, threadIndices n numthreads = .ok ranges ∧
      ∃ k : Nat, (∃ r : Nat × Nat, ranges[k]? = some r ∧ r.1 ≤ i ∧ i < r.2) ∧
        ∀ k' : Nat, (∃ r : Nat × Nat, ranges[k']? = some r ∧ r.1 ≤ i ∧ i < r.2) → k' = k := by
  obtain ⟨rs, hrs, hp⟩ := threadIndices_partition n numthreads (by omega)
  refine ⟨rs, hrs, ?_⟩
  obtain ⟨r, hr, h1, h2⟩ := (partition_actions rs n hp i).mpr hi
  obtain ⟨k, hk⟩ := List.mem_iff_getElem?.mp hr
  refine ⟨k, ⟨r, hk, h1, h2⟩, ?_⟩
  rintro k' ⟨r', hk', h1', h2'⟩
  have hnd : (rs.flatMap (fun r => List.range' r.1 (r.2 - r.1))).Nodup := by
    rw [hp.2]; exact List.nodup_range
  unfold List.Nodup at hnd
  rw [List.pairwise_flatMap] at hnd
  have hpw := hnd.2
  rw [List.pairwise_iff_getElem] at hpw
  obtain ⟨hkl, hkr⟩ := List.getElem?_eq_some_iff.mp hk
  obtain ⟨hkl', hkr'⟩ := List.getElem?_eq_some_iff.mp hk'
  have m1 : i ∈ List.range' r.1 (r.2 - r.1) := by simp [List.mem_range'_1]; omega
  have m2 : i ∈ List.range' r'.1 (r'.2 - r'.1) := by simp [List.mem_range'_1]; omega
  rcases Nat.lt_trichotomy k' k with hlt | heq | hgt
  · exact absurd rfl (hpw k' k hkl' hkl hlt i (hkr' ▸ m2) i (hkr ▸ m1))
  · exact heq
  · exact absurd rfl (hpw k k' hkl hkl' hgt i (hkr ▸ m1) i (hkr' ▸ m2))

/-- The only rejected argument is a zero thread number on a non-empty list (ZeroDivisionError). -/
theorem c01_error (n numthreads : Nat) :
    (∃ e, threadIndices n numthreads = .error e) ↔ (n ≠ 0 ∧ numthreads = 0) := by
  constructor
  · rintro ⟨e, he⟩
    by_cases hn : n = 0
    · subst hn; simp [threadIndices] at he
    · refine ⟨hn, ?_⟩
      cases numthreads with
      | zero => rfl
      | succ t =>
        obtain ⟨rs, hrs, _⟩ := threadIndices_partition n (t + 1) (by omega)
        rw [hrs] at he; cases he
  · rintro ⟨hn, rfl⟩
    exact ⟨.zeroDivision, by simp [threadIndices, hn]⟩

example : threadIndices 10 4 = .ok [(0, 2), (2, 4), (4, 6), (6, 8), (8, 10)] := by decide
example : threadIndices 11 4 = .ok [(0, 2), (2, 4), (4, 6), (6, 8), (8, 11)] := by decide

/-- **C02.** Whatever the interleaving of the workers' assignments: once all workers have finished, the
entries are exactly those of one sequential pass (unreadable files keep their previous values). -/
theorem c02_concurrent_eq_sequential (read : Reader) (es : List Entry) (numthreads : Nat)
    (h : 0 < numthreads) :
    ∃ c0, start es numthreads = .ok c0 ∧
      ∀ c, Steps read c0 c → c.finished → c.entries = es.map (checksummed read) := by
  obtain ⟨rs, hrs, hp⟩ := threadIndices_partition es.length numthreads (by omega)
  refine ⟨_, by simp only [start, hrs]; rfl, ?_⟩
  intro c hc hfin
  obtain ⟨done, hent, hacts⟩ := steps_inv read es _ c _ rfl hc
  rw [hent]
  apply applied_all
  intro i hi
  obtain ⟨r, hr, h1, h2⟩ := (partition_actions rs _ hp i).mpr hi
  have hnone : ∀ a, ¬ ∃ w ∈ c.workers, a ∈ w := by
    rintro a ⟨w, hw, ha⟩
    rw [hfin w hw] at ha
    simp at ha
  constructor
  · have := (hacts (.setChecksum i)).mp
      ⟨workerProgram r.1 r.2, List.mem_map.mpr ⟨r, hr, rfl⟩, (mem_workerProgram _ _ _).1.mpr ⟨h1, h2⟩⟩
    exact this.resolve_right (hnone _)
  · have := (hacts (.setSize i)).mp
      ⟨workerProgram r.1 r.2, List.mem_map.mpr ⟨r, hr, rfl⟩, (mem_workerProgram _ _ _).2.mpr ⟨h1, h2⟩⟩
    exact this.resolve_right (hnone _)

/-- **C02**, no deadlock and termination: an unfinished configuration can always step, and each step uses up
one of the finitely many remaining actions. -/
theorem c02_progress (read : Reader) (c : Config) :
    (¬ c.finished → ∃ c', Step read c c') ∧
    (∀ c', Step read c c' → remaining c = remaining c' + 1) := by
  refine ⟨?_, fun c' h => remaining_step read c c' h⟩
  intro hnf
  simp only [Config.finished, Classical.not_forall] at hnf
  obtain ⟨w, hw, hne⟩ := hnf
  obtain ⟨k, hk⟩ := List.mem_iff_getElem?.mp hw
  cases w with
  | nil => exact absurd rfl hne
  | cons a rest => exact ⟨_, Step.run k a rest c.workers c.entries hk⟩

/-- Two entries, two workers, one unreadable file: a genuinely interleaved finished run exists. -/
example : ∃ c0 c, start [⟨"a", none, none⟩, ⟨"b", some "old", none⟩] 2 = .ok c0 ∧
    Steps (fun n => if n = "a" then some ("x", 3) else none) c0 c ∧ c.finished ∧
    c.entries = [⟨"a", some "x", some 3⟩, ⟨"b", some "old", none⟩] := by
  refine ⟨_, _, rfl, .tail (.tail (.tail (.tail (.refl _) (.run 1 _ _ _ _ rfl)) (.run 0 _ _ _ _ rfl))
      (.run 1 _ _ _ _ rfl)) (.run 0 _ _ _ _ rfl), ?_, ?_⟩
  · unfold Config.finished
    decide
  · decide

/-- **C03 is violated**: with 127 files the code starts 127 threads although the advertised maximum is 64. -/
theorem c03_thread_bound_violated :
    ∃ n rs, threadIndices n checksumNumThreads = .ok rs ∧ ¬ rs.length ≤ checksumNumThreads := by
  obtain ⟨step, m, hs, hm, _, hst, h⟩ := threadIndices_eq 127 64 (by decide) (by decide)
  refine ⟨127, _, h, ?_⟩
  have : step = 1 := by rw [hst]; rfl
  subst this
  have : m = 126 := by rw [hm]
  subst this
  simp [checksumNumThreads]

/-- **C03**, what does hold: fewer than twice the advertised number of threads are started, for any number of
files; at most the advertised number when there are at most that many files or when the number of files is a
multiple of it. Missing: the advertised bound itself for the remaining totals (false, see above). -/
theorem c03_thread_bound_partial (n numthreads : Nat) (h : 0 < numthreads) :
    ∃ rs, threadIndices n numthreads = .ok rs ∧ rs.length < 2 * numthreads ∧
      (n ≤ numthreads → rs.length = n) ∧
      (n ≠ 0 → numthreads ∣ n → rs.length = numthreads) := by
  by_cases hn : n = 0
  · subst hn; exact ⟨[], by simp [threadIndices], by simp; omega, by simp, by simp⟩
  · obtain ⟨step, m, hs, hm, hpos, hst, hh⟩ := threadIndices_eq n numthreads hn (by omega)
    refine ⟨_, hh, ?_, ?_, ?_⟩
    all_goals
      simp only [List.length_append, List.length_map, List.length_range, List.length_cons,
        List.length_nil]
    · have hlen : m + (0 + 1) = n / step := by omega
      rw [hlen, Nat.div_lt_iff_lt_mul hs]
      have h1 : n < numthreads * (n / numthreads + 1) := by
        have := Nat.div_add_mod n numthreads
        have := Nat.mod_lt n h
        rw [Nat.mul_add]; omega
      have h2 : n / numthreads + 1 ≤ 2 * step := by omega
      calc n < numthreads * (n / numthreads + 1) := h1
        _ ≤ numthreads * (2 * step) := Nat.mul_le_mul_left _ h2
        _ = 2 * numthreads * step := by rw [Nat.mul_comm 2 numthreads, Nat.mul_assoc]
    · intro hle
      have : n / numthreads ≤ 1 := by
        rcases Nat.lt_or_ge n numthreads with h' | h'
        · rw [Nat.div_eq_of_lt h']; omega
        · have : n = numthreads := by omega
          rw [this, Nat.div_self h]; omega
      have : step = 1 := by omega
      subst this
      simp at hm
      omega
    · rintro - ⟨k, rfl⟩
      rw [Nat.mul_div_cancel_left _ h] at hst
      have hk : 0 < k := Nat.pos_of_ne_zero (by rintro rfl; simp at hn)
      have : step = k := by omega
      subst this
      rw [Nat.mul_div_cancel _ hs] at hm hpos
      omega

example : ∃ rs, threadIndices 128 64 = .ok rs ∧ rs.length = 64 :=
  let ⟨rs, h, _, _, h3⟩ := c03_thread_bound_partial 128 64 (by decide)
  ⟨rs, h, h3 (by decide) (by decide)⟩

end Verif.Eumopps.Checksum
