import Verif.Eustace.Submit.Arrays
import Mathlib.Data.List.Nodup

/-! C128: every operation of a module is performed exactly once by the jobs which are submitted for it. -/
namespace Verif.Eustace.Submit
open Verif Verif.Eumopps.Run Spec

theorem isDigit_of {i : Text} (h : Identifier i) : ∀ c ∈ i, isDigit c = true := by
  intro c hc
  have := h.2 c hc
  simp [isDigit, this.1, this.2]

theorem takeWhile_id {i : Text} (h : Identifier i) (rest : Text) : (i ++ '>' :: rest).takeWhile isDigit = i := by
  have hall := isDigit_of h
  rw [List.takeWhile_append_of_pos hall, List.takeWhile_cons_of_neg (by decide), List.append_nil]

theorem dropWhile_id {i : Text} (h : Identifier i) (rest : Text) : (i ++ '>' :: rest).dropWhile isDigit = '>' :: rest := by
  have hall := isDigit_of h
  rw [List.dropWhile_append_of_pos hall, List.dropWhile_cons_of_neg (by decide)]

theorem searchId_reply {i : Text} (h : Identifier i) (rest : Text) : searchId ("Job <".toList ++ i ++ '>' :: rest) = some i := by
  rw [show "Job <".toList = ['J', 'o', 'b', ' ', '<'] from rfl]
  have h4 : idHere ('<' :: (i ++ '>' :: rest)) = some i := by
    rw [idHere, takeWhile_id h, dropWhile_id h, if_pos ⟨h.1, rfl⟩]
  show searchId ('J' :: 'o' :: 'b' :: ' ' :: '<' :: (i ++ '>' :: rest)) = some i
  simp [searchId, idHere]
  have h5 := h4
  rw [idHere] at h5
  simp only [ne_eq] at h5
  simp [takeWhile_id h, dropWhile_id h, h.1]

theorem sedId_reply {i : Text} (h : Identifier i) (rest : Text) : sedId ("Job <".toList ++ i ++ '>' :: rest) = i := by
  show sedId ('J' :: 'o' :: 'b' :: ' ' :: '<' :: (i ++ '>' :: rest)) = i
  simp [sedId, jobHere, takeWhile_id h, dropWhile_id h]

theorem accepting_search {answers : ℕ → Answer} {ids : ℕ → Text} (h : Accepting answers ids) (n : ℕ) :
    (answers n).status = 0 ∧ searchId (answers n).out = some (ids n) := by
  obtain ⟨h1, h2, rest, h3⟩ := h.1 n
  exact ⟨h1, by rw [h3, searchId_reply h2]⟩

/-! ### Witnesses -/

/-- Job identifiers 1, 11, 111 and so on. -/
def ids0 (n : ℕ) : Text := List.replicate (n + 1) '1'

/-- A batch system which accepts everything. -/
def answers0 (n : ℕ) : Answer := ⟨0, "Job <".toList ++ ids0 n ++ "> is submitted to queue <short-serial>.".toList⟩

theorem accepting0 : Accepting answers0 ids0 := by
  refine ⟨fun n => ⟨rfl, ⟨by simp [ids0], ?_⟩, " is submitted to queue <short-serial>.".toList, rfl⟩, ?_⟩
  · intro c hc
    rw [List.eq_of_mem_replicate hc]
    decide
  · intro n n' h
    have := congrArg List.length h
    simpa [ids0] using this

/-- A module in a catalogue. -/
def op0 (name : String) (count : ℕ) : StoredOp := ⟨some name, none, none, [], count, .node .dict .nil⟩

/-- A catalogue with several modules. -/
def ops0 : List StoredOp := [op0 "climatology_input_0" 500, op0 "local_input_and_solve_0" 4001, op0 "output_grid_0" 1]

/-- What `submit_eumopps_jobs` amounts to. -/
theorem submitJobs_eq (ops : List StoredOp) (answers : ℕ → Answer) (log : List Submission) {m : String} (w : Text) {script : String}
    {k : Script} {size N : ℕ} (hs : 0 < size) (hN : Operations ops m N) (hp : 0 < N) (hk : scriptNamed script = some k) :
    submitJobs ops answers log m w script size =
      submitAll answers ((List.range (ceilDiv N size)).map (jobArray k m w size N (ceilDiv N size))) [] log := by
  unfold submitJobs
  rw [operationcount_of (by omega) hN, operationcount_of hs hN]
  dsimp only
  rw [ceilDiv_one, if_neg (by omega), hk]
  dsimp only
  have := batchLoop_eq answers k m w size N (ceilDiv N size) (ceilDiv N size) 0 [] log (by omega)
  rw [← List.range_eq_range'] at this
  rw [← this]
  simp

theorem submitGrouped_eq (ops : List StoredOp) (answers : ℕ → Answer) (log : List Submission) {m : String} (w : Text) {script : String}
    {k : Script} {J T N : ℕ} (hJ : 0 < J) (hT : 0 < T) (hN : Operations ops m N) (hp : 0 < N) (hk : scriptNamed script = some k) :
    submitGrouped ops answers log m w script J T =
      submitAll answers ((List.range (ceilDiv N (T * J))).map (groupArray k m w J T (ceilDiv N T) (ceilDiv N (T * J)))) [] log := by
  unfold submitGrouped
  rw [operationcount_of (by omega) hN, operationcount_of (Nat.mul_pos hT hJ) hN, operationcount_of hT hN]
  dsimp only
  rw [ceilDiv_one, if_neg (by omega), hk]
  dsimp only
  have := groupLoop_eq answers k m w J T (ceilDiv N T) (ceilDiv N (T * J)) (ceilDiv N (T * J)) 0 [] log (by omega)
  rw [← List.range_eq_range'] at this
  rw [← this]
  simp

/-- If `submit_eumopps_jobs` succeeds, its preliminaries did. -/
theorem submitJobs_pre {ops : List StoredOp} {answers : ℕ → Answer} {log log' : List Submission} {m : String} {w : Text} {script : String}
    {size : ℕ} {ids : List Text} (h : submitJobs ops answers log m w script size = (log', .ok ids)) :
    0 < size ∧ ∃ N k, Operations ops m N ∧ 0 < N ∧ scriptNamed script = some k := by
  unfold submitJobs at h
  cases h1 : operationcount ops m 1 with
  | error e => rw [h1] at h; cases h
  | ok c =>
    rw [h1] at h
    dsimp only at h
    cases h2 : operationcount ops m size with
    | error e => rw [h2] at h; cases h
    | ok b =>
      rw [h2] at h
      dsimp only at h
      obtain ⟨hs, -⟩ := operationcount_ok h2
      obtain ⟨-, N, hN, hc⟩ := operationcount_ok h1
      rw [ceilDiv_one] at hc
      subst hc
      by_cases h0 : c = 0
      · rw [if_pos h0] at h; cases h
      rw [if_neg h0] at h
      cases hk : scriptNamed script with
      | none => rw [hk] at h; cases h
      | some k => exact ⟨hs, c, k, hN, by omega, rfl⟩

theorem submitGrouped_pre {ops : List StoredOp} {answers : ℕ → Answer} {log log' : List Submission} {m : String} {w : Text}
    {script : String} {J T : ℕ} {ids : List Text} (h : submitGrouped ops answers log m w script J T = (log', .ok ids)) :
    0 < J ∧ 0 < T ∧ ∃ N k, Operations ops m N ∧ 0 < N ∧ scriptNamed script = some k := by
  unfold submitGrouped at h
  cases h1 : operationcount ops m 1 with
  | error e => rw [h1] at h; cases h
  | ok c =>
    rw [h1] at h
    dsimp only at h
    cases h2 : operationcount ops m (T * J) with
    | error e => rw [h2] at h; cases h
    | ok b =>
      rw [h2] at h
      dsimp only at h
      cases h3 : operationcount ops m T with
      | error e => rw [h3] at h; cases h
      | ok b' =>
        rw [h3] at h
        dsimp only at h
        obtain ⟨hs, -⟩ := operationcount_ok h2
        obtain ⟨-, N, hN, hc⟩ := operationcount_ok h1
        rw [ceilDiv_one] at hc
        subst hc
        by_cases h0 : c = 0
        · rw [if_pos h0] at h; cases h
        rw [if_neg h0] at h
        cases hk : scriptNamed script with
        | none => rw [hk] at h; cases h
        | some k => exact ⟨Nat.pos_of_mul_pos_left hs, Nat.pos_of_mul_pos_right hs, c, k, hN, by omega, rfl⟩

/-- **C128.** If the submission of the operations of a module succeeds, the job arrays which have been submitted perform every operation
of the module exactly once, in order, and nothing else.  Every array is for this module and has the condition which was asked for. -/
theorem c128_jobs {ops : List StoredOp} {answers : ℕ → Answer} {log log' : List Submission} {m : String} {w : Text} {script : String}
    {size : ℕ} {ids : List Text} (hk : scriptNamed script = some .single)
    (h : submitJobs ops answers log m w script size = (log', .ok ids)) :
    ∃ N new, Operations ops m N ∧ 0 < N ∧ log' = log ++ new ∧ allPerformed ops new = once m N ∧ ids.length = new.length ∧
      ∀ s ∈ new, s.module = m ∧ s.wait = w ∧ s.script = .single := by
  obtain ⟨hs, N, k, hN, hp, hk'⟩ := submitJobs_pre h
  rw [hk] at hk'
  injection hk' with hk'
  subst hk'
  rw [submitJobs_eq ops answers log w hs hN hp hk] at h
  obtain ⟨h1, new, h2, h3, -⟩ := submitAll_ok h
  refine ⟨N, _, hN, hp, h1, jobArrays_once ops m w hs, by rw [h2]; simpa using h3, ?_⟩
  intro s hs'
  rw [List.mem_map] at hs'
  obtain ⟨b, -, rfl⟩ := hs'
  exact ⟨rfl, rfl, rfl⟩

example : Operations ops0 "climatology_input_0" 500 ∧ ∃ log ids, submitJobs ops0 answers0 [] "climatology_input_0" [] "lsf_commandrun_tall.sh" 366 =
    (log, .ok ids) ∧ log.length = 2 := by
  refine ⟨Or.inl ⟨_, rfl, rfl⟩, [⟨.single, "climatology_input_0", 1, 366, 366, 0, 0, 0, []⟩,
    ⟨.single, "climatology_input_0", 367, 500, 366, 1, 0, 0, []⟩], [['1'], ['1', '1']], ?_, rfl⟩
  decide +kernel

/-- **C128.** The same for operations submitted in groups. -/
theorem c128_grouped {ops : List StoredOp} {answers : ℕ → Answer} {log log' : List Submission} {m : String} {w : Text} {script : String}
    {J T : ℕ} {ids : List Text} (hk : scriptNamed script = some .group)
    (h : submitGrouped ops answers log m w script J T = (log', .ok ids)) :
    ∃ N new, Operations ops m N ∧ 0 < N ∧ log' = log ++ new ∧ allPerformed ops new = once m N ∧ ids.length = new.length ∧
      ∀ s ∈ new, s.module = m ∧ s.wait = w ∧ s.script = .group ∧ ∀ e ∈ elements s, (commands ops s e).length ≤ T := by
  obtain ⟨hJ, hT, N, k, hN, hp, hk'⟩ := submitGrouped_pre h
  rw [hk] at hk'
  injection hk' with hk'
  subst hk'
  rw [submitGrouped_eq ops answers log w hJ hT hN hp hk] at h
  obtain ⟨h1, new, h2, h3, -⟩ := submitAll_ok h
  refine ⟨N, _, hN, hp, h1, groupArrays_once ops m w hJ hT hN, by rw [h2]; simpa using h3, ?_⟩
  intro s hs'
  rw [List.mem_map] at hs'
  obtain ⟨b, hb, rfl⟩ := hs'
  rw [List.mem_range] at hb
  refine ⟨rfl, rfl, rfl, ?_⟩
  intro e he
  rw [(groupArray_elements m w hJ hT hb).1, List.mem_map] at he
  obtain ⟨q, hq, rfl⟩ := he
  rw [List.mem_range] at hq
  have e1 : (b + 1) * J = b * J + J := by ring
  have hg := group_element ops (groupArray .group m w J T (ceilDiv N T) (ceilDiv N (T * J)) b) (b := b) (q := q) (J := J) (T := T) (N := N)
    hT (by omega) rfl hN rfl rfl rfl rfl
  have := congrArg List.length hg
  simp only [List.length_map, List.length_range] at this
  rw [this]
  omega

example : ∃ ids, submitGrouped ops0 answers0 [] "local_input_and_solve_0" [] "lsf_commandrun_group.sh" 100 20 =
    ([⟨.group, "local_input_and_solve_0", 1, 100, 2000, 0, 100, 20, []⟩, ⟨.group, "local_input_and_solve_0", 101, 200, 2000, 1, 100, 20, []⟩,
      ⟨.group, "local_input_and_solve_0", 201, 201, 2000, 2, 100, 20, []⟩], .ok ids) :=
  ⟨[['1'], ['1', '1'], ['1', '1', '1']], by decide +kernel⟩

/-- **C128.** The submission succeeds if the batch system accepts all jobs, the module has operations, and the script exists: the
identifiers returned are those of the new jobs, in order. -/
theorem c128_accepts {ops : List StoredOp} {answers : ℕ → Answer} {ids : ℕ → Text} (ha : Accepting answers ids) (log : List Submission)
    {m : String} (w : Text) {script : String} {k : Script} {N : ℕ} (hN : Operations ops m N) (hp : 0 < N) (hk : scriptNamed script = some k) :
    (∀ size, 0 < size → ∃ new, submitJobs ops answers log m w script size =
      (log ++ new, .ok ((List.range new.length).map fun i => ids (log.length + i))) ∧ new.length * size < N + size) ∧
    ∀ J T, 0 < J → 0 < T → ∃ new, submitGrouped ops answers log m w script J T =
      (log ++ new, .ok ((List.range new.length).map fun i => ids (log.length + i))) ∧ new.length * (T * J) < N + T * J := by
  have key : ∀ s, 0 < s → ceilDiv N s * s < N + s := by
    intro s hs
    have h1 := ceilDiv_pos hs hp
    have h2 := ceilDiv_lt hs (show ceilDiv N s - 1 < ceilDiv N s by omega)
    have h3 : ceilDiv N s * s = (ceilDiv N s - 1) * s + s := by
      rw [← Nat.succ_mul, Nat.succ_eq_add_one, Nat.sub_add_cancel h1]
    omega
  constructor
  · intro size hs
    refine ⟨_, by rw [submitJobs_eq ops answers log w hs hN hp hk, submitAll_of (accepting_search ha), List.nil_append], ?_⟩
    rw [List.length_map, List.length_range]
    exact key size hs
  · intro J T hJ hT
    refine ⟨_, by rw [submitGrouped_eq ops answers log w hJ hT hN hp hk, submitAll_of (accepting_search ha), List.nil_append], ?_⟩
    rw [List.length_map, List.length_range]
    exact key _ (Nat.mul_pos hT hJ)

/-- **C128.** A module without operations in the catalogue is refused, and nothing is submitted. -/
theorem c128_refuses {ops : List StoredOp} (answers : ℕ → Answer) (log : List Submission) {m : String} (w : Text) (script : String)
    (hN : Operations ops m 0) {size : ℕ} (hs : 0 < size) {J T : ℕ} (hJ : 0 < J) (hT : 0 < T) :
    submitJobs ops answers log m w script size = (log, .error .valueError) ∧
    submitGrouped ops answers log m w script J T = (log, .error .valueError) := by
  constructor
  · unfold submitJobs
    rw [operationcount_of (by omega) hN, operationcount_of hs hN]
    dsimp only
    rw [ceilDiv_one, if_pos rfl]
  · unfold submitGrouped
    rw [operationcount_of (by omega) hN, operationcount_of (Nat.mul_pos hT hJ) hN, operationcount_of hT hN]
    dsimp only
    rw [ceilDiv_one, if_pos rfl]

example : Operations ops0 "climatology_solve_0" 0 := Or.inr ⟨by decide +kernel, rfl⟩

/-- **C128.** If some call of `bsub` fails, nothing more is submitted: what has been submitted is an initial part of the arrays. -/
theorem c128_failure {ops : List StoredOp} {answers : ℕ → Answer} {log log' : List Submission} {m : String} {w : Text} {script : String}
    {size : ℕ} {e : PyErr} (hk : scriptNamed script = some .single) (hs : 0 < size) {N : ℕ} (hN : Operations ops m N)
    (h : submitJobs ops answers log m w script size = (log', .error e)) :
    ∃ new, log' = log ++ new ∧ allPerformed ops new = once m (min (new.length * size) N) := by
  rcases Nat.eq_zero_or_pos N with h0 | hp
  · subst h0
    rw [(c128_refuses answers log w script hN hs Nat.one_pos Nat.one_pos).1] at h
    refine ⟨[], ?_, by simp [allPerformed, once]⟩
    rw [List.append_nil]
    exact (congrArg Prod.fst h).symm
  rw [submitJobs_eq ops answers log w hs hN hp hk] at h
  have key : ∀ (ss : List Submission) (l : List Text) (lg : List Submission), submitAll answers ss l lg = (log', .error e) →
      ∃ k ≤ ss.length, log' = lg ++ ss.take k := by
    intro ss
    induction ss with
    | nil => intro l lg h; simp [submitAll] at h
    | cons s ss ih =>
      intro l lg h
      rw [submitAll] at h
      unfold bsub at h
      by_cases hst : (answers lg.length).status ≠ 0
      · rw [if_pos hst] at h
        exact ⟨0, by omega, by simpa using (congrArg Prod.fst h).symm⟩
      rw [if_neg hst] at h
      cases hsr : searchId (answers lg.length).out with
      | none =>
        rw [hsr] at h
        exact ⟨1, by simp, by simpa using (congrArg Prod.fst h).symm⟩
      | some i =>
        rw [hsr] at h
        obtain ⟨k, hk, hl⟩ := ih _ _ h
        exact ⟨k + 1, by simpa using hk, by rw [hl]; simp⟩
  obtain ⟨k, hk1, hl⟩ := key _ _ _ h
  rw [List.length_map, List.length_range] at hk1
  have hle := ceilDiv_le N hs
  refine ⟨_, hl, ?_⟩
  rw [List.length_take, List.length_map, List.length_range, Nat.min_eq_left hk1]
  have hall := jobArrays_once (N := N) ops m w hs
  rw [← List.take_append_drop k ((List.range (ceilDiv N size)).map (jobArray .single m w size N (ceilDiv N size)))] at hall
  unfold allPerformed at hall ⊢
  rw [List.flatMap_append] at hall
  have hlen : (((List.range (ceilDiv N size)).map (jobArray .single m w size N (ceilDiv N size))).take k).flatMap (fun s =>
      (elements s).flatMap fun e => (commands ops s e).map fun a => (s.module, performed a)) =
      (once m N).take (min (k * size) N) := by
    rw [← hall]
    have hl2 : ((((List.range (ceilDiv N size)).map (jobArray .single m w size N (ceilDiv N size))).take k).flatMap (fun s =>
      (elements s).flatMap fun e => (commands ops s e).map fun a => (s.module, performed a))).length = min (k * size) N := by
      rw [← List.map_take, List.take_range, List.flatMap_map, Nat.min_eq_left hk1]
      have hb : ∀ b ∈ List.range k, ((elements (jobArray .single m w size N (ceilDiv N size) b)).flatMap fun e =>
        (commands ops (jobArray .single m w size N (ceilDiv N size) b) e).map fun a =>
          ((jobArray .single m w size N (ceilDiv N size) b).module, performed a)) =
        (List.range (min ((b + 1) * size) N - min (b * size) N)).map fun i : ℕ => (m, Except.ok ((min (b * size) N + i : ℕ) : ℤ)) := by
        intro b hb
        rw [List.mem_range] at hb
        have hlt := ceilDiv_lt hs (show b < ceilDiv N size by omega)
        have e1 : (b + 1) * size = b * size + size := by ring
        rw [show min (b * size) N = b * size by omega]
        refine single_performs ops _ hs rfl rfl ?_ (by omega) rfl rfl
        show (if b + 1 = ceilDiv N size then (N : ℤ) else (((b + 1) * size : ℕ) : ℤ)) = _
        by_cases hc : b + 1 = ceilDiv N size
        · rw [if_pos hc]
          rw [← hc] at hle
          omega
        · rw [if_neg hc]
          have := ceilDiv_lt hs (show b + 1 < ceilDiv N size by omega)
          omega
      rw [List.flatMap_congr hb, pieces m (fun b => min (b * size) N) (by simp) (fun b => by
        have e1 : (b + 1) * size = b * size + size := by ring
        omega)]
      simp [once]
    rw [← hl2, List.take_left]
  rw [hlen]
  unfold once
  rw [← List.map_take, List.take_range]
  congr 2
  omega

/-- The second job is refused. -/
example : submitJobs ops0 (fun n => if n = 1 then ⟨255, []⟩ else answers0 n) [] "climatology_input_0" [] "lsf_commandrun_tall.sh" 366 =
    ([⟨.single, "climatology_input_0", 1, 366, 366, 0, 0, 0, []⟩], .error .runtimeError) := by decide +kernel

/-! ### Files of output -/

/-- **C128.** The outputs of different operations go to different files. -/
theorem c128_output_files {ops : List StoredOp} {answers : ℕ → Answer} {log log' : List Submission} {m : String} {w : Text}
    {script : String} {size : ℕ} {ids : List Text} (hk : scriptNamed script = some .single)
    (h : submitJobs ops answers log m w script size = (log', .ok ids)) : (allOutputs ops (log'.drop log.length)).Nodup := by
  obtain ⟨hs, N, k, hN, hp, hk'⟩ := submitJobs_pre h
  rw [hk] at hk'
  injection hk' with hk'
  subst hk'
  rw [submitJobs_eq ops answers log w hs hN hp hk] at h
  obtain ⟨h1, -⟩ := submitAll_ok h
  rw [h1, List.drop_left]
  unfold allOutputs
  rw [List.flatMap_map]
  have hb : ∀ b ∈ List.range (ceilDiv N size), ((elements (jobArray .single m w size N (ceilDiv N size) b)).flatMap fun e =>
      outputFiles ops (jobArray .single m w size N (ceilDiv N size) b) e) =
      (List.range (min ((b + 1) * size) N - b * size)).map fun i : ℕ => (m, (b : ℤ), [(i : ℤ)]) := by
    intro b hb
    rw [List.mem_range] at hb
    have hlt := ceilDiv_lt hs hb
    have hle := ceilDiv_le N hs
    have e1 : (b + 1) * size = b * size + size := by ring
    rw [elements_eq (jobArray .single m w size N (ceilDiv N size) b) (a := b * size) (n := min ((b + 1) * size) N - b * size) rfl ?_]
    · rw [List.flatMap_map, List.map_eq_flatMap]
      apply List.flatMap_congr
      intro i hi
      rw [List.mem_range] at hi
      unfold outputFiles
      show [(m, (b : ℤ), [((((b * size + i : ℕ) : ℤ) + 1 - 1)).tmod (size : ℤ)])] = _
      rw [show (((b * size + i : ℕ) : ℤ) + 1 - 1) = ((b * size + i : ℕ) : ℤ) by ring, tmod_offset (by omega)]
    · show (if b + 1 = ceilDiv N size then (N : ℤ) else (((b + 1) * size : ℕ) : ℤ)) = _
      by_cases hc : b + 1 = ceilDiv N size
      · rw [if_pos hc]
        rw [← hc] at hle
        omega
      · rw [if_neg hc]
        have := ceilDiv_lt hs (show b + 1 < ceilDiv N size by omega)
        omega
  rw [List.flatMap_congr hb, List.nodup_flatMap]
  constructor
  · intro b _
    apply List.nodup_range.map
    intro i j hij
    simpa using hij
  · apply List.Pairwise.imp _ List.nodup_range
    intro a b hab x hx hy
    rw [List.mem_map] at hx hy
    obtain ⟨i, -, rfl⟩ := hx
    obtain ⟨j, -, hj⟩ := hy
    simp only [Prod.mk.injEq] at hj
    exact hab (by exact_mod_cast hj.2.1.symm)

/-- **C128.** The same for groups of operations. -/
theorem c128_output_files_grouped {ops : List StoredOp} {answers : ℕ → Answer} {log log' : List Submission} {m : String} {w : Text}
    {script : String} {J T : ℕ} {ids : List Text} (hk : scriptNamed script = some .group)
    (h : submitGrouped ops answers log m w script J T = (log', .ok ids)) : (allOutputs ops (log'.drop log.length)).Nodup := by
  obtain ⟨hJ, hT, N, k, hN, hp, hk'⟩ := submitGrouped_pre h
  rw [hk] at hk'
  injection hk' with hk'
  subst hk'
  rw [submitGrouped_eq ops answers log w hJ hT hN hp hk] at h
  obtain ⟨h1, -⟩ := submitAll_ok h
  rw [h1, List.drop_left]
  unfold allOutputs
  rw [List.flatMap_map, List.nodup_flatMap]
  have mem : ∀ b ∈ List.range (ceilDiv N (T * J)), ∀ x ∈ (elements (groupArray .group m w J T (ceilDiv N T) (ceilDiv N (T * J)) b)).flatMap
      (fun e => outputFiles ops (groupArray .group m w J T (ceilDiv N T) (ceilDiv N (T * J)) b) e), x.2.1 = (b : ℤ) := by
    intro b hb x hx
    rw [List.mem_flatMap] at hx
    obtain ⟨e, -, hx⟩ := hx
    unfold outputFiles at hx
    rw [show (groupArray .group m w J T (ceilDiv N T) (ceilDiv N (T * J)) b).script = .group from rfl] at hx
    dsimp only at hx
    rw [List.mem_map] at hx
    obtain ⟨t, -, rfl⟩ := hx
    rfl
  constructor
  · intro b hb
    rw [List.mem_range] at hb
    rw [(groupArray_elements m w hJ hT hb).1, List.flatMap_map, List.nodup_flatMap]
    constructor
    · intro q _
      unfold outputFiles
      rw [show (groupArray .group m w J T (ceilDiv N T) (ceilDiv N (T * J)) b).script = .group from rfl]
      dsimp only
      apply List.nodup_range.map
      intro i j hij
      simpa using hij
    · apply List.Pairwise.imp _ List.nodup_range
      intro q r hqr x hx hy
      unfold outputFiles at hx hy
      rw [show (groupArray .group m w J T (ceilDiv N T) (ceilDiv N (T * J)) b).script = .group from rfl] at hx hy
      dsimp only at hx hy
      rw [List.mem_map] at hx hy
      obtain ⟨i, -, rfl⟩ := hx
      obtain ⟨j, -, hj⟩ := hy
      simp only [Prod.mk.injEq, List.cons.injEq] at hj
      apply hqr
      have := hj.2.2.1
      omega
  · apply List.Pairwise.imp_of_mem _ (List.nodup_range (n := ceilDiv N (T * J)))
    intro a b ha hb hab x hx hy
    have h1 := mem a ha x hx
    have h2 := mem b hb x hy
    rw [h1] at h2
    exact hab (by exact_mod_cast h2)

/-! ### Submission by shell scripts -/

/-- What the loop of the shell scripts submits. -/
def shellArray (m : String) (w : Text) (size : ℤ) (limit : Option ℤ) (b : ℕ) : Submission :=
  ⟨.single, m, 1 + (b : ℤ) * size, arrayEnd (1 + (b : ℤ) * size) size limit, size, b, 0, 0, w⟩

theorem shellLoop_eq {answers : ℕ → Answer} {ids : ℕ → Text} (ha : Accepting answers ids) (m : String) (w : Text) (size : ℤ)
    (limit : Option ℤ) (bs : List ℕ) (c : Text) (n : ℕ) (log : List Submission) :
    shellLoop answers m w size limit bs c n log = (log ++ bs.map (shellArray m w size limit),
      ((List.range bs.length).map fun i => ids (n + i)).foldl extendCondition c) := by
  induction bs generalizing c n log with
  | nil => simp [shellLoop]
  | cons b bs ih =>
    obtain ⟨h1, h2, rest, h3⟩ := ha.1 n
    rw [shellLoop, h1, if_neg (by simp), if_neg (by simp), h3, sedId_reply h2, ih]
    rw [List.length_cons, List.range_succ_eq_map, List.map_cons, List.map_cons, List.map_map, List.foldl_cons, List.append_assoc]
    congr 2
    congr 1
    funext i
    simp only [Function.comp]
    congr 1
    omega

theorem intercalate_snoc (sep a : Text) (l : List Text) (b : Text) : sep.intercalate ((a :: l) ++ [b]) = sep.intercalate (a :: l) ++ sep ++ b := by
  induction l generalizing a with
  | nil => simp [List.intercalate]
  | cons c l ih =>
    have h1 := ih c
    simp only [List.cons_append, List.intercalate_cons_cons] at h1 ⊢
    rw [h1]
    simp [List.append_assoc]

/-- The condition made by the shell scripts is that of the Python program. -/
theorem extend_done (l : List Text) (i : Text) : extendCondition (doneCondition l) i = doneCondition (l ++ [i]) := by
  unfold extendCondition doneCondition
  cases l with
  | nil => simp [List.intercalate]
  | cons a l =>
    rw [if_pos, List.map_append, List.map_cons, List.map_singleton, intercalate_snoc]
    · simp [List.append_assoc]
    · cases l with
      | nil => simp [List.intercalate]
      | cons b l => simp [List.intercalate_cons_cons]

theorem foldl_extend (l' l : List Text) : l'.foldl extendCondition (doneCondition l) = doneCondition (l ++ l') := by
  induction l' generalizing l with
  | nil => simp
  | cons i l' ih => rw [List.foldl_cons, extend_done, ih, List.append_assoc]; rfl

theorem printedCount_eq {ops : List StoredOp} {m : String} {N b : ℕ} (hb : 0 < b) (h : Operations ops m N) : printedCount ops m b = ceilDiv N b := by
  rw [printedCount, operationcount_of hb h]

theorem shellArray_clamped (m : String) (w : Text) {S N b : ℕ} (hS : 0 < S) (hb : b < ceilDiv N S) :
    shellArray m w S (some N) b = jobArray .single m w S N (ceilDiv N S) b := by
  have hlt := ceilDiv_lt hS hb
  have hle := ceilDiv_le N hS
  unfold shellArray jobArray arrayEnd
  dsimp only
  have e1 : (b + 1) * S = b * S + S := by ring
  congr 1
  · push_cast; ring
  · have e2 : 1 + (b : ℤ) * S - 1 + S = (((b + 1) * S : ℕ) : ℤ) := by push_cast; ring
    rw [e2]
    by_cases hc : b + 1 = ceilDiv N S
    · rw [if_pos hc]
      rw [← hc] at hle
      by_cases h3 : (((b + 1) * S : ℕ) : ℤ) > N
      · rw [if_pos h3]
      · rw [if_neg h3]; omega
    · rw [if_neg hc]
      have := ceilDiv_lt hS (show b + 1 < ceilDiv N S by omega)
      rw [if_neg (by omega)]

/-- **C128.** The shell script runlsf.sh submits arrays which perform every operation of the module exactly once, in order, and leaves
the condition that all of them are done. -/
theorem c128_runlsf {ops : List StoredOp} {answers : ℕ → Answer} {ids : ℕ → Text} (ha : Accepting answers ids) {m : String} (w : Text)
    {size N : ℕ} (hs : 0 < size) (hN : Operations ops m N) (log : List Submission) :
    ∃ new, runlsf ops answers m w size log.length log =
        (log ++ new, doneCondition ((List.range new.length).map fun i => ids (log.length + i))) ∧
      allPerformed ops new = once m N ∧ ∀ s ∈ new, s.module = m ∧ s.wait = w ∧ s.script = .single := by
  refine ⟨(List.range (ceilDiv N size)).map (jobArray .single m w size N (ceilDiv N size)), ?_, jobArrays_once ops m w hs, ?_⟩
  · unfold runlsf
    rw [printedCount_eq (by omega) hN, ceilDiv_one]
    dsimp only
    have hb : (if N % size > 0 then N / size + 1 else N / size) = ceilDiv N size := by
      unfold ceilDiv
      by_cases hc : N % size = 0
      · rw [if_neg (by omega), if_neg (by omega)]
      · rw [if_pos (by omega), if_pos hc]
    rw [hb, shellLoop_eq ha]
    have := foldl_extend ((List.range (List.range (ceilDiv N size)).length).map fun i => ids (log.length + i)) []
    rw [show doneCondition [] = [] from rfl] at this
    rw [this, List.nil_append, List.length_map]
    congr 2
    apply List.map_congr_left
    intro b hb
    exact shellArray_clamped m w hs (List.mem_range.1 hb)
  · intro s hs'
    rw [List.mem_map] at hs'
    obtain ⟨b, -, rfl⟩ := hs'
    exact ⟨rfl, rfl, rfl⟩

/-- **C128.** The same for runlsf_solver.sh. -/
theorem c128_solver {ops : List StoredOp} {answers : ℕ → Answer} {ids : ℕ → Text} (ha : Accepting answers ids) {m : String} (w : Text)
    {N : ℕ} (hN : Operations ops m N) (log : List Submission) :
    ∃ new, runlsfSolver ops answers m w log.length log =
        (log ++ new, doneCondition ((List.range new.length).map fun i => ids (log.length + i))) ∧
      allPerformed ops new = once m N ∧ ∀ s ∈ new, s.module = m ∧ s.wait = w ∧ s.script = .single := by
  have hj := jobArrays_once (N := N) ops m w Nat.one_pos
  rw [ceilDiv_one] at hj
  refine ⟨_, ?_, hj, ?_⟩
  · unfold runlsfSolver
    rw [printedCount_eq (by omega) hN, ceilDiv_one, shellLoop_eq ha]
    have := foldl_extend ((List.range (List.range N).length).map fun i => ids (log.length + i)) []
    rw [show doneCondition [] = [] from rfl] at this
    rw [this, List.nil_append, List.length_map]
    congr 2
    apply List.map_congr_left
    intro b hb
    unfold shellArray jobArray arrayEnd
    dsimp only
    congr 1
    · push_cast; ring
    · by_cases hc : b + 1 = N
      · rw [if_pos hc]; push_cast; omega
      · rw [if_neg hc]; push_cast; ring
  · intro s hs'
    rw [List.mem_map] at hs'
    obtain ⟨b, -, rfl⟩ := hs'
    exact ⟨rfl, rfl, rfl⟩

/-- **C128.** The shell scripts which do not shorten the last array submit every operation once, and after them some numbers which
belong to no operation: fewer than one batch. -/
theorem c128_whole {ops : List StoredOp} {answers : ℕ → Answer} {ids : ℕ → Text} (ha : Accepting answers ids) {m : String} (w : Text)
    {size N : ℕ} (hs : 0 < size) (hN : Operations ops m N) (log : List Submission) :
    ∃ new extra, runlsfWhole ops answers m w size log.length log = log ++ new ∧
      allPerformed ops new = once m N ++ extra ∧ extra.length < size ∧ ∀ x ∈ extra, ∃ k : ℕ, N ≤ k ∧ x = (m, .ok (k : ℤ)) := by
  have hle := ceilDiv_le N hs
  have hlt : ceilDiv N size * size < N + size := by
    rcases Nat.eq_zero_or_pos (ceilDiv N size) with h0 | hp
    · rw [h0]; omega
    · have h2 := ceilDiv_lt hs (show ceilDiv N size - 1 < ceilDiv N size by omega)
      have h3 : ceilDiv N size * size = (ceilDiv N size - 1) * size + size := by
        rw [← Nat.succ_mul, Nat.succ_eq_add_one, Nat.sub_add_cancel hp]
      omega
  refine ⟨(List.range (ceilDiv N size)).map (shellArray m w size none), (List.range (ceilDiv N size * size - N)).map fun i : ℕ => (m, .ok ((N + i : ℕ) : ℤ)), ?_, ?_, ?_, ?_⟩
  · unfold runlsfWhole
    rw [printedCount_eq hs hN, shellLoop_eq ha]
  · unfold allPerformed
    rw [List.flatMap_map]
    have h : ∀ b ∈ List.range (ceilDiv N size), ((elements (shellArray m w size none b)).flatMap fun e =>
        (commands ops (shellArray m w size none b) e).map fun a => ((shellArray m w size none b).module, performed a)) =
        (List.range ((b + 1) * size - b * size)).map fun i : ℕ => (m, Except.ok ((b * size + i : ℕ) : ℤ)) := by
      intro b _
      have e1 : (b + 1) * size - b * size = size := by rw [Nat.succ_mul]; omega
      rw [e1]
      refine single_performs ops _ hs rfl ?_ ?_ (le_refl _) rfl rfl
      · unfold shellArray arrayEnd; push_cast; ring
      · unfold shellArray arrayEnd; push_cast; ring
    rw [List.flatMap_congr h, pieces m (fun b => b * size) (by simp) (fun b => by
      have e1 : (b + 1) * size = b * size + size := by ring
      omega)]
    unfold once
    rw [show List.range (ceilDiv N size * size) = List.range N ++ (List.range (ceilDiv N size * size - N)).map (N + ·) by
      rw [← List.range_add]; congr 1; omega, List.map_append, List.map_map]
    rfl
  · rw [List.length_map, List.length_range]; omega
  · intro x hx
    rw [List.mem_map] at hx
    obtain ⟨i, -, rfl⟩ := hx
    exact ⟨N + i, by omega, rfl⟩

end Verif.Eustace.Submit
