import Verif.Eustace.Submit.Spec
import Mathlib.Data.List.GetD
import Mathlib.Algebra.Order.Floor.Ring
import Mathlib.Tactic.NormNum
import Mathlib.Tactic.FieldSimp
import Mathlib.Tactic.Positivity

/-! C128: every operation is performed exactly once. -/
namespace Verif.Eustace.Submit
open Verif Verif.Eumopps.Run Spec

/-- The batch count as a natural number. -/
def ceilDiv (n b : ℕ) : ℕ := if n % b ≠ 0 then n / b + 1 else n / b

theorem ceilDiv_le (n : ℕ) {b : ℕ} (hb : 0 < b) : n ≤ ceilDiv n b * b := by
  unfold ceilDiv
  have h1 := Nat.div_add_mod n b
  have h2 := Nat.mod_lt n hb
  split
  · have : (n / b + 1) * b = b * (n / b) + b := by ring
    omega
  · have : n / b * b = b * (n / b) := by ring
    omega

theorem ceilDiv_lt {n b k : ℕ} (hb : 0 < b) (hk : k < ceilDiv n b) : k * b < n := by
  unfold ceilDiv at hk
  have h1 := Nat.div_add_mod n b
  split at hk
  · rename_i h
    have : k * b ≤ n / b * b := Nat.mul_le_mul_right b (by omega)
    have h3 : n / b * b = b * (n / b) := by ring
    omega
  · have : (k + 1) * b ≤ n / b * b := Nat.mul_le_mul_right b (by omega)
    have h3 : n / b * b = b * (n / b) := by ring
    have h4 : (k + 1) * b = k * b + b := by ring
    omega

theorem ceilDiv_pos {n b : ℕ} (hb : 0 < b) (hn : 0 < n) : 0 < ceilDiv n b := by
  have := ceilDiv_le n hb
  rcases Nat.eq_zero_or_pos (ceilDiv n b) with h | h
  · rw [h] at this; omega
  · exact h

theorem operationcount_ok {ops : List StoredOp} {m : String} {b n : ℕ} (h : operationcount ops m b = .ok n) :
    0 < b ∧ ∃ N, Operations ops m N ∧ n = ceilDiv N b := by
  unfold operationcount at h
  cases hf : findoperation ops m with
  | error e => rw [hf] at h; cases h
  | ok g =>
    rw [hf] at h
    dsimp only at h
    by_cases hb : b = 0
    · rw [if_pos hb] at h; cases h
    rw [if_neg hb] at h
    refine ⟨by omega, ?_⟩
    cases g with
    | none =>
      refine ⟨0, Or.inr ⟨hf, rfl⟩, ?_⟩
      dsimp only at h
      unfold ceilDiv
      split at h <;> (injection h with h; subst h; simp_all)
    | some g =>
      refine ⟨g.count, Or.inl ⟨g, hf, rfl⟩, ?_⟩
      dsimp only at h
      unfold ceilDiv
      split at h <;> rename_i hh <;> (injection h with h; subst h)
      · rw [if_pos hh]
      · rw [if_neg hh]

theorem operations_unique {ops : List StoredOp} {m : String} {a b : ℕ} (ha : Operations ops m a) (hb : Operations ops m b) : a = b := by
  rcases ha with ⟨g, hg, rfl⟩ | ⟨hg, rfl⟩ <;> rcases hb with ⟨g', hg', rfl⟩ | ⟨hg', rfl⟩ <;> rw [hg] at hg'
  · injection hg' with h; injection h with h; rw [h]
  · injection hg' with h; cases h
  · injection hg' with h; cases h

theorem operationcount_of {ops : List StoredOp} {m : String} {b N : ℕ} (hb : 0 < b) (h : Operations ops m N) :
    operationcount ops m b = .ok (ceilDiv N b) := by
  unfold operationcount ceilDiv
  rcases h with ⟨g, hg, rfl⟩ | ⟨hg, rfl⟩
  · rw [hg]
    dsimp only
    rw [if_neg (by omega)]
    split <;> rfl
  · rw [hg]
    dsimp only
    rw [if_neg (by omega)]
    simp

theorem ceilDiv_one (n : ℕ) : ceilDiv n 1 = n := by simp [ceilDiv, Nat.mod_one]

/-! ### Elements and commands -/

theorem elements_eq (s : Submission) {a n : ℕ} (hf : s.first = (a : ℤ) + 1) (hl : s.last = (a : ℤ) + n) :
    elements s = (List.range n).map fun i : ℕ => ((a + i : ℕ) : ℤ) + 1 := by
  unfold elements
  rw [hf, hl]
  have : ((a : ℤ) + n + 1 - (a + 1)).toNat = n := by omega
  rw [this]
  apply List.map_congr_left
  intro i _
  push_cast
  ring

theorem tmod_offset {a b i : ℕ} (h : i < b) : ((a * b + i : ℕ) : ℤ).tmod (b : ℤ) = (i : ℤ) := by
  rw [Int.tmod_eq_emod_of_nonneg (by omega)]
  rw [← Int.natCast_mod, Nat.mul_comm, Nat.mul_add_mod, Nat.mod_eq_of_lt h]

theorem performed_eq {S b i : ℕ} (hS : 0 < S) : performed ((i : ℤ), (S : ℤ), (b : ℤ)) = .ok ((b * S + i : ℕ) : ℤ) := by
  unfold performed operationIndex
  simp only [Option.getD_some]
  rw [if_pos (by omega)]
  push_cast
  rfl

/-- What one array of single operations performs. -/
theorem single_performs (ops : List StoredOp) (s : Submission) {S b n : ℕ} (hS : 0 < S) (hs : s.script = .single)
    (h1 : s.first = ((b * S : ℕ) : ℤ) + 1) (h2 : s.last = ((b * S : ℕ) : ℤ) + n) (h3 : n ≤ S) (h4 : s.batchsize = S)
    (h5 : s.batchnumber = b) :
    ((elements s).flatMap fun e => (commands ops s e).map fun a => (s.module, performed a)) =
      (List.range n).map fun i : ℕ => (s.module, .ok ((b * S + i : ℕ) : ℤ)) := by
  rw [elements_eq s h1 h2, List.flatMap_map]
  have : ∀ i ∈ List.range n, ((commands ops s (((b * S + i : ℕ) : ℤ) + 1)).map fun a => (s.module, performed a)) =
      [(s.module, Except.ok ((b * S + i : ℕ) : ℤ))] := by
    intro i hi
    rw [List.mem_range] at hi
    unfold commands singleCommand
    rw [hs]
    dsimp only
    rw [h4, h5, show (((b * S + i : ℕ) : ℤ) + 1 - 1) = ((b * S + i : ℕ) : ℤ) by ring, tmod_offset (by omega)]
    rw [List.map_singleton, performed_eq hS]
  rw [List.flatMap_congr this, List.map_eq_flatMap]

/-- Commands of one element of a group. -/
theorem groupCommands_eq (s : Submission) {N J T b q : ℕ} (hq : q < J) (h2 : s.batchsize = ((T * J : ℕ) : ℤ)) (h3 : s.batchnumber = b)
    (h4 : s.njobs = J) (h5 : s.ntasks = T) (t n : ℕ) :
    groupCommands s N (((b * J + q : ℕ) : ℤ) + 1) (List.range' t n) =
      (List.range' t (min n (N - (b * J + q) * T - t))).map fun i : ℕ => (((q * T + i : ℕ) : ℤ), ((T * J : ℕ) : ℤ), (b : ℤ)) := by
  induction n generalizing t with
  | zero => simp [groupCommands]
  | succ n ih =>
    rw [List.range'_succ, groupCommands]
    rw [h2, h3, h4, h5, show (((b * J + q : ℕ) : ℤ) + 1 - 1) = ((b * J + q : ℕ) : ℤ) by ring, tmod_offset hq]
    have e1 : (b : ℤ) * ((T * J : ℕ) : ℤ) + ((q : ℤ) * T + t) = (((b * J + q) * T + t : ℕ) : ℤ) := by push_cast; ring
    rw [e1]
    by_cases hc : N ≤ (b * J + q) * T + t
    · rw [if_pos (by exact_mod_cast hc), show min (n + 1) (N - (b * J + q) * T - t) = 0 by omega]
      rfl
    · rw [if_neg (fun h => hc (by exact_mod_cast h)), ih]
      rw [show min (n + 1) (N - (b * J + q) * T - t) = min n (N - (b * J + q) * T - (t + 1)) + 1 by omega, List.range'_succ]
      simp only [List.map_cons]
      push_cast
      rfl

/-- What one element of a group performs. -/
theorem group_element (ops : List StoredOp) (s : Submission) {N J T b q : ℕ} (hT : 0 < T) (hq : q < J) (hs : s.script = .group)
    (hN : Operations ops s.module N) (h2 : s.batchsize = ((T * J : ℕ) : ℤ)) (h3 : s.batchnumber = b)
    (h4 : s.njobs = J) (h5 : s.ntasks = T) :
    ((commands ops s (((b * J + q : ℕ) : ℤ) + 1)).map fun a => (s.module, performed a)) =
      (List.range (min T (N - (b * J + q) * T))).map fun i : ℕ => (s.module, .ok (((b * J + q) * T + i : ℕ) : ℤ)) := by
  unfold commands printedCount
  rw [hs, operationcount_of (by omega) hN]
  dsimp only
  rw [ceilDiv_one, h5, Int.toNat_natCast, List.range_eq_range', groupCommands_eq s hq h2 h3 h4 h5, List.map_map, Nat.sub_zero,
    ← List.range_eq_range']
  apply List.map_congr_left
  intro i _
  simp only [Function.comp]
  rw [performed_eq (Nat.mul_pos hT (by omega))]
  congr 3
  push_cast
  ring

/-- Consecutive pieces make up a whole. -/
theorem pieces (m : String) (f : ℕ → ℕ) (h0 : f 0 = 0) (hf : ∀ b, f b ≤ f (b + 1)) (n : ℕ) :
    ((List.range n).flatMap fun b => (List.range (f (b + 1) - f b)).map fun i : ℕ => ((m, .ok ((f b + i : ℕ) : ℤ)) : String × Except PyErr ℤ))
      = once m (f n) := by
  induction n with
  | zero => simp [once, h0]
  | succ n ih =>
    rw [List.range_succ, List.flatMap_append, ih, List.flatMap_singleton]
    unfold once
    have : f (n + 1) = f n + (f (n + 1) - f n) := by have := hf n; omega
    rw [show List.range (f (n + 1)) = List.range (f n) ++ (List.range (f (n + 1) - f n)).map (f n + ·) by
      rw [← List.range_add, ← this], List.map_append, List.map_map]
    rfl

/-! ### Loops -/

/-- Calls of `bsub` one after another. -/
def submitAll (answers : ℕ → Answer) : List Submission → List Text → List Submission → List Submission × Except PyErr (List Text)
  | [], ids, log => (log, .ok ids)
  | s :: ss, ids, log => match bsub answers log s with
    | (log', .error e) => (log', .error e)
    | (log', .ok i) => submitAll answers ss (ids ++ [i]) log'

theorem submitAll_ok {answers : ℕ → Answer} {ss : List Submission} {ids : List Text} {log log' : List Submission} {ids' : List Text}
    (h : submitAll answers ss ids log = (log', .ok ids')) :
    log' = log ++ ss ∧ ∃ new, ids' = ids ++ new ∧ new.length = ss.length ∧
      ∀ i < ss.length, (answers (log.length + i)).status = 0 ∧ searchId (answers (log.length + i)).out = new[i]? := by
  induction ss generalizing ids log with
  | nil =>
    simp only [submitAll, Prod.mk.injEq, Except.ok.injEq] at h
    obtain ⟨rfl, rfl⟩ := h
    exact ⟨by simp, [], by simp, rfl, by simp⟩
  | cons s ss ih =>
    rw [submitAll] at h
    unfold bsub at h
    by_cases hst : (answers log.length).status ≠ 0
    · rw [if_pos hst] at h; cases h
    rw [if_neg hst] at h
    cases hsr : searchId (answers log.length).out with
    | none => rw [hsr] at h; cases h
    | some i =>
      rw [hsr] at h
      obtain ⟨h1, new, h2, h3, h4⟩ := ih h
      refine ⟨by rw [h1, List.append_assoc]; rfl, i :: new, by rw [h2, List.append_assoc]; rfl, by simp [h3], ?_⟩
      intro j hj
      cases j with
      | zero => exact ⟨by simpa using hst, by simpa using hsr⟩
      | succ j =>
        have := h4 j (by simpa using hj)
        rw [List.length_append, List.length_singleton, Nat.add_assoc, Nat.add_comm 1 j] at this
        exact ⟨this.1, by rw [this.2]; simp⟩

theorem submitAll_of {answers : ℕ → Answer} {ids : ℕ → Text} (h : ∀ n, (answers n).status = 0 ∧ searchId (answers n).out = some (ids n))
    (ss : List Submission) (l : List Text) (log : List Submission) :
    submitAll answers ss l log = (log ++ ss, .ok (l ++ (List.range ss.length).map fun i => ids (log.length + i))) := by
  induction ss generalizing l log with
  | nil => simp [submitAll]
  | cons s ss ih =>
    rw [submitAll]
    unfold bsub
    rw [if_neg (by simp [(h log.length).1]), (h log.length).2]
    dsimp only
    rw [ih]
    congr 1
    · simp
    · congr 1
      rw [List.length_cons, List.range_succ_eq_map]
      simp [Nat.add_assoc, Nat.add_comm 1]

/-- The arrays of `submit_eumopps_jobs`. -/
def jobArray (k : Script) (m : String) (w : Text) (S N B b : ℕ) : Submission :=
  ⟨k, m, ((b * S : ℕ) : ℤ) + 1, (if b + 1 = B then (N : ℤ) else (((b + 1) * S : ℕ) : ℤ)), S, b, 0, 0, w⟩

theorem batchLoop_eq (answers : ℕ → Answer) (k : Script) (m : String) (w : Text) (S N B : ℕ) (n b : ℕ) (ids : List Text)
    (log : List Submission) (hn : b + n = B) :
    batchLoop answers k m w S N B (List.range' b n) ((b * S : ℕ) : ℤ) ids log =
      submitAll answers ((List.range' b n).map (jobArray k m w S N B)) ids log := by
  induction n generalizing b ids log with
  | zero => rfl
  | succ n ih =>
    rw [List.range'_succ, List.map_cons, batchLoop, submitAll]
    have e : (⟨k, m, ((b * S : ℕ) : ℤ) + 1, ((b * S : ℕ) : ℤ) + 1 +
        (if (b : ℤ) = (B : ℤ) - 1 then (N : ℤ) - ((b * S : ℕ) : ℤ) else (S : ℤ)) - 1, S, b, 0, 0, w⟩ : Submission) =
        jobArray k m w S N B b := by
      unfold jobArray
      congr 1
      by_cases hb : b + 1 = B
      · rw [if_pos (by omega), if_pos hb]; ring
      · rw [if_neg (by omega), if_neg hb]; push_cast; ring
    rw [e]
    cases hbs : bsub answers log (jobArray k m w S N B b) with
    | mk log' r =>
      cases r with
      | error e => rfl
      | ok i =>
        dsimp only
        by_cases hb : b + 1 = B
        · have : n = 0 := by omega
          subst this
          rfl
        · rw [if_neg (by omega)]
          have := ih (b + 1) (ids ++ [i]) log' (by omega)
          rw [← this]
          congr 1
          push_cast
          ring

/-- The arrays of `submit_eumopps_jobs_grouped`. -/
def groupArray (k : Script) (m : String) (w : Text) (J T M B b : ℕ) : Submission :=
  ⟨k, m, ((b * J : ℕ) : ℤ) + 1, (if b + 1 = B then (M : ℤ) else (((b + 1) * J : ℕ) : ℤ)), ((T * J : ℕ) : ℤ), b, J, T, w⟩

theorem groupLoop_eq (answers : ℕ → Answer) (k : Script) (m : String) (w : Text) (J T M B : ℕ) (n b : ℕ) (ids : List Text)
    (log : List Submission) (hn : b + n = B) :
    groupLoop answers k m w ((T * J : ℕ) : ℤ) J T M B (List.range' b n) ((b * J : ℕ) : ℤ) ids log =
      submitAll answers ((List.range' b n).map (groupArray k m w J T M B)) ids log := by
  induction n generalizing b ids log with
  | zero => rfl
  | succ n ih =>
    rw [List.range'_succ, List.map_cons, groupLoop, submitAll]
    have e : (⟨k, m, ((b * J : ℕ) : ℤ) + 1, ((b * J : ℕ) : ℤ) + 1 +
        (if (b : ℤ) = (B : ℤ) - 1 then (M : ℤ) - ((b * J : ℕ) : ℤ) else (J : ℤ)) - 1, ((T * J : ℕ) : ℤ), b, J, T, w⟩ : Submission) =
        groupArray k m w J T M B b := by
      unfold groupArray
      congr 1
      by_cases hb : b + 1 = B
      · rw [if_pos (by omega), if_pos hb]; ring
      · rw [if_neg (by omega), if_neg hb]; push_cast; ring
    rw [e]
    cases hbs : bsub answers log (groupArray k m w J T M B b) with
    | mk log' r =>
      cases r with
      | error e => rfl
      | ok i =>
        dsimp only
        by_cases hb : b + 1 = B
        · have : n = 0 := by omega
          subst this
          rfl
        · rw [if_neg (by omega)]
          have := ih (b + 1) (ids ++ [i]) log' (by omega)
          rw [← this]
          congr 1
          push_cast
          ring

/-- The arrays of single operations perform every operation once. -/
theorem jobArrays_once (ops : List StoredOp) (m : String) (w : Text) {S N : ℕ} (hS : 0 < S) :
    allPerformed ops ((List.range (ceilDiv N S)).map (jobArray .single m w S N (ceilDiv N S))) = once m N := by
  unfold allPerformed
  rw [List.flatMap_map]
  have h : ∀ b ∈ List.range (ceilDiv N S), ((elements (jobArray .single m w S N (ceilDiv N S) b)).flatMap fun e =>
      (commands ops (jobArray .single m w S N (ceilDiv N S) b) e).map fun a => ((jobArray .single m w S N (ceilDiv N S) b).module, performed a)) =
      (List.range (min ((b + 1) * S) N - min (b * S) N)).map fun i : ℕ => (m, Except.ok ((min (b * S) N + i : ℕ) : ℤ)) := by
    intro b hb
    rw [List.mem_range] at hb
    have hlt := ceilDiv_lt hS hb
    have hle := ceilDiv_le N hS
    have e1 : (b + 1) * S = b * S + S := by ring
    rw [show min (b * S) N = b * S by omega]
    refine single_performs ops _ hS rfl rfl ?_ (by omega) rfl rfl
    show (if b + 1 = ceilDiv N S then (N : ℤ) else (((b + 1) * S : ℕ) : ℤ)) = _
    by_cases hc : b + 1 = ceilDiv N S
    · rw [if_pos hc]
      rw [← hc] at hle
      omega
    · rw [if_neg hc]
      have := ceilDiv_lt hS (show b + 1 < ceilDiv N S by omega)
      omega
  rw [List.flatMap_congr h, pieces m (fun b => min (b * S) N) (by simp) (fun b => by
    have e1 : (b + 1) * S = b * S + S := by ring
    omega)]
  have hle := ceilDiv_le N hS
  congr 1
  omega

theorem ceilDiv_mul {N J T : ℕ} (hJ : 0 < J) (hT : 0 < T) : ceilDiv (ceilDiv N T) J = ceilDiv N (T * J) := by
  have hTJ : 0 < T * J := Nat.mul_pos hT hJ
  apply Nat.le_antisymm
  · by_contra hc
    have h1 := ceilDiv_lt hJ (Nat.lt_of_not_le hc)
    have h2 := ceilDiv_lt hT h1
    have h3 := ceilDiv_le N hTJ
    have : ceilDiv N (T * J) * J * T = ceilDiv N (T * J) * (T * J) := by ring
    omega
  · by_contra hc
    have h1 := ceilDiv_lt hTJ (Nat.lt_of_not_le hc)
    have h2 := ceilDiv_le (ceilDiv N T) hJ
    have h3 := ceilDiv_le N hT
    have h4 : ceilDiv N T * T ≤ ceilDiv (ceilDiv N T) J * J * T := Nat.mul_le_mul_right T h2
    have : ceilDiv (ceilDiv N T) J * J * T = ceilDiv (ceilDiv N T) J * (T * J) := by ring
    omega

/-- Elements of one array of groups. -/
theorem groupArray_elements (m : String) (w : Text) {J T N b : ℕ} (hJ : 0 < J) (hT : 0 < T) (hb : b < ceilDiv N (T * J)) :
    elements (groupArray .group m w J T (ceilDiv N T) (ceilDiv N (T * J)) b) =
      (List.range (min ((b + 1) * J) (ceilDiv N T) - b * J)).map (fun q : ℕ => ((b * J + q : ℕ) : ℤ) + 1) ∧
      b * J < ceilDiv N T := by
  rw [← ceilDiv_mul hJ hT] at hb ⊢
  have hlt := ceilDiv_lt hJ hb
  have hle := ceilDiv_le (ceilDiv N T) hJ
  have e1 : (b + 1) * J = b * J + J := by ring
  refine ⟨elements_eq _ rfl ?_, hlt⟩
  show (if b + 1 = ceilDiv (ceilDiv N T) J then ((ceilDiv N T : ℕ) : ℤ) else (((b + 1) * J : ℕ) : ℤ)) = _
  by_cases hc : b + 1 = ceilDiv (ceilDiv N T) J
  · rw [if_pos hc]
    rw [← hc] at hle
    omega
  · rw [if_neg hc]
    have := ceilDiv_lt hJ (show b + 1 < ceilDiv (ceilDiv N T) J by omega)
    omega

/-- The arrays of groups perform every operation once. -/
theorem groupArrays_once (ops : List StoredOp) (m : String) (w : Text) {J T N : ℕ} (hJ : 0 < J) (hT : 0 < T)
    (hN : Operations ops m N) :
    allPerformed ops ((List.range (ceilDiv N (T * J))).map (groupArray .group m w J T (ceilDiv N T) (ceilDiv N (T * J)))) = once m N := by
  unfold allPerformed
  rw [List.flatMap_map]
  have h : ∀ b ∈ List.range (ceilDiv N (T * J)),
      ((elements (groupArray .group m w J T (ceilDiv N T) (ceilDiv N (T * J)) b)).flatMap fun e =>
        (commands ops (groupArray .group m w J T (ceilDiv N T) (ceilDiv N (T * J)) b) e).map fun a =>
          ((groupArray .group m w J T (ceilDiv N T) (ceilDiv N (T * J)) b).module, performed a)) =
      (List.range (min ((b + 1) * (J * T)) N - min (b * (J * T)) N)).map
        fun i : ℕ => (m, Except.ok ((min (b * (J * T)) N + i : ℕ) : ℤ)) := by
    intro b hb
    rw [List.mem_range] at hb
    obtain ⟨he, hlt⟩ := groupArray_elements m w hJ hT hb
    rw [he, List.flatMap_map]
    have e1 : (b + 1) * J = b * J + J := by ring
    have h2 : ∀ q ∈ List.range (min ((b + 1) * J) (ceilDiv N T) - b * J),
        ((commands ops (groupArray .group m w J T (ceilDiv N T) (ceilDiv N (T * J)) b) (((b * J + q : ℕ) : ℤ) + 1)).map fun a =>
          ((groupArray .group m w J T (ceilDiv N T) (ceilDiv N (T * J)) b).module, performed a)) =
        (List.range (min ((b * J + (q + 1)) * T) N - min ((b * J + q) * T) N)).map
          fun i : ℕ => (m, Except.ok ((min ((b * J + q) * T) N + i : ℕ) : ℤ)) := by
      intro q hq
      rw [List.mem_range] at hq
      have hg := group_element ops (groupArray .group m w J T (ceilDiv N T) (ceilDiv N (T * J)) b) (b := b) (q := q) (J := J) (T := T) (N := N)
        hT (by omega) rfl hN rfl rfl rfl rfl
      rw [hg]
      have h3 := ceilDiv_lt hT (show b * J + q < ceilDiv N T by omega)
      have e2 : (b * J + (q + 1)) * T = (b * J + q) * T + T := by ring
      rw [show min ((b * J + q) * T) N = (b * J + q) * T by omega,
        show min ((b * J + (q + 1)) * T) N - (b * J + q) * T = min T (N - (b * J + q) * T) by omega]
      rfl
    rw [List.flatMap_congr h2]
    have key : ∀ n, ((List.range n).flatMap fun q => (List.range (min ((b * J + (q + 1)) * T) N - min ((b * J + q) * T) N)).map
        fun i : ℕ => ((m, Except.ok ((min ((b * J + q) * T) N + i : ℕ) : ℤ)) : String × Except PyErr ℤ)) =
        (List.range (min ((b * J + n) * T) N - min (b * J * T) N)).map
          fun i : ℕ => ((m, Except.ok ((min (b * J * T) N + i : ℕ) : ℤ)) : String × Except PyErr ℤ) := by
      intro n
      induction n with
      | zero => simp
      | succ n ih =>
        rw [List.range_succ, List.flatMap_append, ih, List.flatMap_singleton]
        have e2 : (b * J + (n + 1)) * T = (b * J + n) * T + T := by ring
        have e3 : b * J * T ≤ (b * J + n) * T := Nat.mul_le_mul_right T (by omega)
        rw [show min ((b * J + (n + 1)) * T) N - min (b * J * T) N = (min ((b * J + n) * T) N - min (b * J * T) N) +
          (min ((b * J + (n + 1)) * T) N - min ((b * J + n) * T) N) by omega, List.range_add, List.map_append, List.map_map]
        congr 1
        apply List.map_congr_left
        intro i _
        simp only [Function.comp]
        congr 3
        omega
    rw [key]
    have e4 : b * (J * T) = b * J * T := by ring
    have e5 : (b + 1) * (J * T) = (b * J + J) * T := by ring
    rw [e4, e5]
    have hle := ceilDiv_le N hT
    rw [e1]
    congr 2
    rcases Nat.le_total (b * J + J) (ceilDiv N T) with hc | hc
    · rw [show min (b * J + J) (ceilDiv N T) - b * J = J by omega]
    · rw [show b * J + (min (b * J + J) (ceilDiv N T) - b * J) = ceilDiv N T by omega]
      have : ceilDiv N T * T ≤ (b * J + J) * T := Nat.mul_le_mul_right T hc
      omega
  rw [List.flatMap_congr h, pieces m (fun b => min (b * (J * T)) N) (by simp) (fun b => by
    have e1 : (b + 1) * (J * T) = b * (J * T) + J * T := by ring
    omega)]
  have hle := ceilDiv_le N (Nat.mul_pos hT hJ)
  have e6 : ceilDiv N (T * J) * (J * T) = ceilDiv N (T * J) * (T * J) := by ring
  congr 1
  omega

end Verif.Eustace.Submit
