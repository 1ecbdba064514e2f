import Verif.Eustace.Elements.Hyper
import Mathlib.Tactic.Linarith
import Mathlib.Tactic.NormNum

/-!
C40: hyperparameters as one array.
-/

namespace Verif.Eustace.Elements

open Verif

noncomputable section

/-! ### Specification -/

mutual

/-- The hyperparameters of an object one after another, parts of a combination in their order. -/
def leaves : Hyper → List ℝ
  | .covariate v => [v]
  | .stationary s r => [s, r]
  | .expanded s r => s ++ r
  | .seasonal h => h
  | .spaceTime a b c => [a, b, c]
  | .combination parts => leavesAll parts

def leavesAll : List Hyper → List ℝ
  | [] => []
  | h :: rest => leaves h ++ leavesAll rest

end

/-- Number of hyperparameters. -/
def count (h : Hyper) : Nat := (leaves h).length

mutual

/-- Combinations, on every level, have parts, and the last part has hyperparameters. -/
def Proper : Hyper → Prop
  | .combination parts => ProperAll parts ∧ ∃ last, parts.getLast? = some last ∧ count last ≠ 0
  | _ => True

def ProperAll : List Hyper → Prop
  | [] => True
  | h :: rest => Proper h ∧ ProperAll rest

end

mutual

/-- The object with other values: the same classes and the same numbers of values. -/
def put : Hyper → List ℝ → Hyper
  | .covariate _, w => .covariate (w.getD 0 0)
  | .stationary _ _, w => .stationary (w.getD 0 0) (w.getD 1 0)
  | .expanded _ _, w => .expanded (w.take (w.length / 2)) (w.drop (w.length / 2))
  | .seasonal _, w => .seasonal w
  | .spaceTime _ _ _, w => .spaceTime (w.getD 0 0) (w.getD 1 0) (w.getD 2 0)
  | .combination parts, w => .combination (putAll parts w)

def putAll : List Hyper → List ℝ → List Hyper
  | [], _ => []
  | h :: rest, w => put h (w.take (count h)) :: putAll rest (w.drop (count h))

end

mutual

/-- The two arrays of expanded hyperparameters have the same length, on every level. -/
def Balanced : Hyper → Prop
  | .expanded s r => s.length = r.length
  | .combination parts => BalancedAll parts
  | _ => True

def BalancedAll : List Hyper → Prop
  | [] => True
  | h :: rest => Balanced h ∧ BalancedAll rest

end

/-! ### Reading -/

theorem leavesAll_eq (parts : List Hyper) : leavesAll parts = (parts.map leaves).flatten := by
  induction parts with
  | nil => rfl
  | cons h rest ih => simp [leavesAll, ih]

mutual

theorem getArray_proper : ∀ h, Proper h → getArray h = .ok (leaves h)
  | .covariate _, _ => by simp [getArray, leaves]
  | .stationary _ _, _ => by simp [getArray, leaves]
  | .expanded _ _, _ => by simp [getArray, leaves]
  | .seasonal _, _ => by simp [getArray, leaves]
  | .spaceTime _ _ _, _ => by simp [getArray, leaves]
  | .combination parts, hp => by
    unfold Proper at hp
    obtain ⟨hall, last, hlast, -⟩ := hp
    have ih := getArrays_proper parts hall
    unfold getArray
    rw [ih]
    cases parts with
    | nil => simp at hlast
    | cons h rest => simp [leaves, leavesAll, leavesAll_eq]

theorem getArrays_proper : ∀ parts, ProperAll parts → getArrays parts = .ok (parts.map leaves)
  | [], _ => by simp [getArrays]
  | h :: rest, hp => by
    unfold ProperAll at hp
    unfold getArrays
    rw [getArray_proper h hp.1, getArrays_proper rest hp.2]
    simp

end

/-- C40: `get_array` gives the hyperparameters one after another. -/
theorem c40_get (h : Hyper) (hp : Proper h) : getArray h = .ok (leaves h) := getArray_proper h hp

/-! ### Writing -/

theorem item_eq (w : List ℝ) (i : Nat) (h : i < w.length) : item w i = .ok (w.getD i 0) := by
  unfold item
  rw [dif_pos h]
  simp [List.getD, h]

theorem rangesFrom_append (a b : List Nat) (start : Nat) :
    rangesFrom start (a ++ b) = rangesFrom start a ++ rangesFrom (start + a.sum) b := by
  induction a generalizing start with
  | nil => simp [rangesFrom]
  | cons x rest ih => simp [rangesFrom, ih, Nat.add_assoc]

theorem totalCount_eq (parts : List Hyper) (last : Hyper) (hlast : parts.getLast? = some last) (hc : count last ≠ 0) :
    totalCount (rangesFrom 0 (parts.map count)) = .ok (leavesAll parts).length := by
  obtain ⟨init, rfl⟩ : ∃ init, parts = init ++ [last] := by
    rw [List.getLast?_eq_some_iff] at hlast
    exact hlast
  unfold totalCount
  rw [List.map_append, rangesFrom_append]
  simp only [List.map_cons, List.map_nil, rangesFrom, List.getLast?_append, List.getLast?_singleton, Option.some_or, hc, if_false]
  congr 1
  rw [leavesAll_eq]
  simp only [List.length_flatten, List.map_map, List.map_append, List.sum_append, List.map_cons, List.map_nil, List.sum_cons,
    List.sum_nil, Function.comp]
  have e : (List.map (List.length ∘ leaves) init).sum = (init.map count).sum := rfl
  have e2 : (leaves last).length = count last := rfl
  rw [e, e2]
  omega

mutual

theorem setArray_proper : ∀ h w, Proper h → w.length = count h → setArray h w = .ok (put h w)
  | .covariate _, w, _, hw => by
    simp only [count, leaves, List.length_cons, List.length_nil] at hw
    unfold setArray
    rw [item_eq w 0 (by omega)]
    simp [put]
  | .stationary _ _, w, _, hw => by
    simp only [count, leaves, List.length_cons, List.length_nil] at hw
    unfold setArray
    rw [item_eq w 0 (by omega), item_eq w 1 (by omega)]
    simp [put]
  | .expanded _ _, w, _, hw => by simp [setArray, put]
  | .seasonal _, w, _, hw => by simp [setArray, put]
  | .spaceTime _ _ _, w, _, hw => by
    simp only [count, leaves, List.length_cons, List.length_nil] at hw
    unfold setArray
    rw [item_eq w 0 (by omega), item_eq w 1 (by omega), item_eq w 2 (by omega)]
    simp [put]
  | .combination parts, w, hp, hw => by
    unfold Proper at hp
    obtain ⟨hall, last, hlast, hc⟩ := hp
    have e1 : elementRanges parts = .ok (rangesFrom 0 (parts.map count)) := by
      unfold elementRanges
      rw [getArrays_proper parts hall]
      simp only [List.map_map]
      rfl
    simp only [count, leaves] at hw
    unfold setArray
    rw [e1]
    simp only [totalCount_eq parts last hlast hc, hw, ne_eq, not_true_eq_false, if_false]
    have := setArrays_proper parts [] w hall (by rw [hw])
    simp only [List.nil_append, List.length_nil] at this
    rw [this]
    simp [put]

theorem setArrays_proper : ∀ parts (before w : List ℝ), ProperAll parts → w.length = (leavesAll parts).length →
    setArrays parts (before ++ w) (rangesFrom before.length (parts.map count)) = .ok (putAll parts w)
  | [], _, _, _, _ => by simp [setArrays, putAll]
  | h :: rest, before, w, hp, hw => by
    unfold ProperAll at hp
    simp only [leavesAll, List.length_append] at hw
    have hle : count h ≤ w.length := by unfold count; omega
    have e1 : slice (before ++ w) (before.length, count h) = w.take (count h) := by
      simp [slice]
    simp only [List.map_cons, rangesFrom, setArrays, e1]
    rw [setArray_proper h _ hp.1 (by simp [hle])]
    have hd : (w.drop (count h)).length = (leavesAll rest).length := by
      rw [List.length_drop]; unfold count; omega
    have := setArrays_proper rest (before ++ w.take (count h)) (w.drop (count h)) hp.2 hd
    rw [List.append_assoc, List.take_append_drop] at this
    rw [show (before ++ w.take (count h)).length = before.length + count h by simp [hle]] at this
    simp only [this]
    simp [putAll]

end

mutual

theorem leaves_put : ∀ h w, w.length = count h → leaves (put h w) = w
  | .covariate _, w, hw => by
    match w, hw with
    | [a], _ => simp [put, leaves]
  | .stationary _ _, w, hw => by
    match w, hw with
    | [a, b], _ => simp [put, leaves]
  | .expanded _ _, w, hw => by simp [put, leaves]
  | .seasonal _, w, hw => by simp [put, leaves]
  | .spaceTime _ _ _, w, hw => by
    match w, hw with
    | [a, b, c], _ => simp [put, leaves]
  | .combination parts, w, hw => by
    simp only [put, leaves]
    exact leavesAll_put parts w (by simpa [count, leaves] using hw)

theorem leavesAll_put : ∀ parts w, w.length = (leavesAll parts).length → leavesAll (putAll parts w) = w
  | [], w, hw => by
    simp only [leavesAll, List.length_nil, List.length_eq_zero_iff] at hw
    simp [putAll, leavesAll, hw]
  | h :: rest, w, hw => by
    simp only [leavesAll, List.length_append] at hw
    have hle : count h ≤ w.length := by unfold count; omega
    simp only [putAll, leavesAll]
    rw [leaves_put h _ (by simp [hle]), leavesAll_put rest _ (by rw [List.length_drop]; unfold count; omega)]
    exact List.take_append_drop _ _

end

theorem count_put (h : Hyper) (w : List ℝ) (hw : w.length = count h) : count (put h w) = count h := by
  unfold count
  rw [leaves_put h w hw, hw, count]

theorem putAll_getLast (parts : List Hyper) (w : List ℝ) (last : Hyper) (hlast : parts.getLast? = some last)
    (hw : w.length = (leavesAll parts).length) :
    ∃ l, (putAll parts w).getLast? = some l ∧ count l = count last := by
  induction parts generalizing w with
  | nil => simp at hlast
  | cons h rest ih =>
    simp only [leavesAll, List.length_append] at hw
    have hle : count h ≤ w.length := by unfold count; omega
    cases rest with
    | nil =>
      simp only [List.getLast?_singleton, Option.some.injEq] at hlast
      subst hlast
      exact ⟨put h (w.take (count h)), by simp [putAll], count_put _ _ (by simp [hle])⟩
    | cons h2 rest =>
      rw [List.getLast?_cons_cons] at hlast
      obtain ⟨l, hl, hc⟩ := ih (w.drop (count h)) hlast (by rw [List.length_drop]; unfold count; omega)
      refine ⟨l, ?_, hc⟩
      rw [putAll, List.getLast?_cons]
      rw [hl]
      rfl

mutual

theorem proper_put : ∀ h w, Proper h → w.length = count h → Proper (put h w)
  | .covariate _, w, _, _ => by simp [put, Proper]
  | .stationary _ _, w, _, _ => by simp [put, Proper]
  | .expanded _ _, w, _, _ => by simp [put, Proper]
  | .seasonal _, w, _, _ => by simp [put, Proper]
  | .spaceTime _ _ _, w, _, _ => by simp [put, Proper]
  | .combination parts, w, hp, hw => by
    unfold Proper at hp
    obtain ⟨hall, last, hlast, hc⟩ := hp
    have hw' : w.length = (leavesAll parts).length := by simpa [count, leaves] using hw
    unfold put Proper
    refine ⟨properAll_put parts w hall hw', ?_⟩
    obtain ⟨l, hl, hcl⟩ := putAll_getLast parts w last hlast hw'
    exact ⟨l, hl, by rw [hcl]; exact hc⟩

theorem properAll_put : ∀ parts w, ProperAll parts → w.length = (leavesAll parts).length → ProperAll (putAll parts w)
  | [], _, _, _ => by simp [putAll, ProperAll]
  | h :: rest, w, hp, hw => by
    unfold ProperAll at hp
    simp only [leavesAll, List.length_append] at hw
    have hle : count h ≤ w.length := by unfold count; omega
    unfold putAll ProperAll
    exact ⟨proper_put h _ hp.1 (by simp [hle]), properAll_put rest _ hp.2 (by rw [List.length_drop]; unfold count; omega)⟩

end

/-- C40: what is set with the right number of values is what is then read. -/
theorem c40_round_trip (h : Hyper) (w : List ℝ) (hp : Proper h) (hw : w.length = count h) :
    ∃ h', setArray h w = .ok h' ∧ getArray h' = .ok w := by
  refine ⟨put h w, setArray_proper h w hp hw, ?_⟩
  rw [getArray_proper _ (proper_put h w hp hw), leaves_put h w hw]

mutual

theorem put_leaves : ∀ h, Balanced h → put h (leaves h) = h
  | .covariate _, _ => by simp [put, leaves]
  | .stationary _ _, _ => by simp [put, leaves]
  | .expanded s r, hb => by
    simp only [Balanced] at hb
    have : (s ++ r).length / 2 = s.length := by simp; omega
    simp only [put, leaves, this]
    simp
  | .seasonal _, _ => by simp [put, leaves]
  | .spaceTime _ _ _, _ => by simp [put, leaves]
  | .combination parts, hb => by
    simp only [Balanced] at hb
    simp only [put, leaves, putAll_leaves parts hb]

theorem putAll_leaves : ∀ parts, BalancedAll parts → putAll parts (leavesAll parts) = parts
  | [], _ => by simp [putAll]
  | h :: rest, hb => by
    simp only [BalancedAll] at hb
    simp only [putAll, leavesAll]
    rw [show count h = (leaves h).length from rfl, List.take_left, List.drop_left, put_leaves h hb.1,
      putAll_leaves rest hb.2]

end

/-- C40: setting the values which are there changes nothing. -/
theorem c40_identity (h : Hyper) (hp : Proper h) (hb : Balanced h) :
    ∃ v, getArray h = .ok v ∧ setArray h v = .ok h := by
  refine ⟨leaves h, getArray_proper h hp, ?_⟩
  rw [setArray_proper h _ hp rfl, put_leaves h hb]

/-- C40: a combination refuses a wrong number of values. -/
theorem c40_length (parts : List Hyper) (w : List ℝ) (hp : Proper (.combination parts))
    (hw : w.length ≠ count (.combination parts)) : setArray (.combination parts) w = .error .valueError := by
  unfold Proper at hp
  obtain ⟨hall, last, hlast, hc⟩ := hp
  have e1 : elementRanges parts = .ok (rangesFrom 0 (parts.map count)) := by
    unfold elementRanges
    rw [getArrays_proper parts hall]
    simp only [List.map_map]
    rfl
  simp only [count, leaves] at hw
  unfold setArray
  rw [e1]
  simp only [totalCount_eq parts last hlast hc, ne_eq, hw, not_false_eq_true, if_true]

theorem putAll_length (parts : List Hyper) (w : List ℝ) : (putAll parts w).length = parts.length := by
  induction parts generalizing w with
  | nil => simp [putAll]
  | cons h rest ih => simp [putAll, ih]

theorem putAll_get (parts : List Hyper) (w : List ℝ) (i : Nat) (h : i < parts.length) :
    (putAll parts w)[i]'(by rw [putAll_length]; exact h) =
      put parts[i] ((w.drop ((parts.take i).map count).sum).take (count parts[i])) := by
  induction parts generalizing w i with
  | nil => simp at h
  | cons a rest ih =>
    cases i with
    | zero => simp [putAll]
    | succ i =>
      simp only [putAll, List.getElem_cons_succ, List.take_succ_cons, List.map_cons, List.sum_cons]
      rw [ih (w.drop (count a)) i (by simpa using h), List.drop_drop]

theorem properAll_get (parts : List Hyper) (hp : ProperAll parts) (i : Nat) (h : i < parts.length) : Proper parts[i] := by
  induction parts generalizing i with
  | nil => simp at h
  | cons a rest ih =>
    unfold ProperAll at hp
    cases i with
    | zero => exact hp.1
    | succ i => exact ih hp.2 i (by simpa using h)

/-- C40: each part of a combination takes its own values: part `i` those which follow the values of the parts before. -/
theorem c40_parts (parts : List Hyper) (w : List ℝ) (hp : Proper (.combination parts))
    (hw : w.length = count (.combination parts)) :
    ∃ parts', setArray (.combination parts) w = .ok (.combination parts') ∧ ∃ hl : parts'.length = parts.length,
      ∀ i (h : i < parts.length),
        getArray parts'[i] = .ok ((w.drop ((parts.take i).map count).sum).take (count parts[i])) := by
  refine ⟨putAll parts w, ?_, putAll_length parts w, ?_⟩
  · rw [setArray_proper _ w hp hw, put]
  · intro i h
    have hall : ProperAll parts := by unfold Proper at hp; exact hp.1
    have hsum : ∀ (l : List Hyper), (leavesAll l).length = (l.map count).sum := by
      intro l
      induction l with
      | nil => simp [leavesAll]
      | cons a r ih => simp [leavesAll, ih, count]
    have hlen : ((w.drop ((parts.take i).map count).sum).take (count parts[i])).length = count parts[i] := by
      have e : w.length = (parts.map count).sum := by
        rw [hw, count, leaves, hsum]
      have e2 : (parts.map count).sum = ((parts.take i).map count).sum + (count parts[i] + ((parts.drop (i + 1)).map count).sum) := by
        conv_lhs => rw [← List.take_append_drop i parts, List.drop_eq_getElem_cons h]
        rw [List.map_append, List.map_cons, List.sum_append, List.sum_cons]
      rw [List.length_take, List.length_drop]
      omega
    rw [putAll_get parts w i h, getArray_proper _ (proper_put _ _ (properAll_get parts hall i h) hlen), leaves_put _ _ hlen]

/-- A combination as in the analysis: a bias, a field and its parts meet the hypotheses. -/
example : Proper (.combination [.covariate 1, .combination [.covariate 2, .stationary 3 4], .expanded [5, 6] [7, 8]]) ∧
    Balanced (.combination [.covariate 1, .combination [.covariate 2, .stationary 3 4], .expanded [5, 6] [7, 8]]) ∧
    ([1, 2, 3, 4, 5, 6, 7, 8] : List ℝ).length =
      count (.combination [.covariate 1, .combination [.covariate 2, .stationary 3 4], .expanded [5, 6] [7, 8]]) := by
  simp [Proper, ProperAll, Balanced, BalancedAll, count, leaves, leavesAll]

/-- C40 fails for a combination whose last part has no hyperparameters: its array is read, and is refused when it is set
(combination.py 33). -/
theorem c40_last_empty_violated (v : ℝ) :
    getArray (.combination [.covariate v, .seasonal []]) = .ok [v] ∧
      setArray (.combination [.covariate v, .seasonal []]) [v] = .error .indexError := by
  constructor
  · simp [getArray, getArrays]
  · simp [setArray, elementRanges, getArrays, getArray, rangesFrom, totalCount]

/-- C40 fails for single hyperparameter objects: values which are too many are ignored. -/
theorem c40_surplus_violated (v w : ℝ) (rest : List ℝ) : setArray (.covariate v) (w :: rest) = .ok (.covariate w) := by
  simp [setArray, item]

/-- C40 fails for `GeneralHyperparameters`: two fields with three values each are not the same after a round trip. -/
theorem c40_general_violated (a b : List ℝ) (ha : a.length = 3) (hb : b.length = 3) :
    (generalSet [a.length, b.length] (generalGet [a, b])).map List.length = [2, 0] := by
  simp [generalSet, generalGet, ha, hb]

end

end Verif.Eustace.Elements
