import Verif.Eustace.Stations.Model
import Verif.Eustace.Stations.Spec
import Mathlib.Data.List.Sort
import Mathlib.Tactic.Linarith
import Mathlib.Tactic.NormNum
import Mathlib.Tactic.FieldSimp

/-! C125, C126 and C127: station data. -/
namespace Verif.Eustace.Stations
open Verif Verif.Float32 Spec

theorem sameTime_iff {a b : ℚ} : sameTime a b = true ↔ Close b a := by
  unfold sameTime tolerance Close
  rw [decide_eq_true_eq]
  norm_num

theorem close_symm {a b : ℚ} (h : Close a b) : Close b a := by
  unfold Close at *; rwa [abs_sub_comm]

/-! ### Indices of stations -/

theorem stationIndex_foldl (name : String) : ∀ (l : List String) (k : ℕ) (d : String → Option ℕ),
    ((l.zipIdx k).foldl indexStep d) name =
      if name ∈ l then ((l.zipIdx k).foldl indexStep (fun _ => none)) name else d name
  | [], k, d => by simp
  | a :: t, k, d => by
    rw [List.zipIdx_cons, List.foldl_cons, List.foldl_cons, stationIndex_foldl name t (k + 1)]
    rw [stationIndex_foldl name t (k + 1) (indexStep (fun _ => none) _)]
    by_cases h : name ∈ t
    · simp [h]
    · by_cases e : name = a
      · subst e; simp [h, indexStep]
      · simp [h, e, indexStep]

theorem stationIndex_cons_foldl (name a : String) (t : List String) (k : ℕ) :
    (((a :: t).zipIdx k).foldl indexStep (fun _ => none)) name =
      if name ∈ t then ((t.zipIdx (k + 1)).foldl indexStep (fun _ => none)) name
      else if name = a then some k else none := by
  rw [List.zipIdx_cons, List.foldl_cons, stationIndex_foldl name t (k + 1)]
  by_cases h : name ∈ t
  · simp [h]
  · by_cases e : name = a <;> simp [h, e, indexStep]

theorem stationIndex_spec_aux (name : String) : ∀ (l : List String) (k i : ℕ),
    ((l.zipIdx k).foldl indexStep (fun _ => none)) name = some i ↔
      ∃ j, i = k + j ∧ l[j]? = some name ∧ ∀ j', j < j' → l[j']? ≠ some name
  | [], k, i => by simp
  | a :: t, k, i => by
    rw [stationIndex_cons_foldl]
    by_cases h : name ∈ t
    · rw [if_pos h, stationIndex_spec_aux name t (k + 1) i]
      constructor
      · rintro ⟨j, rfl, h1, h2⟩
        refine ⟨j + 1, by omega, by simpa using h1, ?_⟩
        intro j' hj'
        obtain ⟨j', rfl⟩ : ∃ m, j' = m + 1 := ⟨j' - 1, by omega⟩
        simpa using h2 j' (by omega)
      · rintro ⟨j, rfl, h1, h2⟩
        rcases j with _ | j
        · exfalso
          obtain ⟨m, hm⟩ := List.mem_iff_getElem?.1 h
          exact h2 (m + 1) (by omega) (by simpa using hm)
        · refine ⟨j, by omega, by simpa using h1, ?_⟩
          intro j' hj'
          have := h2 (j' + 1) (by omega)
          simpa using this
    · rw [if_neg h]
      constructor
      · intro e
        by_cases ea : name = a
        · rw [if_pos ea] at e
          injection e with e
          refine ⟨0, by omega, by simp [ea], ?_⟩
          intro j' hj' hc
          obtain ⟨j', rfl⟩ : ∃ m, j' = m + 1 := ⟨j' - 1, by omega⟩
          exact h (List.mem_iff_getElem?.2 ⟨j', by simpa using hc⟩)
        · rw [if_neg ea] at e; cases e
      · rintro ⟨j, rfl, h1, -⟩
        rcases j with _ | j
        · have : a = name := by simpa using h1
          rw [if_pos this.symm]
          rfl
        · exact absurd (List.mem_iff_getElem?.2 ⟨j, by simpa using h1⟩) h

/-- The index of a name is the last place at which it is. -/
theorem stationIndex_spec {names : List String} {name : String} {i : ℕ} : stationIndex names name = some i ↔
    names[i]? = some name ∧ ∀ j, i < j → names[j]? ≠ some name := by
  unfold stationIndex
  rw [stationIndex_spec_aux]
  constructor
  · rintro ⟨j, rfl, h⟩
    simpa using h
  · intro h
    exact ⟨i, by simp, h⟩

theorem stationIndex_none {names : List String} {name : String} : stationIndex names name = none ↔ name ∉ names := by
  constructor
  · intro h hm
    have : ∀ l : List String, ∀ k, name ∈ l →
        ((l.zipIdx k).foldl indexStep (fun _ => none)) name ≠ none := by
      intro l
      induction l with
      | nil => intro k h; cases h
      | cons a t ih =>
        intro k h
        rw [stationIndex_cons_foldl]
        by_cases ht : name ∈ t
        · rw [if_pos ht]; exact ih _ ht
        · rw [if_neg ht, if_pos (by rcases List.mem_cons.1 h with h | h; exact h; exact absurd h ht)]
          simp
    exact this names 0 hm h
  · intro h
    cases e : stationIndex names name with
    | none => rfl
    | some i => exact absurd (List.mem_iff_getElem?.2 ⟨i, (stationIndex_spec.1 e).1⟩) h

theorem stationIndex_nodup {names : List String} (hn : names.Nodup) {name : String} {i : ℕ} :
    stationIndex names name = some i ↔ names[i]? = some name := by
  rw [stationIndex_spec]
  refine ⟨fun h => h.1, fun h => ⟨h, fun j hj hc => ?_⟩⟩
  have h1 := List.getElem?_eq_some_iff.1 h
  have h2 := List.getElem?_eq_some_iff.1 hc
  obtain ⟨l1, e1⟩ := h1
  obtain ⟨l2, e2⟩ := h2
  have := (List.Nodup.getElem_inj_iff hn).1 (e1.trans e2.symm)
  omega

/-! ### Indices of times -/

theorem timeIndex_some {axis : List ℚ} {t : ℚ} {i : ℕ} : timeIndex axis t = some i ↔
    ∃ a, axis[i]? = some a ∧ Close t a ∧ ∀ j b, j < i → axis[j]? = some b → ¬Close t b := by
  unfold timeIndex
  rw [List.findIdx?_eq_some_iff_getElem]
  constructor
  · rintro ⟨h, h1, h2⟩
    refine ⟨axis[i], by simp [h], sameTime_iff.1 h1, ?_⟩
    intro j b hj hb hc
    obtain ⟨hl, rfl⟩ := List.getElem?_eq_some_iff.1 hb
    exact h2 j hj (sameTime_iff.2 hc)
  · rintro ⟨a, ha, h1, h2⟩
    obtain ⟨hl, rfl⟩ := List.getElem?_eq_some_iff.1 ha
    refine ⟨hl, sameTime_iff.2 h1, ?_⟩
    intro j hj hc
    exact h2 j _ hj (by simp) (sameTime_iff.1 hc)

theorem timeIndex_none {axis : List ℚ} {t : ℚ} : timeIndex axis t = none ↔ ∀ a ∈ axis, ¬Close t a := by
  unfold timeIndex
  rw [List.findIdx?_eq_none_iff]
  constructor
  · intro h a ha hc
    simpa [sameTime_iff.2 hc] using h a ha
  · intro h a ha
    rw [Bool.eq_false_iff]
    intro hc
    exact h a ha (sameTime_iff.1 hc)

/-! ### The array of samples -/

/-- What a sample contributes to a cell. -/
def contribution (names : List String) (axis : List ℚ) (name : String) (i j : ℕ) (s : Sample) : Option ℚ :=
  if timeIndex axis s.time = some i ∧ (stationIndex names s.station = some j ∨ stationIndex names s.station = none) then
    (s.get name).map f32 else none

/-- The cell at row `i` and column `j`. -/
def cell (m : List (List (Option ℚ))) (i j : ℕ) : Option (Option ℚ) := (m[i]?).bind (fun row => row[j]?)

theorem setCell_length (row : List (Option ℚ)) (st : Option ℕ) (x : ℚ) : (setCell row st x).length = row.length := by
  cases st <;> simp [setCell]

theorem setCell_get (row : List (Option ℚ)) (st : Option ℕ) (x : ℚ) (j : ℕ) (hj : j < row.length) :
    (setCell row st x)[j]? = if st = some j ∨ st = none then some (some x) else row[j]? := by
  cases st with
  | none => simp [setCell, hj]
  | some k =>
    simp only [setCell, List.getElem?_set, Option.some.injEq, reduceCtorEq, or_false]
    by_cases h : k = j
    · subst h; simp [hj]
    · simp [h]

/-- Rows and columns are as many as times and stations. -/
def Shape (names : List String) (axis : List ℚ) (m : List (List (Option ℚ))) : Prop :=
  m.length = axis.length ∧ ∀ row ∈ m, row.length = names.length

theorem shape_modify {names : List String} {axis : List ℚ} {m : List (List (Option ℚ))} (h : Shape names axis m) (i : ℕ)
    (st : Option ℕ) (x : ℚ) : Shape names axis (m.modify i (fun row => setCell row st x)) := by
  refine ⟨by simp [h.1], ?_⟩
  intro row hr
  obtain ⟨k, hk⟩ := List.mem_iff_getElem?.1 hr
  rw [List.getElem?_modify] at hk
  cases e : m[k]? with
  | none => rw [e] at hk; simp at hk
  | some r =>
    rw [e] at hk
    have hl := h.2 r (List.mem_iff_getElem?.2 ⟨k, e⟩)
    have hk : (if i = k then setCell r st x else r) = row := by
      by_cases h : i = k <;> simpa [h] using hk
    rw [← hk]
    split
    · rw [setCell_length, hl]
    · exact hl

theorem fillSamples_cell {names : List String} {axis : List ℚ} {name : String} :
    ∀ {samples : List Sample} {m r : List (List (Option ℚ))}, Shape names axis m →
      fillSamples names axis name m samples = .ok r →
      Shape names axis r ∧ ∀ i j, i < axis.length → j < names.length →
        (∃ x, cell r i j = some (some x) ∧ Last (contribution names axis name i j) samples x) ∨
        (cell r i j = cell m i j ∧ ∀ s ∈ samples, contribution names axis name i j s = none)
  | [], m, r, hm, h => by
    injection h with h
    subst h
    exact ⟨hm, fun i j _ _ => .inr ⟨rfl, by simp⟩⟩
  | s :: t, m, r, hm, h => by
    rw [fillSamples] at h
    cases ht : timeIndex axis s.time with
    | none => rw [ht] at h; cases h
    | some k =>
      rw [ht] at h
      dsimp only at h
      cases hx : s.get name with
      | none => rw [hx] at h; cases h
      | some x =>
        rw [hx] at h
        dsimp only at h
        obtain ⟨h1, h2⟩ := fillSamples_cell (shape_modify hm k _ _) h
        refine ⟨h1, fun i j hi hj => ?_⟩
        rcases h2 i j hi hj with ⟨y, h3, b, a, c, h4, h5, h6⟩ | ⟨h3, h4⟩
        · exact .inl ⟨y, h3, s :: b, a, c, by rw [h4]; rfl, h5, h6⟩
        · have hl : i < m.length := by rw [hm.1]; exact hi
          have hrow := hm.2 m[i] (List.getElem_mem hl)
          have hc : cell (m.modify k (fun row => setCell row (stationIndex names s.station) (f32 x))) i j =
              if k = i then (if stationIndex names s.station = some j ∨ stationIndex names s.station = none then
                some (some (f32 x)) else cell m i j) else cell m i j := by
            unfold cell
            rw [List.getElem?_modify]
            by_cases e : k = i
            · simp only [e, if_true, List.getElem?_eq_getElem hl, Option.map_some, Option.map_eq_map, Option.bind_some]
              rw [setCell_get _ _ _ _ (by rw [hrow]; exact hj)]
            · simp [e]
          rw [hc] at h3
          by_cases e : timeIndex axis s.time = some i ∧
              (stationIndex names s.station = some j ∨ stationIndex names s.station = none)
          · left
            have e1 : k = i := by rw [ht] at e; exact Option.some.inj e.1
            rw [if_pos e1, if_pos e.2] at h3
            refine ⟨f32 x, h3, [], s, t, rfl, ?_, h4⟩
            unfold contribution
            rw [if_pos e, hx]
            rfl
          · right
            constructor
            · rw [h3]
              by_cases e1 : k = i
              · rw [if_pos e1, if_neg]
                intro e2
                exact e ⟨by rw [ht, e1], e2⟩
              · rw [if_neg e1]
            · intro s' hs'
              rcases List.mem_cons.1 hs' with rfl | hs'
              · unfold contribution
                rw [if_neg e]
              · exact h4 s' hs'

theorem initial_shape (names : List String) (axis : List ℚ) :
    Shape names axis (List.replicate axis.length (List.replicate names.length none)) := by
  refine ⟨by simp, fun row hr => ?_⟩
  rw [List.eq_of_mem_replicate hr, List.length_replicate]

/-- The quantities of samples. -/
inductive Quantity where
  | minimum | minimumFlags | maximum | maximumFlags

/-- Names of quantities in files. -/
def Quantity.name : Quantity → String
  | .minimum => "tasmin"
  | .minimumFlags => "tasmin_qc"
  | .maximum => "tasmax"
  | .maximumFlags => "tasmax_qc"

/-- The value of a quantity. -/
def Quantity.value (s : Sample) : Quantity → ℚ
  | .minimum => s.tasmin
  | .minimumFlags => s.tasminQc
  | .maximum => s.tasmax
  | .maximumFlags => s.tasmaxQc

theorem get_eq (s : Sample) (q : Quantity) : s.get q.name = some (q.value s) := by
  cases q <;> simp [Sample.get, Quantity.name, Quantity.value]

open Classical in
/-- What a sample is meant to contribute: its value if it is of the station and its time is close to the time of the row. -/
noncomputable def wanted (names : List String) (axis : List ℚ) (q : Quantity) (i j : ℕ) (s : Sample) : Option ℚ :=
  if (∃ a, axis[i]? = some a ∧ Close s.time a) ∧ names[j]? = some s.station then some (f32 (q.value s)) else none

/-- The times of an axis are far enough apart for no time to be close to two of them. -/
def Separated (axis : List ℚ) : Prop := axis.Pairwise (fun a b => 0.001 ≤ |a - b|)

theorem separated_unique {axis : List ℚ} (h : Separated axis) {t : ℚ} {i j : ℕ} {a b : ℚ} (ha : axis[i]? = some a)
    (hb : axis[j]? = some b) (h1 : Close t a) (h2 : Close t b) : i = j := by
  have key : ∀ {i j : ℕ} {a b : ℚ}, axis[i]? = some a → axis[j]? = some b → Close t a → Close t b → ¬i < j := by
    intro i j a b ha hb h1 h2 hij
    obtain ⟨l1, rfl⟩ := List.getElem?_eq_some_iff.1 ha
    obtain ⟨l2, rfl⟩ := List.getElem?_eq_some_iff.1 hb
    have := List.pairwise_iff_getElem.1 h i j l1 l2 hij
    unfold Close at h1 h2
    rw [abs_lt] at h1 h2
    have : |axis[i] - axis[j]| < 0.001 := by
      rw [abs_lt]; constructor <;> linarith [h1.1, h1.2, h2.1, h2.2]
    linarith
  rcases lt_trichotomy i j with h3 | h3 | h3
  · exact absurd h3 (key ha hb h1 h2)
  · exact h3
  · exact absurd h3 (key hb ha h2 h1)

theorem contribution_eq {names : List String} {axis : List ℚ} (hn : names.Nodup) (ha : Separated axis) {s : Sample}
    (hs : s.station ∈ names) (q : Quantity) (i j : ℕ) :
    contribution names axis q.name i j s = wanted names axis q i j s := by
  unfold contribution wanted
  rw [get_eq, Option.map_some]
  congr 1
  have h1 : (stationIndex names s.station = some j ∨ stationIndex names s.station = none) ↔ names[j]? = some s.station := by
    rw [stationIndex_none, stationIndex_nodup hn]
    exact ⟨fun h => h.resolve_right (fun h => h hs), .inl⟩
  have h2 : timeIndex axis s.time = some i ↔ ∃ a, axis[i]? = some a ∧ Close s.time a := by
    rw [timeIndex_some]
    constructor
    · rintro ⟨a, h1, h2, -⟩; exact ⟨a, h1, h2⟩
    · rintro ⟨a, h1, h2⟩
      refine ⟨a, h1, h2, fun k b hk hb hc => ?_⟩
      have := separated_unique ha h1 hb h2 hc
      omega
  rw [h1, h2]

theorem last_congr {α β : Type} {f g : α → Option β} {l : List α} (h : ∀ a ∈ l, f a = g a) {x : β} (hx : Last f l x) :
    Last g l x := by
  obtain ⟨b, a, c, rfl, h1, h2⟩ := hx
  refine ⟨b, a, c, rfl, ?_, ?_⟩
  · rw [← h a (by simp)]; exact h1
  · intro d hd
    rw [← h d (by simp [hd])]
    exact h2 d hd

/-- C125: when stations have names of their own, samples are of known stations, and the times of the axis are a thousandth
of a day apart, the array has a row for each time and a column for each station, and each cell holds the last of the samples
of its station close to its time, in single precision, and is missing if there is none. -/
theorem c125_cells {names : List String} {samples : List Sample} {axis : List ℚ} {q : Quantity}
    {r : List (List (Option ℚ))} (hn : names.Nodup) (hs : ∀ s ∈ samples, s.station ∈ names) (ha : Separated axis)
    (h : temperatureSamples names samples axis q.name = .ok r) :
    r.length = axis.length ∧ (∀ row ∈ r, row.length = names.length) ∧
    ∀ i j, i < axis.length → j < names.length →
      (∃ x, cell r i j = some (some x) ∧ Last (wanted names axis q i j) samples x) ∨
      (cell r i j = some none ∧ ∀ s ∈ samples, wanted names axis q i j s = none) := by
  obtain ⟨h1, h2⟩ := fillSamples_cell (initial_shape names axis) h
  refine ⟨h1.1, h1.2, fun i j hi hj => ?_⟩
  have e : ∀ s ∈ samples, contribution names axis q.name i j s = wanted names axis q i j s :=
    fun s hm => contribution_eq hn ha (hs s hm) q i j
  rcases h2 i j hi hj with ⟨x, h3, h4⟩ | ⟨h3, h4⟩
  · exact .inl ⟨x, h3, last_congr e h4⟩
  · refine .inr ⟨?_, fun s hm => (e s hm).symm.trans (h4 s hm)⟩
    rw [h3]
    unfold cell
    rw [List.getElem?_replicate_of_lt hi, Option.bind_some, List.getElem?_replicate_of_lt hj]

theorem fillSamples_ok {names : List String} {axis : List ℚ} {q : Quantity} : ∀ {samples : List Sample} {m : List (List (Option ℚ))},
      (∃ r, fillSamples names axis q.name m samples = .ok r) ↔ ∀ s ∈ samples, ∃ a ∈ axis, Close s.time a
  | [], m => by simp [fillSamples]
  | s :: t, m => by
    rw [fillSamples]
    cases ht : timeIndex axis s.time with
    | none =>
      constructor
      · rintro ⟨r, h⟩; cases h
      · intro h
        obtain ⟨a, h1, h2⟩ := h s List.mem_cons_self
        exact absurd h2 (timeIndex_none.1 ht a h1)
    | some k =>
      obtain ⟨a, h1, h2, -⟩ := timeIndex_some.1 ht
      dsimp only
      rw [get_eq]
      dsimp only
      rw [fillSamples_ok (samples := t)]
      constructor
      · intro h s' hs'
        rcases List.mem_cons.1 hs' with rfl | hs'
        · exact ⟨a, List.mem_iff_getElem?.2 ⟨k, h1⟩, h2⟩
        · exact h s' hs'
      · exact fun h s' hs' => h s' (List.mem_cons_of_mem _ hs')

/-- C125: the array can be made exactly if every sample is close to a time of the axis. -/
theorem c125_accepts {names : List String} {samples : List Sample} {axis : List ℚ} {q : Quantity} :
    (∃ r, temperatureSamples names samples axis q.name = .ok r) ↔ ∀ s ∈ samples, ∃ a ∈ axis, Close s.time a :=
  fillSamples_ok

/-- Two stations, with three samples of which one replaces another. -/
def exampleSamples : List Sample :=
  [⟨"A", 0, 280, 0, 290, 0⟩, ⟨"B", 1, 281, 0, 291, 0⟩, ⟨"A", 4 / 10000, 282, 0, 292, 0⟩]

theorem f32_282 : f32 282 = 282 :=
  f32_rep (by norm_num) ⟨282, 0, by norm_num, by norm_num, by norm_num⟩

theorem f32_281 : f32 281 = 281 :=
  f32_rep (by norm_num) ⟨281, 0, by norm_num, by norm_num, by norm_num⟩

theorem f32_280 : f32 280 = 280 :=
  f32_rep (by norm_num) ⟨280, 0, by norm_num, by norm_num, by norm_num⟩

example : temperatureSamples ["A", "B"] exampleSamples [0, 1] "tasmin" =
    .ok [[some 282, none], [none, some 281]] ∧ ["A", "B"].Nodup ∧ (∀ s ∈ exampleSamples, s.station ∈ ["A", "B"]) ∧
    Separated [0, 1] := by
  refine ⟨?_, by simp, by simp [exampleSamples], ?_⟩
  · have a0 : timeIndex [0, 1] 0 = some 0 := by decide +kernel
    have a1 : timeIndex [0, 1] 1 = some 1 := by decide +kernel
    have a2 : timeIndex [0, 1] (4 / 10000) = some 0 := by decide +kernel
    have b0 : stationIndex ["A", "B"] "A" = some 0 := by decide +kernel
    have b1 : stationIndex ["A", "B"] "B" = some 1 := by decide +kernel
    simp [temperatureSamples, exampleSamples, fillSamples, a0, a1, a2, b0, b1, Sample.get, setCell, f32_280, f32_281,
      f32_282, List.replicate, List.modify]
  · simp [Separated]; norm_num

/-- C125 fails for samples of stations which are not known: they are put at every station. -/
theorem c125_unknown_violated : temperatureSamples ["A", "B"] [⟨"A", 0, 280, 0, 290, 0⟩, ⟨"C", 0, 282, 0, 292, 0⟩] [0]
    "tasmin" = .ok [[some 282, some 282]] := by
  have a0 : timeIndex [0] 0 = some 0 := by decide +kernel
  have b0 : stationIndex ["A", "B"] "A" = some 0 := by decide +kernel
  have b1 : stationIndex ["A", "B"] "C" = none := by decide +kernel
  simp [temperatureSamples, fillSamples, a0, b0, b1, Sample.get, setCell, f32_280, f32_282, List.replicate, List.modify]

/-- C125 fails for stations which share a name: all samples are put at the last of them. -/
theorem c125_shared_violated : temperatureSamples ["A", "A"] [⟨"A", 0, 280, 0, 290, 0⟩] [0] "tasmin" =
    .ok [[none, some 280]] := by
  have a0 : timeIndex [0] 0 = some 0 := by decide +kernel
  have b0 : stationIndex ["A", "A"] "A" = some 1 := by decide +kernel
  simp [temperatureSamples, fillSamples, a0, b0, Sample.get, setCell, f32_280, List.replicate, List.modify]

/-! ### Distinct times -/

theorem foldl_insert_subset : ∀ {l kept : List ℚ} {t : ℚ}, t ∈ l.foldl insertTime kept → t ∈ kept ∨ t ∈ l
  | [], _, _, h => .inl h
  | a :: l, kept, t, h => by
    rw [List.foldl_cons] at h
    rcases foldl_insert_subset h with h | h
    · unfold insertTime at h
      split at h
      · exact .inl h
      · rcases List.mem_append.1 h with h | h
        · exact .inl h
        · rw [List.mem_singleton] at h; exact .inr (by simp [h])
    · exact .inr (List.mem_cons_of_mem _ h)

theorem insertTime_mono {kept : List ℚ} {a t : ℚ} (h : t ∈ kept) : t ∈ insertTime kept a := by
  unfold insertTime
  split
  · exact h
  · exact List.mem_append_left _ h

theorem foldl_insert_mono : ∀ {l kept : List ℚ} {t : ℚ}, t ∈ kept → t ∈ l.foldl insertTime kept
  | [], _, _, h => h
  | _ :: l, _, _, h => foldl_insert_mono (l := l) (insertTime_mono h)

theorem close_refl (t : ℚ) : Close t t := by unfold Close; norm_num

theorem insertTime_close (kept : List ℚ) (a : ℚ) : ∃ m ∈ insertTime kept a, Close a m := by
  unfold insertTime
  split
  · rename_i h
    obtain ⟨m, hm, h1⟩ := List.any_eq_true.1 h
    rw [Bool.and_eq_true] at h1
    exact ⟨m, hm, sameTime_iff.1 h1.2⟩
  · exact ⟨a, by simp, close_refl a⟩

theorem foldl_insert_close : ∀ {l kept : List ℚ} {t : ℚ}, t ∈ l → ∃ m ∈ l.foldl insertTime kept, Close t m
  | [], _, _, h => by cases h
  | a :: l, kept, t, h => by
    rw [List.foldl_cons]
    rcases List.mem_cons.1 h with rfl | h
    · obtain ⟨m, h1, h2⟩ := insertTime_close kept t
      exact ⟨m, foldl_insert_mono h1, h2⟩
    · exact foldl_insert_close h

/-- Times with the same hash are not close. -/
def Apart (a b : ℚ) : Prop := timeHash a = timeHash b → ¬Close a b

theorem foldl_insert_apart : ∀ {l kept : List ℚ}, kept.Pairwise Apart → (l.foldl insertTime kept).Pairwise Apart
  | [], _, h => h
  | a :: l, kept, h => by
    rw [List.foldl_cons]
    apply foldl_insert_apart
    unfold insertTime
    split
    · exact h
    · rename_i hc
      rw [List.pairwise_append]
      refine ⟨h, by simp, ?_⟩
      intro x hx y hy
      rw [List.mem_singleton] at hy
      subst hy
      intro h1 h2
      apply hc
      refine List.any_eq_true.2 ⟨x, hx, ?_⟩
      rw [Bool.and_eq_true, decide_eq_true_eq]
      exact ⟨h1, sameTime_iff.2 (close_symm h2)⟩

theorem apart_symm : ∀ {a b : ℚ}, Apart a b → Apart b a := fun h e c => h e.symm (close_symm c)

theorem uniqueTimes_perm (samples : List Sample) :
    (uniqueTimes samples).Perm ((samples.map Sample.time).foldl insertTime []) := List.perm_insertionSort _ _

theorem pairwise_perm_symm {α : Type} {R : α → α → Prop} (hs : ∀ {a b}, R a b → R b a) {l l' : List α} (h : l.Perm l') :
    l.Pairwise R → l'.Pairwise R := (h.pairwise_iff hs).1

/-- C126: the distinct times are in increasing order, are times of samples, every sample is close to one of them, and two
of them in the same day differ by 0.0005 days or more. -/
theorem c126_times (samples : List Sample) :
    (uniqueTimes samples).Pairwise (· < ·) ∧
    (∀ t ∈ uniqueTimes samples, ∃ s ∈ samples, s.time = t) ∧
    (∀ s ∈ samples, ∃ t ∈ uniqueTimes samples, Close s.time t) ∧
    (uniqueTimes samples).Pairwise (fun a b => 0 ≤ a → ⌊a⌋ = ⌊b⌋ → ¬Close a b) := by
  have hp := uniqueTimes_perm samples
  have hap : (uniqueTimes samples).Pairwise Apart :=
    pairwise_perm_symm apart_symm hp.symm (foldl_insert_apart (by simp))
  have hsort : (uniqueTimes samples).Pairwise (· ≤ ·) := by
    exact List.pairwise_insertionSort _ _
  refine ⟨?_, ?_, ?_, ?_⟩
  · refine (hsort.and hap).imp ?_
    rintro a b ⟨h1, h2⟩
    refine lt_of_le_of_ne h1 ?_
    rintro rfl
    exact h2 rfl (close_refl _)
  · intro t ht
    rcases foldl_insert_subset (hp.mem_iff.1 ht) with h | h
    · cases h
    · obtain ⟨s, h1, h2⟩ := List.mem_map.1 h
      exact ⟨s, h1, h2⟩
  · intro s hs
    obtain ⟨m, h1, h2⟩ := foldl_insert_close (kept := []) (List.mem_map.2 ⟨s, hs, rfl⟩)
    exact ⟨m, hp.mem_iff.2 h1, h2⟩
  · refine (hsort.and hap).imp ?_
    rintro a b ⟨h1, h2⟩ h3 h4
    refine h2 ?_
    unfold timeHash pyInt
    rw [if_pos h3, if_pos (h3.trans h1), h4]

/-- C126: with the distinct times as the axis every sample has a row. -/
theorem c126_axis (names : List String) (samples : List Sample) (q : Quantity) :
    ∃ r, temperatureSamples names samples (uniqueTimes samples) q.name = .ok r :=
  c125_accepts.2 (c126_times samples).2.2.1

/-- C126: if the times of samples of different days are never close, distinct times are never close. -/
theorem c126_apart_partial {samples : List Sample} (h0 : ∀ s ∈ samples, 0 ≤ s.time)
    (hd : ∀ s ∈ samples, ∀ s' ∈ samples, ⌊s.time⌋ ≠ ⌊s'.time⌋ → ¬Close s.time s'.time) :
    (uniqueTimes samples).Pairwise (fun a b => ¬Close a b) := by
  obtain ⟨-, h1, -, h2⟩ := c126_times samples
  refine h2.imp_of_mem ?_
  intro a b ha hb h
  obtain ⟨s, hs, rfl⟩ := h1 a ha
  obtain ⟨s', hs', rfl⟩ := h1 b hb
  by_cases e : ⌊s.time⌋ = ⌊s'.time⌋
  · exact h (h0 s hs) e
  · exact hd s hs s' hs' e

example : (∀ s ∈ exampleSamples, 0 ≤ s.time) ∧ (∀ s ∈ exampleSamples, ∀ s' ∈ exampleSamples,
    ⌊s.time⌋ ≠ ⌊s'.time⌋ → ¬Close s.time s'.time) ∧ uniqueTimes exampleSamples = [0, 1] := by
  refine ⟨by simp [exampleSamples]; norm_num, ?_, by decide +kernel⟩
  intro s hs s' hs' hne hc
  simp only [exampleSamples, List.mem_cons, List.not_mem_nil, or_false] at hs hs'
  unfold Close at hc
  rcases hs with rfl | rfl | rfl <;> rcases hs' with rfl | rfl | rfl <;>
    first | exact hne rfl | (revert hc; norm_num; done) | exact hne (by decide +kernel)

/-- C126 fails at midnight: two times 17 seconds apart, one before and one after, are both kept, and samples at the second
are put in the row of the first. -/
theorem c126_midnight_violated :
    ∃ samples, uniqueTimes samples = [0.9999, 1.0001] ∧ Close 0.9999 1.0001 ∧
      temperatureSamples ["A", "B"] samples (uniqueTimes samples) "tasmin" = .ok [[some 280, some 282], [none, none]] := by
  refine ⟨[⟨"A", 9999 / 10000, 280, 0, 290, 0⟩, ⟨"B", 10001 / 10000, 282, 0, 290, 0⟩], ?_, ?_, ?_⟩
  · have : uniqueTimes [⟨"A", 9999 / 10000, 280, 0, 290, 0⟩, ⟨"B", 10001 / 10000, 282, 0, 290, 0⟩] =
        [9999 / 10000, 10001 / 10000] := by decide +kernel
    rw [this]; norm_num
  · unfold Close; norm_num [abs_lt]
  · have : uniqueTimes [⟨"A", 9999 / 10000, 280, 0, 290, 0⟩, ⟨"B", 10001 / 10000, 282, 0, 290, 0⟩] =
        [9999 / 10000, 10001 / 10000] := by decide +kernel
    rw [this]
    have a0 : timeIndex [9999 / 10000, 10001 / 10000] (9999 / 10000) = some 0 := by decide +kernel
    have a1 : timeIndex [9999 / 10000, 10001 / 10000] (10001 / 10000) = some 0 := by decide +kernel
    have b0 : stationIndex ["A", "B"] "A" = some 0 := by decide +kernel
    have b1 : stationIndex ["A", "B"] "B" = some 1 := by decide +kernel
    simp [temperatureSamples, fillSamples, a0, a1, b0, b1, Sample.get, setCell, f32_280, f32_282, List.replicate,
      List.modify]

/-- C126 fails to be independent of the order in which samples are added: the same three give one time or two. -/
theorem c126_order_violated : ∃ a b c : Sample, uniqueTimes [b, a, c] = [b.time] ∧
    uniqueTimes [a, b, c] = [a.time, c.time] ∧ a.time ≠ c.time := by
  refine ⟨⟨"A", 1, 280, 0, 290, 0⟩, ⟨"A", 1 + 4 / 10000, 280, 0, 290, 0⟩, ⟨"A", 1 + 8 / 10000, 280, 0, 290, 0⟩,
    by decide +kernel, by decide +kernel, by decide +kernel⟩

/-! ### Breaks -/

theorem indices_ok {names : List String} (hn : names.Nodup) : ∀ {l : List Break} {r : List ℤ},
    indices names l = .ok r ↔ List.Forall₂ (fun (b : Break) (i : ℤ) => ∃ k : ℕ, i = k ∧ names[k]? = some b.station) l r
  | [], r => by
    rw [indices]
    constructor
    · intro h; injection h with h; subst h; exact .nil
    · intro h; cases h; rfl
  | b :: t, r => by
    rw [indices]
    cases e : stationIndex names b.station with
    | none =>
      constructor
      · intro h; cases h
      · intro h
        cases h with
        | cons h1 h2 =>
          obtain ⟨k, -, hk⟩ := h1
          exact absurd (List.mem_iff_getElem?.2 ⟨k, hk⟩) (stationIndex_none.1 e)
    | some i =>
      dsimp only
      have hi := (stationIndex_nodup hn).1 e
      cases e2 : indices names t with
      | error x =>
        constructor
        · intro h; cases h
        · intro h
          cases h with
          | cons h1 h2 =>
            have := (indices_ok hn).2 h2
            rw [e2] at this; cases this
      | ok l =>
        dsimp only
        have h2 := (indices_ok hn).1 e2
        constructor
        · intro h
          injection h with h
          subst h
          exact .cons ⟨i, rfl, hi⟩ h2
        · intro h
          cases h with
          | cons h1 h3 =>
            obtain ⟨k, rfl, hk⟩ := h1
            have := (indices_ok hn).2 h3
            rw [e2] at this
            injection this with this
            have hk' := (stationIndex_nodup hn).2 hk
            rw [e] at hk'
            injection hk' with hk'
            rw [this, hk']

/-- The breaks added for a quantity, in order. -/
def addedFor (name : String) (l : List (String × Break)) : List Break := (l.filter (fun a => a.1 = name)).map Prod.snd

theorem addBreaks_get : ∀ {l : List (String × Break)} {b b' : Breaks}, addBreaks b l = .ok b' →
    b'.tasmin = b.tasmin ++ addedFor "tasmin" l ∧ b'.tasmax = b.tasmax ++ addedFor "tasmax" l
  | [], b, b', h => by injection h with h; subst h; simp [addedFor]
  | (name, x) :: t, b, b', h => by
    rw [addBreaks] at h
    cases e : addBreak b name x with
    | error e' => rw [e] at h; cases h
    | ok c =>
      rw [e] at h
      dsimp only at h
      obtain ⟨h1, h2⟩ := addBreaks_get h
      unfold addBreak at e
      split at e
      · rename_i hn
        injection e with e
        subst e hn
        simp [h1, h2, addedFor]
      · split at e
        · rename_i hn
          injection e with e
          subst e hn
          simp [h1, h2, addedFor]
        · cases e

/-- C127: breaks are listed with their own quantity in the order in which they were added, the index of each points to the
name of its station, and its amplitude is next to it. -/
theorem c127_breaks {names : List String} (hn : names.Nodup) {l : List (String × Break)} {b : Breaks}
    (h : addBreaks ⟨[], []⟩ l = .ok b) {name : String} (hq : name = "tasmin" ∨ name = "tasmax") {r : List ℤ}
    (hr : breakStations names b name = .ok r) :
    List.Forall₂ (fun (x : Break) (i : ℤ) => ∃ k : ℕ, i = k ∧ names[k]? = some x.station) (addedFor name l) r ∧
    breakAmplitudes b name = .ok ((addedFor name l).map (fun x => f32 x.amplitude)) := by
  obtain ⟨h1, h2⟩ := addBreaks_get h
  have hg : b.get name = .ok (addedFor name l) := by
    rcases hq with rfl | rfl
    · simp [Breaks.get, h1]
    · simp [Breaks.get, h2]
  unfold breakStations at hr
  unfold breakAmplitudes
  rw [hg] at hr ⊢
  exact ⟨(indices_ok hn).1 hr, rfl⟩

/-- C127: the indices can be listed exactly if the stations of all breaks are known. -/
theorem c127_accepts {names : List String} {l : List (String × Break)} {b : Breaks}
    (h : addBreaks ⟨[], []⟩ l = .ok b) {name : String} (hq : name = "tasmin" ∨ name = "tasmax") :
    (∃ r, breakStations names b name = .ok r) ↔ ∀ x ∈ addedFor name l, x.station ∈ names := by
  obtain ⟨h1, h2⟩ := addBreaks_get h
  have hg : b.get name = .ok (addedFor name l) := by
    rcases hq with rfl | rfl
    · simp [Breaks.get, h1]
    · simp [Breaks.get, h2]
  unfold breakStations
  rw [hg]
  dsimp only
  generalize addedFor name l = m
  induction m with
  | nil => simp [indices]
  | cons x t ih =>
    rw [indices]
    cases e : stationIndex names x.station with
    | none =>
      exact ⟨fun ⟨r, hr⟩ => (by cases hr), fun hx => absurd (hx x List.mem_cons_self) (stationIndex_none.1 e)⟩
    | some i =>
      dsimp only
      have hm : x.station ∈ names := List.mem_iff_getElem?.2 ⟨i, (stationIndex_spec.1 e).1⟩
      cases e2 : indices names t with
      | error er =>
        rw [e2] at ih
        refine ⟨fun ⟨r, hr⟩ => (by cases hr), fun hx => ?_⟩
        obtain ⟨r, hr⟩ := ih.2 fun y hy => hx y (List.mem_cons_of_mem _ hy)
        cases hr
      | ok r =>
        rw [e2] at ih
        refine ⟨fun _ y hy => ?_, fun _ => ⟨_, rfl⟩⟩
        rcases List.mem_cons.1 hy with rfl | hy
        · exact hm
        · exact ih.1 ⟨r, rfl⟩ y hy

/-- C127: breaks of quantities other than minima and maxima are refused. -/
theorem c127_quantities (b : Breaks) (name : String) (x : Break) :
    (∃ b', addBreak b name x = .ok b') ↔ name = "tasmin" ∨ name = "tasmax" := by
  unfold addBreak
  by_cases h1 : name = "tasmin"
  · simp [h1]
  · by_cases h2 : name = "tasmax"
    · simp [h2]
    · simp [h1, h2]

example : ∃ b r, addBreaks ⟨[], []⟩ [("tasmax", ⟨"B", 5, [0, 1], [2, 3]⟩), ("tasmin", ⟨"A", 3, [0, 1], [2, 3]⟩)] = .ok b ∧
    breakStations ["A", "B"] b "tasmax" = .ok r ∧ r = [1] := by
  refine ⟨⟨[⟨"A", 3, [0, 1], [2, 3]⟩], [⟨"B", 5, [0, 1], [2, 3]⟩]⟩, _, by simp [addBreaks, addBreak], ?_, rfl⟩
  have b1 : stationIndex ["A", "B"] "B" = some 1 := by decide +kernel
  simp [breakStations, Breaks.get, indices, b1]

/-! ### Names in files -/

/-- C127: names take up 32 bytes, and those of up to 32 bytes which do not end with a zero byte can be read back. -/
theorem c127_names (name : List UInt8) :
    (storeName name).length = 32 ∧
    (name.length ≤ 32 → name.getLast? ≠ some 0 → readName (storeName name) = name) := by
  constructor
  · unfold storeName nameLength
    simp
    omega
  · intro h1 h2
    unfold storeName readName nameLength
    rw [List.take_of_length_le (by simp; omega), List.reverse_append, List.reverse_replicate]
    have : ∀ n, (List.replicate n (0 : UInt8) ++ name.reverse).dropWhile (· = 0) = name.reverse.dropWhile (· = 0) := by
      intro n
      induction n with
      | zero => simp
      | succ n ih => rw [List.replicate_succ, List.cons_append, List.dropWhile_cons_of_pos (by simp)]; exact ih
    rw [this]
    cases e : name.reverse with
    | nil => simpa using e.symm
    | cons c t =>
      have hc : name.getLast? = some c := by
        rw [List.getLast?_eq_head?_reverse, e]; rfl
      rw [List.dropWhile_cons_of_neg (by simp; intro h; rw [hc, h] at h2; exact h2 rfl), ← e, List.reverse_reverse]

/-- C127: stations with different names of up to 32 bytes which do not end with a zero byte stay apart. -/
theorem c127_names_apart {a b : List UInt8} (ha : a.length ≤ 32) (hb : b.length ≤ 32) (ha0 : a.getLast? ≠ some 0)
    (hb0 : b.getLast? ≠ some 0) (h : storeName a = storeName b) : a = b := by
  rw [← (c127_names a).2 ha ha0, ← (c127_names b).2 hb hb0, h]

/-- C127 fails for long names: those with the same first 32 bytes are not told apart. -/
theorem c127_names_violated {a b : List UInt8} (ha : 32 ≤ a.length) (hb : 32 ≤ b.length) (h : a.take 32 = b.take 32) :
    storeName a = storeName b := by
  unfold storeName nameLength
  rw [List.take_append_of_le_length ha, List.take_append_of_le_length hb, h]

end Verif.Eustace.Stations
