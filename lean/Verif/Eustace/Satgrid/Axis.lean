import Verif.Py
import Mathlib.Data.Real.Archimedean
import Mathlib.Algebra.Order.Floor.Ring
import Mathlib.Tactic.Linarith
import Mathlib.Tactic.FieldSimp
import Mathlib.Tactic.Ring
import Mathlib.Tactic.NormNum
import Mathlib.Tactic.Positivity

/-!
C59: axes of grids and the cells to which coordinates belong
(`src/eustace/satgrid/grid.py`, `src/eustace/satgrid_iris/gridbin/gridfieldlist.py`, `gridbin.py`).

Simplifications: coordinates are real numbers, indices have no 32 bit limit.
-/

namespace Verif.Eustace.Satgrid

open Verif

/-! ### Model -/

/-- `astype(numpy.int32)` of a float: towards zero. -/
noncomputable def trunc (x : ℝ) : Int := open Classical in if 0 ≤ x then ⌊x⌋ else ⌈x⌉

/-- `GridAxis` (grid.py 12-16). -/
structure GridAxis where
  start : ℝ
  increment : ℝ
  length : Nat
  wrap : Bool

/-- The index at which a value is put before the check of the range, from the index before wrapping (grid.py 21-23,
gridfieldlist.py 33-35). -/
def wrapped (wrap : Bool) (length : Nat) (i : Int) : Int := if wrap ∧ i = (length : Int) then 0 else i

/-- The check of all indices (grid.py 24-28, gridfieldlist.py 36-47). -/
def checked (length : Nat) (indices : List Int) : Except PyErr (List Nat) :=
  if (indices.any fun i => decide (i < 0)) then .error .valueError
  else if (indices.any fun i => decide ((length : Int) ≤ i)) then .error .valueError
  else .ok (indices.map Int.toNat)

/-- `GridAxis.compute_indices` (grid.py 18-28). -/
noncomputable def GridAxis.computeIndices (a : GridAxis) (values : List ℝ) : Except PyErr (List Nat) :=
  checked a.length (values.map fun v => wrapped a.wrap a.length (trunc ((v - a.start) / a.increment)))

/-- `GridAxis.get_centres` (grid.py 34-36). -/
noncomputable def GridAxis.centres (a : GridAxis) : List ℝ :=
  (List.range a.length).map fun i : Nat => (i : ℝ) * a.increment + (a.start + 1 / 2 * a.increment)

/-- `GridAxis.get_points` (grid.py 30-32). -/
noncomputable def GridAxis.points (a : GridAxis) : List ℝ :=
  (List.range a.length).map fun i : Nat => (i : ℝ) * a.increment + a.start

/-- `GridFieldAxis` (gridfieldlist.py 14-23), without names. -/
structure GridFieldAxis where
  zeroth : ℝ
  step : ℝ
  count : Nat
  circular : Bool

/-- `GridFieldAxis.compute_indices` (gridfieldlist.py 29-47). -/
noncomputable def GridFieldAxis.computeIndices (a : GridFieldAxis) (values : List ℝ) : Except PyErr (List Nat) :=
  checked a.count (values.map fun v => wrapped a.circular a.count (trunc ((v - a.zeroth) / a.step - 1 / 2)))

/-- `GridFieldAxis.axis_coordinates` (gridfieldlist.py 25-27): `DimCoord.from_regular` gives `zeroth + step * i` for `i` from one
to `count`. -/
noncomputable def GridFieldAxis.coordinates (a : GridFieldAxis) : List ℝ :=
  (List.range a.count).map fun i : Nat => a.zeroth + a.step * ((i : ℝ) + 1)

/-- The axis which satgrid makes from its arguments (file_aggregate_grid.py 208-209). -/
def axisOfArguments (start step : ℝ) (n : Nat) (wrapcoords : Bool) : GridAxis := ⟨start, step, n, wrapcoords⟩

/-- The axis which satgrid_iris makes from its arguments (pipeline.py 101-104). -/
noncomputable def fieldAxisOfArguments (start step : ℝ) (n : Nat) (wrapcoords : Bool) : GridFieldAxis :=
  ⟨start - 1 / 2 * step, step, n, wrapcoords⟩

/-- The arguments `(axis_lat, axis_lon)` by default (command.py 92-97, 108; the same in both programs). -/
noncomputable def defaultAxes {α : Type} (axis : ℝ → ℝ → Nat → Bool → α) : α × α :=
  (axis (-90) (1 / 4) 720 true, axis (-180) (1 / 4) 1440 true)

/-- `GridLatLon.compute_indices` (grid.py 47-53). -/
noncomputable def flatIndices (latitude longitude : GridAxis) (coordinates : List (ℝ × ℝ)) : Except PyErr (List Nat) :=
  match latitude.computeIndices (coordinates.map Prod.fst) with
  | .error e => .error e
  | .ok rows =>
    match longitude.computeIndices (coordinates.map Prod.snd) with
    | .error e => .error e
    | .ok columns => .ok (List.zipWith (fun r c => r * longitude.length + c) rows columns)

/-! ### Specification -/

/-- Cell `i` of an axis. -/
def InCell (start step : ℝ) (i : Nat) (v : ℝ) : Prop := start + i * step ≤ v ∧ v < start + (i + 1) * step

/-- Where a value is put on an axis with `n` cells: in its cell; less than one step below the first cell in the first cell; on
an axis with wrapping, less than one step after the last cell in the first cell. -/
def PutAt (start step : ℝ) (n : Nat) (wrap : Bool) (v : ℝ) (i : Nat) : Prop :=
  i < n ∧ (InCell start step i v ∨ (i = 0 ∧ start - step < v ∧ v < start) ∨
    (wrap = true ∧ i = 0 ∧ InCell start step n v))

/-! ### Theorems -/

theorem trunc_eq (x : ℝ) (i : Int) : trunc x = i ↔
    (0 ≤ x ∧ (i : ℝ) ≤ x ∧ x < i + 1) ∨ (x < 0 ∧ (i : ℝ) - 1 < x ∧ x ≤ i) := by
  unfold trunc
  by_cases h : 0 ≤ x
  · rw [if_pos h, Int.floor_eq_iff]
    constructor
    · intro hi
      exact Or.inl ⟨h, hi⟩
    · rintro (hi | hi)
      · exact hi.2
      · exact absurd h (not_le.2 hi.1)
  · rw [if_neg h, Int.ceil_eq_iff]
    constructor
    · intro hi
      exact Or.inr ⟨not_le.1 h, hi⟩
    · rintro (hi | hi)
      · exact absurd hi.1 h
      · exact hi.2

theorem wrapped_range (start step : ℝ) (hs : 0 < step) (n : Nat) (wrap : Bool) (v : ℝ) (i : Nat) (hi : i < n) :
    wrapped wrap n (trunc ((v - start) / step)) = (i : Int) ↔ PutAt start step n wrap v i := by
  have cell : ∀ k : Nat, InCell start step k v ↔ (k : ℝ) ≤ (v - start) / step ∧ (v - start) / step < k + 1 := by
    intro k
    rw [InCell, le_div_iff₀ hs, div_lt_iff₀ hs]
    constructor
    · rintro ⟨h1, h2⟩
      exact ⟨by linarith, by linarith⟩
    · rintro ⟨h1, h2⟩
      exact ⟨by linarith, by linarith⟩
  have below : (start - step < v ∧ v < start) ↔ (-1 < (v - start) / step ∧ (v - start) / step < 0) := by
    rw [lt_div_iff₀ hs, div_lt_iff₀ hs]
    constructor
    · rintro ⟨h1, h2⟩
      exact ⟨by linarith, by linarith⟩
    · rintro ⟨h1, h2⟩
      exact ⟨by linarith, by linarith⟩
  have key : ∀ k : Nat, trunc ((v - start) / step) = (k : Int) ↔
      InCell start step k v ∨ (k = 0 ∧ start - step < v ∧ v < start) := by
    intro k
    rw [trunc_eq, cell, below]
    push_cast
    have hk : (0 : ℝ) ≤ k := Nat.cast_nonneg k
    constructor
    · rintro (⟨_, h⟩ | ⟨h0, h1, _⟩)
      · exact Or.inl h
      · right
        have : k = 0 := by
          by_contra hne
          have : (1 : ℝ) ≤ k := by exact_mod_cast Nat.one_le_iff_ne_zero.2 hne
          linarith
        subst this
        exact ⟨rfl, by simpa using h1, h0⟩
    · rintro (h | ⟨h0, h1, h2⟩)
      · exact Or.inl ⟨le_trans hk h.1, h⟩
      · subst h0
        exact Or.inr ⟨h2, by simpa using h1, by simpa using h2.le⟩
  unfold wrapped PutAt
  by_cases hw : wrap = true ∧ trunc ((v - start) / step) = (n : Int)
  · rw [if_pos hw]
    have hn : 0 < n := by omega
    have hcell := (key n).1 hw.2
    have hcell : InCell start step n v := by
      rcases hcell with h | h
      · exact h
      · omega
    constructor
    · intro h
      refine ⟨hi, Or.inr (Or.inr ⟨hw.1, ?_, hcell⟩)⟩
      exact_mod_cast h.symm
    · rintro ⟨_, h | h | h⟩
      · have := (key i).2 (Or.inl h)
        rw [hw.2] at this
        exact absurd (Int.ofNat_inj.1 this) (by omega)
      · have := (key i).2 (Or.inr h)
        rw [hw.2] at this
        exact absurd (Int.ofNat_inj.1 this) (by omega)
      · rw [h.2.1]
        rfl
  · rw [if_neg hw, key]
    constructor
    · rintro (h | h)
      · exact ⟨hi, Or.inl h⟩
      · exact ⟨hi, Or.inr (Or.inl h)⟩
    · rintro ⟨_, h | h | h⟩
      · exact Or.inl h
      · exact Or.inr h
      · exact absurd ⟨h.1, (key n).2 (Or.inl h.2.2)⟩ hw

theorem checked_ok (n : Nat) (l : List Int) (r : List Nat) :
    checked n l = .ok r ↔ (∀ i ∈ r, i < n) ∧ l = r.map fun i : Nat => (i : Int) := by
  unfold checked
  constructor
  · intro h
    split at h
    · exact absurd h (by simp)
    · rename_i h1
      split at h
      · exact absurd h (by simp)
      · rename_i h2
        have h1 : ∀ x ∈ l, 0 ≤ x := by simpa using h1
        have h2 : ∀ x ∈ l, x < n := by simpa using h2
        have hr : r = l.map Int.toNat := by simpa using h.symm
        subst hr
        constructor
        · intro i hi
          obtain ⟨x, hx, rfl⟩ := List.mem_map.1 hi
          have := h1 x hx
          have := h2 x hx
          omega
        · rw [List.map_map]
          conv_lhs => rw [← List.map_id l]
          apply List.map_congr_left
          intro x hx
          have := h1 x hx
          simp only [id, Function.comp]
          omega
  · rintro ⟨h1, rfl⟩
    rw [if_neg, if_neg]
    · rw [List.map_map]
      congr 1
      conv_rhs => rw [← List.map_id r]
      apply List.map_congr_left
      intro x _
      simp
    · simpa using h1
    · simp

/-- The indices of values: exactly where `PutAt` says, otherwise `ValueError`. -/
theorem computeIndices_iff (a : GridAxis) (hs : 0 < a.increment) (values : List ℝ) (r : List Nat) :
    a.computeIndices values = .ok r ↔ List.Forall₂ (PutAt a.start a.increment a.length a.wrap) values r := by
  rw [GridAxis.computeIndices, checked_ok]
  induction values generalizing r with
  | nil =>
    constructor
    · rintro ⟨_, h⟩
      have : r = [] := by simpa using h.symm
      subst this
      exact List.Forall₂.nil
    · intro h
      cases h
      simp
  | cons v rest ih =>
    constructor
    · rintro ⟨h1, h2⟩
      cases r with
      | nil => simp at h2
      | cons i r =>
        simp only [List.map_cons, List.cons.injEq] at h2
        refine List.Forall₂.cons ?_ ((ih r).1 ⟨fun j hj => h1 j (by simp [hj]), h2.2⟩)
        exact (wrapped_range _ _ hs _ _ _ _ (h1 i (by simp))).1 h2.1
    · intro h
      cases h with
      | cons h0 h' =>
        obtain ⟨h1, h2⟩ := (ih _).2 h'
        constructor
        · intro j hj
          rcases List.mem_cons.1 hj with rfl | hj
          · exact h0.1
          · exact h1 j hj
        · simp only [List.map_cons, List.cons.injEq]
          exact ⟨(wrapped_range _ _ hs _ _ _ _ h0.1).2 h0, h2⟩

theorem checked_error (n : Nat) (l : List Int) (h : ∀ r, checked n l ≠ .ok r) : checked n l = .error .valueError := by
  unfold checked at h ⊢
  split
  · rfl
  · rename_i h1
    split
    · rfl
    · rename_i h2
      rw [if_neg h1, if_neg h2] at h
      exact absurd rfl (h _)

/-- C59, values on the axis: each value gets the one cell which contains it. -/
theorem c59_cell (a : GridAxis) (hs : 0 < a.increment) (values : List ℝ)
    (h : ∀ v ∈ values, a.start ≤ v ∧ v < a.start + a.length * a.increment) : ∃ r, a.computeIndices values = .ok r ∧
    List.Forall₂ (fun v i => i < a.length ∧ ∀ k : Nat, InCell a.start a.increment k v ↔ k = i) values r := by
  have unique : ∀ (v : ℝ) (i k : Nat), InCell a.start a.increment i v → InCell a.start a.increment k v → k = i := by
    rintro v i k ⟨h1, h2⟩ ⟨h3, h4⟩
    have h5 : (k : ℝ) < i + 1 := by
      have : (k : ℝ) * a.increment < (i + 1) * a.increment := by linarith
      exact lt_of_mul_lt_mul_right this hs.le
    have h6 : (i : ℝ) < k + 1 := by
      have : (i : ℝ) * a.increment < (k + 1) * a.increment := by linarith
      exact lt_of_mul_lt_mul_right this hs.le
    have h5 : k < i + 1 := by exact_mod_cast h5
    have h6 : i < k + 1 := by exact_mod_cast h6
    omega
  have each : ∀ v ∈ values, ∃ i, i < a.length ∧ InCell a.start a.increment i v := by
    intro v hv
    obtain ⟨h1, h2⟩ := h v hv
    refine ⟨⌊(v - a.start) / a.increment⌋₊, ?_, ?_⟩
    · rw [Nat.floor_lt (div_nonneg (by linarith) hs.le), div_lt_iff₀ hs]
      linarith
    · have h3 := Nat.floor_le (div_nonneg (by linarith : 0 ≤ v - a.start) hs.le)
      have h4 := Nat.lt_floor_add_one ((v - a.start) / a.increment)
      rw [le_div_iff₀ hs] at h3
      rw [div_lt_iff₀ hs] at h4
      exact ⟨by linarith, by linarith⟩
  have : ∃ r, List.Forall₂ (fun v i => i < a.length ∧ InCell a.start a.increment i v) values r := by
    clear h
    induction values with
    | nil => exact ⟨[], .nil⟩
    | cons v rest ih =>
      obtain ⟨i, hi⟩ := each v (by simp)
      obtain ⟨r, hr⟩ := ih fun w hw => each w (by simp [hw])
      exact ⟨i :: r, .cons hi hr⟩
  obtain ⟨r, hr⟩ := this
  refine ⟨r, (computeIndices_iff a hs values r).2 (hr.imp fun v i hi => ⟨hi.1, Or.inl hi.2⟩), hr.imp fun v i hi => ?_⟩
  refine ⟨hi.1, fun k => ⟨fun hk => unique v i k hi.2 hk, ?_⟩⟩
  rintro rfl
  exact hi.2

/-- C59, rejection: a value one step or more below the axis, or after the axis (one step after it, with wrapping), is refused, and
with it all values of the call. -/
theorem c59_rejected (a : GridAxis) (hs : 0 < a.increment) (values : List ℝ) (v : ℝ) (hv : v ∈ values)
    (h : v ≤ a.start - a.increment ∨ a.start + (a.length + if a.wrap then 1 else 0) * a.increment ≤ v) :
    a.computeIndices values = .error .valueError := by
  apply checked_error
  intro r hr
  have := (computeIndices_iff a hs values r).1 hr
  obtain ⟨i, hi⟩ : ∃ i, PutAt a.start a.increment a.length a.wrap v i := by
    clear hr
    induction this with
    | nil => simp at hv
    | cons h0 _ ih =>
      rcases List.mem_cons.1 hv with rfl | hv
      · exact ⟨_, h0⟩
      · exact ih hv
  obtain ⟨hi, hput⟩ := hi
  have hi' : ((i : ℝ) + 1) ≤ a.length := by exact_mod_cast hi
  have hmul : ((i : ℝ) + 1) * a.increment ≤ a.length * a.increment := mul_le_mul_of_nonneg_right hi' hs.le
  have h0 : (0 : ℝ) ≤ i := Nat.cast_nonneg i
  have hmul0 : 0 ≤ (i : ℝ) * a.increment := mul_nonneg h0 hs.le
  have hn0 : 0 ≤ (a.length : ℝ) * a.increment := mul_nonneg (Nat.cast_nonneg _) hs.le
  unfold InCell at hput
  cases hw : a.wrap <;> simp only [hw, if_true, if_false, Bool.false_eq_true] at h hput
  · rcases hput with hp | hp | hp
    · rcases h with h | h <;> nlinarith [hp.1, hp.2]
    · rcases h with h | h <;> nlinarith [hp.2.1, hp.2.2]
    · exact hp.1
  · rcases hput with hp | hp | hp
    · rcases h with h | h <;> nlinarith [hp.1, hp.2]
    · rcases h with h | h <;> nlinarith [hp.2.1, hp.2.2]
    · rcases h with h | h <;> nlinarith [hp.2.2.1, hp.2.2.2]

/-- C59, circular axes: where the cells go round once, every value from the start to one step after the end is put in a cell
which contains it up to whole turns. -/
theorem c59_circular (a : GridAxis) (hs : 0 < a.increment) (hw : a.wrap = true) (hn : 0 < a.length) (v : ℝ)
    (h : a.start ≤ v ∧ v < a.start + (a.length + 1) * a.increment) : ∃ i, a.computeIndices [v] = .ok [i] ∧
    (InCell a.start a.increment i v ∨ InCell a.start a.increment i (v - a.length * a.increment)) := by
  by_cases hv : v < a.start + a.length * a.increment
  · obtain ⟨r, hr, hcell⟩ := c59_cell a hs [v] (by simpa using ⟨h.1, hv⟩)
    cases hcell with
    | cons h0 h' =>
      cases h'
      exact ⟨_, hr, Or.inl ((h0.2 _).2 rfl)⟩
  · refine ⟨0, (computeIndices_iff a hs [v] [0]).2 (.cons ⟨hn, Or.inr (Or.inr ⟨hw, rfl, ?_⟩)⟩ .nil), Or.inr ?_⟩
    · exact ⟨not_lt.1 hv, h.2⟩
    · unfold InCell
      have := not_lt.1 hv
      push_cast
      constructor <;> linarith [h.2]

/-- C59 is violated below an axis: a value outside of it, less than one step below, is not rejected but put in the first cell; on
the longitude axis of both programs the point is in the last cell of the circle. -/
theorem c59_below_violated (a : GridAxis) (hs : 0 < a.increment) (hn : 0 < a.length) (v : ℝ)
    (h : a.start - a.increment < v ∧ v < a.start) : a.computeIndices [v] = .ok [0] ∧
    ∀ i, ¬ InCell a.start a.increment i v := by
  constructor
  · exact (computeIndices_iff a hs [v] [0]).2 (.cons ⟨hn, Or.inr (Or.inl ⟨rfl, h⟩)⟩ .nil)
  · rintro i ⟨h1, _⟩
    have : 0 ≤ (i : ℝ) * a.increment := mul_nonneg (Nat.cast_nonneg i) hs.le
    linarith [h.2]

/-- C59 is violated at the North Pole: both axes of the programs wrap, so that latitude 90 is put in the southernmost row. -/
theorem c59_pole_violated : (defaultAxes axisOfArguments).1.computeIndices [90] = .ok [0] ∧
    (defaultAxes axisOfArguments).1.centres[(0 : Nat)]? = some (-(719 / 8)) ∧
    (defaultAxes axisOfArguments).1.centres[(719 : Nat)]? = some (719 / 8) := by
  refine ⟨?_, ?_, ?_⟩
  · rw [computeIndices_iff _ (by norm_num [defaultAxes, axisOfArguments])]
    refine .cons ⟨by norm_num [defaultAxes, axisOfArguments], Or.inr (Or.inr ⟨rfl, rfl, ?_⟩)⟩ .nil
    norm_num [defaultAxes, axisOfArguments, InCell]
  · rw [GridAxis.centres, List.getElem?_map, List.getElem?_range (by norm_num [defaultAxes, axisOfArguments])]
    norm_num [defaultAxes, axisOfArguments]
  · rw [GridAxis.centres, List.getElem?_map, List.getElem?_range (by norm_num [defaultAxes, axisOfArguments])]
    norm_num [defaultAxes, axisOfArguments]

/-- C59, the axes of satgrid_iris put every list of values where those of satgrid do. -/
theorem c59_field_axis (start step : ℝ) (hs : step ≠ 0) (n : Nat) (wrap : Bool) (values : List ℝ) :
    (fieldAxisOfArguments start step n wrap).computeIndices values = (axisOfArguments start step n wrap).computeIndices values := by
  unfold GridFieldAxis.computeIndices GridAxis.computeIndices fieldAxisOfArguments axisOfArguments
  have : (fun v : ℝ => wrapped wrap n (trunc ((v - (start - 1 / 2 * step)) / step - 1 / 2))) =
      fun v : ℝ => wrapped wrap n (trunc ((v - start) / step)) := by
    funext v
    congr 2
    field_simp
    ring
  simp only [this]

/-- C59, coordinates: the coordinate which files give for a cell is the middle of the cell, in both programs. -/
theorem c59_centres (start step : ℝ) (n : Nat) (wrap : Bool) (i : Nat) (hi : i < n) :
    (axisOfArguments start step n wrap).centres[i]? = some (((start + i * step) + (start + (i + 1) * step)) / 2) ∧
    (fieldAxisOfArguments start step n wrap).coordinates[i]? = some (((start + i * step) + (start + (i + 1) * step)) / 2) ∧
    (axisOfArguments start step n wrap).centres.length = n ∧
    (fieldAxisOfArguments start step n wrap).coordinates.length = n := by
  refine ⟨?_, ?_, by simp [GridAxis.centres, axisOfArguments], by simp [GridFieldAxis.coordinates, fieldAxisOfArguments]⟩
  · rw [GridAxis.centres, List.getElem?_map, List.getElem?_range (by simpa [axisOfArguments] using hi)]
    simp only [axisOfArguments, Option.map_some, Option.some.injEq]
    ring
  · rw [GridFieldAxis.coordinates, List.getElem?_map, List.getElem?_range (by simpa [fieldAxisOfArguments] using hi)]
    simp only [fieldAxisOfArguments, Option.map_some, Option.some.injEq]
    ring

/-- C59, grids: boxes are numbered row by row, different boxes have different numbers, all below the number of boxes. -/
theorem c59_flat (latitude longitude : GridAxis) (h1 : 0 < latitude.increment) (h2 : 0 < longitude.increment)
    (coordinates : List (ℝ × ℝ)) (r : List Nat) : flatIndices latitude longitude coordinates = .ok r ↔
    List.Forall₂ (fun p g => PutAt latitude.start latitude.increment latitude.length latitude.wrap p.1 (g / longitude.length) ∧
      PutAt longitude.start longitude.increment longitude.length longitude.wrap p.2 (g % longitude.length)) coordinates r := by
  constructor
  · intro h
    unfold flatIndices at h
    split at h
    · exact absurd h (by simp)
    · rename_i rows hrows
      split at h
      · exact absurd h (by simp)
      · rename_i columns hcolumns
        rw [computeIndices_iff _ h1] at hrows
        rw [computeIndices_iff _ h2] at hcolumns
        have hr : r = List.zipWith (fun r c => r * longitude.length + c) rows columns := by simpa using h.symm
        subst hr
        clear h
        induction coordinates generalizing rows columns with
        | nil =>
          cases hrows
          exact .nil
        | cons p rest ih =>
          cases hrows with
          | cons a1 a2 =>
            cases hcolumns with
            | cons b1 b2 =>
              refine .cons ?_ (ih _ a2 _ b2)
              have hn : 0 < longitude.length := by have := b1.1; omega
              show PutAt _ _ _ _ _ ((_ * longitude.length + _) / _) ∧ PutAt _ _ _ _ _ ((_ * longitude.length + _) % _)
              rw [Nat.mul_comm, Nat.mul_add_div hn, Nat.mul_add_mod, Nat.div_eq_of_lt b1.1, Nat.mod_eq_of_lt b1.1]
              exact ⟨a1, b1⟩
  · intro h
    have hrows : latitude.computeIndices (coordinates.map Prod.fst) = .ok (r.map (· / longitude.length)) := by
      rw [computeIndices_iff _ h1, List.forall₂_map_left_iff, List.forall₂_map_right_iff]
      exact h.imp fun p g hg => hg.1
    have hcolumns : longitude.computeIndices (coordinates.map Prod.snd) = .ok (r.map (· % longitude.length)) := by
      rw [computeIndices_iff _ h2, List.forall₂_map_left_iff, List.forall₂_map_right_iff]
      exact h.imp fun p g hg => hg.2
    unfold flatIndices
    rw [hrows, hcolumns]
    simp only [Except.ok.injEq]
    rw [List.zipWith_map, List.zipWith_self]
    conv_rhs => rw [← List.map_id r]
    apply List.map_congr_left
    intro g _
    simp only [id]
    rw [Nat.mul_comm]
    exact Nat.div_add_mod g longitude.length

/-- All numbers of boxes are below the number of boxes. -/
theorem c59_flat_range (latitude longitude : GridAxis) (h1 : 0 < latitude.increment) (h2 : 0 < longitude.increment)
    (coordinates : List (ℝ × ℝ)) (r : List Nat) (h : flatIndices latitude longitude coordinates = .ok r) :
    r.length = coordinates.length ∧ ∀ g ∈ r, g < latitude.length * longitude.length := by
  rw [c59_flat _ _ h1 h2] at h
  refine ⟨h.length_eq.symm, ?_⟩
  intro g hg
  induction h with
  | nil => simp at hg
  | cons h0 _ ih =>
    rcases List.mem_cons.1 hg with rfl | hg
    · have a := h0.1.1
      have b := h0.2.1
      exact Nat.lt_mul_of_div_lt a (by omega)
    · exact ih hg

example : (defaultAxes axisOfArguments).2.computeIndices [-180, 0, 179.9, 180.1] = .ok [0, 720, 1439, 0] := by
  rw [computeIndices_iff _ (by norm_num [defaultAxes, axisOfArguments])]
  refine .cons ⟨by norm_num [defaultAxes, axisOfArguments], Or.inl ?_⟩
    (.cons ⟨by norm_num [defaultAxes, axisOfArguments], Or.inl ?_⟩
    (.cons ⟨by norm_num [defaultAxes, axisOfArguments], Or.inl ?_⟩
    (.cons ⟨by norm_num [defaultAxes, axisOfArguments], Or.inr (Or.inr ⟨rfl, rfl, ?_⟩)⟩ .nil))) <;>
  norm_num [defaultAxes, axisOfArguments, InCell]

example : (defaultAxes axisOfArguments).2.computeIndices [-180.1] = .ok [0] :=
  (c59_below_violated _ (by norm_num [defaultAxes, axisOfArguments]) (by norm_num [defaultAxes, axisOfArguments]) _
    (by norm_num [defaultAxes, axisOfArguments])).1

end Verif.Eustace.Satgrid
