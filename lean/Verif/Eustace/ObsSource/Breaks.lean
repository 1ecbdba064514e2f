import Verif.Eustace.ObsSource.Props
import Mathlib.Analysis.SpecialFunctions.Log.Basic
import Mathlib.Algebra.Order.Floor.Ring

/-!
C94: policies which remove breaks.  C95: two files of ice temperatures with one list of locations.
-/

namespace Verif.Eustace.ObsSource

open Verif

/-! ### C94: breaks -/

/-- One break: time, station, likelihood. -/
def BreakPoints.rows (b : BreakPoints) : List (ℝ × Nat × ℝ) := b.time.zip (b.station.zip b.likelihood)

/-- Arrays of the same length. -/
def BreakPoints.Sized (b : BreakPoints) : Prop := b.station.length = b.time.length ∧ b.likelihood.length = b.time.length

theorem map_getD_filter {α β : Type} (l : List α) (d : α) (f : α → β) (condition : α → Bool) :
    ((List.range l.length).filter fun i => (l[i]?).any condition).map (fun i => f (l.getD i d)) =
      (l.filter condition).map f := by
  induction l with
  | nil => rfl
  | cons x rest ih =>
    rw [List.length_cons, List.range_succ_eq_map, List.filter_cons]
    have h1 : (List.map Nat.succ (List.range rest.length)).filter (fun i => ((x :: rest)[i]?).any condition) =
        ((List.range rest.length).filter fun i => (rest[i]?).any condition).map Nat.succ := by
      rw [List.filter_map]
      rfl
    rw [h1]
    have h2 : ((List.range rest.length).filter (fun i => (rest[i]?).any condition) |>.map Nat.succ).map
        (fun i => f ((x :: rest).getD i d)) = (rest.filter condition).map f := by
      rw [List.map_map, ← ih]
      rfl
    by_cases hc : condition x
    · simp only [List.getElem?_cons_zero, Option.any_some, hc, if_true, List.map_cons, List.getD_cons_zero, h2,
        List.filter_cons]
    · simp only [List.getElem?_cons_zero, Option.any_some, hc, if_false, h2, List.filter_cons, Bool.false_eq_true]

theorem rows_get (b : BreakPoints) (hb : b.Sized) (i : Nat) (hi : i < b.time.length) :
    b.rows[i]? = some (b.time.getD i 0, b.station.getD i 0, b.likelihood.getD i 0) := by
  obtain ⟨h1, h2⟩ := hb
  have get : ∀ {α : Type} (l : List α) (d : α), i < l.length → l[i]? = some (l.getD i d) := by
    intro α l d h
    rw [List.getD_eq_getElem?_getD, List.getElem?_eq_getElem h]
    rfl
  rw [BreakPoints.rows, List.getElem?_zip_eq_some]
  exact ⟨get _ _ hi, List.getElem?_zip_eq_some.2 ⟨get _ _ (by omega), get _ _ (by omega)⟩⟩

theorem rows_length (b : BreakPoints) (hb : b.Sized) : b.rows.length = b.time.length := by
  obtain ⟨h1, h2⟩ := hb
  rw [BreakPoints.rows, List.length_zip, List.length_zip]
  omega

theorem keep_rows (b : BreakPoints) (hb : b.Sized) (condition : ℝ → Bool) :
    ∃ r, keep b (indicesWhere condition b.likelihood) = .ok r ∧ r.Sized ∧
      r.rows = b.rows.filter fun row => condition row.2.2 := by
  have hlen := rows_length b hb
  have hrow := rows_get b hb
  obtain ⟨h1, h2⟩ := hb
  have hindices : indicesWhere condition b.likelihood = (List.range b.rows.length).filter fun i =>
      (b.rows[i]?).any fun row => condition row.2.2 := by
    rw [indicesWhere, hlen, h2]
    refine List.filter_congr fun i hi => ?_
    have hi' := List.mem_range.1 hi
    rw [hrow i hi', List.getElem?_eq_getElem (by omega), List.getD_eq_getElem?_getD (l := b.likelihood),
      List.getElem?_eq_getElem (by omega)]
    rfl
  have hlt : ∀ i ∈ indicesWhere condition b.likelihood, i < b.time.length := by
    intro i hi
    have := List.mem_range.1 (List.mem_filter.1 hi).1
    omega
  refine ⟨⟨(indicesWhere condition b.likelihood).map fun i => b.time.getD i 0,
    (indicesWhere condition b.likelihood).map fun i => b.station.getD i 0,
    (indicesWhere condition b.likelihood).map fun i => b.likelihood.getD i 0⟩, ?_, ⟨by simp, by simp⟩, ?_⟩
  · rw [keep, gather_ok b.time 0 _ hlt, gather_ok b.station 0 _ fun i hi => by have := hlt i hi; omega,
      gather_ok b.likelihood 0 _ fun i hi => by have := hlt i hi; omega]
  · have hfil := map_getD_filter b.rows (0, 0, 0) id fun row => condition row.2.2
    rw [List.map_id] at hfil
    rw [← hfil, ← hindices]
    show List.zip _ (List.zip _ _) = _
    rw [List.zip_map', List.zip_map']
    refine List.map_congr_left fun i hi => ?_
    rw [id, List.getD_eq_getElem?_getD (l := b.rows), hrow i (hlt i hi)]
    rfl

/-- **C94**: the policy `HARD_CUTOFF` keeps the breaks whose likelihood is at least the threshold, in order, with their times and
stations. -/
theorem c94_cutoff (threshold decay : ℝ) (b : BreakPoints) (hb : b.Sized) : ∃ r,
    applyPolicy "HARD_CUTOFF" threshold decay b = .ok r ∧ r.Sized ∧ ∀ p : ℝ × Nat × ℝ → Bool,
      (∀ row, p row = true ↔ threshold ≤ row.2.2) → r.rows = b.rows.filter p := by
  classical
  obtain ⟨r, h1, h2, h3⟩ := keep_rows b hb fun x => decide (threshold ≤ x)
  refine ⟨r, ?_, h2, fun p hp => ?_⟩
  · rw [applyPolicy, if_pos rfl, basePolicy, ← h1]
  · rw [h3]
    refine List.filter_congr fun row _ => ?_
    rw [Bool.eq_iff_iff, hp, decide_eq_true_iff]

/-- **C94**: the policy `LAPLACE_KERNEL` with a positive decay and a threshold above zero keeps the breaks whose likelihood is
within a distance of 127 which depends on threshold and decay only. -/
theorem c94_kernel (threshold decay : ℝ) (ht : 0 < threshold) (hd : 0 < decay) (b : BreakPoints) (hb : b.Sized) : ∃ r,
    applyPolicy "LAPLACE_KERNEL" threshold decay b = .ok r ∧ r.Sized ∧ ∀ p : ℝ × Nat × ℝ → Bool,
      (∀ row, p row = true ↔ |row.2.2 - 127| ≤ -Real.log threshold / decay) → r.rows = b.rows.filter p := by
  classical
  obtain ⟨r, h1, h2, h3⟩ := keep_rows b hb fun x => decide (threshold ≤ Real.exp (-decay * |x - 127|))
  refine ⟨r, ?_, h2, fun p hp => ?_⟩
  · rw [applyPolicy, if_neg (by decide), if_pos rfl, kernelPolicy, ← h1]
  · rw [h3]
    refine List.filter_congr fun row _ => ?_
    rw [Bool.eq_iff_iff, hp, decide_eq_true_iff, ← Real.log_le_iff_le_exp ht, le_div_iff₀ hd]
    constructor <;> intro h <;> linarith

/-- **C94**: with both policies the same threshold applied again changes nothing. -/
theorem c94_again (code : String) (threshold decay : ℝ) (b r r' : BreakPoints) (hb : b.Sized)
    (h : applyPolicy code threshold decay b = .ok r) (h' : applyPolicy code threshold decay r = .ok r') :
    r'.rows = r.rows := by
  classical
  have gen : ∀ condition : ℝ → Bool, keep b (indicesWhere condition b.likelihood) = .ok r →
      keep r (indicesWhere condition r.likelihood) = .ok r' → r'.rows = r.rows := by
    intro condition g g'
    obtain ⟨s, h1, h2, h3⟩ := keep_rows b hb condition
    rw [g] at h1
    cases h1
    obtain ⟨s', h1', _, h3'⟩ := keep_rows r h2 condition
    rw [g'] at h1'
    cases h1'
    rw [h3', h3, List.filter_filter]
    simp
  unfold applyPolicy at h h'
  split at h
  · rw [basePolicy] at h
    rename_i hcode
    rw [if_pos hcode, basePolicy] at h'
    exact gen _ h h'
  · rename_i hcode
    rw [if_neg hcode] at h'
    split at h
    · rename_i hcode'
      rw [if_pos hcode', kernelPolicy] at h'
      rw [kernelPolicy] at h
      exact gen _ h h'
    · cases h

/-- **C94**: other policies are refused. -/
theorem c94_refused (code : String) (h1 : code ≠ "HARD_CUTOFF") (h2 : code ≠ "LAPLACE_KERNEL") (threshold decay : ℝ)
    (b : BreakPoints) : applyPolicy code threshold decay b = .error .valueError := by
  rw [applyPolicy, if_neg h1, if_neg h2]

/-- **C94**: the breaks of a station are those of its rows. -/
theorem c94_station (b : BreakPoints) (hb : b.Sized) (station : Nat) :
    filteredBreakPoints b station = .ok ((b.rows.filter fun row => row.2.1 == station).map Prod.fst) := by
  have hlen := rows_length b hb
  have hrow := rows_get b hb
  have hlen := rows_length b hb
  have hrow := rows_get b hb
  obtain ⟨h1, h2⟩ := hb
  have hind : ((List.range b.station.length).filter fun i => b.station[i]? == some station) =
      (List.range b.rows.length).filter fun i => (b.rows[i]?).any fun row => row.2.1 == station := by
    rw [hlen, h1]
    refine List.filter_congr fun i hi => ?_
    have hi' := List.mem_range.1 hi
    rw [hrow i hi', List.getD_eq_getElem?_getD (l := b.station), List.getElem?_eq_getElem (by omega)]
    rfl
  rw [filteredBreakPoints, gather_ok b.time 0 _ fun i hi => by
    have := List.mem_range.1 (List.mem_filter.1 hi).1; omega]
  rw [← map_getD_filter b.rows (0, 0, 0) Prod.fst fun row => row.2.1 == station, hind]
  congr 1
  refine List.map_congr_left fun i hi => ?_
  have hi' := List.mem_range.1 (List.mem_filter.1 hi).1
  rw [List.getD_eq_getElem?_getD (l := b.rows), hrow i (by omega)]
  rfl

/-- Non-vacuity. -/
example : (⟨[10, 20], [1, 2], [3, 120]⟩ : BreakPoints).Sized := by simp [BreakPoints.Sized]

/-- **C94 violated**: with the default threshold of zero the kernel policy keeps every break, whatever the decay. -/
theorem c94_kernel_zero_violated (decay : ℝ) (b : BreakPoints) (hb : b.Sized) : ∃ r,
    applyPolicy "LAPLACE_KERNEL" 0 decay b = .ok r ∧ r.rows = b.rows := by
  classical
  obtain ⟨r, h1, h2, h3⟩ := keep_rows b hb fun x => decide (0 ≤ Real.exp (-decay * |x - 127|))
  refine ⟨r, ?_, ?_⟩
  · rw [applyPolicy, if_neg (by decide), if_pos rfl, kernelPolicy, ← h1]
  · rw [h3, List.filter_eq_self]
    intro row _
    simpa using (Real.exp_pos _).le

/-! ### C95: two files -/

/-- Latitudes at a constant distance. -/
def Regular (l : List ℝ) (start step : ℝ) : Prop := l = (List.range l.length).map fun i : Nat => start + i * step

theorem lookup_length (latitudes longitudes : List ℝ) :
    (lookup latitudes longitudes).length = latitudes.length * longitudes.length := by
  induction latitudes with
  | nil => simp [lookup]
  | cons y rest ih =>
    have : lookup (y :: rest) longitudes = longitudes.map (fun x => (y, x)) ++ lookup rest longitudes := rfl
    rw [this, List.length_append, ih, List.length_map, List.length_cons]
    ring

/-- The location of a row and a column. -/
theorem lookup_get (latitudes longitudes : List ℝ) (i j : Nat) (hj : j < longitudes.length) :
    (lookup latitudes longitudes)[i * longitudes.length + j]? =
      match latitudes[i]?, longitudes[j]? with
      | some y, some x => some (y, x)
      | _, _ => none := by
  induction latitudes generalizing i with
  | nil => simp [lookup]
  | cons y rest ih =>
    have hsplit : lookup (y :: rest) longitudes = longitudes.map (fun x => (y, x)) ++ lookup rest longitudes := rfl
    rw [hsplit]
    cases i with
    | zero =>
      rw [Nat.zero_mul, Nat.zero_add, List.getElem?_append_left (by simpa using hj), List.getElem?_map,
        List.getElem?_eq_getElem hj]
      rfl
    | succ i =>
      rw [List.getElem?_append_right (by rw [List.length_map]; nlinarith), List.length_map]
      have : (i + 1) * longitudes.length + j - longitudes.length = i * longitudes.length + j := by
        rw [Nat.add_mul]; omega
      rw [this, ih]
      rfl

theorem regular_get (l : List ℝ) (start step : ℝ) (h : Regular l start step) (i : Nat) (hi : i < l.length) :
    l[i]? = some (start + i * step) := by
  rw [h, List.getElem?_map, List.getElem?_range hi]
  rfl

theorem regular_head (l : List ℝ) (start step : ℝ) (h : Regular l start step) (hl : 0 < l.length) : l.headD 0 = start := by
  have := regular_get l start step h 0 hl
  match l with
  | x :: rest =>
    rw [List.getElem?_cons_zero] at this
    simpa using this

theorem regular_last (l : List ℝ) (start step : ℝ) (h : Regular l start step) (hl : 0 < l.length) :
    l.getLastD 0 = start + ((l.length - 1 : Nat) : ℝ) * step := by
  have := regular_get l start step h (l.length - 1) (by omega)
  rw [List.getLastD_eq_getLast?, List.getLast?_eq_getElem?, this]
  rfl

/-- **C95**: for files of any size whose latitudes have the same distance, at least one millionth, and begin a whole number of
distances apart: the locations of both files, the second with the offset added, are the same places in the combined list. -/
theorem c95_locations (first second longitudes : List ℝ) (start step : ℝ) (gap : Nat) (hstep : 1 / 1000000 ≤ step)
    (h1 : 2 ≤ first.length) (h2 : 0 < second.length) (hg : 0 < gap) (hf : Regular first start step)
    (hs : Regular second (start + ((first.length - 1 + gap : Nat) : ℝ) * step) step) :
    (∀ id, id < first.length * longitudes.length →
      (lookup (combinedLatitudes first second step) longitudes)[id]? = (lookup first longitudes)[id]?) ∧
    ∀ id, id < second.length * longitudes.length →
      (lookup (combinedLatitudes first second step) longitudes)[locationOffset first second step longitudes.length + id]? =
        (lookup second longitudes)[id]? := by
  have hpos : 0 < step := lt_of_lt_of_le (by norm_num) hstep
  have hhead := regular_head first start step hf (by omega)
  have hlast1 := regular_last first start step hf (by omega)
  have hhead2 := regular_head second _ step hs h2
  have hlast2 := regular_last second _ step hs h2
  have hfloor : ⌊(second.headD 0 - first.getLastD 0) / step + 1 / 1000000⌋₊ = gap := by
    have : (second.headD 0 - first.getLastD 0) / step = gap := by
      rw [hhead2, hlast1]
      field_simp
      push_cast
      ring
    rw [this, add_comm, Nat.floor_add_natCast (by norm_num)]
    have h0 : ⌊(1 / 1000000 : ℝ)⌋₊ = 0 := Nat.floor_eq_zero.2 (by norm_num)
    rw [h0, Nat.zero_add]
  have hoffset : locationOffset first second step longitudes.length = (first.length - 1 + gap) * longitudes.length := by
    rw [locationOffset, hfloor]
  set total := first.length - 1 + gap + second.length with htotal
  have hcount : ⌈(second.getLastD 0 + 1 / 1000000 - first.headD 0) / step⌉₊ = total := by
    have e : (second.getLastD 0 + 1 / 1000000 - first.headD 0) / step = ((total - 1 : Nat) : ℝ) + 1 / 1000000 / step := by
      have e1 : ((total - 1 : Nat) : ℝ) = ((first.length - 1 + gap : Nat) : ℝ) + ((second.length - 1 : Nat) : ℝ) := by
        rw [← Nat.cast_add]
        congr 1
        omega
      rw [hlast2, hhead, e1]
      field_simp
      ring
    rw [e]
    have hsmall : (0 : ℝ) < 1 / 1000000 / step := by positivity
    have hle : 1 / 1000000 / step ≤ 1 := by rw [div_le_one hpos]; exact hstep
    have hc : ((total - 1 : Nat) : ℝ) + 1 = total := by
      have : total - 1 + 1 = total := by omega
      exact_mod_cast this
    rw [Nat.ceil_eq_iff (by omega)]
    constructor
    · linarith
    · linarith
  have hcombined : combinedLatitudes first second step =
      (List.range total).map fun i : Nat => start + i * step := by
    rw [combinedLatitudes, arange, hcount, hhead]
  have hget : ∀ i, i < total → (combinedLatitudes first second step)[i]? = some (start + i * step) := by
    intro i hi
    rw [hcombined, List.getElem?_map, List.getElem?_range hi]
    rfl
  constructor
  · intro id hid
    have hw : 0 < longitudes.length := by
      rcases Nat.eq_zero_or_pos longitudes.length with h | h
      · rw [h] at hid; simp at hid
      · exact h
    have hdiv : id / longitudes.length < first.length := (Nat.div_lt_iff_lt_mul hw).2 hid
    have hmod := Nat.mod_lt id hw
    have hsplit : id = id / longitudes.length * longitudes.length + id % longitudes.length := (Nat.div_add_mod' _ _).symm
    rw [hsplit, lookup_get _ _ _ _ hmod, lookup_get _ _ _ _ hmod, hget _ (by omega), regular_get _ _ _ hf _ hdiv]
  · intro id hid
    have hw : 0 < longitudes.length := by
      rcases Nat.eq_zero_or_pos longitudes.length with h | h
      · rw [h] at hid; simp at hid
      · exact h
    have hdiv : id / longitudes.length < second.length := (Nat.div_lt_iff_lt_mul hw).2 hid
    have hmod := Nat.mod_lt id hw
    have hsplit : id = id / longitudes.length * longitudes.length + id % longitudes.length := (Nat.div_add_mod' _ _).symm
    have hsplit2 : locationOffset first second step longitudes.length + id =
        (first.length - 1 + gap + id / longitudes.length) * longitudes.length + id % longitudes.length := by
      rw [hoffset, Nat.add_mul (first.length - 1 + gap), Nat.add_assoc, ← hsplit]
    rw [hsplit2, lookup_get _ _ _ _ hmod, hget _ (by omega)]
    conv_rhs => rw [hsplit, lookup_get _ _ _ _ hmod, regular_get _ _ _ hs _ hdiv]
    have : start + ((first.length - 1 + gap + id / longitudes.length : Nat) : ℝ) * step =
        start + ((first.length - 1 + gap : Nat) : ℝ) * step + ((id / longitudes.length : Nat) : ℝ) * step := by
      rw [Nat.cast_add (first.length - 1 + gap)]
      ring
    rw [this]

/-- Non-vacuity. -/
example : Regular [-90, -89] (-90) 1 ∧ Regular [60, 61, 62] (-90 + ((([-90, -89] : List ℝ).length - 1 + 149 : Nat) : ℝ) * 1) 1 := by
  constructor
  · norm_num [Regular, List.range_succ]
  · norm_num [Regular, List.range_succ]

/-- What the constructor checks about latitudes (ice.py 56-66). -/
def Accepted (first second : List ℝ) (resolution : ℝ) : Prop :=
  first.getD 1 0 - first.getD 0 0 = resolution ∧ 0 ≤ resolution ∧ first.getLastD 0 < second.headD 0 ∧
  (∀ i, i + 1 < first.length → |first.getD (i + 1) 0 - first.getD i 0 - resolution| ≤ 1 / 1000000) ∧
  ∀ i, i + 1 < second.length → |second.getD (i + 1) 0 - second.getD i 0 - resolution| ≤ 1 / 1000000

/-- **C95 violated**: the files are not required to begin a whole number of distances apart.  With half a distance the locations
of the second file are given the wrong latitude. -/
theorem c95_gap_violated : ∃ first second longitudes : List ℝ, Accepted first second 1 ∧
    (lookup second longitudes)[0]? = some (5 / 2, 0) ∧
    (lookup (combinedLatitudes first second 1) longitudes)[locationOffset first second 1 longitudes.length + 0]? =
      some (2, 0) := by
  refine ⟨[0, 1], [5 / 2, 7 / 2], [0], ?_, rfl, ?_⟩
  · refine ⟨by norm_num, by norm_num, by norm_num, ?_, ?_⟩
    · intro i hi
      have : i = 0 := by simpa using hi
      subst this
      norm_num
    · intro i hi
      have : i = 0 := by simpa using hi
      subst this
      norm_num
  · have h1 : locationOffset [0, 1] [5 / 2, 7 / 2] 1 ([0] : List ℝ).length = 2 := by
      have : ⌊(5 / 2 - 1 : ℝ) / 1 + 1 / 1000000⌋₊ = 1 := by
        rw [Nat.floor_eq_iff (by norm_num)]
        norm_num
      simp only [locationOffset, List.headD_cons, List.getLastD_cons, List.getLastD_nil, List.length_cons, List.length_nil]
      rw [this]
    have h2 : ⌈(7 / 2 + 1 / 1000000 - 0 : ℝ) / 1⌉₊ = 4 := by
      rw [Nat.ceil_eq_iff (by norm_num)]
      norm_num
    have h3 : combinedLatitudes [0, 1] [5 / 2, 7 / 2] 1 = [0, 1, 2, 3] := by
      simp only [combinedLatitudes, arange, List.headD_cons, List.getLastD_cons, List.getLastD_nil]
      rw [h2]
      norm_num [List.range_succ]
    rw [h1, h3]
    norm_num [lookup]

end Verif.Eustace.ObsSource
