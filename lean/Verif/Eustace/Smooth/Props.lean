import Verif.Eustace.Smooth.Model
import Mathlib.Tactic.Linarith
import Mathlib.Tactic.Ring
import Mathlib.Tactic.FieldSimp
import Mathlib.Tactic.Positivity
import Mathlib.Algebra.Order.Field.Basic
import Mathlib.Data.Rat.Floor
import Mathlib.Algebra.Order.BigOperators.Group.List

/-! Properties of the running window statistics: C56, C57, C73. -/
namespace Verif.Eustace.Smooth

/-! ### Blocks -/

/-- Cells of a row of blocks: a cell takes the value when some block holds it. -/
theorem foldl_slices {γ : Type} (l : List Nat) (P : Nat → Nat → Nat → Bool) (v : Field γ) (out : Field γ) (i j : Nat) :
    l.foldl (fun out q => fun i j => if P q i j then v i j else out i j) out i j =
      if l.any (fun q => P q i j) then v i j else out i j := by
  induction l generalizing out with
  | nil => simp
  | cons q l ih =>
    rw [List.foldl_cons, ih, List.any_cons]
    cases h : P q i j <;> cases h' : l.any (fun q => P q i j) <;> simp [h]

theorem blocked_eq {α β : Type} (stat : List α → β) (n m r s size latSteps lonSteps : Nat) (image : Field α) (initial : Field β)
    (i j : Nat) :
    blocked stat n m r s size latSteps lonSteps image initial i j =
      if (List.range latSteps).any (fun p => inSlice size latSteps p n i) ∧
        (List.range lonSteps).any (fun q => inSlice size lonSteps q m j)
      then stat (windowAt n m r s image i j) else initial i j := by
  have hin : ∀ (p : Nat) (out : Field β), (List.range lonSteps).foldl (fun out q => fun i j =>
      if inSlice size latSteps p n i && inSlice size lonSteps q m j then stat (windowAt n m r s image i j) else out i j) out =
      fun i j => if inSlice size latSteps p n i && (List.range lonSteps).any (fun q => inSlice size lonSteps q m j)
        then stat (windowAt n m r s image i j) else out i j := by
    intro p out
    funext i j
    rw [foldl_slices (List.range lonSteps) (fun q i j => inSlice size latSteps p n i && inSlice size lonSteps q m j)
      (fun i j => stat (windowAt n m r s image i j))]
    cases h : inSlice size latSteps p n i <;> simp
  unfold blocked
  simp only [hin]
  rw [foldl_slices (List.range latSteps)
    (fun p i j => inSlice size latSteps p n i && (List.range lonSteps).any (fun q => inSlice size lonSteps q m j))
    (fun i j => stat (windowAt n m r s image i j))]
  cases h : (List.range lonSteps).any (fun q => inSlice size lonSteps q m j) <;> simp

/-- Blocks with an open last one cover the whole length, if there is any block and the last one does not start too late. -/
theorem slices_cover {size steps n i : Nat} (hsize : 0 < size) (hsteps : 0 < steps) (hi : i < n) :
    (List.range steps).any (fun p => inSlice size steps p n i) = true := by
  rw [List.any_eq_true]
  by_cases h : i / size < steps - 1
  · refine ⟨i / size, by rw [List.mem_range]; omega, ?_⟩
    unfold inSlice
    rw [if_neg (by omega)]
    have := Nat.div_add_mod i size
    have hlt := Nat.mod_lt i hsize
    have e : (i / size + 1) * size = size * (i / size) + size := by ring
    have e' : i / size * size = size * (i / size) := by ring
    simp only [Bool.and_eq_true, decide_eq_true_eq]; omega
  · refine ⟨steps - 1, by rw [List.mem_range]; omega, ?_⟩
    unfold inSlice
    rw [if_pos rfl]
    have h1 : steps - 1 ≤ i / size := by omega
    have := Nat.mul_le_of_le_div size (steps - 1) i h1
    simp only [Bool.and_eq_true, decide_eq_true_eq]; omega

theorem slices_none (size n i : Nat) : (List.range 0).any (fun p => inSlice size 0 p n i) = false := by simp

/-! ### C56 -/

/-- C56: the blockwise running mean equals the mean over each cell's window, for fields of at least ten rows and columns. -/
theorem c56_mean_partial {n m : Nat} (hn : blockSize ≤ n) (hm : blockSize ≤ m) (r s : Nat) (image : Field Rat) {i j : Nat}
    (hi : i < n) (hj : j < m) : windowMean n m r s image i j = mean (windowAt n m r s image i j) := by
  unfold windowMean
  rw [blocked_eq, if_pos]
  exact ⟨slices_cover (by decide) (Nat.div_pos hn (by decide)) hi, slices_cover (by decide) (Nat.div_pos hm (by decide)) hj⟩

/-- C56: the same mean, with the sum and the number of cells written out. -/
theorem c56_mean_value_partial {n m : Nat} (hn : blockSize ≤ n) (hm : blockSize ≤ m) (r s : Nat) (image : Field Rat) {i j : Nat}
    (hi : i < n) (hj : j < m) :
    windowMean n m r s image i j * ((2 * r + 1) * (2 * s + 1)) = (windowAt n m r s image i j).sum := by
  rw [c56_mean_partial hn hm r s image hi hj, mean]
  have hl : (windowAt n m r s image i j).length = (2 * r + 1) * (2 * s + 1) := by
    unfold windowAt
    rw [List.length_flatMap]
    simp
  rw [hl]
  push_cast
  have h1 : (2 * (r : Rat) + 1) ≠ 0 := by positivity
  have h2 : (2 * (s : Rat) + 1) ≠ 0 := by positivity
  field_simp

/-- C56: for a field with fewer than ten rows or columns the result is zero everywhere, whatever the data. -/
theorem c56_small_violated {n m : Nat} (h : n < blockSize ∨ m < blockSize) (r s : Nat) (image : Field Rat) (i j : Nat) :
    windowMean n m r s image i j = 0 := by
  unfold windowMean
  rw [blocked_eq, if_neg]
  rcases h with h | h
  · rw [Nat.div_eq_of_lt h]; simp
  · rw [Nat.div_eq_of_lt h]; simp

/-- The statistics of `compute_window_median_quartiles` do not depend on blocking, for every shape. -/
theorem c56_quartiles {α β : Type} (stat : List α → β) (zero : β) {n m : Nat} (r s : Nat) (image : Field α) {i j : Nat}
    (hi : i < n) (hj : j < m) : windowQuartiles stat zero n m r s image i j = stat (windowAt n m r s image i j) := by
  unfold windowQuartiles
  have hpos : ∀ k, 0 < k → 0 < ceilDiv k blockSize := fun k hk => by
    unfold ceilDiv blockSize; omega
  rw [blocked_eq, if_pos]
  exact ⟨slices_cover (by decide) (hpos n (by omega)) hi, slices_cover (by decide) (hpos m (by omega)) hj⟩

/-! Rows and columns in a window. -/

theorem reflectIndex_lt {n : Nat} (hn : 0 < n) (j : Int) : reflectIndex n j < n := by
  unfold reflectIndex
  split
  · omega
  · rename_i h
    simp only
    have h1 := Int.emod_nonneg j (show 2 * ((n : Int) - 1) ≠ 0 by omega)
    have h2 := Int.emod_lt_of_pos j (show 0 < 2 * ((n : Int) - 1) by omega)
    split <;> omega

theorem reflectIndex_inside {n : Nat} {j : Int} (h0 : 0 ≤ j) (h1 : j < n) : reflectIndex n j = j.toNat := by
  unfold reflectIndex
  split
  · omega
  · rw [Int.emod_eq_of_lt h0 (by omega)]
    simp only
    rw [if_pos (by omega)]

theorem reflectIndex_below {n : Nat} {j : Int} (h0 : j < 0) (h1 : -j < n) : reflectIndex n j = (-j).toNat := by
  unfold reflectIndex
  rw [if_neg (by omega)]
  have : j % (2 * ((n : Int) - 1)) = j + 2 * (n - 1) := by
    rw [← Int.add_emod_right, Int.emod_eq_of_lt (by omega) (by omega)]
  rw [this]
  simp only
  split <;> omega

theorem reflectIndex_above {n : Nat} {j : Int} (h0 : (n : Int) ≤ j) (h1 : j < 2 * n - 1) :
    reflectIndex n j = (2 * ((n : Int) - 1) - j).toNat := by
  unfold reflectIndex
  rw [if_neg (by omega)]
  simp only
  by_cases h : j = 2 * ((n : Int) - 1)
  · rw [h, Int.emod_self, if_pos (by omega)]; omega
  · rw [Int.emod_eq_of_lt (by omega) (by omega), if_neg (by omega)]; omega

theorem wrapIndex_lt {m : Nat} (hm : 0 < m) (j : Int) : wrapIndex m j < m := by
  unfold wrapIndex
  have h1 := Int.emod_nonneg j (show (m : Int) ≠ 0 by omega)
  have h2 := Int.emod_lt_of_pos j (show 0 < (m : Int) by omega)
  omega

/-- Rows of a window: the rows of the field at most `r` away. -/
theorem rows_of_window {n r : Nat} (hr : r < n) {i i' : Nat} (hi : i < n) :
    (∃ a ∈ List.range (2 * r + 1), reflectIndex n ((i : Int) + a - r) = i') ↔ i' < n ∧ i' ≤ i + r ∧ i ≤ i' + r := by
  constructor
  · rintro ⟨a, ha, rfl⟩
    rw [List.mem_range] at ha
    refine ⟨reflectIndex_lt (by omega) _, ?_⟩
    by_cases h0 : (i : Int) + a - r < 0
    · rw [reflectIndex_below h0 (by omega)]; omega
    · by_cases h1 : (i : Int) + a - r < n
      · rw [reflectIndex_inside (by omega) h1]; omega
      · rw [reflectIndex_above (by omega) (by omega)]; omega
  · rintro ⟨h1, h2, h3⟩
    refine ⟨i' + r - i, by rw [List.mem_range]; omega, ?_⟩
    rw [reflectIndex_inside (by omega) (by omega)]; omega

/-- Columns of a window: the columns at most `s` steps away around the circle. -/
theorem columns_of_window {m s : Nat} (hm : 0 < m) {j j' : Nat} (hj' : j' < m) :
    (∃ b ∈ List.range (2 * s + 1), wrapIndex m ((j : Int) + b - s) = j') ↔
      ∃ d : Int, -s ≤ d ∧ d ≤ s ∧ (m : Int) ∣ ((j : Int) + d - j') := by
  have key : ∀ x : Int, wrapIndex m x = j' ↔ (m : Int) ∣ (x - j') := by
    intro x
    unfold wrapIndex
    have h1 := Int.emod_nonneg x (show (m : Int) ≠ 0 by omega)
    have h2 := Int.emod_lt_of_pos x (show 0 < (m : Int) by omega)
    have e : (j' : Int) % m = j' := Int.emod_eq_of_lt (by omega) (by omega)
    have : x % m = j' ↔ (m : Int) ∣ (x - j') := by
      rw [Int.dvd_iff_emod_eq_zero, Int.sub_emod, e]
      constructor
      · intro h; rw [h]; simp
      · intro h
        have := Int.emod_emod_of_dvd (x % m - j') (dvd_refl (m : Int))
        have h3 := Int.dvd_of_emod_eq_zero h
        obtain ⟨t, ht⟩ := h3
        have : t = 0 := by
          by_contra ht0
          rcases Int.lt_or_gt_of_ne ht0 with h4 | h4
          · have : (m : Int) * t ≤ m * (-1) := Int.mul_le_mul_of_nonneg_left (by omega) (by omega)
            omega
          · have : (m : Int) * 1 ≤ m * t := Int.mul_le_mul_of_nonneg_left (by omega) (by omega)
            omega
        rw [this] at ht; omega
    rw [← this]
    omega
  constructor
  · rintro ⟨b, hb, h⟩
    rw [List.mem_range] at hb
    refine ⟨(b : Int) - s, by omega, by omega, ?_⟩
    rw [key] at h
    rwa [Int.add_sub_assoc] at h
  · rintro ⟨d, h1, h2, h3⟩
    refine ⟨(d + s).toNat, by rw [List.mem_range]; omega, ?_⟩
    rw [key]
    have : (j : Int) + (d + s).toNat - s = j + d := by omega
    rwa [this]

theorem mem_windowAt {α : Type} {n m r s : Nat} {image : Field α} {i j : Nat} {x : α} :
    x ∈ windowAt n m r s image i j ↔ ∃ a ∈ List.range (2 * r + 1), ∃ b ∈ List.range (2 * s + 1),
      image (reflectIndex n ((i : Int) + a - r)) (wrapIndex m ((j : Int) + b - s)) = x := by
  unfold windowAt
  simp only [List.mem_flatMap, List.mem_map]

theorem windowAt_length {α : Type} (n m r s : Nat) (image : Field α) (i j : Nat) :
    (windowAt n m r s image i j).length = (2 * r + 1) * (2 * s + 1) := by
  unfold windowAt
  rw [List.length_flatMap]
  simp

/-- A mean of zeros and ones. -/
theorem mean_flags (l : List Rat) (hl : l ≠ []) (h01 : ∀ x ∈ l, x = 0 ∨ x = 1) :
    0 ≤ mean l ∧ mean l ≤ 1 ∧ (mean l = 0 ↔ ∀ x ∈ l, x = 0) := by
  have hlen : 0 < (l.length : Rat) := by
    have : 0 < l.length := List.length_pos_iff.2 hl
    exact_mod_cast this
  have hsum : 0 ≤ l.sum ∧ l.sum ≤ l.length ∧ (l.sum = 0 ↔ ∀ x ∈ l, x = 0) := by
    clear hl hlen
    induction l with
    | nil => simp
    | cons x l ih =>
      obtain ⟨i1, i2, i3⟩ := ih fun y hy => h01 y (List.mem_cons_of_mem _ hy)
      rw [List.sum_cons, List.length_cons]
      push_cast
      rcases h01 x List.mem_cons_self with h | h
      · subst h
        refine ⟨by linarith, by linarith, ?_⟩
        rw [zero_add, i3]; simp
      · subst h
        refine ⟨by linarith, by linarith, ?_⟩
        constructor
        · intro h; linarith
        · intro h; exact absurd (h 1 List.mem_cons_self) (by norm_num)
  unfold mean
  refine ⟨div_nonneg hsum.1 hlen.le, ?_, ?_⟩
  · rw [div_le_one hlen]; exact hsum.2.1
  · rw [div_eq_zero_iff, ← hsum.2.2]
    constructor
    · rintro (h | h)
      · exact h
      · linarith
    · exact Or.inl

theorem truncate_sub (x : Rat) (h0 : 0 ≤ x) (h1 : x ≤ 1) : truncate (1 - x) = 0 ↔ x ≠ 0 := by
  unfold truncate
  rw [if_pos (by linarith)]
  constructor
  · intro h hx
    subst hx
    rw [sub_zero] at h
    have := Rat.floor_intCast 1
    rw [show ((1 : Int) : Rat) = 1 by norm_num, h] at this
    omega
  · intro hx
    have hpos : 0 < x := lt_of_le_of_ne h0 (Ne.symm hx)
    have a1 : (0 : Int) ≤ (1 - x).floor := Rat.le_floor_iff.2 (by push_cast; linarith)
    have a2 : ¬ (1 : Int) ≤ (1 - x).floor := fun h => by
      have := Rat.le_floor_iff.1 h
      push_cast at this; linarith
    omega

/-- C56: the extension of flagged regions flags exactly the cells with a flagged cell in the window of `2 r + 1` rows and
`2 s + 1` columns around them: at most `r` rows away, and at most `s` columns away around the circle of longitude. -/
theorem c56_extend_partial {n m : Nat} (hn : blockSize ≤ n) (hm : blockSize ≤ m) {r : Nat} (s : Nat) (hr : r < n) (flagged : Field Bool)
    {i j : Nat} (hi : i < n) (hj : j < m) :
    extend n m r s flagged i j = true ↔ ∃ i' < n, ∃ j' < m, flagged i' j' = true ∧ i' ≤ i + r ∧ i ≤ i' + r ∧
      ∃ d : Int, -s ≤ d ∧ d ≤ s ∧ (m : Int) ∣ ((j : Int) + d - j') := by
  have hm0 : 0 < m := by omega
  unfold extend
  rw [beq_iff_eq, c56_mean_partial hn hm r s _ hi hj]
  have hne : windowAt n m r s (fun i j => asNumber (flagged i j)) i j ≠ [] := by
    intro h
    have := congrArg List.length h
    rw [windowAt_length] at this
    simp at this
  obtain ⟨h0, h1, hz⟩ := mean_flags (windowAt n m r s (fun i j => asNumber (flagged i j)) i j) hne (by
    intro x hx
    obtain ⟨a, _, b, _, rfl⟩ := mem_windowAt.1 hx
    unfold asNumber; split <;> simp)
  rw [truncate_sub _ h0 h1, Ne, hz]
  push_neg
  constructor
  · rintro ⟨x, hx, hx0⟩
    obtain ⟨a, ha, b, hb, rfl⟩ := mem_windowAt.1 hx
    refine ⟨reflectIndex n ((i : Int) + a - r), reflectIndex_lt (by omega) _, wrapIndex m ((j : Int) + b - s), wrapIndex_lt hm0 _, ?_, ?_⟩
    · by_contra h
      exact hx0 (by unfold asNumber; rw [if_neg h])
    · obtain ⟨_, k1, k2⟩ := (rows_of_window hr hi).1 ⟨a, ha, rfl⟩
      exact ⟨k1, k2, (columns_of_window hm0 (wrapIndex_lt hm0 _)).1 ⟨b, hb, rfl⟩⟩
  · rintro ⟨i', hi', j', hj', hf, k1, k2, hd⟩
    obtain ⟨a, ha, ea⟩ := (rows_of_window hr hi).2 ⟨hi', k1, k2⟩
    obtain ⟨b, hb, eb⟩ := (columns_of_window (s := s) hm0 hj').2 hd
    refine ⟨1, mem_windowAt.2 ⟨a, ha, b, hb, ?_⟩, by norm_num⟩
    rw [ea, eb]; unfold asNumber; rw [if_pos hf]

/-- C56: on a field with fewer than ten rows or columns no cell is ever flagged after the extension, not even the flagged ones. -/
theorem c56_extend_small_violated {n m : Nat} (h : n < blockSize ∨ m < blockSize) (r s : Nat) (flagged : Field Bool) (i j : Nat) :
    extend n m r s flagged i j = false := by
  unfold extend
  rw [c56_small_violated h, sub_zero]
  decide

example : extend 10 10 2 2 (fun i j => i == 0 && j == 0) 2 9 = true ∧ extend 10 10 2 2 (fun i j => i == 0 && j == 0) 2 7 = false ∧
    extend 10 10 2 2 (fun i j => i == 0 && j == 0) 3 0 = false := by
  refine ⟨?_, ?_, ?_⟩
  · exact (c56_extend_partial (by decide) (by decide) 2 (by decide) _ (by decide) (by decide)).2
      ⟨0, by decide, 0, by decide, by decide, by decide, by decide, 1, by decide, by decide, by decide⟩
  · rw [← Bool.not_eq_true, c56_extend_partial (by decide) (by decide) 2 (by decide) _ (by decide) (by decide)]
    rintro ⟨i', _, j', _, hf, _, _, d, h1, h2, h3⟩
    simp only [Bool.and_eq_true, beq_iff_eq] at hf
    obtain ⟨t, ht⟩ := h3
    omega
  · rw [← Bool.not_eq_true, c56_extend_partial (by decide) (by decide) 2 (by decide) _ (by decide) (by decide)]
    rintro ⟨i', _, j', _, hf, _, h, _⟩
    simp only [Bool.and_eq_true, beq_iff_eq] at hf
    omega

/-! ### C57, C73: areal statistics by blocks of rows -/

theorem blockStatistics_eq {α β : Type} (stat : List α → β) (zero : β) (n m size r : Nat) (hsize : 0 < size) (lonRange : Nat → Nat)
    (image : Field α) (i j : Nat) :
    blockStatistics stat zero n m size r lonRange image i j =
      if i / size < n / size then
        some (windowQuartiles stat zero (min ((i / size + 1) * size + r) n - (i / size * size - r)) m r (lonRange (i / size))
          (fun i' j => image (i / size * size - r + i') j) (i - (i / size * size - r)) j)
      else none := by
  have hmem : ∀ b, (b * size ≤ i ∧ i < (b + 1) * size) ↔ b = i / size := by
    intro b
    constructor
    · rintro ⟨h1, h2⟩
      exact (Nat.div_eq_of_lt_le h1 h2).symm
    · rintro rfl
      exact ⟨Nat.div_mul_le_self i size, by rw [Nat.add_mul, Nat.one_mul]; exact Nat.lt_div_mul_add hsize⟩
  have key : ∀ k, k ≤ n / size → ((List.range k).foldl (fun out block =>
      let lat0 := block * size
      let lat1 := min ((block + 1) * size) n
      let ext0 := lat0 - r
      let ext1 := min ((block + 1) * size + r) n
      let result := windowQuartiles stat zero (ext1 - ext0) m r (lonRange block) fun i j => image (ext0 + i) j
      fun i j => if lat0 ≤ i && i < lat1 then some (result (i - lat0 + (lat0 - ext0)) j) else out i j)
      (fun _ _ => none : Field (Option β))) i j =
      if i / size < k then
        some (windowQuartiles stat zero (min ((i / size + 1) * size + r) n - (i / size * size - r)) m r (lonRange (i / size))
          (fun i' j => image (i / size * size - r + i') j) (i - (i / size * size - r)) j)
      else none := by
    intro k
    induction k with
    | zero => intro _; simp
    | succ k ih =>
      intro hk
      rw [List.range_succ, List.foldl_append, List.foldl_cons, List.foldl_nil]
      simp only
      have hle : (k + 1) * size ≤ n := (Nat.le_div_iff_mul_le hsize).1 hk
      rw [Nat.min_eq_left hle]
      by_cases hb : k = i / size
      · have := (hmem k).2 hb
        rw [if_pos (by simp only [Bool.and_eq_true, decide_eq_true_eq]; exact this), if_pos (by omega)]
        subst hb
        congr 2
        omega
      · have hnot : ¬ (k * size ≤ i ∧ i < (k + 1) * size) := fun h => hb ((hmem k).1 h)
        rw [if_neg (by simp only [Bool.and_eq_true, decide_eq_true_eq]; exact hnot), ih (by omega)]
        by_cases h : i / size < k
        · rw [if_pos h, if_pos (by omega)]
        · rw [if_neg h, if_neg (by omega)]
  exact key (n / size) (Nat.le_refl _)

/-- C57: a row receives areal statistics exactly when it lies in a complete block. -/
theorem c57_rows {α β : Type} (stat : List α → β) (zero : β) (n m : Nat) {size : Nat} (hsize : 0 < size) (r : Nat)
    (lonRange : Nat → Nat) (image : Field α) (i j : Nat) :
    (blockStatistics stat zero n m size r lonRange image i j).isSome = true ↔ i < n / size * size := by
  rw [blockStatistics_eq _ _ _ _ _ _ hsize]
  rw [← Nat.div_lt_iff_lt_mul hsize]
  split <;> simp [*]

/-- C57: every row is covered if the number of rows is a multiple of the block size (720 rows in blocks of 20). -/
theorem c57_multiple_partial {α β : Type} (stat : List α → β) (zero : β) (n m : Nat) {size : Nat} (hsize : 0 < size)
    (hdvd : size ∣ n) (r : Nat) (lonRange : Nat → Nat) (image : Field α) {i : Nat} (hi : i < n) (j : Nat) :
    (blockStatistics stat zero n m size r lonRange image i j).isSome = true := by
  rw [c57_rows _ _ _ _ hsize, Nat.div_mul_cancel hdvd]; exact hi

/-- C57: otherwise the last rows are left without statistics. -/
theorem c57_violated {α β : Type} (stat : List α → β) (zero : β) (n m : Nat) {size : Nat} (hsize : 0 < size)
    (hdvd : ¬ size ∣ n) (r : Nat) (lonRange : Nat → Nat) (image : Field α) (j : Nat) :
    blockStatistics stat zero n m size r lonRange image (n - 1) j = none := by
  rw [← Option.not_isSome_iff_eq_none, c57_rows _ _ _ _ hsize]
  have h := Nat.div_add_mod n size
  have : n % size ≠ 0 := fun h => hdvd (Nat.dvd_of_mod_eq_zero h)
  rw [Nat.mul_comm]
  omega

/-- Reflection at the border of an extended block agrees with reflection at the border of the field. -/
theorem reflect_block {n size r b i : Nat} (hsize : 0 < size) (h0 : b * size ≤ i) (h1 : i < (b + 1) * size)
    (hle : (b + 1) * size ≤ n) {d : Int} (hd0 : -r ≤ d) (hd1 : d ≤ r) :
    b * size - r + reflectIndex (min ((b + 1) * size + r) n - (b * size - r)) (((i - (b * size - r) : Nat) : Int) + d) =
      reflectIndex n ((i : Int) + d) := by
  generalize hlo : b * size = lo at *
  generalize hhi : (b + 1) * size = hi at *
  by_cases hwhole : lo - r = 0 ∧ min (hi + r) n = n
  · obtain ⟨e1, e2⟩ := hwhole
    rw [e1, e2]; simp
  · by_cases ha : ((i - (lo - r) : Nat) : Int) + d < 0
    · have hr : lo - r = 0 := by omega
      rw [hr] at ha ⊢
      rw [reflectIndex_below ha (by omega), reflectIndex_below (by omega) (by omega)]
      omega
    · by_cases hb : ((i - (lo - r) : Nat) : Int) + d < ((min (hi + r) n - (lo - r) : Nat) : Int)
      · rw [reflectIndex_inside (by omega) hb, reflectIndex_inside (by omega) (by omega)]
        omega
      · rw [reflectIndex_above (by omega) (by omega), reflectIndex_above (by omega) (by omega)]
        omega

/-- C73: computing areal statistics by blocks of rows with a margin gives, in every row of a complete block, exactly the
statistic of the window taken from the whole field (with the longitude range of the row's block). -/
theorem c73_blocks {α β : Type} (stat : List α → β) (zero : β) (n : Nat) {m size : Nat} (hsize : 0 < size) (r : Nat)
    (lonRange : Nat → Nat) (image : Field α) {i j : Nat} (hi : i < n / size * size) (hj : j < m) :
    blockStatistics stat zero n m size r lonRange image i j =
      some (stat (windowAt n m r (lonRange (i / size)) image i j)) := by
  have hb : i / size < n / size := (Nat.div_lt_iff_lt_mul hsize).2 hi
  rw [blockStatistics_eq _ _ _ _ _ _ hsize, if_pos hb]
  have hle : (i / size + 1) * size ≤ n := (Nat.le_div_iff_mul_le hsize).1 hb
  have h0 : i / size * size ≤ i := Nat.div_mul_le_self i size
  have h1 : i < (i / size + 1) * size := by rw [Nat.add_mul, Nat.one_mul]; exact Nat.lt_div_mul_add hsize
  rw [c56_quartiles stat zero r _ _ (by omega) hj]
  congr 2
  unfold windowAt
  refine List.flatMap_congr fun a ha => List.map_congr_left fun b hb => ?_
  rw [List.mem_range] at ha
  have := reflect_block (r := r) hsize h0 h1 hle (d := (a : Int) - r) (by omega) (by omega)
  simp only [← Int.add_sub_assoc] at this
  beta_reduce
  rw [this]

example : blockStatistics (fun l : List Nat => l) [] 5 3 2 1 (fun _ => 1) (fun i j => 10 * i + j) 1 0 =
    some [2, 0, 1, 12, 10, 11, 22, 20, 21] := by rfl

end Verif.Eustace.Smooth
