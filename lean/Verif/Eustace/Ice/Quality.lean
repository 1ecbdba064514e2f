import Verif.Eustace.Ice.Spec
import Mathlib.Tactic.Linarith
import Mathlib.Tactic.NormNum
import Mathlib.Tactic.Tauto
import Mathlib.Tactic.Positivity
import Mathlib.Tactic.Ring
import Mathlib.Algebra.BigOperators.Ring.Finset
import Mathlib.Algebra.BigOperators.Group.Finset.Sigma

/-! The quality control over ice keeps what it is meant to keep. -/

namespace Verif.Eustace.Ice

open Verif

noncomputable section

theorem list_sum_range (n : ℕ) (f : ℕ → ℝ) : ((List.range n).map f).sum = ∑ k ∈ Finset.range n, f k := by
  induction n with
  | zero => simp
  | succ n ih => rw [List.range_succ, Finset.sum_range_succ, List.map_append, List.sum_append, ih]; simp

/-- Cells near a cell, whatever they hold. -/
def square (rows cols i j : ℕ) : Finset (ℕ × ℕ) :=
  (Finset.range rows ×ˢ Finset.range cols).filter fun q =>
    q.1 ≤ i + 2 ∧ i ≤ q.1 + 2 ∧ q.2 ≤ j + 2 ∧ j ≤ q.2 + 2 ∧ q ≠ (i, j)

theorem convolve_eq (rows cols : ℕ) (f : ℕ → ℕ → ℝ) (i j : ℕ) (hi : 2 ≤ i) (hi' : i + 2 < rows) (hj : 2 ≤ j) (hj' : j + 2 < cols) :
    convolve 2 f (kernel 2) (i - 2) (j - 2) = ∑ q ∈ square rows cols i j, f q.1 q.2 := by
  unfold convolve
  rw [list_sum_range]
  have e : ∀ u, ((List.range (2 * 2 + 1)).map fun v => f (i - 2 + 2 * 2 - u) (j - 2 + 2 * 2 - v) * kernel 2 u v).sum
      = ∑ v ∈ Finset.range (2 * 2 + 1), f (i - 2 + 2 * 2 - u) (j - 2 + 2 * 2 - v) * kernel 2 u v := fun u => list_sum_range _ _
  rw [Finset.sum_congr rfl (fun u _ => e u), ← Finset.sum_product']
  have s : ∀ q ∈ Finset.range (2 * 2 + 1) ×ˢ Finset.range (2 * 2 + 1),
      f (i - 2 + 2 * 2 - q.1) (j - 2 + 2 * 2 - q.2) * kernel 2 q.1 q.2
      = if q ≠ (2, 2) then f (i + 2 - q.1) (j + 2 - q.2) else 0 := by
    rintro ⟨u, v⟩ _
    have e1 : i - 2 + 2 * 2 - u = i + 2 - u := by omega
    have e2 : j - 2 + 2 * 2 - v = j + 2 - v := by omega
    simp only [e1, e2, kernel, ne_eq, Prod.mk.injEq]
    split_ifs with h1 h2 h2 <;> simp_all
  rw [Finset.sum_congr rfl s, ← Finset.sum_filter]
  refine Finset.sum_nbij' (fun q => (i + 2 - q.1, j + 2 - q.2)) (fun q => (i + 2 - q.1, j + 2 - q.2)) ?_ ?_ ?_ ?_ ?_
  · rintro ⟨u, v⟩ h
    simp only [Finset.mem_filter, Finset.mem_product, Finset.mem_range, ne_eq, Prod.mk.injEq, square] at h ⊢
    omega
  · rintro ⟨u, v⟩ h
    simp only [Finset.mem_filter, Finset.mem_product, Finset.mem_range, ne_eq, Prod.mk.injEq, square] at h ⊢
    omega
  · rintro ⟨u, v⟩ h
    simp only [Finset.mem_filter, Finset.mem_product, Finset.mem_range, ne_eq, Prod.mk.injEq, square] at h ⊢
    omega
  · rintro ⟨u, v⟩ h
    simp only [Finset.mem_filter, Finset.mem_product, Finset.mem_range, ne_eq, Prod.mk.injEq, square] at h ⊢
    omega
  · intro q _
    rfl

open Classical in
theorem neighbours_eq (rows cols : ℕ) (g : ℕ → ℕ → Option ℝ) (group : ℕ → ℕ → Prop) (i j : ℕ) :
    neighbours rows cols g group i j = (square rows cols i j).filter fun q => group q.1 q.2 ∧ ∃ v, g q.1 q.2 = some v := by
  ext ⟨a, b⟩
  simp only [neighbours, square, Finset.mem_filter, Finset.mem_product, Finset.mem_range, ne_eq]
  unfold Near
  tauto

theorem remasked_isSome (g : ℕ → ℕ → Option ℝ) (mask : ℕ → ℕ → Bool) (group : ℕ → ℕ → Prop)
    (hm : ∀ a b, mask a b = false ↔ group a b) (a b : ℕ) :
    (remasked g mask a b).isSome = true ↔ group a b ∧ ∃ v, g a b = some v := by
  unfold remasked
  cases h : mask a b with
  | true => simp [← hm, h]
  | false => simp [← hm, h, Option.isSome_iff_exists]

theorem count_eq (rows cols : ℕ) (g : ℕ → ℕ → Option ℝ) (mask : ℕ → ℕ → Bool) (group : ℕ → ℕ → Prop)
    (hm : ∀ a b, mask a b = false ↔ group a b)
    (i j : ℕ) (hi : 2 ≤ i) (hi' : i + 2 < rows) (hj : 2 ≤ j) (hj' : j + 2 < cols) :
    convolve 2 (present (remasked g mask)) (kernel 2) (i - 2) (j - 2) = ((neighbours rows cols g group i j).card : ℝ) := by
  classical
  rw [convolve_eq rows cols _ i j hi hi' hj hj', neighbours_eq, Finset.card_filter, Nat.cast_sum]
  refine Finset.sum_congr rfl fun q _ => ?_
  unfold present
  have := remasked_isSome g mask group hm q.1 q.2
  by_cases h : (remasked g mask q.1 q.2).isSome = true
  · rw [if_pos h, if_pos (this.mp h)]; simp
  · rw [if_neg h, if_neg (fun c => h (this.mpr c))]; simp

theorem total_eq (rows cols : ℕ) (g : ℕ → ℕ → Option ℝ) (mask : ℕ → ℕ → Bool) (group : ℕ → ℕ → Prop)
    (hm : ∀ a b, mask a b = false ↔ group a b)
    (i j : ℕ) (hi : 2 ≤ i) (hi' : i + 2 < rows) (hj : 2 ≤ j) (hj' : j + 2 < cols) :
    convolve 2 (zeroFilled (remasked g mask)) (kernel 2) (i - 2) (j - 2)
      = ∑ q ∈ neighbours rows cols g group i j, (g q.1 q.2).getD 0 := by
  classical
  rw [convolve_eq rows cols _ i j hi hi' hj hj', neighbours_eq, Finset.sum_filter]
  refine Finset.sum_congr rfl fun q _ => ?_
  unfold zeroFilled
  have := remasked_isSome g mask group hm q.1 q.2
  by_cases h : group q.1 q.2 ∧ ∃ v, g q.1 q.2 = some v
  · rw [if_pos h]
    unfold remasked
    rw [if_neg (by rw [(hm _ _).mpr h.1]; simp)]
  · rw [if_neg h]
    have : (remasked g mask q.1 q.2).isSome = false := by
      rw [Bool.eq_false_iff]; exact fun c => h (this.mp c)
    rw [Option.isSome_eq_false_iff, Option.isNone_iff_eq_none] at this
    rw [this]; rfl

/-- The mask of clouds finds the outliers of a group. -/
theorem cloudMask_iff (rows cols : ℕ) (g : ℕ → ℕ → Option ℝ) (mask : ℕ → ℕ → Bool) (group : ℕ → ℕ → Prop)
    (hm : ∀ a b, mask a b = false ↔ group a b) (i j : ℕ) :
    cloudMask rows cols g mask i j = true ↔ Outlier rows cols g group i j := by
  unfold cloudMask Outlier
  by_cases hin : 2 ≤ i ∧ i + 2 < rows ∧ 2 ≤ j ∧ j + 2 < cols
  · obtain ⟨hi, hi', hj, hj'⟩ := hin
    rw [if_pos (by unfold halfWidth; omega)]
    simp only [halfWidth, minCount, localMean, count_eq rows cols g mask group hm i j hi hi' hj hj',
      total_eq rows cols g mask group hm i j hi hi' hj hj']
    set n := (neighbours rows cols g group i j).card
    set s := ∑ q ∈ neighbours rows cols g group i j, (g q.1 q.2).getD 0
    have hr : ∀ t, remasked g mask i j = some t ↔ group i j ∧ g i j = some t := by
      intro t
      unfold remasked
      cases h : mask i j with
      | true => simp [← hm, h]
      | false => simp [← hm, h]
    have hn : ((n : ℝ) < (2 : ℕ)) ↔ n < 2 := by exact_mod_cast Iff.rfl
    by_cases h2 : n < 2
    · rw [if_pos (hn.mpr h2)]
      simp only [difference, filled]
      constructor
      · intro h; exact absurd h (by simp)
      · rintro ⟨-, -, h, -⟩; omega
    · rw [if_neg (fun c => h2 (hn.mp c)), if_neg (by
        have : n ≠ 0 := by omega
        exact_mod_cast this)]
      cases hv : remasked g mask i j with
      | none =>
        simp only [difference, filled]
        constructor
        · intro h; exact absurd h (by simp)
        · rintro ⟨-, hg, -, t, ht, -⟩
          rw [(hr t).mpr ⟨hg, ht⟩] at hv; exact absurd hv (by simp)
      | some t =>
        have := (hr t).mp hv
        simp only [difference, filled, decide_eq_true_eq]
        unfold neighbourTolerance
        constructor
        · intro h
          exact ⟨⟨hi, hi', hj, hj'⟩, this.1, by omega, t, this.2, by linarith⟩
        · rintro ⟨-, -, -, t', ht', h⟩
          rw [this.2] at ht'
          cases ht'
          linarith
  · rw [if_neg (by unfold halfWidth; omega)]
    constructor
    · intro h; exact absurd h (by simp)
    · rintro ⟨h, -⟩; exact absurd h hin

theorem landIceMask_iff (x : Inputs) (i j : ℕ) : landIceMask x i j = false ↔ OnLandIce x i j := by
  unfold landIceMask OnLandIce
  by_cases h1 : x.land.at' i j = 1 <;> by_cases h4 : x.land.at' i j = 4 <;> simp [h1, h4]

theorem concentrationMask_iff (x : Inputs) (i j : ℕ) : concentrationMask x i j = false ↔ Concentrated x i j := by
  unfold concentrationMask Concentrated filled minConcentration
  have e : (0.3 : ℝ) = 3 / 10 := by norm_num
  cases h : x.fraction.at' i j with
  | none => simp
  | some v => simp [e]

theorem plausible_iff (x : Inputs) (i j : ℕ) : (stdMask x i j = false ∧ valueMask x i j = false) ↔ Plausible x i j := by
  unfold stdMask valueMask Plausible filled stdMax temperatureMax
  have e : (7.07 : ℝ) = 707 / 100 := by norm_num
  have e' : (278.15 : ℝ) = 27315 / 100 + 5 := by norm_num
  cases h : x.tsStd.at' i j <;> cases h' : x.ts.at' i j <;> simp [e, e']

theorem sum_ne_zero (v : List ℤ) (h : ∀ n ∈ v, 0 ≤ n) : v.sum ≠ 0 ↔ ∃ n ∈ v, 0 < n := by
  induction v with
  | nil => simp
  | cons a v ih =>
    have ha := h a (by simp)
    have hv : ∀ n ∈ v, 0 ≤ n := fun n hn => h n (by simp [hn])
    have h0 : 0 ≤ v.sum := List.sum_nonneg hv
    have := ih hv
    simp only [List.sum_cons, List.mem_cons, exists_eq_or_imp]
    constructor
    · intro hs
      rcases eq_or_lt_of_le ha with h1 | h1
      · right; apply this.mp; omega
      · left; exact h1
    · rintro (h1 | h1)
      · omega
      · have := this.mpr h1; omega

theorem noneCounted_iff (l : List (Option ℤ)) (h : ∀ n, some n ∈ l → 0 ≤ n) :
    noneCounted (maskedSum l) = false ↔ ∃ n, 0 < n ∧ some n ∈ l := by
  have hm : ∀ n, n ∈ l.filterMap id ↔ some n ∈ l := by intro n; simp
  have := sum_ne_zero (l.filterMap id) (fun n hn => h n ((hm n).mp hn))
  unfold maskedSum
  cases hv : l.filterMap id with
  | nil =>
    simp only [noneCounted]
    constructor
    · intro c; exact absurd c (by simp)
    · rintro ⟨n, -, hn⟩
      rw [← hm, hv] at hn; exact absurd hn (by simp)
  | cons a v =>
    rw [hv] at this
    simp only [noneCounted, decide_eq_false_iff_not]
    rw [← ne_eq, this]
    constructor
    · rintro ⟨n, hn, h0⟩; exact ⟨n, h0, (hm n).mp (hv ▸ hn)⟩
    · rintro ⟨n, h0, hn⟩; exact ⟨n, hv ▸ (hm n).mpr hn, h0⟩

theorem dayMask_iff (x : Inputs) (hc : Counts x) (i j : ℕ) : dayMask x i j = false ↔ Observed x days i j := by
  unfold dayMask
  rw [noneCounted_iff _ (by
    intro n hn
    obtain ⟨b, -, hb⟩ := List.mem_map.mp hn
    exact hc b i j n hb)]
  simp only [dayBins, List.mem_map, Observed, days, Finset.mem_insert, Finset.mem_singleton, List.mem_cons, List.not_mem_nil, or_false]
  constructor
  · rintro ⟨n, h0, b, hb, h⟩; exact ⟨b, hb, n, h0, h⟩
  · rintro ⟨b, hb, n, h0, h⟩; exact ⟨n, h0, b, hb, h⟩

theorem nightMask_iff (x : Inputs) (hc : Counts x) (i j : ℕ) : nightMask x i j = false ↔ Observed x nights i j := by
  unfold nightMask
  rw [noneCounted_iff _ (by
    intro n hn
    obtain ⟨b, -, hb⟩ := List.mem_map.mp hn
    exact hc b i j n hb)]
  simp only [nightBins, List.mem_map, Observed, nights, Finset.mem_insert, Finset.mem_singleton, List.mem_cons, List.not_mem_nil,
    or_false]
  constructor
  · rintro ⟨n, h0, b, hb, h⟩; exact ⟨b, hb, n, h0, h⟩
  · rintro ⟨b, hb, n, h0, h⟩; exact ⟨n, h0, b, hb, h⟩

theorem maskedMean_eq (l : List (Option ℝ)) :
    maskedMean l = if l.filterMap id = [] then none else some ((l.filterMap id).sum / (l.filterMap id).length) := by
  unfold maskedMean
  cases h : l.filterMap id <;> simp

open Classical in
theorem known_sum (f : ℕ → Option ℝ) (bins : List ℕ) (hn : bins.Nodup) :
    ((bins.map f).filterMap id).sum = ∑ b ∈ bins.toFinset.filter (fun b => ∃ v, f b = some v), (f b).getD 0 ∧
    ((bins.map f).filterMap id).length = (bins.toFinset.filter (fun b => ∃ v, f b = some v)).card := by
  induction bins with
  | nil => simp
  | cons a bins ih =>
    obtain ⟨ha, hb⟩ := List.nodup_cons.mp hn
    obtain ⟨i1, i2⟩ := ih hb
    rw [List.filterMap_map] at i1 i2
    have ha' : a ∉ bins.toFinset.filter (fun b => ∃ v, f b = some v) := by simp [ha]
    rw [List.toFinset_cons, Finset.filter_insert]
    cases h : f a with
    | none => simp [h, ← i1, ← i2]
    | some v =>
      rw [if_pos ⟨v, rfl⟩, Finset.sum_insert ha', Finset.card_insert_of_notMem ha']
      simp [h, ← i1, ← i2]

theorem far_iff (x : Inputs) (bins : List ℕ) (hn : bins.Nodup) (limit : ℝ) (g : Grid (Option ℝ)) (i j : ℕ) :
    filled false (fun v => v > limit) (absDifference (g.at' i j) (maskedMean (bins.map fun b => x.ts3d.at' b i j))) = true ↔
      FarFromBins x bins.toFinset limit g i j := by
  classical
  obtain ⟨hs, hl⟩ := known_sum (fun b => x.ts3d.at' b i j) bins hn
  have hk : known x bins.toFinset i j = bins.toFinset.filter (fun b => ∃ v, x.ts3d.at' b i j = some v) := by
    unfold known
    congr
  rw [maskedMean_eq, hs, hl]
  unfold FarFromBins
  rw [hk]
  set S := bins.toFinset.filter (fun b => ∃ v, x.ts3d.at' b i j = some v)
  have he : (bins.map fun b => x.ts3d.at' b i j).filterMap id = [] ↔ S = ∅ := by
    rw [← List.length_eq_zero_iff, hl, Finset.card_eq_zero]
  by_cases h : S = ∅
  · rw [if_pos (he.mpr h)]
    cases g.at' i j <;> simp [absDifference, filled, h]
  · rw [if_neg (fun c => h (he.mp c))]
    cases g.at' i j <;> simp [absDifference, filled, Finset.nonempty_iff_ne_empty, h]

theorem combinedBinMask_iff (x : Inputs) (i j : ℕ) :
    combinedBinMask x i j = true ↔ FarFromBins x (Finset.range x.ts3d.bins) 10 x.ts i j := by
  have := far_iff x (List.range x.ts3d.bins) List.nodup_range 10 x.ts i j
  rw [List.toFinset_range] at this
  exact this

theorem dayBinMask_iff (x : Inputs) (i j : ℕ) : dayBinMask x i j = true ↔ FarFromBins x days 20 x.tsMax i j := by
  have := far_iff x dayBins (by decide) 20 x.tsMax i j
  have e : dayBins.toFinset = days := by decide
  rw [e] at this
  exact this

/-- The comparison with the bins of the night excludes nothing: an absolute value is never below minus twenty. -/
theorem nightBinMask_false (x : Inputs) (i j : ℕ) : nightBinMask x i j = false := by
  unfold nightBinMask nightBinMin filled
  cases h : absDifference (x.tsMin.at' i j) (maskedMean (nightBins.map fun b => x.ts3d.at' b i j)) with
  | none => rfl
  | some v =>
    have hv : 0 ≤ v := by
      cases ha : x.tsMin.at' i j <;> cases hb : maskedMean (nightBins.map fun b => x.ts3d.at' b i j) <;>
        simp only [ha, hb, absDifference] at h
      · exact absurd h (by simp)
      · exact absurd h (by simp)
      · exact absurd h (by simp)
      · cases h; exact abs_nonneg _
    simp only [decide_eq_false_iff_not]
    linarith

theorem filterOutliers_iff (x : Inputs) (g : Grid (Option ℝ)) (threshold : ℕ → ℕ → Bool) (good : ℕ → ℕ → Prop)
    (hg : ∀ a b, threshold a b = false ↔ good a b) (i j : ℕ) (t : ℝ) :
    (filterOutliers x g threshold).at' i j = some t ↔ g.at' i j = some t ∧ Kept x g good i j := by
  have hl := cloudMask_iff g.rows g.cols g.at' (fun i j => threshold i j || landIceMask x i j)
    (fun a b => good a b ∧ OnLandIce x a b) (by
      intro a b
      rw [← hg, ← landIceMask_iff, Bool.or_eq_false_iff]) i j
  have hs := cloudMask_iff g.rows g.cols g.at' (fun i j => threshold i j || concentrationMask x i j)
    (fun a b => good a b ∧ Concentrated x a b) (by
      intro a b
      rw [← hg, ← concentrationMask_iff, Bool.or_eq_false_iff]) i j
  have hi : iceMask x i j = false ↔ (OnLandIce x i j ∨ Concentrated x i j) := by
    rw [← landIceMask_iff, ← concentrationMask_iff]
    unfold iceMask
    rw [Bool.and_eq_false_iff]
  unfold filterOutliers Kept
  rw [← hl, ← hs, ← hi, ← hg]
  dsimp only
  rw [Bool.eq_false_iff, Bool.eq_false_iff]
  split_ifs with h
  · constructor
    · intro c; exact absurd c (by simp)
    · rintro ⟨-, h1, h2, h3, h4⟩
      exfalso
      simp only [Bool.or_eq_true] at h
      tauto
  · simp only [Bool.or_eq_true] at h
    tauto

theorem meanThreshold_iff (x : Inputs) (hc : Counts x) (i j : ℕ) : meanThreshold x i j = false ↔ GoodMean x i j := by
  unfold meanThreshold GoodMean dayOrNightMask
  rw [← plausible_iff, ← dayMask_iff x hc, ← nightMask_iff x hc, ← combinedBinMask_iff]
  simp only [Bool.or_eq_false_iff, Bool.not_eq_true]
  tauto

theorem minThreshold_iff (x : Inputs) (hc : Counts x) (i j : ℕ) : minThreshold x i j = false ↔ GoodMinWithoutBins x i j := by
  unfold minThreshold GoodMinWithoutBins
  rw [← plausible_iff, ← nightMask_iff x hc]
  simp only [Bool.or_eq_false_iff, nightBinMask_false, and_true]

theorem maxThreshold_iff (x : Inputs) (hc : Counts x) (i j : ℕ) : maxThreshold x i j = false ↔ GoodMax x i j := by
  unfold maxThreshold GoodMax
  rw [← plausible_iff, ← dayMask_iff x hc, ← dayBinMask_iff]
  simp only [Bool.or_eq_false_iff, Bool.not_eq_true]
  tauto

/-- Quality control keeps a temperature, unchanged, exactly where it should: mean temperatures. -/
theorem c114_mean (x : Inputs) (hc : Counts x) (hb : 8 ≤ x.nobs3d.bins) :
    ∃ g, surfaceTemperature x .tas = .ok g ∧ g.shape = x.ts.shape ∧
      ∀ i j t, g.at' i j = some t ↔ x.ts.at' i j = some t ∧ Kept x x.ts (GoodMean x) i j := by
  refine ⟨filterOutliers x x.ts (meanThreshold x), ?_, rfl, ?_⟩
  · simp only [surfaceTemperature]; rw [if_neg (by omega)]
  · exact fun i j t => filterOutliers_iff x x.ts _ _ (meanThreshold_iff x hc) i j t

/-- Maximum temperatures. -/
theorem c114_max (x : Inputs) (hc : Counts x) (hb : 6 ≤ x.nobs3d.bins) (hb' : 6 ≤ x.ts3d.bins) :
    ∃ g, surfaceTemperature x .tasmax = .ok g ∧ g.shape = x.tsMax.shape ∧
      ∀ i j t, g.at' i j = some t ↔ x.tsMax.at' i j = some t ∧ Kept x x.tsMax (GoodMax x) i j := by
  refine ⟨filterOutliers x x.tsMax (maxThreshold x), ?_, rfl, ?_⟩
  · simp only [surfaceTemperature]; rw [if_neg (by omega)]
  · exact fun i j t => filterOutliers_iff x x.tsMax _ _ (maxThreshold_iff x hc) i j t

/-- Minimum temperatures: all but the comparison with the temperatures of the night, which excludes nothing. Missing from the full
statement: `GoodMin` in place of `GoodMinWithoutBins` (which the program does not satisfy, see `c114_night_violated`). -/
theorem c114_min_partial (x : Inputs) (hc : Counts x) (hb : 8 ≤ x.nobs3d.bins) (hb' : 8 ≤ x.ts3d.bins) :
    ∃ g, surfaceTemperature x .tasmin = .ok g ∧ g.shape = x.tsMin.shape ∧
      ∀ i j t, g.at' i j = some t ↔ x.tsMin.at' i j = some t ∧ Kept x x.tsMin (GoodMinWithoutBins x) i j := by
  refine ⟨filterOutliers x x.tsMin (minThreshold x), ?_, rfl, ?_⟩
  · simp only [surfaceTemperature]; rw [if_neg (by omega)]
  · exact fun i j t => filterOutliers_iff x x.tsMin _ _ (minThreshold_iff x hc) i j t

end

end Verif.Eustace.Ice
