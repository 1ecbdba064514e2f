import Verif.Eustace.Lattice.Order
import Verif.Eustace.Lattice.Spec
import Mathlib.Analysis.SpecialFunctions.Pow.NNReal

/-!
C47: the sparse design matrix has the value of every basis function at every location.
C48: piecewise linear interpolation.
-/

namespace Verif.Eustace.Lattice

noncomputable section

variable {D : Nat} {L : Lattice D}

theorem step_pos (hL : Proper L) (k : Fin D) : 0 < step L k := by
  obtain ⟨h1, h2⟩ := hL k
  have : (2 : ℝ) ≤ L.n k := by exact_mod_cast h2
  unfold step
  apply div_pos (by linarith)
  split <;> linarith

theorem spacing_eq (L : Lattice D) (k : Fin D) : L.spacing k = step L k := by
  unfold Lattice.spacing step asNumber
  by_cases hw : L.wrap k <;> simp only [hw, if_true, if_false, Bool.false_eq_true] <;> norm_num

theorem period_eq (hL : Proper L) {k : Fin D} (hw : L.wrap k = true) : L.n k * L.spacing k = L.hi k - L.lo k := by
  obtain ⟨h1, h2⟩ := hL k
  have : (2 : ℝ) ≤ L.n k := by exact_mod_cast h2
  rw [spacing_eq]; unfold step; rw [hw, if_pos rfl]; field_simp

theorem nodes_eq (hL : Proper L) {i : Multi D Nat} (hi : IsNode L i) : nodes L (ravelF L.n i) = position L i := by
  funext k
  obtain ⟨h1, h2⟩ := hL k
  have h2' : (2 : ℝ) ≤ L.n k := by exact_mod_cast h2
  have h3 : (L.n k : ℝ) - 1 ≠ 0 := by linarith
  have h4 : (L.n k : ℝ) ≠ 0 := by linarith
  unfold nodes
  rw [rowIndex_ravelF hi]
  unfold linspace position
  congr 2
  unfold Lattice.nodeHi
  rw [spacing_eq]
  unfold step asNumber
  by_cases hw : L.wrap k <;> simp only [hw, if_true, if_false, Bool.false_eq_true]
  · field_simp; ring
  · simp

theorem floor_neg_one {x : ℝ} (h1 : -1 ≤ x) (h2 : x < 0) : ⌊x⌋ = -1 := by
  rw [Int.floor_eq_iff]; push_cast; exact ⟨h1, by linarith⟩

/-- The wrapped distances are a displacement. -/
theorem wrapDistance_displacement (hL : Proper L) (x : Multi D ℝ) {i : Multi D Nat} (hi : IsNode L i) :
    IsDisplacement L x i (wrapDistance L fun k => x k - nodes L (ravelF L.n i) k) := by
  rw [nodes_eq hL hi]
  intro k
  by_cases hw : L.wrap k
  · rw [if_pos hw]
    unfold wrapDistance
    simp only [if_pos hw]
    rw [period_eq hL hw]
    have hP : 0 < L.hi k - L.lo k := by linarith [(hL k).1]
    set P := L.hi k - L.lo k
    set d := x k - position L i k
    have h1 : 0 ≤ pmod d P := by
      unfold pmod
      have := Int.floor_le (d / P)
      have h := mul_le_mul_of_nonneg_left this hP.le
      rw [mul_div_cancel₀ _ hP.ne'] at h
      linarith
    have h2 : pmod d P < P := by
      unfold pmod
      have := Int.lt_floor_add_one (d / P)
      have h := mul_lt_mul_of_pos_left this hP
      rw [mul_div_cancel₀ _ hP.ne'] at h
      linarith
    by_cases h3 : P / 2.0 < pmod d P
    · rw [if_pos h3]
      have h3' : P / 2 < pmod d P := by norm_num at h3 ⊢; exact h3
      have h4 : ⌊pmod d P / -P⌋ = -1 := by
        apply floor_neg_one
        · rw [div_neg, neg_le_neg_iff, div_le_one hP]; exact h2.le
        · rw [div_neg, neg_lt_zero]; exact div_pos (by linarith) hP
      have h5 : pmod (pmod d P) (-P) = pmod d P - P := by
        conv_lhs => unfold pmod
        rw [show (d - P * (⌊d / P⌋ : ℝ)) = pmod d P from rfl, h4]; push_cast; ring
      rw [h5]
      refine ⟨⟨⌊d / P⌋ + 1, ?_⟩, ?_⟩
      · unfold pmod; push_cast; ring
      · rw [abs_of_nonpos (by linarith)]; linarith
    · rw [if_neg h3]
      have h3' : pmod d P ≤ P / 2 := by norm_num at h3 ⊢; exact h3
      refine ⟨⟨⌊d / P⌋, ?_⟩, ?_⟩
      · unfold pmod; ring
      · rw [abs_of_nonneg h1]; linarith
  · rw [if_neg hw]
    unfold wrapDistance
    rw [if_neg hw]

/-- Displacements are unique up to sign. -/
theorem displacement_abs (hL : Proper L) {x : Multi D ℝ} {i : Multi D Nat} {δ ε : Multi D ℝ}
    (h1 : IsDisplacement L x i δ) (h2 : IsDisplacement L x i ε) (k : Fin D) : |δ k| = |ε k| := by
  have a := h1 k; have b := h2 k
  by_cases hw : L.wrap k
  · rw [if_pos hw] at a b
    obtain ⟨⟨m, hm⟩, ha⟩ := a
    obtain ⟨⟨l, hl⟩, hb⟩ := b
    have hP : 0 < L.hi k - L.lo k := by linarith [(hL k).1]
    set P := L.hi k - L.lo k
    have hd : δ k - ε k = ((l - m : ℤ) : ℝ) * P := by rw [hm, hl]; push_cast; ring
    have ha' := abs_le.1 (show |δ k| ≤ P / 2 by linarith)
    have hb' := abs_le.1 (show |ε k| ≤ P / 2 by linarith)
    have hlo : -1 ≤ l - m := by
      by_contra hc
      have : ((l - m : ℤ) : ℝ) ≤ -2 := by exact_mod_cast (by omega : l - m ≤ -2)
      nlinarith
    have hhi : l - m ≤ 1 := by
      by_contra hc
      have : (2 : ℝ) ≤ ((l - m : ℤ) : ℝ) := by exact_mod_cast (by omega : 2 ≤ l - m)
      nlinarith
    have : l - m = -1 ∨ l - m = 0 ∨ l - m = 1 := by omega
    rcases this with h | h | h <;> rw [h] at hd <;> push_cast at hd
    · have e1 : δ k = -(P / 2) := by linarith
      have e2 : ε k = P / 2 := by linarith
      rw [e1, e2, abs_neg]
    · rw [show δ k = ε k by linarith]
    · have e1 : δ k = P / 2 := by linarith
      have e2 : ε k = -(P / 2) := by linarith
      rw [e1, e2, abs_neg]
  · rw [if_neg hw] at a b
    rw [a, b]

theorem clip_eq (x : ℝ) : 1.0 - clip x = max 0 (1 - x) := by
  unfold clip
  have h10 : (1.0 : ℝ) = 1 := by norm_num
  rw [h10]
  split
  · rename_i h; rw [max_eq_left (by linarith)]; ring
  · rename_i h; rw [max_eq_right (by linarith)]

theorem basisValue_abs {b : Basis} {span δ ε : Multi D ℝ} (h : ∀ k, |δ k| = |ε k|) :
    basisValue b span δ = basisValue b span ε := by
  have h2 : ∀ k, (δ k / span k) ^ 2 = (ε k / span k) ^ 2 := by
    intro k; rw [div_pow, div_pow, ← sq_abs (δ k), h k, sq_abs]
  cases b <;> simp only [basisValue, h2, h]

theorem evaluate_eq {b : Basis} {span δ : Multi D ℝ} (hs : ∀ k, 0 < span k) : evaluate span δ b = basisValue b span δ := by
  cases b
  · simp only [evaluate, basisValue, clip_eq, norm]
  · simp only [evaluate, basisValue, norm]
    set r := Real.sqrt (∑ k, (δ k / span k) ^ 2)
    rw [clip_eq, show (35.0 : ℝ) = 35 by norm_num, show (18.0 : ℝ) = 18 by norm_num, show (3.0 : ℝ) = 3 by norm_num]
    by_cases h : 1 < r
    · rw [max_eq_left (by linarith)]; simp
    · have hc : clip r = r := by unfold clip; rw [if_neg]; norm_num; linarith
      rw [hc]
  · simp only [evaluate, basisValue, clip_eq]
    refine Finset.prod_congr rfl fun k _ => ?_
    rw [abs_div, abs_of_pos (hs k)]

/-- A basis function vanishes beyond its span in any dimension. -/
theorem basisValue_support {b : Basis} {span δ : Multi D ℝ} (hs : ∀ k, 0 < span k) (h : basisValue b span δ ≠ 0) (k : Fin D) :
    |δ k| < span k := by
  by_contra hc
  apply h
  have h1 : 1 ≤ |δ k| / span k := by rw [le_div_iff₀ (hs k)]; linarith
  have h2 : 1 ≤ Real.sqrt (∑ k, (δ k / span k) ^ 2) := by
    rw [show (1 : ℝ) = Real.sqrt 1 by simp]
    apply Real.sqrt_le_sqrt
    calc (1 : ℝ) ≤ (δ k / span k) ^ 2 := by
          rw [← sq_abs, abs_div, abs_of_pos (hs k)]; nlinarith
      _ ≤ _ := Finset.single_le_sum (f := fun k => (δ k / span k) ^ 2) (fun _ _ => sq_nonneg _) (Finset.mem_univ k)
  cases b
  · simp only [basisValue]; exact max_eq_left (by linarith)
  · simp only [basisValue]; rw [max_eq_left (by linarith)]; ring
  · simp only [basisValue]
    exact Finset.prod_eq_zero (Finset.mem_univ k) (max_eq_left (by linarith))

theorem nearest_bound (hL : Proper L) (x : Multi D ℝ) (k : Fin D) :
    |(x k - L.lo k) / step L k - nearest L x k| ≤ 1 / 2 := by
  have hs := step_pos hL k
  unfold nearest
  rw [spacing_eq]
  have e : (x k - (L.lo k - 0.5 * step L k)) / step L k = (x k - L.lo k) / step L k + 1 / 2 := by
    field_simp; ring
  rw [e]
  set y := (x k - L.lo k) / step L k
  have h1 := Int.floor_le (y + 1 / 2)
  have h2 := Int.lt_floor_add_one (y + 1 / 2)
  rw [abs_le]; constructor <;> linarith

theorem inBounds_iff (hL : Proper L) (k : Fin D) (i : ℤ) : inBounds L k i ↔ 0 ≤ i ∧ i < L.n k := by
  obtain ⟨_, h2⟩ := hL k
  have h2' : (2 : ℝ) ≤ L.n k := by exact_mod_cast h2
  unfold inBounds
  have h10 : (1.0 : ℝ) = 1 := by norm_num
  rw [h10]
  have h3 : (0 : ℝ) < (L.n k : ℝ) - 1 := by linarith
  constructor
  · rintro ⟨h, _, h4⟩
    rw [div_le_one h3] at h4
    refine ⟨h, ?_⟩
    have : (i : ℝ) < (L.n k : ℝ) := by linarith
    exact_mod_cast this
  · rintro ⟨h, h4⟩
    refine ⟨h, h3.ne', ?_⟩
    rw [div_le_one h3]
    have : (i : ℝ) + 1 ≤ L.n k := by exact_mod_cast h4
    linarith

/-- **C47.**  Every node whose basis function does not vanish at the location is returned by the search: for every lattice
with at least two nodes in each dimension, periodic or not, for every location (inside the lattice or not), every span
and every kind of basis function. -/
theorem c47_nearby (hL : Proper L) {b : Basis} {span : Multi D ℝ} (hs : ∀ k, 0 < span k) (x : Multi D ℝ) {i : Multi D Nat}
    (hi : IsNode L i) {δ : Multi D ℝ} (hδ : IsDisplacement L x i δ) (h : basisValue b span δ ≠ 0) :
    ravelF L.n i ∈ nearby L span x := by
  have hsup := basisValue_support hs h
  have key : ∀ k, ∃ j : ℤ, wrapIndex L k j = i k ∧ |x k - (L.lo k + j * step L k)| < span k := by
    intro k
    have hd := hδ k
    by_cases hw : L.wrap k
    · rw [if_pos hw] at hd
      obtain ⟨⟨m, hm⟩, _⟩ := hd
      refine ⟨i k + m * L.n k, ?_, ?_⟩
      · unfold wrapIndex
        rw [if_pos hw, Int.add_mul_emod_self_right]
        exact Int.emod_eq_of_lt (by omega) (by exact_mod_cast hi k)
      · have := hsup k
        rw [hm, ← period_eq hL hw, spacing_eq] at this
        unfold position at this
        convert this using 2
        push_cast; ring
    · rw [if_neg hw] at hd
      refine ⟨i k, ?_, ?_⟩
      · unfold wrapIndex; rw [if_neg hw]
      · have := hsup k
        rw [hd] at this
        unfold position at this
        exact_mod_cast this
  choose j hj1 hj2 using key
  refine ⟨fun k => j k - nearest L x k, fun k => ?_, fun k => ?_, ?_⟩
  · have hsp := step_pos hL k
    have h1 := nearest_bound hL x k
    have h2 := hj2 k
    have h3 : |(x k - L.lo k) / step L k - j k| < span k / step L k := by
      have e : x k - (L.lo k + j k * step L k) = ((x k - L.lo k) / step L k - j k) * step L k := by
        field_simp; ring
      rw [e, abs_mul, abs_of_pos hsp] at h2
      rw [lt_div_iff₀ hsp]; exact h2
    set y := (x k - L.lo k) / step L k
    have h4 : |((j k - nearest L x k : ℤ) : ℝ)| < span k / step L k + 0.5 := by
      push_cast
      rw [abs_lt] at h3 ⊢; rw [abs_le] at h1
      norm_num
      constructor <;> linarith
    have h5 : |j k - nearest L x k| ≤ searchRange L span k := by
      unfold searchRange
      rw [Int.le_floor, spacing_eq]
      push_cast
      push_cast at h4
      exact h4.le
    rw [abs_le] at h5
    exact ⟨h5.1, by linarith [h5.2]⟩
  · rw [show nearest L x k + (j k - nearest L x k) = j k by ring, hj1, inBounds_iff hL]
    exact ⟨by omega, by exact_mod_cast hi k⟩
  · congr 1
    funext k
    rw [show nearest L x k + (j k - nearest L x k) = j k by ring, hj1]
    rfl

/-- Every index returned by the search is a node. -/
theorem c47_valid (hL : Proper L) {span : Multi D ℝ} (x : Multi D ℝ) {c : Nat} (h : c ∈ nearby L span x) : c < L.size := by
  obtain ⟨shift, -, h2, rfl⟩ := h
  apply ravelF_lt
  intro k
  have := (inBounds_iff hL k _).1 (h2 k)
  omega

/-- **C47, design matrix.**  The entry for a location and a node is the value of the basis function of the node at the
location, in the order of `nodes`; entries which are not stored are those where the value is zero. -/
theorem c47_design (hL : Proper L) (b : Basis) {span : Multi D ℝ} (hs : ∀ k, 0 < span k) (x : Multi D ℝ) {i : Multi D Nat}
    (hi : IsNode L i) {δ : Multi D ℝ} (hδ : IsDisplacement L x i δ) :
    buildARow L b span x (ravelF L.n i) = basisValue b span δ := by
  have e : evaluate span (wrapDistance L fun k => x k - nodes L (ravelF L.n i) k) b = basisValue b span δ := by
    rw [evaluate_eq hs]
    exact basisValue_abs (displacement_abs hL (wrapDistance_displacement hL x hi) hδ)
  unfold buildARow
  split
  · exact e
  · rename_i hn
    by_contra hc
    exact hn (c47_nearby hL hs x hi hδ (fun h0 => hc h0.symm))

/-- Displacements exist. -/
theorem displacement_exists (hL : Proper L) (x : Multi D ℝ) {i : Multi D Nat} (hi : IsNode L i) :
    ∃ δ, IsDisplacement L x i δ := ⟨_, wrapDistance_displacement hL x hi⟩

/-- **C47 fails for a dimension with a single node.**  The search returns nothing, although the basis function has the
value one at the location of its node. -/
theorem c47_single_node_violated (L : Lattice 1) (hn : L.n 0 = 1) (span x : Multi 1 ℝ) :
    nearby L span x = ∅ ∧ ∀ b, basisValue b span 0 = 1 := by
  constructor
  · ext c
    simp only [Set.mem_empty_iff_false, iff_false]
    rintro ⟨_, -, h, -⟩
    have := (h 0).2.1
    rw [hn] at this
    norm_num at this
  · intro b
    cases b <;> simp [basisValue]

/-! ### C48 -/

theorem hat_zero {y : ℝ} {j : Nat} (h : (1 : ℝ) ≤ |y - j|) : max 0 (1 - |y - j|) = 0 := max_eq_left (by linarith)

/-- Between two neighbouring nodes only their hat functions do not vanish. -/
theorem hat_at {n j : Nat} (hj : j + 1 < n) {y : ℝ} (hlo : (j : ℝ) ≤ y) (hhi : y ≤ j + 1) (f : Nat → ℝ) :
    ∑ i : Fin n, max 0 (1 - |y - (i.val : ℝ)|) * f i.val = (1 - (y - j)) * f j + (y - j) * f (j + 1) := by
  have hne : (⟨j, by omega⟩ : Fin n) ≠ ⟨j + 1, hj⟩ := by simp [Fin.ext_iff]
  rw [← Finset.sum_subset (Finset.subset_univ {(⟨j, by omega⟩ : Fin n), ⟨j + 1, hj⟩})]
  · rw [Finset.sum_pair hne]
    simp only
    have e1 : |y - (j : ℝ)| = y - j := abs_of_nonneg (by linarith)
    have e2 : |y - ((j + 1 : Nat) : ℝ)| = 1 - (y - j) := by push_cast; rw [abs_of_nonpos (by linarith)]; ring
    rw [e1, e2, max_eq_right (by linarith), max_eq_right (by linarith)]
    ring
  · intro i _ hi
    simp only [Finset.mem_insert, Finset.mem_singleton, Fin.ext_iff, not_or] at hi
    rw [hat_zero, zero_mul]
    rcases lt_or_gt_of_ne hi.1 with h | h
    · have : (i.val : ℝ) + 1 ≤ j := by exact_mod_cast h
      rw [le_abs]; left; linarith
    · have : ((j : ℝ) + 2) ≤ i.val := by exact_mod_cast (by have := hi.2; omega : j + 2 ≤ i.val)
      rw [le_abs]; right; linarith

/-- Every position between the first and the last node is between two neighbouring nodes. -/
theorem cell_exists {n : Nat} (hn : 2 ≤ n) {y : ℝ} (h0 : 0 ≤ y) (h1 : y ≤ (n : ℝ) - 1) :
    ∃ j : Nat, j + 1 < n ∧ (j : ℝ) ≤ y ∧ y ≤ j + 1 := by
  by_cases hlast : y < (n : ℝ) - 1
  · refine ⟨⌊y⌋₊, ?_, Nat.floor_le h0, (Nat.lt_floor_add_one y).le⟩
    have : (⌊y⌋₊ : ℝ) < (n : ℝ) - 1 := lt_of_le_of_lt (Nat.floor_le h0) hlast
    have : ((⌊y⌋₊ + 1 : Nat) : ℝ) < n := by push_cast; linarith
    exact_mod_cast this
  · have hc : ((n - 2 : Nat) : ℝ) = n - 2 := by push_cast [hn]; ring
    exact ⟨n - 2, by omega, by rw [hc]; linarith, by rw [hc]; linarith⟩

/-- Between the first and the last node the hat functions add up to one and reproduce the coordinate. -/
theorem hat_sum {n : Nat} (hn : 2 ≤ n) {y : ℝ} (h0 : 0 ≤ y) (h1 : y ≤ (n : ℝ) - 1) (f : Nat → ℝ) :
    ∃ j : Nat, j + 1 < n ∧ (j : ℝ) ≤ y ∧ y ≤ j + 1 ∧
      ∑ i : Fin n, max 0 (1 - |y - (i.val : ℝ)|) * f i.val = (1 - (y - j)) * f j + (y - j) * f (j + 1) := by
  obtain ⟨j, hj, hlo, hhi⟩ := cell_exists hn h0 h1
  exact ⟨j, hj, hlo, hhi, hat_at hj hlo hhi f⟩

/-- The distance from node `j` of dimension `k`, wrapped in periodic dimensions. -/
def along (L : Lattice D) (x : Multi D ℝ) (k : Fin D) (j : Nat) : ℝ :=
  wrapDistance L (fun k => x k - (L.lo k + j * step L k)) k

theorem along_eq (L : Lattice D) (x : Multi D ℝ) (i : Multi D Nat) (k : Fin D) :
    along L x k (i k) = wrapDistance L (fun k => x k - position L i k) k := by
  unfold along wrapDistance position; rfl

/-- The factor of dimension `k` in the weight of node `j`. -/
def spanWeight (L : Lattice D) (span x : Multi D ℝ) (k : Fin D) (j : Nat) : ℝ := max 0 (1 - |along L x k j| / span k)

/-- The same when the span is the node distance. -/
def lineWeight (L : Lattice D) (x : Multi D ℝ) (k : Fin D) (j : Nat) : ℝ := max 0 (1 - |along L x k j| / step L k)

theorem span_line (L : Lattice D) (x : Multi D ℝ) : spanWeight L (step L) x = lineWeight L x := rfl

theorem row_span (hL : Proper L) {span : Multi D ℝ} (hs : ∀ k, 0 < span k) (x : Multi D ℝ) {i : Multi D Nat}
    (hi : IsNode L i) :
    buildARow L .piecewiseLinear span x (ravelF L.n i) = ∏ k, spanWeight L span x k (i k) := by
  rw [c47_design hL _ hs x hi (wrapDistance_displacement hL x hi), nodes_eq hL hi]
  simp only [basisValue, spanWeight, along_eq]

theorem row_prod (hL : Proper L) (x : Multi D ℝ) {i : Multi D Nat} (hi : IsNode L i) :
    buildARow L .piecewiseLinear (step L) x (ravelF L.n i) = ∏ k, lineWeight L x k (i k) := by
  rw [row_span hL (step_pos hL) x hi, span_line]

/-- In a periodic dimension: distances are at least one step from all nodes but the two next to the location. -/
theorem periodic_weight (hL : Proper L) (x : Multi D ℝ) {k : Fin D} (hw : L.wrap k = true) {j : Nat} (hj : j < L.n k) {m : ℤ}
    (hm : |(x k - L.lo k) / step L k - ((j : ℤ) + m * (L.n k : ℤ) : ℤ)| ≤ 1) :
    lineWeight L x k j = 1 - |(x k - L.lo k) / step L k - ((j : ℤ) + m * (L.n k : ℤ) : ℤ)| := by
  have hs := step_pos hL k
  have hn : (2 : ℝ) ≤ L.n k := by exact_mod_cast (hL k).2
  have hP : L.hi k - L.lo k = L.n k * step L k := by rw [← period_eq hL hw, spacing_eq]
  set i : Multi D Nat := Function.update (fun _ => 0) k j with hidef
  have hik : i k = j := by rw [hidef]; simp
  have hi : IsNode L i := by
    intro l
    by_cases h : l = k
    · subst h; rw [hik]; exact hj
    · rw [hidef, Function.update_of_ne h]; have := (hL l).2; omega
  have h1 := wrapDistance_displacement hL x hi
  rw [nodes_eq hL hi] at h1
  set e := (x k - L.lo k) / step L k - ((j : ℤ) + m * (L.n k : ℤ) : ℤ) with he
  have h2 : IsDisplacement L x i
      (Function.update (wrapDistance L fun k => x k - position L i k) k (e * step L k)) := by
    intro l
    by_cases h : l = k
    · subst h
      rw [if_pos hw, Function.update_self]
      refine ⟨⟨m, ?_⟩, ?_⟩
      · rw [hP, he]; unfold position; rw [hik]; push_cast; field_simp; ring
      · rw [hP, abs_mul, abs_of_pos hs]; nlinarith
    · rw [Function.update_of_ne h]; exact h1 l
  have h3 := displacement_abs hL h1 h2 k
  rw [Function.update_self] at h3
  unfold lineWeight
  rw [← hik, along_eq, h3, abs_mul, abs_of_pos hs, mul_div_assoc, div_self hs.ne', mul_one]
  exact max_eq_right (by linarith)

theorem periodic_zero (hL : Proper L) (x : Multi D ℝ) {k : Fin D} (hw : L.wrap k = true) {j : Nat} (hj : j < L.n k)
    (hfar : ∀ m : ℤ, 1 ≤ |(x k - L.lo k) / step L k - ((j : ℤ) + m * (L.n k : ℤ) : ℤ)|) :
    lineWeight L x k j = 0 := by
  have hs := step_pos hL k
  have hP : L.hi k - L.lo k = L.n k * step L k := by rw [← period_eq hL hw, spacing_eq]
  set i : Multi D Nat := Function.update (fun _ => 0) k j with hidef
  have hik : i k = j := by rw [hidef]; simp
  have hi : IsNode L i := by
    intro l
    by_cases h : l = k
    · subst h; rw [hik]; exact hj
    · rw [hidef, Function.update_of_ne h]; have := (hL l).2; omega
  have h1 := wrapDistance_displacement hL x hi
  rw [nodes_eq hL hi] at h1
  have h2 := h1 k
  rw [if_pos hw] at h2
  obtain ⟨⟨m, hm⟩, -⟩ := h2
  have h3 := hfar m
  unfold lineWeight
  rw [← hik, along_eq, hm]
  apply max_eq_left
  have e : x k - position L i k - m * (L.hi k - L.lo k) =
      ((x k - L.lo k) / step L k - ((j : ℤ) + m * (L.n k : ℤ) : ℤ)) * step L k := by
    rw [hP]; unfold position; rw [hik]; push_cast; field_simp; ring
  rw [e, abs_mul, abs_of_pos hs, mul_div_assoc, div_self hs.ne', mul_one]
  linarith

/-- The weights along one dimension belong to two neighbouring nodes, in proportion to the distances. -/
theorem line_sum (hL : Proper L) (x : Multi D ℝ) (k : Fin D) (hin : L.wrap k = false → L.lo k ≤ x k ∧ x k ≤ L.hi k)
    (f : Nat → ℝ) :
    ∃ (a b : Nat) (t : ℝ), a < L.n k ∧ b < L.n k ∧ 0 ≤ t ∧ t ≤ 1 ∧
      ∑ j : Fin (L.n k), lineWeight L x k j.val * f j.val = (1 - t) * f a + t * f b ∧
      (L.wrap k = false → b = a + 1 ∧ x k = L.lo k + (a + t) * step L k) := by
  have hs := step_pos hL k
  have hn2 := (hL k).2
  have hn : (2 : ℝ) ≤ L.n k := by exact_mod_cast hn2
  by_cases hw : L.wrap k = true
  · set y := (x k - L.lo k) / step L k with hy
    have hnz : (0 : ℤ) < L.n k := by omega
    set q := ⌊y⌋
    have hq1 := Int.floor_le y
    have hq2 := Int.lt_floor_add_one y
    have ha0 := Int.emod_nonneg q hnz.ne'
    have ha1 := Int.emod_lt_of_pos q hnz
    have hb0 := Int.emod_nonneg (q + 1) hnz.ne'
    have hb1 := Int.emod_lt_of_pos (q + 1) hnz
    obtain ⟨a, ha⟩ := Int.eq_ofNat_of_zero_le ha0
    obtain ⟨b, hb⟩ := Int.eq_ofNat_of_zero_le hb0
    have haL : a < L.n k := by omega
    have hbL : b < L.n k := by omega
    have hqa : q = (a : ℤ) + (q / L.n k) * (L.n k : ℤ) := by
      have := Int.emod_add_mul_ediv q (L.n k); rw [ha] at this; linarith [mul_comm (q / (L.n k : ℤ)) (L.n k : ℤ)]
    have hqb : q + 1 = (b : ℤ) + ((q + 1) / L.n k) * (L.n k : ℤ) := by
      have := Int.emod_add_mul_ediv (q + 1) (L.n k); rw [hb] at this
      linarith [mul_comm ((q + 1) / (L.n k : ℤ)) (L.n k : ℤ)]
    have hab : a ≠ b := by
      intro h
      have h1 : (L.n k : ℤ) ∣ (q + 1) - q := by
        refine ⟨(q + 1) / L.n k - q / L.n k, ?_⟩
        rw [h] at hqa
        linear_combination hqb - hqa
      have h2 : (L.n k : ℤ) ∣ 1 := by convert h1 using 1; ring
      have := Int.le_of_dvd one_pos h2
      omega
    have wa : lineWeight L x k a = 1 - (y - q) := by
      have e : |(x k - L.lo k) / step L k - ((a : ℤ) + (q / L.n k) * (L.n k : ℤ) : ℤ)| = y - q := by
        rw [← hqa, ← hy]; exact abs_of_nonneg (by linarith)
      rw [periodic_weight hL x hw haL (m := q / L.n k) (by rw [e]; linarith), e]
    have wb : lineWeight L x k b = y - q := by
      have e : |(x k - L.lo k) / step L k - ((b : ℤ) + ((q + 1) / L.n k) * (L.n k : ℤ) : ℤ)| = 1 - (y - q) := by
        rw [← hqb, ← hy]; push_cast; rw [abs_of_nonpos (by linarith)]; ring
      rw [periodic_weight hL x hw hbL (m := (q + 1) / L.n k) (by rw [e]; linarith), e]; ring
    refine ⟨a, b, y - q, haL, hbL, by linarith, by linarith, ?_, fun h => by rw [hw] at h; exact absurd h (by simp)⟩
    have hne : (⟨a, haL⟩ : Fin (L.n k)) ≠ ⟨b, hbL⟩ := by simpa [Fin.ext_iff] using hab
    rw [← Finset.sum_subset (Finset.subset_univ {(⟨a, haL⟩ : Fin (L.n k)), ⟨b, hbL⟩})]
    · rw [Finset.sum_pair hne, wa, wb]
    · intro i _ hi
      simp only [Finset.mem_insert, Finset.mem_singleton, Fin.ext_iff, not_or] at hi
      rw [periodic_zero hL x hw i.is_lt, zero_mul]
      intro m
      rw [← hy]
      by_contra hc
      rw [not_le, abs_lt] at hc
      set z : ℤ := (i.val : ℤ) + m * (L.n k : ℤ) with hz
      have hz1 : (q : ℝ) - 1 < z := by linarith
      have hz2 : (z : ℝ) < q + 2 := by linarith
      have hz1' : q - 1 < z := by exact_mod_cast hz1
      have hz2' : z < q + 2 := by exact_mod_cast hz2
      have hmod : z % (L.n k : ℤ) = i.val := by
        rw [hz, Int.add_mul_emod_self_right]
        exact Int.emod_eq_of_lt (by omega) (by exact_mod_cast i.is_lt)
      have : z = q ∨ z = q + 1 := by omega
      rcases this with h | h <;> rw [h] at hmod
      · rw [ha] at hmod; exact hi.1 (by exact_mod_cast hmod.symm)
      · rw [hb] at hmod; exact hi.2 (by exact_mod_cast hmod.symm)
  · have hw' : L.wrap k = false := by simpa using hw
    obtain ⟨h0, h1⟩ := hin hw'
    have hspan : L.hi k - L.lo k = ((L.n k : ℝ) - 1) * step L k := by
      unfold step; rw [hw', if_neg (by simp)]
      rw [mul_div_cancel₀]; linarith
    obtain ⟨j, hj, hlo, hhi, hsum⟩ := hat_sum hn2 (y := (x k - L.lo k) / step L k) (div_nonneg (by linarith) hs.le)
      (by rw [div_le_iff₀ hs, ← hspan]; linarith) f
    refine ⟨j, j + 1, (x k - L.lo k) / step L k - j, by omega, hj, by linarith, by linarith, ?_, fun _ => ⟨rfl, ?_⟩⟩
    · rw [← hsum]
      refine Finset.sum_congr rfl fun i _ => ?_
      congr 1
      unfold lineWeight along wrapDistance
      rw [if_neg hw]
      have e : x k - (L.lo k + (i.val : ℝ) * step L k) = ((x k - L.lo k) / step L k - i.val) * step L k := by
        field_simp; ring
      beta_reduce
      rw [e, abs_mul, abs_of_pos hs, mul_div_assoc, div_self hs.ne', mul_one]
    · field_simp; ring

/-- In a dimension which is not periodic the weights are hat functions. -/
theorem lineWeight_hat (hL : Proper L) (x : Multi D ℝ) {k : Fin D} (hw : L.wrap k = false) (j : Nat) :
    lineWeight L x k j = max 0 (1 - |(x k - L.lo k) / step L k - j|) := by
  have hs := step_pos hL k
  unfold lineWeight along wrapDistance
  rw [if_neg (by rw [hw]; simp)]
  have e : x k - (L.lo k + (j : ℝ) * step L k) = ((x k - L.lo k) / step L k - j) * step L k := by
    field_simp; ring
  beta_reduce
  rw [e, abs_mul, abs_of_pos hs, mul_div_assoc, div_self hs.ne', mul_one]

/-- The weights at a given place between two nodes. -/
theorem line_at (hL : Proper L) (x : Multi D ℝ) {k : Fin D} (hw : L.wrap k = false) {a : Nat} (ha : a + 1 < L.n k) {t : ℝ}
    (h0 : 0 ≤ t) (h1 : t ≤ 1) (hx : x k = L.lo k + (a + t) * step L k) (f : Nat → ℝ) :
    ∑ j : Fin (L.n k), lineWeight L x k j.val * f j.val = (1 - t) * f a + t * f (a + 1) := by
  have hs := step_pos hL k
  have hy : (x k - L.lo k) / step L k = a + t := by rw [hx]; field_simp; ring
  simp only [lineWeight_hat hL x hw, hy]
  rw [hat_at ha (by linarith) (by linarith) f]
  ring

/-- A sum over the columns of a row is a sum over all nodes. -/
theorem sum_span (hL : Proper L) {span : Multi D ℝ} (hs : ∀ k, 0 < span k) (x : Multi D ℝ) (g : ∀ k : Fin D, Nat → ℝ) :
    ∑ c : Fin L.size, buildARow L .piecewiseLinear span x c.val * ∏ k, g k (rowIndex L.n c.val k) =
      ∏ k, ∑ j : Fin (L.n k), spanWeight L span x k j.val * g k j.val := by
  rw [Finset.prod_univ_sum, Fintype.piFinset_univ]
  refine (Fintype.sum_equiv (finPiFinEquiv (n := L.n)) _ _ fun i => ?_).symm
  have hi : IsNode L (fun k => (i k).val) := fun k => (i k).is_lt
  have e : (finPiFinEquiv i).val = ravelF L.n fun k => (i k).val := (ravelF_equiv hi).symm
  rw [e, row_span hL hs x hi, rowIndex_ravelF hi, ← Finset.prod_mul_distrib]

theorem sum_columns (hL : Proper L) (x : Multi D ℝ) (g : ∀ k : Fin D, Nat → ℝ) :
    ∑ c : Fin L.size, buildARow L .piecewiseLinear (step L) x c.val * ∏ k, g k (rowIndex L.n c.val k) =
      ∏ k, ∑ j : Fin (L.n k), lineWeight L x k j.val * g k j.val := by
  rw [sum_span hL (step_pos hL), span_line]

theorem span_one (L : Lattice D) : spanOf L 1 = step L := by
  funext k; unfold spanOf; rw [spacing_eq, mul_one]

/-- **C48.**  With piecewise linear basis functions whose span is the node distance, the weights at any location (inside
the range in dimensions which are not periodic) are not negative and add up to one. -/
theorem c48_weights (hL : Proper L) (x : Multi D ℝ)
    (hin : ∀ k, L.wrap k = false → L.lo k ≤ x k ∧ x k ≤ L.hi k) :
    (∀ c : Fin L.size, 0 ≤ buildARow L .piecewiseLinear (spanOf L 1) x c.val) ∧
    ∑ c : Fin L.size, buildARow L .piecewiseLinear (spanOf L 1) x c.val = 1 := by
  rw [span_one]
  constructor
  · intro c
    have hc := c.is_lt
    rw [← ravelF_rowIndex hc, row_prod hL x (fun k => rowIndex_lt hc k)]
    exact Finset.prod_nonneg fun k _ => le_max_left _ _
  · have h := sum_columns hL x (fun _ _ => 1)
    simp only [Finset.prod_const_one, mul_one] at h
    rw [h]
    refine Finset.prod_eq_one fun k _ => ?_
    obtain ⟨a, b, t, -, -, -, -, hsum, -⟩ := line_sum hL x k (hin k) (fun _ => 1)
    simp only [mul_one] at hsum
    rw [hsum]; ring

/-- **C48, linear functions.**  The weights reproduce every coordinate which is not periodic, and so all linear functions
of these coordinates. -/
theorem c48_linear (hL : Proper L) (x : Multi D ℝ)
    (hin : ∀ k, L.wrap k = false → L.lo k ≤ x k ∧ x k ≤ L.hi k) {l : Fin D} (hl : L.wrap l = false) :
    ∑ c : Fin L.size, buildARow L .piecewiseLinear (spanOf L 1) x c.val * nodes L c.val l = x l := by
  rw [span_one]
  have h := sum_columns hL x (fun k j => if k = l then L.lo k + j * step L k else 1)
  have e : ∀ c : Fin L.size, (∏ k, (if k = l then L.lo k + (rowIndex L.n c.val k : ℝ) * step L k else 1)) = nodes L c.val l := by
    intro c
    rw [Finset.prod_ite_eq' Finset.univ l (fun k => L.lo k + (rowIndex L.n c.val k : ℝ) * step L k)]
    rw [if_pos (Finset.mem_univ _)]
    have hc := c.is_lt
    conv_rhs => rw [← ravelF_rowIndex hc, nodes_eq hL (fun k => rowIndex_lt hc k)]
    rfl
  simp only [e] at h
  rw [h]
  rw [Finset.prod_eq_single l]
  · obtain ⟨a, b, t, -, -, -, -, hsum, hx⟩ := line_sum hL x l (hin l) (fun j => L.lo l + j * step L l)
    obtain ⟨hb, hx⟩ := hx hl
    simp only [if_true]
    rw [hsum, hb]
    conv_rhs => rw [hx]
    push_cast; ring
  · intro k _ hk
    simp only [if_neg hk]
    obtain ⟨a, b, t, -, -, -, -, hsum, -⟩ := line_sum hL x k (hin k) (fun _ => 1)
    rw [hsum]; ring
  · intro h; exact absurd (Finset.mem_univ _) h

/-- **C48, nodes.**  At a node the weight of the node is one and all others are zero. -/
theorem c48_nodes (hL : Proper L) {i j : Multi D Nat} (hi : IsNode L i) (hj : IsNode L j) :
    buildARow L .piecewiseLinear (spanOf L 1) (position L i) (ravelF L.n j) = if i = j then 1 else 0 := by
  rw [span_one]
  split
  · rename_i h
    subst h
    have hδ : IsDisplacement L (position L i) i 0 := by
      intro k
      split
      · exact ⟨⟨0, by simp⟩, by simpa using (hL k).1.le⟩
      · simp
    rw [c47_design hL _ (step_pos hL) _ hi hδ]
    simp [basisValue]
  · rename_i h
    obtain ⟨k, hk⟩ := Function.ne_iff.1 h
    rw [row_prod hL _ hj]
    refine Finset.prod_eq_zero (Finset.mem_univ k) ?_
    have hs := step_pos hL k
    have e : (position L i k - L.lo k) / step L k = i k := by unfold position; field_simp; ring
    by_cases hw : L.wrap k = true
    · apply periodic_zero hL _ hw (hj k)
      intro m
      rw [e]
      have : (i k : ℤ) - ((j k : ℤ) + m * (L.n k : ℤ)) ≠ 0 := by
        intro h0
        have h1 : (i k : ℤ) = (j k : ℤ) + m * (L.n k : ℤ) := by omega
        have h2 := congrArg (· % (L.n k : ℤ)) h1
        simp only [Int.add_mul_emod_self_right] at h2
        rw [Int.emod_eq_of_lt (by omega) (by exact_mod_cast hi k), Int.emod_eq_of_lt (by omega) (by exact_mod_cast hj k)] at h2
        exact hk (by exact_mod_cast h2)
      have h2 := Int.one_le_abs this
      exact_mod_cast h2
    · unfold lineWeight along wrapDistance
      rw [if_neg hw]
      apply max_eq_left
      have e2 : position L i k - (L.lo k + (j k : ℝ) * step L k) = ((i k : ℝ) - j k) * step L k := by
        unfold position; ring
      beta_reduce
      rw [e2, abs_mul, abs_of_pos hs, mul_div_assoc, div_self hs.ne', mul_one]
      have : (i k : ℤ) - (j k : ℤ) ≠ 0 := by omega
      have h2 := Int.one_le_abs this
      have h3 : (1 : ℝ) ≤ |(i k : ℝ) - j k| := by exact_mod_cast h2
      linarith

/-- A lattice with a periodic and a plain dimension meets the hypotheses. -/
example : Proper (⟨![0, 20], ![10, 30], ![5, 11], ![true, false]⟩ : Lattice 2) := by
  intro k; fin_cases k <;> norm_num

end

end Verif.Eustace.Lattice
