import Verif.Eustace.Locator.Model
import Verif.Eustace.Mesh.Topology
import Mathlib.Tactic.Positivity
import Mathlib.Tactic.FieldSimp
import Mathlib.Tactic.LinearCombination

/-! Vector algebra for the locator. -/

namespace Verif.Eustace.Locator

open Verif.Eustace.Mesh V3

noncomputable section

/-- Triple product. -/
def det (p0 p1 p2 : V3) : ℝ := dot p0 (cross p1 p2)

/-- `v` is a combination of the three vectors with non-negative coefficients. -/
def InCone (v p0 p1 p2 : V3) : Prop :=
  ∃ c0 c1 c2 : ℝ, 0 ≤ c0 ∧ 0 ≤ c1 ∧ 0 ≤ c2 ∧
    v = add (add (scale c0 p0) (scale c1 p1)) (scale c2 p2)

theorem len_nonneg (v : V3) : 0 ≤ len v := Real.sqrt_nonneg _

theorem dot_self_nonneg (v : V3) : 0 ≤ dot v v := by
  unfold dot; nlinarith [sq_nonneg v.x, sq_nonneg v.y, sq_nonneg v.z]

theorem len_scale (s : ℝ) (v : V3) : len (scale s v) = |s| * len v := by
  unfold len
  have : dot (scale s v) (scale s v) = s ^ 2 * dot v v := by
    simp only [dot, scale]; ring
  rw [this, Real.sqrt_mul (sq_nonneg s), Real.sqrt_sq_eq_abs]

theorem eq_zero_of_len {v : V3} (h : len v = 0) : v = ⟨0, 0, 0⟩ := by
  unfold len at h
  rw [Real.sqrt_eq_zero (dot_self_nonneg v)] at h
  unfold dot at h
  have hx : v.x = 0 := by nlinarith [sq_nonneg v.x, sq_nonneg v.y, sq_nonneg v.z]
  have hy : v.y = 0 := by nlinarith [sq_nonneg v.x, sq_nonneg v.y, sq_nonneg v.z]
  have hz : v.z = 0 := by nlinarith [sq_nonneg v.x, sq_nonneg v.y, sq_nonneg v.z]
  exact V3.ext hx hy hz

theorem len_pos_of_ne {v : V3} (h : v ≠ ⟨0, 0, 0⟩) : 0 < len v :=
  lt_of_le_of_ne (len_nonneg v) (fun h0 => h (eq_zero_of_len h0.symm))

theorem len_divide_self {v : V3} (h : len v ≠ 0) : len (divide v (len v)) = 1 := by
  have : divide v (len v) = scale (1 / len v) v := by
    simp only [divide, scale]; ext <;> simp <;> ring
  rw [this, len_scale, abs_of_nonneg (by have := len_nonneg v; positivity)]
  field_simp

theorem divide_one {v : V3} (h : len v = 1) : divide v (len v) = v := by
  rw [h]; simp [divide]

/-- A vector divided by its length is a positive multiple of it. -/
theorem divide_eq_scale (v : V3) : divide v (len v) = scale (1 / len v) v := by
  simp only [divide, scale]; ext <;> simp <;> ring

theorem det_scale (a b c : ℝ) (p0 p1 p2 : V3) :
    det (scale a p0) (scale b p1) (scale c p2) = a * b * c * det p0 p1 p2 := by
  simp only [det, dot, cross, scale]; ring

/-- Cramer's rule. -/
theorem cramer (v p0 p1 p2 : V3) :
    scale (det p0 p1 p2) v = add (add (scale (dot v (cross p1 p2)) p0)
      (scale (dot v (cross p2 p0)) p1)) (scale (dot v (cross p0 p1)) p2) := by
  simp only [det, dot, cross, scale, add]
  ext <;> simp only <;> ring

theorem inCone_of_tests {v p0 p1 p2 : V3} (hd : det p0 p1 p2 < 0)
    (h0 : dot v (cross p0 p1) ≤ 0) (h1 : dot v (cross p1 p2) ≤ 0) (h2 : dot v (cross p2 p0) ≤ 0) :
    InCone v p0 p1 p2 := by
  refine ⟨dot v (cross p1 p2) / det p0 p1 p2, dot v (cross p2 p0) / det p0 p1 p2,
    dot v (cross p0 p1) / det p0 p1 p2, div_nonneg_of_nonpos h1 hd.le,
    div_nonneg_of_nonpos h2 hd.le, div_nonneg_of_nonpos h0 hd.le, ?_⟩
  have hc := cramer v p0 p1 p2
  have hne : det p0 p1 p2 ≠ 0 := hd.ne
  have hx := congrArg V3.x hc
  have hy := congrArg V3.y hc
  have hz := congrArg V3.z hc
  simp only [scale, add] at hx hy hz
  simp only [scale, add]
  ext <;> simp only <;> field_simp <;> linarith

/-- Barycentric coordinates of a vector in the cone of a triangle. -/
theorem bary_eq {p0 p1 p2 : V3} {c0 c1 c2 : ℝ} (hd : det p0 p1 p2 ≠ 0) (h0 : 0 ≤ c0) (h1 : 0 ≤ c1)
    (h2 : 0 ≤ c2) (hs : 0 < c0 + c1 + c2) :
    barycentricPlanar p0 p1 p2 (add (add (scale c0 p0) (scale c1 p1)) (scale c2 p2)) =
      ⟨c0 / (c0 + c1 + c2), c1 / (c0 + c1 + c2), c2 / (c0 + c1 + c2)⟩ := by
  set S := c0 + c1 + c2 with hS
  set n := cross (sub p1 p0) (sub p2 p0) with hn
  set v := add (add (scale c0 p0) (scale c1 p1)) (scale c2 p2) with hv
  have hn0 : dot p0 n = det p0 p1 p2 := by
    simp only [hn, det, dot, cross, sub]; ring
  have hvn : dot v n = S * det p0 p1 p2 := by
    simp only [hv, hn, hS, det, dot, cross, sub, add, scale]; ring
  have hk : dot p0 n / dot v n = 1 / S := by
    rw [hn0, hvn]; field_simp
  have hnn : 0 < len n := by
    apply len_pos_of_ne
    intro h
    rw [h] at hn0
    simp [dot] at hn0
    exact hd hn0.symm
  have area : ∀ (q0 q1 : V3) (x : ℝ), 0 ≤ x →
      cross (sub q1 q0) (sub (scale (1 / S) v) q0) = scale x n →
      areaEuclidean q0 q1 (scale (1 / S) v) = 0.5 * (x * len n) := by
    intro q0 q1 x hx h
    unfold areaEuclidean
    simp only
    rw [h, len_scale, abs_of_nonneg hx]
  have hS0 : S ≠ 0 := hs.ne'
  have a0 := area p1 p2 (c0 / S) (by positivity) (by
    simp only [hv, hn, cross, sub, add, scale]
    ext <;> simp only <;> field_simp <;> rw [hS] <;> ring)
  have a1 := area p2 p0 (c1 / S) (by positivity) (by
    simp only [hv, hn, cross, sub, add, scale]
    ext <;> simp only <;> field_simp <;> rw [hS] <;> ring)
  have a2 := area p0 p1 (c2 / S) (by positivity) (by
    simp only [hv, hn, cross, sub, add, scale]
    ext <;> simp only <;> field_simp <;> rw [hS] <;> ring)
  unfold barycentricPlanar
  simp only [← hn]
  rw [hk, a0, a1, a2]
  have hsum : 0.5 * (c0 / S * len n) + 0.5 * (c1 / S * len n) + 0.5 * (c2 / S * len n) =
      0.5 * len n := by
    have : c0 / S + c1 / S + c2 / S = 1 := by
      rw [← add_div, ← add_div, ← hS]; exact div_self hS0
    linear_combination (0.5 * len n) * this
  rw [hsum]
  have hne := hnn.ne'
  congr 1 <;> field_simp

/-! ### Subdivision numbers -/

open Classical in
theorem inclusionRow_cases (b : Bary) :
    (b.b0 - b.b1 - b.b2 ≥ 0 ∧ inclusionRow b = [true, false, false, false]) ∨
    (¬ b.b0 - b.b1 - b.b2 ≥ 0 ∧ b.b1 - b.b2 - b.b0 ≥ 0 ∧
      inclusionRow b = [false, true, false, false]) ∨
    (¬ b.b0 - b.b1 - b.b2 ≥ 0 ∧ ¬ b.b1 - b.b2 - b.b0 ≥ 0 ∧ b.b2 - b.b0 - b.b1 ≥ 0 ∧
      inclusionRow b = [false, false, true, false]) ∨
    (¬ b.b0 - b.b1 - b.b2 ≥ 0 ∧ ¬ b.b1 - b.b2 - b.b0 ≥ 0 ∧ ¬ b.b2 - b.b0 - b.b1 ≥ 0 ∧
      inclusionRow b = [false, false, false, true]) := by
  unfold inclusionRow
  by_cases h0 : b.b0 - b.b1 - b.b2 ≥ 0
  · left; simp [h0]
  · by_cases h1 : b.b1 - b.b2 - b.b0 ≥ 0
    · right; left; simp [h0, h1]
    · by_cases h2 : b.b2 - b.b0 - b.b1 ≥ 0
      · right; right; left; simp [h0, h1, h2]
      · right; right; right; simp [h0, h1, h2]

theorem subdivisionNumber_cases (b : Bary) :
    (b.b0 - b.b1 - b.b2 ≥ 0 ∧ subdivisionNumber b = 0) ∨
    (¬ b.b0 - b.b1 - b.b2 ≥ 0 ∧ b.b1 - b.b2 - b.b0 ≥ 0 ∧ subdivisionNumber b = 1) ∨
    (¬ b.b0 - b.b1 - b.b2 ≥ 0 ∧ ¬ b.b1 - b.b2 - b.b0 ≥ 0 ∧ b.b2 - b.b0 - b.b1 ≥ 0 ∧
      subdivisionNumber b = 2) ∨
    (¬ b.b0 - b.b1 - b.b2 ≥ 0 ∧ ¬ b.b1 - b.b2 - b.b0 ≥ 0 ∧ ¬ b.b2 - b.b0 - b.b1 ≥ 0 ∧
      subdivisionNumber b = 3) := by
  have e : subdivisionNumber b = ((nonzero (inclusionRow b)).map (· % 4)).headD 0 := by
    unfold subdivisionNumber subdivisionNumbers
    simp
  rcases inclusionRow_cases b with ⟨h0, h⟩ | ⟨h0, h1, h⟩ | ⟨h0, h1, h2, h⟩ | ⟨h0, h1, h2, h⟩
  · left; refine ⟨h0, ?_⟩; rw [e, h]; rfl
  · right; left; refine ⟨h0, h1, ?_⟩; rw [e, h]; rfl
  · right; right; left; refine ⟨h0, h1, h2, ?_⟩; rw [e, h]; rfl
  · right; right; right; refine ⟨h0, h1, h2, ?_⟩; rw [e, h]; rfl

end

end Verif.Eustace.Locator
