import Verif.Eustace.Locator.Lemmas

/-! The twenty triangles of the icosahedron cover the sphere and are all clockwise. -/

namespace Verif.Eustace.Locator

open Verif.Eustace.Mesh V3

noncomputable section

/-- Every vector passes the tests of at least one triangle. -/
theorem cover {a b : ℝ} (ha : 0 < a) (hb : 0 < b) (v : V3) :
    ∃ t ∈ baseTriangles,
      dot v (cross ((icosahedron a b).getD t.p0 default) ((icosahedron a b).getD t.p1 default)) ≤ 0 ∧
      dot v (cross ((icosahedron a b).getD t.p1 default) ((icosahedron a b).getD t.p2 default)) ≤ 0 ∧
      dot v (cross ((icosahedron a b).getD t.p2 default) ((icosahedron a b).getD t.p0 default)) ≤ 0 := by
  rcases le_total 0 v.x with hx | hx <;> rcases le_total 0 v.y with hy | hy <;>
    rcases le_total 0 v.z with hz | hz
  · -- signs 1 1 1
    have aax : 0 ≤ a * a * (v.x) := mul_nonneg (by positivity) (by linarith)
    have aay : 0 ≤ a * a * (v.y) := mul_nonneg (by positivity) (by linarith)
    have aaz : 0 ≤ a * a * (v.z) := mul_nonneg (by positivity) (by linarith)
    have abx : 0 ≤ a * b * (v.x) := mul_nonneg (by positivity) (by linarith)
    have aby : 0 ≤ a * b * (v.y) := mul_nonneg (by positivity) (by linarith)
    have abz : 0 ≤ a * b * (v.z) := mul_nonneg (by positivity) (by linarith)
    have bbx : 0 ≤ b * b * (v.x) := mul_nonneg (by positivity) (by linarith)
    have bby : 0 ≤ b * b * (v.y) := mul_nonneg (by positivity) (by linarith)
    have bbz : 0 ≤ b * b * (v.z) := mul_nonneg (by positivity) (by linarith)
    by_cases hA : a * b * (v.y) ≤ b * b * (v.x) + a * a * (v.z)
    · by_cases hB : a * b * (v.x) ≤ a * a * (v.y) + b * b * (v.z)
      · by_cases hC : a * b * (v.z) ≤ a * a * (v.x) + b * b * (v.y)
        ·
          refine ⟨⟨BitVec.ofNat 64 12 <<< baseHashShift.toNat, 8, 0, 4⟩, by decide, ?_⟩
          simp only [icosahedron, List.getD_cons_zero, List.getD_cons_succ, dot, cross]
          refine ⟨?_, ?_, ?_⟩ <;> linarith
        ·
          refine ⟨⟨BitVec.ofNat 64 0 <<< baseHashShift.toNat, 4, 7, 8⟩, by decide, ?_⟩
          simp only [icosahedron, List.getD_cons_zero, List.getD_cons_succ, dot, cross]
          refine ⟨?_, ?_, ?_⟩ <;> linarith
      ·
        refine ⟨⟨BitVec.ofNat 64 4 <<< baseHashShift.toNat, 0, 3, 4⟩, by decide, ?_⟩
        simp only [icosahedron, List.getD_cons_zero, List.getD_cons_succ, dot, cross]
        refine ⟨?_, ?_, ?_⟩ <;> linarith
    ·
      refine ⟨⟨BitVec.ofNat 64 8 <<< baseHashShift.toNat, 8, 11, 0⟩, by decide, ?_⟩
      simp only [icosahedron, List.getD_cons_zero, List.getD_cons_succ, dot, cross]
      refine ⟨?_, ?_, ?_⟩ <;> linarith
  · -- signs 1 1 -1
    have aax : 0 ≤ a * a * (v.x) := mul_nonneg (by positivity) (by linarith)
    have aay : 0 ≤ a * a * (v.y) := mul_nonneg (by positivity) (by linarith)
    have aaz : 0 ≤ a * a * (-v.z) := mul_nonneg (by positivity) (by linarith)
    have abx : 0 ≤ a * b * (v.x) := mul_nonneg (by positivity) (by linarith)
    have aby : 0 ≤ a * b * (v.y) := mul_nonneg (by positivity) (by linarith)
    have abz : 0 ≤ a * b * (-v.z) := mul_nonneg (by positivity) (by linarith)
    have bbx : 0 ≤ b * b * (v.x) := mul_nonneg (by positivity) (by linarith)
    have bby : 0 ≤ b * b * (v.y) := mul_nonneg (by positivity) (by linarith)
    have bbz : 0 ≤ b * b * (-v.z) := mul_nonneg (by positivity) (by linarith)
    by_cases hA : a * b * (v.y) ≤ b * b * (v.x) + a * a * (-v.z)
    · by_cases hB : a * b * (v.x) ≤ a * a * (v.y) + b * b * (-v.z)
      · by_cases hC : a * b * (-v.z) ≤ a * a * (v.x) + b * b * (v.y)
        ·
          refine ⟨⟨BitVec.ofNat 64 13 <<< baseHashShift.toNat, 11, 5, 0⟩, by decide, ?_⟩
          simp only [icosahedron, List.getD_cons_zero, List.getD_cons_succ, dot, cross]
          refine ⟨?_, ?_, ?_⟩ <;> linarith
        ·
          refine ⟨⟨BitVec.ofNat 64 2 <<< baseHashShift.toNat, 5, 11, 6⟩, by decide, ?_⟩
          simp only [icosahedron, List.getD_cons_zero, List.getD_cons_succ, dot, cross]
          refine ⟨?_, ?_, ?_⟩ <;> linarith
      ·
        refine ⟨⟨BitVec.ofNat 64 5 <<< baseHashShift.toNat, 0, 5, 3⟩, by decide, ?_⟩
        simp only [icosahedron, List.getD_cons_zero, List.getD_cons_succ, dot, cross]
        refine ⟨?_, ?_, ?_⟩ <;> linarith
    ·
      refine ⟨⟨BitVec.ofNat 64 8 <<< baseHashShift.toNat, 8, 11, 0⟩, by decide, ?_⟩
      simp only [icosahedron, List.getD_cons_zero, List.getD_cons_succ, dot, cross]
      refine ⟨?_, ?_, ?_⟩ <;> linarith
  · -- signs 1 -1 1
    have aax : 0 ≤ a * a * (v.x) := mul_nonneg (by positivity) (by linarith)
    have aay : 0 ≤ a * a * (-v.y) := mul_nonneg (by positivity) (by linarith)
    have aaz : 0 ≤ a * a * (v.z) := mul_nonneg (by positivity) (by linarith)
    have abx : 0 ≤ a * b * (v.x) := mul_nonneg (by positivity) (by linarith)
    have aby : 0 ≤ a * b * (-v.y) := mul_nonneg (by positivity) (by linarith)
    have abz : 0 ≤ a * b * (v.z) := mul_nonneg (by positivity) (by linarith)
    have bbx : 0 ≤ b * b * (v.x) := mul_nonneg (by positivity) (by linarith)
    have bby : 0 ≤ b * b * (-v.y) := mul_nonneg (by positivity) (by linarith)
    have bbz : 0 ≤ b * b * (v.z) := mul_nonneg (by positivity) (by linarith)
    by_cases hA : a * b * (-v.y) ≤ b * b * (v.x) + a * a * (v.z)
    · by_cases hB : a * b * (v.x) ≤ a * a * (-v.y) + b * b * (v.z)
      · by_cases hC : a * b * (v.z) ≤ a * a * (v.x) + b * b * (-v.y)
        ·
          refine ⟨⟨BitVec.ofNat 64 14 <<< baseHashShift.toNat, 4, 3, 9⟩, by decide, ?_⟩
          simp only [icosahedron, List.getD_cons_zero, List.getD_cons_succ, dot, cross]
          refine ⟨?_, ?_, ?_⟩ <;> linarith
        ·
          refine ⟨⟨BitVec.ofNat 64 1 <<< baseHashShift.toNat, 4, 9, 7⟩, by decide, ?_⟩
          simp only [icosahedron, List.getD_cons_zero, List.getD_cons_succ, dot, cross]
          refine ⟨?_, ?_, ?_⟩ <;> linarith
      ·
        refine ⟨⟨BitVec.ofNat 64 4 <<< baseHashShift.toNat, 0, 3, 4⟩, by decide, ?_⟩
        simp only [icosahedron, List.getD_cons_zero, List.getD_cons_succ, dot, cross]
        refine ⟨?_, ?_, ?_⟩ <;> linarith
    ·
      refine ⟨⟨BitVec.ofNat 64 10 <<< baseHashShift.toNat, 9, 3, 10⟩, by decide, ?_⟩
      simp only [icosahedron, List.getD_cons_zero, List.getD_cons_succ, dot, cross]
      refine ⟨?_, ?_, ?_⟩ <;> linarith
  · -- signs 1 -1 -1
    have aax : 0 ≤ a * a * (v.x) := mul_nonneg (by positivity) (by linarith)
    have aay : 0 ≤ a * a * (-v.y) := mul_nonneg (by positivity) (by linarith)
    have aaz : 0 ≤ a * a * (-v.z) := mul_nonneg (by positivity) (by linarith)
    have abx : 0 ≤ a * b * (v.x) := mul_nonneg (by positivity) (by linarith)
    have aby : 0 ≤ a * b * (-v.y) := mul_nonneg (by positivity) (by linarith)
    have abz : 0 ≤ a * b * (-v.z) := mul_nonneg (by positivity) (by linarith)
    have bbx : 0 ≤ b * b * (v.x) := mul_nonneg (by positivity) (by linarith)
    have bby : 0 ≤ b * b * (-v.y) := mul_nonneg (by positivity) (by linarith)
    have bbz : 0 ≤ b * b * (-v.z) := mul_nonneg (by positivity) (by linarith)
    by_cases hA : a * b * (-v.y) ≤ b * b * (v.x) + a * a * (-v.z)
    · by_cases hB : a * b * (v.x) ≤ a * a * (-v.y) + b * b * (-v.z)
      · by_cases hC : a * b * (-v.z) ≤ a * a * (v.x) + b * b * (-v.y)
        ·
          refine ⟨⟨BitVec.ofNat 64 15 <<< baseHashShift.toNat, 5, 10, 3⟩, by decide, ?_⟩
          simp only [icosahedron, List.getD_cons_zero, List.getD_cons_succ, dot, cross]
          refine ⟨?_, ?_, ?_⟩ <;> linarith
        ·
          refine ⟨⟨BitVec.ofNat 64 3 <<< baseHashShift.toNat, 5, 6, 10⟩, by decide, ?_⟩
          simp only [icosahedron, List.getD_cons_zero, List.getD_cons_succ, dot, cross]
          refine ⟨?_, ?_, ?_⟩ <;> linarith
      ·
        refine ⟨⟨BitVec.ofNat 64 5 <<< baseHashShift.toNat, 0, 5, 3⟩, by decide, ?_⟩
        simp only [icosahedron, List.getD_cons_zero, List.getD_cons_succ, dot, cross]
        refine ⟨?_, ?_, ?_⟩ <;> linarith
    ·
      refine ⟨⟨BitVec.ofNat 64 10 <<< baseHashShift.toNat, 9, 3, 10⟩, by decide, ?_⟩
      simp only [icosahedron, List.getD_cons_zero, List.getD_cons_succ, dot, cross]
      refine ⟨?_, ?_, ?_⟩ <;> linarith
  · -- signs -1 1 1
    have aax : 0 ≤ a * a * (-v.x) := mul_nonneg (by positivity) (by linarith)
    have aay : 0 ≤ a * a * (v.y) := mul_nonneg (by positivity) (by linarith)
    have aaz : 0 ≤ a * a * (v.z) := mul_nonneg (by positivity) (by linarith)
    have abx : 0 ≤ a * b * (-v.x) := mul_nonneg (by positivity) (by linarith)
    have aby : 0 ≤ a * b * (v.y) := mul_nonneg (by positivity) (by linarith)
    have abz : 0 ≤ a * b * (v.z) := mul_nonneg (by positivity) (by linarith)
    have bbx : 0 ≤ b * b * (-v.x) := mul_nonneg (by positivity) (by linarith)
    have bby : 0 ≤ b * b * (v.y) := mul_nonneg (by positivity) (by linarith)
    have bbz : 0 ≤ b * b * (v.z) := mul_nonneg (by positivity) (by linarith)
    by_cases hA : a * b * (v.y) ≤ b * b * (-v.x) + a * a * (v.z)
    · by_cases hB : a * b * (-v.x) ≤ a * a * (v.y) + b * b * (v.z)
      · by_cases hC : a * b * (v.z) ≤ a * a * (-v.x) + b * b * (v.y)
        ·
          refine ⟨⟨BitVec.ofNat 64 16 <<< baseHashShift.toNat, 7, 1, 8⟩, by decide, ?_⟩
          simp only [icosahedron, List.getD_cons_zero, List.getD_cons_succ, dot, cross]
          refine ⟨?_, ?_, ?_⟩ <;> linarith
        ·
          refine ⟨⟨BitVec.ofNat 64 0 <<< baseHashShift.toNat, 4, 7, 8⟩, by decide, ?_⟩
          simp only [icosahedron, List.getD_cons_zero, List.getD_cons_succ, dot, cross]
          refine ⟨?_, ?_, ?_⟩ <;> linarith
      ·
        refine ⟨⟨BitVec.ofNat 64 6 <<< baseHashShift.toNat, 2, 1, 7⟩, by decide, ?_⟩
        simp only [icosahedron, List.getD_cons_zero, List.getD_cons_succ, dot, cross]
        refine ⟨?_, ?_, ?_⟩ <;> linarith
    ·
      refine ⟨⟨BitVec.ofNat 64 9 <<< baseHashShift.toNat, 8, 1, 11⟩, by decide, ?_⟩
      simp only [icosahedron, List.getD_cons_zero, List.getD_cons_succ, dot, cross]
      refine ⟨?_, ?_, ?_⟩ <;> linarith
  · -- signs -1 1 -1
    have aax : 0 ≤ a * a * (-v.x) := mul_nonneg (by positivity) (by linarith)
    have aay : 0 ≤ a * a * (v.y) := mul_nonneg (by positivity) (by linarith)
    have aaz : 0 ≤ a * a * (-v.z) := mul_nonneg (by positivity) (by linarith)
    have abx : 0 ≤ a * b * (-v.x) := mul_nonneg (by positivity) (by linarith)
    have aby : 0 ≤ a * b * (v.y) := mul_nonneg (by positivity) (by linarith)
    have abz : 0 ≤ a * b * (-v.z) := mul_nonneg (by positivity) (by linarith)
    have bbx : 0 ≤ b * b * (-v.x) := mul_nonneg (by positivity) (by linarith)
    have bby : 0 ≤ b * b * (v.y) := mul_nonneg (by positivity) (by linarith)
    have bbz : 0 ≤ b * b * (-v.z) := mul_nonneg (by positivity) (by linarith)
    by_cases hA : a * b * (v.y) ≤ b * b * (-v.x) + a * a * (-v.z)
    · by_cases hB : a * b * (-v.x) ≤ a * a * (v.y) + b * b * (-v.z)
      · by_cases hC : a * b * (-v.z) ≤ a * a * (-v.x) + b * b * (v.y)
        ·
          refine ⟨⟨BitVec.ofNat 64 17 <<< baseHashShift.toNat, 6, 11, 1⟩, by decide, ?_⟩
          simp only [icosahedron, List.getD_cons_zero, List.getD_cons_succ, dot, cross]
          refine ⟨?_, ?_, ?_⟩ <;> linarith
        ·
          refine ⟨⟨BitVec.ofNat 64 2 <<< baseHashShift.toNat, 5, 11, 6⟩, by decide, ?_⟩
          simp only [icosahedron, List.getD_cons_zero, List.getD_cons_succ, dot, cross]
          refine ⟨?_, ?_, ?_⟩ <;> linarith
      ·
        refine ⟨⟨BitVec.ofNat 64 7 <<< baseHashShift.toNat, 2, 6, 1⟩, by decide, ?_⟩
        simp only [icosahedron, List.getD_cons_zero, List.getD_cons_succ, dot, cross]
        refine ⟨?_, ?_, ?_⟩ <;> linarith
    ·
      refine ⟨⟨BitVec.ofNat 64 9 <<< baseHashShift.toNat, 8, 1, 11⟩, by decide, ?_⟩
      simp only [icosahedron, List.getD_cons_zero, List.getD_cons_succ, dot, cross]
      refine ⟨?_, ?_, ?_⟩ <;> linarith
  · -- signs -1 -1 1
    have aax : 0 ≤ a * a * (-v.x) := mul_nonneg (by positivity) (by linarith)
    have aay : 0 ≤ a * a * (-v.y) := mul_nonneg (by positivity) (by linarith)
    have aaz : 0 ≤ a * a * (v.z) := mul_nonneg (by positivity) (by linarith)
    have abx : 0 ≤ a * b * (-v.x) := mul_nonneg (by positivity) (by linarith)
    have aby : 0 ≤ a * b * (-v.y) := mul_nonneg (by positivity) (by linarith)
    have abz : 0 ≤ a * b * (v.z) := mul_nonneg (by positivity) (by linarith)
    have bbx : 0 ≤ b * b * (-v.x) := mul_nonneg (by positivity) (by linarith)
    have bby : 0 ≤ b * b * (-v.y) := mul_nonneg (by positivity) (by linarith)
    have bbz : 0 ≤ b * b * (v.z) := mul_nonneg (by positivity) (by linarith)
    by_cases hA : a * b * (-v.y) ≤ b * b * (-v.x) + a * a * (v.z)
    · by_cases hB : a * b * (-v.x) ≤ a * a * (-v.y) + b * b * (v.z)
      · by_cases hC : a * b * (v.z) ≤ a * a * (-v.x) + b * b * (-v.y)
        ·
          refine ⟨⟨BitVec.ofNat 64 18 <<< baseHashShift.toNat, 7, 9, 2⟩, by decide, ?_⟩
          simp only [icosahedron, List.getD_cons_zero, List.getD_cons_succ, dot, cross]
          refine ⟨?_, ?_, ?_⟩ <;> linarith
        ·
          refine ⟨⟨BitVec.ofNat 64 1 <<< baseHashShift.toNat, 4, 9, 7⟩, by decide, ?_⟩
          simp only [icosahedron, List.getD_cons_zero, List.getD_cons_succ, dot, cross]
          refine ⟨?_, ?_, ?_⟩ <;> linarith
      ·
        refine ⟨⟨BitVec.ofNat 64 6 <<< baseHashShift.toNat, 2, 1, 7⟩, by decide, ?_⟩
        simp only [icosahedron, List.getD_cons_zero, List.getD_cons_succ, dot, cross]
        refine ⟨?_, ?_, ?_⟩ <;> linarith
    ·
      refine ⟨⟨BitVec.ofNat 64 11 <<< baseHashShift.toNat, 9, 10, 2⟩, by decide, ?_⟩
      simp only [icosahedron, List.getD_cons_zero, List.getD_cons_succ, dot, cross]
      refine ⟨?_, ?_, ?_⟩ <;> linarith
  · -- signs -1 -1 -1
    have aax : 0 ≤ a * a * (-v.x) := mul_nonneg (by positivity) (by linarith)
    have aay : 0 ≤ a * a * (-v.y) := mul_nonneg (by positivity) (by linarith)
    have aaz : 0 ≤ a * a * (-v.z) := mul_nonneg (by positivity) (by linarith)
    have abx : 0 ≤ a * b * (-v.x) := mul_nonneg (by positivity) (by linarith)
    have aby : 0 ≤ a * b * (-v.y) := mul_nonneg (by positivity) (by linarith)
    have abz : 0 ≤ a * b * (-v.z) := mul_nonneg (by positivity) (by linarith)
    have bbx : 0 ≤ b * b * (-v.x) := mul_nonneg (by positivity) (by linarith)
    have bby : 0 ≤ b * b * (-v.y) := mul_nonneg (by positivity) (by linarith)
    have bbz : 0 ≤ b * b * (-v.z) := mul_nonneg (by positivity) (by linarith)
    by_cases hA : a * b * (-v.y) ≤ b * b * (-v.x) + a * a * (-v.z)
    · by_cases hB : a * b * (-v.x) ≤ a * a * (-v.y) + b * b * (-v.z)
      · by_cases hC : a * b * (-v.z) ≤ a * a * (-v.x) + b * b * (-v.y)
        ·
          refine ⟨⟨BitVec.ofNat 64 19 <<< baseHashShift.toNat, 6, 2, 10⟩, by decide, ?_⟩
          simp only [icosahedron, List.getD_cons_zero, List.getD_cons_succ, dot, cross]
          refine ⟨?_, ?_, ?_⟩ <;> linarith
        ·
          refine ⟨⟨BitVec.ofNat 64 3 <<< baseHashShift.toNat, 5, 6, 10⟩, by decide, ?_⟩
          simp only [icosahedron, List.getD_cons_zero, List.getD_cons_succ, dot, cross]
          refine ⟨?_, ?_, ?_⟩ <;> linarith
      ·
        refine ⟨⟨BitVec.ofNat 64 7 <<< baseHashShift.toNat, 2, 6, 1⟩, by decide, ?_⟩
        simp only [icosahedron, List.getD_cons_zero, List.getD_cons_succ, dot, cross]
        refine ⟨?_, ?_, ?_⟩ <;> linarith
    ·
      refine ⟨⟨BitVec.ofNat 64 11 <<< baseHashShift.toNat, 9, 10, 2⟩, by decide, ?_⟩
      simp only [icosahedron, List.getD_cons_zero, List.getD_cons_succ, dot, cross]
      refine ⟨?_, ?_, ?_⟩ <;> linarith

theorem base_det {a b : ℝ} (ha : 0 < a) (hb : 0 < b) : ∀ t ∈ baseTriangles,
    det ((icosahedron a b).getD t.p0 default) ((icosahedron a b).getD t.p1 default)
      ((icosahedron a b).getD t.p2 default) < 0 := by
  have h1 : 0 < a * a * a := by positivity
  have h2 : 0 < b * b * b := by positivity
  have h3 : 0 < a * a * b := by positivity
  have h4 : 0 < a * b * b := by positivity
  intro t ht
  simp only [baseTriangles, List.map_cons, List.map_nil, List.mem_cons, List.not_mem_nil,
    or_false] at ht
  rcases ht with rfl | rfl | rfl | rfl | rfl | rfl | rfl | rfl | rfl | rfl | rfl | rfl | rfl | rfl |
    rfl | rfl | rfl | rfl | rfl | rfl <;>
  · simp only [icosahedron, List.getD_cons_zero, List.getD_cons_succ, det, dot, cross]
    linarith

theorem ratio_pos : 0 < ((1.0 : ℝ) + Real.sqrt 5.0) * 0.5 := by
  have : 0 ≤ Real.sqrt 5.0 := Real.sqrt_nonneg _
  have h1 : (0 : ℝ) < 1.0 := by norm_num
  have h2 : (0 : ℝ) < 0.5 := by norm_num
  exact mul_pos (by linarith) h2

theorem one_add_sq_pos (r : ℝ) : 0 < 1.0 + r * r := by
  have h1 : (0 : ℝ) < 1.0 := by norm_num
  have := mul_self_nonneg r
  linarith

theorem goldenA_pos : 0 < goldenA :=
  div_pos ratio_pos (Real.sqrt_pos.2 (one_add_sq_pos _))

theorem goldenB_pos : 0 < goldenB :=
  div_pos (by norm_num) (Real.sqrt_pos.2 (one_add_sq_pos _))

theorem golden_unit : goldenA * goldenA + goldenB * goldenB = 1 := by
  unfold goldenA goldenB
  simp only
  generalize (1.0 + Real.sqrt 5.0) * 0.5 = r
  have h0 := one_add_sq_pos r
  have h1 : Real.sqrt (1.0 + r * r) * Real.sqrt (1.0 + r * r) = 1.0 + r * r :=
    Real.mul_self_sqrt h0.le
  have h2 : (1.0 : ℝ) = 1 := by norm_num
  rw [div_mul_div_comm, div_mul_div_comm, h1, ← add_div, div_eq_one_iff_eq h0.ne', h2]
  ring

end

end Verif.Eustace.Locator
