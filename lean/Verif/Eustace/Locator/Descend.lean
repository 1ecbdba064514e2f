import Verif.Eustace.Locator.Cover

/-! One level of the descent, and its link to the mesh. -/

namespace Verif.Eustace.Locator

open Verif.Eustace.Mesh V3

noncomputable section

/-- `v` is a combination of the three vectors with positive coefficients. -/
def InOpenCone (v p0 p1 p2 : V3) : Prop :=
  ∃ c0 c1 c2 : ℝ, 0 < c0 ∧ 0 < c1 ∧ 0 < c2 ∧
    v = add (add (scale c0 p0) (scale c1 p1)) (scale c2 p2)

/-- A triangle of unit vectors, clockwise seen from outside. -/
structure Proper (p : V3 × V3 × V3) : Prop where
  u0 : len p.1 = 1
  u1 : len p.2.1 = 1
  u2 : len p.2.2 = 1
  clockwise : det p.1 p.2.1 p.2.2 < 0

/-- The four parts of a triangle: old points and midpoints. -/
def part (p : V3 × V3 × V3) (k : Nat) : V3 × V3 × V3 :=
  match k with
  | 0 => (p.1, midOnSphere p.1 p.2.1, midOnSphere p.2.2 p.1)
  | 1 => (midOnSphere p.1 p.2.1, p.2.1, midOnSphere p.2.1 p.2.2)
  | 2 => (midOnSphere p.2.2 p.1, midOnSphere p.2.1 p.2.2, p.2.2)
  | _ => (midOnSphere p.2.1 p.2.2, midOnSphere p.2.2 p.1, midOnSphere p.1 p.2.1)

theorem toSubtriangle_eq {p : V3 × V3 × V3} (h : Proper p) {k : Nat} (hk : k < 4) :
    toSubtriangle p k = part p k := by
  unfold toSubtriangle part midOnSphere
  have : k = 0 ∨ k = 1 ∨ k = 2 ∨ k = 3 := by omega
  rcases this with rfl | rfl | rfl | rfl <;>
    simp only [divide_one h.u0, divide_one h.u1, divide_one h.u2]

theorem inCone_scale {v q0 q1 q2 : V3} {s0 s1 s2 : ℝ} (h0 : 0 < s0) (h1 : 0 < s1) (h2 : 0 < s2) :
    InCone v (scale s0 q0) (scale s1 q1) (scale s2 q2) ↔ InCone v q0 q1 q2 := by
  constructor
  · rintro ⟨c0, c1, c2, g0, g1, g2, rfl⟩
    refine ⟨c0 * s0, c1 * s1, c2 * s2, by positivity, by positivity, by positivity, ?_⟩
    simp only [add, scale]
    ext <;> simp only <;> ring
  · rintro ⟨c0, c1, c2, g0, g1, g2, rfl⟩
    refine ⟨c0 / s0, c1 / s1, c2 / s2, by positivity, by positivity, by positivity, ?_⟩
    simp only [add, scale]
    ext <;> simp only <;> field_simp

theorem inOpenCone_scale {v q0 q1 q2 : V3} {s0 s1 s2 : ℝ} (h0 : 0 < s0) (h1 : 0 < s1)
    (h2 : 0 < s2) :
    InOpenCone v (scale s0 q0) (scale s1 q1) (scale s2 q2) ↔ InOpenCone v q0 q1 q2 := by
  constructor
  · rintro ⟨c0, c1, c2, g0, g1, g2, rfl⟩
    refine ⟨c0 * s0, c1 * s1, c2 * s2, by positivity, by positivity, by positivity, ?_⟩
    simp only [add, scale]
    ext <;> simp only <;> ring
  · rintro ⟨c0, c1, c2, g0, g1, g2, rfl⟩
    refine ⟨c0 / s0, c1 / s1, c2 / s2, by positivity, by positivity, by positivity, ?_⟩
    simp only [add, scale]
    ext <;> simp only <;> field_simp

/-- The part before projection onto the sphere. -/
def rawPart (p : V3 × V3 × V3) (k : Nat) : V3 × V3 × V3 :=
  match k with
  | 0 => (p.1, scale 0.5 (add p.1 p.2.1), scale 0.5 (add p.2.2 p.1))
  | 1 => (scale 0.5 (add p.1 p.2.1), p.2.1, scale 0.5 (add p.2.1 p.2.2))
  | 2 => (scale 0.5 (add p.2.2 p.1), scale 0.5 (add p.2.1 p.2.2), p.2.2)
  | _ => (scale 0.5 (add p.2.1 p.2.2), scale 0.5 (add p.2.2 p.1), scale 0.5 (add p.1 p.2.1))

theorem rawPart_det (p : V3 × V3 × V3) (k : Nat) :
    det (rawPart p k).1 (rawPart p k).2.1 (rawPart p k).2.2 =
      det p.1 p.2.1 p.2.2 / 4 := by
  unfold rawPart
  split <;> simp only [det, dot, cross, add, scale] <;> ring

theorem ne_zero_of_det {q0 q1 q2 : V3} (h : det q0 q1 q2 < 0) :
    0 < len q0 ∧ 0 < len q1 ∧ 0 < len q2 := by
  refine ⟨len_pos_of_ne ?_, len_pos_of_ne ?_, len_pos_of_ne ?_⟩ <;>
  · rintro rfl
    simp [det, dot, cross] at h

theorem divide_pos_scale {q : V3} : divide q (len q) = scale (1 / len q) q := divide_eq_scale q

/-- A part of a proper triangle is the raw part, each point scaled by a positive number. -/
theorem part_eq_scaled {p : V3 × V3 × V3} (h : Proper p) (k : Nat) :
    ∃ s0 s1 s2 : ℝ, 0 < s0 ∧ 0 < s1 ∧ 0 < s2 ∧
      part p k = (scale s0 (rawPart p k).1, scale s1 (rawPart p k).2.1,
        scale s2 (rawPart p k).2.2) ∧
      Proper (part p k) := by
  have hd := rawPart_det p k
  have hneg : det (rawPart p k).1 (rawPart p k).2.1 (rawPart p k).2.2 < 0 := by
    rw [hd]; have := h.clockwise; linarith
  obtain ⟨l0, l1, l2⟩ := ne_zero_of_det hneg
  have e : part p k = (divide (rawPart p k).1 (len (rawPart p k).1),
      divide (rawPart p k).2.1 (len (rawPart p k).2.1),
      divide (rawPart p k).2.2 (len (rawPart p k).2.2)) := by
    unfold part rawPart midOnSphere
    split <;> simp only [divide_one h.u0, divide_one h.u1, divide_one h.u2]
  refine ⟨1 / len (rawPart p k).1, 1 / len (rawPart p k).2.1, 1 / len (rawPart p k).2.2,
    by positivity, by positivity, by positivity, ?_, ?_⟩
  · rw [e, divide_eq_scale, divide_eq_scale, divide_eq_scale]
  · rw [e]
    refine ⟨len_divide_self l0.ne', len_divide_self l1.ne', len_divide_self l2.ne', ?_⟩
    simp only [divide_eq_scale]
    rw [det_scale]
    exact mul_neg_of_pos_of_neg (by positivity) hneg

theorem part_proper {p : V3 × V3 × V3} (h : Proper p) (k : Nat) : Proper (part p k) := by
  obtain ⟨_, _, _, _, _, _, _, h⟩ := part_eq_scaled h k
  exact h

theorem inCone_part {p : V3 × V3 × V3} (h : Proper p) (k : Nat) (v : V3) :
    InCone v (part p k).1 (part p k).2.1 (part p k).2.2 ↔
      InCone v (rawPart p k).1 (rawPart p k).2.1 (rawPart p k).2.2 := by
  obtain ⟨s0, s1, s2, h0, h1, h2, e, _⟩ := part_eq_scaled h k
  rw [e]
  exact inCone_scale h0 h1 h2

theorem inOpenCone_part {p : V3 × V3 × V3} (h : Proper p) (k : Nat) (v : V3) :
    InOpenCone v (part p k).1 (part p k).2.1 (part p k).2.2 ↔
      InOpenCone v (rawPart p k).1 (rawPart p k).2.1 (rawPart p k).2.2 := by
  obtain ⟨s0, s1, s2, h0, h1, h2, e, _⟩ := part_eq_scaled h k
  rw [e]
  exact inOpenCone_scale h0 h1 h2

/-- A non-zero vector of a cone has a positive sum of coefficients. -/
theorem sum_pos {v p0 p1 p2 : V3} (hv : v ≠ ⟨0, 0, 0⟩) {c0 c1 c2 : ℝ} (g0 : 0 ≤ c0) (g1 : 0 ≤ c1)
    (g2 : 0 ≤ c2) (e : v = add (add (scale c0 p0) (scale c1 p1)) (scale c2 p2)) :
    0 < c0 + c1 + c2 := by
  by_contra hc
  have h0 : c0 = 0 := by linarith
  have h1 : c1 = 0 := by linarith
  have h2 : c2 = 0 := by linarith
  apply hv
  rw [e, h0, h1, h2]
  simp [add, scale]

/-- Barycentric coordinates in a proper triangle. -/
theorem bary_inside {p : V3 × V3 × V3} (h : Proper p) {v : V3} (hv : v ≠ ⟨0, 0, 0⟩) {c0 c1 c2 : ℝ}
    (g0 : 0 ≤ c0) (g1 : 0 ≤ c1) (g2 : 0 ≤ c2)
    (e : v = add (add (scale c0 p.1) (scale c1 p.2.1)) (scale c2 p.2.2)) :
    0 < c0 + c1 + c2 ∧ barycentricPlanar p.1 p.2.1 p.2.2 v =
      ⟨c0 / (c0 + c1 + c2), c1 / (c0 + c1 + c2), c2 / (c0 + c1 + c2)⟩ := by
  have hs := sum_pos hv g0 g1 g2 e
  exact ⟨hs, by rw [e]; exact bary_eq h.clockwise.ne g0 g1 g2 hs⟩

theorem three_terms {x y z S : ℝ} (hS : 0 < S) : x / S - y / S - z / S ≥ 0 ↔ y + z ≤ x := by
  rw [← sub_div, ← sub_div, ge_iff_le, le_div_iff₀ hS]
  constructor <;> intro h <;> linarith

/-- Which part is chosen, in terms of the coefficients. -/
theorem chosen_cases {c0 c1 c2 S : ℝ} (hS : 0 < S) :
    (c1 + c2 ≤ c0 ∧ subdivisionNumber ⟨c0 / S, c1 / S, c2 / S⟩ = 0) ∨
    (c0 < c1 + c2 ∧ c2 + c0 ≤ c1 ∧ subdivisionNumber ⟨c0 / S, c1 / S, c2 / S⟩ = 1) ∨
    (c0 < c1 + c2 ∧ c1 < c2 + c0 ∧ c0 + c1 ≤ c2 ∧
      subdivisionNumber ⟨c0 / S, c1 / S, c2 / S⟩ = 2) ∨
    (c0 < c1 + c2 ∧ c1 < c2 + c0 ∧ c2 < c0 + c1 ∧
      subdivisionNumber ⟨c0 / S, c1 / S, c2 / S⟩ = 3) := by
  have h := subdivisionNumber_cases ⟨c0 / S, c1 / S, c2 / S⟩
  simp only [three_terms hS, not_le] at h
  exact h

theorem subdivisionNumber_lt (b : Bary) : subdivisionNumber b < 4 := by
  rcases subdivisionNumber_cases b with h | h | h | h <;> omega

/-- **One level down.**  A vector in the cone of a triangle lies in the cone of the part which is
chosen for it. -/
theorem step_cone {p : V3 × V3 × V3} (h : Proper p) {v : V3} (hv : v ≠ ⟨0, 0, 0⟩)
    (hc : InCone v p.1 p.2.1 p.2.2) :
    InCone v (part p (subdivisionNumber (barycentricPlanar p.1 p.2.1 p.2.2 v))).1
      (part p (subdivisionNumber (barycentricPlanar p.1 p.2.1 p.2.2 v))).2.1
      (part p (subdivisionNumber (barycentricPlanar p.1 p.2.1 p.2.2 v))).2.2 := by
  rw [inCone_part h]
  obtain ⟨c0, c1, c2, g0, g1, g2, e⟩ := hc
  obtain ⟨hS, hb⟩ := bary_inside h hv g0 g1 g2 e
  rw [hb]
  have h05 : (0.5 : ℝ) = 1 / 2 := by norm_num
  rcases chosen_cases (c0 := c0) (c1 := c1) (c2 := c2) hS with
    ⟨d, hk⟩ | ⟨_, d, hk⟩ | ⟨_, _, d, hk⟩ | ⟨d0, d1, d2, hk⟩
  · rw [hk]
    refine ⟨c0 - c1 - c2, 2 * c1, 2 * c2, by linarith, by linarith, by linarith, ?_⟩
    rw [e]; simp only [rawPart, add, scale, h05]
    ext <;> simp only <;> ring
  · rw [hk]
    refine ⟨2 * c0, c1 - c0 - c2, 2 * c2, by linarith, by linarith, by linarith, ?_⟩
    rw [e]; simp only [rawPart, add, scale, h05]
    ext <;> simp only <;> ring
  · rw [hk]
    refine ⟨2 * c0, 2 * c1, c2 - c0 - c1, by linarith, by linarith, by linarith, ?_⟩
    rw [e]; simp only [rawPart, add, scale, h05]
    ext <;> simp only <;> ring
  · rw [hk]
    refine ⟨c1 + c2 - c0, c2 + c0 - c1, c0 + c1 - c2, by linarith, by linarith, by linarith, ?_⟩
    rw [e]; simp only [rawPart, add, scale, h05]
    ext <;> simp only <;> ring

/-- A vector inside a part of a triangle is inside the triangle, and the part is the one chosen. -/
theorem step_unique {p : V3 × V3 × V3} (h : Proper p) {v : V3} (hv : v ≠ ⟨0, 0, 0⟩) {k : Nat}
    (hk : k < 4) (hc : InOpenCone v (part p k).1 (part p k).2.1 (part p k).2.2) :
    InOpenCone v p.1 p.2.1 p.2.2 ∧
      subdivisionNumber (barycentricPlanar p.1 p.2.1 p.2.2 v) = k := by
  rw [inOpenCone_part h] at hc
  obtain ⟨d0, d1, d2, g0, g1, g2, e⟩ := hc
  have h05 : (0.5 : ℝ) = 1 / 2 := by norm_num
  have key : ∀ c0 c1 c2 : ℝ, 0 < c0 → 0 < c1 → 0 < c2 →
      v = add (add (scale c0 p.1) (scale c1 p.2.1)) (scale c2 p.2.2) →
      (k = 0 → c1 + c2 < c0) → (k = 1 → c2 + c0 < c1) → (k = 2 → c0 + c1 < c2) →
      (k = 3 → c0 < c1 + c2 ∧ c1 < c2 + c0 ∧ c2 < c0 + c1) →
      InOpenCone v p.1 p.2.1 p.2.2 ∧
        subdivisionNumber (barycentricPlanar p.1 p.2.1 p.2.2 v) = k := by
    intro c0 c1 c2 f0 f1 f2 hv' k0 k1 k2 k3
    refine ⟨⟨c0, c1, c2, f0, f1, f2, hv'⟩, ?_⟩
    obtain ⟨hS, hb⟩ := bary_inside h hv f0.le f1.le f2.le hv'
    rw [hb]
    have hkc : k = 0 ∨ k = 1 ∨ k = 2 ∨ k = 3 := by omega
    rcases chosen_cases (c0 := c0) (c1 := c1) (c2 := c2) hS with
      ⟨d, hn⟩ | ⟨d', d, hn⟩ | ⟨d', d'', d, hn⟩ | ⟨d0, d1, d2, hn⟩ <;>
    rw [hn] <;> rcases hkc with rfl | rfl | rfl | rfl <;> first
      | rfl
      | (exfalso; have := k0 rfl; linarith)
      | (exfalso; have := k1 rfl; linarith)
      | (exfalso; have := k2 rfl; linarith)
      | (exfalso; have := k3 rfl; linarith [this.1, this.2.1, this.2.2])
  have hkc : k = 0 ∨ k = 1 ∨ k = 2 ∨ k = 3 := by omega
  rcases hkc with rfl | rfl | rfl | rfl
  · refine key (d0 + d1 / 2 + d2 / 2) (d1 / 2) (d2 / 2) (by linarith) (by linarith) (by linarith) ?_
      (fun _ => by linarith) (by omega) (by omega) (by omega)
    rw [e]; simp only [rawPart, add, scale, h05]
    ext <;> simp only <;> ring
  · refine key (d0 / 2) (d0 / 2 + d1 + d2 / 2) (d2 / 2) (by linarith) (by linarith) (by linarith) ?_
      (by omega) (fun _ => by linarith) (by omega) (by omega)
    rw [e]; simp only [rawPart, add, scale, h05]
    ext <;> simp only <;> ring
  · refine key (d0 / 2) (d1 / 2) (d0 / 2 + d1 / 2 + d2) (by linarith) (by linarith) (by linarith) ?_
      (by omega) (by omega) (fun _ => by linarith) (by omega)
    rw [e]; simp only [rawPart, add, scale, h05]
    ext <;> simp only <;> ring
  · refine key (d1 / 2 + d2 / 2) (d0 / 2 + d2 / 2) (d0 / 2 + d1 / 2) (by linarith) (by linarith)
      (by linarith) ?_ (by omega) (by omega) (by omega)
      (fun _ => ⟨by linarith, by linarith, by linarith⟩)
    rw [e]; simp only [rawPart, add, scale, h05]
    ext <;> simp only <;> ring

/-! ### All rows at once -/

theorem nonzero_append (l m : List Bool) :
    ∀ k, ((l ++ m).zipIdx k).filterMap (fun r => if r.1 then some r.2 else none) =
      (l.zipIdx k).filterMap (fun r => if r.1 then some r.2 else none) ++
      (m.zipIdx (k + l.length)).filterMap (fun r => if r.1 then some r.2 else none) := by
  intro k
  rw [List.zipIdx_append, List.filterMap_append]

theorem row_number (b : Bary) (n : Nat) :
    (((inclusionRow b).zipIdx (4 * n)).filterMap (fun r => if r.1 then some r.2 else none)).map
      (· % 4) = [subdivisionNumber b] := by
  have e : subdivisionNumber b = ((nonzero (inclusionRow b)).map (· % 4)).headD 0 := by
    unfold subdivisionNumber subdivisionNumbers
    simp
  rw [e]
  rcases inclusionRow_cases b with ⟨_, h⟩ | ⟨_, _, h⟩ | ⟨_, _, _, h⟩ | ⟨_, _, _, h⟩ <;>
  · rw [h]
    simp [nonzero, List.zipIdx_cons]
    try omega

theorem inclusionRow_length (b : Bary) : (inclusionRow b).length = 4 := rfl

/-- The numbers computed for all rows together are those of the single rows: flattening the table of
tests never shifts one row's answer to another. -/
theorem numbers_by_row (rows : List Bary) :
    subdivisionNumbers rows = rows.map subdivisionNumber := by
  have key : ∀ (rows : List Bary) (n : Nat),
      (((rows.flatMap inclusionRow).zipIdx (4 * n)).filterMap
        (fun r => if r.1 then some r.2 else none)).map (· % 4) = rows.map subdivisionNumber := by
    intro rows
    induction rows with
    | nil => intro n; rfl
    | cons b rows ih =>
      intro n
      rw [List.flatMap_cons, nonzero_append, List.map_append, row_number, inclusionRow_length]
      have : 4 * n + 4 = 4 * (n + 1) := by ring
      rw [this, ih]
      rfl
  have := key rows 0
  exact this

end

end Verif.Eustace.Locator
