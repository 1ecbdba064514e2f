import Verif.Eustace.Locator.Sphere

/-! Theorems about point location. -/

namespace Verif.Eustace.Locator

open Verif.Eustace.Mesh V3

noncomputable section

/-! ### Specification -/

/-- What a user expects of the location of `v` on the mesh `m`: a triangle of the mesh, given by its
identifier, whose cone contains `v`, and coordinates with respect to its corners. -/
structure Located (m : Mesh V3) (v : V3) (t : Tri) (b : Bary) : Prop where
  /-- `v` lies in the triangle -/
  inside : InCone v (corners m t).1 (corners m t).2.1 (corners m t).2.2
  nonneg : 0 ≤ b.b0 ∧ 0 ≤ b.b1 ∧ 0 ≤ b.b2
  sum : b.b0 + b.b1 + b.b2 = 1
  /-- the coordinates give the point where the ray through `v` meets the plane of the triangle -/
  point : ∃ κ : ℝ, 0 < κ ∧ scale κ v =
    add (add (scale b.b0 (corners m t).1) (scale b.b1 (corners m t).2.1))
      (scale b.b2 (corners m t).2.2)

/-! ### The search on the icosahedron -/

theorem planesHit_iff {v : V3} {p : V3 × V3 × V3} (h : Proper p) :
    planesHit v (normals p) ↔ (dot v (cross p.1 p.2.1) ≤ 0 ∧ dot v (cross p.2.1 p.2.2) ≤ 0 ∧
      dot v (cross p.2.2 p.1) ≤ 0) := by
  have key : ∀ a b : V3, cross a b ≠ ⟨0, 0, 0⟩ →
      (dot v (divide (cross a b) (len (cross a b))) ≤ 0 ↔ dot v (cross a b) ≤ 0) := by
    intro a b hne
    have hl := len_pos_of_ne hne
    have : dot v (divide (cross a b) (len (cross a b))) = dot v (cross a b) / len (cross a b) := by
      simp only [dot, divide]; ring
    rw [this, div_nonpos_iff]
    constructor
    · rintro (h | h)
      · linarith [h.2]
      · exact h.1
    · intro h; exact Or.inr ⟨h, hl.le⟩
  have hd := h.clockwise
  have n0 : cross p.1 p.2.1 ≠ ⟨0, 0, 0⟩ := by
    intro e
    have : det p.1 p.2.1 p.2.2 = dot p.2.2 (cross p.1 p.2.1) := by
      simp only [det, dot, cross]; ring
    rw [this, e] at hd; simp [dot] at hd
  have n1 : cross p.2.1 p.2.2 ≠ ⟨0, 0, 0⟩ := by
    intro e
    unfold det at hd
    rw [e] at hd; simp [dot] at hd
  have n2 : cross p.2.2 p.1 ≠ ⟨0, 0, 0⟩ := by
    intro e
    have : det p.1 p.2.1 p.2.2 = dot p.2.1 (cross p.2.2 p.1) := by
      simp only [det, dot, cross]; ring
    rw [this, e] at hd; simp [dot] at hd
  unfold planesHit normals
  simp only
  rw [key _ _ n0, key _ _ n1, key _ _ n2]

/-- **C31.**  The exhaustive search finds a triangle for every vector, and the vector lies in its
cone.  The initial index -1 is never returned. -/
theorem c31_top (srt : Argsort) {pts : List V3} (hg : GoodPoints pts) (v : V3) :
    ∃ i t, searchPlanes (buildBase srt pts) v = some i ∧ baseTriangles[i]? = some t ∧
      InCone v (cornersOf pts t).1 (cornersOf pts t).2.1 (cornersOf pts t).2.2 := by
  classical
  obtain ⟨t, ht, hc⟩ := hg.cover v
  have hhit : planesHit v (normals (cornersOf pts t)) := (planesHit_iff (hg.proper t ht)).2 hc
  have hsome : (searchPlanes (buildBase srt pts) v).isSome := by
    unfold searchPlanes
    rw [List.findIdx?_isSome, List.any_eq_true]
    exact ⟨t, ht, decide_eq_true hhit⟩
  obtain ⟨i, hi⟩ := Option.isSome_iff_exists.1 hsome
  have hi' := hi
  unfold searchPlanes at hi'
  rw [List.findIdx?_eq_some_iff_getElem] at hi'
  obtain ⟨hlt, hp, _⟩ := hi'
  have hlt' : i < baseTriangles.length := hlt
  refine ⟨i, baseTriangles[i], hi, List.getElem?_eq_getElem hlt', ?_⟩
  have hp' : planesHit v (normals (cornersOf pts baseTriangles[i])) := of_decide_eq_true hp
  have hpr := hg.proper _ (List.getElem_mem hlt')
  obtain ⟨a0, a1, a2⟩ := (planesHit_iff hpr).1 hp'
  exact inCone_of_tests hpr.clockwise a0 a1 a2

/-! ### Descent along the mesh -/

theorem mid_comm (p q : V3) : midOnSphere p q = midOnSphere q p := by
  have : add p q = add q p := by simp only [add]; ext <;> simp only <;> ring
  unfold midOnSphere; rw [this]

theorem points_old {srt : Argsort} {pts : List V3} {n i : Nat}
    (hi : i < (build srt midOnSphere pts n).points.length) :
    (build srt midOnSphere pts (n + 1)).points.getD i default =
      (build srt midOnSphere pts n).points.getD i default := by
  show (List.append _ _).getD i default = _
  exact List.getD_append _ _ _ _ hi

theorem points_new {srt : Argsort} {pts : List V3} {n i : Nat} {e : Edge}
    (he : (build srt midOnSphere pts n).edges[i]? = some e) :
    (build srt midOnSphere pts (n + 1)).points.getD
        ((build srt midOnSphere pts n).points.length + i) default =
      midOnSphere ((build srt midOnSphere pts n).points.getD e.a default)
        ((build srt midOnSphere pts n).points.getD e.b default) := by
  show (List.append _ _).getD _ default = _
  rw [List.append_eq, List.getD_append_right _ _ _ _ (by omega), Nat.add_sub_cancel_left,
    List.getD_eq_getElem?_getD, List.getElem?_map, he]
  rfl

/-- The parts of a triangle of the mesh are triangles of the next mesh. -/
theorem mesh_part (srt : Argsort) {pts : List V3} (hn : pts.length = 12) {L : Nat}
    (hL : L + 1 ≤ 28) {j : Nat} {t : Tri} (ht : (build srt midOnSphere pts L).triangles[j]? = some t)
    {k : Nat} (hk : k < 4) :
    ∃ u, (build srt midOnSphere pts (L + 1)).triangles[4 * j + k]? = some u ∧
      u.id = childId t.id k (hashShift (L + 1)) ∧
      corners (build srt midOnSphere pts (L + 1)) u =
        part (corners (build srt midOnSphere pts L) t) k := by
  obtain ⟨i0, i1, i2, hch, ⟨e0, he0, hs0⟩, ⟨e1, he1, hs1⟩, ⟨e2, he2, hs2⟩⟩ :=
    c30_child srt midOnSphere pts hn L hL j t ht
  obtain ⟨q0, q1, q2⟩ := c29_points srt midOnSphere pts hn L (by omega) t (List.mem_of_getElem? ht)
  have m0 := points_new (srt := srt) (pts := pts) he0
  have m1 := points_new (srt := srt) (pts := pts) he1
  have m2 := points_new (srt := srt) (pts := pts) he2
  have f : ∀ (e : Edge) (p q : Nat), ((e.a = p ∧ e.b = q) ∨ (e.a = q ∧ e.b = p)) →
      midOnSphere ((build srt midOnSphere pts L).points.getD e.a default)
        ((build srt midOnSphere pts L).points.getD e.b default) =
      midOnSphere ((build srt midOnSphere pts L).points.getD p default)
        ((build srt midOnSphere pts L).points.getD q default) := by
    rintro e p q (⟨rfl, rfl⟩ | ⟨rfl, rfl⟩)
    · rfl
    · exact mid_comm _ _
  rw [f _ _ _ hs0] at m0
  rw [f _ _ _ hs1] at m1
  rw [f _ _ _ hs2] at m2
  have o0 := points_old (srt := srt) (pts := pts) q0
  have o1 := points_old (srt := srt) (pts := pts) q1
  have o2 := points_old (srt := srt) (pts := pts) q2
  have hh := hch k hk
  rw [hashShift_eq (by omega)]
  have hkc : k = 0 ∨ k = 1 ∨ k = 2 ∨ k = 3 := by omega
  rcases hkc with rfl | rfl | rfl | rfl <;>
  · refine ⟨_, hh, rfl, ?_⟩
    unfold corners part
    simp only [m0, m1, m2, o0, o1, o2]

/-- All triangles of all meshes are proper. -/
theorem mesh_proper (srt : Argsort) {pts : List V3} (hg : GoodPoints pts) :
    ∀ L ≤ 28, ∀ (j : Nat) (t : Tri), (build srt midOnSphere pts L).triangles[j]? = some t →
      Proper (corners (build srt midOnSphere pts L) t) := by
  intro L
  induction L with
  | zero =>
    intro _ j t ht
    exact hg.proper t (List.mem_of_getElem? ht)
  | succ L ih =>
    intro hL j t ht
    have hc := c28_counts srt midOnSphere pts hg.num
    have hj : j < 20 * 4 ^ (L + 1) := by
      rw [← (hc (L + 1)).2.2]; exact (List.getElem?_eq_some_iff.1 ht).1
    have hj4 : j / 4 < (build srt midOnSphere pts L).triangles.length := by
      rw [(hc L).2.2]; rw [pow_succ] at hj; omega
    obtain ⟨u, hu, _, hcor⟩ := mesh_part srt hg.num hL (List.getElem?_eq_getElem hj4)
      (k := j % 4) (by omega)
    have : 4 * (j / 4) + j % 4 = j := by omega
    rw [this, ht] at hu
    cases hu
    rw [hcor]
    exact part_proper (ih (by omega) _ _ (List.getElem?_eq_getElem hj4)) _

theorem init_id {i : Nat} {t : Tri} (ht : baseTriangles[i]? = some t) :
    BitVec.ofNat 64 i <<< baseHashShift.toNat = t.id := by
  have hi : i < 20 := (List.getElem?_eq_some_iff.1 ht).1
  have key : ∀ i < 20, (baseTriangles[i]?).map (fun t => t.id) =
      some (BitVec.ofNat 64 i <<< baseHashShift.toNat) := by decide
  have := key i hi
  rw [ht] at this
  simpa using this.symm

/-- The state of the loop after `n` turns follows the meshes. -/
theorem follow (srt : Argsort) {pts : List V3} (hg : GoodPoints pts) {v : V3}
    (hv : v ≠ ⟨0, 0, 0⟩) {i : Nat} {t : Tri} (ht : baseTriangles[i]? = some t)
    (hc : InCone v (cornersOf pts t).1 (cornersOf pts t).2.1 (cornersOf pts t).2.2) :
    ∀ n ≤ 28, ∃ (j : Nat) (u : Tri), (build srt midOnSphere pts n).triangles[j]? = some u ∧
      (runLevels v (initState (buildBase srt pts) v i) n).id = u.id ∧
      (runLevels v (initState (buildBase srt pts) v i) n).pts =
        corners (build srt midOnSphere pts n) u ∧
      (runLevels v (initState (buildBase srt pts) v i) n).bary = barycentricPlanar
        (corners (build srt midOnSphere pts n) u).1 (corners (build srt midOnSphere pts n) u).2.1
        (corners (build srt midOnSphere pts n) u).2.2 v ∧
      InCone v (corners (build srt midOnSphere pts n) u).1
        (corners (build srt midOnSphere pts n) u).2.1
        (corners (build srt midOnSphere pts n) u).2.2 := by
  intro n
  induction n with
  | zero =>
    intro _
    have hd : (buildBase srt pts).triangles.getD i default = t := by
      show baseTriangles.getD i default = t
      rw [List.getD_eq_getElem?_getD, ht]; rfl
    refine ⟨i, t, ht, init_id ht, ?_, ?_, hc⟩
    · show corners _ _ = _
      rw [hd]; rfl
    · show barycentricPlanar _ _ _ _ = _
      rw [hd]; rfl
  | succ n ih =>
    intro hn
    obtain ⟨j, u, hu, h1, h2, h3, h4⟩ := ih (by omega)
    have hp := mesh_proper srt hg n (by omega) j u hu
    have hk := subdivisionNumber_lt (runLevels v (initState (buildBase srt pts) v i) n).bary
    obtain ⟨w, hw, hid, hcor⟩ := mesh_part srt hg.num hn hu hk
    have hpts : (runLevels v (initState (buildBase srt pts) v i) (n + 1)).pts =
        corners (build srt midOnSphere pts (n + 1)) w := by
      show toSubtriangle _ _ = _
      rw [hcor, h2, toSubtriangle_eq hp hk]
    refine ⟨_, w, hw, ?_, hpts, ?_, ?_⟩
    · rw [hid, ← h1]; rfl
    · rw [← hpts]; rfl
    · rw [hcor, h3]
      exact step_cone hp hv h4

/-- Barycentric coordinates of a vector in a proper triangle. -/
theorem located_of_inside {m : Mesh V3} {v : V3} {t : Tri} (hv : v ≠ ⟨0, 0, 0⟩)
    (hp : Proper (corners m t))
    (hc : InCone v (corners m t).1 (corners m t).2.1 (corners m t).2.2) :
    Located m v t (barycentricPlanar (corners m t).1 (corners m t).2.1 (corners m t).2.2 v) := by
  obtain ⟨c0, c1, c2, g0, g1, g2, e⟩ := hc
  obtain ⟨hS, hb⟩ := bary_inside hp hv g0 g1 g2 e
  refine ⟨⟨c0, c1, c2, g0, g1, g2, e⟩, ?_, ?_, 1 / (c0 + c1 + c2), by positivity, ?_⟩
  · rw [hb]
    exact ⟨by positivity, by positivity, by positivity⟩
  · rw [hb]
    simp only
    rw [← add_div, ← add_div]
    exact div_self hS.ne'
  · rw [hb, e]
    simp only [add, scale]
    ext <;> simp only <;> field_simp

/-- **C31.**  For every vector and every level up to 28 the locator returns the identifier of a
triangle of the mesh of that level, at the position which the identifier gives; the vector lies in
that triangle; the coordinates are non-negative, sum to one and reproduce the vector.  The locator
itself only knows the icosahedron. -/
theorem c31_locate (srt : Argsort) {pts : List V3} (hg : GoodPoints pts) {v : V3}
    (hv : v ≠ ⟨0, 0, 0⟩) (L : Nat) (hL : L ≤ 28) :
    ∃ s t, locate (build srt midOnSphere pts 0) v L = some s ∧
      (build srt midOnSphere pts L).triangles[indexAtLevel s.id L]? = some t ∧ t.id = s.id ∧
      s.pts = corners (build srt midOnSphere pts L) t ∧
      Located (build srt midOnSphere pts L) v t s.bary := by
  obtain ⟨i, t, hi, ht, hc⟩ := c31_top srt hg v
  obtain ⟨j, u, hu, h1, h2, h3, h4⟩ := follow srt hg hv ht hc L hL
  refine ⟨runLevels v (initState (buildBase srt pts) v i) L, u, ?_, ?_, h1.symm, h2, ?_⟩
  · unfold locate
    show Option.map _ (searchPlanes (buildBase srt pts) v) = _
    rw [hi]; rfl
  · rw [h1, (c30_position srt midOnSphere pts hg.num L hL j u hu).2.1, hu]
  · rw [h3]
    exact located_of_inside hv (mesh_proper srt hg L hL j u hu) h4

/-- **C31.**  Whenever a vector lies in the interior of a triangle of the mesh of level `L`, that is
the triangle which the locator returns. -/
theorem c31_exact (srt : Argsort) {pts : List V3} (hg : GoodPoints pts) {v : V3}
    (hv : v ≠ ⟨0, 0, 0⟩) (L : Nat) (hL : L ≤ 28) {j : Nat} {t : Tri}
    (ht : (build srt midOnSphere pts L).triangles[j]? = some t)
    (hc : InOpenCone v (corners (build srt midOnSphere pts L) t).1
      (corners (build srt midOnSphere pts L) t).2.1 (corners (build srt midOnSphere pts L) t).2.2) :
    ∃ s, locate (build srt midOnSphere pts 0) v L = some s ∧ s.id = t.id ∧
      indexAtLevel s.id L = j := by
  obtain ⟨i, t0, hi, ht0, hc0⟩ := c31_top srt hg v
  have key : ∀ L ≤ 28, ∀ (j : Nat) (t : Tri),
      (build srt midOnSphere pts L).triangles[j]? = some t →
      InOpenCone v (corners (build srt midOnSphere pts L) t).1
        (corners (build srt midOnSphere pts L) t).2.1
        (corners (build srt midOnSphere pts L) t).2.2 →
      (runLevels v (initState (buildBase srt pts) v i) L).id = t.id := by
    intro L
    induction L with
    | zero =>
      intro _ j t ht hc
      have : t = t0 := hg.apart v t (List.mem_of_getElem? ht) t0 (List.mem_of_getElem? ht0) hc hc0
      rw [this]
      exact init_id ht0
    | succ L ih =>
      intro hL j t ht hc
      have hcn := c28_counts srt midOnSphere pts hg.num
      have hj : j < 20 * 4 ^ (L + 1) := by
        rw [← (hcn (L + 1)).2.2]; exact (List.getElem?_eq_some_iff.1 ht).1
      have hj4 : j / 4 < (build srt midOnSphere pts L).triangles.length := by
        rw [(hcn L).2.2]; rw [pow_succ] at hj; omega
      obtain ⟨p, hp'⟩ : ∃ p, (build srt midOnSphere pts L).triangles[j / 4]? = some p :=
        ⟨_, List.getElem?_eq_getElem hj4⟩
      have hlt : j % 4 < 4 := by omega
      obtain ⟨u, hu, hid, hcor⟩ := mesh_part srt hg.num hL hp' hlt
      have : 4 * (j / 4) + j % 4 = j := by omega
      rw [this, ht] at hu
      cases hu
      rw [hcor] at hc
      obtain ⟨ho, hk⟩ := step_unique (mesh_proper srt hg L (by omega) _ _ hp') hv hlt hc
      have hpid := ih (by omega) _ _ hp' ho
      obtain ⟨j', u', hu', g1, g2, g3, _⟩ := follow srt hg hv ht0 hc0 L (by omega)
      have hsame : u' = p := by
        have hjj : j' = j / 4 := by
          have a := (c30_position srt midOnSphere pts hg.num L (by omega) j' u' hu').2.1
          have b := (c30_position srt midOnSphere pts hg.num L (by omega) _ p hp').2.1
          rw [← g1, hpid, b] at a
          exact a.symm
        rw [hjj, hp'] at hu'
        exact (Option.some.inj hu').symm
      rw [hid]
      show _ ||| (BitVec.ofNat 64 (subdivisionNumber _) <<< _) = _
      rw [hpid, g3, hsame, hk]
      rfl
  have h1 := key L hL j t ht hc
  refine ⟨_, ?_, h1, ?_⟩
  · unfold locate
    show Option.map _ (searchPlanes (buildBase srt pts) v) = _
    rw [hi]; rfl
  · rw [h1]
    exact (c30_position srt midOnSphere pts hg.num L hL j t ht).2.1

/-- **C31.**  Evaluating the subdivision numbers of many rows at once is the same as evaluating each
row. -/
theorem c31_rows (rows : List Bary) :
    subdivisionNumbers rows = rows.map subdivisionNumber ∧
    ∀ n ∈ subdivisionNumbers rows, n < 4 := by
  refine ⟨numbers_by_row rows, ?_⟩
  rw [numbers_by_row]
  intro n hn
  obtain ⟨b, _, rfl⟩ := List.mem_map.1 hn
  exact subdivisionNumber_lt b

/-! ### C76: the triangles tile the sphere -/

/-- **C76.**  At every level the triangles of the mesh tile the sphere: every direction lies in one of
them, and a direction in the interior of one lies in no other. -/
theorem c76_tiling (srt : Argsort) {pts : List V3} (hg : GoodPoints pts) {v : V3}
    (hv : v ≠ ⟨0, 0, 0⟩) (L : Nat) (hL : L ≤ 28) :
    (∃ t ∈ (build srt midOnSphere pts L).triangles,
      InCone v (corners (build srt midOnSphere pts L) t).1
        (corners (build srt midOnSphere pts L) t).2.1
        (corners (build srt midOnSphere pts L) t).2.2) ∧
    (∀ t ∈ (build srt midOnSphere pts L).triangles, ∀ u ∈ (build srt midOnSphere pts L).triangles,
      InOpenCone v (corners (build srt midOnSphere pts L) t).1
        (corners (build srt midOnSphere pts L) t).2.1
        (corners (build srt midOnSphere pts L) t).2.2 →
      InOpenCone v (corners (build srt midOnSphere pts L) u).1
        (corners (build srt midOnSphere pts L) u).2.1
        (corners (build srt midOnSphere pts L) u).2.2 → t = u) := by
  constructor
  · obtain ⟨s, t, _, ht, _, _, h⟩ := c31_locate srt hg hv L hL
    exact ⟨t, List.mem_of_getElem? ht, h.inside⟩
  · intro t ht u hu h1 h2
    obtain ⟨i, hi⟩ := List.mem_iff_getElem?.1 ht
    obtain ⟨j, hj⟩ := List.mem_iff_getElem?.1 hu
    obtain ⟨s, hs, _, hsi⟩ := c31_exact srt hg hv L hL hi h1
    obtain ⟨s', hs', _, hsj⟩ := c31_exact srt hg hv L hL hj h2
    rw [hs] at hs'
    cases hs'
    rw [hsi] at hsj
    subst hsj
    rw [hi] at hj
    exact Option.some.inj hj

/-- **C76.**  Every point of every mesh which a triangle uses lies on the unit sphere, and every
triangle is clockwise and not degenerate. -/
theorem c76_proper (srt : Argsort) {pts : List V3} (hg : GoodPoints pts) (L : Nat) (hL : L ≤ 28) :
    ∀ t ∈ (build srt midOnSphere pts L).triangles,
      len (corners (build srt midOnSphere pts L) t).1 = 1 ∧
      len (corners (build srt midOnSphere pts L) t).2.1 = 1 ∧
      len (corners (build srt midOnSphere pts L) t).2.2 = 1 ∧
      dot (corners (build srt midOnSphere pts L) t).1
        (cross (corners (build srt midOnSphere pts L) t).2.1
          (corners (build srt midOnSphere pts L) t).2.2) < 0 := by
  intro t ht
  obtain ⟨i, hi⟩ := List.mem_iff_getElem?.1 ht
  have := mesh_proper srt hg L hL i t hi
  exact ⟨this.u0, this.u1, this.u2, this.clockwise⟩

end

end Verif.Eustace.Locator
