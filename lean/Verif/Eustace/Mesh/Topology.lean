import Verif.Eustace.Mesh.Props
import Mathlib.Logic.Relation
import Mathlib.Data.List.GetD

/-! Degrees of the points and connectedness of the mesh. -/

namespace Verif.Eustace.Mesh

/-! ### Degrees -/

theorem countP_flatMap_eq {α β : Type} (p : β → Bool) (f : α → List β) (g : α → Nat) (l : List α)
    (h : ∀ x ∈ l, (f x).countP p = g x) : (l.flatMap f).countP p = (l.map g).sum := by
  induction l with
  | nil => rfl
  | cons a l ih =>
    rw [List.flatMap_cons, List.countP_append, h a (by simp), ih (fun x hx => h x (by simp [hx]))]
    simp

theorem sum_map_countP {α : Type} (p : α → Bool) (l : List α) :
    (l.map (fun x => if p x then 1 else 0)).sum = l.countP p := by
  induction l with
  | nil => rfl
  | cons a l ih =>
    rw [List.map_cons, List.sum_cons, ih, List.countP_cons]
    omega

theorem sum_eq_zero (l : List Nat) (h : ∀ x ∈ l, x = 0) : l.sum = 0 := by
  induction l with
  | nil => rfl
  | cons a l ih => rw [List.sum_cons, h a (by simp), ih (fun x hx => h x (by simp [hx]))]

theorem sum_mul {α : Type} (c : Nat) (f : α → Nat) (l : List α) :
    (l.map (fun x => c * f x)).sum = c * (l.map f).sum := by
  induction l with
  | nil => rfl
  | cons a l ih => rw [List.map_cons, List.sum_cons, ih, List.map_cons, List.sum_cons]; ring

/-- How many directed sides begin at `v`. -/
def starts (hs : List Half) (v : Nat) : Nat := hs.countP (fun h => h.a == v)

theorem starts_perm {l m : List Half} (h : l.Perm m) (v : Nat) : starts l v = starts m v :=
  h.countP_eq _

/-- The degree of a point is the number of sides which begin at it. -/
theorem degree_eq_starts {ts : List Tri} (hd : ∀ t ∈ ts, t.p0 ≠ t.p1 ∧ t.p1 ≠ t.p2 ∧ t.p2 ≠ t.p0)
    (v : Nat) : degree ts v = starts (ts.flatMap Tri.halves) v := by
  unfold degree starts
  rw [countP_flatMap_eq _ _ (fun t => if (v = t.p0 ∨ v = t.p1 ∨ v = t.p2) then 1 else 0)]
  · rw [← List.countP_eq_length_filter, ← sum_map_countP]
    congr 1
    apply List.map_congr_left
    intro t _
    simp
  · intro t ht
    obtain ⟨h1, h2, h3⟩ := hd t ht
    simp only [Tri.halves, List.countP_cons, List.countP_nil, beq_iff_eq]
    split_ifs <;> omega

theorem marked_at {edges : List Edge} {V i : Nat} (hi : i < edges.length) :
    (marked edges V).countP (fun x => x.2 == V + i) = 2 := by
  unfold marked
  rw [countP_flatMap_eq _ _ (fun r => if r.2 == V + i then 2 else 0)]
  · have key : ∀ (l : List Edge) (W j : Nat), j < l.length →
        ((l.zipIdx W).map (fun r => if r.2 == W + j then 2 else 0)).sum = 2 := by
      intro l
      induction l with
      | nil => intro W j hj; simp at hj
      | cons a l ih =>
        intro W j hj
        rw [List.zipIdx_cons, List.map_cons, List.sum_cons]
        cases j with
        | zero =>
          have hz : ((l.zipIdx (W + 1)).map (fun r => if r.2 == W + 0 then 2 else 0)).sum = 0 := by
            apply sum_eq_zero
            intro x hx
            obtain ⟨r, hr, rfl⟩ := List.mem_map.1 hx
            rw [List.mem_zipIdx_iff_le_and_getElem?_sub] at hr
            have := hr.1
            rw [if_neg]
            simp only [beq_iff_eq]
            omega
          rw [hz]
          simp
        | succ j =>
          have := ih (W + 1) j (by simpa using hj)
          have e : W + 1 + j = W + (j + 1) := by omega
          rw [e] at this
          rw [this, if_neg]
          simp
    exact key edges V i hi
  · rintro ⟨e, j⟩ _
    simp only [Edge.halves, List.map_cons, List.map_nil, List.countP_cons, List.countP_nil]
    split_ifs <;> rfl

theorem countP_flatMap_perm {α β : Type} (p : β → Bool) (f : α → List β) {l m : List α}
    (h : l.Perm m) : (l.flatMap f).countP p = (m.flatMap f).countP p :=
  (h.flatMap_right f).countP_eq p

/-- Degrees after one subdivision: old points keep theirs, new points have six. -/
theorem starts_step {P : Type} [Inhabited P] {L : Nat} {m : Mesh P} (hg : Good L m)
    (hL : L + 1 ≤ 28) (srt : Argsort) (mid : P → P → P) (v : Nat)
    (hv : v < m.points.length + m.edges.length) :
    starts ((subdivide srt mid m).triangles.flatMap Tri.halves) v =
      if v < m.points.length then starts (m.triangles.flatMap Tri.halves) v else 6 := by
  obtain ⟨_, mids, hl, hmid, hT, hp⟩ := step hg hL srt mid
  have hcount : starts ((subdivide srt mid m).triangles.flatMap Tri.halves) v =
      ((m.triangles.zip mids).flatMap (fun r => (mark3 r).flatMap (splitHalf (58 - 2 * (L + 1))) ++
        (inner (58 - 2 * (L + 1)) r).flatMap Edge.halves)).countP (fun h => h.a == v) := by
    unfold starts
    rw [hT, flatMap_map_eq]
    exact (flatMap_perm_flatMap _ _ _ (fun r _ => (triangle_perm _ r).symm)).countP_eq _
  have hends : ∀ r ∈ m.triangles.zip mids, r.1.p0 < m.points.length ∧ r.1.p1 < m.points.length ∧
      r.1.p2 < m.points.length ∧ m.points.length ≤ r.2.1 ∧ m.points.length ≤ r.2.2.1 ∧
      m.points.length ≤ r.2.2.2 := by
    intro r hr
    have n0 := hmid r hr (⟨r.1.p0, r.1.p1, r.1.id, 0⟩, r.2.1) (by simp [mark3])
    have n1 := hmid r hr (⟨r.1.p1, r.1.p2, r.1.id, 1⟩, r.2.2.1) (by simp [mark3])
    have n2 := hmid r hr (⟨r.1.p2, r.1.p0, r.1.id, 2⟩, r.2.2.2) (by simp [mark3])
    have key : ∀ s ∈ r.1.sides, s.1 < m.points.length := by
      intro s hs
      have : s ∈ m.triangles.flatMap Tri.sides :=
        List.mem_flatMap.2 ⟨r.1, (List.of_mem_zip hr).1, hs⟩
      rw [(sides_perm hg).mem_iff, List.mem_flatMap] at this
      obtain ⟨e, he, hs⟩ := this
      have h1 := hg.ends e he
      simp only [List.mem_cons, List.not_mem_nil, or_false] at hs
      rcases hs with rfl | rfl
      · exact h1.1
      · exact h1.2.1
    exact ⟨key (r.1.p0, r.1.p1) (by simp [Tri.sides]), key (r.1.p1, r.1.p2) (by simp [Tri.sides]),
      key (r.1.p2, r.1.p0) (by simp [Tri.sides]), (isMid_bounds n0).1, (isMid_bounds n1).1,
      (isMid_bounds n2).1⟩
  rw [hcount]
  by_cases hlt : v < m.points.length
  · rw [if_pos hlt]
    have h1 : starts (m.triangles.flatMap Tri.halves) v =
        ((m.triangles.zip mids).flatMap (fun r => r.1.halves)).countP (fun h => h.a == v) := by
      unfold starts
      rw [zip_flatMap_fst (fun t : Tri => t.halves) m.triangles mids hl]
    rw [h1]
    rw [countP_flatMap_eq _ _ (fun r => r.1.halves.countP (fun h => h.a == v)),
      countP_flatMap_eq _ (fun r : Tri × Nat × Nat × Nat => r.1.halves)
        (fun r => r.1.halves.countP (fun h => h.a == v)) _ (fun _ _ => rfl)]
    intro r hr
    obtain ⟨_, _, _, b0, b1, b2⟩ := hends r hr
    simp only [mark3, splitHalf, inner, innerEdges, Edge.halves, Tri.halves,
      List.flatMap_cons, List.flatMap_nil, List.cons_append, List.nil_append, List.append_nil,
      List.countP_cons, List.countP_nil, beq_iff_eq]
    split_ifs <;> omega
  · rw [if_neg hlt]
    obtain ⟨i, rfl⟩ := Nat.exists_eq_add_of_le (Nat.le_of_not_lt hlt)
    have h2 : ((m.triangles.zip mids).flatMap mark3).countP (fun x => x.2 == m.points.length + i) = 2 := by
      rw [hp.countP_eq]
      exact marked_at (by omega)
    have h3 : ((m.triangles.zip mids).flatMap mark3).countP (fun x => x.2 == m.points.length + i) =
        ((m.triangles.zip mids).map
          (fun r => (mark3 r).countP (fun x => x.2 == m.points.length + i))).sum :=
      countP_flatMap_eq _ _ _ _ (fun _ _ => rfl)
    rw [countP_flatMap_eq _ _
      (fun r => 3 * (mark3 r).countP (fun x => x.2 == m.points.length + i)), sum_mul,
      ← h3, h2]
    intro r hr
    obtain ⟨a0, a1, a2, _, _, _⟩ := hends r hr
    simp only [mark3, splitHalf, inner, innerEdges, Edge.halves,
      List.flatMap_cons, List.flatMap_nil, List.cons_append, List.nil_append, List.append_nil,
      List.countP_cons, List.countP_nil, beq_iff_eq]
    split_ifs <;> omega

theorem base_starts : ∀ v < 12, starts (baseTriangles.flatMap Tri.halves) v = 5 := by
  decide +kernel

theorem tri_distinct {P : Type} {L : Nat} {m : Mesh P} (hg : Good L m) :
    ∀ t ∈ m.triangles, t.p0 ≠ t.p1 ∧ t.p1 ≠ t.p2 ∧ t.p2 ≠ t.p0 := by
  intro t ht
  have hc := (closed_of_good hg).noLoop
  exact ⟨hc (t.p0, t.p1) (List.mem_flatMap.2 ⟨t, ht, by simp [Tri.sides]⟩),
    hc (t.p1, t.p2) (List.mem_flatMap.2 ⟨t, ht, by simp [Tri.sides]⟩),
    hc (t.p2, t.p0) (List.mem_flatMap.2 ⟨t, ht, by simp [Tri.sides]⟩)⟩

/-- **C75.**  At every level the twelve points of the icosahedron belong to five triangles each and
every other point of the mesh to six. -/
theorem c75_degree {P : Type} [Inhabited P] (srt : Argsort) (mid : P → P → P) (points : List P)
    (hn : points.length = 12) (n : Nat) (h : n ≤ 28) (v : Nat)
    (hv : v < (build srt mid points n).points.length) :
    degree (build srt mid points n).triangles v = if v < 12 then 5 else 6 := by
  have hg := good_build srt mid points hn n h
  rw [degree_eq_starts (tri_distinct hg)]
  induction n with
  | zero =>
    have : v < 12 := by rw [← hn]; exact hv
    rw [if_pos this]
    exact base_starts v this
  | succ n ih =>
    have hgn := good_build srt mid points hn n (by omega)
    have hlen : (build srt mid points (n + 1)).points.length =
        (build srt mid points n).points.length + (build srt mid points n).edges.length := by
      simp [build, subdivide]
    rw [hlen] at hv
    show starts ((subdivide srt mid (build srt mid points n)).triangles.flatMap Tri.halves) v = _
    rw [starts_step hgn h srt mid v hv]
    split_ifs with h1 h2 h2
    · rw [ih (by omega) h1 hgn, if_pos h2]
    · rw [ih (by omega) h1 hgn, if_neg h2]
    · have := hgn.numPoints
      have h4 : 0 < 4 ^ n := Nat.pow_pos (by omega)
      omega
    · rfl

/-! ### Connectedness -/

/-- Two triangles of the list have a common side, which they traverse in opposite directions. -/
def Adjacent (ts : List Tri) (t u : Tri) : Prop :=
  t ∈ ts ∧ u ∈ ts ∧ ∃ s ∈ t.sides, (s.2, s.1) ∈ u.sides

/-- One can walk from any triangle to any other through common sides. -/
def Connected (ts : List Tri) : Prop :=
  ∀ t ∈ ts, ∀ u ∈ ts, Relation.ReflTransGen (Adjacent ts) t u

theorem adjacent_symm {ts : List Tri} {t u : Tri} (h : Adjacent ts t u) : Adjacent ts u t := by
  obtain ⟨h1, h2, s, hs, hs'⟩ := h
  exact ⟨h2, h1, (s.2, s.1), hs', hs⟩

theorem walk_symm {ts : List Tri} {t u : Tri} (h : Relation.ReflTransGen (Adjacent ts) t u) :
    Relation.ReflTransGen (Adjacent ts) u t := by
  induction h with
  | refl => exact Relation.ReflTransGen.refl
  | tail _ h ih => exact Relation.ReflTransGen.head (adjacent_symm h) ih

/-- A walk in the icosahedron: each triangle but the first is next to an earlier one. -/
def walkOrder : List Nat := [0, 1, 12, 16, 14, 18, 8, 9, 4, 13, 6, 17, 10, 11, 5, 7, 2, 3, 15, 19]

theorem base_walk_check : ((List.range 20).all fun i => i == 0 || (List.range i).any fun j =>
    (baseTriangles.getD (walkOrder.getD i 0) default).sides.any fun s =>
      decide ((s.2, s.1) ∈ (baseTriangles.getD (walkOrder.getD j 0) default).sides)) = true := by
  decide +kernel

theorem base_walk (i : Nat) (hi : i < 20) (h0 : 0 < i) : ∃ j < i,
    ∃ s ∈ (baseTriangles.getD (walkOrder.getD i 0) default).sides,
      (s.2, s.1) ∈ (baseTriangles.getD (walkOrder.getD j 0) default).sides := by
  have h := List.all_eq_true.1 base_walk_check i (List.mem_range.2 hi)
  rw [Bool.or_eq_true, List.any_eq_true] at h
  rcases h with h | ⟨j, hj, h⟩
  · simp only [beq_iff_eq] at h; omega
  · rw [List.any_eq_true] at h
    obtain ⟨s, hs, h⟩ := h
    exact ⟨j, List.mem_range.1 hj, s, hs, of_decide_eq_true h⟩

theorem walkOrder_onto : ∀ n < 20, ∃ i ∈ List.range 20, walkOrder.getD i 0 = n := by decide +kernel

theorem walkOrder_lt : ∀ i < 20, walkOrder.getD i 0 < 20 := by decide +kernel

theorem base_connected : Connected baseTriangles := by
  have hlen : baseTriangles.length = 20 := rfl
  have hmem : ∀ n < 20, baseTriangles.getD n default ∈ baseTriangles := by
    intro n hn
    rw [List.getD_eq_getElem _ _ (by omega)]
    exact List.getElem_mem _
  have key : ∀ i, i < 20 → Relation.ReflTransGen (Adjacent baseTriangles)
      (baseTriangles.getD (walkOrder.getD i 0) default)
      (baseTriangles.getD (walkOrder.getD 0 0) default) := by
    intro i
    induction i using Nat.strong_induction_on with
    | _ i ih =>
      intro hi
      by_cases h0 : i = 0
      · subst h0; exact Relation.ReflTransGen.refl
      · obtain ⟨j, hj, hs⟩ := base_walk i hi (by omega)
        exact Relation.ReflTransGen.head
          ⟨hmem _ (walkOrder_lt i hi), hmem _ (walkOrder_lt j (by omega)), hs⟩ (ih j hj (by omega))
  have all : ∀ t ∈ baseTriangles, Relation.ReflTransGen (Adjacent baseTriangles) t
      (baseTriangles.getD (walkOrder.getD 0 0) default) := by
    intro t ht
    obtain ⟨n, hn, rfl⟩ := List.mem_iff_getElem.1 ht
    obtain ⟨i, hi, hin⟩ := walkOrder_onto n (by omega)
    have := key i (List.mem_range.1 hi)
    rw [hin, List.getD_eq_getElem _ _ hn] at this
    exact this
  intro t ht u hu
  exact (all t ht).trans (walk_symm (all u hu))

/-- The same side has the same midpoint, whichever triangle it is looked up from. -/
theorem mid_shared {P : Type} {L : Nat} {m : Mesh P} (hg : Good L m) {V : Nat} {g h : Half}
    {i j : Nat} (hi : IsMid m.edges V g i) (hj : IsMid m.edges V h j)
    (h1 : g.a = h.b) (h2 : g.b = h.a) : i = j := by
  obtain ⟨a, e, rfl, he, hge⟩ := hi
  obtain ⟨b, f, rfl, hf, hhf⟩ := hj
  have hsame : SameEnds e f := by
    unfold SameEnds
    simp only [Edge.halves, List.mem_cons, List.not_mem_nil, or_false] at hge hhf
    rcases hge with rfl | rfl <;> rcases hhf with rfl | rfl <;> simp only at h1 h2 <;> omega
  obtain ⟨l1, rfl⟩ := List.getElem?_eq_some_iff.1 he
  obtain ⟨l2, rfl⟩ := List.getElem?_eq_some_iff.1 hf
  have hd := List.pairwise_iff_getElem.1 hg.simple
  rcases Nat.lt_trichotomy a b with h | h | h
  · exact absurd hsame (hd _ _ l1 l2 h)
  · rw [h]
  · refine absurd ?_ (hd _ _ l2 l1 h)
    unfold SameEnds at hsame ⊢
    omega

theorem connected_step {P : Type} [Inhabited P] {L : Nat} {m : Mesh P} (hg : Good L m)
    (hL : L + 1 ≤ 28) (srt : Argsort) (mid : P → P → P) (hc : Connected m.triangles) :
    Connected (subdivide srt mid m).triangles := by
  obtain ⟨_, mids, hl, hmid, hT, hp⟩ := step hg hL srt mid
  rw [hT]
  generalize 58 - 2 * (L + 1) = s
  have hmem : ∀ r ∈ m.triangles.zip mids, ∀ t ∈ children s r.1 r.2,
      t ∈ (m.triangles.zip mids).flatMap (fun r => children s r.1 r.2) :=
    fun r hr t ht => List.mem_flatMap.2 ⟨r, hr, ht⟩
  -- the middle child of each triangle
  let centre : Tri × Nat × Nat × Nat → Tri := fun r => ⟨childId r.1.id 3 s, r.2.2.1, r.2.2.2, r.2.1⟩
  have hcm : ∀ r, centre r ∈ children s r.1 r.2 := by intro r; simp [children, centre]
  have inside : ∀ r ∈ m.triangles.zip mids, ∀ t ∈ children s r.1 r.2,
      Relation.ReflTransGen (Adjacent ((m.triangles.zip mids).flatMap
        (fun r => children s r.1 r.2))) t (centre r) := by
    intro r hr t ht
    have hadj : t = centre r ∨ Adjacent ((m.triangles.zip mids).flatMap
        (fun r => children s r.1 r.2)) t (centre r) := by
      have h1 := hmem r hr t ht
      have h2 := hmem r hr _ (hcm r)
      simp only [children, List.mem_cons, List.not_mem_nil, or_false] at ht
      rcases ht with rfl | rfl | rfl | rfl
      · right; exact ⟨h1, h2, (r.2.1, r.2.2.2), by simp [Tri.sides], by simp [Tri.sides, centre]⟩
      · right; exact ⟨h1, h2, (r.2.2.1, r.2.1), by simp [Tri.sides], by simp [Tri.sides, centre]⟩
      · right; exact ⟨h1, h2, (r.2.2.2, r.2.2.1), by simp [Tri.sides], by simp [Tri.sides, centre]⟩
      · left; rfl
    rcases hadj with rfl | h
    · exact Relation.ReflTransGen.refl
    · exact Relation.ReflTransGen.single h
  -- each side of a triangle, with its midpoint, is a side of one of its children
  have hsplit : ∀ r ∈ m.triangles.zip mids, ∀ x ∈ r.1.sides, ∃ k i,
      IsMid m.edges m.points.length ⟨x.1, x.2, r.1.id, k⟩ i ∧
      (∃ t ∈ children s r.1 r.2, (x.1, i) ∈ t.sides) ∧
      (∃ t ∈ children s r.1 r.2, (i, x.2) ∈ t.sides) := by
    intro r hr x hx
    have n0 := hmid r hr (⟨r.1.p0, r.1.p1, r.1.id, 0⟩, r.2.1) (by simp [mark3])
    have n1 := hmid r hr (⟨r.1.p1, r.1.p2, r.1.id, 1⟩, r.2.2.1) (by simp [mark3])
    have n2 := hmid r hr (⟨r.1.p2, r.1.p0, r.1.id, 2⟩, r.2.2.2) (by simp [mark3])
    simp only [Tri.sides, List.mem_cons, List.not_mem_nil, or_false] at hx
    rcases hx with rfl | rfl | rfl
    · exact ⟨0, r.2.1, n0, by simp [children, Tri.sides], by simp [children, Tri.sides]⟩
    · exact ⟨1, r.2.2.1, n1, by simp [children, Tri.sides], by simp [children, Tri.sides]⟩
    · exact ⟨2, r.2.2.2, n2, by simp [children, Tri.sides], by simp [children, Tri.sides]⟩
  have across : ∀ r ∈ m.triangles.zip mids, ∀ q ∈ m.triangles.zip mids,
      Adjacent m.triangles r.1 q.1 →
      Relation.ReflTransGen (Adjacent ((m.triangles.zip mids).flatMap
        (fun r => children s r.1 r.2))) (centre r) (centre q) := by
    rintro r hr q hq ⟨_, _, x, hx, hx'⟩
    obtain ⟨k, i, hi, ⟨t, ht, hts⟩, _⟩ := hsplit r hr x hx
    obtain ⟨k', j, hj, _, ⟨u, hu, hus⟩⟩ := hsplit q hq _ hx'
    have hij : i = j := mid_shared hg hi hj rfl rfl
    subst hij
    have hadj : Adjacent ((m.triangles.zip mids).flatMap (fun r => children s r.1 r.2)) t u :=
      ⟨hmem r hr t ht, hmem q hq u hu, (x.1, i), hts, hus⟩
    exact ((walk_symm (inside r hr t ht)).tail hadj).trans (inside q hq u hu)
  have hzip : ∀ t ∈ m.triangles, ∃ mm, (t, mm) ∈ m.triangles.zip mids := by
    intro t ht
    obtain ⟨n, hn, rfl⟩ := List.mem_iff_getElem.1 ht
    refine ⟨mids[n]'(by omega), ?_⟩
    refine List.mem_of_getElem? (i := n) ?_
    rw [List.getElem?_zip_eq_some]
    exact ⟨List.getElem?_eq_getElem hn, List.getElem?_eq_getElem (by omega)⟩
  have hfun : ∀ r ∈ m.triangles.zip mids, ∀ q ∈ m.triangles.zip mids, r.1 = q.1 → r = q := by
    intro r hr q hq h
    obtain ⟨i, hi⟩ := List.mem_iff_getElem?.1 hr
    obtain ⟨j, hj⟩ := List.mem_iff_getElem?.1 hq
    have hi' := (List.getElem?_zip_eq_some.1 hi).1
    have hj' := (List.getElem?_zip_eq_some.1 hj).1
    rw [← h] at hj'
    have e1 := (tri_id hg hi').1
    have e2 := (tri_id hg hj').1
    rw [e1] at e2
    have : i = j := Nat.eq_of_mul_eq_mul_right (Nat.two_pow_pos _) e2
    subst this
    rw [hi] at hj
    exact Option.some.inj hj
  have walk : ∀ t u, Relation.ReflTransGen (Adjacent m.triangles) t u → ∀ r ∈ m.triangles.zip mids,
      ∀ q ∈ m.triangles.zip mids, r.1 = t → q.1 = u →
      Relation.ReflTransGen (Adjacent ((m.triangles.zip mids).flatMap
        (fun r => children s r.1 r.2))) (centre r) (centre q) := by
    intro t u h
    induction h with
    | refl =>
      intro r hr q hq h1 h2
      rw [hfun r hr q hq (h1.trans h2.symm)]
    | @tail v w _ hvw ih =>
      intro r hr q hq h1 h2
      obtain ⟨mm, hmm⟩ := hzip v hvw.1
      refine (ih r hr _ hmm h1 rfl).trans (across _ hmm q hq ?_)
      rw [h2]; exact hvw
  intro t ht u hu
  obtain ⟨r, hr, ht⟩ := List.mem_flatMap.1 ht
  obtain ⟨q, hq, hu⟩ := List.mem_flatMap.1 hu
  have hw := walk r.1 q.1 (hc r.1 (List.of_mem_zip hr).1 q.1 (List.of_mem_zip hq).1) r hr q hq rfl rfl
  exact ((inside r hr t ht).trans hw).trans (walk_symm (inside q hq u hu))

/-- **C29.**  The mesh is in one piece. -/
theorem c29_connected {P : Type} [Inhabited P] (srt : Argsort) (mid : P → P → P) (points : List P)
    (hn : points.length = 12) (n : Nat) (h : n ≤ 28) :
    Connected (build srt mid points n).triangles := by
  induction n with
  | zero => exact base_connected
  | succ n ih =>
    exact connected_step (good_build srt mid points hn n (by omega)) h srt mid (ih (by omega))

/-! ### The hypotheses can be met -/

/-- A concrete sort. -/
def stableArgsort : Argsort where
  sort keys := (List.range keys.length).insertionSort (fun i j => keys.getD i 0 ≤ keys.getD j 0)
  perm keys := List.perm_insertionSort _ _
  sorted keys := by
    have h : ((List.range keys.length).insertionSort
        (fun i j => keys.getD i 0 ≤ keys.getD j 0)).Pairwise
        (fun i j => keys.getD i 0 ≤ keys.getD j 0) := by
      have : Std.Total (fun i j : Nat => keys.getD i 0 ≤ keys.getD j 0) :=
        ⟨fun a b => Nat.le_total _ _⟩
      have : IsTrans Nat (fun i j : Nat => keys.getD i 0 ≤ keys.getD j 0) :=
        ⟨fun a b c h1 h2 => Nat.le_trans h1 h2⟩
      exact List.pairwise_insertionSort _ _
    rw [List.pairwise_filterMap]
    refine h.imp ?_
    intro i j hij a ha b hb
    simp only [List.getD_eq_getElem?_getD, ha, hb, Option.getD_some] at hij
    exact hij

/-- A mesh of labels: the points are the numbers 0 to 11 and a new point is called 100. -/
example : ((build stableArgsort (fun _ _ => 100) (List.range 12) 1).triangles.map
    (fun t => (t.id.toNat, t.p0, t.p1, t.p2))).take 5 =
    [(0, 4, 30, 31), (2 ^ 56, 30, 7, 38), (2 * 2 ^ 56, 31, 38, 8), (3 * 2 ^ 56, 38, 31, 30),
      (2 ^ 58, 4, 32, 30)] := by decide +kernel

example : degree (build stableArgsort (fun _ _ => 100) (List.range 12) 1).triangles 3 = 5 ∧
    degree (build stableArgsort (fun _ _ => 100) (List.range 12) 1).triangles 30 = 6 := by
  decide +kernel

example : superTriangleAtLevel (build stableArgsort (fun _ _ => 100) (List.range 12) 1) 0 7 =
    [28, 29, 30, 31] := by decide +kernel

end Verif.Eustace.Mesh
