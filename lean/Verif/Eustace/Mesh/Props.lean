import Verif.Eustace.Mesh.Base

/-! Theorems about the subdivided icosahedron. -/

namespace Verif.Eustace.Mesh

/-! ### C28: sizes -/

theorem childEdges_length (srt : Argsort) (s V T : Nat) (edges : List Edge)
    (h : 2 * edges.length = 3 * T) : (childEdges srt s V edges).length = 2 * edges.length + 3 * T := by
  unfold childEdges
  have h1 : (sortRows srt midKey (midpointRows edges V)).length = 3 * T := by
    rw [(sortRows_perm _ _ _).length_eq]
    simp [midpointRows]
    omega
  have h2 := chunk3_length T _ h1
  have h3 : ∀ l : List (Edge × Nat), (l.flatMap (fun r => splitEdge s r.1 r.2)).length = 2 * l.length := by
    intro l; induction l with
    | nil => rfl
    | cons a l ih => simp [splitEdge] at ih ⊢; omega
  have h4 : ∀ l : List (MidRow × MidRow × MidRow), (l.flatMap (innerEdges s)).length = 3 * l.length := by
    intro l; induction l with
    | nil => rfl
    | cons a l ih => simp [innerEdges] at ih ⊢; omega
  rw [List.length_append, h3, h4, h2, List.length_zipIdx]

theorem trianglesOf_length (srt : Argsort) (edges : List Edge) (T : Nat)
    (h : 2 * edges.length = 3 * T) : (trianglesOf srt edges).length = T := by
  unfold trianglesOf
  rw [List.length_map]
  apply chunk3_length
  rw [(sortRows_perm _ _ _).length_eq]
  simp [edgesWithDuplicates]
  omega

/-- **C28.**  At every level, whatever the order in which ties are sorted, the mesh has
`10*4^n + 2` points, `30*4^n` edges and `20*4^n` triangles. -/
theorem c28_counts {P : Type} [Inhabited P] (srt : Argsort) (mid : P → P → P) (points : List P)
    (hn : points.length = 12) (n : Nat) :
    (build srt mid points n).points.length = 10 * 4 ^ n + 2 ∧
    (build srt mid points n).edges.length = 30 * 4 ^ n ∧
    (build srt mid points n).triangles.length = 20 * 4 ^ n := by
  induction n with
  | zero =>
    have hg := good_base srt points hn
    have := edges_length hg
    exact ⟨hg.numPoints, this.1, this.2⟩
  | succ n ih =>
    obtain ⟨h1, h2, h3⟩ := ih
    have hE : (build srt mid points (n + 1)).edges.length = 30 * 4 ^ (n + 1) := by
      simp only [build, subdivide]
      rw [childEdges_length srt _ _ (20 * 4 ^ n) _ (by rw [h2]; omega), h2, pow_succ]
      omega
    refine ⟨?_, hE, ?_⟩
    · simp only [build, subdivide, List.length_append, List.length_map, h1, h2, pow_succ]
      omega
    · simp only [build, subdivide] at hE ⊢
      exact trianglesOf_length srt _ _ (by rw [hE]; omega)

/-- **C28.**  Euler's formula for the sphere. -/
theorem c28_euler {P : Type} [Inhabited P] (srt : Argsort) (mid : P → P → P) (points : List P)
    (hn : points.length = 12) (n : Nat) :
    (build srt mid points n).points.length + (build srt mid points n).triangles.length =
      (build srt mid points n).edges.length + 2 := by
  obtain ⟨h1, h2, h3⟩ := c28_counts srt mid points hn n
  rw [h1, h2, h3]
  omega

/-- **C28.**  The number of triangles which `n_triangles_at_level` computes is the number in the
mesh. -/
theorem c28_n_triangles {P : Type} [Inhabited P] (srt : Argsort) (mid : P → P → P)
    (points : List P) (hn : points.length = 12) (n : Nat) :
    nTrianglesAtLevel n = (build srt mid points n).triangles.length := by
  rw [(c28_counts srt mid points hn n).2.2]
  unfold nTrianglesAtLevel
  induction n with
  | zero => rfl
  | succ n ih => rw [List.range_succ, List.foldl_append, ih, pow_succ]; simp [Nat.mul_assoc]

/-! ### C29: a closed oriented surface -/

theorem sides_eq (ts : List Tri) :
    ts.flatMap Tri.sides = (ts.flatMap Tri.halves).map (fun h => (h.a, h.b)) := by
  rw [List.map_flatMap]; rfl

theorem sides_perm {P : Type} {L : Nat} {m : Mesh P} (hg : Good L m) :
    (m.triangles.flatMap Tri.sides).Perm (m.edges.flatMap (fun e => [(e.a, e.b), (e.b, e.a)])) := by
  rw [sides_eq]
  refine (hg.halves.symm.map _).trans (List.Perm.of_eq ?_)
  rw [List.map_flatMap]; rfl

theorem closed_of_good {P : Type} {L : Nat} {m : Mesh P} (hg : Good L m) :
    ClosedOriented m.triangles := by
  have hp := sides_perm hg
  constructor
  · intro s hs
    rw [hp.mem_iff, List.mem_flatMap] at hs
    obtain ⟨e, he, hs⟩ := hs
    have := (hg.ends e he).2.2
    simp only [List.mem_cons, List.not_mem_nil, or_false] at hs
    rcases hs with rfl | rfl
    · exact this
    · exact this.symm
  · rw [hp.nodup_iff, List.nodup_flatMap]
    refine ⟨?_, ?_⟩
    · intro e he
      have := (hg.ends e he).2.2
      simp [this]
    · refine hg.simple.imp ?_
      intro e f hne
      rw [Function.onFun, List.disjoint_left]
      intro x hx hy
      apply hne
      unfold SameEnds
      simp only [List.mem_cons, List.not_mem_nil, or_false] at hx hy
      rcases hx with rfl | rfl <;> rcases hy with hy | hy <;>
        (simp only [Prod.mk.injEq] at hy; omega)
  · intro s hs
    rw [hp.mem_iff, List.mem_flatMap] at hs ⊢
    obtain ⟨e, he, hs⟩ := hs
    refine ⟨e, he, ?_⟩
    simp only [List.mem_cons, List.not_mem_nil, or_false] at hs ⊢
    rcases hs with rfl | rfl
    · exact Or.inr rfl
    · exact Or.inl rfl

/-- **C29.**  At every level which 64 bit identifiers allow, the triangles form a closed surface with
consistent orientation. -/
theorem c29_closed {P : Type} [Inhabited P] (srt : Argsort) (mid : P → P → P) (points : List P)
    (hn : points.length = 12) (n : Nat) (h : n ≤ 28) :
    ClosedOriented (build srt mid points n).triangles :=
  closed_of_good (good_build srt mid points hn n h)

/-- **C29.**  The edge array lists each side of the triangles once: each row names two different
triangles which go along it in opposite directions, and nothing is missing or repeated. -/
theorem c29_edges {P : Type} [Inhabited P] (srt : Argsort) (mid : P → P → P) (points : List P)
    (hn : points.length = 12) (n : Nat) (h : n ≤ 28) :
    (∀ e ∈ (build srt mid points n).edges,
      ∃ t ∈ (build srt mid points n).triangles, ∃ u ∈ (build srt mid points n).triangles,
        t ≠ u ∧ t.id = e.t0 ∧ u.id = e.t1 ∧
        t.sides[e.k0]? = some (e.a, e.b) ∧ u.sides[e.k1]? = some (e.b, e.a)) ∧
    ((build srt mid points n).triangles.flatMap Tri.sides).Perm
      ((build srt mid points n).edges.flatMap (fun e => [(e.a, e.b), (e.b, e.a)])) := by
  have hg := good_build srt mid points hn n h
  refine ⟨?_, sides_perm hg⟩
  intro e he
  have key : ∀ x ∈ e.halves, ∃ t ∈ (build srt mid points n).triangles, t.id = x.t ∧
      t.sides[x.k]? = some (x.a, x.b) := by
    intro x hx
    have h1 : x ∈ (build srt mid points n).triangles.flatMap Tri.halves := by
      rw [← hg.halves.mem_iff, List.mem_flatMap]
      exact ⟨e, he, hx⟩
    rw [List.mem_flatMap] at h1
    obtain ⟨t, ht, hmem⟩ := h1
    refine ⟨t, ht, ?_⟩
    simp only [Tri.halves, List.mem_cons, List.not_mem_nil, or_false] at hmem
    rcases hmem with rfl | rfl | rfl <;> simp [Tri.sides]
  obtain ⟨t, ht, ht1, ht2⟩ := key ⟨e.a, e.b, e.t0, e.k0⟩ (by simp [Edge.halves])
  obtain ⟨u, hu, hu1, hu2⟩ := key ⟨e.b, e.a, e.t1, e.k1⟩ (by simp [Edge.halves])
  refine ⟨t, ht, u, hu, ?_, ht1, hu1, ht2, hu2⟩
  rintro rfl
  exact hg.across e he (ht1.symm.trans hu1)

/-- Every point index is that of a point of the mesh. -/
theorem c29_points {P : Type} [Inhabited P] (srt : Argsort) (mid : P → P → P) (points : List P)
    (hn : points.length = 12) (n : Nat) (h : n ≤ 28) :
    ∀ t ∈ (build srt mid points n).triangles,
      t.p0 < (build srt mid points n).points.length ∧
      t.p1 < (build srt mid points n).points.length ∧
      t.p2 < (build srt mid points n).points.length := by
  have hg := good_build srt mid points hn n h
  intro t ht
  have key : ∀ s ∈ t.sides, s.1 < (build srt mid points n).points.length := by
    intro s hs
    have : s ∈ (build srt mid points n).triangles.flatMap Tri.sides :=
      List.mem_flatMap.2 ⟨t, ht, hs⟩
    rw [(sides_perm hg).mem_iff, List.mem_flatMap] at this
    obtain ⟨e, he, hs⟩ := this
    have h1 := hg.ends e he
    simp only [List.mem_cons, List.not_mem_nil, or_false] at hs
    rcases hs with rfl | rfl
    · exact h1.1
    · exact h1.2.1
  exact ⟨key (t.p0, t.p1) (by simp [Tri.sides]), key (t.p1, t.p2) (by simp [Tri.sides]),
    key (t.p2, t.p0) (by simp [Tri.sides])⟩

/-! ### C30: identifiers -/

theorem tri_id {P : Type} {L : Nat} {m : Mesh P} (hg : Good L m) {n : Nat} {t : Tri}
    (ht : m.triangles[n]? = some t) : t.id.toNat = n * 2 ^ (58 - 2 * L) ∧ n < 20 * 4 ^ L := by
  have h1 := congrArg (fun l => l[n]?) hg.ids
  simp only [List.getElem?_map, ht, Option.map_some] at h1
  have hlt : n < 20 * 4 ^ L := by
    by_contra hc
    rw [List.getElem?_eq_none (by simpa using hc)] at h1
    simp at h1
  rw [List.getElem?_range hlt] at h1
  simp only [Option.map_some, Option.some.injEq] at h1
  exact ⟨h1, hlt⟩

theorem index_of_id {id : Id} {n L l : Nat} (hid : id.toNat = n * 2 ^ (58 - 2 * L)) (hl : l ≤ L)
    (hL : L ≤ 29) : indexAtLevel id l = n / 4 ^ (L - l) := by
  unfold indexAtLevel
  rw [hashShift_eq (by omega), BitVec.toNat_ushiftRight, hid, Nat.shiftRight_eq_div_pow]
  have h4 : (4 : Nat) ^ (L - l) = 2 ^ (2 * (L - l)) := by
    rw [pow_mul]; norm_num
  have h5 : 58 - 2 * l = (58 - 2 * L) + 2 * (L - l) := by omega
  rw [h4, h5, pow_add, ← Nat.div_div_eq_div_mul, Nat.mul_div_cancel _ (Nat.two_pow_pos _)]

/-- **C30.**  Identifiers are increasing along the array, and shifting an identifier down gives the
position of its triangle.  At a coarser level it gives the position of the ancestor, `n / 4^k`. -/
theorem c30_position {P : Type} [Inhabited P] (srt : Argsort) (mid : P → P → P) (points : List P)
    (hn : points.length = 12) (L : Nat) (hL : L ≤ 28) (n : Nat) (t : Tri)
    (ht : (build srt mid points L).triangles[n]? = some t) :
    t.id.toNat = n * 2 ^ (58 - 2 * L) ∧ indexAtLevel t.id L = n ∧
    ∀ l, l ≤ L → indexAtLevel t.id l = n / 4 ^ (L - l) := by
  have hid := (tri_id (good_build srt mid points hn L hL) ht).1
  refine ⟨hid, ?_, fun l hl => index_of_id hid hl (by omega)⟩
  rw [index_of_id hid (le_refl L) (by omega)]
  simp

/-- **C30.**  No two triangles have the same identifier, and identifiers increase along the array. -/
theorem c30_distinct {P : Type} [Inhabited P] (srt : Argsort) (mid : P → P → P) (points : List P)
    (hn : points.length = 12) (L : Nat) (hL : L ≤ 28) :
    (build srt mid points L).triangles.Pairwise (fun t u => t.id.toNat < u.id.toNat) := by
  refine (ids_spaced (good_build srt mid points hn L hL).ids).imp ?_
  intro t u h
  have := Nat.two_pow_pos (58 - 2 * L)
  omega

theorem getElem?_flatMap_four {α β : Type} (f : α → List β) (hf : ∀ x, (f x).length = 4)
    (l : List α) (n k : Nat) (hk : k < 4) :
    (l.flatMap f)[4 * n + k]? = (l[n]?).bind (fun x => (f x)[k]?) := by
  induction l generalizing n with
  | nil => simp
  | cons a l ih =>
    rw [List.flatMap_cons]
    cases n with
    | zero =>
      rw [List.getElem?_append_left (by rw [hf]; omega)]
      simp
    | succ n =>
      rw [List.getElem?_append_right (by rw [hf]; omega), hf]
      have : 4 * (n + 1) + k - 4 = 4 * n + k := by omega
      rw [this, ih]
      simp

/-- **C30.**  The triangles at positions `4n, ..., 4n+3` of the next level are the four parts of
triangle `n`: their points are its points and the points made for its three sides. -/
theorem c30_child {P : Type} [Inhabited P] (srt : Argsort) (mid : P → P → P) (points : List P)
    (hn : points.length = 12) (L : Nat) (hL : L + 1 ≤ 28) (n : Nat) (t : Tri)
    (ht : (build srt mid points L).triangles[n]? = some t) :
    ∃ i0 i1 i2 : Nat,
      (∀ k, k < 4 → (build srt mid points (L + 1)).triangles[4 * n + k]? =
        (children (58 - 2 * (L + 1)) t
          ((build srt mid points L).points.length + i0, (build srt mid points L).points.length + i1,
            (build srt mid points L).points.length + i2))[k]?) ∧
      (∃ e, (build srt mid points L).edges[i0]? = some e ∧
        ((e.a = t.p0 ∧ e.b = t.p1) ∨ (e.a = t.p1 ∧ e.b = t.p0))) ∧
      (∃ e, (build srt mid points L).edges[i1]? = some e ∧
        ((e.a = t.p1 ∧ e.b = t.p2) ∨ (e.a = t.p2 ∧ e.b = t.p1))) ∧
      (∃ e, (build srt mid points L).edges[i2]? = some e ∧
        ((e.a = t.p2 ∧ e.b = t.p0) ∨ (e.a = t.p0 ∧ e.b = t.p2))) := by
  obtain ⟨_, mids, hl, hmid, hT, _⟩ := step (good_build srt mid points hn L (by omega)) hL srt mid
  have hlt := (List.getElem?_eq_some_iff.1 ht).1
  have hmn : ∃ mm, mids[n]? = some mm := ⟨mids[n]'(by omega), List.getElem?_eq_getElem (by omega)⟩
  obtain ⟨⟨m0, m1, m2⟩, hmn⟩ := hmn
  have hz : ((build srt mid points L).triangles.zip mids)[n]? = some (t, m0, m1, m2) := by
    rw [List.getElem?_zip_eq_some]
    exact ⟨ht, hmn⟩
  have hzm := List.mem_of_getElem? hz
  have n0 := hmid _ hzm (⟨t.p0, t.p1, t.id, 0⟩, m0) (by simp [mark3])
  have n1 := hmid _ hzm (⟨t.p1, t.p2, t.id, 1⟩, m1) (by simp [mark3])
  have n2 := hmid _ hzm (⟨t.p2, t.p0, t.id, 2⟩, m2) (by simp [mark3])
  obtain ⟨i0, e0, h0, he0, hh0⟩ := n0
  obtain ⟨i1, e1, h1, he1, hh1⟩ := n1
  obtain ⟨i2, e2, h2, he2, hh2⟩ := n2
  simp only at h0 h1 h2
  subst h0 h1 h2
  have key : ∀ (e : Edge) (p q : Nat) (id : Id) (k : Nat), (⟨p, q, id, k⟩ : Half) ∈ e.halves →
      (e.a = p ∧ e.b = q) ∨ (e.a = q ∧ e.b = p) := by
    intro e p q id k h
    simp only [Edge.halves, List.mem_cons, List.not_mem_nil, or_false, Half.mk.injEq] at h
    rcases h with ⟨a, b, _⟩ | ⟨a, b, _⟩
    · exact Or.inl ⟨a.symm, b.symm⟩
    · exact Or.inr ⟨b.symm, a.symm⟩
  refine ⟨i0, i1, i2, ?_, ⟨e0, he0, key _ _ _ _ _ hh0⟩, ⟨e1, he1, key _ _ _ _ _ hh1⟩,
    ⟨e2, he2, key _ _ _ _ _ hh2⟩⟩
  intro k hk
  show (subdivide srt mid (build srt mid points L)).triangles[4 * n + k]? = _
  rw [hT, getElem?_flatMap_four _ (fun _ => rfl) _ _ _ hk, hz]
  rfl

/-- **C30.**  The triangles which `super_triangle_at_level` finds inside coarse triangle `j` are those
at positions `j*4^k, ..., (j+1)*4^k - 1`, `k` the number of levels between. -/
theorem c30_super {P : Type} [Inhabited P] (srt : Argsort) (mid : P → P → P) (points : List P)
    (hn : points.length = 12) (L : Nat) (hL : L ≤ 28) (l : Nat) (hl : l ≤ L) (j i : Nat)
    (hj : j < 20 * 4 ^ l) :
    i ∈ superTriangleAtLevel (build srt mid points L) l j ↔
      j * 4 ^ (L - l) ≤ i ∧ i < (j + 1) * 4 ^ (L - l) := by
  have hg := good_build srt mid points hn L hL
  have hlen := (edges_length hg).2
  have hp : 0 < 4 ^ (L - l) := Nat.pow_pos (by omega)
  unfold superTriangleAtLevel
  rw [List.mem_filter, List.mem_range]
  have hdiv : ∀ i, i / 4 ^ (L - l) = j ↔ j * 4 ^ (L - l) ≤ i ∧ i < (j + 1) * 4 ^ (L - l) := by
    intro i
    rw [Nat.div_eq_iff hp]
    have : (j + 1) * 4 ^ (L - l) = j * 4 ^ (L - l) + 4 ^ (L - l) := by ring
    omega
  constructor
  · rintro ⟨hi, hx⟩
    obtain ⟨t, ht⟩ : ∃ t, (build srt mid points L).triangles[i]? = some t :=
      ⟨_, List.getElem?_eq_getElem hi⟩
    rw [ht] at hx
    simp only [Option.map_some, beq_iff_eq, Option.some.injEq] at hx
    rw [index_of_id (tri_id hg ht).1 hl (by omega)] at hx
    exact (hdiv i).1 hx
  · intro hx
    have hi : i < (build srt mid points L).triangles.length := by
      rw [hlen]
      refine lt_of_lt_of_le hx.2 ?_
      have h1 : (4 : Nat) ^ L = 4 ^ l * 4 ^ (L - l) := by rw [← pow_add]; congr 1; omega
      rw [h1, ← Nat.mul_assoc]
      exact Nat.mul_le_mul_right _ hj
    refine ⟨hi, ?_⟩
    obtain ⟨t, ht⟩ : ∃ t, (build srt mid points L).triangles[i]? = some t :=
      ⟨_, List.getElem?_eq_getElem hi⟩
    rw [ht]
    simp only [Option.map_some, beq_iff_eq, Option.some.injEq]
    rw [index_of_id (tri_id hg ht).1 hl (by omega)]
    exact (hdiv i).2 hx

/-- **C30.**  Every coarse triangle has exactly `4^k` descendants `k` levels below. -/
theorem c30_descendants {P : Type} [Inhabited P] (srt : Argsort) (mid : P → P → P)
    (points : List P) (hn : points.length = 12) (L : Nat) (hL : L ≤ 28) (l : Nat) (hl : l ≤ L)
    (j : Nat) (hj : j < 20 * 4 ^ l) :
    superTriangleAtLevel (build srt mid points L) l j =
      List.range' (j * 4 ^ (L - l)) (4 ^ (L - l)) := by
  have h1 : (superTriangleAtLevel (build srt mid points L) l j).Pairwise (· < ·) :=
    List.Pairwise.filter _ List.pairwise_lt_range
  have h2 : (List.range' (j * 4 ^ (L - l)) (4 ^ (L - l))).Pairwise (· < ·) := List.pairwise_lt_range'
  refine List.Perm.eq_of_pairwise (le := fun a b => a < b) ?_ h1 h2 ?_
  · intro a b _ _ hab hba; omega
  · rw [List.perm_ext_iff_of_nodup (h1.imp (fun h => Nat.ne_of_lt h))
      (h2.imp (fun h => Nat.ne_of_lt h))]
    intro i
    rw [c30_super srt mid points hn L hL l hl j i hj, List.mem_range'_1]
    have : (j + 1) * 4 ^ (L - l) = j * 4 ^ (L - l) + 4 ^ (L - l) := by ring
    omega

/-- Two triangles have a point in common. -/
def Touch (t u : Tri) : Prop := ∃ v, (v = t.p0 ∨ v = t.p1 ∨ v = t.p2) ∧ (v = u.p0 ∨ v = u.p1 ∨ v = u.p2)

theorem sharesPoint_iff (t c : Tri) : sharesPoint t c = true ↔ Touch t c := by
  unfold sharesPoint Touch
  simp only [Bool.or_eq_true, beq_iff_eq]
  constructor
  · rintro (h | h) 
    · rcases h with h | h
      · exact ⟨c.p0, by omega, by omega⟩
      · exact ⟨c.p1, by omega, by omega⟩
    · exact ⟨c.p2, by omega, by omega⟩
  · rintro ⟨v, h1, h2⟩
    rcases h2 with rfl | rfl | rfl <;> omega

/-- **C30.**  `neighbours_at_level` gives exactly the triangles whose ancestor at the neighbourhood
level has a point in common with the centre triangle there. -/
theorem c30_neighbours {P : Type} [Inhabited P] (srt srt' : Argsort) (mid : P → P → P)
    (points : List P) (hn : points.length = 12) (L : Nat) (hL : L ≤ 28) (l : Nat) (hl : l ≤ L)
    (j i : Nat) (hj : j < 20 * 4 ^ l) :
    i ∈ neighboursAtLevel (build srt mid points L) (build srt' mid points l) l j ↔
      i < 20 * 4 ^ L ∧ ∃ t c, (build srt' mid points l).triangles[i / 4 ^ (L - l)]? = some t ∧
        (build srt' mid points l).triangles[j]? = some c ∧ Touch t c := by
  have hg := good_build srt mid points hn L hL
  have hg' := good_build srt' mid points hn l (by omega)
  have hlen := (edges_length hg).2
  have hlen' := (edges_length hg').2
  obtain ⟨c, hc⟩ : ∃ c, (build srt' mid points l).triangles[j]? = some c :=
    ⟨_, List.getElem?_eq_getElem (by omega)⟩
  unfold neighboursAtLevel
  rw [hc]
  simp only [List.mem_filter, List.mem_range, hlen]
  constructor
  · rintro ⟨hi, hx⟩
    refine ⟨hi, ?_⟩
    obtain ⟨u, hu⟩ : ∃ u, (build srt mid points L).triangles[i]? = some u :=
      ⟨_, List.getElem?_eq_getElem (by omega)⟩
    rw [hu] at hx
    simp only [decide_eq_true_eq] at hx
    obtain ⟨x, hx⟩ := List.exists_mem_of_length_pos hx
    rw [List.mem_filter, List.mem_map] at hx
    obtain ⟨⟨t, ht, rfl⟩, he⟩ := hx
    rw [List.mem_filter, sharesPoint_iff] at ht
    simp only [beq_iff_eq] at he
    rw [index_of_id (tri_id hg hu).1 hl (by omega)] at he
    obtain ⟨q, hq⟩ := List.mem_iff_getElem?.1 ht.1
    rw [index_of_id (tri_id hg' hq).1 (le_refl l) (by omega)] at he
    simp only [Nat.sub_self, pow_zero, Nat.div_one] at he
    refine ⟨t, c, ?_, rfl, ht.2⟩
    rw [he]; exact hq
  · rintro ⟨hi, t, c', ht, hc', htouch⟩
    simp only [Option.some.injEq] at hc'
    subst hc'
    refine ⟨hi, ?_⟩
    obtain ⟨u, hu⟩ : ∃ u, (build srt mid points L).triangles[i]? = some u :=
      ⟨_, List.getElem?_eq_getElem (by omega)⟩
    rw [hu]
    simp only [decide_eq_true_eq]
    apply List.length_pos_of_mem (a := indexAtLevel t.id l)
    rw [List.mem_filter, List.mem_map]
    refine ⟨⟨t, ?_, rfl⟩, ?_⟩
    · rw [List.mem_filter, sharesPoint_iff]
      exact ⟨List.mem_of_getElem? ht, htouch⟩
    · simp only [beq_iff_eq]
      rw [index_of_id (tri_id hg hu).1 hl (by omega),
        index_of_id (tri_id hg' ht).1 (le_refl l) (by omega)]
      simp

/-- At level 29 the two bits of the last child number are the two lowest bits, which the sort of
line 369 also uses for the edge number: sides of one triangle get equal keys, so their order, and
with it the order of the points in the triangle array, is left to chance.  This is why the theorems
above stop at level 28. -/
theorem c30_level_29_violated (t : Id) :
    hashShift 29 = 0 ∧
    halfKey ⟨0, 1, childId t 3 (hashShift 29), 0⟩ = halfKey ⟨1, 2, childId t 3 (hashShift 29), 1⟩ := by
  have h : hashShift 29 = 0 := by decide
  refine ⟨h, ?_⟩
  rw [h]
  unfold halfKey childId
  rw [BitVec.or_assoc, BitVec.or_assoc]
  have : (BitVec.ofNat 64 3 <<< 0 ||| BitVec.ofNat 64 0) =
    (BitVec.ofNat 64 3 <<< 0 ||| BitVec.ofNat 64 1) := by decide
  rw [this]

end Verif.Eustace.Mesh
