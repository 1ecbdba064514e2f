import Verif.Eustace.SphereView.Matrices

/-!
C65 and C102 on the meshes which the code builds: super triangles, neighbourhoods, the global view.
-/

namespace Verif.Eustace.SphereView

open Matrix Verif.Eustace.Linear Verif.Eustace.Mesh Verif.Eustace.Locator Verif.Eustace.Locator.V3 Verif.Eustace.SphereSpde

noncomputable section

/-! ### Super triangles -/

/-- The triangles of super triangle `j`. -/
def core (L l j : Nat) : List Nat := List.range' (j * 4 ^ (L - l)) (4 ^ (L - l))

theorem makeView_sorted {m : Mesh V3} {a : List Nat} (hv : Valid m a) (hs : a.Pairwise (· < ·)) : makeView m a = .ok a := by
  rw [makeView, if_neg, npSort_sorted hs]
  rw [Bool.not_eq_true, List.any_eq_false]
  intro i hi
  have := hv i hi
  simpa using this

theorem core_lt {L l j i : Nat} (hl : l ≤ L) (hj : j < 20 * 4 ^ l) (hi : i ∈ core L l j) : i < 20 * 4 ^ L := by
  rw [core, List.mem_range'_1] at hi
  have h1 : (4 : Nat) ^ L = 4 ^ l * 4 ^ (L - l) := by rw [← pow_add]; congr 1; omega
  calc i < (j + 1) * 4 ^ (L - l) := by rw [Nat.add_mul, one_mul]; exact hi.2
    _ ≤ 20 * 4 ^ l * 4 ^ (L - l) := Nat.mul_le_mul_right _ hj
    _ = 20 * 4 ^ L := by rw [h1, mul_assoc]

theorem makeSuper_ok (srt : Argsort) {pts : List V3} (hn : pts.length = 12) (L : Nat) (hL : L ≤ 28) (l : Nat) (hl : l ≤ L)
    (j : Nat) (hj : j < 20 * 4 ^ l) : makeSuper (build srt midOnSphere pts L) l j = .ok (core L l j) := by
  rw [makeSuper, c30_descendants srt midOnSphere pts hn L hL l hl j hj]
  refine makeView_sorted ?_ List.pairwise_lt_range'
  intro i hi
  rw [(c28_counts srt midOnSphere pts hn L).2.2]
  exact core_lt hl hj hi

theorem cores_flatten (k : Nat) : ∀ n, ((List.range n).map fun j => List.range' (j * k) k).flatten = List.range (n * k)
  | 0 => by simp
  | n + 1 => by
    rw [List.range_succ, List.map_append, List.flatten_append, cores_flatten k n]
    simp only [List.map_cons, List.map_nil, List.flatten_cons, List.flatten_nil, List.append_nil]
    rw [List.range_eq_range', List.range_eq_range', Nat.add_mul, one_mul]
    have := List.range'_append (s := 0) (m := n * k) (n := k) (step := 1)
    simpa using this

/-- **C65.**  The views of the super triangles of a level are all made, each triangle of the mesh is in exactly one of them,
and together they list every triangle once. -/
theorem c65_tiling (srt : Argsort) {pts : List V3} (hn : pts.length = 12) (L : Nat) (hL : L ≤ 28) (l : Nat) (hl : l ≤ L) :
    ∃ views : List (List Nat), views.length = nTrianglesAtLevel l ∧
      (∀ j a, views[j]? = some a → makeSuper (build srt midOnSphere pts L) l j = .ok a) ∧
      (∀ i < (build srt midOnSphere pts L).triangles.length, ∃! j : Nat, ∃ a : List Nat, views[j]? = some a ∧ i ∈ a) ∧
      views.flatten.Perm (List.range (build srt midOnSphere pts L).triangles.length) := by
  have hT := (c28_counts srt midOnSphere pts hn L).2.2
  have hN : nTrianglesAtLevel l = 20 * 4 ^ l := by
    rw [c28_n_triangles srt midOnSphere pts hn l, (c28_counts srt midOnSphere pts hn l).2.2]
  have h4 : (4 : Nat) ^ L = 4 ^ l * 4 ^ (L - l) := by rw [← pow_add]; congr 1; omega
  have hpos : 0 < 4 ^ (L - l) := by positivity
  have hget : ∀ j a, ((List.range (20 * 4 ^ l)).map (core L l))[j]? = some a → j < 20 * 4 ^ l ∧ a = core L l j := by
    intro j a h
    have hj : j < 20 * 4 ^ l := by
      have := (List.getElem?_eq_some_iff.1 h).1
      simpa using this
    rw [List.getElem?_map, List.getElem?_range hj] at h
    simp only [Option.map_some, Option.some.injEq] at h
    exact ⟨hj, h.symm⟩
  refine ⟨(List.range (20 * 4 ^ l)).map (core L l), by rw [hN]; simp, ?_, ?_, ?_⟩
  · intro j a h
    obtain ⟨hj, rfl⟩ := hget j a h
    exact makeSuper_ok srt hn L hL l hl j hj
  · intro i hi
    rw [hT, h4, ← mul_assoc] at hi
    have hj : i / 4 ^ (L - l) < 20 * 4 ^ l := by
      rw [Nat.div_lt_iff_lt_mul hpos]; exact hi
    refine ⟨i / 4 ^ (L - l), ⟨core L l (i / 4 ^ (L - l)), ?_, ?_⟩, ?_⟩
    · rw [List.getElem?_map, List.getElem?_range hj]; rfl
    · rw [core, List.mem_range'_1]
      have h1 := Nat.div_mul_le_self i (4 ^ (L - l))
      have h2 := Nat.lt_div_mul_add hpos (a := i)
      exact ⟨h1, h2⟩
    · rintro j ⟨a, ha, hia⟩
      obtain ⟨_, rfl⟩ := hget j a ha
      rw [core, List.mem_range'_1] at hia
      symm
      rw [Nat.div_eq_iff hpos]
      constructor
      · exact hia.1
      · have := hia.2; omega
  · have : ((List.range (20 * 4 ^ l)).map (core L l)).flatten = List.range (20 * 4 ^ l * 4 ^ (L - l)) :=
      cores_flatten (4 ^ (L - l)) (20 * 4 ^ l)
    rw [this, hT, h4, ← mul_assoc]

/-- **C102.**  The matrices of the super triangles of one level add up to those of the whole sphere. -/
theorem c102_super (srt : Argsort) {pts : List V3} (hg : GoodPoints pts) (L : Nat) (hL : L ≤ 28) (l : Nat) (hl : l ≤ L) :
    ∃ (views : List (List Nat)) (C G : (a : List Nat) → Mat (size (build srt midOnSphere pts L) a)),
      views.length = nTrianglesAtLevel l ∧
      (∀ j a, views[j]? = some a → makeSuper (build srt midOnSphere pts L) l j = .ok a) ∧
      (∀ a, viewCTilde (build srt midOnSphere pts L) a = .ok (C a) ∧ viewG (build srt midOnSphere pts L) a = .ok (G a)) ∧
      (views.map fun a => (vertexMappings (build srt midOnSphere pts L) a)ᵀ * C a *
        vertexMappings (build srt midOnSphere pts L) a).sum = buildCTilde (build srt midOnSphere pts L) ∧
      (views.map fun a => (vertexMappings (build srt midOnSphere pts L) a)ᵀ * G a *
        vertexMappings (build srt midOnSphere pts L) a).sum = buildG (build srt midOnSphere pts L) := by
  obtain ⟨views, h1, h2, _, h4⟩ := c65_tiling srt hg.num L hL l hl
  obtain ⟨C, G, hCG, hC, hG⟩ := c102_assembly (c45_mesh srt hg L hL) views h4
  exact ⟨views, C, G, h1, h2, hCG, hC, hG⟩

/-! ### Neighbourhoods -/

theorem child_corners {P : Type} [Inhabited P] (srt : Argsort) (mid : P → P → P) (points : List P)
    (hn : points.length = 12) (L : Nat) (hL : L + 1 ≤ 28) {i : Nat} {u : Tri}
    (hu : (build srt mid points (L + 1)).triangles[i]? = some u) :
    ∃ t, (build srt mid points L).triangles[i / 4]? = some t ∧ ∀ v, (v = u.p0 ∨ v = u.p1 ∨ v = u.p2) →
      (v < (build srt mid points L).points.length ∧ (v = t.p0 ∨ v = t.p1 ∨ v = t.p2)) ∨
      ∃ e, (build srt mid points L).points.length ≤ v ∧
        (build srt mid points L).edges[v - (build srt mid points L).points.length]? = some e ∧
        (e.a = t.p0 ∨ e.a = t.p1 ∨ e.a = t.p2) := by
  have hlt : i < 20 * 4 ^ (L + 1) := by
    rw [← (c28_counts srt mid points hn (L + 1)).2.2]
    exact (List.getElem?_eq_some_iff.1 hu).1
  have hq : i / 4 < (build srt mid points L).triangles.length := by
    rw [(c28_counts srt mid points hn L).2.2, Nat.div_lt_iff_lt_mul (by norm_num), mul_assoc, ← pow_succ]
    exact hlt
  refine ⟨_, List.getElem?_eq_getElem hq, ?_⟩
  have ht : (build srt mid points L).triangles[i / 4]? = some (build srt mid points L).triangles[i / 4] :=
    List.getElem?_eq_getElem hq
  have hin := c29_points srt mid points hn L (by omega) _ (List.mem_of_getElem? ht)
  obtain ⟨i0, i1, i2, hc, ⟨e0, he0, h0⟩, ⟨e1, he1, h1⟩, ⟨e2, he2, h2⟩⟩ := c30_child srt mid points hn L hL _ _ ht
  generalize (build srt mid points L).triangles[i / 4] = t at *
  have hk := hc (i % 4) (Nat.mod_lt _ (by norm_num))
  rw [show 4 * (i / 4) + i % 4 = i by omega, hu] at hk
  generalize hN : (build srt mid points L).points.length = N at *
  have m0 : ∃ e, N ≤ N + i0 ∧ (build srt mid points L).edges[N + i0 - N]? = some e ∧
      (e.a = t.p0 ∨ e.a = t.p1 ∨ e.a = t.p2) := by
    refine ⟨e0, by omega, by rw [Nat.add_sub_cancel_left]; exact he0, ?_⟩
    rcases h0 with h | h
    · exact .inl h.1
    · exact .inr (.inl h.1)
  have m1 : ∃ e, N ≤ N + i1 ∧ (build srt mid points L).edges[N + i1 - N]? = some e ∧
      (e.a = t.p0 ∨ e.a = t.p1 ∨ e.a = t.p2) := by
    refine ⟨e1, by omega, by rw [Nat.add_sub_cancel_left]; exact he1, ?_⟩
    rcases h1 with h | h
    · exact .inr (.inl h.1)
    · exact .inr (.inr h.1)
  have m2 : ∃ e, N ≤ N + i2 ∧ (build srt mid points L).edges[N + i2 - N]? = some e ∧
      (e.a = t.p0 ∨ e.a = t.p1 ∨ e.a = t.p2) := by
    refine ⟨e2, by omega, by rw [Nat.add_sub_cancel_left]; exact he2, ?_⟩
    rcases h2 with h | h
    · exact .inr (.inr h.1)
    · exact .inl h.1
  have hk4 : i % 4 < 4 := Nat.mod_lt _ (by norm_num)
  generalize i % 4 = k at *
  have hks : k = 0 ∨ k = 1 ∨ k = 2 ∨ k = 3 := by omega
  rcases hks with rfl | rfl | rfl | rfl <;>
    simp only [children, List.getElem?_cons_zero, List.getElem?_cons_succ, Option.some.injEq] at hk <;>
    subst hk <;> rintro v (rfl | rfl | rfl) <;> simp only
  · exact .inl ⟨hin.1, by simp⟩
  · exact .inr m0
  · exact .inr m2
  · exact .inr m0
  · exact .inl ⟨hin.2.1, by simp⟩
  · exact .inr m1
  · exact .inr m2
  · exact .inr m1
  · exact .inl ⟨hin.2.2, by simp⟩
  · exact .inr m1
  · exact .inr m2
  · exact .inr m0

/-- Triangles which touch lie in parents which touch. -/
theorem touch_parent {P : Type} [Inhabited P] (srt : Argsort) (mid : P → P → P) (points : List P)
    (hn : points.length = 12) (L : Nat) (hL : L + 1 ≤ 28) {i j : Nat} {t u : Tri}
    (ht : (build srt mid points (L + 1)).triangles[i]? = some t)
    (hu : (build srt mid points (L + 1)).triangles[j]? = some u) (h : Touch t u) :
    ∃ t' u', (build srt mid points L).triangles[i / 4]? = some t' ∧
      (build srt mid points L).triangles[j / 4]? = some u' ∧ Touch t' u' := by
  obtain ⟨t', ht', h1⟩ := child_corners srt mid points hn L hL ht
  obtain ⟨u', hu', h2⟩ := child_corners srt mid points hn L hL hu
  obtain ⟨v, hv, hv'⟩ := h
  refine ⟨t', u', ht', hu', ?_⟩
  rcases h1 v hv with ⟨a, b⟩ | ⟨e, a, b, c⟩ <;> rcases h2 v hv' with ⟨a', b'⟩ | ⟨e', a', b', c'⟩
  · exact ⟨v, b, b'⟩
  · omega
  · omega
  · rw [b] at b'
    injection b' with b'
    subst b'
    exact ⟨e.a, c, c'⟩

theorem touch_ancestor {P : Type} [Inhabited P] (srt : Argsort) (mid : P → P → P) (points : List P)
    (hn : points.length = 12) (l : Nat) : ∀ (d : Nat), l + d ≤ 28 → ∀ {i j : Nat} {t u : Tri},
    (build srt mid points (l + d)).triangles[i]? = some t →
    (build srt mid points (l + d)).triangles[j]? = some u → Touch t u →
    ∃ t' u', (build srt mid points l).triangles[i / 4 ^ d]? = some t' ∧
      (build srt mid points l).triangles[j / 4 ^ d]? = some u' ∧ Touch t' u'
  | 0, _, i, j, t, u, ht, hu, h => ⟨t, u, by simpa using ht, by simpa using hu, h⟩
  | d + 1, hd, i, j, t, u, ht, hu, h => by
    obtain ⟨t1, u1, ht1, hu1, h1⟩ := touch_parent srt mid points hn (l + d) (by omega) ht hu h
    obtain ⟨t2, u2, ht2, hu2, h2⟩ := touch_ancestor srt mid points hn l d (by omega) ht1 hu1 h1
    refine ⟨t2, u2, ?_, ?_, h2⟩
    · rwa [Nat.div_div_eq_div_mul, ← pow_succ'] at ht2
    · rwa [Nat.div_div_eq_div_mul, ← pow_succ'] at hu2

theorem makeLocal_ok (srt : Argsort) {pts : List V3} (hn : pts.length = 12) (L l j : Nat) :
    makeLocal (build srt midOnSphere pts L) (build srt midOnSphere pts l) l j =
      .ok (neighboursAtLevel (build srt midOnSphere pts L) (build srt midOnSphere pts l) l j) ∧
    (neighboursAtLevel (build srt midOnSphere pts L) (build srt midOnSphere pts l) l j).Pairwise (· < ·) ∧
    Valid (build srt midOnSphere pts L)
      (neighboursAtLevel (build srt midOnSphere pts L) (build srt midOnSphere pts l) l j) := by
  have h1 : (neighboursAtLevel (build srt midOnSphere pts L) (build srt midOnSphere pts l) l j).Pairwise (· < ·) := by
    unfold neighboursAtLevel
    split
    · exact List.Pairwise.nil
    · exact List.pairwise_lt_range.filter _
  have h2 : Valid (build srt midOnSphere pts L)
      (neighboursAtLevel (build srt midOnSphere pts L) (build srt midOnSphere pts l) l j) := by
    intro i hi
    unfold neighboursAtLevel at hi
    split at hi
    · simp at hi
    · exact List.mem_range.1 (List.mem_filter.1 hi).1
  exact ⟨makeView_sorted h2 h1, h1, h2⟩

/-- **C65.**  The neighbourhood view around a coarse triangle contains the whole super triangle, and with every corner of
the triangles of the super triangle all triangles at that corner.  So the boundary of the view does not touch the core. -/
theorem c65_neighbourhood (srt : Argsort) {pts : List V3} (hn : pts.length = 12) (L : Nat) (hL : L ≤ 28) (l : Nat)
    (hl : l ≤ L) (j : Nat) (hj : j < 20 * 4 ^ l) :
    ∃ view region, makeLocal (build srt midOnSphere pts L) (build srt midOnSphere pts l) l j = .ok view ∧
      makeSuper (build srt midOnSphere pts L) l j = .ok region ∧ view.Nodup ∧ Valid (build srt midOnSphere pts L) view ∧
      (∀ i ∈ region, i ∈ view) ∧
      ∀ k, InRegion (build srt midOnSphere pts L) region k → Interior (build srt midOnSphere pts L) view k := by
  obtain ⟨h1, h2, h3⟩ := makeLocal_ok srt hn L l j
  have main : ∀ k, InRegion (build srt midOnSphere pts L) (core L l j) k →
      Interior (build srt midOnSphere pts L)
        (neighboursAtLevel (build srt midOnSphere pts L) (build srt midOnSphere pts l) l j) k := by
    rintro k ⟨i, hi, t, ht, hk⟩ i' u hu hk'
    have htouch : Touch u t := ⟨k, hk', hk⟩
    obtain ⟨d, rfl⟩ := Nat.exists_eq_add_of_le hl
    obtain ⟨t', u', ht', hu', h'⟩ := touch_ancestor srt midOnSphere pts hn l d hL hu ht htouch
    rw [c30_neighbours srt srt midOnSphere pts hn _ hL l hl j i' hj]
    have hd : l + d - l = d := by omega
    have hij : i / 4 ^ d = j := by
      rw [core, hd, List.mem_range'_1] at hi
      rw [Nat.div_eq_iff (by positivity)]
      exact ⟨hi.1, by have := hi.2; omega⟩
    rw [hij] at hu'
    refine ⟨?_, t', u', ?_, hu', h'⟩
    · rw [← (c28_counts srt midOnSphere pts hn (l + d)).2.2]
      exact (List.getElem?_eq_some_iff.1 hu).1
    · rw [hd]; exact ht'
  refine ⟨_, core L l j, h1, makeSuper_ok srt hn L hL l hl j hj, h2.imp fun h => h.ne, h3, ?_, main⟩
  intro i hi
  have hlt := core_lt hl hj hi
  rw [← (c28_counts srt midOnSphere pts hn L).2.2] at hlt
  have ht := List.getElem?_eq_getElem hlt
  exact main _ ⟨i, hi, _, ht, .inl rfl⟩ i _ ht (.inl rfl)

/-- **C102.**  On a neighbourhood view the rows of mass and stiffness matrix at the points of the core are those of the
whole sphere. -/
theorem c102_core_rows (srt : Argsort) {pts : List V3} (hg : GoodPoints pts) (L : Nat) (hL : L ≤ 28) (l : Nat)
    (hl : l ≤ L) (j : Nat) (hj : j < 20 * 4 ^ l) :
    ∃ view region C G, makeLocal (build srt midOnSphere pts L) (build srt midOnSphere pts l) l j = .ok view ∧
      makeSuper (build srt midOnSphere pts L) l j = .ok region ∧
      viewCTilde (build srt midOnSphere pts L) view = .ok C ∧ viewG (build srt midOnSphere pts L) view = .ok G ∧
      ∀ (c d : Fin (size (build srt midOnSphere pts L) view)) (k k' : Fin (build srt midOnSphere pts L).points.length),
        (activeVertices (build srt midOnSphere pts L) view)[c.val] = k.val →
        (activeVertices (build srt midOnSphere pts L) view)[d.val] = k'.val →
        InRegion (build srt midOnSphere pts L) region k.val →
        C c d = buildCTilde (build srt midOnSphere pts L) k k' ∧ G c d = buildG (build srt midOnSphere pts L) k k' := by
  obtain ⟨view, region, h1, h2, h3, h4, _, h6⟩ := c65_neighbourhood srt hg.num L hL l hl j hj
  obtain ⟨C, G, hC, hG, h⟩ := c102_interior (c45_mesh srt hg L hL) h3 h4
  exact ⟨view, region, C, G, h1, h2, hC, hG, fun c d k k' hc hd hk => h c d k k' hc hd (h6 _ hk)⟩

/-! ### The global view -/

theorem global_ok (m : Mesh V3) : makeGlobal m = .ok (List.range m.triangles.length) :=
  makeView_sorted (fun _ h => List.mem_range.1 h) List.pairwise_lt_range

theorem global_active {m : Mesh V3} (hm : Sound m) :
    activeVertices m (List.range m.triangles.length) = List.range m.points.length := by
  refine List.Pairwise.eq_of_mem_iff (r := (· < ·)) (active_sorted _ _) List.pairwise_lt_range ?_
  intro k
  rw [mem_active, List.mem_range]
  constructor
  · intro h; exact active_lt hm (mem_active.2 h)
  · intro h
    obtain ⟨t, ht, hk⟩ := hm.used k h
    obtain ⟨i, hi, rfl⟩ := List.getElem_of_mem ht
    exact ⟨i, List.mem_range.2 hi, _, List.getElem?_eq_getElem hi, hk⟩

theorem native_cast {n N : Nat} (h : n = N) {C G : Mat n} {C' G' : Mat N}
    (hC : ∀ i j, C i j = C' (Fin.cast h i) (Fin.cast h j)) (hG : ∀ i j, G i j = G' (Fin.cast h i) (Fin.cast h j))
    {kappa tau : Vec n} {kappa' tau' : Vec N} (hk : ∀ i, kappa i = kappa' (Fin.cast h i))
    (ht : ∀ i, tau i = tau' (Fin.cast h i)) (alpha : Nat) (i j : Fin n) :
    nativeOf C G (Matrix.diagonal kappa) (Matrix.diagonal tau) alpha i j =
      nativeOf C' G' (Matrix.diagonal kappa') (Matrix.diagonal tau') alpha (Fin.cast h i) (Fin.cast h j) := by
  subst h
  have e1 : C = C' := by ext i j; exact hC i j
  have e2 : G = G' := by ext i j; exact hG i j
  have e3 : kappa = kappa' := funext hk
  have e4 : tau = tau' := funext ht
  subst e1 e2 e3 e4
  rfl

theorem kappa_sub {n N p : Nat} (f : Fin n → Fin N) (theta : Vec p) (alpha : Nat) (rho : Matrix (Fin N) (Fin p) ℝ)
    (i : Fin n) : kappaOf theta alpha (rho.submatrix f id) i = kappaOf theta alpha rho (f i) := by
  simp only [kappaOf, kappaDesign, mulVec, dotProduct, Matrix.neg_apply, Matrix.submatrix_apply, id]

theorem tau_sub {n N p : Nat} (f : Fin n → Fin N) (theta : Vec p) (alpha : Nat) (sigma rho : Matrix (Fin N) (Fin p) ℝ)
    (i : Fin n) : tauOf theta alpha (sigma.submatrix f id) (rho.submatrix f id) i = tauOf theta alpha sigma rho (f i) := by
  simp only [tauOf, tauDesign, kappaDesign, mulVec, dotProduct, Matrix.neg_apply, Matrix.sub_apply, Matrix.smul_apply,
    Matrix.submatrix_apply, id]

/-- **C102.**  The global view numbers the points as the mesh does, and gives the precision matrix of the whole sphere, for
every order and all parameters. -/
theorem c102_global {m : Mesh V3} (hm : Sound m) :
    ∃ view, makeGlobal m = .ok view ∧ activeVertices m view = List.range m.points.length ∧
      ∃ h : size m view = m.points.length, ∀ {p : Nat} (theta : Vec p) {alpha : Nat}, 2 ≤ alpha →
        ∀ (sigma rho : Matrix (Fin m.points.length) (Fin p) ℝ), ∃ Q Q',
          viewBuildQ m view theta alpha (sigma.submatrix (Fin.cast h) id) (rho.submatrix (Fin.cast h) id) = .ok Q ∧
          buildQ m theta alpha sigma rho = .ok Q' ∧ ∀ i j, Q i j = Q' (Fin.cast h i) (Fin.cast h j) := by
  have ha := global_active hm
  have hs : size m (List.range m.triangles.length) = m.points.length := by
    show (activeVertices m _).length = _
    rw [ha, List.length_range]
  refine ⟨_, global_ok m, ha, hs, ?_⟩
  intro p theta alpha hal sigma rho
  obtain ⟨C, G, hC, hG, h⟩ := c102_interior hm List.nodup_range
    (region := List.range m.triangles.length) (fun _ h => List.mem_range.1 h)
  have hnum : ∀ c : Fin (size m (List.range m.triangles.length)),
      (activeVertices m (List.range m.triangles.length))[c.val] = c.val := by
    intro c
    have : (activeVertices m (List.range m.triangles.length))[c.val]? = some c.val := by
      rw [ha, List.getElem?_range (by rw [← hs]; exact c.isLt)]
    rw [List.getElem?_eq_getElem c.isLt] at this
    exact Option.some.inj this
  have hint : ∀ k, Interior m (List.range m.triangles.length) k := by
    intro k i t ht _
    exact List.mem_range.2 (List.getElem?_eq_some_iff.1 ht).1
  have hall := fun c d => h c d (Fin.cast hs c) (Fin.cast hs d) (hnum c) (hnum d) (hint _)
  refine ⟨nativeOf C G (Matrix.diagonal (kappaOf theta alpha (rho.submatrix (Fin.cast hs) id)))
    (Matrix.diagonal (tauOf theta alpha (sigma.submatrix (Fin.cast hs) id) (rho.submatrix (Fin.cast hs) id))) alpha,
    buildQNative m (Matrix.diagonal (kappaOf theta alpha rho)) (Matrix.diagonal (tauOf theta alpha sigma rho)) alpha, ?_,
    if_neg (by omega), fun i j => ?_⟩
  · unfold viewBuildQ
    rw [if_neg (by omega), hC, hG]
  · exact native_cast hs (fun i j => (hall i j).1) (fun i j => (hall i j).2) (fun i => kappa_sub _ _ _ _ i)
      (fun i => tau_sub _ _ _ _ _ i) alpha i j

end

end Verif.Eustace.SphereView
