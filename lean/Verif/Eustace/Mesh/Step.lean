import Verif.Eustace.Mesh.Spec
import Verif.Eustace.Mesh.Lemmas

/-! One subdivision: the invariant of the mesh and its preservation. -/

namespace Verif.Eustace.Mesh

/-- The invariant of a mesh at level `L`. -/
structure Good {P : Type} (L : Nat) (m : Mesh P) : Prop where
  level : m.level = L
  ids : m.triangles.map (fun t => t.id.toNat) =
    (List.range (20 * 4 ^ L)).map (fun n => n * 2 ^ (58 - 2 * L))
  halves : (m.edges.flatMap Edge.halves).Perm (m.triangles.flatMap Tri.halves)
  dual : m.edges.Pairwise (fun e f => ¬ SamePair e f)
  simple : m.edges.Pairwise (fun e f => ¬ SameEnds e f)
  across : ∀ e ∈ m.edges, e.t0 ≠ e.t1
  ends : ∀ e ∈ m.edges, e.a < m.points.length ∧ e.b < m.points.length ∧ e.a ≠ e.b
  numPoints : m.points.length = 10 * 4 ^ L + 2

/-! ### Sorted identifiers -/

theorem ids_dvd {ts : List Tri} {N s : Nat}
    (h : ts.map (fun t => t.id.toNat) = (List.range N).map (fun n => n * 2 ^ s)) :
    ∀ t ∈ ts, 2 ^ s ∣ t.id.toNat := by
  intro t ht
  have : t.id.toNat ∈ (List.range N).map (fun n => n * 2 ^ s) := by
    rw [← h]; exact List.mem_map.2 ⟨t, ht, rfl⟩
  obtain ⟨n, _, hn⟩ := List.mem_map.1 this
  exact ⟨n, by rw [← hn, Nat.mul_comm]⟩

theorem ids_spaced {ts : List Tri} {N s : Nat}
    (h : ts.map (fun t => t.id.toNat) = (List.range N).map (fun n => n * 2 ^ s)) :
    ts.Pairwise (fun t u => t.id.toNat + 2 ^ s ≤ u.id.toNat) := by
  have h1 : ((List.range N).map (fun n => n * 2 ^ s)).Pairwise (fun x y => x + 2 ^ s ≤ y) := by
    rw [List.pairwise_map]
    refine List.pairwise_lt_range.imp ?_
    intro a b hab
    calc a * 2 ^ s + 2 ^ s = (a + 1) * 2 ^ s := by ring
      _ ≤ b * 2 ^ s := Nat.mul_le_mul_right _ hab
  rw [← h, List.pairwise_map] at h1
  exact h1

theorem halves_sorted {ts : List Tri} {N s : Nat} (hs : 2 ≤ s)
    (h : ts.map (fun t => t.id.toNat) = (List.range N).map (fun n => n * 2 ^ s)) :
    (ts.flatMap Tri.halves).Pairwise (fun x y => halfKey x < halfKey y) := by
  have h4 : 4 ∣ 2 ^ s := by
    have : (4 : Nat) = 2 ^ 2 := rfl
    rw [this]; exact Nat.pow_dvd_pow 2 hs
  have hkey : ∀ t ∈ ts, ∀ k < 4, (t.id ||| BitVec.ofNat 64 k).toNat = t.id.toNat + k := by
    intro t ht k hk
    exact key_toNat (Dvd.dvd.trans h4 (ids_dvd h t ht)) hk
  rw [List.pairwise_flatMap]
  constructor
  · intro t ht
    have k0 := hkey t ht 0 (by omega)
    have k1 := hkey t ht 1 (by omega)
    have k2 := hkey t ht 2 (by omega)
    simp only [Tri.halves, halfKey, List.pairwise_cons, List.mem_cons, List.not_mem_nil, or_false,
      forall_eq_or_imp, forall_eq, k0, k1, k2]
    simp
  · have hsp := ids_spaced h
    rw [List.pairwise_iff_forall_sublist] at hsp ⊢
    intro t u htu x hx y hy
    have hle := hsp htu
    have ht : t ∈ ts := htu.subset (by simp)
    have hu : u ∈ ts := htu.subset (by simp)
    have hp : 4 ≤ 2 ^ s := Nat.le_of_dvd (Nat.two_pow_pos s) h4
    have hxk : halfKey x < t.id.toNat + 4 := by
      simp only [Tri.halves, List.mem_cons, List.not_mem_nil, or_false] at hx
      rcases hx with rfl | rfl | rfl <;> simp only [halfKey] <;>
        rw [hkey t ht _ (by omega)] <;> omega
    have hyk : u.id.toNat ≤ halfKey y := by
      simp only [Tri.halves, List.mem_cons, List.not_mem_nil, or_false] at hy
      rcases hy with rfl | rfl | rfl <;> simp only [halfKey] <;>
        rw [hkey u hu _ (by omega)] <;> omega
    omega

/-! ### Midpoints -/

/-- Every directed side of the edge array with the index of its midpoint. -/
def marked (edges : List Edge) (V : Nat) : List (Half × Nat) :=
  (edges.zipIdx V).flatMap (fun r => r.1.halves.map (fun h => (h, r.2)))

/-- The three marked sides of a triangle. -/
def mark3 (r : Tri × Nat × Nat × Nat) : List (Half × Nat) :=
  [(⟨r.1.p0, r.1.p1, r.1.id, 0⟩, r.2.1), (⟨r.1.p1, r.1.p2, r.1.id, 1⟩, r.2.2.1),
   (⟨r.1.p2, r.1.p0, r.1.id, 2⟩, r.2.2.2)]

def toMid (x : Half × Nat) : MidRow := ⟨x.2, x.1.t, x.1.k⟩

/-- `m` is the index of the midpoint of the side `h`. -/
def IsMid (edges : List Edge) (V : Nat) (h : Half) (m : Nat) : Prop :=
  ∃ i e, m = V + i ∧ edges[i]? = some e ∧ h ∈ e.halves

theorem mem_marked {edges : List Edge} {V : Nat} {h : Half} {m : Nat}
    (hm : (h, m) ∈ marked edges V) : IsMid edges V h m := by
  unfold marked at hm
  rw [List.mem_flatMap] at hm
  obtain ⟨⟨e, j⟩, hj, hmem⟩ := hm
  rw [List.mem_zipIdx_iff_le_and_getElem?_sub] at hj
  rw [List.mem_map] at hmem
  obtain ⟨h', hh', heq⟩ := hmem
  simp only [Prod.mk.injEq] at heq
  obtain ⟨rfl, rfl⟩ := heq
  exact ⟨j - V, e, by simp only at hj; omega, hj.2, hh'⟩

theorem marked_fst (edges : List Edge) (V : Nat) :
    (marked edges V).map Prod.fst = edges.flatMap Edge.halves := by
  unfold marked
  rw [List.map_flatMap]
  have : (fun r : Edge × Nat => List.map Prod.fst (r.1.halves.map (fun h => (h, r.2)))) =
      (fun r => r.1.halves) := by
    funext r; rfl
  rw [this]
  have h2 : (edges.zipIdx V).flatMap (fun r => r.1.halves) =
      ((edges.zipIdx V).map Prod.fst).flatMap Edge.halves := by
    rw [List.flatMap_map]
  rw [h2, List.zipIdx_map_fst]

theorem midpointRows_perm (edges : List Edge) (V : Nat) :
    (midpointRows edges V).Perm ((marked edges V).map toMid) := by
  unfold midpointRows marked
  refine (map_append_map_perm _ _ _).trans (List.Perm.of_eq ?_)
  rw [List.map_flatMap]
  rfl

theorem exists_mids (ts : List Tri) (R : List (Half × Nat))
    (h : R.map Prod.fst = ts.flatMap Tri.halves) :
    ∃ mids : List (Nat × Nat × Nat), mids.length = ts.length ∧
      R = (ts.zip mids).flatMap mark3 := by
  induction ts generalizing R with
  | nil =>
    refine ⟨[], rfl, ?_⟩
    simpa using h
  | cons t ts ih =>
    simp only [List.flatMap_cons, Tri.halves, List.cons_append, List.nil_append] at h
    match R, h with
    | x :: y :: z :: R, h =>
      simp only [List.map_cons, List.cons.injEq] at h
      obtain ⟨hx, hy, hz, hR⟩ := h
      obtain ⟨mids, hl, hr⟩ := ih R hR
      refine ⟨(x.2, y.2, z.2) :: mids, by simp [hl], ?_⟩
      obtain ⟨x1, x2⟩ := x
      obtain ⟨y1, y2⟩ := y
      obtain ⟨z1, z2⟩ := z
      simp only at hx hy hz
      subst hx hy hz
      simp [mark3, ← hr]
    | [], h => simp at h
    | [_], h => simp at h
    | [_, _], h => simp at h

/-! ### Child sides -/

/-- What becomes of a directed side when it is split. -/
def splitHalf (s : Nat) (x : Half × Nat) : List Half :=
  [⟨x.1.a, x.2, childId x.1.t x.1.k s, x.1.k⟩,
   ⟨x.2, x.1.b, childId x.1.t ((x.1.k + 1) % 3) s, x.1.k⟩]

/-- The new edges inside one triangle. -/
def inner (s : Nat) (r : Tri × Nat × Nat × Nat) : List Edge :=
  innerEdges s (⟨r.2.1, r.1.id, 0⟩, ⟨r.2.2.1, r.1.id, 1⟩, ⟨r.2.2.2, r.1.id, 2⟩)

theorem perm12 {α : Type} (a b c d e f g h i j k l : α) :
    [a, b, c, d, e, f, g, h, i, j, k, l].Perm [a, g, f, b, c, i, k, d, e, l, h, j] := by
  classical
  rw [List.perm_iff_count]
  intro x
  simp only [List.count_cons, List.count_nil]
  ring

theorem split_perm (s : Nat) (e : Edge) (m : Nat) :
    ((splitEdge s e m).flatMap Edge.halves).Perm
      ((e.halves.map (fun h => (h, m))).flatMap (splitHalf s)) := by
  classical
  simp only [splitEdge, Edge.halves, List.flatMap_cons, List.flatMap_nil, List.map_cons,
    List.map_nil, splitHalf, List.cons_append, List.nil_append, List.append_nil]
  rw [List.perm_iff_count]
  intro x
  simp only [List.count_cons, List.count_nil]
  ring

theorem triangle_perm (s : Nat) (r : Tri × Nat × Nat × Nat) :
    ((mark3 r).flatMap (splitHalf s) ++ (inner s r).flatMap Edge.halves).Perm
      ((children s r.1 r.2).flatMap Tri.halves) := by
  simp only [mark3, splitHalf, inner, innerEdges, Edge.halves, children, Tri.halves,
    List.flatMap_cons, List.flatMap_nil, List.cons_append, List.nil_append, List.append_nil]
  exact perm12 _ _ _ _ _ _ _ _ _ _ _ _

/-- The parts of one subdivision. -/
theorem parts {P : Type} {L : Nat} {m : Mesh P} (hg : Good L m) (hL : L ≤ 28) (srt : Argsort)
    (s : Nat) :
    ∃ mids : List (Nat × Nat × Nat),
      mids.length = m.triangles.length ∧
      (∀ r ∈ m.triangles.zip mids, ∀ x ∈ mark3 r, IsMid m.edges m.points.length x.1 x.2) ∧
      ((m.triangles.zip mids).flatMap mark3).Perm (marked m.edges m.points.length) ∧
      childEdges srt s m.points.length m.edges =
        (m.edges.zipIdx m.points.length).flatMap (fun r => splitEdge s r.1 r.2) ++
        (m.triangles.zip mids).flatMap (inner s) := by
  obtain ⟨R, hRp, hRm⟩ := exists_perm_map Prod.fst (l := marked m.edges m.points.length)
    (m := m.triangles.flatMap Tri.halves) (by rw [marked_fst]; exact hg.halves)
  obtain ⟨mids, hl, hR⟩ := exists_mids m.triangles R hRm
  refine ⟨mids, hl, ?_, ?_, ?_⟩
  · intro r hr x hx
    apply mem_marked
    rw [← hRp.mem_iff, hR, List.mem_flatMap]
    exact ⟨r, hr, hx⟩
  · rw [← hR]; exact hRp
  · have hsort : sortRows srt midKey (midpointRows m.edges m.points.length) = R.map toMid := by
      apply sortRows_eq
      · exact (hRp.map toMid).trans (midpointRows_perm _ _).symm
      · have := halves_sorted (s := 58 - 2 * L) (by omega) hg.ids
        rw [← hRm, List.pairwise_map] at this
        rw [List.pairwise_map]
        exact this
    unfold childEdges
    rw [hsort, hR]
    congr 1
    have h3 : ((m.triangles.zip mids).flatMap mark3).map toMid =
        (m.triangles.zip mids).flatMap (fun r =>
          [(⟨r.2.1, r.1.id, 0⟩ : MidRow), ⟨r.2.2.1, r.1.id, 1⟩, ⟨r.2.2.2, r.1.id, 2⟩]) := by
      rw [List.map_flatMap]; rfl
    rw [h3, chunk3_flatMap, List.flatMap_map]
    rfl

theorem edgesWithDuplicates_perm (E : List Edge) :
    (edgesWithDuplicates E).Perm (E.flatMap Edge.halves) :=
  map_append_map_perm _ _ _

/-- The directed sides of the child edges are those of the child triangles. -/
theorem child_halves {V s : Nat} {edges : List Edge} {tm : List (Tri × Nat × Nat × Nat)}
    (hp : (tm.flatMap mark3).Perm (marked edges V)) :
    (((edges.zipIdx V).flatMap (fun r => splitEdge s r.1 r.2) ++
      tm.flatMap (inner s)).flatMap Edge.halves).Perm
      ((tm.flatMap (fun r => children s r.1 r.2)).flatMap Tri.halves) := by
  rw [List.flatMap_append, flatMap_map_eq, flatMap_map_eq, flatMap_map_eq]
  have h1 : ((edges.zipIdx V).flatMap (fun r => (splitEdge s r.1 r.2).flatMap Edge.halves)).Perm
      ((marked edges V).flatMap (splitHalf s)) := by
    unfold marked
    rw [flatMap_map_eq]
    exact flatMap_perm_flatMap _ _ _ (fun r _ => split_perm s r.1 r.2)
  have h2 : ((marked edges V).flatMap (splitHalf s)).Perm
      (tm.flatMap (fun r => (mark3 r).flatMap (splitHalf s))) := by
    rw [← flatMap_map_eq]
    exact (hp.flatMap_right _).symm
  refine ((h1.trans h2).append_right _).trans ?_
  refine (flatMap_append_perm _ _ _).trans ?_
  exact flatMap_perm_flatMap _ _ _ (fun r _ => triangle_perm s r)

/-! ### Identifiers of the children -/

theorem range_four (n : Nat) {β : Type} (f : Nat → β) :
    (List.range (n * 4)).map f =
      (List.range n).flatMap (fun i => [f (4 * i), f (4 * i + 1), f (4 * i + 2), f (4 * i + 3)]) := by
  induction n with
  | zero => rfl
  | succ n ih =>
    have : (n + 1) * 4 = n * 4 + 1 + 1 + 1 + 1 := by ring
    rw [this]
    simp only [List.range_succ, List.map_append, List.map_cons, List.map_nil, ih,
      List.flatMap_append, List.flatMap_cons, List.flatMap_nil, List.append_nil,
      List.append_assoc, List.cons_append, List.nil_append]
    have e : n * 4 = 4 * n := Nat.mul_comm _ _
    rw [e]

theorem zip_flatMap_fst {α β γ : Type} (f : α → List γ) (l : List α) (m : List β)
    (h : m.length = l.length) : (l.zip m).flatMap (fun r => f r.1) = l.flatMap f := by
  have h1 : (l.zip m).flatMap (fun r => f r.1) = ((l.zip m).map Prod.fst).flatMap f := by
    rw [List.flatMap_map]
  rw [h1, List.map_fst_zip (by omega)]

theorem child_ids {ts : List Tri} {mids : List (Nat × Nat × Nat)} {L : Nat} (hL : L + 1 ≤ 29)
    (hl : mids.length = ts.length)
    (h : ts.map (fun t => t.id.toNat) =
      (List.range (20 * 4 ^ L)).map (fun n => n * 2 ^ (58 - 2 * L))) :
    ((ts.zip mids).flatMap (fun r => children (58 - 2 * (L + 1)) r.1 r.2)).map
        (fun t => t.id.toNat) =
      (List.range (20 * 4 ^ (L + 1))).map (fun n => n * 2 ^ (58 - 2 * (L + 1))) := by
  have hsh : 58 - 2 * L = (58 - 2 * (L + 1)) + 2 := by omega
  have hs : (58 - 2 * (L + 1)) + 2 ≤ 64 := by omega
  rw [hsh] at h
  generalize 58 - 2 * (L + 1) = s at h hs ⊢
  rw [List.map_flatMap]
  simp only [children, List.map_cons, List.map_nil]
  rw [zip_flatMap_fst (fun t : Tri => [(childId t.id 0 s).toNat, (childId t.id 1 s).toNat,
    (childId t.id 2 s).toNat, (childId t.id 3 s).toNat]) ts mids hl]
  have hd := ids_dvd h
  have h1 : ts.flatMap (fun t : Tri => [(childId t.id 0 s).toNat, (childId t.id 1 s).toNat,
      (childId t.id 2 s).toNat, (childId t.id 3 s).toNat]) =
      (ts.map (fun t => t.id.toNat)).flatMap (fun x => [x, x + 2 ^ s, x + 2 * 2 ^ s, x + 3 * 2 ^ s]) := by
    rw [List.flatMap_map]
    apply List.flatMap_congr
    intro t ht
    rw [childId_toNat (hd t ht) (by omega) hs, childId_toNat (hd t ht) (by omega) hs,
      childId_toNat (hd t ht) (by omega) hs, childId_toNat (hd t ht) (by omega) hs]
    simp
  have e : 20 * 4 ^ (L + 1) = 20 * 4 ^ L * 4 := by ring
  rw [h1, h, List.flatMap_map, e, range_four]
  apply List.flatMap_congr
  intro i _
  rw [pow_add]
  congr 1
  · ring
  · congr 1
    · ring
    · congr 1
      · ring
      · congr 1
        ring

/-! ### Children are told apart by their identifiers -/

theorem childId_inj {s : Nat} (hs : s + 2 ≤ 64) {t u : Id} {k j : Nat}
    (ht : 2 ^ (s + 2) ∣ t.toNat) (hu : 2 ^ (s + 2) ∣ u.toNat) (hk : k < 4) (hj : j < 4)
    (h : childId t k s = childId u j s) : t = u ∧ k = j := by
  have h1 := congrArg BitVec.toNat h
  rw [childId_toNat ht hk hs, childId_toNat hu hj hs] at h1
  obtain ⟨x, hx⟩ := ht
  obtain ⟨y, hy⟩ := hu
  have hp : 0 < 2 ^ s := Nat.two_pow_pos s
  rw [hx, hy, pow_add] at h1
  have h2 : 2 ^ s * (4 * x + k) = 2 ^ s * (4 * y + j) := by
    calc 2 ^ s * (4 * x + k) = 2 ^ s * 2 ^ 2 * x + k * 2 ^ s := by ring
      _ = 2 ^ s * 2 ^ 2 * y + j * 2 ^ s := h1
      _ = 2 ^ s * (4 * y + j) := by ring
  have h3 := Nat.eq_of_mul_eq_mul_left hp h2
  have h4 : x = y := by omega
  refine ⟨BitVec.eq_of_toNat_eq ?_, by omega⟩
  rw [hx, hy, h4]

/-- What the rows of the edge array say about identifiers. -/
theorem edge_ids {P : Type} {L : Nat} {m : Mesh P} (hg : Good L m) :
    ∀ e ∈ m.edges, ∀ h ∈ e.halves, 2 ^ (58 - 2 * L) ∣ h.t.toNat ∧ h.k < 3 := by
  intro e he h hh
  have h1 : h ∈ m.triangles.flatMap Tri.halves := by
    rw [← hg.halves.mem_iff, List.mem_flatMap]
    exact ⟨e, he, hh⟩
  rw [List.mem_flatMap] at h1
  obtain ⟨t, ht, hmem⟩ := h1
  have hd := ids_dvd hg.ids t ht
  simp only [Tri.halves, List.mem_cons, List.not_mem_nil, or_false] at hmem
  rcases hmem with rfl | rfl | rfl <;> exact ⟨hd, by simp⟩

theorem edge_ids' {P : Type} {L : Nat} {m : Mesh P} (hg : Good L m) {e : Edge} (he : e ∈ m.edges) :
    2 ^ (58 - 2 * L) ∣ e.t0.toNat ∧ 2 ^ (58 - 2 * L) ∣ e.t1.toNat ∧ e.k0 < 3 ∧ e.k1 < 3 := by
  have h0 := edge_ids hg e he ⟨e.a, e.b, e.t0, e.k0⟩ (by simp [Edge.halves])
  have h1 := edge_ids hg e he ⟨e.b, e.a, e.t1, e.k1⟩ (by simp [Edge.halves])
  exact ⟨h0.1, h1.1, h0.2, h1.2⟩

theorem edges_length {P : Type} {L : Nat} {m : Mesh P} (hg : Good L m) :
    m.edges.length = 30 * 4 ^ L ∧ m.triangles.length = 20 * 4 ^ L := by
  have ht : m.triangles.length = 20 * 4 ^ L := by
    have := congrArg List.length hg.ids
    simpa using this
  have h := hg.halves.length_eq
  have e1 : ∀ l : List Edge, (l.flatMap Edge.halves).length = 2 * l.length := by
    intro l; induction l with
    | nil => rfl
    | cons a l ih => simp [Edge.halves] at ih ⊢; omega
  have e2 : ∀ l : List Tri, (l.flatMap Tri.halves).length = 3 * l.length := by
    intro l; induction l with
    | nil => rfl
    | cons a l ih => simp [Tri.halves] at ih ⊢; omega
  rw [e1, e2, ht] at h
  exact ⟨by omega, ht⟩

/-- Two sides of one triangle have different midpoints. -/
theorem mids_ne {P : Type} {L : Nat} {m : Mesh P} (hg : Good L m) {V : Nat} {g h : Half} {i j : Nat}
    (hi : IsMid m.edges V g i) (hj : IsMid m.edges V h j) (ht : g.t = h.t) (hk : g.k ≠ h.k) :
    i ≠ j := by
  rintro rfl
  obtain ⟨a, e, ha, hea, hge⟩ := hi
  obtain ⟨b, f, hb, hfb, hhf⟩ := hj
  have hab : a = b := by omega
  subst hab
  rw [hea] at hfb
  cases hfb
  have hac := hg.across e (List.mem_of_getElem? hea)
  simp only [Edge.halves, List.mem_cons, List.not_mem_nil, or_false] at hge hhf
  rcases hge with rfl | rfl <;> rcases hhf with rfl | rfl
  · exact hk rfl
  · exact hac ht
  · exact hac ht.symm
  · exact hk rfl

theorem isMid_bounds {edges : List Edge} {V : Nat} {h : Half} {m : Nat} (hm : IsMid edges V h m) :
    V ≤ m ∧ m < V + edges.length := by
  obtain ⟨i, e, rfl, he, _⟩ := hm
  have := (List.getElem?_eq_some_iff.1 he).1
  omega

/-- Two sides of different triangles with the same midpoint are the two sides of one edge. -/
theorem mids_pair {edges : List Edge} {V : Nat} {g h : Half} {i : Nat}
    (hi : IsMid edges V g i) (hj : IsMid edges V h i) (hne : g.t ≠ h.t) :
    ∃ e, edges[i - V]? = some e ∧ ((e.t0 = g.t ∧ e.t1 = h.t) ∨ (e.t0 = h.t ∧ e.t1 = g.t)) := by
  obtain ⟨a, e, ha, hea, hge⟩ := hi
  obtain ⟨b, f, hb, hfb, hhf⟩ := hj
  have hab : a = b := by omega
  subst hab
  rw [hea] at hfb
  cases hfb
  refine ⟨e, by rw [ha, Nat.add_sub_cancel_left]; exact hea, ?_⟩
  simp only [Edge.halves, List.mem_cons, List.not_mem_nil, or_false] at hge hhf
  rcases hge with rfl | rfl <;> rcases hhf with rfl | rfl
  · exact absurd rfl hne
  · exact Or.inl ⟨rfl, rfl⟩
  · exact Or.inr ⟨rfl, rfl⟩
  · exact absurd rfl hne

/-- Two different triangles do not share two midpoints. -/
theorem mids_unique {P : Type} {L : Nat} {m : Mesh P} (hg : Good L m) {V : Nat}
    {g g' h h' : Half} {i j : Nat} (hi : IsMid m.edges V g i) (hi' : IsMid m.edges V h i)
    (hj : IsMid m.edges V g' j) (hj' : IsMid m.edges V h' j)
    (hgt : g'.t = g.t) (hht : h'.t = h.t) (hij : i ≠ j) : g.t = h.t := by
  by_contra hne
  obtain ⟨e, he, hpe⟩ := mids_pair hi hi' hne
  obtain ⟨f, hf, hpf⟩ := mids_pair hj hj' (by rw [hgt, hht]; exact hne)
  rw [hgt, hht] at hpf
  have hsame : SamePair e f := by
    unfold SamePair
    rcases hpe with ⟨h1, h2⟩ | ⟨h1, h2⟩ <;> rcases hpf with ⟨h3, h4⟩ | ⟨h3, h4⟩
    · left; exact ⟨h1.trans h3.symm, h2.trans h4.symm⟩
    · right; exact ⟨h1.trans h4.symm, h2.trans h3.symm⟩
    · right; exact ⟨h1.trans h4.symm, h2.trans h3.symm⟩
    · left; exact ⟨h1.trans h3.symm, h2.trans h4.symm⟩
  have hb1 := (isMid_bounds hi).1
  have hb2 := (isMid_bounds hj).1
  obtain ⟨l1, rfl⟩ := List.getElem?_eq_some_iff.1 he
  obtain ⟨l2, rfl⟩ := List.getElem?_eq_some_iff.1 hf
  have hd := List.pairwise_iff_getElem.1 hg.dual
  rcases Nat.lt_trichotomy (i - V) (j - V) with h | h | h
  · exact hd _ _ l1 l2 h hsame
  · omega
  · refine hd _ _ l2 l1 h ?_
    unfold SamePair at hsame ⊢
    rcases hsame with ⟨a, b⟩ | ⟨a, b⟩
    · exact Or.inl ⟨a.symm, b.symm⟩
    · exact Or.inr ⟨b.symm, a.symm⟩

theorem inner_ids {s : Nat} {r : Tri × Nat × Nat × Nat} {x : Edge} (hx : x ∈ inner s r) :
    ∃ k, k < 3 ∧ x.t0 = childId r.1.id k s ∧ x.t1 = childId r.1.id 3 s := by
  simp only [inner, innerEdges, List.mem_cons, List.not_mem_nil, or_false] at hx
  rcases hx with rfl | rfl | rfl
  · exact ⟨0, by omega, rfl, rfl⟩
  · exact ⟨1, by omega, rfl, rfl⟩
  · exact ⟨2, by omega, rfl, rfl⟩

theorem split_ids {s : Nat} {e : Edge} {j : Nat} {x : Edge} (h0 : e.k0 < 3) (h1 : e.k1 < 3)
    (hx : x ∈ splitEdge s e j) :
    ∃ k j, k < 4 ∧ j < 4 ∧ x.t0 = childId e.t0 k s ∧ x.t1 = childId e.t1 j s := by
  simp only [splitEdge, List.mem_cons, List.not_mem_nil, or_false] at hx
  rcases hx with rfl | rfl
  · exact ⟨_, _, by omega, by omega, rfl, rfl⟩
  · exact ⟨_, _, by omega, by omega, rfl, rfl⟩

/-- One subdivision preserves the invariant; the child triangles are the four parts of each parent
triangle, in order. -/
theorem step {P : Type} [Inhabited P] {L : Nat} {m : Mesh P} (hg : Good L m) (hL : L + 1 ≤ 28)
    (srt : Argsort) (mid : P → P → P) :
    Good (L + 1) (subdivide srt mid m) ∧
    ∃ mids : List (Nat × Nat × Nat),
      mids.length = m.triangles.length ∧
      (∀ r ∈ m.triangles.zip mids, ∀ x ∈ mark3 r, IsMid m.edges m.points.length x.1 x.2) ∧
      (subdivide srt mid m).triangles =
        (m.triangles.zip mids).flatMap (fun r => children (58 - 2 * (L + 1)) r.1 r.2) ∧
      ((m.triangles.zip mids).flatMap mark3).Perm (marked m.edges m.points.length) := by
  have hshift : hashShift (m.level + 1) = 58 - 2 * (L + 1) := by
    rw [hg.level]; exact hashShift_eq (by omega)
  obtain ⟨mids, hl, hmid, hp, hE⟩ := parts hg (by omega) srt (58 - 2 * (L + 1))
  have hids := child_ids (mids := mids) (by omega) hl hg.ids
  have hhalves := child_halves (s := 58 - 2 * (L + 1)) hp
  have hT : (subdivide srt mid m).triangles =
      (m.triangles.zip mids).flatMap (fun r => children (58 - 2 * (L + 1)) r.1 r.2) := by
    simp only [subdivide]
    rw [hshift, hE]
    unfold trianglesOf
    rw [sortRows_eq srt halfKey _ _
      (hhalves.symm.trans (edgesWithDuplicates_perm _).symm) (halves_sorted (by omega) hids)]
    unfold Tri.halves
    rw [chunk3_flatMap, List.map_map]
    simp [Function.comp_def]
  have hEs : (subdivide srt mid m).edges =
      (m.edges.zipIdx m.points.length).flatMap
        (fun r => splitEdge (58 - 2 * (L + 1)) r.1 r.2) ++
        (m.triangles.zip mids).flatMap (inner (58 - 2 * (L + 1))) := by
    simp only [subdivide]
    rw [hshift, hE]
  have hlen := edges_length hg
  have hpts : (subdivide srt mid m).points.length = m.points.length + m.edges.length := by
    simp [subdivide]
  have hsd : 58 - 2 * L = (58 - 2 * (L + 1)) + 2 := by omega
  have hs64 : (58 - 2 * (L + 1)) + 2 ≤ 64 := by omega
  have hEd : ∀ e ∈ m.edges, 2 ^ ((58 - 2 * (L + 1)) + 2) ∣ e.t0.toNat ∧
      2 ^ ((58 - 2 * (L + 1)) + 2) ∣ e.t1.toNat ∧ e.k0 < 3 ∧ e.k1 < 3 := by
    intro e he; rw [← hsd]; exact edge_ids' hg he
  have hTd : ∀ t ∈ m.triangles, 2 ^ ((58 - 2 * (L + 1)) + 2) ∣ t.id.toNat := by
    intro t ht; rw [← hsd]; exact ids_dvd hg.ids t ht
  have hTn : m.triangles.Pairwise (fun t u => t.id ≠ u.id) := by
    refine (ids_spaced hg.ids).imp ?_
    intro t u h htu
    rw [htu] at h
    have := Nat.two_pow_pos (58 - 2 * L)
    omega
  refine ⟨?_, mids, hl, hmid, hT, hp⟩
  generalize 58 - 2 * (L + 1) = s at hids hhalves hT hEs hsd hs64 hEd hTd hE hshift ⊢
  have hsplit_mem : ∀ r ∈ m.edges.zipIdx m.points.length, r.1 ∈ m.edges ∧
      m.points.length ≤ r.2 ∧ r.2 < m.points.length + m.edges.length := by
    rintro ⟨e, j⟩ hr
    rw [List.mem_zipIdx_iff_le_and_getElem?_sub] at hr
    have h2 := (List.getElem?_eq_some_iff.1 hr.2).1
    have h1 := hr.1
    simp only at h1 h2 ⊢
    exact ⟨List.mem_of_getElem? hr.2, h1, by omega⟩
  constructor
  · simp [subdivide, hg.level]
  · rw [hT, hids, (by omega : 58 - 2 * (L + 1) = s)]
  · rw [hEs, hT]
    exact hhalves
  · rw [hEs, List.pairwise_append]
    refine ⟨?_, ?_, ?_⟩
    · rw [List.pairwise_flatMap]
      refine ⟨?_, ?_⟩
      · rintro ⟨e, j⟩ hr
        obtain ⟨he, _, _⟩ := hsplit_mem _ hr
        obtain ⟨d0, d1, b0, b1⟩ := hEd e he
        simp only [splitEdge, List.pairwise_cons, List.mem_cons, List.not_mem_nil, or_false,
          forall_eq, SamePair]
        refine ⟨?_, by simp, List.Pairwise.nil⟩
        rintro (⟨h1, _⟩ | ⟨h1, _⟩)
        · have := (childId_inj hs64 d0 d0 (by omega) (by omega) h1).2
          omega
        · exact hg.across e he (childId_inj hs64 d0 d1 (by omega) (by omega) h1).1
      · have hd := hg.dual
        rw [← List.zipIdx_map_fst m.points.length m.edges, List.pairwise_map] at hd
        rw [List.pairwise_iff_forall_sublist] at hd ⊢
        intro r q hrq x hx y hy
        have hne := hd hrq
        obtain ⟨d0, d1, b0, b1⟩ := hEd r.1 (hsplit_mem r (hrq.subset (by simp))).1
        obtain ⟨d0', d1', b0', b1'⟩ := hEd q.1 (hsplit_mem q (hrq.subset (by simp))).1
        obtain ⟨k, j, hk, hj, e0, e1⟩ := split_ids b0 b1 hx
        obtain ⟨k', j', hk', hj', e0', e1'⟩ := split_ids b0' b1' hy
        intro hsame
        apply hne
        unfold SamePair at hsame ⊢
        rw [e0, e1, e0', e1'] at hsame
        rcases hsame with ⟨h1, h2⟩ | ⟨h1, h2⟩
        · exact Or.inl ⟨(childId_inj hs64 d0 d0' hk hk' h1).1, (childId_inj hs64 d1 d1' hj hj' h2).1⟩
        · exact Or.inr ⟨(childId_inj hs64 d0 d1' hk hj' h1).1, (childId_inj hs64 d1 d0' hj hk' h2).1⟩
    · rw [List.pairwise_flatMap]
      refine ⟨?_, ?_⟩
      · rintro ⟨t, m0, m1, m2⟩ hr
        have hd := hTd t (List.of_mem_zip hr).1
        simp only [inner, innerEdges, List.pairwise_cons, List.mem_cons, List.not_mem_nil, or_false,
          forall_eq_or_imp, forall_eq, SamePair]
        refine ⟨⟨?_, ?_⟩, ?_, by simp, List.Pairwise.nil⟩ <;>
        · rintro (⟨h1, _⟩ | ⟨h1, _⟩) <;>
          · have := (childId_inj hs64 hd hd (by omega) (by omega) h1).2
            omega
      · have hz : ((m.triangles.zip mids).map Prod.fst).Pairwise (fun t u => t.id ≠ u.id) := by
          rw [List.map_fst_zip (by omega)]; exact hTn
        rw [List.pairwise_map] at hz
        rw [List.pairwise_iff_forall_sublist] at hz ⊢
        intro r q hrq x hx y hy
        have hne := hz hrq
        have dr := hTd r.1 (List.of_mem_zip (hrq.subset (by simp : r ∈ [r, q]))).1
        have dq := hTd q.1 (List.of_mem_zip (hrq.subset (by simp : q ∈ [r, q]))).1
        obtain ⟨k, hk, e0, e1⟩ := inner_ids hx
        obtain ⟨k', hk', e0', e1'⟩ := inner_ids hy
        intro hsame
        unfold SamePair at hsame
        rw [e0, e1, e0', e1'] at hsame
        rcases hsame with ⟨h1, _⟩ | ⟨h1, _⟩
        · exact hne (childId_inj hs64 dr dq (by omega) (by omega) h1).1
        · exact hne (childId_inj hs64 dr dq (by omega) (by omega) h1).1
    · intro x hx y hy
      rw [List.mem_flatMap] at hx hy
      obtain ⟨r, hr, hx⟩ := hx
      obtain ⟨q, hq, hy⟩ := hy
      obtain ⟨he, _, _⟩ := hsplit_mem r hr
      obtain ⟨d0, d1, b0, b1⟩ := hEd r.1 he
      have dq := hTd q.1 (List.of_mem_zip hq).1
      obtain ⟨k, j, hk, hj, e0, e1⟩ := split_ids b0 b1 hx
      obtain ⟨k', hk', e0', e1'⟩ := inner_ids hy
      intro hsame
      unfold SamePair at hsame
      rw [e0, e1, e0', e1'] at hsame
      have hac := hg.across r.1 he
      rcases hsame with ⟨h1, h2⟩ | ⟨h1, h2⟩
      · have a1 := (childId_inj hs64 d0 dq hk (by omega) h1).1
        have a2 := (childId_inj hs64 d1 dq hj (by omega) h2).1
        exact hac (a1.trans a2.symm)
      · have a1 := (childId_inj hs64 d0 dq hk (by omega) h1).1
        have a2 := (childId_inj hs64 d1 dq hj (by omega) h2).1
        exact hac (a1.trans a2.symm)
  · -- no two edges join the same points
    have hsp : ∀ r ∈ m.edges.zipIdx m.points.length, ∀ x ∈ splitEdge s r.1 r.2,
        (x.a < m.points.length ∧ x.b = r.2) ∨ (x.a = r.2 ∧ x.b < m.points.length) := by
      intro r hr x hx
      obtain ⟨he, h1, h2⟩ := hsplit_mem r hr
      obtain ⟨ea, eb, _⟩ := hg.ends r.1 he
      simp only [splitEdge, List.mem_cons, List.not_mem_nil, or_false] at hx
      rcases hx with rfl | rfl
      · exact Or.inl ⟨ea, rfl⟩
      · exact Or.inr ⟨rfl, eb⟩
    have hin : ∀ r ∈ m.triangles.zip mids, ∀ x ∈ inner s r, ∃ g h,
        g.t = r.1.id ∧ h.t = r.1.id ∧ IsMid m.edges m.points.length g x.a ∧
          IsMid m.edges m.points.length h x.b ∧ x.a ≠ x.b := by
      intro q hq x hx
      have n0 := hmid q hq (⟨q.1.p0, q.1.p1, q.1.id, 0⟩, q.2.1) (by simp [mark3])
      have n1 := hmid q hq (⟨q.1.p1, q.1.p2, q.1.id, 1⟩, q.2.2.1) (by simp [mark3])
      have n2 := hmid q hq (⟨q.1.p2, q.1.p0, q.1.id, 2⟩, q.2.2.2) (by simp [mark3])
      have d01 := mids_ne hg n0 n1 rfl (by simp)
      have d12 := mids_ne hg n1 n2 rfl (by simp)
      have d02 := mids_ne hg n0 n2 rfl (by simp)
      simp only [inner, innerEdges, List.mem_cons, List.not_mem_nil, or_false] at hx
      rcases hx with rfl | rfl | rfl
      · exact ⟨_, _, rfl, rfl, n0, n2, d02⟩
      · exact ⟨_, _, rfl, rfl, n1, n0, d01.symm⟩
      · exact ⟨_, _, rfl, rfl, n2, n1, d12.symm⟩
    rw [hEs, List.pairwise_append]
    refine ⟨?_, ?_, ?_⟩
    · rw [List.pairwise_flatMap]
      refine ⟨?_, ?_⟩
      · rintro ⟨e, j⟩ hr
        obtain ⟨he, h1, h2⟩ := hsplit_mem _ hr
        obtain ⟨ea, eb, eab⟩ := hg.ends e he
        simp only [splitEdge, List.pairwise_cons, List.mem_cons, List.not_mem_nil, or_false,
          forall_eq, SameEnds]
        refine ⟨?_, by simp, List.Pairwise.nil⟩
        simp only at h1 h2
        omega
      · have hd : ((m.edges.zipIdx m.points.length).map Prod.snd).Pairwise (fun a b => a ≠ b) := by
          rw [List.zipIdx_map_snd]
          exact List.nodup_range'
        rw [List.pairwise_map] at hd
        rw [List.pairwise_iff_forall_sublist] at hd ⊢
        intro r q hrq x hx y hy
        have hne := hd hrq
        have hr := hrq.subset (by simp : r ∈ [r, q])
        have hq := hrq.subset (by simp : q ∈ [r, q])
        have m1 := hsplit_mem r hr
        have m2 := hsplit_mem q hq
        have x1 := hsp r hr x hx
        have y1 := hsp q hq y hy
        unfold SameEnds
        omega
    · rw [List.pairwise_flatMap]
      refine ⟨?_, ?_⟩
      · rintro q hq
        have n0 := hmid q hq (⟨q.1.p0, q.1.p1, q.1.id, 0⟩, q.2.1) (by simp [mark3])
        have n1 := hmid q hq (⟨q.1.p1, q.1.p2, q.1.id, 1⟩, q.2.2.1) (by simp [mark3])
        have n2 := hmid q hq (⟨q.1.p2, q.1.p0, q.1.id, 2⟩, q.2.2.2) (by simp [mark3])
        have d01 := mids_ne hg n0 n1 rfl (by simp)
        have d12 := mids_ne hg n1 n2 rfl (by simp)
        have d02 := mids_ne hg n0 n2 rfl (by simp)
        simp only at d01 d12 d02
        simp only [inner, innerEdges, List.pairwise_cons, List.mem_cons, List.not_mem_nil, or_false,
          forall_eq_or_imp, forall_eq, SameEnds]
        refine ⟨⟨?_, ?_⟩, ?_, by simp, List.Pairwise.nil⟩ <;> omega
      · have hz : ((m.triangles.zip mids).map Prod.fst).Pairwise (fun t u => t.id ≠ u.id) := by
          rw [List.map_fst_zip (by omega)]; exact hTn
        rw [List.pairwise_map] at hz
        rw [List.pairwise_iff_forall_sublist] at hz ⊢
        intro r q hrq x hx y hy
        have hne := hz hrq
        obtain ⟨g, h, hgt, hht, ha, hb, hab⟩ := hin r (hrq.subset (by simp)) x hx
        obtain ⟨g', h', hgt', hht', ha', hb', hab'⟩ := hin q (hrq.subset (by simp)) y hy
        unfold SameEnds
        rintro (⟨h1, h2⟩ | ⟨h1, h2⟩)
        · rw [← h1] at ha'
          rw [← h2] at hb'
          have := mids_unique hg ha ha' hb hb' (hht.trans hgt.symm) (hht'.trans hgt'.symm) hab
          exact hne (hgt.symm.trans (this.trans hgt'))
        · rw [← h2] at ha'
          rw [← h1] at hb'
          have := mids_unique hg ha hb' hb ha' (hht.trans hgt.symm) (hgt'.trans hht'.symm) hab
          exact hne (hgt.symm.trans (this.trans hht'))
    · intro x hx y hy
      rw [List.mem_flatMap] at hx hy
      obtain ⟨r, hr, hx⟩ := hx
      obtain ⟨q, hq, hy⟩ := hy
      have x1 := hsp r hr x hx
      obtain ⟨g, h, _, _, ha, hb, _⟩ := hin q hq y hy
      have b1 := isMid_bounds ha
      have b2 := isMid_bounds hb
      unfold SameEnds
      omega
  · rw [hEs]
    intro x hx
    rw [List.mem_append, List.mem_flatMap, List.mem_flatMap] at hx
    rcases hx with ⟨r, hr, hx⟩ | ⟨q, hq, hx⟩
    · obtain ⟨he, _, _⟩ := hsplit_mem r hr
      obtain ⟨d0, d1, b0, b1⟩ := hEd r.1 he
      obtain ⟨k, j, hk, hj, e0, e1⟩ := split_ids b0 b1 hx
      rw [e0, e1]
      intro h
      exact hg.across r.1 he (childId_inj hs64 d0 d1 hk hj h).1
    · have dq := hTd q.1 (List.of_mem_zip hq).1
      obtain ⟨k', hk', e0', e1'⟩ := inner_ids hx
      rw [e0', e1']
      intro h
      have := (childId_inj hs64 dq dq (by omega) (by omega) h).2
      omega
  · rw [hEs, hpts]
    intro x hx
    rw [List.mem_append, List.mem_flatMap, List.mem_flatMap] at hx
    rcases hx with ⟨r, hr, hx⟩ | ⟨q, hq, hx⟩
    · obtain ⟨he, h1, h2⟩ := hsplit_mem r hr
      obtain ⟨ea, eb, _⟩ := hg.ends r.1 he
      simp only [splitEdge, List.mem_cons, List.not_mem_nil, or_false] at hx
      rcases hx with rfl | rfl <;> simp only <;> omega
    · have n0 := hmid q hq (⟨q.1.p0, q.1.p1, q.1.id, 0⟩, q.2.1) (by simp [mark3])
      have n1 := hmid q hq (⟨q.1.p1, q.1.p2, q.1.id, 1⟩, q.2.2.1) (by simp [mark3])
      have n2 := hmid q hq (⟨q.1.p2, q.1.p0, q.1.id, 2⟩, q.2.2.2) (by simp [mark3])
      have c0 := isMid_bounds n0
      have c1 := isMid_bounds n1
      have c2 := isMid_bounds n2
      have d01 := mids_ne hg n0 n1 rfl (by simp)
      have d12 := mids_ne hg n1 n2 rfl (by simp)
      have d02 := mids_ne hg n0 n2 rfl (by simp)
      simp only at c0 c1 c2 d01 d12 d02
      simp only [inner, innerEdges, List.mem_cons, List.not_mem_nil, or_false] at hx
      rcases hx with rfl | rfl | rfl <;> simp only <;> omega
  · rw [hpts, hg.numPoints, hlen.1, pow_succ]
    ring

end Verif.Eustace.Mesh
