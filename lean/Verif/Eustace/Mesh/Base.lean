import Verif.Eustace.Mesh.Step
import Mathlib.Data.List.Sort

/-! The icosahedron itself satisfies the invariant, whatever way ties are sorted. -/

namespace Verif.Eustace.Mesh

/-- Pairs of rows with equal keys come out next to each other, in one order or the other. -/
theorem sort_pairs {α : Type} (key : α → Nat) (C : List (α × α)) (l : List α)
    (heq : ∀ c ∈ C, key c.1 = key c.2)
    (hlt : C.Pairwise (fun c d => key c.1 < key d.1))
    (hp : l.Perm (C.flatMap (fun c => [c.1, c.2])))
    (hs : l.Pairwise (fun a b => key a ≤ key b)) :
    ∃ C' : List (α × α), l = C'.flatMap (fun c => [c.1, c.2]) ∧
      List.Forall₂ (fun c c' => c' = c ∨ c' = (c.2, c.1)) C C' := by
  induction C generalizing l with
  | nil =>
    refine ⟨[], ?_, List.Forall₂.nil⟩
    simpa using hp
  | cons c C ih =>
    obtain ⟨x, y⟩ := c
    simp only [List.flatMap_cons, List.cons_append, List.nil_append] at hp
    have hxy : key x = key y := heq (x, y) (by simp)
    have hrest : ∀ z ∈ C.flatMap (fun c => [c.1, c.2]), key x < key z := by
      intro z hz
      rw [List.mem_flatMap] at hz
      obtain ⟨d, hd, hz⟩ := hz
      have h1 : key x < key d.1 := (List.pairwise_cons.1 hlt).1 d hd
      have h2 : key d.1 = key d.2 := heq d (by simp [hd])
      simp only [List.mem_cons, List.not_mem_nil, or_false] at hz
      rcases hz with rfl | rfl
      · exact h1
      · omega
    have heq' : ∀ c ∈ C, key c.1 = key c.2 := fun c hc => heq c (by simp [hc])
    have hlt' := (List.pairwise_cons.1 hlt).2
    match l, hp, hs with
    | a :: l, hp, hs =>
      have hs' := List.pairwise_cons.1 hs
      have hmin : ∀ z ∈ a :: l, key a ≤ key z := by
        intro z hz
        rcases List.mem_cons.1 hz with rfl | hz
        · exact le_refl _
        · exact hs'.1 z hz
      have hax : key a ≤ key x := hmin x (hp.symm.subset (by simp))
      have ha : a = x ∨ a = y := by
        have : a ∈ x :: y :: C.flatMap (fun c => [c.1, c.2]) := hp.subset (by simp)
        rcases List.mem_cons.1 this with h | h
        · exact Or.inl h
        · rcases List.mem_cons.1 h with h | h
          · exact Or.inr h
          · have := hrest a h; omega
      have key2 : ∀ w, key w = key x → l.Perm (w :: C.flatMap (fun c => [c.1, c.2])) →
          ∃ l', l = w :: l' ∧ l'.Perm (C.flatMap (fun c => [c.1, c.2])) := by
        intro w hw hpl
        match l, hpl, hs'.2 with
        | b :: l, hpl, hsl =>
          have hbw : key b ≤ key w := by
            have : w ∈ b :: l := hpl.symm.subset (by simp)
            rcases List.mem_cons.1 this with rfl | h
            · exact le_refl _
            · exact (List.pairwise_cons.1 hsl).1 w h
          have hb : b = w := by
            have : b ∈ w :: C.flatMap (fun c => [c.1, c.2]) := hpl.subset (by simp)
            rcases List.mem_cons.1 this with h | h
            · exact h
            · have := hrest b h; omega
          subst hb
          exact ⟨l, rfl, (List.perm_cons b).1 hpl⟩
        | [], hpl, _ => simp at hpl
      rcases ha with rfl | rfl
      · obtain ⟨l', rfl, hp'⟩ := key2 y hxy.symm ((List.perm_cons a).1 hp)
        obtain ⟨C', hC, hF⟩ := ih l' heq' hlt' hp' (List.pairwise_cons.1 hs'.2).2
        exact ⟨(a, y) :: C', by simp [hC], List.Forall₂.cons (Or.inl rfl) hF⟩
      · have hp2 : l.Perm (x :: C.flatMap (fun c => [c.1, c.2])) :=
          (List.perm_cons a).1 (hp.trans (List.Perm.swap _ _ _))
        obtain ⟨l', rfl, hp'⟩ := key2 x rfl hp2
        obtain ⟨C', hC, hF⟩ := ih l' heq' hlt' hp' (List.pairwise_cons.1 hs'.2).2
        exact ⟨(a, x) :: C', by simp [hC], List.Forall₂.cons (Or.inr rfl) hF⟩
    | [], hp, _ => simp at hp

/-- The sides of the base triangles in pairs, by edge key. -/
def basePairs : List (Half × Half) :=
  chunk2 ((baseTriangles.flatMap Tri.halves).insertionSort
    (fun a b => edgeKey 12 a ≤ edgeKey 12 b))

theorem basePairs_key : ∀ c ∈ basePairs, edgeKey 12 c.1 = edgeKey 12 c.2 := by decide +kernel

theorem basePairs_lt : basePairs.Pairwise (fun c d => edgeKey 12 c.1 < edgeKey 12 d.1) := by
  decide +kernel

theorem basePairs_perm :
    (baseTriangles.flatMap Tri.halves).Perm (basePairs.flatMap (fun c => [c.1, c.2])) := by
  decide +kernel

theorem basePairs_rev : ∀ c ∈ basePairs, c.2.a = c.1.b ∧ c.2.b = c.1.a ∧ c.1.t ≠ c.2.t ∧
    c.1.a < 12 ∧ c.1.b < 12 ∧ c.1.a ≠ c.1.b := by decide +kernel

/-- The unordered pair of triangles of a pair of sides. -/
def pairOf (c : Half × Half) : Nat × Nat :=
  (min c.1.t.toNat c.2.t.toNat, max c.1.t.toNat c.2.t.toNat)

theorem basePairs_nodup : (basePairs.map pairOf).Nodup := by decide +kernel

/-- The unordered pair of points of a pair of sides. -/
def endsOf (c : Half × Half) : Nat × Nat := (min c.1.a c.1.b, max c.1.a c.1.b)

theorem basePairs_ends : (basePairs.map endsOf).Nodup := by decide +kernel

theorem base_ids : baseTriangles.map (fun t => t.id.toNat) =
    (List.range (20 * 4 ^ 0)).map (fun n => n * 2 ^ (58 - 2 * 0)) := by decide +kernel

/-- The row of the edge array made from two sides (as in `buildBase`). -/
def edgeOf (r : Half × Half) : Edge := ⟨r.1.a, r.1.b, r.1.t, r.1.k, r.2.t, r.2.k⟩

theorem good_base {P : Type} (srt : Argsort) (points : List P) (hn : points.length = 12) :
    Good 0 (buildBase srt points) := by
  obtain ⟨C', hC, hF⟩ := sort_pairs (edgeKey 12) basePairs
    (sortRows srt (edgeKey 12) (baseTriangles.flatMap Tri.halves)) basePairs_key basePairs_lt
    ((sortRows_perm _ _ _).trans basePairs_perm) (sortRows_sorted _ _ _)
  have hedges : (buildBase srt points).edges = C'.map edgeOf := by
    simp only [buildBase]
    rw [hn, hC, chunk2_flatMap]
    simp [edgeOf, Function.comp_def]
  have hmem : ∀ c' ∈ C', c' ∈ basePairs ∨ (c'.2, c'.1) ∈ basePairs := by
    intro c' hc'
    clear hC hedges
    have hmap : ∀ (A B : List (Half × Half)),
        List.Forall₂ (fun c c' : Half × Half => c' = c ∨ c' = (c.2, c.1)) A B →
        ∀ x ∈ B, x ∈ A ∨ (x.2, x.1) ∈ A := by
      intro A B h
      induction h with
      | nil => simp
      | cons h _ ih =>
        intro x hx
        rcases List.mem_cons.1 hx with rfl | hx
        · rcases h with rfl | rfl
          · exact Or.inl (by simp)
          · exact Or.inr (by simp)
        · rcases ih x hx with h | h
          · exact Or.inl (by simp [h])
          · exact Or.inr (by simp [h])
    exact hmap _ _ hF c' hc'
  have hpair : C'.map pairOf = basePairs.map pairOf := by
    clear hC hedges hmem
    have hmap : ∀ (A B : List (Half × Half)),
        List.Forall₂ (fun c c' : Half × Half => c' = c ∨ c' = (c.2, c.1)) A B →
        B.map pairOf = A.map pairOf := by
      intro A B h
      induction h with
      | nil => rfl
      | cons h _ ih =>
        simp only [List.map_cons, ih]
        rcases h with rfl | rfl
        · rfl
        · simp [pairOf, min_comm, max_comm]
    exact hmap _ _ hF
  have hrev : ∀ c ∈ C', c.2.a = c.1.b ∧ c.2.b = c.1.a ∧ c.1.t ≠ c.2.t ∧
      c.1.a < 12 ∧ c.1.b < 12 ∧ c.1.a ≠ c.1.b := by
    intro c hc
    rcases hmem c hc with h | h
    · exact basePairs_rev c h
    · have := basePairs_rev _ h
      simp only at this
      obtain ⟨h1, h2, h3, h4, h5, h6⟩ := this
      refine ⟨h2.symm, h1.symm, h3.symm, ?_, ?_, ?_⟩
      · rw [h1]; exact h5
      · rw [h2]; exact h4
      · rw [h1, h2]; exact h6.symm
  have hends : C'.map endsOf = basePairs.map endsOf := by
    clear hC hedges hmem hrev hpair
    have hmap : ∀ (A B : List (Half × Half)),
        (∀ c ∈ A, c.2.a = c.1.b ∧ c.2.b = c.1.a) →
        List.Forall₂ (fun c c' : Half × Half => c' = c ∨ c' = (c.2, c.1)) A B →
        B.map endsOf = A.map endsOf := by
      intro A B hA h
      induction h with
      | nil => rfl
      | @cons c c' _ _ h _ ih =>
        simp only [List.map_cons, ih (fun d hd => hA d (by simp [hd]))]
        obtain ⟨h1, h2⟩ := hA c (by simp)
        rcases h with rfl | rfl
        · rfl
        · simp [endsOf, h1, h2, min_comm, max_comm]
    exact hmap _ _ (fun c hc => ⟨(basePairs_rev c hc).1, (basePairs_rev c hc).2.1⟩) hF
  have hhalves : ∀ c ∈ C', (edgeOf c).halves = [c.1, c.2] := by
    intro c hc
    obtain ⟨h1, h2, _⟩ := hrev c hc
    obtain ⟨c1, c2⟩ := c
    obtain ⟨a1, b1, t1, k1⟩ := c1
    obtain ⟨a2, b2, t2, k2⟩ := c2
    simp only at h1 h2
    subst h1 h2
    rfl
  constructor
  · rfl
  · exact base_ids
  · rw [hedges, List.flatMap_map]
    have : C'.flatMap (fun c => (edgeOf c).halves) = C'.flatMap (fun c => [c.1, c.2]) :=
      List.flatMap_congr hhalves
    rw [this, ← hC]
    exact sortRows_perm _ _ _
  · rw [hedges, List.pairwise_map]
    have hnd : (C'.map pairOf).Nodup := by rw [hpair]; exact basePairs_nodup
    rw [List.Nodup, List.pairwise_map] at hnd
    refine hnd.imp ?_
    intro c d hne hs
    apply hne
    unfold SamePair edgeOf at hs
    simp only at hs
    rcases hs with ⟨h1, h2⟩ | ⟨h1, h2⟩ <;> unfold pairOf <;> rw [h1, h2]
    rw [min_comm, max_comm]
  · rw [hedges, List.pairwise_map]
    have hnd : (C'.map endsOf).Nodup := by rw [hends]; exact basePairs_ends
    rw [List.Nodup, List.pairwise_map] at hnd
    refine hnd.imp ?_
    intro c d hne hs
    apply hne
    unfold SameEnds edgeOf at hs
    simp only at hs
    rcases hs with ⟨h1, h2⟩ | ⟨h1, h2⟩ <;> unfold endsOf <;> rw [h1, h2]
    rw [min_comm, max_comm]
  · rw [hedges]
    intro e he
    obtain ⟨c, hc, rfl⟩ := List.mem_map.1 he
    exact (hrev c hc).2.2.1
  · rw [hedges]
    intro e he
    obtain ⟨c, hc, rfl⟩ := List.mem_map.1 he
    have := (hrev c hc).2.2.2
    show c.1.a < points.length ∧ c.1.b < points.length ∧ c.1.a ≠ c.1.b
    rw [hn]; exact this
  · show points.length = _
    rw [hn]; rfl

/-- The invariant holds at every level which 64 bit identifiers allow. -/
theorem good_build {P : Type} [Inhabited P] (srt : Argsort) (mid : P → P → P) (points : List P)
    (hn : points.length = 12) (L : Nat) (hL : L ≤ 28) : Good L (build srt mid points L) := by
  induction L with
  | zero => exact good_base srt points hn
  | succ L ih => exact (step (ih (by omega)) hL srt mid).1

end Verif.Eustace.Mesh
