import Verif.Eustace.SphereView.Spec
import Verif.Eustace.SphereSpde.Props

/-!
Lemmas about the numbering of the points of a view.
-/

namespace Verif.Eustace.SphereView

open Matrix Verif.Eustace.Linear Verif.Eustace.Mesh Verif.Eustace.Locator Verif.Eustace.Locator.V3 Verif.Eustace.SphereSpde

noncomputable section

theorem mem_npSort {l : List Nat} {k : Nat} : k ∈ npSort l ↔ k ∈ l := List.mem_mergeSort

theorem npSort_sorted {l : List Nat} (h : l.Pairwise (· < ·)) : npSort l = l :=
  List.mergeSort_of_pairwise (h.imp fun h => by simpa using h.le)

theorem npUnique_sorted (l : List Nat) : (npUnique l).Pairwise (· < ·) :=
  (Finset.sortedLT_sort _).pairwise

theorem mem_viewTriangles {m : Mesh V3} {a : List Nat} {t : Tri} :
    t ∈ viewTriangles m a ↔ ∃ i ∈ a, m.triangles[i]? = some t := by
  simp [viewTriangles, gather]

theorem active_sorted (m : Mesh V3) (a : List Nat) : (activeVertices m a).Pairwise (· < ·) := by
  rw [activeVertices, npSort_sorted (npUnique_sorted _)]
  exact npUnique_sorted _

theorem active_nodup (m : Mesh V3) (a : List Nat) : (activeVertices m a).Nodup :=
  (active_sorted m a).imp fun h => h.ne

theorem mem_active {m : Mesh V3} {a : List Nat} {k : Nat} : k ∈ activeVertices m a ↔ InRegion m a k := by
  rw [activeVertices, mem_npSort, npUnique, Finset.mem_sort, List.mem_toFinset, List.mem_flatMap]
  simp only [mem_viewTriangles, InRegion, List.mem_cons, List.not_mem_nil, or_false]
  constructor
  · rintro ⟨t, ⟨i, hi, ht⟩, h⟩; exact ⟨i, hi, t, ht, h⟩
  · rintro ⟨i, hi, t, ht, h⟩; exact ⟨t, ⟨i, hi, ht⟩, h⟩

theorem active_of_mem {m : Mesh V3} {a : List Nat} {t : Tri} (ht : t ∈ viewTriangles m a) :
    t.p0 ∈ activeVertices m a ∧ t.p1 ∈ activeVertices m a ∧ t.p2 ∈ activeVertices m a := by
  obtain ⟨i, hi, h⟩ := mem_viewTriangles.1 ht
  exact ⟨mem_active.2 ⟨i, hi, t, h, .inl rfl⟩, mem_active.2 ⟨i, hi, t, h, .inr (.inl rfl)⟩,
    mem_active.2 ⟨i, hi, t, h, .inr (.inr rfl)⟩⟩

theorem viewTriangles_mem {m : Mesh V3} {a : List Nat} {t : Tri} (ht : t ∈ viewTriangles m a) : t ∈ m.triangles := by
  obtain ⟨i, _, h⟩ := mem_viewTriangles.1 ht
  exact List.mem_of_getElem? h

theorem active_lt {m : Mesh V3} (hm : Sound m) {a : List Nat} {k : Nat} (hk : k ∈ activeVertices m a) :
    k < m.points.length := by
  obtain ⟨i, _, t, ht, h⟩ := mem_active.1 hk
  have := hm.inside t (List.mem_of_getElem? ht)
  rcases h with rfl | rfl | rfl
  · exact this.1
  · exact this.2.1
  · exact this.2.2

/-! ### The map of indices -/

theorem update_other (l : List (Nat × Nat)) (f : Nat → Int) (k : Nat) (h : ∀ r ∈ l, r.1 ≠ k) :
    l.foldl (fun f r => Function.update f r.1 (r.2 : Int)) f k = f k := by
  induction l generalizing f with
  | nil => rfl
  | cons r l ih =>
    rw [List.foldl_cons, ih _ fun r hr => h r (List.mem_cons_of_mem _ hr),
      Function.update_of_ne (Ne.symm (h r (by simp)))]

theorem update_at (l : List Nat) (hl : l.Nodup) (n : Nat) (f : Nat → Int) (c : Nat) (hc : c < l.length) :
    (l.zipIdx n).foldl (fun f r => Function.update f r.1 (r.2 : Int)) f l[c] = ((n + c : Nat) : Int) := by
  induction l generalizing n f c with
  | nil => simp at hc
  | cons a l ih =>
    rw [List.zipIdx_cons, List.foldl_cons]
    rw [List.nodup_cons] at hl
    cases c with
    | zero =>
      rw [update_other]
      · simp
      · rintro ⟨x, j⟩ hr
        have := (List.mem_zipIdx hr).2.2
        intro e
        simp only [List.getElem_cons_zero] at e
        apply hl.1
        rw [← e, this]
        exact List.getElem_mem _
    | succ c =>
      rw [List.getElem_cons_succ, ih hl.2]
      push_cast; ring

theorem index_at (m : Mesh V3) (a : List Nat) (c : Nat) (hc : c < size m a) :
    vertexIndexMap m a (activeVertices m a)[c] = c := by
  rw [vertexIndexMap, update_at _ (active_nodup m a) 0 _ c hc]
  simp

theorem index_of {m : Mesh V3} {a : List Nat} {k : Nat} (hk : k ∈ activeVertices m a) :
    ∃ c : Fin (size m a), vertexIndexMap m a k = (c.val : Int) ∧ (activeVertices m a)[c.val] = k := by
  obtain ⟨c, hc, rfl⟩ := List.getElem_of_mem hk
  exact ⟨⟨c, hc⟩, index_at m a c hc, rfl⟩

theorem index_nonneg {m : Mesh V3} {a : List Nat} {k : Nat} (hk : k ∈ activeVertices m a) : 0 ≤ vertexIndexMap m a k := by
  obtain ⟨c, h, _⟩ := index_of hk
  rw [h]; positivity

/-! ### Mapping fields -/

theorem map_at {m : Mesh V3} (hm : Sound m) (a : List Nat) (x : Vec m.points.length) (c : Fin (size m a)) :
    (vertexMappings m a *ᵥ x) c = valueAt x (activeVertices m a)[c.val] := by
  have h := active_lt hm (List.getElem_mem c.isLt)
  rw [valueAt, dif_pos h, mulVec, dotProduct, Finset.sum_eq_single ⟨_, h⟩]
  · simp [vertexMappings]
  · intro j _ hj
    rw [vertexMappings, Matrix.of_apply, if_neg, zero_mul]
    intro e; exact hj (Fin.ext e.symm)
  · intro h'; exact absurd (Finset.mem_univ _) h'

theorem map_value {m : Mesh V3} (hm : Sound m) {a : List Nat} (x : Vec m.points.length) {k : Nat}
    (hk : k ∈ activeVertices m a) :
    valueAt (vertexMappings m a *ᵥ x) (vertexIndexMap m a k).toNat = valueAt x k := by
  obtain ⟨c, h, rfl⟩ := index_of hk
  rw [h, Int.toNat_natCast, valueAt, dif_pos c.isLt, map_at hm]

theorem map_back {m : Mesh V3} (a : List Nat) (x : Vec (size m a)) (c : Fin (size m a)) (k : Fin m.points.length)
    (hk : (activeVertices m a)[c.val] = k.val) : ((vertexMappings m a)ᵀ *ᵥ x) k = x c := by
  rw [mulVec, dotProduct, Finset.sum_eq_single c]
  · simp [vertexMappings, hk]
  · intro d _ hd
    rw [transpose_apply, vertexMappings, Matrix.of_apply, if_neg, zero_mul]
    intro e
    apply hd
    apply Fin.ext
    exact ((active_nodup m a).getElem_inj_iff).1 (e.trans hk.symm)
  · intro h'; exact absurd (Finset.mem_univ _) h'

theorem map_back_zero {m : Mesh V3} (a : List Nat) (x : Vec (size m a)) (k : Fin m.points.length)
    (hk : k.val ∉ activeVertices m a) : ((vertexMappings m a)ᵀ *ᵥ x) k = 0 := by
  rw [mulVec, dotProduct]
  refine Finset.sum_eq_zero fun d _ => ?_
  rw [transpose_apply, vertexMappings, Matrix.of_apply, if_neg, zero_mul]
  intro e
  exact hk (e ▸ List.getElem_mem _)

theorem map_map {m : Mesh V3} (hm : Sound m) (a : List Nat) : vertexMappings m a * (vertexMappings m a)ᵀ = 1 := by
  have h : ∀ x, (vertexMappings m a * (vertexMappings m a)ᵀ) *ᵥ x = x := by
    intro x
    funext c
    have hc := active_lt hm (List.getElem_mem c.isLt)
    rw [← mulVec_mulVec, map_at hm, valueAt, dif_pos hc, map_back a x c ⟨_, hc⟩ rfl]
  ext i j
  have := congrFun (h (Pi.single j 1)) i
  rw [mulVec_single_one] at this
  simp only [col_apply] at this
  rw [this, Pi.single_apply, Matrix.one_apply]

end

end Verif.Eustace.SphereView
