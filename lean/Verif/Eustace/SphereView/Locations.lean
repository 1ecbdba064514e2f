import Verif.Eustace.SphereView.Regions

/-!
C103: which observations a view sees, and with which weights.
-/

namespace Verif.Eustace.SphereView

open Matrix Verif.Eustace.Linear Verif.Eustace.Mesh Verif.Eustace.Locator Verif.Eustace.Locator.V3 Verif.Eustace.SphereSpde

noncomputable section

theorem locate_row (srt : Argsort) {pts : List V3} (hg : GoodPoints pts) {v : V3} (hv : v ≠ ⟨0, 0, 0⟩) (L : Nat)
    (hL : L ≤ 28) :
    ∃ s t, locate (build srt midOnSphere pts 0) v L = some s ∧
      (build srt midOnSphere pts L).triangles[indexAtLevel s.id L]? = some t ∧
      Located (build srt midOnSphere pts L) v t s.bary ∧
      (∀ j, j ≠ t.p0 → j ≠ t.p1 → j ≠ t.p2 → designRow (build srt midOnSphere pts L) s L j = 0) ∧
      ∑ j ∈ Finset.range (build srt midOnSphere pts L).points.length,
        designRow (build srt midOnSphere pts L) s L j = 1 := by
  obtain ⟨s, t, h1, h2, _, _, h5⟩ := c31_locate srt hg hv L hL
  obtain ⟨s', _, h1', _, _, _, _, h6, _⟩ := c77_interpolation srt hg hv L hL
  rw [h1] at h1'
  injection h1' with h1'
  subst h1'
  refine ⟨s, t, h1, h2, h5, ?_, h6⟩
  intro j a b c
  simp only [designRow, List.getD, h2, Option.getD_some]
  rw [if_neg c, if_neg b, if_neg a]

/-- The sum of a row over the active points is its sum over all points, when it is zero elsewhere. -/
theorem sum_active {m : Mesh V3} (hm : Sound m) (a : List Nat) (f : Nat → ℝ)
    (hf : ∀ k, k ∉ activeVertices m a → f k = 0) :
    ∑ c : Fin (size m a), f (activeVertices m a)[c.val] = ∑ j ∈ Finset.range m.points.length, f j := by
  have h1 : ∑ c : Fin (size m a), f (activeVertices m a)[c.val] = ((activeVertices m a).map f).sum := by
    rw [← List.sum_ofFn]
    congr 1
    refine List.ext_getElem (by simp) ?_
    intro i h1 h2
    simp
  rw [h1, ← List.sum_toFinset _ (active_nodup m a)]
  refine Finset.sum_subset ?_ ?_
  · intro k hk
    rw [List.mem_toFinset] at hk
    exact Finset.mem_range.2 (active_lt hm hk)
  · intro k _ hk
    rw [List.mem_toFinset] at hk
    exact hf k hk

/-- **C103.**  A location lies in the domain of a view exactly if the triangle in which it is found belongs to the view.
Its row then has the weights of the full design matrix and they add up to one; otherwise the row is zero. -/
theorem c103_rows (srt : Argsort) {pts : List V3} (hg : GoodPoints pts) {v : V3} (hv : v ≠ ⟨0, 0, 0⟩) (L : Nat)
    (hL : L ≤ 28) :
    ∃ s i t, locate (build srt midOnSphere pts 0) v L = some s ∧
      (build srt midOnSphere pts L).triangles[i]? = some t ∧ Located (build srt midOnSphere pts L) v t s.bary ∧
      ∀ view : List Nat,
        (inDomain (build srt midOnSphere pts 0) L view v = true ↔ i ∈ view) ∧
        (i ∈ view → (∀ c, viewRow (build srt midOnSphere pts L) (build srt midOnSphere pts 0) L view v c =
            designRow (build srt midOnSphere pts L) s L (activeVertices (build srt midOnSphere pts L) view)[c.val]) ∧
          (∀ j, j ∉ activeVertices (build srt midOnSphere pts L) view →
            designRow (build srt midOnSphere pts L) s L j = 0) ∧
          ∑ c, viewRow (build srt midOnSphere pts L) (build srt midOnSphere pts 0) L view v c = 1) ∧
        (i ∉ view → viewRow (build srt midOnSphere pts L) (build srt midOnSphere pts 0) L view v = 0) := by
  obtain ⟨s, t, h1, h2, h3, h4, h5⟩ := locate_row srt hg hv L hL
  refine ⟨s, indexAtLevel s.id L, t, h1, h2, h3, ?_⟩
  intro view
  refine ⟨?_, ?_, ?_⟩
  · simp [inDomain, h1]
  · intro hi
    have hrow : ∀ j, viewRowFull (build srt midOnSphere pts L) (build srt midOnSphere pts 0) L view v j =
        designRow (build srt midOnSphere pts L) s L j := by
      intro j
      simp only [viewRowFull, h1, List.contains_iff_mem, if_pos hi]
    have hout : ∀ j, j ∉ activeVertices (build srt midOnSphere pts L) view →
        designRow (build srt midOnSphere pts L) s L j = 0 := by
      intro j hj
      rw [mem_active] at hj
      refine h4 j ?_ ?_ ?_ <;> intro e <;> exact hj ⟨_, hi, t, h2, by simp [e]⟩
    refine ⟨fun c => hrow _, hout, ?_⟩
    rw [← h5, ← sum_active (c45_mesh srt hg L hL) view _ hout]
    exact Finset.sum_congr rfl fun c _ => hrow _
  · intro hi
    funext c
    simp only [viewRow, viewRowFull, h1, List.contains_iff_mem, if_neg hi, Pi.zero_apply]

/-- **C103.**  Every location lies in the domain of exactly one super triangle of a level. -/
theorem c103_one_domain (srt : Argsort) {pts : List V3} (hg : GoodPoints pts) {v : V3} (hv : v ≠ ⟨0, 0, 0⟩) (L : Nat)
    (hL : L ≤ 28) (l : Nat) (hl : l ≤ L) :
    ∃! j, j < nTrianglesAtLevel l ∧ ∃ view, makeSuper (build srt midOnSphere pts L) l j = .ok view ∧
      inDomain (build srt midOnSphere pts 0) L view v = true := by
  obtain ⟨views, h1, h2, h3, _⟩ := c65_tiling srt hg.num L hL l hl
  obtain ⟨s, i, t, _, ht, _, h⟩ := c103_rows srt hg hv L hL
  have hi := (List.getElem?_eq_some_iff.1 ht).1
  obtain ⟨j, ⟨a, ha, hia⟩, hu⟩ := h3 i hi
  have hj := (List.getElem?_eq_some_iff.1 ha).1
  refine ⟨j, ⟨by rw [← h1]; exact hj, a, h2 j a ha, (h a).1.2 hia⟩, ?_⟩
  rintro j' ⟨hj', view, hmk, hd⟩
  rw [← h1] at hj'
  have hget := List.getElem?_eq_getElem hj'
  have := h2 j' _ hget
  rw [hmk] at this
  injection this with this
  exact hu j' ⟨_, hget, by rw [← this]; exact (h view).1.1 hd⟩

/-- **C103.**  Putting the rows of the super triangles of a level back at their points and adding them gives the row of the
full design matrix: no observation is lost or used twice. -/
theorem c103_rows_add_up (srt : Argsort) {pts : List V3} (hg : GoodPoints pts) {v : V3} (hv : v ≠ ⟨0, 0, 0⟩) (L : Nat)
    (hL : L ≤ 28) (parts : List (List Nat))
    (hp : parts.flatten.Perm (List.range (build srt midOnSphere pts L).triangles.length)) :
    ∃ s, locate (build srt midOnSphere pts 0) v L = some s ∧
      ∀ k : Fin (build srt midOnSphere pts L).points.length,
        (parts.map fun a => ((vertexMappings (build srt midOnSphere pts L) a)ᵀ *ᵥ
          viewRow (build srt midOnSphere pts L) (build srt midOnSphere pts 0) L a v) k).sum =
        designRow (build srt midOnSphere pts L) s L k.val := by
  obtain ⟨s, i, t, h1, ht, _, h⟩ := c103_rows srt hg hv L hL
  refine ⟨s, h1, fun k => ?_⟩
  have hi := (List.getElem?_eq_some_iff.1 ht).1
  have hcount : parts.flatten.count i = 1 := by
    rw [hp.count_eq]
    exact List.count_eq_one_of_mem List.nodup_range (List.mem_range.2 hi)
  have hterm : ∀ a : List Nat, ((vertexMappings (build srt midOnSphere pts L) a)ᵀ *ᵥ
      viewRow (build srt midOnSphere pts L) (build srt midOnSphere pts 0) L a v) k =
      if i ∈ a then designRow (build srt midOnSphere pts L) s L k.val else 0 := by
    intro a
    split
    · next hia =>
      obtain ⟨hrow, hout, _⟩ := (h a).2.1 hia
      by_cases hk : k.val ∈ activeVertices (build srt midOnSphere pts L) a
      · obtain ⟨c, hc, hck⟩ := List.getElem_of_mem hk
        rw [map_back a _ ⟨c, hc⟩ k hck, hrow, ← hck]
      · rw [map_back_zero a _ k hk, hout _ hk]
    · next hia => rw [(h a).2.2 hia, mulVec_zero, Pi.zero_apply]
  simp only [hterm]
  clear hterm hp
  generalize designRow (build srt midOnSphere pts L) s L k.val = w
  have hzero : ∀ l : List (List Nat), l.flatten.count i = 0 → (l.map fun a => if i ∈ a then w else 0).sum = 0 := by
    intro l hl
    refine List.sum_eq_zero fun x hx => ?_
    obtain ⟨a, ha, rfl⟩ := List.mem_map.1 hx
    rw [if_neg]
    intro hia
    rw [List.count_eq_zero] at hl
    exact hl (List.mem_flatten.2 ⟨a, ha, hia⟩)
  clear h
  induction parts with
  | nil => simp at hcount
  | cons a l ih =>
    rw [List.flatten_cons, List.count_append] at hcount
    rw [List.map_cons, List.sum_cons]
    by_cases hia : i ∈ a
    · have := List.count_pos_iff.2 hia
      rw [if_pos hia, hzero l (by omega), add_zero]
    · rw [if_neg hia, zero_add]
      exact ih (by rw [List.count_eq_zero.2 hia, zero_add] at hcount; exact hcount)

end

end Verif.Eustace.SphereView
