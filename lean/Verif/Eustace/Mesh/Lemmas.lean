import Verif.Eustace.Mesh.Model
import Mathlib.Data.List.Perm.Basic
import Mathlib.Data.List.Nodup
import Mathlib.Tactic.Ring
import Mathlib.Tactic.Linarith

/-! Lemmas about sorting rows, reading strides and making identifiers. -/

namespace Verif.Eustace.Mesh

/-! ### Sorting rows -/

theorem gather_perm {α : Type} (rows : List α) (idx : List Nat)
    (h : idx.Perm (List.range rows.length)) : (gather rows idx).Perm rows := by
  have h1 := h.filterMap (fun i => rows[i]?)
  refine h1.trans (List.Perm.of_eq ?_)
  clear h h1 idx
  induction rows with
  | nil => rfl
  | cons a l ih =>
    rw [List.length_cons, List.range_succ_eq_map, List.filterMap_cons]
    simp only [List.getElem?_cons_zero, List.filterMap_map]
    congr 1

theorem sortRows_perm {α : Type} (s : Argsort) (key : α → Nat) (rows : List α) :
    (sortRows s key rows).Perm rows := by
  apply gather_perm
  have := s.perm (rows.map key)
  simpa using this

theorem sortRows_sorted {α : Type} (s : Argsort) (key : α → Nat) (rows : List α) :
    (sortRows s key rows).Pairwise (fun a b => key a ≤ key b) := by
  have h := s.sorted (rows.map key)
  unfold sortRows gather
  rw [List.pairwise_filterMap] at h ⊢
  refine h.imp ?_
  intro i j hij a ha b hb
  exact hij (key a) (by simp [ha]) (key b) (by simp [hb])

/-- When the rows can be put in strictly increasing order, that is what sorting gives. -/
theorem sortRows_eq {α : Type} (s : Argsort) (key : α → Nat) (rows target : List α)
    (hp : target.Perm rows) (hs : target.Pairwise (fun a b => key a < key b)) :
    sortRows s key rows = target := by
  have h1 := sortRows_perm s key rows
  have h2 := sortRows_sorted s key rows
  have h3 : (sortRows s key rows).Perm target := h1.trans hp.symm
  have h4 : (sortRows s key rows).Pairwise (fun a b => key a < key b) := by
    have hn : (target.map key).Nodup := by
      rw [List.Nodup, List.pairwise_map]
      exact hs.imp (fun h => Nat.ne_of_lt h)
    have hn2 : ((sortRows s key rows).map key).Nodup := ((h3.map key).nodup_iff).2 hn
    rw [List.Nodup, List.pairwise_map] at hn2
    exact (h2.and hn2).imp (fun h => Nat.lt_of_le_of_ne h.1 h.2)
  refine List.Perm.eq_of_pairwise (le := fun a b => key a < key b) ?_ h4 hs h3
  intro a b _ _ hab hba
  exact absurd hab (Nat.lt_asymm hba)

/-! ### Strides -/

theorem chunk3_flatMap {α β : Type} (f g h : α → β) (l : List α) :
    chunk3 (l.flatMap (fun x => [f x, g x, h x])) = l.map (fun x => (f x, g x, h x)) := by
  induction l with
  | nil => rfl
  | cons x l ih => simp [chunk3, ih]

theorem chunk2_flatMap {α β : Type} (f g : α → β) (l : List α) :
    chunk2 (l.flatMap (fun x => [f x, g x])) = l.map (fun x => (f x, g x)) := by
  induction l with
  | nil => rfl
  | cons x l ih => simp [chunk2, ih]

theorem chunk3_length {α : Type} : ∀ (n : Nat) (l : List α), l.length = 3 * n →
    (chunk3 l).length = n
  | 0, l, h => by
    have : l = [] := List.eq_nil_of_length_eq_zero (by omega)
    subst this; rfl
  | n + 1, l, h => by
    match l, h with
    | x :: y :: z :: l, h =>
      simp only [chunk3, List.length_cons] at *
      rw [chunk3_length n l (by omega)]
    | [], h => simp at h; try omega
    | [_], h => simp at h; try omega
    | [_, _], h => simp at h; try omega

theorem chunk2_length {α : Type} : ∀ (n : Nat) (l : List α), l.length = 2 * n →
    (chunk2 l).length = n
  | 0, l, h => by
    have : l = [] := List.eq_nil_of_length_eq_zero (by omega)
    subst this; rfl
  | n + 1, l, h => by
    match l, h with
    | x :: y :: l, h =>
      simp only [chunk2, List.length_cons] at *
      rw [chunk2_length n l (by omega)]
    | [], h => simp at h; try omega
    | [_], h => simp at h; try omega

/-! ### Permutations -/

/-- A rearrangement of the images comes from a rearrangement of the list. -/
theorem exists_perm_map {α β : Type} (f : α → β) {l : List α} {m : List β}
    (h : (l.map f).Perm m) : ∃ r : List α, r.Perm l ∧ r.map f = m := by
  generalize hx : l.map f = x at h
  induction h generalizing l with
  | nil => exact ⟨l, List.Perm.refl _, hx⟩
  | cons a _ ih =>
    match l, hx with
    | b :: l, hx =>
      simp only [List.map_cons, List.cons.injEq] at hx
      obtain ⟨r, hr, hm⟩ := ih hx.2
      exact ⟨b :: r, hr.cons b, by simp [hx.1, hm]⟩
  | swap a b t =>
    match l, hx with
    | c :: d :: l, hx =>
      simp only [List.map_cons, List.cons.injEq] at hx
      exact ⟨d :: c :: l, List.Perm.swap _ _ _, by simp [hx]⟩
  | trans _ _ ih1 ih2 =>
    obtain ⟨r1, hp1, hm1⟩ := ih1 hx
    obtain ⟨r2, hp2, hm2⟩ := ih2 hm1
    exact ⟨r2, hp2.trans hp1, hm2⟩

theorem flatMap_perm_flatMap {α β : Type} (f g : α → List β) (l : List α)
    (h : ∀ x ∈ l, (f x).Perm (g x)) : (l.flatMap f).Perm (l.flatMap g) := by
  induction l with
  | nil => exact List.Perm.refl _
  | cons a l ih =>
    simp only [List.flatMap_cons]
    exact (h a (by simp)).append (ih (fun x hx => h x (by simp [hx])))

theorem flatMap_append_perm {α β : Type} (f g : α → List β) (l : List α) :
    (l.flatMap f ++ l.flatMap g).Perm (l.flatMap (fun x => f x ++ g x)) := by
  induction l with
  | nil => exact List.Perm.refl _
  | cons a l ih =>
    simp only [List.flatMap_cons]
    refine List.Perm.trans ?_ (ih.append_left (f a ++ g a))
    simp only [List.append_assoc]
    refine List.Perm.append_left _ ?_
    rw [← List.append_assoc, ← List.append_assoc]
    exact List.Perm.append_right _ List.perm_append_comm

theorem map_append_map_perm {α β : Type} (f g : α → β) (l : List α) :
    (l.map f ++ l.map g).Perm (l.flatMap (fun x => [f x, g x])) := by
  have h := flatMap_append_perm (fun x => [f x]) (fun x => [g x]) l
  rw [List.map_eq_flatMap, List.map_eq_flatMap]
  exact h

theorem flatMap_map_eq {α β γ : Type} (f : α → List β) (g : β → List γ) (l : List α) :
    (l.flatMap f).flatMap g = l.flatMap (fun x => (f x).flatMap g) := by
  induction l with
  | nil => rfl
  | cons a l ih => simp [List.flatMap_append, ih]

/-! ### Identifiers -/

theorem hashShift_eq {L : Nat} (h : L ≤ 29) : hashShift L = 58 - 2 * L := by
  unfold hashShift baseHashShift
  rw [BitVec.toNat_sub, BitVec.toNat_mul]
  simp only [BitVec.toNat_ofNat]
  have h1 : L % 2 ^ 64 = L := Nat.mod_eq_of_lt (by omega)
  have h2 : (2 % 2 ^ 64) = 2 := by decide
  have h3 : (58 % 2 ^ 64) = 58 := by decide
  rw [h1, h2, h3]
  have h4 : 2 * L % 2 ^ 64 = 2 * L := Nat.mod_eq_of_lt (by omega)
  rw [h4]
  omega

theorem or_eq_add {x k s : Nat} (hx : 2 ^ (s + 2) ∣ x) (hk : k < 4) :
    x ||| (k * 2 ^ s) = x + k * 2 ^ s := by
  obtain ⟨c, rfl⟩ := hx
  have hlt : k * 2 ^ s < 2 ^ (s + 2) := by
    rw [pow_add]
    have : 0 < 2 ^ s := Nat.two_pow_pos s
    nlinarith
  rw [Nat.two_pow_add_eq_or_of_lt hlt]

theorem childId_toNat {t : Id} {k s : Nat} (ht : 2 ^ (s + 2) ∣ t.toNat) (hk : k < 4)
    (hs : s + 2 ≤ 64) : (childId t k s).toNat = t.toNat + k * 2 ^ s := by
  unfold childId
  rw [BitVec.toNat_or, BitVec.toNat_shiftLeft, BitVec.toNat_ofNat]
  have h1 : k % 2 ^ 64 = k := Nat.mod_eq_of_lt (by omega)
  rw [h1, Nat.shiftLeft_eq]
  have hlt : k * 2 ^ s < 2 ^ 64 := by
    have h2 : k * 2 ^ s < 2 ^ (s + 2) := by
      rw [pow_add]
      have : 0 < 2 ^ s := Nat.two_pow_pos s
      nlinarith
    exact lt_of_lt_of_le h2 (Nat.pow_le_pow_right (by omega) hs)
  rw [Nat.mod_eq_of_lt hlt]
  exact or_eq_add ht hk

theorem key_toNat {t : Id} {k : Nat} (ht : 4 ∣ t.toNat) (hk : k < 4) :
    (t ||| BitVec.ofNat 64 k).toNat = t.toNat + k := by
  rw [BitVec.toNat_or, BitVec.toNat_ofNat, Nat.mod_eq_of_lt (by omega : k < 2 ^ 64)]
  have := or_eq_add (x := t.toNat) (k := k) (s := 0) (by simpa using ht) hk
  simpa using this

end Verif.Eustace.Mesh
