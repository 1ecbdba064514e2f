import Verif.Eustace.Lattice.Model

/-!
The two orders of multi indices are one to one; row `c` of the nodes has the multi index which column `c` of the design
matrix was computed for.
-/

namespace Verif.Eustace.Lattice

noncomputable section

variable {D : Nat}

/-- A multi index as a dependent function. -/
def bounded {n : Multi D Nat} {i : Multi D Nat} (h : ∀ k, i k < n k) : ∀ k, Fin (n k) := fun k => ⟨i k, h k⟩

theorem ravelF_equiv {n i : Multi D Nat} (h : ∀ k, i k < n k) : ravelF n i = (finPiFinEquiv (bounded h)).val := by
  rw [finPiFinEquiv_apply]; rfl

theorem ravelF_lt {n i : Multi D Nat} (h : ∀ k, i k < n k) : ravelF n i < ∏ k, n k := by
  rw [ravelF_equiv h]; exact (finPiFinEquiv (bounded h)).is_lt

theorem rowIndex_equiv {n : Multi D Nat} (c : Fin (∏ k, n k)) (k : Fin D) :
    rowIndex n c.val k = (finPiFinEquiv.symm c k).val := rfl

theorem rowIndex_ravelF {n i : Multi D Nat} (h : ∀ k, i k < n k) : rowIndex n (ravelF n i) = i := by
  funext k
  rw [ravelF_equiv h, rowIndex_equiv, Equiv.symm_apply_apply]
  rfl

theorem rowIndex_lt {n : Multi D Nat} {c : Nat} (h : c < ∏ k, n k) (k : Fin D) : rowIndex n c k < n k := by
  rw [show c = (⟨c, h⟩ : Fin (∏ k, n k)).val from rfl, rowIndex_equiv]
  exact (finPiFinEquiv.symm _ k).is_lt

theorem ravelF_rowIndex {n : Multi D Nat} {c : Nat} (h : c < ∏ k, n k) : ravelF n (rowIndex n c) = c := by
  rw [ravelF_equiv (rowIndex_lt h)]
  have : bounded (rowIndex_lt h) = finPiFinEquiv.symm ⟨c, h⟩ := by
    funext k; exact Fin.ext rfl
  rw [this, Equiv.apply_symm_apply]

theorem ravelF_inj {n i j : Multi D Nat} (hi : ∀ k, i k < n k) (hj : ∀ k, j k < n k) (h : ravelF n i = ravelF n j) :
    i = j := by
  rw [← rowIndex_ravelF hi, h, rowIndex_ravelF hj]

theorem prod_rev (n : Multi D Nat) : ∏ k, (n ∘ Fin.rev) k = ∏ k, n k :=
  Equiv.prod_comp Fin.revPerm n

theorem ravelC_lt {n i : Multi D Nat} (h : ∀ k, i k < n k) : ravelC n i < ∏ k, n k := by
  rw [← prod_rev n]
  exact ravelF_lt (n := n ∘ Fin.rev) (fun k => h k.rev)

theorem ravelC_inj {n i j : Multi D Nat} (hi : ∀ k, i k < n k) (hj : ∀ k, j k < n k) (h : ravelC n i = ravelC n j) :
    i = j := by
  have := ravelF_inj (n := n ∘ Fin.rev) (fun k => hi k.rev) (fun k => hj k.rev) h
  funext k
  have h2 := congrFun this k.rev
  simpa using h2

theorem ravelC_surj {n : Multi D Nat} {c : Nat} (h : c < ∏ k, n k) : ∃ i, (∀ k, i k < n k) ∧ ravelC n i = c := by
  have h' : c < ∏ k, (n ∘ Fin.rev) k := by rw [prod_rev]; exact h
  refine ⟨rowIndex (n ∘ Fin.rev) c ∘ Fin.rev, fun k => ?_, ?_⟩
  · have := rowIndex_lt h' k.rev
    simpa using this
  · have : (rowIndex (n ∘ Fin.rev) c ∘ Fin.rev) ∘ Fin.rev = rowIndex (n ∘ Fin.rev) c := by funext k; simp
    rw [ravelC, this, ravelF_rowIndex h']

/-- When the shape reads the same from both ends, the two orders differ by reversing the dimensions. -/
theorem ravelF_eq_ravelC {n : Multi D Nat} (hn : n ∘ Fin.rev = n) (i : Multi D Nat) :
    ravelF n i = ravelC n (i ∘ Fin.rev) := by
  have : (i ∘ Fin.rev) ∘ Fin.rev = i := by funext k; simp
  rw [ravelC, this, hn]

end

end Verif.Eustace.Lattice
