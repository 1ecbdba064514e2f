import Verif.Eustace.Lattice.Design
import Mathlib.LinearAlgebra.Matrix.PosDef
import Mathlib.Data.Real.StarOrdered

/-!
C49: which nodes the precision of a lattice links.
C88: it is symmetric and positive definite.
-/

namespace Verif.Eustace.Lattice

open Matrix Verif.Eustace.Linear

noncomputable section

variable {D : Nat} {L : Lattice D}

/-- The pairs of multi indices are those one step apart. -/
theorem linked_iff {d : Fin D} {i j : Multi D Nat} (hi : IsNode L i) (hj : IsNode L j) :
    (i, j) ∈ linkedPairs L d ↔ StepTo L d i j := by
  unfold linkedPairs StepTo
  have hid := hi d
  have hjd := hj d
  by_cases hw : L.wrap d = true
  · rw [if_pos hw]
    constructor
    · rintro ⟨m, -, h⟩
      obtain ⟨h1, rfl⟩ := Prod.mk.inj h
      refine ⟨fun k hk => by rw [h1, Function.update_of_ne hk], ?_⟩
      have h2 : i d = (((j d : ℤ) - 1) % L.n d).toNat := by rw [h1, Function.update_self]
      by_cases h0 : j d = 0
      · right
        refine ⟨hw, ?_, h0⟩
        rw [h0, show (((0 : Nat) : ℤ) - 1) = (L.n d : ℤ) - 1 + (L.n d : ℤ) * (-1) by push_cast; ring,
          Int.add_mul_emod_self_left, Int.emod_eq_of_lt (by omega) (by omega)] at h2
        omega
      · left
        rw [Int.emod_eq_of_lt (by omega) (by omega)] at h2
        omega
    · rintro ⟨h1, h2⟩
      refine ⟨j, hj, Prod.ext ?_ rfl⟩
      funext k
      by_cases hk : k = d
      · subst hk
        simp only [Function.update_self]
        rcases h2 with h2 | ⟨-, h2, h3⟩
        · rw [Int.emod_eq_of_lt (by omega) (by omega)]; omega
        · rw [h3, show (((0 : Nat) : ℤ) - 1) = (L.n k : ℤ) - 1 + (L.n k : ℤ) * (-1) by push_cast; ring,
            Int.add_mul_emod_self_left, Int.emod_eq_of_lt (by omega) (by omega)]
          omega
      · simp only [Function.update_of_ne hk]; exact h1 k hk
  · rw [if_neg hw]
    constructor
    · rintro ⟨m, -, -, h⟩
      obtain ⟨rfl, h1⟩ := Prod.mk.inj h
      refine ⟨fun k hk => by rw [h1, Function.update_of_ne hk], Or.inl (by rw [h1, Function.update_self])⟩
    · rintro ⟨h1, h2⟩
      rcases h2 with h2 | ⟨h2, -⟩
      · refine ⟨i, hi, by omega, Prod.ext rfl ?_⟩
        funext k
        by_cases hk : k = d
        · subst hk; simp only [Function.update_self]; exact h2
        · simp only [Function.update_of_ne hk]; exact (h1 k hk).symm
      · exact absurd h2 hw

/-- The members of all pairs are nodes. -/
theorem linked_nodes {d : Fin D} {p : Multi D Nat × Multi D Nat} (h : p ∈ linkedPairs L d) :
    IsNode L p.1 ∧ IsNode L p.2 := by
  unfold linkedPairs at h
  split at h
  · obtain ⟨m, hm, rfl⟩ := h
    refine ⟨fun k => ?_, hm⟩
    by_cases hk : k = d
    · subst hk
      simp only [Function.update_self]
      have := hm k
      have h1 := Int.emod_nonneg ((m k : ℤ) - 1) (show (L.n k : ℤ) ≠ 0 by omega)
      have h2 := Int.emod_lt_of_pos ((m k : ℤ) - 1) (show (0 : ℤ) < L.n k by omega)
      omega
    · simp only [Function.update_of_ne hk]; exact hm k
  · obtain ⟨m, hm, h1, rfl⟩ := h
    refine ⟨hm, fun k => ?_⟩
    by_cases hk : k = d
    · subst hk; simp only [Function.update_self]; exact h1
    · simp only [Function.update_of_ne hk]; exact hm k

/-- One step in either direction. -/
def Related (L : Lattice D) (d : Fin D) (i j : Multi D Nat) : Prop := StepTo L d i j ∨ StepTo L d j i

/-- The test in `assign`, for two nodes. -/
theorem assign_iff {d : Fin D} {i j : Multi D Nat} (hi : IsNode L i) (hj : IsNode L j) :
    (∃ p ∈ linkedPairs L d, (ravelC L.n i = ravelC L.n p.1 ∧ ravelC L.n j = ravelC L.n p.2) ∨
      (ravelC L.n i = ravelC L.n p.2 ∧ ravelC L.n j = ravelC L.n p.1)) ↔ Related L d i j := by
  constructor
  · rintro ⟨⟨a, b⟩, hp, h⟩
    obtain ⟨ha, hb⟩ := linked_nodes hp
    have hs := (linked_iff ha hb).1 hp
    rcases h with ⟨h1, h2⟩ | ⟨h1, h2⟩
    · rw [ravelC_inj hi ha h1, ravelC_inj hj hb h2]; exact Or.inl hs
    · rw [ravelC_inj hi hb h1, ravelC_inj hj ha h2]; exact Or.inr hs
  · rintro (h | h)
    · exact ⟨(i, j), (linked_iff hi hj).2 h, Or.inl ⟨rfl, rfl⟩⟩
    · exact ⟨(j, i), (linked_iff hj hi).2 h, Or.inr ⟨rfl, rfl⟩⟩

/-- The one dimensional index which the precision uses for a node. -/
def flat (L : Lattice D) {i : Multi D Nat} (hi : IsNode L i) : Fin L.size := ⟨ravelC L.n i, ravelC_lt hi⟩

theorem flat_surj (c : Fin L.size) : ∃ (i : Multi D Nat) (hi : IsNode L i), c = flat L hi := by
  obtain ⟨i, hi, h⟩ := ravelC_surj c.is_lt
  exact ⟨i, hi, Fin.ext h.symm⟩

theorem flat_inj {i j : Multi D Nat} {hi : IsNode L i} {hj : IsNode L j} (h : flat L hi = flat L hj) : i = j :=
  ravelC_inj hi hj (Fin.mk.inj h)

/-- The entry of the neighbour matrix between two nodes. -/
theorem fold_entry (H : Multi D ℝ) {i j : Multi D Nat} (hi : IsNode L i) (hj : IsNode L j) :
    ∀ (l : List (Fin D)) (Q : Mat L.size),
      (∃ d ∈ l, Related L d i j ∧
        l.foldl (fun Q d => assign L.n (linkedPairs L d) (-dimScale L H d) Q) Q (flat L hi) (flat L hj) = -dimScale L H d) ∨
      ((∀ d ∈ l, ¬ Related L d i j) ∧
        l.foldl (fun Q d => assign L.n (linkedPairs L d) (-dimScale L H d) Q) Q (flat L hi) (flat L hj) =
          Q (flat L hi) (flat L hj))
  | [], Q => Or.inr ⟨by simp, rfl⟩
  | d :: l, Q => by
    rw [List.foldl_cons]
    rcases fold_entry H hi hj l (assign L.n (linkedPairs L d) (-dimScale L H d) Q) with ⟨e, he, h1, h2⟩ | ⟨h1, h2⟩
    · exact Or.inl ⟨e, List.mem_cons_of_mem _ he, h1, h2⟩
    · by_cases hr : Related L d i j
      · refine Or.inl ⟨d, List.mem_cons_self, hr, ?_⟩
        rw [h2]
        exact if_pos ((assign_iff hi hj).2 hr)
      · refine Or.inr ⟨fun e he => ?_, ?_⟩
        · rcases List.mem_cons.1 he with rfl | he
          · exact hr
          · exact h1 e he
        · rw [h2]
          exact if_neg (fun h => hr ((assign_iff hi hj).1 h))

theorem neighbour_entry (H : Multi D ℝ) {i j : Multi D Nat} (hi : IsNode L i) (hj : IsNode L j) :
    (∃ d, Related L d i j ∧ neighbour L H (linkedPairs L) (flat L hi) (flat L hj) = -dimScale L H d) ∨
    ((∀ d, ¬ Related L d i j) ∧ neighbour L H (linkedPairs L) (flat L hi) (flat L hj) = 0) := by
  rcases fold_entry H hi hj (List.finRange D) 0 with ⟨d, -, h1, h2⟩ | ⟨h1, h2⟩
  · exact Or.inl ⟨d, h1, h2⟩
  · exact Or.inr ⟨fun d => h1 d (List.mem_finRange d), h2⟩

/-- Two different nodes are one step apart in one dimension only. -/
theorem related_unique {d e : Fin D} {i j : Multi D Nat} (hne : i ≠ j) (h1 : Related L d i j) (h2 : Related L e i j) :
    d = e := by
  by_contra hde
  apply hne
  have a : ∀ k, k ≠ d → i k = j k := by
    rcases h1 with h | h
    · exact h.1
    · exact fun k hk => (h.1 k hk).symm
  have b : ∀ k, k ≠ e → i k = j k := by
    rcases h2 with h | h
    · exact h.1
    · exact fun k hk => (h.1 k hk).symm
  funext k
  by_cases hk : k = d
  · exact b k (hk ▸ hde)
  · exact a k hk

theorem spacing_pos (hL : Proper L) (k : Fin D) : 0 < L.spacing k := by rw [spacing_eq]; exact step_pos hL k

/-- Entries of the operator off the diagonal. -/
theorem operator_off {H : Multi D ℝ} {kappa : Vec L.size} {pairs : Fin D → Set (Multi D Nat × Multi D Nat)}
    {a b : Fin L.size} (h : a ≠ b) :
    operator L H pairs (Matrix.diagonal kappa) a b = neighbour L H pairs a b := by
  unfold operator
  rw [Matrix.mul_one, diagonal_mul_diagonal, Matrix.add_apply, Matrix.add_apply, diagonal_apply_ne _ h, Matrix.smul_apply,
    one_apply_ne h, smul_zero, zero_add, zero_add]

/-- **C49, order of the precision.**  In the order which the precision uses (last dimension fastest) two different nodes are
linked exactly when they are adjacent in the lattice, with weight `-H / spacing²` of the dimension in which they differ. -/
theorem c49_operator (hL : Proper L) {H : Multi D ℝ} (hH : ∀ d, H d ≠ 0) (kappa : Vec L.size) {i j : Multi D Nat}
    (hi : IsNode L i) (hj : IsNode L j) (hne : i ≠ j) :
    (operator L H (linkedPairs L) (Matrix.diagonal kappa) (flat L hi) (flat L hj) ≠ 0 ↔ Adjacent L i j) ∧
    ∀ d, StepTo L d i j ∨ StepTo L d j i →
      operator L H (linkedPairs L) (Matrix.diagonal kappa) (flat L hi) (flat L hj) = -(H d / step L d ^ 2) := by
  have hf : flat L hi ≠ flat L hj := fun h => hne (flat_inj h)
  rw [operator_off hf]
  have hsc : ∀ d, dimScale L H d = H d / step L d ^ 2 := fun d => by unfold dimScale; rw [spacing_eq]
  have hnz : ∀ d, -dimScale L H d ≠ 0 := fun d => by
    rw [hsc]; exact neg_ne_zero.2 (div_ne_zero (hH d) (pow_ne_zero _ (step_pos hL d).ne'))
  rcases neighbour_entry H hi hj with ⟨d, h1, h2⟩ | ⟨h1, h2⟩
  · rw [h2]
    refine ⟨⟨fun _ => ⟨hne, d, h1⟩, fun _ => hnz d⟩, fun e he => ?_⟩
    rw [related_unique hne h1 he, hsc]
  · rw [h2]
    refine ⟨⟨fun h => absurd rfl h, ?_⟩, fun e he => absurd he (h1 e)⟩
    rintro ⟨_, e, he⟩
    exact absurd he (h1 e)

/-- Shapes which read the same from both ends, such as one dimensional and cubic lattices. -/
def Symmetric (L : Lattice D) : Prop := L.n ∘ Fin.rev = L.n ∧ L.wrap ∘ Fin.rev = L.wrap

theorem stepTo_rev (hsym : Symmetric L) {d : Fin D} {i j : Multi D Nat} (h : StepTo L d i j) :
    StepTo L d.rev (i ∘ Fin.rev) (j ∘ Fin.rev) := by
  refine ⟨fun k hk => h.1 k.rev (fun e => hk (by rw [← e, Fin.rev_rev])), ?_⟩
  have hn : L.n d.rev = L.n d := congrFun hsym.1 d
  have hw : L.wrap d.rev = L.wrap d := congrFun hsym.2 d
  simp only [Function.comp_apply, Fin.rev_rev, hn, hw]
  exact h.2

theorem adjacent_rev (hsym : Symmetric L) (i j : Multi D Nat) : Adjacent L (i ∘ Fin.rev) (j ∘ Fin.rev) ↔ Adjacent L i j := by
  have hrr : ∀ i : Multi D Nat, (i ∘ Fin.rev) ∘ Fin.rev = i := fun i => by funext k; simp
  constructor
  · rintro ⟨hne, d, h⟩
    refine ⟨fun e => hne (by rw [e]), d.rev, ?_⟩
    rcases h with h | h
    · have := stepTo_rev hsym h; rw [hrr, hrr] at this; exact Or.inl this
    · have := stepTo_rev hsym h; rw [hrr, hrr] at this; exact Or.inr this
  · rintro ⟨hne, d, h⟩
    refine ⟨fun e => hne (by rw [← hrr i, e, hrr]), d.rev, ?_⟩
    rcases h with h | h
    · exact Or.inl (stepTo_rev hsym h)
    · exact Or.inr (stepTo_rev hsym h)

/-- The precision of order one. -/
theorem buildQNative_one (L : Lattice D) (H : Multi D ℝ) (kappa tau : Vec L.size) (a b : Fin L.size) :
    ∃ Q, buildQNative L H (Matrix.diagonal kappa) (Matrix.diagonal tau) 1 = .ok Q ∧
      Q a b = (∏ k, L.spacing k) * (tau a * operator L H (linkedPairs L) (Matrix.diagonal kappa) a b * tau b) := by
  refine ⟨_, rfl, ?_⟩
  rw [Matrix.smul_apply, mul_diagonal, diagonal_mul, smul_eq_mul]

/-- **C49, partial.**  For lattices whose shape reads the same from both ends (in particular one dimensional ones) the
precision of order one links two different columns of the design matrix exactly when their nodes are adjacent.  Missing:
other shapes, for which this is false, see `c49_order_violated`. -/
theorem c49_precision_partial (hL : Proper L) (hsym : Symmetric L) {H : Multi D ℝ} (hH : ∀ d, H d ≠ 0) (kappa : Vec L.size)
    {tau : Vec L.size} (ht : ∀ a, tau a ≠ 0) {a b : Fin L.size} (hab : a ≠ b) :
    ∃ Q, buildQNative L H (Matrix.diagonal kappa) (Matrix.diagonal tau) 1 = .ok Q ∧
      (Q a b ≠ 0 ↔ Adjacent L (rowIndex L.n a.val) (rowIndex L.n b.val)) := by
  obtain ⟨Q, hQ, hv⟩ := buildQNative_one L H kappa tau a b
  refine ⟨Q, hQ, ?_⟩
  have hs : ∏ k, L.spacing k ≠ 0 := Finset.prod_ne_zero_iff.2 fun k _ => (spacing_pos hL k).ne'
  have e1 : Q a b ≠ 0 ↔ operator L H (linkedPairs L) (Matrix.diagonal kappa) a b ≠ 0 := by
    rw [hv]
    simp only [ne_eq, mul_eq_zero, hs, ht a, ht b, false_or, or_false]
  rw [e1, ← adjacent_rev hsym]
  have hnode : ∀ c : Fin L.size, IsNode L (rowIndex L.n c.val ∘ Fin.rev) := fun c k => by
    have := rowIndex_lt c.is_lt k.rev
    rw [show L.n k.rev = L.n k from congrFun hsym.1 k] at this
    exact this
  have hflat : ∀ c : Fin L.size, c = flat L (hnode c) := fun c => Fin.ext (by
    show c.val = ravelC L.n _
    rw [← ravelF_eq_ravelC hsym.1, ravelF_rowIndex c.is_lt])
  have hne : rowIndex L.n a.val ∘ Fin.rev ≠ rowIndex L.n b.val ∘ Fin.rev := by
    intro h
    apply hab
    rw [hflat a, hflat b]
    exact Fin.ext (congrArg (ravelC L.n) h)
  have := (c49_operator hL hH kappa (hnode a) (hnode b) hne).1
  rwa [← hflat a, ← hflat b] at this

/-- One dimensional lattices are symmetric in this sense. -/
theorem symmetric_one (L : Lattice 1) : Symmetric L := by
  constructor <;> funext k <;> fin_cases k <;> rfl

/-- **C49 fails.**  On every lattice of two by three nodes, columns two and three of the design matrix belong to adjacent
nodes, yet the precision has no link between them. -/
theorem c49_order_violated (L : Lattice 2) (hL : Proper L) (hn : L.n = ![2, 3]) (hw : L.wrap = ![false, false])
    {H : Multi 2 ℝ} (hH : ∀ d, H d ≠ 0) (kappa : Vec L.size) (a b : Fin L.size) (ha : a.val = 2) (hb : b.val = 3) :
    Adjacent L (rowIndex L.n a.val) (rowIndex L.n b.val) ∧
      operator L H (linkedPairs L) (Matrix.diagonal kappa) a b = 0 := by
  have st0 : stride L.n 0 = 1 := by simp [stride]
  have st1 : stride L.n 1 = 2 := by rw [hn]; simp [stride]
  have r2 : rowIndex L.n a.val = ![0, 1] := by
    rw [ha]; funext k; fin_cases k <;> simp [rowIndex, st0, st1] <;> rw [hn] <;> simp
  have r3 : rowIndex L.n b.val = ![1, 1] := by
    rw [hb]; funext k; fin_cases k <;> simp [rowIndex, st0, st1] <;> rw [hn] <;> simp
  constructor
  · rw [r2, r3]
    refine ⟨by simp, 0, Or.inl ⟨fun k hk => ?_, Or.inl (by simp)⟩⟩
    fin_cases k
    · exact absurd rfl hk
    · rfl
  · have hi : IsNode L ![0, 2] := by intro k; rw [hn]; fin_cases k <;> simp
    have hj : IsNode L ![1, 0] := by intro k; rw [hn]; fin_cases k <;> simp
    have s0 : stride (L.n ∘ Fin.rev) 0 = 1 := by simp [stride]
    have s1 : stride (L.n ∘ Fin.rev) 1 = 3 := by rw [hn]; simp [stride]
    have ea : a = flat L hi := Fin.ext (by
      show a.val = ravelC L.n _
      rw [ha, ravelC, ravelF, Fin.sum_univ_two, s0, s1]; rfl)
    have eb : b = flat L hj := Fin.ext (by
      show b.val = ravelC L.n _
      rw [hb, ravelC, ravelF, Fin.sum_univ_two, s0, s1]; rfl)
    have hne : (![0, 2] : Multi 2 Nat) ≠ ![1, 0] := by simp
    have h := (c49_operator hL hH kappa hi hj hne).1
    rw [← ea, ← eb] at h
    by_contra hc
    obtain ⟨-, d, h1⟩ := h.1 hc
    fin_cases d
    · rcases h1 with h1 | h1
      · have := h1.1 1 (by simp); simp at this
      · have := h1.1 1 (by simp); simp at this
    · rcases h1 with h1 | h1
      · have := h1.1 0 (by simp); simp at this
      · have := h1.1 0 (by simp); simp at this

/-- **C49, order two.**  Entries of the precision of order two vanish unless the nodes have a common neighbour or are
adjacent or equal themselves. -/
theorem c49_order_two (hL : Proper L) {H : Multi D ℝ} (hH : ∀ d, H d ≠ 0) (kappa tau : Vec L.size) {i j : Multi D Nat}
    (hi : IsNode L i) (hj : IsNode L j) {Q : Mat L.size}
    (hQ : buildQNative L H (Matrix.diagonal kappa) (Matrix.diagonal tau) 2 = .ok Q) (h : Q (flat L hi) (flat L hj) ≠ 0) :
    ∃ l, IsNode L l ∧ (l = i ∨ Adjacent L l i) ∧ (l = j ∨ Adjacent L l j) := by
  injection hQ with hQ
  rw [← hQ, Matrix.smul_apply, mul_diagonal, diagonal_mul, mul_apply] at h
  have h2 : ∑ c, (operator L H (linkedPairs L) (Matrix.diagonal kappa))ᵀ (flat L hi) c *
      operator L H (linkedPairs L) (Matrix.diagonal kappa) c (flat L hj) ≠ 0 := by
    intro h0; rw [h0] at h; simp at h
  obtain ⟨c, -, hc⟩ := Finset.exists_ne_zero_of_sum_ne_zero h2
  obtain ⟨l, hl, rfl⟩ := flat_surj c
  rw [transpose_apply] at hc
  refine ⟨l, hl, ?_, ?_⟩
  · by_cases e : l = i
    · exact Or.inl e
    · exact Or.inr ((c49_operator hL hH kappa hl hi e).1.1 (left_ne_zero_of_mul hc))
  · by_cases e : l = j
    · exact Or.inl e
    · exact Or.inr ((c49_operator hL hH kappa hl hj e).1.1 (right_ne_zero_of_mul hc))

/-! ### C88: positive definiteness -/

theorem congruence {n : Nat} {A B : Mat n} (hA : A.PosDef) (hB : IsUnit B) : (B * A * Bᵀ).PosDef := by
  have := hA.mul_mul_conjTranspose_same (B := B) (by
    rw [Matrix.vecMul_injective_iff_isUnit]; exact hB)
  rwa [conjTranspose_eq_transpose_of_trivial] at this

/-- A symmetric matrix plus a bound for its absolute row sums is not negative. -/
theorem gershgorin {n : Nat} {N : Mat n} (hN : Nᵀ = N) {r : ℝ} (hr : ∀ a, ∑ b, |N a b| ≤ r) (x : Vec n) :
    0 ≤ r * ∑ a, x a ^ 2 + x ⬝ᵥ (N *ᵥ x) := by
  have hsym : ∀ a b, N a b = N b a := fun a b => congrFun (congrFun hN b) a
  have h1 : x ⬝ᵥ (N *ᵥ x) = ∑ a, ∑ b, N a b * (x a * x b) := by
    simp only [dotProduct, mulVec, Finset.mul_sum]
    exact Finset.sum_congr rfl fun a _ => Finset.sum_congr rfl fun b _ => by ring
  have h2 : ∀ a b, -(|N a b| * ((x a ^ 2 + x b ^ 2) / 2)) ≤ N a b * (x a * x b) := by
    intro a b
    have h3 : |x a * x b| ≤ (x a ^ 2 + x b ^ 2) / 2 := by
      rw [abs_le]; constructor <;> nlinarith [sq_nonneg (x a + x b), sq_nonneg (x a - x b)]
    have h4 := mul_le_mul_of_nonneg_left h3 (abs_nonneg (N a b))
    rw [← abs_mul] at h4
    linarith [neg_abs_le (N a b * (x a * x b))]
  have h5 : ∑ a, ∑ b, |N a b| * ((x a ^ 2 + x b ^ 2) / 2) = ∑ a, x a ^ 2 * ∑ b, |N a b| := by
    have e : ∑ a, ∑ b, |N a b| * (x b ^ 2 / 2) = ∑ a, ∑ b, |N a b| * (x a ^ 2 / 2) := by
      rw [Finset.sum_comm]
      exact Finset.sum_congr rfl fun a _ => Finset.sum_congr rfl fun b _ => by rw [hsym]
    calc ∑ a, ∑ b, |N a b| * ((x a ^ 2 + x b ^ 2) / 2)
        = ∑ a, ∑ b, |N a b| * (x a ^ 2 / 2) + ∑ a, ∑ b, |N a b| * (x b ^ 2 / 2) := by
          rw [← Finset.sum_add_distrib]
          refine Finset.sum_congr rfl fun a _ => ?_
          rw [← Finset.sum_add_distrib]
          exact Finset.sum_congr rfl fun b _ => by ring
      _ = ∑ a, x a ^ 2 * ∑ b, |N a b| := by
          rw [e, ← Finset.sum_add_distrib]
          refine Finset.sum_congr rfl fun a _ => ?_
          rw [← Finset.sum_add_distrib, Finset.mul_sum]
          exact Finset.sum_congr rfl fun b _ => by ring
  have h6 : -(∑ a, x a ^ 2 * ∑ b, |N a b|) ≤ x ⬝ᵥ (N *ᵥ x) := by
    rw [h1, ← h5, ← Finset.sum_neg_distrib]
    refine Finset.sum_le_sum fun a _ => ?_
    rw [← Finset.sum_neg_distrib]
    exact Finset.sum_le_sum fun b _ => h2 a b
  have h7 : ∑ a, x a ^ 2 * ∑ b, |N a b| ≤ r * ∑ a, x a ^ 2 := by
    rw [Finset.mul_sum]
    refine Finset.sum_le_sum fun a _ => ?_
    rw [mul_comm r]
    exact mul_le_mul_of_nonneg_left (hr a) (sq_nonneg _)
  linarith

theorem related_symm {d : Fin D} {i j : Multi D Nat} : Related L d i j ↔ Related L d j i := Or.comm

theorem neighbour_symm (L : Lattice D) (H : Multi D ℝ) (pairs : Fin D → Set (Multi D Nat × Multi D Nat)) :
    (neighbour L H pairs)ᵀ = neighbour L H pairs := by
  unfold neighbour
  have : ∀ (l : List (Fin D)) (Q : Mat L.size), Qᵀ = Q →
      (l.foldl (fun Q d => assign L.n (pairs d) (-dimScale L H d) Q) Q)ᵀ =
        l.foldl (fun Q d => assign L.n (pairs d) (-dimScale L H d) Q) Q := by
    intro l
    induction l with
    | nil => exact fun Q h => h
    | cons d l ih =>
      intro Q hQ
      rw [List.foldl_cons]
      apply ih
      ext a b
      simp only [transpose_apply, assign, Matrix.of_apply]
      have hq : Q b a = Q a b := congrFun (congrFun hQ a) b
      rw [hq]
      congr 1
      apply propext
      constructor
      · rintro ⟨p, hp, h | h⟩
        · exact ⟨p, hp, Or.inr ⟨h.2, h.1⟩⟩
        · exact ⟨p, hp, Or.inl ⟨h.2, h.1⟩⟩
      · rintro ⟨p, hp, h | h⟩
        · exact ⟨p, hp, Or.inr ⟨h.2, h.1⟩⟩
        · exact ⟨p, hp, Or.inl ⟨h.2, h.1⟩⟩
  exact this _ 0 (transpose_zero)

theorem stepTo_unique_right {d : Fin D} {i j j' : Multi D Nat} (hj : IsNode L j) (hj' : IsNode L j') (h : StepTo L d i j)
    (h' : StepTo L d i j') : j = j' := by
  funext k
  by_cases hk : k = d
  · subst hk
    have a := hj k; have b := hj' k
    rcases h.2 with h1 | ⟨-, h1, h2⟩ <;> rcases h'.2 with h3 | ⟨-, h3, h4⟩ <;> omega
  · rw [← h.1 k hk, h'.1 k hk]

theorem stepTo_unique_left {d : Fin D} {i i' j : Multi D Nat} (h : StepTo L d i j) (h' : StepTo L d i' j) : i = i' := by
  funext k
  by_cases hk : k = d
  · subst hk
    rcases h.2 with h1 | ⟨-, h1, h2⟩ <;> rcases h'.2 with h3 | ⟨-, h3, h4⟩ <;> omega
  · rw [h.1 k hk, h'.1 k hk]

/-- The node of a one dimensional index of the precision. -/
def unflat (c : Fin L.size) : Multi D Nat := (flat_surj c).choose

theorem unflat_node (c : Fin L.size) : IsNode L (unflat c) := (flat_surj c).choose_spec.choose

theorem flat_unflat (c : Fin L.size) : c = flat L (unflat_node c) := (flat_surj c).choose_spec.choose_spec

open Classical in
theorem row_sum (hL : Proper L) {H : Multi D ℝ} (hH : ∀ d, 0 ≤ H d) (a : Fin L.size) :
    ∑ b, |neighbour L H (linkedPairs L) a b| ≤ ∑ d, 2.0 * dimScale L H d := by
  have hsc : ∀ d, 0 ≤ dimScale L H d := fun d => div_nonneg (hH d) (sq_nonneg _)
  have h1 : ∀ b, |neighbour L H (linkedPairs L) a b| ≤
      ∑ d, dimScale L H d * ((if StepTo L d (unflat a) (unflat b) then 1 else 0) +
        (if StepTo L d (unflat b) (unflat a) then 1 else 0)) := by
    intro b
    have hnn : ∀ d : Fin D, 0 ≤ dimScale L H d * ((if StepTo L d (unflat a) (unflat b) then (1 : ℝ) else 0) +
        (if StepTo L d (unflat b) (unflat a) then 1 else 0)) := fun d =>
      mul_nonneg (hsc d) (add_nonneg (by split <;> norm_num) (by split <;> norm_num))
    have e := neighbour_entry H (unflat_node a) (unflat_node b)
    rw [← flat_unflat a, ← flat_unflat b] at e
    rcases e with ⟨d, hr, he⟩ | ⟨-, he⟩
    · rw [he, abs_neg, abs_of_nonneg (hsc d)]
      refine le_trans ?_ (Finset.single_le_sum (fun d _ => hnn d) (Finset.mem_univ d))
      have : (1 : ℝ) ≤ (if StepTo L d (unflat a) (unflat b) then 1 else 0) +
          (if StepTo L d (unflat b) (unflat a) then 1 else 0) := by
        rcases hr with h | h
        · rw [if_pos h]; split <;> norm_num
        · rw [if_pos h]; split <;> norm_num
      nlinarith [hsc d]
    · rw [he, abs_zero]; exact Finset.sum_nonneg fun d _ => hnn d
  refine (Finset.sum_le_sum fun b _ => h1 b).trans ?_
  rw [Finset.sum_comm]
  refine Finset.sum_le_sum fun d _ => ?_
  rw [← Finset.mul_sum, mul_comm (2.0 : ℝ)]
  refine mul_le_mul_of_nonneg_left ?_ (hsc d)
  rw [Finset.sum_add_distrib]
  have u1 : ∑ b : Fin L.size, (if StepTo L d (unflat a) (unflat b) then (1 : ℝ) else 0) ≤ 1 := by
    rw [Finset.sum_boole]
    have : (Finset.univ.filter fun b : Fin L.size => StepTo L d (unflat a) (unflat b)).card ≤ 1 := by
      rw [Finset.card_le_one]
      intro b hb c hc
      have hb := (Finset.mem_filter.1 hb).2
      have hc := (Finset.mem_filter.1 hc).2
      have e := stepTo_unique_right (unflat_node b) (unflat_node c) hb hc
      rw [flat_unflat b, flat_unflat c]
      exact Fin.ext (congrArg (ravelC L.n) e)
    exact_mod_cast this
  have u2 : ∑ b : Fin L.size, (if StepTo L d (unflat b) (unflat a) then (1 : ℝ) else 0) ≤ 1 := by
    rw [Finset.sum_boole]
    have : (Finset.univ.filter fun b : Fin L.size => StepTo L d (unflat b) (unflat a)).card ≤ 1 := by
      rw [Finset.card_le_one]
      intro b hb c hc
      have hb := (Finset.mem_filter.1 hb).2
      have hc := (Finset.mem_filter.1 hc).2
      have e := stepTo_unique_left hb hc
      rw [flat_unflat b, flat_unflat c]
      exact Fin.ext (congrArg (ravelC L.n) e)
    exact_mod_cast this
  rw [show (2.0 : ℝ) = 2 by norm_num]
  linarith

theorem operator_symm (L : Lattice D) (H : Multi D ℝ) (pairs : Fin D → Set (Multi D Nat × Multi D Nat)) (kappa : Vec L.size) :
    (operator L H pairs (Matrix.diagonal kappa))ᵀ = operator L H pairs (Matrix.diagonal kappa) := by
  unfold operator
  rw [transpose_add, transpose_add, neighbour_symm, transpose_smul, transpose_one, Matrix.mul_one, transpose_mul,
    diagonal_transpose]

theorem operator_posDef (hL : Proper L) {H : Multi D ℝ} (hH : ∀ d, 0 ≤ H d) {kappa : Vec L.size} (hk : ∀ a, kappa a ≠ 0) :
    (operator L H (linkedPairs L) (Matrix.diagonal kappa)).PosDef := by
  refine PosDef.of_dotProduct_mulVec_pos ?_ fun x hx => ?_
  · rw [IsHermitian, conjTranspose_eq_transpose_of_trivial, operator_symm]
  · rw [star_trivial]
    have hg := gershgorin (neighbour_symm L H (linkedPairs L)) (row_sum hL hH) x
    obtain ⟨a, ha⟩ := Function.ne_iff.1 hx
    have hpos : 0 < ∑ a, (kappa a * kappa a) * x a ^ 2 := by
      refine Finset.sum_pos' (fun b _ => mul_nonneg (mul_self_nonneg _) (sq_nonneg _)) ⟨a, Finset.mem_univ _, ?_⟩
      have hxa : x a ≠ 0 := ha
      exact mul_pos (mul_self_pos.2 (hk a)) (by positivity)
    have e : x ⬝ᵥ (operator L H (linkedPairs L) (Matrix.diagonal kappa) *ᵥ x) =
        ∑ a, (kappa a * kappa a) * x a ^ 2 + ((∑ d, 2.0 * dimScale L H d) * ∑ a, x a ^ 2 +
          x ⬝ᵥ (neighbour L H (linkedPairs L) *ᵥ x)) := by
      unfold operator
      rw [Matrix.mul_one, diagonal_mul_diagonal, add_mulVec, add_mulVec, dotProduct_add, dotProduct_add, smul_mulVec,
        one_mulVec, dotProduct_smul, smul_eq_mul]
      have e1 : x ⬝ᵥ (Matrix.diagonal (fun i => kappa i * kappa i) *ᵥ x) = ∑ a, (kappa a * kappa a) * x a ^ 2 := by
        simp only [dotProduct, mulVec_diagonal]
        exact Finset.sum_congr rfl fun a _ => by ring
      have e2 : x ⬝ᵥ x = ∑ a, x a ^ 2 := by
        simp only [dotProduct]
        exact Finset.sum_congr rfl fun a _ => by ring
      rw [e1, e2]; ring
    rw [e]
    linarith

/-- **C88.**  The precision of order one or two on a lattice of any number of dimensions and any shape, periodic or not, is
symmetric and positive definite. -/
theorem c88_posDef (hL : Proper L) {H : Multi D ℝ} (hH : ∀ d, 0 ≤ H d) {kappa tau : Vec L.size} (hk : ∀ a, kappa a ≠ 0)
    (ht : ∀ a, tau a ≠ 0) {alpha : Nat} (ha : alpha ≤ 2) :
    ∃ Q, buildQNative L H (Matrix.diagonal kappa) (Matrix.diagonal tau) alpha = .ok Q ∧ Q.PosDef ∧ Qᵀ = Q := by
  have hs : 0 < ∏ k, L.spacing k := Finset.prod_pos fun k _ => spacing_pos hL k
  have hK := operator_posDef hL hH hk
  have hT : IsUnit (Matrix.diagonal tau) := by
    rw [Matrix.isUnit_iff_isUnit_det, det_diagonal, isUnit_iff_ne_zero, Finset.prod_ne_zero_iff]
    exact fun i _ => ht i
  have fin : ∀ A : Mat L.size, A.PosDef → ((∏ k, L.spacing k) • (Matrix.diagonal tau * A * Matrix.diagonal tau)).PosDef := by
    intro A hA
    have := congruence hA hT
    rw [diagonal_transpose] at this
    exact this.smul hs
  have symm : ∀ A : Mat L.size, A.PosDef → Aᵀ = A := by
    intro A hA
    have := hA.isHermitian
    rwa [IsHermitian, conjTranspose_eq_transpose_of_trivial] at this
  unfold buildQNative
  simp only
  by_cases h2 : alpha = 2
  · rw [if_pos h2]
    have hKK := congruence PosDef.one (B := (operator L H (linkedPairs L) (Matrix.diagonal kappa))ᵀ)
      (by rw [operator_symm]; exact hK.isUnit)
    rw [Matrix.mul_one, transpose_transpose] at hKK
    exact ⟨_, rfl, fin _ hKK, symm _ (fin _ hKK)⟩
  · rw [if_neg h2, if_neg (by omega)]
    exact ⟨_, rfl, fin _ hK, symm _ (fin _ hK)⟩

/-- **C88** for `build_Q`: every parameter vector and every design matrix. -/
theorem c88_buildQ (hL : Proper L) {H : Multi D ℝ} (hH : ∀ d, 0 ≤ H d) {p : Nat} (theta : Vec p)
    (sigma rho : Matrix (Fin L.size) (Fin p) ℝ) {alpha : Nat} (ha : alpha ≤ 2) :
    ∃ Q, buildQ L theta sigma rho alpha H = .ok Q ∧ Q.PosDef ∧ Qᵀ = Q :=
  c88_posDef hL hH (fun _ => Real.exp_ne_zero _) (fun _ => Real.exp_ne_zero _) ha

/-- Orders beyond two are refused. -/
theorem c88_refused (L : Lattice D) (H : Multi D ℝ) {p : Nat} (theta : Vec p) (sigma rho : Matrix (Fin L.size) (Fin p) ℝ)
    {alpha : Nat} (ha : 2 < alpha) : buildQ L theta sigma rho alpha H = .error .notImplemented := by
  unfold buildQ buildQNative
  simp only
  rw [if_neg (by omega), if_pos ha]

end

end Verif.Eustace.Lattice
