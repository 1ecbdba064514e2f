import Mathlib.Analysis.Matrix.PosDef
import Verif.Eustace.Solver.Model

namespace Verif.Eustace.Solver

open Matrix Verif.Eustace.Linear

/-! ### The matrix -/

theorem entry_append (a b : List (ℕ × ℝ)) (j : ℕ) : entry (a ++ b) j = entry a j + entry b j := by
  simp [entry]

theorem entry_getD (R : List (ℕ × ℝ)) (j : ℕ) :
    (((List.range R.length).filter fun p => (R.getD p (0, 0)).1 = j).map fun p => (R.getD p (0, 0)).2).sum = entry R j := by
  have h : R = (List.range R.length).map fun p => R.getD p (0, 0) := by
    apply List.ext_getElem?
    intro p
    by_cases hp : p < R.length
    · simp [hp]
    · simp [hp]
  conv_rhs => rw [entry, h, List.filter_map, List.map_map]
  rfl

theorem sum_section (A R B : List (ℕ × ℝ)) (j : ℕ) :
    (((List.range (A ++ R ++ B).length).filter fun p =>
      A.length ≤ p ∧ p < A.length + R.length ∧ ((A ++ R ++ B).getD p (0, 0)).1 = j).map
        fun p => ((A ++ R ++ B).getD p (0, 0)).2).sum = entry R j := by
  rw [List.length_append, List.length_append, List.range_add, List.range_add, List.filter_append, List.filter_append]
  have h1 : ((List.range A.length).filter fun p =>
      A.length ≤ p ∧ p < A.length + R.length ∧ ((A ++ R ++ B).getD p (0, 0)).1 = j) = [] := by
    rw [List.filter_eq_nil_iff]
    intro p hp
    have := List.mem_range.1 hp
    simp only [decide_eq_true_eq]
    omega
  have h3 : (((List.range B.length).map (A.length + R.length + ·)).filter fun p =>
      A.length ≤ p ∧ p < A.length + R.length ∧ ((A ++ R ++ B).getD p (0, 0)).1 = j) = [] := by
    rw [List.filter_eq_nil_iff]
    intro p hp
    obtain ⟨q, hq, rfl⟩ := List.mem_map.1 hp
    simp only [decide_eq_true_eq]
    omega
  rw [h1, h3, List.nil_append, List.append_nil, ← entry_getD, List.filter_map, List.map_map]
  have hv : ∀ p, p < R.length → (A ++ R ++ B).getD (A.length + p) (0, 0) = R.getD p (0, 0) := by
    intro p hp
    simp only [List.getD_eq_getElem?_getD]
    rw [List.append_assoc, List.getElem?_append_right (by omega), Nat.add_sub_cancel_left, List.getElem?_append_left hp]
  have hf : (List.range R.length).filter ((fun p => decide (A.length ≤ p ∧ p < A.length + R.length ∧
      ((A ++ R ++ B).getD p (0, 0)).1 = j)) ∘ fun x => A.length + x) =
      (List.range R.length).filter fun p => (R.getD p (0, 0)).1 = j := by
    apply List.filter_congr
    intro p hp
    have hp' := List.mem_range.1 hp
    simp only [Function.comp, hv p hp', decide_eq_decide]
    constructor
    · exact fun h => h.2.2
    · exact fun h => ⟨by omega, by omega, h⟩
  rw [hf]
  congr 1
  apply List.map_congr_left
  intro p hp
  have hp' := List.mem_range.1 (List.mem_filter.1 hp).1
  simp only [Function.comp, hv p hp']

theorem scanl_getD (l : List ℕ) (a : ℕ) (i : ℕ) (hi : i ≤ l.length) : (l.scanl (· + ·) a)[i]? = some (a + (l.take i).sum) := by
  induction l generalizing a i with
  | nil =>
    obtain rfl : i = 0 := by simpa using hi
    simp
  | cons x l ih =>
    cases i with
    | zero => simp
    | succ i =>
      rw [List.scanl_cons, List.getElem?_cons_succ, ih (a + x) i (by simpa using hi)]
      simp only [List.take_succ_cons, List.sum_cons]
      congr 1
      omega

theorem indptr_getD (A : Csr) (i : ℕ) (hi : i ≤ A.rows.length) : (indptr A)[i]? = some (A.rows.take i).flatten.length := by
  rw [indptr, scanl_getD _ _ _ (by simpa using hi), List.length_flatten, List.map_take]
  simp

/-- What the library reads from the three arrays, if indices have 32 bits. -/
theorem nativeUpper_eq (U : Csr) (h1 : U.rows.flatten.length ≤ 2 ^ 31 - 1) (h2 : U.width ≤ 2 ^ 31 - 1) (i j : ℕ)
    (hi : i < U.rows.length) :
    nativeUpper (asInt32 U (indptr U)) (asInt32 U (indices U)) (values U) i j = entry (U.rows.getD i []) j := by
  have hs : U.rows.flatten = (U.rows.take i).flatten ++ U.rows.getD i [] ++ (U.rows.drop (i + 1)).flatten := by
    have hg : U.rows.getD i [] = U.rows[i] := by simp [hi]
    conv_lhs => rw [← List.take_append_drop i U.rows, List.drop_eq_getElem_cons hi]
    rw [List.flatten_append, List.flatten_cons, hg, List.append_assoc]
  rw [← sum_section (U.rows.take i).flatten (U.rows.getD i []) (U.rows.drop (i + 1)).flatten j, ← hs, nativeUpper]
  have ha : ∀ index, asInt32 U index = index.map fun (v : ℕ) => (v : ℤ) := fun index => if_pos ⟨h1, h2⟩
  have e1 : (asInt32 U (indptr U)).getD i 0 = ((U.rows.take i).flatten.length : ℤ) := by
    rw [ha, List.getD_eq_getElem?_getD, List.getElem?_map, indptr_getD U i (by omega)]
    rfl
  have e2 : (asInt32 U (indptr U)).getD (i + 1) 0 =
      (((U.rows.take i).flatten.length + (U.rows.getD i []).length : ℕ) : ℤ) := by
    rw [ha, List.getD_eq_getElem?_getD, List.getElem?_map, indptr_getD U (i + 1) (by omega), List.take_succ_eq_append_getElem hi]
    have hg : U.rows.getD i [] = U.rows[i] := by simp [hi]
    rw [hg, List.flatten_append, List.length_append]
    simp
  have e3 : ∀ p, p < U.rows.flatten.length → (asInt32 U (indices U)).getD p 0 = (((U.rows.flatten.getD p (0, 0)).1 : ℕ) : ℤ) := by
    intro p hp
    rw [ha, indices, List.map_map, List.getD_eq_getElem?_getD, List.getElem?_map, List.getD_eq_getElem?_getD,
      List.getElem?_eq_getElem hp]
    rfl
  have e4 : ∀ p, p < U.rows.flatten.length → (values U).getD p 0 = (U.rows.flatten.getD p (0, 0)).2 := by
    intro p hp
    rw [values, List.getD_eq_getElem?_getD, List.getElem?_map, List.getD_eq_getElem?_getD, List.getElem?_eq_getElem hp]
    rfl
  have hl : (values U).length = U.rows.flatten.length := by rw [values, List.length_map]
  rw [hl]
  have hf : ((List.range U.rows.flatten.length).filter fun (p : ℕ) => (asInt32 U (indptr U)).getD i 0 ≤ (p : ℤ) ∧
      (p : ℤ) < (asInt32 U (indptr U)).getD (i + 1) 0 ∧ (asInt32 U (indices U)).getD p 0 = (j : ℤ)) =
      (List.range U.rows.flatten.length).filter fun p => (U.rows.take i).flatten.length ≤ p ∧
        p < (U.rows.take i).flatten.length + (U.rows.getD i []).length ∧ (U.rows.flatten.getD p (0, 0)).1 = j := by
    apply List.filter_congr
    intro p hp
    rw [decide_eq_decide, e1, e2, e3 p (List.mem_range.1 hp)]
    norm_cast
  rw [hf]
  congr 1
  apply List.map_congr_left
  intro p hp
  exact e4 p (List.mem_range.1 (List.mem_filter.1 hp).1)

theorem entry_filter (i : ℕ) (row : List (ℕ × ℝ)) (j : ℕ) :
    entry (row.filter fun e => i ≤ e.1) j = if i ≤ j then entry row j else 0 := by
  unfold entry
  rw [List.filter_filter]
  by_cases h : i ≤ j
  · rw [if_pos h]
    congr 2
    apply List.filter_congr
    intro e _
    by_cases he : e.1 = j
    · simp [he, h]
    · simp [he]
  · rw [if_neg h]
    have : (row.filter fun e => decide (e.1 = j) && decide (i ≤ e.1)) = [] := by
      rw [List.filter_eq_nil_iff]
      intro e _
      by_cases he : e.1 = j
      · simp [he, h]
      · simp [he]
    rw [this]
    rfl

theorem entry_absent {row : List (ℕ × ℝ)} {j : ℕ} (h : j ∉ row.map Prod.fst) : entry row j = 0 := by
  unfold entry
  have : (row.filter fun e => decide (e.1 = j)) = [] := by
    rw [List.filter_eq_nil_iff]
    intro e he hj
    exact h (List.mem_map.2 ⟨e, he, by simpa using hj⟩)
  rw [this]
  rfl

theorem entry_table (l : List ℕ) (hl : l.Nodup) (v : ℕ → ℝ) (j : ℕ) :
    entry (l.map fun c => (c, v c)) j = if j ∈ l then v j else 0 := by
  induction l with
  | nil => simp [entry]
  | cons c l ih =>
    have hc := List.nodup_cons.1 hl
    rw [List.map_cons, ← List.singleton_append, entry_append, ih hc.2]
    by_cases h : c = j
    · subst h
      simp [entry, hc.1]
    · have h' : ¬j = c := fun e => h e.symm
      simp [entry, h, h']

theorem triuRow_entry (i : ℕ) (row : List (ℕ × ℝ)) (j : ℕ) : entry (triuRow i row) j = if i ≤ j then entry row j else 0 := by
  rw [← entry_filter]
  unfold triuRow
  simp only
  rw [entry_table _ (((List.perm_insertionSort _ _).nodup_iff).2 (List.nodup_dedup _))]
  split
  · rfl
  · rename_i h
    rw [List.mem_insertionSort, List.mem_dedup] at h
    exact (entry_absent h).symm

theorem triu_getD (A : Csr) (i : ℕ) (hi : i < A.rows.length) : (triu A).rows.getD i [] = triuRow i (A.rows.getD i []) := by
  simp [triu, hi]

/-- **C172.**  A square matrix of the right class and type without empty rows is accepted.  If it is symmetric and has fewer than 2³¹
entries and columns, then the library gets this matrix, with the columns of each row in order and each once; and if it is positive
definite, no row is empty, as the library needs. -/
theorem c172_matrix (A : Csr) (n : ℕ) (hr : A.rows.length = n) (hw : A.width = n) (he : ∀ row ∈ A.rows, row ≠ [])
    (hsym : (A.dense n)ᵀ = A.dense n) : ∃ U, construct A true true = .ok U ∧ U.rows.length = n ∧
      (U.rows.flatten.length < 2 ^ 31 → n < 2 ^ 31 → nativeMatrix U n = A.dense n) ∧
      (∀ row ∈ U.rows, (row.map Prod.fst).Pairwise (· < ·)) ∧
      ((A.dense n).PosDef → ∀ row ∈ U.rows, row ≠ []) := by
  have hlen : (triu A).rows.length = n := by simp [triu, hr]
  refine ⟨triu A, ?_, hlen, ?_, ?_, ?_⟩
  · have h : A.rows.any List.isEmpty = false := by
      rw [List.any_eq_false]
      intro row hrow
      simpa using he row hrow
    simp [construct, hr, hw, h]
  · intro h1 h2
    ext i j
    have hU : ∀ a b : Fin n, nativeUpper (asInt32 (triu A) (indptr (triu A))) (asInt32 (triu A) (indices (triu A)))
        (values (triu A)) a b = if (a : ℕ) ≤ b then A.dense n a b else 0 := by
      intro a b
      have hw' : (triu A).width = n := hw
      rw [nativeUpper_eq (triu A) (by omega) (by omega) a b (by omega), triu_getD A a (by omega), triuRow_entry]
      rfl
    simp only [nativeMatrix, fromUpper, of_apply, hU]
    by_cases h : i ≤ j
    · rw [if_pos h, if_pos (by simpa using h)]
    · have h' : j ≤ i := le_of_not_ge h
      rw [if_neg h, if_pos (by simpa using h')]
      exact congrFun (congrFun hsym i) j
  · intro row hrow
    obtain ⟨r, hr', rfl⟩ := List.mem_map.1 hrow
    have hp := List.pairwise_insertionSort (· ≤ ·) ((r.1.filter fun e => r.2 ≤ e.1).map Prod.fst).dedup
    have hn : (((r.1.filter fun e => r.2 ≤ e.1).map Prod.fst).dedup.insertionSort (· ≤ ·)).Nodup :=
      ((List.perm_insertionSort _ _).nodup_iff).2 (List.nodup_dedup _)
    have e : (triuRow r.2 r.1).map Prod.fst = ((r.1.filter fun e => r.2 ≤ e.1).map Prod.fst).dedup.insertionSort (· ≤ ·) := by
      simp [triuRow, Function.comp_def]
    rw [e]
    exact (hp.and hn).imp fun h => lt_of_le_of_ne h.1 h.2
  · intro hpd row hrow hnil
    obtain ⟨i, hi, rfl⟩ := List.getElem_of_mem hrow
    have hi' : i < n := by omega
    have hd : 0 < A.dense n ⟨i, hi'⟩ ⟨i, hi'⟩ := hpd.diag_pos
    have hz : A.dense n ⟨i, hi'⟩ ⟨i, hi'⟩ = 0 := by
      have h := triuRow_entry i (A.rows.getD i []) i
      rw [← triu_getD A i (by omega), List.getD_eq_getElem?_getD, List.getElem?_eq_getElem hi, Option.getD_some, hnil,
        if_pos le_rfl] at h
      exact h.symm
    exact absurd hz hd.ne'

/-! ### Right-hand sides -/

/-- The values of right-hand sides. -/
def Rhs.value (i j : ℕ) : Rhs → ℝ
  | .dense b _ => b.at i j
  | .sparse _ _ v _ => v i j

/-- The number of right-hand sides. -/
def Rhs.columns : Rhs → ℕ
  | .dense b _ => b.columns
  | .sparse _ k _ _ => k

/-- Right-hand sides of numbers of 64 bits which are in two dimensions or have no gaps. -/
def Rhs.Suitable : Rhs → Prop
  | .dense (.one _ _ s) f => s = 1 ∧ f = true
  | .dense (.two _ _ _ _ _) f => f = true
  | .sparse _ _ _ f => f = true

/-- **C172.**  Right-hand sides in two dimensions, with any strides, or sparse, or in one dimension without gaps: the result has the same
shape, and each of its columns is what the library makes of that column. -/
theorem c172_columns {n : ℕ} (native : Native n) (b : Rhs) (hn : b.rows = n)
    (hb : b.Suitable) :
    ∃ x, solve native b = .ok x ∧ x.rows = n ∧ x.columns = b.columns ∧
      (∀ c f, b = .dense c f → x.ndim = c.ndim) ∧
      ∀ (i : Fin n) (j : ℕ), j < b.columns → x.at i j = native (fun l => b.value l j) i := by
  have two : ∀ (k : ℕ) (memory : ℤ → ℝ) (s0 s1 : ℤ) (i : Fin n) (j : ℕ), j < k →
      (callPardiso native (asFortran (.two n k memory s0 s1))).at i j =
        native (fun l => memory ((l : ℕ) * s0 + j * s1)) i := by
    intro k memory s0 s1 i j hj
    have hk : 0 < k := by omega
    have hn0 : 0 < n := i.pos
    have hpos : ((i : ℤ) * (k : ℤ) + (j : ℤ) * 1).toNat = i * k + j := by
      rw [show ((i : ℤ) * (k : ℤ) + (j : ℤ) * 1) = ((i * k + j : ℕ) : ℤ) by push_cast; ring, Int.toNat_natCast]
    have hdiv : ((i : ℕ) * k + j) / k = i := by
      rw [Nat.add_comm, Nat.add_mul_div_right _ _ hk, Nat.div_eq_of_lt hj, Nat.zero_add]
    have hmod : ((i : ℕ) * k + j) % k = j := by
      rw [Nat.add_comm, Nat.add_mul_mod_self_right, Nat.mod_eq_of_lt hj]
    rw [asFortran]
    split
    · rename_i h
      simp only [callPardiso, NdArray.at, hpos, hdiv, hmod, i.isLt, dif_pos, Fin.eta]
      congr 1
      funext l
      congr 1
      have a1 : (l : ℤ) * s0 = l := by
        rcases h.1 with h | h
        · have : (l : ℕ) = 0 := by omega
          rw [this]; simp
        · rw [h, mul_one]
      have a2 : (j : ℤ) * s1 = j * n := by
        rcases h.2 with h | h
        · have : j = 0 := by omega
          rw [this]; simp
        · rw [h]
      rw [a1, a2]
    · simp only [callPardiso, NdArray.at, hpos, hdiv, hmod, i.isLt, dif_pos, Fin.eta]
      congr 1
      funext l
      have hp : ((l : ℤ) + (j : ℤ) * (n : ℤ)).toNat = l + j * n := by
        rw [show ((l : ℤ) + (j : ℤ) * (n : ℤ)) = ((l + j * n : ℕ) : ℤ) by push_cast; ring, Int.toNat_natCast]
      rw [hp, Nat.add_mul_mod_self_right, Nat.mod_eq_of_lt l.isLt, Nat.add_mul_div_right _ _ hn0, Nat.div_eq_of_lt l.isLt,
        Nat.zero_add]
  have shape : ∀ (k : ℕ) (memory : ℤ → ℝ) (s0 s1 : ℤ),
      (callPardiso native (asFortran (.two n k memory s0 s1))).rows = n ∧
      (callPardiso native (asFortran (.two n k memory s0 s1))).columns = k ∧
      (callPardiso native (asFortran (.two n k memory s0 s1))).ndim = 2 := by
    intro k memory s0 s1
    rw [asFortran]
    split <;> exact ⟨rfl, rfl, rfl⟩
  cases b with
  | dense c f =>
    cases c with
    | one m memory s =>
      obtain ⟨rfl, rfl⟩ := hb
      obtain rfl : m = n := hn
      refine ⟨callPardiso native (.one m memory 1), by simp [solve, Rhs.rows, NdArray.rows, Rhs.todense, asFortran], rfl, rfl, ?_, ?_⟩
      · intro c f h
        cases h
        rfl
      · intro i j hj
        obtain rfl : j = 0 := by
          have : j < 1 := hj
          omega
        simp [callPardiso, NdArray.at, Rhs.value]
    | two m k memory s0 s1 =>
      obtain rfl : f = true := hb
      obtain rfl : m = n := hn
      obtain ⟨h1, h2, h3⟩ := shape k memory s0 s1
      refine ⟨callPardiso native (asFortran (.two m k memory s0 s1)), by simp [solve, Rhs.rows, NdArray.rows, Rhs.todense], h1, h2, ?_, ?_⟩
      · intro c f h
        cases h
        exact h3
      · intro i j hj
        exact two k memory s0 s1 i j hj
  | sparse m k v f =>
    obtain rfl : f = true := hb
    obtain rfl : m = n := hn
    obtain ⟨h1, h2, h3⟩ := shape k (fun a => v (a.toNat / k) (a.toNat % k)) k 1
    refine ⟨callPardiso native (asFortran (.two m k (fun a => v (a.toNat / k) (a.toNat % k)) k 1)),
      by simp [solve, Rhs.rows, Rhs.todense], h1, h2, ?_, ?_⟩
    · intro c f h
      cases h
    · intro i j hj
      rw [two k _ _ _ i j hj]
      congr 1
      funext l
      have hk : 0 < k := Nat.lt_of_le_of_lt (Nat.zero_le _) hj
      have hpos : (((l : ℕ) : ℤ) * (k : ℤ) + (j : ℤ) * 1).toNat = l * k + j := by
        rw [show (((l : ℕ) : ℤ) * (k : ℤ) + (j : ℤ) * 1) = ((l * k + j : ℕ) : ℤ) by push_cast; ring, Int.toNat_natCast]
      have hj' : j < k := hj
      simp only [Rhs.value]
      rw [hpos, Nat.add_comm, Nat.add_mul_div_right _ _ hk, Nat.div_eq_of_lt hj', Nat.zero_add,
        Nat.add_mul_mod_self_right, Nat.mod_eq_of_lt hj']

/-- **C172.**  A right-hand side with another number of rows is refused, and so are numbers of another type. -/
theorem c172_refused {n : ℕ} (native : Native n) (b : Rhs) : (b.rows ≠ n → solve native b = .error .valueError) ∧
    (b.rows = n → b.todense.2 = false → solve native b = .error .typeError) := by
  constructor
  · intro h
    simp [solve, h]
  · intro h1 h2
    simp [solve, h1, h2]

/-! ### The order of unknowns -/

/-- **C172.**  Whatever the order of unknowns, the phases are those of a factorisation of the matrix itself, as `Linear` has it. -/
theorem c172_order {n : ℕ} {a : Mat n} (f : Ordered (fromUpper a)) : ∃ g : Factor a,
    (∀ b, f.solution b = solveA a b) ∧ (∀ b, f.forward b = g.forward b) ∧ ∀ b, f.backward b = g.backward b := by
  refine ⟨⟨f.L.submatrix f.order.symm id, ?_⟩, fun _ => rfl, ?_, ?_⟩
  · refine (submatrix_mul_equiv f.L f.Lᵀ f.order.symm (Equiv.refl _) f.order.symm).trans ?_
    rw [f.factor, submatrix_submatrix]
    simp
  · intro b
    change f.L⁻¹ *ᵥ (b ∘ f.order) = (f.L.submatrix f.order.symm (Equiv.refl _))⁻¹ *ᵥ b
    rw [inv_submatrix_equiv, submatrix_mulVec_equiv]
    simp
  · intro b
    change (f.Lᵀ⁻¹ *ᵥ b) ∘ f.order.symm = (f.Lᵀ.submatrix (Equiv.refl _) f.order.symm)⁻¹ *ᵥ b
    rw [inv_submatrix_equiv, submatrix_mulVec_equiv]
    simp

/-- **C172.**  So does backward substitution with the other library, which also takes the right-hand side in another order. -/
theorem c172_cholmod {n : ℕ} {a : Mat n} (f : Ordered (fromUpper a)) : ∃ g : Factor a,
    ∀ b, f.cholmodBackward b = g.backward b := by
  refine ⟨⟨f.L.submatrix f.order.symm f.order.symm, ?_⟩, ?_⟩
  · rw [transpose_submatrix, submatrix_mul_equiv, f.factor, submatrix_submatrix]
    simp
  · intro b
    rw [Ordered.cholmodBackward, Factor.backward, transpose_submatrix, inv_submatrix_equiv, submatrix_mulVec_equiv]
    rfl

theorem factor_isUnit {n : ℕ} {a : Mat n} (g : Factor a) (h : (fromUpper a).PosDef) : IsUnit g.L.det := by
  have hd := h.det_pos
  rw [← g.factor, det_mul, det_transpose] at hd
  rw [isUnit_iff_ne_zero]
  intro h0
  rw [h0] at hd
  simp at hd

/-- **C172.**  Noise is carried to numbers `x` with `xᵀ A x = zᵀ z`, by both libraries. -/
theorem c172_isometry {n : ℕ} {a : Mat n} (h : (fromUpper a).PosDef) (f : Ordered (fromUpper a)) (z : Vec n) :
    f.backward z ⬝ᵥ (fromUpper a *ᵥ f.backward z) = z ⬝ᵥ z ∧
    f.cholmodBackward z ⬝ᵥ (fromUpper a *ᵥ f.cholmodBackward z) = z ⬝ᵥ z := by
  have key : ∀ g : Factor a, g.backward z ⬝ᵥ (fromUpper a *ᵥ g.backward z) = z ⬝ᵥ z := by
    intro g
    have hu := factor_isUnit g h
    have ht : IsUnit (g.Lᵀ).det := by rwa [det_transpose]
    have hz : g.Lᵀ *ᵥ g.backward z = z := by
      rw [Factor.backward, mulVec_mulVec, mul_nonsing_inv _ ht, one_mulVec]
    have e : ∀ x : Vec n, x ⬝ᵥ (fromUpper a *ᵥ x) = (g.Lᵀ *ᵥ x) ⬝ᵥ (g.Lᵀ *ᵥ x) := by
      intro x
      rw [← g.factor, ← mulVec_mulVec, dotProduct_mulVec, ← mulVec_transpose]
    rw [e, hz]
  obtain ⟨g, -, -, h3⟩ := c172_order f
  obtain ⟨g', h'⟩ := c172_cholmod f
  rw [h3, h']
  exact ⟨key g, key g'⟩

/-- **C172.**  The sum of squares of the forward substitution for a column of the identity is the marginal variance. -/
theorem c172_variance {n : ℕ} {a : Mat n} (h : (fromUpper a).PosDef) (f : Ordered (fromUpper a)) (j : Fin n) :
    ∑ i, f.forward (Pi.single j 1) i ^ 2 = (fromUpper a)⁻¹ j j := by
  obtain ⟨g, -, h2, -⟩ := c172_order f
  have hu := factor_isUnit g h
  rw [h2, ← g.factor, Matrix.mul_inv_rev, mul_apply]
  apply Finset.sum_congr rfl
  intro i _
  rw [Factor.forward, mulVec_single_one, ← transpose_nonsing_inv, transpose_apply, col_apply]
  ring

end Verif.Eustace.Solver
