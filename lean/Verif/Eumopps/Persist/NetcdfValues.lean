import Verif.Eumopps.Persist.NetcdfPieces

/-! C19: saving lists of simple values. -/

namespace Verif.Eumopps.Persist

open Verif Verif.Py Verif.Calendar Verif.Eumopps.Names Verif.Eumopps.Time Verif.Eumopps.Periods

/-- Scalars which a variable can hold: no fill values, whole seconds. -/
def CellOk : Scalar → Prop
  | .str _ => True
  | .int n => n ≠ fillInt
  | .float b => b ≠ fillFloat
  | .time t => WholeSeconds timeBase t ∧ secondsToNumber timeBase t ≠ fillInt

/-- Lists of scalars of one kind. -/
def Column (l : List Value) : Prop := l ≠ [] ∧ ∃ K, ∀ v ∈ l, ∃ s : Scalar, v = .scalar s ∧ s.kind = K ∧ CellOk s

/-- Lists of lists of integers, or of floating-point numbers. -/
def Rows (l : List Value) : Prop := (∃ v ∈ l, v ≠ .list []) ∧ ∃ K, (K = Kind.int ∨ K = Kind.float) ∧
  ∀ v ∈ l, ∃ r, v = .list r ∧ ∀ x ∈ r, ∃ s : Scalar, x = .scalar s ∧ s.kind = K ∧ CellOk s

/-- Lists of lists of strings, all of one length, not all strings empty. -/
def StringRows (l : List Value) : Prop := ∃ m, (∀ v ∈ l, ∃ r, v = .list r ∧ r.length = m ∧ ∀ x ∈ r, ∃ s, x = .scalar (.str s)) ∧
  ∃ v ∈ l, ∃ r s, v = .list r ∧ .scalar (.str s) ∈ r ∧ s ≠ ""

/-! ### Which branch is taken -/

theorem allNone_iff (l : List Value) : (l.all isNone) = true ↔ ∀ v ∈ l, v = .none := by
  rw [List.all_eq_true]
  refine forall₂_congr fun v _ => ?_
  cases v <;> simp [isNone]

theorem listOf_scalars {l : List Value} {K : Kind} (hl : l ≠ []) (h : ∀ v ∈ l, ∃ s : Scalar, v = .scalar s ∧ s.kind = K) (K' : Kind) :
    listOf K' l = decide (K = K') := by
  unfold listOf
  rw [Bool.eq_iff_iff, List.all_eq_true, decide_eq_true_iff]
  constructor
  · intro ha
    obtain ⟨v, hv⟩ := List.exists_mem_of_ne_nil l hl
    obtain ⟨s, rfl, hs⟩ := h v hv
    have := ha _ hv
    simp only [noneOr, decide_eq_true_iff] at this
    exact hs.symm.trans this
  · intro hK v hv
    obtain ⟨s, rfl, hs⟩ := h v hv
    simp [noneOr, hs, hK]

theorem listOf_false {l : List Value} (K : Kind) {v : Value} (hv : v ∈ l) {r : List Value} (h : v = .list r) : listOf K l = false := by
  unfold listOf
  rw [List.all_eq_false]
  exact ⟨v, hv, by rw [h]; simp [noneOr]⟩

theorem list2dOf_false {l : List Value} (K : Kind) {v : Value} (hv : v ∈ l) {r : List Value} (h : v = .list r) (hr : listOf K r = false) :
    list2dOf K l = false := by
  unfold list2dOf
  rw [List.all_eq_false]
  exact ⟨v, hv, by rw [h]; simp [rowOf, hr]⟩

theorem list2dOf_true {l : List Value} {K : Kind}
    (h : ∀ v ∈ l, ∃ r, v = .list r ∧ ∀ x ∈ r, ∃ s : Scalar, x = .scalar s ∧ s.kind = K) : list2dOf K l = true := by
  unfold list2dOf
  rw [List.all_eq_true]
  intro v hv
  obtain ⟨r, rfl, hr⟩ := h v hv
  simp only [rowOf, listOf, List.all_eq_true]
  intro x hx
  obtain ⟨s, rfl, hs⟩ := hr x hx
  simp [noneOr, hs]

/-! ### Contents -/

theorem read_int {l : List Value} (h : ∀ v ∈ l, ∃ s : Scalar, v = .scalar s ∧ s.kind = Kind.int ∧ CellOk s) :
    (((l.map cellInt).filter (· ≠ fillInt)).map fun n => Value.scalar (.int n)) = l := by
  rw [List.filter_eq_self.2, List.map_map]
  · conv => rhs; rw [← List.map_id l]
    refine List.map_congr_left fun v hv => ?_
    obtain ⟨s, rfl, hs, _⟩ := h v hv
    cases s <;> simp [Scalar.kind] at hs
    rfl
  · intro n hn
    obtain ⟨v, hv, rfl⟩ := List.mem_map.1 hn
    obtain ⟨s, rfl, hs, hc⟩ := h v hv
    cases s <;> simp [Scalar.kind] at hs
    exact decide_eq_true hc

theorem read_time {l : List Value} (h : ∀ v ∈ l, ∃ s : Scalar, v = .scalar s ∧ s.kind = Kind.time ∧ CellOk s) :
    (((l.map cellInt).filter (· ≠ fillInt)).map fun n => Value.scalar (.time (numberToSeconds timeBase n))) = l := by
  rw [List.filter_eq_self.2, List.map_map]
  · conv => rhs; rw [← List.map_id l]
    refine List.map_congr_left fun v hv => ?_
    obtain ⟨s, rfl, hs, hc⟩ := h v hv
    cases s <;> simp [Scalar.kind] at hs
    simp only [Function.comp_apply, cellInt, id]
    rw [(c13_roundtrip _ _).2.2 hc.1]
  · intro n hn
    obtain ⟨v, hv, rfl⟩ := List.mem_map.1 hn
    obtain ⟨s, rfl, hs, hc⟩ := h v hv
    cases s <;> simp [Scalar.kind] at hs
    exact decide_eq_true hc.2

theorem read_float {l : List Value} (h : ∀ v ∈ l, ∃ s : Scalar, v = .scalar s ∧ s.kind = Kind.float ∧ CellOk s) :
    (((l.map cellFloat).filter (· ≠ fillFloat)).map fun n => Value.scalar (.float n)) = l := by
  rw [List.filter_eq_self.2, List.map_map]
  · conv => rhs; rw [← List.map_id l]
    refine List.map_congr_left fun v hv => ?_
    obtain ⟨s, rfl, hs, _⟩ := h v hv
    cases s <;> simp [Scalar.kind] at hs
    rfl
  · intro n hn
    obtain ⟨v, hv, rfl⟩ := List.mem_map.1 hn
    obtain ⟨s, rfl, hs, hc⟩ := h v hv
    cases s <;> simp [Scalar.kind] at hs
    exact decide_eq_true hc

theorem read_str {l : List Value} (h : ∀ v ∈ l, ∃ s, v = .scalar (.str s)) : ((l.map cellStr).map fun s => Value.scalar (.str s)) = l := by
  rw [List.map_map]
  conv => rhs; rw [← List.map_id l]
  refine List.map_congr_left fun v hv => ?_
  obtain ⟨s, rfl⟩ := h v hv
  rfl

theorem filter_fillUp {α : Type} [DecidableEq α] (n : Nat) (x : α) (r : List α) : (fillUp n x r).filter (· ≠ x) = r.filter (· ≠ x) := by
  unfold fillUp
  rw [List.filter_append, show (List.replicate (n - r.length) x).filter (· ≠ x) = [] by simp [List.filter_replicate], List.append_nil]

/-! ### Saving a column -/

theorem createVar_ok {g : Group} {k : String} (x : Var) (hv : ∀ e ∈ g.vars, e.1 ≠ k) (hg : ∀ e ∈ g.groups, e.1 ≠ k) :
    createVar g k x = .ok (.mk g.attrs g.dims (g.vars ++ [(k, x)]) g.groups) := by
  unfold createVar
  rw [if_neg]
  simp only [Bool.or_eq_true, List.any_eq_true, beq_iff_eq, not_or, not_exists, not_and]
  exact ⟨fun e he => hv e he, fun e he => hg e he⟩

theorem addGroup_ok {g : Group} {k : String} (x : Group) (hv : ∀ e ∈ g.vars, e.1 ≠ k) (hg : ∀ e ∈ g.groups, e.1 ≠ k) :
    addGroup g k x = .ok (.mk g.attrs g.dims g.vars (g.groups ++ [(k, x)])) := by
  unfold addGroup
  rw [if_neg]
  simp only [Bool.or_eq_true, List.any_eq_true, beq_iff_eq, not_or, not_exists, not_and]
  exact ⟨fun e he => hv e he, fun e he => hg e he⟩

theorem createDim_ok {g : Group} {k : String} (n : Nat) (hd : ∀ e ∈ g.dims, e.1 ≠ k) :
    createDim g k n = .ok (.mk g.attrs (g.dims ++ [(k, n)]) g.vars g.groups) := by
  unfold createDim
  rw [if_neg]
  simp only [List.any_eq_true, beq_iff_eq, not_exists, not_and]
  exact fun e he => hd e he

theorem length_ne (k : String) : lengthName k ≠ k := by
  intro h
  have := congrArg (fun s : String => s.toList.length) h
  unfold lengthName at this
  simp only [String.toList_append, List.length_append] at this
  have h7 : "strlen_".toList.length = 7 := by decide
  omega

theorem two_ne (k : String) : k ++ "2" ≠ k := by
  intro h
  have := congrArg (fun s : String => s.toList.length) h
  simp only [String.toList_append, List.length_append] at this
  have h7 : "2".toList.length = 1 := by decide
  omega

/-- A column is saved as one variable, with a dimension for the length of strings. -/
theorem save_column {l : List Value} (h : Column l) (k : String) (dim : String) : ∃ x ds, readVar x = .list l ∧ (∀ d ∈ ds, d.1 = lengthName k) ∧
    ∀ g : Group, (∀ e ∈ g.dims, e.1 ≠ lengthName k) → (∀ e ∈ g.vars, e.1 ≠ k) → (∀ e ∈ g.groups, e.1 ≠ k) →
      saveColumn g k dim l = .ok (.mk g.attrs (g.dims ++ ds) (g.vars ++ [(k, x)]) g.groups) := by
  obtain ⟨hne, K, hK⟩ := h
  have hK' : ∀ v ∈ l, ∃ s : Scalar, v = .scalar s ∧ s.kind = K := fun v hv => by
    obtain ⟨s, h1, h2, _⟩ := hK v hv
    exact ⟨s, h1, h2⟩
  have hl := listOf_scalars hne hK'
  have hnn : ¬ (l.all isNone) = true := by
    rw [allNone_iff]
    intro h
    obtain ⟨v, hv⟩ := List.exists_mem_of_ne_nil l hne
    obtain ⟨s, hs, _⟩ := hK' v hv
    rw [h v hv] at hs
    cases hs
  cases K with
  | str =>
    refine ⟨.str1 (l.map cellStr), [(lengthName k, ((l.map fun v => (cellStr v).length).max?).getD 0 + 1)], ?_, by simp, ?_⟩
    · simp only [readVar]
      rw [read_str]
      intro v hv
      obtain ⟨s, rfl, hs⟩ := hK' v hv
      cases s <;> simp [Scalar.kind] at hs
      exact ⟨_, rfl⟩
    · intro g h1 h2 h3
      unfold saveColumn
      rw [if_neg hnn, hl, if_pos (by decide)]
      unfold saveStr1
      rw [createDim_ok _ h1]
      simp only
      rw [createVar_ok _ (by simpa [Group.vars] using h2) (by simpa [Group.groups] using h3)]
      rfl
  | int =>
    refine ⟨.int1 (l.map cellInt) false, [], ?_, by simp, ?_⟩
    · have := read_int hK
      simp only [readVar, if_false, Bool.false_eq_true]
      exact congrArg _ this
    · intro g h1 h2 h3
      unfold saveColumn
      rw [if_neg hnn, hl, if_neg (by decide), hl, if_pos (by decide), createVar_ok _ h2 h3, List.append_nil]
  | float =>
    refine ⟨.float1 (l.map cellFloat), [], ?_, by simp, ?_⟩
    · have := read_float hK
      simp only [readVar]
      exact congrArg _ this
    · intro g h1 h2 h3
      unfold saveColumn
      rw [if_neg hnn, hl, if_neg (by decide), hl, if_neg (by decide), hl, if_pos (by decide), createVar_ok _ h2 h3, List.append_nil]
  | time =>
    refine ⟨.int1 (l.map cellInt) true, [], ?_, by simp, ?_⟩
    · have := read_time hK
      simp only [readVar, if_true]
      exact congrArg _ this
    · intro g h1 h2 h3
      unfold saveColumn
      rw [if_neg hnn, hl, if_neg (by decide), hl, if_neg (by decide), hl, if_neg (by decide), hl, if_pos (by decide), createVar_ok _ h2 h3,
        List.append_nil]

theorem rows_some {l : List Value} {K : Kind} (h : ∀ v ∈ l, ∃ r, v = .list r ∧ ∀ x ∈ r, ∃ s : Scalar, x = .scalar s ∧ s.kind = K)
    (hne : ∃ v ∈ l, v ≠ .list []) : ∃ v ∈ l, ∃ r, v = .list r ∧ r ≠ [] ∧ ∀ x ∈ r, ∃ s : Scalar, x = .scalar s ∧ s.kind = K := by
  obtain ⟨v, hv, hn⟩ := hne
  obtain ⟨r, rfl, hr⟩ := h v hv
  exact ⟨_, hv, r, rfl, fun e => hn (by rw [e]), hr⟩

/-- Rows of numbers. -/
theorem save_rows {l : List Value} (h : Rows l) (k dim : String) : ∃ x n, readVar x = .list l ∧
    ∀ g : Group, (∀ e ∈ g.dims, e.1 ≠ dim ++ "2") → (∀ e ∈ g.vars, e.1 ≠ k) → (∀ e ∈ g.groups, e.1 ≠ k) →
      saveColumn g k dim l = .ok (.mk g.attrs (g.dims ++ [(dim ++ "2", n)]) (g.vars ++ [(k, x)]) g.groups) := by
  obtain ⟨hne, K, hKK, hK⟩ := h
  have hK' : ∀ v ∈ l, ∃ r, v = .list r ∧ ∀ x ∈ r, ∃ s : Scalar, x = .scalar s ∧ s.kind = K := fun v hv => by
    obtain ⟨r, h1, h2⟩ := hK v hv
    exact ⟨r, h1, fun x hx => by obtain ⟨s, a, b, _⟩ := h2 x hx; exact ⟨s, a, b⟩⟩
  obtain ⟨v, hv, r, hvr, hr, hrs⟩ := rows_some hK' hne
  have hl := listOf_scalars hr hrs
  have hnn : ¬ (l.all isNone) = true := by
    rw [allNone_iff]
    intro h
    rw [h v hv] at hvr
    cases hvr
  have hf : ∀ K, listOf K l = false := fun K => listOf_false K hv hvr
  have hf2 : ∀ K', K ≠ K' → list2dOf K' l = false := fun K' hne => list2dOf_false K' hv hvr (by rw [hl]; simpa using hne)
  have ht := list2dOf_true hK'
  rcases hKK with rfl | rfl
  · refine ⟨.int2 (l.map fun v => fillUp (columns l) fillInt ((rowList v).map cellInt)), columns l, ?_, ?_⟩
    rotate_left
    · intro g h1 h2 h3
      unfold saveColumn
      rw [if_neg hnn, hf, hf, hf, hf, hf2 .str (by decide), ht]
      simp only [if_true, if_false, Bool.false_eq_true]
      unfold saveNum2
      rw [createDim_ok _ h1]
      simp only
      rw [createVar_ok _ (by simpa [Group.vars] using h2) (by simpa [Group.groups] using h3)]
      rfl
    · simp only [readVar]
      rw [List.map_map]
      conv => rhs; rw [← List.map_id l]
      refine congrArg _ (List.map_congr_left fun v hv => ?_)
      obtain ⟨r, rfl, hr⟩ := hK v hv
      simp only [Function.comp_apply, id]
      rw [filter_fillUp]
      exact congrArg _ (read_int hr)
  · refine ⟨.float2 (l.map fun v => fillUp (columns l) fillFloat ((rowList v).map cellFloat)), columns l, ?_, ?_⟩
    rotate_left
    · intro g h1 h2 h3
      unfold saveColumn
      rw [if_neg hnn, hf, hf, hf, hf, hf2 .str (by decide), hf2 .int (by decide), ht]
      simp only [if_true, if_false, Bool.false_eq_true]
      unfold saveNum2
      rw [createDim_ok _ h1]
      simp only
      rw [createVar_ok _ (by simpa [Group.vars] using h2) (by simpa [Group.groups] using h3)]
      rfl
    · simp only [readVar]
      rw [List.map_map]
      conv => rhs; rw [← List.map_id l]
      refine congrArg _ (List.map_congr_left fun v hv => ?_)
      obtain ⟨r, rfl, hr⟩ := hK v hv
      simp only [Function.comp_apply, id]
      rw [filter_fillUp]
      exact congrArg _ (read_float hr)

/-- Rows of strings. -/
theorem save_strings {l : List Value} (h : StringRows l) (k dim : String) : ∃ x ds, readVar x = .list l ∧ (∀ d ∈ ds, d.1 = k ∨ d.1 = lengthName k) ∧
    ∀ g : Group, (∀ e ∈ g.dims, e.1 ≠ k ∧ e.1 ≠ lengthName k) → (∀ e ∈ g.vars, e.1 ≠ k) → (∀ e ∈ g.groups, e.1 ≠ k) →
      saveColumn g k dim l = .ok (.mk g.attrs (g.dims ++ ds) (g.vars ++ [(k, x)]) g.groups) := by
  obtain ⟨m, hm, v, hv, r, s, hvr, hsr, hs⟩ := h
  have hnn : ¬ (l.all isNone) = true := by
    rw [allNone_iff]
    intro h
    rw [h v hv] at hvr
    cases hvr
  have hf : ∀ K, listOf K l = false := fun K => listOf_false K hv hvr
  have ht : list2dOf .str l = true := list2dOf_true fun v hv => by
    obtain ⟨r, h1, _, h2⟩ := hm v hv
    exact ⟨r, h1, fun x hx => by obtain ⟨s, hs⟩ := h2 x hx; exact ⟨_, hs, rfl⟩⟩
  have hcol : columns l = m := by
    unfold columns
    have : (l.map fun v => (rowList v).length) = List.replicate l.length m := by
      rw [List.eq_replicate_iff]
      refine ⟨by simp, fun n hn => ?_⟩
      obtain ⟨v, hv, rfl⟩ := List.mem_map.1 hn
      obtain ⟨r, rfl, h1, _⟩ := hm v hv
      exact h1
    rw [this, List.max?_replicate_of_pos]
    · rfl
    · exact List.length_pos_of_mem hv
  have hlen : ((l.flatMap fun v => (rowList v).map fun s => (cellStr s).length).filter (· ≠ 0)) ≠ [] := by
    intro he
    have : s.length ∈ ((l.flatMap fun v => (rowList v).map fun s => (cellStr s).length).filter (· ≠ 0)) := by
      refine List.mem_filter.2 ⟨List.mem_flatMap.2 ⟨v, hv, List.mem_map.2 ⟨.scalar (.str s), ?_, rfl⟩⟩, by simpa using hs⟩
      rw [hvr]
      exact hsr
    rw [he] at this
    exact absurd this List.not_mem_nil
  refine ⟨.str2 (l.map fun v => fillUp (columns l) "" ((rowList v).map cellStr)), [(k, columns l), (lengthName k,
    ((((l.flatMap fun v => (rowList v).map fun s => (cellStr s).length).filter (· ≠ 0)).max?).getD 0 + 1))], ?_, by simp, ?_⟩
  rotate_left
  · intro g h1 h2 h3
    unfold saveColumn
    rw [if_neg hnn, hf, hf, hf, hf, ht]
    simp only [if_true, if_false, Bool.false_eq_true]
    unfold saveStr2
    simp only
    rw [if_neg hlen, createDim_ok _ fun e he => (h1 e he).1]
    simp only
    rw [createDim_ok]
    · simp only
      rw [createVar_ok _ (by simpa [Group.vars] using h2) (by simpa [Group.groups] using h3)]
      simp [Group.attrs, Group.dims, Group.vars, Group.groups]
    · intro e he
      simp only [Group.dims, List.mem_append, List.mem_singleton] at he
      rcases he with he | he
      · exact (h1 e (by simpa [Group.dims] using he)).2
      · rw [he]; exact (length_ne k).symm
  · simp only [readVar]
    rw [List.map_map]
    conv => rhs; rw [← List.map_id l]
    refine congrArg _ (List.map_congr_left fun v hv => ?_)
    obtain ⟨r, rfl, hr, hx⟩ := hm v hv
    simp only [Function.comp_apply, id, fillUp, rowList, List.length_map]
    rw [hcol, hr, Nat.sub_self, List.replicate_zero, List.append_nil]
    exact congrArg _ (read_str hx)

end Verif.Eumopps.Persist
