import Verif.Eumopps.Persist.NetcdfProps
import Mathlib.Data.List.ReduceOption
import Mathlib.Tactic.IntervalCases

/-! C19: what becomes of lists of file entries with missing fields, and what is lost. -/

namespace Verif.Eumopps.Persist

open Verif Verif.Py Verif.Calendar Verif.Eumopps.Names Verif.Eumopps.Time Verif.Eumopps.Periods

/-! ### Specification -/

/-- A file entry with fields which may be None. -/
structure FileEntry where
  name : Option String
  time : Option Int
  tags : Option (List String)
  checksum : Option String
  size : Option Int

/-- An optional value. -/
def optional {α : Type} (f : α → Value) : Option α → Value
  | some x => f x
  | none => .none

/-- A list of strings. -/
def stringList (l : List String) : Value := .list (l.map fun s => .scalar (.str s))

/-- The object of a file entry (dataset.py 141-149). -/
def FileEntry.value (e : FileEntry) : Value :=
  entry (optional (fun s => .scalar (.str s)) e.name) (optional (fun t => .scalar (.time t)) e.time) (optional stringList e.tags)
    (optional (fun s => .scalar (.str s)) e.checksum) (optional (fun n => .scalar (.int n)) e.size)

/-- Strings after loading: None is the empty string, unless all are None. -/
def stringAt (c : List (Option String)) (i : Nat) : Option String :=
  if ∀ s ∈ c, s = none then none else some ((c[i]?.bind id).getD "")

/-- Numbers and times after loading: those which are not None, from the start of the list. -/
def numberAt {α : Type} (c : List (Option α)) (i : Nat) : Option α := c.reduceOption[i]?

/-- Tags after loading: filled up with empty strings; None if all strings are empty. -/
def tagsAt (c : List (Option (List String))) (i : Nat) : Option (List String) :=
  if ∀ t ∈ c, ∀ s ∈ t.getD [], s = "" then none
  else
    let r := (c[i]?.bind id).getD []
    some (r ++ List.replicate (((c.map fun t => (t.getD []).length).max?).getD 0 - r.length) "")

/-- The entry at a position after loading. -/
def loadedEntry (l : List FileEntry) (i : Nat) : FileEntry where
  name := stringAt (l.map (·.name)) i
  time := numberAt (l.map (·.time)) i
  tags := tagsAt (l.map (·.tags)) i
  checksum := stringAt (l.map (·.checksum)) i
  size := numberAt (l.map (·.size)) i

/-- Numbers and times which can be held. -/
def FileEntry.Ok (e : FileEntry) : Prop := (∀ t, e.time = some t → CellOk (.time t)) ∧ ∀ n, e.size = some n → CellOk (.int n)

/-! ### Columns with None -/

/-- What saving a column leaves to be read. -/
def Saved (k : String) (c r : List Value) : Prop := ∃ (vs : List (String × Var)) (ds : List (String × Nat)),
    ((vs = [] ∧ r = []) ∨ ∃ x, vs = [(k, x)] ∧ readVar x = .list r) ∧ r.length ≤ c.length ∧ (∀ d ∈ ds, d.1 ∈ dimNames k) ∧
    ∀ g : Group, (∀ e ∈ g.dims, e.1 ∉ dimNames k) → (∀ e ∈ g.vars, e.1 ≠ k) → (∀ e ∈ g.groups, e.1 ≠ k) →
      saveColumn g k listCount c = .ok (.mk g.attrs (g.dims ++ ds) (g.vars ++ vs) g.groups)

theorem saved_none {k : String} {c : List Value} (h : ∀ v ∈ c, v = .none) : Saved k c [] := by
  refine ⟨[], [], .inl ⟨rfl, rfl⟩, by simp, by simp, ?_⟩
  intro g _ _ _
  unfold saveColumn
  rw [if_pos ((allNone_iff _).2 h)]
  cases g
  simp [Group.attrs, Group.dims, Group.vars, Group.groups]

theorem saved_strings (k : String) (c : List (Option String)) : Saved k (c.map (optional fun s => .scalar (.str s)))
    (if ∀ s ∈ c, s = none then [] else c.map fun s => .scalar (.str (s.getD ""))) := by
  by_cases h : ∀ s ∈ c, s = none
  · rw [if_pos h]
    apply saved_none
    intro v hv
    obtain ⟨s, hs, rfl⟩ := List.mem_map.1 hv
    rw [h s hs]
    rfl
  · rw [if_neg h]
    have hnn : ¬ (c.map (optional fun s => Value.scalar (.str s))).all isNone = true := by
      rw [allNone_iff]
      intro hh
      apply h
      intro s hs
      have := hh _ (List.mem_map_of_mem hs)
      cases s with
      | none => rfl
      | some s => cases this
    have hl : listOf .str (c.map (optional fun s => Value.scalar (.str s))) = true := by
      unfold listOf
      rw [List.all_eq_true]
      intro v hv
      obtain ⟨s, _, rfl⟩ := List.mem_map.1 hv
      cases s <;> simp [optional, noneOr, Scalar.kind]
    refine ⟨[(k, .str1 ((c.map (optional fun s => Value.scalar (.str s))).map cellStr))],
      [(lengthName k, (((c.map (optional fun s => Value.scalar (.str s))).map fun v => (cellStr v).length).max?).getD 0 + 1)],
      .inr ⟨_, rfl, ?_⟩, by simp, by simp [dimNames], ?_⟩
    · simp only [readVar]
      rw [List.map_map, List.map_map]
      refine congrArg _ (List.map_congr_left fun s _ => ?_)
      cases s <;> rfl
    · intro g h1 h2 h3
      unfold saveColumn
      rw [if_neg hnn, if_pos hl]
      unfold saveStr1
      rw [createDim_ok _ fun e he hn => h1 e he (by rw [hn]; simp [dimNames])]
      simp only
      rw [createVar_ok _ (by simpa [Group.vars] using h2) (by simpa [Group.groups] using h3)]
      rfl

/-- Numbers or times. -/
theorem saved_numbers {α : Type} (k : String) (c : List (Option α)) (f : α → Scalar) (K : Kind) (hK : K = .int ∨ K = .time)
    (hf : ∀ a, some a ∈ c → (f a).kind = K ∧ CellOk (f a)) :
    Saved k (c.map (optional fun a => .scalar (f a))) (c.reduceOption.map fun a => .scalar (f a)) := by
  by_cases h : ∀ s ∈ c, s = none
  · have hr : c.reduceOption = [] := by
      rw [List.eq_nil_iff_forall_not_mem]
      intro a ha
      have := h _ (List.reduceOption_mem_iff.1 ha)
      cases this
    rw [hr]
    apply saved_none
    intro v hv
    obtain ⟨s, hs, rfl⟩ := List.mem_map.1 hv
    rw [h s hs]
    rfl
  · push Not at h
    obtain ⟨s, hs, hsn⟩ := h
    obtain ⟨a, rfl⟩ := Option.ne_none_iff_exists'.1 hsn
    have hmem : Value.scalar (f a) ∈ c.map (optional fun a => Value.scalar (f a)) := List.mem_map.2 ⟨some a, hs, rfl⟩
    have hnn : ¬ (c.map (optional fun a => Value.scalar (f a))).all isNone = true := by
      rw [allNone_iff]
      intro hh
      cases hh _ hmem
    have hl : ∀ K', listOf K' (c.map (optional fun a => Value.scalar (f a))) = decide (K = K') := by
      intro K'
      unfold listOf
      rw [Bool.eq_iff_iff, List.all_eq_true, decide_eq_true_iff]
      constructor
      · intro hh
        have := hh _ hmem
        simp only [noneOr, decide_eq_true_iff] at this
        exact (hf a hs).1.symm.trans this
      · intro hKK v hv
        obtain ⟨s, hsm, rfl⟩ := List.mem_map.1 hv
        cases s with
        | none => rfl
        | some b => simp [optional, noneOr, (hf b hsm).1, hKK]
    have hread : ∀ {g : Int → Value}, (∀ b, some b ∈ c → g (cellInt (.scalar (f b))) = .scalar (f b)) →
        ((((c.map (optional fun a => Value.scalar (f a))).map cellInt).filter (· ≠ fillInt)).map g) = c.reduceOption.map fun a => .scalar (f a) := by
      intro g hg
      clear hs hmem hnn hl hsn
      induction c with
      | nil => rfl
      | cons x c ih =>
        have ih := ih (fun b hb => hf b (by simp [hb])) (fun b hb => hg b (by simp [hb]))
        cases x with
        | none =>
          rw [List.map_cons, List.map_cons, List.filter_cons_of_neg (by simp [optional, cellInt]), ih]
          rfl
        | some b =>
          rw [List.map_cons, List.map_cons, List.filter_cons_of_pos, List.map_cons, ih, List.reduceOption_cons_of_some, List.map_cons]
          · rw [optional, hg b (by simp)]
          · obtain ⟨h1, h2⟩ := hf b (by simp)
            refine decide_eq_true ?_
            rw [optional]
            cases hfb : f b with
            | int n => rw [hfb] at h2; exact h2
            | time t => rw [hfb] at h2; exact h2.2
            | str s => rw [hfb] at h1; rcases hK with rfl | rfl <;> cases h1
            | float s => rw [hfb] at h1; rcases hK with rfl | rfl <;> cases h1
    have hlen : (c.reduceOption.map fun a => Value.scalar (f a)).length ≤ (c.map (optional fun a => Value.scalar (f a))).length := by
      rw [List.length_map, List.length_map]
      exact List.reduceOption_length_le _
    rcases hK with rfl | rfl
    · refine ⟨[(k, .int1 ((c.map (optional fun a => Value.scalar (f a))).map cellInt) false)], [], .inr ⟨_, rfl, ?_⟩, hlen, by simp, ?_⟩
      · simp only [readVar, Bool.false_eq_true, if_false]
        refine congrArg _ (hread fun b hb => ?_)
        have := (hf b hb).1
        cases hfb : f b with
        | int n => rfl
        | _ => rw [hfb] at this; cases this
      · intro g h1 h2 h3
        unfold saveColumn
        rw [if_neg hnn, hl, if_neg (by decide), hl, if_pos (by decide), createVar_ok _ h2 h3, List.append_nil]
    · refine ⟨[(k, .int1 ((c.map (optional fun a => Value.scalar (f a))).map cellInt) true)], [], .inr ⟨_, rfl, ?_⟩, hlen, by simp, ?_⟩
      · simp only [readVar, if_true]
        refine congrArg _ (hread fun b hb => ?_)
        obtain ⟨h1, h2⟩ := hf b hb
        cases hfb : f b with
        | time t =>
          rw [hfb] at h2
          simp only [cellInt]
          rw [(c13_roundtrip _ _).2.2 h2.1]
        | _ => rw [hfb] at h1; cases h1
      · intro g h1 h2 h3
        unfold saveColumn
        rw [if_neg hnn, hl, if_neg (by decide), hl, if_neg (by decide), hl, if_neg (by decide), hl, if_pos (by decide),
          createVar_ok _ h2 h3, List.append_nil]

theorem cells_stringList (r : List String) : (rowList (stringList r)).map cellStr = r := by
  simp only [stringList, rowList, List.map_map]
  conv => rhs; rw [← List.map_id r]
  exact List.map_congr_left fun s _ => rfl

theorem rowList_tags (t : Option (List String)) : (rowList (optional stringList t)).map cellStr = t.getD [] := by
  cases t with
  | none => rfl
  | some r => exact cells_stringList r

/-- Tags. -/
theorem saved_tags (k : String) (c : List (Option (List String))) : Saved k (c.map (optional stringList))
    (if ∀ t ∈ c, ∀ s ∈ t.getD [], s = "" then []
     else c.map fun t => stringList (t.getD [] ++ List.replicate (((c.map fun t => (t.getD []).length).max?).getD 0 - (t.getD []).length) "")) := by
  by_cases h0 : ∀ s ∈ c, s = none
  · rw [if_pos (by intro t ht; rw [h0 t ht]; simp)]
    apply saved_none
    intro v hv
    obtain ⟨s, hs, rfl⟩ := List.mem_map.1 hv
    rw [h0 s hs]
    rfl
  · push Not at h0
    obtain ⟨s, hs, hsn⟩ := h0
    obtain ⟨r, rfl⟩ := Option.ne_none_iff_exists'.1 hsn
    have hmem : Value.list (r.map fun s => .scalar (.str s)) ∈ c.map (optional stringList) := List.mem_map.2 ⟨some r, hs, rfl⟩
    have hnn : ¬ (c.map (optional stringList)).all isNone = true := by
      rw [allNone_iff]
      intro hh
      cases hh _ hmem
    have hl : ∀ K, listOf K (c.map (optional stringList)) = false := fun K => listOf_false K hmem rfl
    have ht : list2dOf .str (c.map (optional stringList)) = true := by
      unfold list2dOf
      rw [List.all_eq_true]
      intro v hv
      obtain ⟨t, _, rfl⟩ := List.mem_map.1 hv
      cases t with
      | none => rfl
      | some r =>
        simp only [optional, stringList, rowOf, listOf, List.all_eq_true]
        intro x hx
        obtain ⟨s, _, rfl⟩ := List.mem_map.1 hx
        simp [noneOr, Scalar.kind]
    have hrowlen : ∀ t : Option (List String), (rowList (optional stringList t)).length = (t.getD []).length := by
      intro t
      rw [← rowList_tags t, List.length_map]
    have hcol : columns (c.map (optional stringList)) = ((c.map fun t => (t.getD []).length).max?).getD 0 := by
      unfold columns
      rw [List.map_map]
      congr 2
      exact List.map_congr_left fun t _ => hrowlen t
    have hstep : ∀ g : Group, saveColumn g k listCount (c.map (optional stringList)) = saveStr2 g k (c.map (optional stringList)) := by
      intro g
      unfold saveColumn
      rw [if_neg hnn, hl, hl, hl, hl, ht]
      simp only [if_true, if_false, Bool.false_eq_true]
    by_cases h : ∀ t ∈ c, ∀ s ∈ t.getD [], s = ""
    · rw [if_pos h]
      refine ⟨[], [], .inl ⟨rfl, rfl⟩, by simp, by simp, ?_⟩
      intro g _ _ _
      rw [hstep]
      unfold saveStr2
      simp only
      rw [if_pos]
      · cases g
        simp [Group.attrs, Group.dims, Group.vars, Group.groups]
      · rw [List.filter_eq_nil_iff]
        intro n hn
        obtain ⟨v, hv, hn⟩ := List.mem_flatMap.1 hn
        obtain ⟨t, htm, rfl⟩ := List.mem_map.1 hv
        obtain ⟨x, hx, rfl⟩ := List.mem_map.1 hn
        have : cellStr x ∈ t.getD [] := by rw [← rowList_tags t]; exact List.mem_map_of_mem hx
        rw [h t htm _ this]
        simp
    · rw [if_neg h]
      push Not at h
      obtain ⟨t, htm, s, hst, hsne⟩ := h
      have hlen : (((c.map (optional stringList)).flatMap fun v => (rowList v).map fun s => (cellStr s).length).filter (· ≠ 0)) ≠ [] := by
        intro he
        rw [List.filter_eq_nil_iff] at he
        have hx : s ∈ (rowList (optional stringList t)).map cellStr := by rw [rowList_tags]; exact hst
        obtain ⟨x, hx, hxs⟩ := List.mem_map.1 hx
        have := he s.length (List.mem_flatMap.2 ⟨_, List.mem_map_of_mem htm, List.mem_map.2 ⟨x, hx, by rw [hxs]⟩⟩)
        exact this (by simpa using hsne)
      refine ⟨[(k, .str2 ((c.map (optional stringList)).map fun v => fillUp (columns (c.map (optional stringList))) "" ((rowList v).map cellStr)))],
        [(k, columns (c.map (optional stringList))), (lengthName k,
          (((((c.map (optional stringList)).flatMap fun v => (rowList v).map fun s => (cellStr s).length).filter (· ≠ 0)).max?).getD 0 + 1))],
        .inr ⟨_, rfl, ?_⟩, by simp, by simp [dimNames], ?_⟩
      · simp only [readVar]
        rw [List.map_map, List.map_map]
        refine congrArg _ (List.map_congr_left fun t _ => ?_)
        simp only [Function.comp_apply, stringList, fillUp]
        rw [rowList_tags, hcol]
      · intro g h1 h2 h3
        rw [hstep]
        unfold saveStr2
        simp only
        rw [if_neg hlen, createDim_ok _ fun e he hn => h1 e he (by rw [hn]; simp [dimNames])]
        simp only
        rw [createDim_ok]
        · simp only
          rw [createVar_ok _ (by simpa [Group.vars] using h2) (by simpa [Group.groups] using h3)]
          simp [Group.attrs, Group.dims, Group.vars, Group.groups]
        · intro e he
          simp only [Group.dims, List.mem_append, List.mem_singleton] at he
          rcases he with he | he
          · exact fun hn => h1 e (by simpa [Group.dims] using he) (by rw [hn]; simp [dimNames])
          · rw [he]; exact (length_ne k).symm

/-! ### All columns -/

theorem save_all {l : List Value} {R : String → List Value} : ∀ {keys : List String} {g : Group}, KeysOk keys →
    (∀ k ∈ keys, ∃ c, ColumnOf k l c ∧ Saved k c (R k)) →
    (∀ k ∈ keys, (∀ e ∈ g.dims, e.1 ∉ dimNames k) ∧ ∀ e ∈ g.vars, e.1 ≠ k) → g.groups = [] →
    ∃ (vs : List (String × Var)) (ds : List (String × Nat)), saveColumns l g keys = .ok (.mk g.attrs (g.dims ++ ds) (g.vars ++ vs) []) ∧
      (∀ d ∈ ds, ∃ k ∈ keys, d.1 ∈ dimNames k) ∧ (∀ e ∈ vs, e.1 ∈ keys ∧ readVar e.2 = .list (R e.1)) ∧
      ∀ k ∈ keys, (∃ x, (k, x) ∈ vs) ∨ R k = []
  | [], g, _, _, _, hg => ⟨[], [], by cases g; simp [Group.groups] at hg; subst hg; simp [saveColumns, Group.attrs, Group.dims, Group.vars], by simp, by simp, by simp⟩
  | k :: keys, g, hk, hc, hf, hg => by
    obtain ⟨c, h1, vs, ds, a1, _, a2, a3⟩ := hc k (by simp)
    have hk2 := List.pairwise_cons.1 hk.2
    have a3 := a3 g (hf k (by simp)).1 (hf k (by simp)).2 (by rw [hg]; simp)
    rw [hg] at a3
    have hvk : ∀ e ∈ vs, e.1 = k := by
      rcases a1 with ⟨h, _⟩ | ⟨x, h, _⟩ <;> rw [h] <;> simp
    obtain ⟨vs', ds', b1, b2, b3, b4⟩ := save_all (R := R) (keys := keys) (g := .mk g.attrs (g.dims ++ ds) (g.vars ++ vs) [])
      ⟨fun x hx => hk.1 x (by simp [hx]), hk2.2⟩ (fun x hx => hc x (by simp [hx]))
      (fun k' hk' => by
        refine ⟨?_, ?_⟩
        · intro e he
          rcases List.mem_append.1 he with he | he
          · exact (hf k' (by simp [hk'])).1 e he
          · exact hk2.1 k' hk' _ (a2 e he)
        · intro e he
          rcases List.mem_append.1 he with he | he
          · exact (hf k' (by simp [hk'])).2 e he
          · rw [hvk e he]
            exact fun h => hk2.1 k' hk' k (self_dim k) (h ▸ self_dim k)) rfl
    refine ⟨vs ++ vs', ds ++ ds', ?_, ?_, ?_, ?_⟩
    · rw [saveColumns, column_mapM h1]
      simp only
      rw [a3]
      simp only
      rw [b1]
      simp [Group.attrs, Group.dims, Group.vars]
    · intro d hd
      rcases List.mem_append.1 hd with hd | hd
      · exact ⟨k, by simp, a2 d hd⟩
      · obtain ⟨k', h, h'⟩ := b2 d hd
        exact ⟨k', by simp [h], h'⟩
    · intro e he
      rcases List.mem_append.1 he with he | he
      · rcases a1 with ⟨h, _⟩ | ⟨x, h, hr⟩
        · rw [h] at he; simp at he
        · rw [h] at he
          simp at he
          subst he
          exact ⟨by simp, hr⟩
      · obtain ⟨h, h'⟩ := b3 e he
        exact ⟨by simp [h], h'⟩
    · intro k' hk'
      rcases List.mem_cons.1 hk' with rfl | hk'
      · rcases a1 with ⟨_, h⟩ | ⟨x, h, _⟩
        · exact .inr h
        · exact .inl ⟨x, by rw [h]; simp⟩
      · rcases b4 k' hk' with ⟨x, hx⟩ | h
        · exact .inl ⟨x, by simp [hx]⟩
        · exact .inr h

/-- A class whose parameters are all None by default. -/
def PlainClass (C : Classes) (c : String) (names : List String) : Prop := C c = some (names.map fun n => ⟨n, some .none, none⟩)

/-- Instances of such a class, in a list: each attribute is what is read at the position, None if there is nothing. -/
theorem records_exact {C : Classes} {c : String} {keys : List String} {l : List Value} {R : String → List Value} (hC : PlainClass C c keys)
    (hk : KeysOk keys) (hne : l ≠ []) (hl : ∀ v ∈ l, ∃ f, v = .obj (some c) f ∧ f.map (·.1) = keys)
    (hc : ∀ k ∈ keys, ∃ col, ColumnOf k l col ∧ Saved k col (R k)) :
    ∃ sub, (∀ g key, saveSimpleList g key l = addGroup g key sub) ∧
      load C sub = .ok (.list ((List.range l.length).map fun i => .obj (some c) (keys.map fun k => (k, ((R k)[i]?).getD .none)))) := by
  obtain ⟨vs, ds, h1, h2, h3, h4⟩ := save_all (g := .mk (classAttrs (some c)) [(listCount, l.length)] [] []) hk hc (by
    intro k hkm
    refine ⟨?_, by simp [Group.vars]⟩
    intro e he
    simp [Group.dims] at he
    rw [he]
    exact (hk.1 k hkm).2.2.2) rfl
  simp only [Group.attrs, Group.dims, Group.vars, List.nil_append] at h1
  have hR : ∀ k ∈ keys, (R k).length ≤ l.length := by
    intro k hkm
    obtain ⟨col, hcol, _, _, _, hle, _⟩ := hc k hkm
    rw [(column_get hcol).1] at hle
    exact hle
  obtain ⟨v0, l', rfl⟩ := List.exists_cons_of_ne_nil hne
  obtain ⟨f0, rfl, hf0⟩ := hl v0 (by simp)
  have hsave : ∀ g key, saveSimpleList g key (.obj (some c) f0 :: l') = addGroup g key
      (.mk (classAttrs (some c)) ([(listCount, (Value.obj (some c) f0 :: l').length)] ++ ds) vs []) := by
    intro g key
    unfold saveSimpleList
    simp only
    rw [hf0, h1]
  generalize hL : Value.obj (some c) f0 :: l' = L at *
  refine ⟨.mk (classAttrs (some c)) ([(listCount, L.length)] ++ ds) vs [], hsave, ?_⟩
  rw [load]
  have hdim : dictGet ([(listCount, L.length)] ++ ds) listCount = some L.length := by
    refine dictGet_unique (by simp) ?_
    intro x hx
    rcases List.mem_append.1 hx with hx | hx
    · simpa using hx
    · obtain ⟨k, hkm, hd⟩ := h2 _ hx
      exact absurd hd (hk.1 k hkm).2.2.2
  rw [hdim]
  simp only
  obtain ⟨rs, r1, r2, r3⟩ := readRecords_ok (vars := vs) (rs := List.replicate L.length ((classAttrs (some c)).map fun kv => (kv.1, Value.scalar kv.2)))
    (fun e he => ⟨_, (h3 e he).2, by rw [List.length_replicate]; exact hR _ (h3 e he).1⟩)
  rw [r1]
  simp only
  rw [List.length_replicate] at r2
  have hone : ∀ (i : Nat) r, rs[i]? = some r → makeObject C r = .ok (.obj (some c) (keys.map fun k => (k, ((R k)[i]?).getD .none))) := by
    intro i r hr
    have hi : i < L.length := by
      have := (List.getElem?_eq_some_iff.1 hr).1
      omega
    obtain ⟨r', hr', hmem⟩ := r3 i ((classAttrs (some c)).map fun kv => (kv.1, Value.scalar kv.2)) (by simp [hi])
    rw [hr] at hr'
    cases hr'
    have hcls : dictGet r classId = some (.scalar (.str c)) := by
      refine dictGet_unique ((hmem _).2 (.inl (by simp [classAttrs]))) ?_
      intro x hx
      rcases (hmem _).1 hx with h' | ⟨y, ws, hy, _⟩
      · simpa [classAttrs] using h'
      · exact absurd rfl (hk.1 _ (h3 _ hy).1).2.1
    have hget : ∀ k ∈ keys, dictGet (r.filter fun kv => decide (kv.1 ≠ classId) && decide (kv.1 ≠ "Conventions")) k = (R k)[i]? := by
      intro k hkm
      rw [dictGet_filter (by intro x; simp [(hk.1 k hkm).2.1, (hk.1 k hkm).2.2.1])]
      have hval : ∀ w, (k, w) ∈ r → (R k)[i]? = some w := by
        intro w hw
        rcases (hmem _).1 hw with h' | ⟨y, ws, hy, hr1, hr2⟩
        · simp [classAttrs] at h'
          exact absurd h'.1 (hk.1 k hkm).2.1
        · have := (h3 _ hy).2
          rw [hr1] at this
          cases this
          exact hr2
      cases hd : dictGet r k with
      | some w => exact (hval w (mem_of_dictGet hd)).symm
      | none =>
        cases hRi : (R k)[i]? with
        | none => rfl
        | some w =>
          exfalso
          rcases h4 k hkm with ⟨x, hx⟩ | h
          · exact dictGet_none_iff.1 hd (k, w) ((hmem _).2 (.inr ⟨x, R k, hx, (h3 _ hx).2, hRi⟩)) rfl
          · rw [h] at hRi; simp at hRi
    unfold makeObject
    rw [hcls]
    simp only
    unfold make
    rw [hC]
    simp only
    rw [if_neg ?_]
    · have hmm : ∀ ks : List String, (∀ k ∈ ks, k ∈ keys) → (ks.map fun n => (⟨n, some .none, none⟩ : Param)).mapM
          (argument (r.filter fun kv => decide (kv.1 ≠ classId) && decide (kv.1 ≠ "Conventions"))) =
          .ok (ks.map fun k => (k, ((R k)[i]?).getD .none)) := by
        intro ks hks
        induction ks with
        | nil => rfl
        | cons k ks ih =>
          have ha : argument (r.filter fun kv => decide (kv.1 ≠ classId) && decide (kv.1 ≠ "Conventions")) ⟨k, some .none, none⟩ =
              .ok (k, ((R k)[i]?).getD .none) := by
            unfold argument
            simp only
            rw [hget k (hks k (by simp))]
            cases (R k)[i]? <;> rfl
          rw [List.map_cons, List.mapM_cons, ha, ih fun k hk => hks k (by simp [hk])]
          rfl
      have := hmm keys fun _ h => h
      rw [this]
    · intro h
      rw [List.any_eq_true] at h
      obtain ⟨e, he, hn⟩ := h
      obtain ⟨he1, he2⟩ := List.mem_filter.1 he
      simp at he2
      simp only [List.map_map, Function.comp_def, List.map_id', Bool.not_eq_true', List.contains_eq_mem, decide_eq_false_iff_not] at hn
      rcases (hmem e).1 he1 with h' | ⟨y, ws, hy, _⟩
      · simp [classAttrs] at h'
        exact he2.1 (by rw [h'])
      · exact hn (h3 _ hy).1
  have hmm : rs.mapM (makeObject C) = .ok ((List.range L.length).map fun i => .obj (some c) (keys.map fun k => (k, ((R k)[i]?).getD .none))) := by
    obtain ⟨ws, hws⟩ := mapM_total (f := makeObject C) (l := rs) (fun r hr => by
      obtain ⟨i, hi⟩ := List.getElem?_of_mem hr
      exact ⟨_, hone i r hi⟩)
    rw [hws]
    obtain ⟨w1, w2⟩ := mapM_ok hws
    congr 1
    apply List.ext_getElem?
    intro i
    by_cases hi : i < rs.length
    · obtain ⟨b, hb, hm⟩ := w2 i _ (List.getElem?_eq_getElem hi)
      rw [hone i _ (List.getElem?_eq_getElem hi)] at hm
      cases hm
      rw [hb, List.getElem?_map, List.getElem?_range (by omega)]
      rfl
    · rw [List.getElem?_eq_none (by omega), List.getElem?_eq_none (by simp; omega)]
  rw [hmm]

/-! ### Names -/

theorem decimal_last (n : Nat) : ∃ d m, decimal n = d ++ [digit m] := by
  rw [decimal]
  split
  · exact ⟨[], n, rfl⟩
  · exact ⟨_, n, rfl⟩

/-- A name whose last character is not a digit is not that of an element of a list. -/
theorem plain_of_last {k : String} {c : Char} (h : k.toList.getLast? = some c) (hc : ∀ m, c ≠ digit m) : Plain k := by
  intro x i hx
  obtain ⟨d, m, hd⟩ := decimal_last i
  rw [hx] at h
  unfold itemName at h
  rw [String.toList_append, String.toList_ofList, hd, ← List.append_assoc, ← List.append_assoc, List.getLast?_concat] at h
  exact hc m (Option.some.inj h).symm

theorem digit_cases (m : Nat) : digit m ∈ ['0', '1', '2', '3', '4', '5', '6', '7', '8', '9'] := by
  unfold digit
  have : m % 10 < 10 := Nat.mod_lt _ (by norm_num)
  generalize m % 10 = r at this
  interval_cases r <;> decide

theorem not_digit {c : Char} (h : c ∉ ['0', '1', '2', '3', '4', '5', '6', '7', '8', '9']) (m : Nat) : c ≠ digit m := fun e => h (e ▸ digit_cases m)

/-- Names of the attributes of a file entry. -/
def entryKeys : List String := ["name", "time", "tags", "checksum", "size"]

theorem entryKeys_ok : KeysOk entryKeys := by
  refine ⟨?_, by decide⟩
  intro k hk
  simp only [entryKeys, List.mem_cons, List.not_mem_nil, or_false] at hk
  rcases hk with rfl | rfl | rfl | rfl | rfl
  all_goals
    refine ⟨plain_of_last rfl (not_digit (by decide)), by decide, by decide, by decide⟩

/-! ### File entries -/

theorem columnOf_entries {α : Type} {l : List α} {v : α → Value} {k : String} {x : α → Value}
    (h : ∀ a, ∃ cls f, v a = .obj cls f ∧ dictGet f k = some (x a)) : ColumnOf k (l.map v) (l.map x) := by
  unfold ColumnOf
  induction l with
  | nil => exact .nil
  | cons a l ih => exact .cons (h a) ih

theorem range_get {α : Type} (n i : Nat) (f : Nat → α) : ((List.range n).map f)[i]? = if i < n then some (f i) else none := by
  by_cases h : i < n
  · rw [if_pos h, List.getElem?_map, List.getElem?_range h]
    rfl
  · rw [if_neg h, List.getElem?_eq_none (by simpa using h)]

/-- The columns which are saved. -/
def entrySaved (l : List FileEntry) (k : String) : List Value :=
  if k = "name" then
    (if ∀ s ∈ l.map (·.name), s = none then [] else (l.map (·.name)).map fun s => .scalar (.str (s.getD "")))
  else if k = "time" then (l.map (·.time)).reduceOption.map fun t => .scalar (.time t)
  else if k = "tags" then
    (if ∀ t ∈ l.map (·.tags), ∀ s ∈ t.getD [], s = "" then []
     else (l.map (·.tags)).map fun t =>
      stringList (t.getD [] ++ List.replicate ((((l.map (·.tags)).map fun t => (t.getD []).length).max?).getD 0 - (t.getD []).length) ""))
  else if k = "checksum" then
    (if ∀ s ∈ l.map (·.checksum), s = none then [] else (l.map (·.checksum)).map fun s => .scalar (.str (s.getD "")))
  else (l.map (·.size)).reduceOption.map fun t => .scalar (.int t)

theorem entry_columns {l : List FileEntry} (hok : ∀ e ∈ l, e.Ok) (k : String) (hk : k ∈ entryKeys) :
    ∃ c, ColumnOf k (l.map FileEntry.value) c ∧ Saved k c (entrySaved l k) := by
  simp only [entryKeys, List.mem_cons, List.not_mem_nil, or_false] at hk
  rcases hk with rfl | rfl | rfl | rfl | rfl
  · refine ⟨_, columnOf_entries fun e => ⟨_, _, rfl, rfl⟩, ?_⟩
    simpa [entrySaved, Function.comp_def] using saved_strings "name" (l.map (·.name))
  · refine ⟨_, columnOf_entries fun e => ⟨_, _, rfl, rfl⟩, ?_⟩
    have := saved_numbers "time" (l.map (·.time)) Scalar.time .time (.inr rfl) (by
      intro t ht
      obtain ⟨e, he, het⟩ := List.mem_map.1 ht
      exact ⟨rfl, (hok e he).1 t het⟩)
    simpa [entrySaved, Function.comp_def] using this
  · refine ⟨_, columnOf_entries fun e => ⟨_, _, rfl, rfl⟩, ?_⟩
    have := saved_tags "tags" (l.map (·.tags))
    rw [List.map_map] at this
    exact this
  · refine ⟨_, columnOf_entries fun e => ⟨_, _, rfl, rfl⟩, ?_⟩
    simpa [entrySaved, Function.comp_def] using saved_strings "checksum" (l.map (·.checksum))
  · refine ⟨_, columnOf_entries fun e => ⟨_, _, rfl, rfl⟩, ?_⟩
    have := saved_numbers "size" (l.map (·.size)) Scalar.int .int (.inl rfl) (by
      intro t ht
      obtain ⟨e, he, het⟩ := List.mem_map.1 ht
      exact ⟨rfl, (hok e he).2 t het⟩)
    simpa [entrySaved, Function.comp_def] using this

theorem entry_simple (e : FileEntry) : noneOrSimple e.value = true := by
  have h1 : ∀ {α : Type} (f : α → Scalar) (o : Option α), simpleMember (optional (fun s => .scalar (f s)) o) = true := by
    intro α f o
    cases o <;> rfl
  have h2 : simpleMember (optional stringList e.tags) = true := by
    cases e.tags with
    | none => rfl
    | some r =>
      have : listOf .str (r.map fun s => Value.scalar (.str s)) = true := by
        unfold listOf
        rw [List.all_eq_true]
        intro v hv
        obtain ⟨s, _, rfl⟩ := List.mem_map.1 hv
        simp [noneOr, Scalar.kind]
      simp [optional, stringList, simpleMember, listOfSimple, this]
  simp [FileEntry.value, entry, noneOrSimple, simpleFields, h1, h2]

theorem strings_get (c : List (Option String)) (i : Nat) (hi : i < c.length) :
    ((if ∀ s ∈ c, s = none then [] else c.map fun s => Value.scalar (.str (s.getD "")))[i]?).getD .none =
      optional (fun s => .scalar (.str s)) (stringAt c i) := by
  unfold stringAt
  by_cases h : ∀ s ∈ c, s = none
  · rw [if_pos h, if_pos h]; rfl
  · rw [if_neg h, if_neg h, List.getElem?_map, List.getElem?_eq_getElem hi]; rfl

theorem numbers_get {α : Type} (c : List (Option α)) (f : α → Scalar) (i : Nat) :
    ((c.reduceOption.map fun a => Value.scalar (f a))[i]?).getD .none = optional (fun a => .scalar (f a)) (numberAt c i) := by
  unfold numberAt
  rw [List.getElem?_map]
  cases c.reduceOption[i]? <;> rfl

theorem tags_get (c : List (Option (List String))) (i : Nat) (hi : i < c.length) :
    ((if ∀ t ∈ c, ∀ s ∈ t.getD [], s = "" then [] else c.map fun t =>
      stringList (t.getD [] ++ List.replicate (((c.map fun t => (t.getD []).length).max?).getD 0 - (t.getD []).length) ""))[i]?).getD .none =
      optional stringList (tagsAt c i) := by
  unfold tagsAt
  by_cases h : ∀ t ∈ c, ∀ s ∈ t.getD [], s = ""
  · rw [if_pos h, if_pos h]; rfl
  · rw [if_neg h, if_neg h, List.getElem?_map, List.getElem?_eq_getElem hi]; rfl

/-- **C19.** What loading gives for a list of file entries saved anywhere in a catalogue, whatever fields are None: names and checksums which are
None come back as empty strings unless all are None; times and sizes which are not None are given to the first entries in turn, whichever
entries they were of; tags are filled up to the longest with empty strings, and lost if there are only empty strings. -/
theorem c19_entries {l : List FileEntry} (hne : l ≠ []) (hok : ∀ e ∈ l, e.Ok) :
    ∃ sub, load catalogueClasses sub = .ok (.list ((List.range l.length).map fun i => (loadedEntry l i).value)) ∧
      ∀ (g : Group) (key : String), (∀ e ∈ g.vars, e.1 ≠ key) → (∀ e ∈ g.groups, e.1 ≠ key) →
        saveObject g key (.list (l.map FileEntry.value)) = .ok (.mk g.attrs g.dims g.vars (g.groups ++ [(key, sub)])) := by
  obtain ⟨sub, h1, h2⟩ := records_exact (C := catalogueClasses) (c := "eumopps.catalogue.dataset.CatalogueFileEntry") (keys := entryKeys)
    (l := l.map FileEntry.value) (R := entrySaved l) rfl entryKeys_ok (by simpa using hne) (by
      intro v hv
      obtain ⟨e, _, rfl⟩ := List.mem_map.1 hv
      exact ⟨_, rfl, rfl⟩) (fun k hk => entry_columns hok k hk)
  refine ⟨sub, ?_, ?_⟩
  · rw [h2, List.length_map]
    congr 2
    refine List.map_congr_left fun i hi => ?_
    have hi : i < l.length := List.mem_range.1 hi
    have e1 := strings_get (l.map (·.name)) i (by simpa using hi)
    have e2 := numbers_get (l.map (·.time)) Scalar.time i
    have e3 := tags_get (l.map (·.tags)) i (by simpa using hi)
    have e4 := strings_get (l.map (·.checksum)) i (by simpa using hi)
    have e5 := numbers_get (l.map (·.size)) Scalar.int i
    unfold FileEntry.value loadedEntry entry
    simp only
    rw [← e1, ← e2, ← e3, ← e4, ← e5]
    rfl
  · intro g key hv hg
    obtain ⟨e, he⟩ := List.exists_mem_of_ne_nil l hne
    have hem : e.value ∈ l.map FileEntry.value := List.mem_map_of_mem he
    rw [saveObject, if_neg (by simpa using hne), if_neg (by rw [valueList_object (cls := _) (f := _) hem]; simp), if_pos (by
      rw [List.all_eq_true]
      intro v hv
      obtain ⟨e, _, rfl⟩ := List.mem_map.1 hv
      exact entry_simple e), h1, addGroup_ok _ hv hg]

/-! ### When nothing is lost -/

/-- Strings which come back: all None, or none. -/
def StringsKept (c : List (Option String)) : Prop := (∀ s ∈ c, s = none) ∨ ∀ s ∈ c, s ≠ none

/-- Numbers and times which come back: None only after all others. -/
def NumbersKept {α : Type} (c : List (Option α)) : Prop := c.Pairwise fun a b => a = none → b = none

/-- Tags which come back: all None, or lists of one length with a string which is not empty. -/
def TagsKept (c : List (Option (List String))) : Prop :=
  (∀ t ∈ c, t = none) ∨ ∃ m, (∀ t ∈ c, ∃ r, t = some r ∧ r.length = m) ∧ ∃ r, some r ∈ c ∧ ∃ s ∈ r, s ≠ ""

theorem strings_kept (c : List (Option String)) : (∀ i x, c[i]? = some x → stringAt c i = x) ↔ StringsKept c := by
  unfold stringAt StringsKept
  constructor
  · intro h
    by_cases hn : ∀ s ∈ c, s = none
    · exact .inl hn
    · refine .inr fun s hs => ?_
      obtain ⟨i, hi⟩ := List.getElem?_of_mem hs
      have := h i s hi
      rw [if_neg hn] at this
      rw [← this]; simp
  · intro h i x hx
    have hm := List.mem_of_getElem? hx
    rcases h with h | h
    · rw [if_pos h, h x hm]
    · rw [if_neg (fun hh => h x hm (hh x hm)), hx]
      obtain ⟨s, rfl⟩ := Option.ne_none_iff_exists'.1 (h x hm)
      rfl

theorem numbers_kept {α : Type} (c : List (Option α)) : (∀ i x, c[i]? = some x → numberAt c i = x) ↔ NumbersKept c := by
  unfold numberAt NumbersKept
  induction c with
  | nil => simp
  | cons a c ih =>
    rw [List.pairwise_cons, ← ih]
    cases a with
    | some a =>
      rw [List.reduceOption_cons_of_some]
      constructor
      · intro h
        refine ⟨by simp, fun i x hx => ?_⟩
        simpa using h (i + 1) x (by simpa using hx)
      · intro h i x hx
        cases i with
        | zero => simpa using hx
        | succ i => simpa using h.2 i x (by simpa using hx)
    | none =>
      rw [List.reduceOption_cons_of_none]
      have key : c.reduceOption = [] ↔ ∀ b ∈ c, b = none := by
        rw [List.eq_nil_iff_forall_not_mem]
        constructor
        · intro h b hb
          cases b with
          | none => rfl
          | some b => exact absurd (List.reduceOption_mem_iff.2 hb) (h b)
        · intro h b hb
          cases h _ (List.reduceOption_mem_iff.1 hb)
      constructor
      · intro h
        have h0 : c.reduceOption = [] := by
          have := h 0 none rfl
          simpa [List.getElem?_eq_none_iff] using this
        have hall := key.1 h0
        refine ⟨fun b hb _ => hall b hb, fun i x hx => ?_⟩
        rw [h0, hall x (List.mem_of_getElem? hx)]; rfl
      · rintro ⟨h, _⟩ i x hx
        have hall : ∀ b ∈ c, b = none := fun b hb => h b hb rfl
        rw [key.2 hall]
        cases i with
        | zero => simpa using hx
        | succ i => rw [hall x (List.mem_of_getElem? (by simpa using hx))]; rfl

theorem tags_kept (c : List (Option (List String))) : (∀ i x, c[i]? = some x → tagsAt c i = x) ↔ TagsKept c := by
  unfold tagsAt TagsKept
  constructor
  · intro h
    by_cases hn : ∀ t ∈ c, ∀ s ∈ t.getD [], s = ""
    · refine .inl fun t ht => ?_
      obtain ⟨i, hi⟩ := List.getElem?_of_mem ht
      rw [← h i t hi, if_pos hn]
    · refine .inr ⟨((c.map fun t => (t.getD []).length).max?).getD 0, ?_, ?_⟩
      · intro t ht
        obtain ⟨i, hi⟩ := List.getElem?_of_mem ht
        have he := h i t hi
        rw [if_neg hn, hi] at he
        refine ⟨_, he.symm, ?_⟩
        have hle : (t.getD []).length ≤ ((c.map fun t => (t.getD []).length).max?).getD 0 := by
          have hm : (t.getD []).length ∈ c.map fun t => (t.getD []).length := List.mem_map_of_mem ht
          cases hx : (c.map fun t => (t.getD []).length).max? with
          | none => rw [List.max?_eq_none_iff] at hx; rw [hx] at hm; simp at hm
          | some m => exact (List.max?_eq_some_iff.1 hx).2 _ hm
        simp only [Option.bind_some, id_eq, List.length_append, List.length_replicate]
        omega
      · push Not at hn
        obtain ⟨t, ht, s, hs, hne⟩ := hn
        cases t with
        | none => simp at hs
        | some r => exact ⟨r, ht, s, hs, hne⟩
  · intro h i x hx
    have hm := List.mem_of_getElem? hx
    rcases h with h | ⟨m, h, r, hr, s, hs, hne⟩
    · rw [if_pos (by intro t ht; rw [h t ht]; simp), h x hm]
    · rw [if_neg (fun hh => hne (hh _ hr s hs)), hx]
      obtain ⟨y, rfl, hy⟩ := h x hm
      have hmax : ((c.map fun t => (t.getD []).length).max?).getD 0 = m := by
        have : (c.map fun t => (t.getD []).length).max? = some m := by
          rw [List.max?_eq_some_iff]
          refine ⟨List.mem_map.2 ⟨_, hm, hy⟩, ?_⟩
          intro b hb
          obtain ⟨t, ht, rfl⟩ := List.mem_map.1 hb
          obtain ⟨z, rfl, hz⟩ := h t ht
          exact hz.le
        rw [this]; rfl
      simp [hmax, hy]

/-- **C19.** The entries come back as they were saved exactly if these conditions on the fields hold. -/
theorem c19_entries_iff (l : List FileEntry) :
    (List.range l.length).map (loadedEntry l) = l ↔
      StringsKept (l.map (·.name)) ∧ NumbersKept (l.map (·.time)) ∧ TagsKept (l.map (·.tags)) ∧ StringsKept (l.map (·.checksum)) ∧
        NumbersKept (l.map (·.size)) := by
  rw [← strings_kept, ← numbers_kept, ← tags_kept, ← strings_kept, ← numbers_kept]
  have key : ∀ {α : Type} (f : FileEntry → α) (x : Nat → α),
      (∀ i y, (l.map f)[i]? = some y → x i = y) ↔ ∀ i e, l[i]? = some e → x i = f e := by
    intro α f x
    constructor
    · intro h i e he
      exact h i _ (by rw [List.getElem?_map, he]; rfl)
    · intro h i y hy
      rw [List.getElem?_map] at hy
      cases he : l[i]? with
      | none => rw [he] at hy; cases hy
      | some e => rw [he] at hy; rw [h i e he]; exact Option.some.inj hy
  rw [key, key, key, key, key]
  constructor
  · intro h
    have h' : ∀ i e, l[i]? = some e → loadedEntry l i = e := by
      intro i e he
      have : ((List.range l.length).map (loadedEntry l))[i]? = l[i]? := by rw [h]
      rw [range_get, if_pos (List.getElem?_eq_some_iff.1 he).1, he] at this
      exact Option.some.inj this
    exact ⟨fun i e he => congrArg FileEntry.name (h' i e he), fun i e he => congrArg FileEntry.time (h' i e he),
      fun i e he => congrArg FileEntry.tags (h' i e he), fun i e he => congrArg FileEntry.checksum (h' i e he),
      fun i e he => congrArg FileEntry.size (h' i e he)⟩
  · rintro ⟨h1, h2, h3, h4, h5⟩
    apply List.ext_getElem?
    intro i
    rw [range_get]
    by_cases hi : i < l.length
    · have he := List.getElem?_eq_getElem hi
      rw [if_pos hi, he, loadedEntry, h1 i _ he, h2 i _ he, h3 i _ he, h4 i _ he, h5 i _ he]
    · rw [if_neg hi, List.getElem?_eq_none (by omega)]

/-! ### What is lost -/

/-- **C19, negative result.** The size of the second file becomes that of the first, if that of the first is None.  The checksum of the second
becomes an empty string. -/
theorem c19_shift_violated (a b c : String) (n : Int) (hn : n ≠ fillInt) :
    ∃ g w, saveFile (.obj none [("matches", .list [(FileEntry.mk (some a) none none (some c) none).value,
        (FileEntry.mk (some b) none none none (some n)).value])]) = .ok g ∧ load catalogueClasses g = .ok w ∧
      Same w (.obj none [("Conventions", .scalar (.str "CF-1.6")), ("matches", .list [(FileEntry.mk (some a) none none (some c) (some n)).value,
        (FileEntry.mk (some b) none none (some "") none).value])]) := by
  obtain ⟨sub, h1, h2⟩ := c19_entries (l := [⟨some a, none, none, some c, none⟩, ⟨some b, none, none, none, some n⟩]) (by simp) (by
    intro e he
    simp only [List.mem_cons, List.not_mem_nil, or_false] at he
    rcases he with rfl | rfl
    · exact ⟨by simp, by simp⟩
    · exact ⟨by simp, by intro m hm; cases hm; exact hn⟩)
  have hl : ((List.range 2).map fun i => (loadedEntry [⟨some a, none, none, some c, none⟩, ⟨some b, none, none, none, some n⟩] i).value) =
      [(FileEntry.mk (some a) none none (some c) (some n)).value, (FileEntry.mk (some b) none none (some "") none).value] := by
    simp [List.range_succ, loadedEntry, stringAt, numberAt, tagsAt, List.reduceOption]
  refine ⟨.mk [("Conventions", .str "CF-1.6")] [] [] [("matches", sub)], _, ?_, ?_, same_refl _⟩
  · unfold saveFile
    simp only
    rw [saveFields]
    have := h2 (.mk (("Conventions", .str "CF-1.6") :: classAttrs none) [] [] []) "matches" (by simp [Group.vars]) (by simp [Group.groups])
    simp only [List.map_cons, List.map_nil] at this
    rw [this]
    rfl
  · rw [load]
    have : dictGet ([] : List (String × Nat)) listCount = none := rfl
    rw [this]
    simp only
    rw [loadGroups, loadGroups, h1]
    simp only [List.length_cons, List.length_nil]
    rw [hl]
    rfl

/-- **C19, negative result.** A list of lists of strings cannot be saved as an attribute of an object, unless all are empty: the name is given to two
dimensions.  (Files found for a data set but not matched are such lists, dataset.py 127-131.) -/
theorem c19_strings_violated (g : Group) (k : String) (l : List (List String)) (r : List String) (hr : r ∈ l) (s : String) (hs : s ∈ r) (hne : s ≠ "") :
    saveObject g k (.list (l.map stringList)) = .error .runtimeError := by
  have hmem : Value.list (r.map fun s => .scalar (.str s)) ∈ l.map stringList := List.mem_map.2 ⟨r, hr, rfl⟩
  have hlne : l.map stringList ≠ [] := List.ne_nil_of_mem hmem
  have hl : ∀ K, listOf K (l.map stringList) = false := fun K => listOf_false K hmem rfl
  have hnn : ¬ (l.map stringList).all isNone = true := by
    rw [allNone_iff]
    intro hh
    cases hh _ hmem
  have ht : list2dOf .str (l.map stringList) = true := by
    unfold list2dOf
    rw [List.all_eq_true]
    intro v hv
    obtain ⟨t, _, rfl⟩ := List.mem_map.1 hv
    simp only [stringList, rowOf, listOf, List.all_eq_true]
    intro x hx
    obtain ⟨s, _, rfl⟩ := List.mem_map.1 hx
    simp [noneOr, Scalar.kind]
  have hlen : (((l.map stringList).flatMap fun v => (rowList v).map fun s => (cellStr s).length).filter (· ≠ 0)) ≠ [] := by
    intro he
    rw [List.filter_eq_nil_iff] at he
    have := he s.length (List.mem_flatMap.2 ⟨_, hmem, by
      simp only [rowList, List.map_map, List.mem_map]
      exact ⟨s, hs, rfl⟩⟩)
    exact this (by simpa using hne)
  rw [saveObject, if_neg (by simpa using hlne), if_pos (by simp [valueList, ht])]
  unfold saveValues
  cases hc : createDim g k (l.map stringList).length with
  | error e =>
    simp only
    unfold createDim at hc
    split at hc
    · cases hc; rfl
    · cases hc
  | ok g' =>
    simp only
    unfold createDim at hc
    split at hc
    · cases hc
    · cases hc
      unfold saveColumn
      rw [if_neg hnn, hl, hl, hl, hl, ht]
      simp only [if_true, if_false, Bool.false_eq_true]
      unfold saveStr2
      simp only
      rw [if_neg hlen]
      unfold createDim
      rw [if_pos (by simp [Group.dims])]

theorem member_like_object {g : Group} {k : String} {l : List Value} (hne : l ≠ []) (h : list2dOf .str l = true) :
    saveMember g k (.list l) = saveObject g k (.list l) := by
  rw [saveObject, if_neg (by simpa using hne), if_pos (by simp [valueList, h])]
  simp [saveMember, h]

theorem members_refused {k : String} {v : Value} (h : ∀ g, ∃ e, saveMember g k v = .error e) :
    ∀ (f : List (String × Value)) (g : Group), (k, v) ∈ f → ∃ e, saveMembers g f = .error e := by
  intro f
  induction f with
  | nil => intro g hm; cases hm
  | cons kv f ih =>
    obtain ⟨k', v'⟩ := kv
    intro g hm
    rw [saveMembers]
    cases hs : saveMember g k' v' with
    | error e => exact ⟨e, rfl⟩
    | ok g' =>
      rcases List.mem_cons.1 hm with e | hm
      · cases e
        obtain ⟨e, he⟩ := h g
        rw [he] at hs; cases hs
      · exact ih g' hm

theorem fields_refused {k : String} {v : Value} (h : ∀ g, ∃ e, saveObject g k v = .error e) :
    ∀ (f : List (String × Value)) (g : Group), (k, v) ∈ f → ∃ e, saveFields g f = .error e := by
  intro f
  induction f with
  | nil => intro g hm; cases hm
  | cons kv f ih =>
    obtain ⟨k', v'⟩ := kv
    intro g hm
    rw [saveFields]
    cases hs : saveObject g k' v' with
    | error e => exact ⟨e, rfl⟩
    | ok g' =>
      rcases List.mem_cons.1 hm with e | hm
      · cases e
        obtain ⟨e, he⟩ := h g
        rw [he] at hs; cases hs
      · exact ih g' hm

/-- **C19, negative result.** Nothing with such an attribute can be saved, neither an object of any class nor the whole catalogue: no file is
written without it. -/
theorem c19_strings_object_violated (f : List (String × Value)) (k : String) (l : List (List String)) (r : List String) (hr : r ∈ l) (s : String)
    (hs : s ∈ r) (hne : s ≠ "") (hf : (k, .list (l.map stringList)) ∈ f) (cls : Option String) :
    (∀ g key, ∃ e, saveObject g key (.obj cls f) = .error e) ∧ ∃ e, saveFile (.obj cls f) = .error e := by
  have ht : list2dOf .str (l.map stringList) = true := by
    unfold list2dOf
    rw [List.all_eq_true]
    intro v hv
    obtain ⟨t, _, rfl⟩ := List.mem_map.1 hv
    simp only [stringList, rowOf, listOf, List.all_eq_true]
    intro x hx
    obtain ⟨s, _, rfl⟩ := List.mem_map.1 hx
    simp [noneOr, Scalar.kind]
  have hl : l.map stringList ≠ [] := List.ne_nil_of_mem (List.mem_map.2 ⟨r, hr, rfl⟩)
  have ho : ∀ g, ∃ e, saveObject g k (.list (l.map stringList)) = .error e := fun g => ⟨_, c19_strings_violated g k l r hr s hs hne⟩
  have hm : ∀ g, ∃ e, saveMember g k (.list (l.map stringList)) = .error e := fun g => by
    rw [member_like_object hl ht]; exact ho g
  refine ⟨fun g key => ?_, fields_refused ho f _ hf⟩
  rw [saveObject]
  split
  · obtain ⟨e, he⟩ := members_refused hm f (.mk (classAttrs cls) [] [] []) hf
    exact ⟨e, by rw [he]⟩
  · obtain ⟨e, he⟩ := fields_refused ho f (.mk (classAttrs cls) [] [] []) hf
    exact ⟨e, by rw [he]⟩

/-- **C19, negative result.** An object with a time cannot be saved, if it has an attribute which is an object with another attribute. -/
theorem c19_time_violated (g : Group) (key : String) (cls : Option String) (k : String) (t : Int) (f : List (String × Value))
    (h : simpleFields f = false) : saveObject g key (.obj cls ((k, .scalar (.time t)) :: f)) = .error .typeError := by
  have hs : ¬ simpleFields ((k, .scalar (.time t)) :: f) = true := by
    unfold simpleFields at h ⊢
    rw [List.all_cons, h]
    simp
  rw [saveObject, if_neg hs, saveFields, saveObject]
  rfl

/-- **C19, negative result.** In a list of simple objects only the class of the first is kept: whatever the classes of the others, the same is saved. -/
theorem c19_class_violated (g : Group) (key : String) (cls c c' : Option String) (f f' : List (String × Value)) (l : List Value) :
    saveSimpleList g key (.obj cls f :: .obj c f' :: l) = saveSimpleList g key (.obj cls f :: .obj c' f' :: l) := by
  have hm : ∀ k, (Value.obj cls f :: .obj c f' :: l).mapM (member k) = (Value.obj cls f :: .obj c' f' :: l).mapM (member k) := by
    intro k
    rw [List.mapM_cons, List.mapM_cons, List.mapM_cons, List.mapM_cons]
    rfl
  have hc : ∀ (ks : List String) (h : Group), saveColumns (.obj cls f :: .obj c f' :: l) h ks = saveColumns (.obj cls f :: .obj c' f' :: l) h ks := by
    intro ks
    induction ks with
    | nil => intro h; rfl
    | cons k ks ih =>
      intro h
      rw [saveColumns, saveColumns, hm k]
      simp only [ih]
  unfold saveSimpleList
  simp only [List.length_cons, hc]

/-- **C19, negative result.** References to files for any number of operations, none of which has a file, can be saved but not loaded. -/
theorem c19_references_violated (n : Nat) :
    ∃ sub, saveObject (.mk [] [] [] []) "files" (.obj (some "eumopps.catalogue.operationparameters.OperationFileListReference")
        [("operation_parameters", .list (List.replicate n (.list [])))]) = .ok (.mk [] [] [] [("files", sub)]) ∧
      load catalogueClasses sub = .error .typeError := by
  have h2 : list2dOf .str (List.replicate n (.list [])) = true := by
    unfold list2dOf
    rw [List.all_eq_true]
    intro v hv
    rw [List.eq_of_mem_replicate hv]
    rfl
  refine ⟨.mk [(classId, .str "eumopps.catalogue.operationparameters.OperationFileListReference")] [("operation_parameters", n)] [] [], ?_, rfl⟩
  have hs : simpleFields [("operation_parameters", Value.list (List.replicate n (.list [])))] = true := by
    simp [simpleFields, simpleMember, h2]
  have hcol : ∀ g : Group, saveColumn g "operation_parameters" "operation_parameters" (List.replicate n (.list [])) = .ok g := by
    intro g
    unfold saveColumn
    cases n with
    | zero => rfl
    | succ n =>
      rw [if_neg (by simp [List.replicate_succ, isNone])]
      have hl : ∀ K, listOf K (List.replicate (n + 1) (.list [])) = false := fun K =>
        listOf_false K (r := []) (by simp [List.replicate_succ]) rfl
      rw [hl, hl, hl, hl, h2]
      simp only [if_true, if_false, Bool.false_eq_true]
      unfold saveStr2
      simp only
      rw [if_pos]
      rw [List.filter_eq_nil_iff]
      intro x hx
      obtain ⟨v, hv, hx⟩ := List.mem_flatMap.1 hx
      rw [List.eq_of_mem_replicate hv] at hx
      simp [rowList] at hx
  rw [saveObject, if_pos hs]
  unfold saveMembers saveMember
  simp only [h2, Bool.or_true, if_true]
  unfold saveValues createDim
  simp only [Group.dims, List.any_nil, Bool.false_eq_true, if_false, hcol, List.length_replicate, Group.attrs, Group.vars, Group.groups]
  rfl

/-! ### Cases which meet the hypotheses -/

theorem timeBase_bound : (timeBase : Int) % secUs = 0 ∧ (timeBase : Int) ≤ 366 * 1850 * dayUs := by
  have hy : ∀ y : Nat, daysBeforeYear y ≤ 366 * y := by
    intro y
    induction y with
    | zero => simp [daysBeforeYear]
    | succ y ih =>
      have : daysInYear y ≤ 366 := by unfold daysInYear; split <;> omega
      simp only [daysBeforeYear]
      omega
  have hn : (Date.number ⟨1850, 1, 1⟩) ≤ 366 * 1850 := by
    have := hy 1850
    unfold Date.number
    simp only [daysBeforeMonth]
    omega
  rw [timeBase]
  unfold midnight
  have hsu : (secUs : Int) = 1000000 := rfl
  have hdu : (dayUs : Int) = 86400000000 := rfl
  rw [hsu, hdu]
  generalize Date.number _ = n at hn ⊢
  omega

theorem year_cell (y : Nat) (h1 : 1 ≤ y) (h2 : y < 10000) : CellOk (.time (yearStart y)) := by
  obtain ⟨h0, hw, _⟩ := timeOk_year y h1 h2
  obtain ⟨b1, b2⟩ := timeBase_bound
  generalize yearStart y = t at *
  generalize ht : timeBase = T at *
  refine ⟨whole_mod.2 ?_, ?_⟩
  · rw [ht]
    have hsu : (secUs : Int) = 1000000 := rfl
    rw [hsu] at hw b1 ⊢
    omega
  · rw [ht, c13_number]
    have hsu : (secUs : Int) = 1000000 := rfl
    have hdu : (dayUs : Int) = 86400000000 := rfl
    rw [hdu] at b2
    rw [hsu]
    unfold fillInt
    omega

/-- A catalogue with one data set and no operations. -/
def exampleCatalogue : List (String × Value) :=
  [("datasets", .list [exampleSet]), ("identifier", .scalar (.str "id")), ("operations", .list [])]

example : ∃ g w, saveFile (.obj (some "eumopps.catalogue.catalogue.Catalogue") exampleCatalogue) = .ok g ∧ load catalogueClasses g = .ok w ∧
    Same (.obj (some "eumopps.catalogue.catalogue.Catalogue") exampleCatalogue) w := by
  have hkeys : ∀ {l : List String}, (∀ k ∈ l, ∃ c, k.toList.getLast? = some c ∧ c ∉ ['0', '1', '2', '3', '4', '5', '6', '7', '8', '9'] ∧
      k ≠ classId ∧ k ≠ "Conventions" ∧ listCount ∉ dimNames k) → (l.Pairwise fun k k' => ∀ d ∈ dimNames k, d ∉ dimNames k') → KeysOk l := by
    intro l h h'
    refine ⟨fun k hk => ?_, h'⟩
    obtain ⟨c, h1, h2, h3⟩ := h k hk
    exact ⟨plain_of_last h1 (not_digit h2), h3⟩
  have hnil : ∀ kv ∈ ([] : List (String × Value)), NetOk catalogueClasses kv.2 := by simp
  apply c19_round_trip_partial
  · apply hkeys
    · simp only [exampleCatalogue, List.map_cons, List.map_nil, List.forall_mem_cons]
      exact ⟨⟨_, rfl, by decide⟩, ⟨_, rfl, by decide⟩, ⟨_, rfl, by decide⟩, by simp⟩
    · decide
  · refine ⟨_, rfl, by decide, ?_⟩
    refine .cons ?_ (.cons ?_ (.cons ?_ .nil)) <;> exact ⟨rfl, rfl, fun _ => ⟨.none, by first | exact ⟨rfl, rfl⟩ | (exfalso; revert ‹_›; decide)⟩⟩
  · refine List.forall_mem_cons.2 ⟨.items ?_ ?_ ?_ ?_ ?_, List.forall_mem_cons.2 ⟨.str _, List.forall_mem_cons.2 ⟨.empty, hnil⟩⟩⟩
    · exact ⟨exampleSet, by simp, by decide⟩
    · simp [exampleSet, isObject]
    · intro cls f h
      cases List.mem_singleton.1 h
      apply hkeys
      · simp only [List.map_cons, List.map_nil, List.forall_mem_cons]
        exact ⟨⟨_, rfl, by decide⟩, ⟨_, rfl, by decide⟩, ⟨_, rfl, by decide⟩, ⟨_, rfl, by decide⟩, ⟨_, rfl, by decide⟩, by simp⟩
      · decide
    · intro cls f h
      cases List.mem_singleton.1 h
      refine ⟨_, rfl, by decide, ?_⟩
      refine .cons ?_ (.cons ?_ (.cons ?_ (.cons ?_ (.cons ?_ .nil)))) <;> exact ⟨rfl, rfl, fun _ => ⟨.none, by first | exact ⟨rfl, rfl⟩ | (exfalso; revert ‹_›; decide)⟩⟩
    · intro cls f h
      cases List.mem_singleton.1 h
      refine List.forall_mem_cons.2 ⟨.str _, List.forall_mem_cons.2 ⟨.str _, List.forall_mem_cons.2 ⟨.none, List.forall_mem_cons.2 ⟨.items ?_ ?_ ?_ ?_ ?_,
        List.forall_mem_cons.2 ⟨.none, hnil⟩⟩⟩⟩⟩
      · exact ⟨_, List.mem_singleton.2 rfl, by decide⟩
      · simp [isObject]
      · intro cls f h
        cases List.mem_singleton.1 h
        apply hkeys
        · simp only [List.map_cons, List.map_nil, List.forall_mem_cons]
          exact ⟨⟨_, rfl, by decide⟩, ⟨_, rfl, by decide⟩, ⟨_, rfl, by decide⟩, ⟨_, rfl, by decide⟩, by simp⟩
        · decide
      · intro cls f h
        cases List.mem_singleton.1 h
        refine ⟨_, rfl, by decide, ?_⟩
        refine .cons ?_ (.cons ?_ (.cons ?_ (.cons ?_ .nil))) <;> exact ⟨rfl, rfl, fun _ => ⟨.none, by first | exact ⟨rfl, rfl⟩ | (exfalso; revert ‹_›; decide)⟩⟩
      · intro cls f h
        cases List.mem_singleton.1 h
        refine List.forall_mem_cons.2 ⟨.simple ?_ ?_ ?_, List.forall_mem_cons.2 ⟨.records ⟨by simp, some "eumopps.catalogue.dataset.CatalogueFileEntry", entryKeys, entryKeys_ok, ?_, ?_⟩,
          List.forall_mem_cons.2 ⟨.empty, List.forall_mem_cons.2 ⟨.empty, hnil⟩⟩⟩⟩
        · apply hkeys
          · simp only [List.map_cons, List.map_nil, List.forall_mem_cons]
            exact ⟨⟨_, rfl, by decide⟩, by simp⟩
          · decide
        · refine ⟨_, rfl, by decide, .cons ⟨rfl, rfl, fun h => by exfalso; revert h; decide⟩ .nil⟩
        · refine List.forall_mem_cons.2 ⟨.column ⟨by simp, .str, ?_⟩, by simp⟩
          intro v hv
          rw [List.mem_singleton.1 hv]
          exact ⟨_, rfl, rfl, trivial⟩
        · intro v hv
          rw [List.mem_singleton.1 hv]
          refine ⟨_, rfl, rfl, ⟨_, rfl, by decide, ?_⟩, rfl⟩
          refine .cons ?_ (.cons ?_ (.cons ?_ (.cons ?_ (.cons ?_ .nil)))) <;> exact ⟨rfl, rfl, fun _ => ⟨.none, by first | exact ⟨rfl, rfl⟩ | (exfalso; revert ‹_›; decide)⟩⟩
        · have hc : ∀ k s, dictGet [("name", Value.scalar (.str "20000101.nc")), ("time", .scalar (.time (yearStart 2000))), ("tags", .none),
              ("checksum", .scalar (.str "1234")), ("size", .scalar (.int 17))] k = some (.scalar s) → CellOk s →
              ∃ c, ColumnOf k [entry (.scalar (.str "20000101.nc")) (.scalar (.time (yearStart 2000))) .none (.scalar (.str "1234")) (.scalar (.int 17))] c ∧ ColumnOk c := by
            intro k s h h'
            refine ⟨[.scalar s], .cons ⟨_, _, rfl, h⟩ .nil, .inr (.inl ⟨by simp, s.kind, ?_⟩)⟩
            intro v hv
            rw [List.mem_singleton.1 hv]
            exact ⟨s, rfl, rfl, h'⟩
          intro k hk
          simp only [entryKeys, List.mem_cons, List.not_mem_nil, or_false] at hk
          rcases hk with rfl | rfl | rfl | rfl | rfl
          · exact hc _ _ rfl trivial
          · exact hc _ _ rfl (year_cell 2000 (by norm_num) (by norm_num))
          · exact ⟨[.none], .cons ⟨_, _, rfl, rfl⟩ .nil, .inl (by simp)⟩
          · exact hc _ _ rfl trivial
          · exact hc _ _ rfl (by simp [CellOk, fillInt])

end Verif.Eumopps.Persist
