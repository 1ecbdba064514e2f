import Verif.Eumopps.Persist.NetcdfValues

/-! C19: lists of simple objects. -/

namespace Verif.Eumopps.Persist

open Verif Verif.Py Verif.Calendar Verif.Eumopps.Names Verif.Eumopps.Time Verif.Eumopps.Periods

/-! ### Reading records -/

theorem setRecords_ok (name : String) : ∀ {rs : List (List (String × Value))} {vs : List Value}, vs.length ≤ rs.length →
    ∃ rs', setRecords name rs vs = .ok rs' ∧ rs'.length = rs.length ∧ ∀ (i : Nat) r, rs[i]? = some r →
      ∃ r', rs'[i]? = some r' ∧ r' = r ++ (match vs[i]? with | some v => [(name, v)] | none => [])
  | rs, [], _ => by
    refine ⟨rs, by cases rs <;> rfl, rfl, ?_⟩
    intro i r h
    exact ⟨r, h, by simp⟩
  | [], v :: vs, h => by simp at h
  | r :: rs, v :: vs, h => by
    obtain ⟨rs', h1, h2, h3⟩ := setRecords_ok name (rs := rs) (vs := vs) (by simpa using h)
    refine ⟨(r ++ [(name, v)]) :: rs', by rw [setRecords, h1], by simp [h2], ?_⟩
    intro i x hx
    cases i with
    | zero => simp at hx; subst hx; exact ⟨_, rfl, by simp⟩
    | succ i => simpa using h3 i x (by simpa using hx)

theorem readRecords_ok : ∀ {vars : List (String × Var)} {rs : List (List (String × Value))},
    (∀ e ∈ vars, ∃ vs, readVar e.2 = .list vs ∧ vs.length ≤ rs.length) →
    ∃ rs', readRecords rs vars = .ok rs' ∧ rs'.length = rs.length ∧ ∀ (i : Nat) r, rs[i]? = some r →
      ∃ r', rs'[i]? = some r' ∧ ∀ e, e ∈ r' ↔ e ∈ r ∨ ∃ x vs, (e.1, x) ∈ vars ∧ readVar x = .list vs ∧ vs[i]? = some e.2
  | [], rs, _ => ⟨rs, rfl, rfl, fun i r h => ⟨r, h, fun e => by simp⟩⟩
  | (name, x) :: vars, rs, h => by
    obtain ⟨vs, hv, hl⟩ := h (name, x) (by simp)
    obtain ⟨rs1, a1, a2, a3⟩ := setRecords_ok name hl
    obtain ⟨rs2, b1, b2, b3⟩ := readRecords_ok (vars := vars) (rs := rs1) (fun e he => by
      obtain ⟨vs, h1, h2⟩ := h e (by simp [he])
      exact ⟨vs, h1, a2 ▸ h2⟩)
    simp only at hv
    refine ⟨rs2, by rw [readRecords, hv]; simp only; rw [a1]; exact b1, b2.trans a2, ?_⟩
    intro i r hr
    obtain ⟨r1, c1, c2⟩ := a3 i r hr
    obtain ⟨r2, d1, d2⟩ := b3 i r1 c1
    refine ⟨r2, d1, fun e => ?_⟩
    rw [d2, c2, List.mem_append]
    constructor
    · rintro ((he | he) | ⟨y, ws, he, hy, hw⟩)
      · exact .inl he
      · right
        cases hvi : vs[i]? with
        | none => rw [hvi] at he; simp at he
        | some v =>
          rw [hvi] at he
          simp at he
          subst he
          exact ⟨x, vs, by simp, hv, hvi⟩
      · exact .inr ⟨y, ws, by simp [he], hy, hw⟩
    · rintro (he | ⟨y, ws, he, hy, hw⟩)
      · exact .inl (.inl he)
      · rcases List.mem_cons.1 he with he | he
        · cases he
          rw [hv] at hy
          cases hy
          left; right
          rw [hw]
          simp
        · exact .inr ⟨y, ws, he, hy, hw⟩

/-! ### Lists of objects which are kept -/

/-- Values of one attribute: all None, scalars of one kind, or lists of strings of one length. -/
def ColumnOk (c : List Value) : Prop := (∀ v ∈ c, v = .none) ∨ Column c ∨ StringRows c

/-- The values of an attribute. -/
def ColumnOf (k : String) (l c : List Value) : Prop := List.Forall₂ (fun v x => ∃ cls f, v = .obj cls f ∧ dictGet f k = some x) l c

/-- Lists of simple objects of one class whose columns are complete. -/
def RecordsOk (C : Classes) (l : List Value) : Prop :=
  l ≠ [] ∧ ∃ cls keys, KeysOk keys ∧
    (∀ v ∈ l, ∃ f, v = .obj cls f ∧ f.map (·.1) = keys ∧ ObjOk C cls f ∧ simpleFields f = true) ∧
    ∀ k ∈ keys, ∃ c, ColumnOf k l c ∧ ColumnOk c

theorem column_mapM {k : String} {l c : List Value} (h : ColumnOf k l c) : l.mapM (member k) = .ok c := by
  unfold ColumnOf at h
  induction h with
  | nil => rfl
  | @cons v x l c hx _ ih =>
    obtain ⟨cls, f, rfl, hf⟩ := hx
    have : member k (.obj cls f) = .ok x := by unfold member; simp only; rw [hf]
    rw [List.mapM_cons, this, ih]
    rfl

/-- A column is saved as a variable, or nothing is saved if it has only None. -/
theorem save_columnOk {c : List Value} (h : ColumnOk c) (k : String) : ∃ (vs : List (String × Var)) (ds : List (String × Nat)),
    (((∀ v ∈ c, v = .none) ∧ vs = []) ∨ ∃ x, vs = [(k, x)] ∧ readVar x = .list c) ∧ (∀ d ∈ ds, d.1 ∈ dimNames k) ∧
    ∀ g : Group, (∀ e ∈ g.dims, e.1 ∉ dimNames k) → (∀ e ∈ g.vars, e.1 ≠ k) → (∀ e ∈ g.groups, e.1 ≠ k) →
      saveColumn g k listCount c = .ok (.mk g.attrs (g.dims ++ ds) (g.vars ++ vs) g.groups) := by
  rcases h with h | h | h
  · refine ⟨[], [], .inl ⟨h, rfl⟩, by simp, ?_⟩
    intro g _ _ _
    unfold saveColumn
    rw [if_pos ((allNone_iff _).2 h)]
    cases g
    simp [Group.attrs, Group.dims, Group.vars, Group.groups]
  · obtain ⟨x, ds, h1, h2, h3⟩ := save_column h k listCount
    refine ⟨[(k, x)], ds, .inr ⟨x, rfl, h1⟩, fun d hd => by rw [h2 d hd]; simp [dimNames], ?_⟩
    intro g a b c
    exact h3 g (fun e he hn => a e he (by rw [hn]; simp [dimNames])) b c
  · obtain ⟨x, ds, h1, h2, h3⟩ := save_strings h k listCount
    refine ⟨[(k, x)], ds, .inr ⟨x, rfl, h1⟩, fun d hd => by rcases h2 d hd with h | h <;> rw [h] <;> simp [dimNames], ?_⟩
    intro g a b c
    exact h3 g (fun e he => ⟨fun hn => a e he (by rw [hn]; simp [dimNames]), fun hn => a e he (by rw [hn]; simp [dimNames])⟩) b c

/-- All columns. -/
theorem save_columns {l : List Value} : ∀ {keys : List String} {g : Group}, KeysOk keys → (∀ k ∈ keys, ∃ c, ColumnOf k l c ∧ ColumnOk c) →
    (∀ k ∈ keys, (∀ e ∈ g.dims, e.1 ∉ dimNames k) ∧ ∀ e ∈ g.vars, e.1 ≠ k) → g.groups = [] →
    ∃ (vs : List (String × Var)) (ds : List (String × Nat)), saveColumns l g keys = .ok (.mk g.attrs (g.dims ++ ds) (g.vars ++ vs) []) ∧
      (∀ d ∈ ds, ∃ k ∈ keys, d.1 ∈ dimNames k) ∧ (∀ e ∈ vs, e.1 ∈ keys ∧ ∃ c, ColumnOf e.1 l c ∧ readVar e.2 = .list c) ∧
      ∀ k ∈ keys, (∃ x, (k, x) ∈ vs) ∨ ∃ c, ColumnOf k l c ∧ ∀ v ∈ c, v = .none
  | [], g, _, _, _, hg => ⟨[], [], by cases g; simp [Group.groups] at hg; subst hg; simp [saveColumns, Group.attrs, Group.dims, Group.vars], by simp, by simp, by simp⟩
  | k :: keys, g, hk, hc, hf, hg => by
    obtain ⟨c, h1, h2⟩ := hc k (by simp)
    obtain ⟨vs, ds, a1, a2, a3⟩ := save_columnOk h2 k
    have hk2 := List.pairwise_cons.1 hk.2
    have a3 := a3 g (hf k (by simp)).1 (hf k (by simp)).2 (by rw [hg]; simp)
    rw [hg] at a3
    have hvk : ∀ e ∈ vs, e.1 = k := by
      rcases a1 with ⟨_, h⟩ | ⟨x, h, _⟩ <;> rw [h] <;> simp
    obtain ⟨vs', ds', b1, b2, b3, b4⟩ := save_columns (keys := keys) (g := .mk g.attrs (g.dims ++ ds) (g.vars ++ vs) [])
      ⟨fun x hx => hk.1 x (by simp [hx]), hk2.2⟩ (fun x hx => hc x (by simp [hx]))
      (fun k' hk' => by
        refine ⟨?_, ?_⟩
        · intro e he
          rcases List.mem_append.1 he with he | he
          · exact (hf k' (by simp [hk'])).1 e he
          · exact hk2.1 k' hk' _ (a2 e he)
        · intro e he
          rcases List.mem_append.1 he with he | he
          · exact (hf k' (by simp [hk'])).2 e he
          · rw [hvk e he]
            exact fun h => hk2.1 k' hk' k (self_dim k) (h ▸ self_dim k)) rfl
    refine ⟨vs ++ vs', ds ++ ds', ?_, ?_, ?_, ?_⟩
    · rw [saveColumns, column_mapM h1]
      simp only
      rw [a3]
      simp only
      rw [b1]
      simp [Group.attrs, Group.dims, Group.vars]
    · intro d hd
      rcases List.mem_append.1 hd with hd | hd
      · exact ⟨k, by simp, a2 d hd⟩
      · obtain ⟨k', h, h'⟩ := b2 d hd
        exact ⟨k', by simp [h], h'⟩
    · intro e he
      rcases List.mem_append.1 he with he | he
      · rcases a1 with ⟨_, h⟩ | ⟨x, h, hr⟩
        · rw [h] at he; simp at he
        · rw [h] at he
          simp at he
          subst he
          exact ⟨by simp, c, h1, hr⟩
      · obtain ⟨h, h'⟩ := b3 e he
        exact ⟨by simp [h], h'⟩
    · intro k' hk'
      rcases List.mem_cons.1 hk' with rfl | hk'
      · rcases a1 with ⟨h, _⟩ | ⟨x, h, _⟩
        · exact .inr ⟨c, h1, h⟩
        · exact .inl ⟨x, by rw [h]; simp⟩
      · rcases b4 k' hk' with ⟨x, hx⟩ | h
        · exact .inl ⟨x, by simp [hx]⟩
        · exact .inr h

theorem column_get {k : String} {l c : List Value} (h : ColumnOf k l c) : c.length = l.length ∧
    ∀ (i : Nat) cls f, l[i]? = some (.obj cls f) → ∃ x, c[i]? = some x ∧ dictGet f k = some x := by
  unfold ColumnOf at h
  induction h with
  | nil => simp
  | @cons v x l c hx _ ih =>
    refine ⟨by simp [ih.1], ?_⟩
    intro i cls f hi
    cases i with
    | zero =>
      obtain ⟨cls', f', rfl, hf⟩ := hx
      simp at hi
      obtain ⟨_, rfl⟩ := hi
      exact ⟨x, rfl, hf⟩
    | succ i => simpa using ih.2 i cls f (by simpa using hi)

/-- **Lists of simple objects come back.** -/
theorem records_load {C : Classes} {l : List Value} (h : RecordsOk C l) : ∃ sub w, load C sub = .ok w ∧ Same (.list l) w ∧
    ∀ g key, saveSimpleList g key l = addGroup g key sub := by
  obtain ⟨hne, cls, keys, hk, hl, hc⟩ := h
  obtain ⟨vs, ds, h1, h2, h3, h4⟩ := save_columns (g := .mk (classAttrs cls) [(listCount, l.length)] [] []) hk hc (by
    intro k hkm
    refine ⟨?_, by simp [Group.vars]⟩
    intro e he
    simp [Group.dims] at he
    rw [he]
    exact (hk.1 k hkm).2.2.2) rfl
  simp only [Group.attrs, Group.dims, Group.vars, List.nil_append] at h1
  obtain ⟨v0, l', rfl⟩ := List.exists_cons_of_ne_nil hne
  obtain ⟨f0, rfl, hf0, _⟩ := hl v0 (by simp)
  have hsave : ∀ g key, saveSimpleList g key (.obj cls f0 :: l') = addGroup g key
      (.mk (classAttrs cls) ([(listCount, (Value.obj cls f0 :: l').length)] ++ ds) vs []) := by
    intro g key
    unfold saveSimpleList
    simp only
    rw [hf0, h1]
  generalize hL : Value.obj cls f0 :: l' = L at *
  refine ⟨.mk (classAttrs cls) ([(listCount, L.length)] ++ ds) vs [], ?_⟩
  rw [load]
  have hdim : dictGet ([(listCount, L.length)] ++ ds) listCount = some L.length := by
    refine dictGet_unique (by simp) ?_
    intro x hx
    rcases List.mem_append.1 hx with hx | hx
    · simpa using hx
    · obtain ⟨k, hkm, hd⟩ := h2 _ hx
      exact absurd hd (hk.1 k hkm).2.2.2
  rw [hdim]
  simp only
  obtain ⟨rs, r1, r2, r3⟩ := readRecords_ok (vars := vs) (rs := List.replicate L.length ((classAttrs cls).map fun kv => (kv.1, Value.scalar kv.2)))
    (fun e he => by
      obtain ⟨_, c, hcc, hr⟩ := h3 e he
      exact ⟨c, hr, by rw [(column_get hcc).1, List.length_replicate]⟩)
  rw [r1]
  simp only
  rw [List.length_replicate] at r2
  have hone : ∀ (i : Nat) r v, rs[i]? = some r → L[i]? = some v → ∃ w, makeObject C r = .ok w ∧ Same v w := by
    intro i r v hr hv
    have hi := (List.getElem?_eq_some_iff.1 hv).1
    obtain ⟨f, rfl, hf, ho, _⟩ := hl v (List.mem_of_getElem? hv)
    obtain ⟨r', hr', hmem⟩ := r3 i ((classAttrs cls).map fun kv => (kv.1, Value.scalar kv.2)) (by simp [List.getElem?_replicate, hi])
    rw [hr] at hr'
    cases hr'
    have hkf : KeysOk (f.map (·.1)) := hf ▸ hk
    have hA : ∀ e ∈ (classAttrs cls).map (fun kv => (kv.1, Value.scalar kv.2)), e.1 = classId ∧ cls.map (fun c => Value.scalar (.str c)) = some e.2 := by
      intro e he
      cases cls with
      | none => simp [classAttrs] at he
      | some c => simp [classAttrs] at he; subst he; exact ⟨rfl, rfl⟩
    refine makeObject_same hkf ho ?_ ?_ ?_
    · intro kv hkv
      have hkm : kv.1 ∈ keys := hf ▸ List.mem_map_of_mem hkv
      have hfv : dictGet f kv.1 = some kv.2 := dictGet_eq_some (keys_nodup hkf) hkv
      have hval : ∀ w, (kv.1, w) ∈ r → w = kv.2 := by
        intro w hw
        rcases (hmem _).1 hw with h | ⟨x, ws, hx, hrx, hwi⟩
        · exact absurd (hA _ h).1 (hk.1 _ hkm).2.1
        · obtain ⟨_, c, hcc, hrc⟩ := h3 _ hx
          simp only at hcc hrc
          rw [hrx] at hrc
          cases hrc
          obtain ⟨y, hy1, hy2⟩ := (column_get hcc).2 i _ _ hv
          rw [hwi] at hy1
          cases hy1
          rw [hfv] at hy2
          exact (Option.some.inj hy2).symm
      rcases h4 _ hkm with ⟨x, hx⟩ | ⟨c, hcc, hnone⟩
      · left
        obtain ⟨_, c, hcc, hrc⟩ := h3 _ hx
        obtain ⟨y, hy1, hy2⟩ := (column_get hcc).2 i _ _ hv
        refine ⟨kv.2, dictGet_unique ?_ hval, same_refl _⟩
        refine (hmem _).2 (.inr ⟨x, c, hx, hrc, ?_⟩)
        simp only at hy2
        rw [hfv] at hy2
        rw [hy1, hy2]
      · obtain ⟨y, hy1, hy2⟩ := (column_get hcc).2 i _ _ hv
        rw [hfv] at hy2
        cases hy2
        have hn := hnone _ (List.mem_of_getElem? hy1)
        cases hg : dictGet r kv.1 with
        | none => right; rw [hn]; exact ⟨rfl, rfl⟩
        | some w =>
          left
          refine ⟨w, rfl, ?_⟩
          rw [hval w (mem_of_dictGet hg)]
          exact same_refl _
    · cases hcl : cls with
      | none =>
        refine dictGet_eq_none fun e he h => ?_
        rcases (hmem e).1 he with h' | ⟨x, ws, hx, _⟩
        · rw [hcl] at h'; simp [classAttrs] at h'
        · exact (hk.1 _ (h3 _ hx).1).2.1 h
      | some c =>
        refine dictGet_unique ?_ ?_
        · refine (hmem _).2 (.inl ?_)
          rw [hcl]
          simp [classAttrs]
        · intro x hx
          rcases (hmem _).1 hx with h' | ⟨y, ws, hy, _⟩
          · have := (hA _ h').2
            rw [hcl] at this
            simpa using this.symm
          · exact absurd rfl (hk.1 _ (h3 _ hy).1).2.1
    · intro e he
      rcases (hmem e).1 he with h' | ⟨x, ws, hx, _⟩
      · right
        refine ⟨?_, .inl (hA _ h').1⟩
        cases cls with
        | none => simp [classAttrs] at h'
        | some c => rfl
      · left
        rw [hf]
        exact (h3 _ hx).1
  obtain ⟨ws, hws⟩ := mapM_total (f := makeObject C) (l := rs) (fun r hr => by
    obtain ⟨i, hi⟩ := List.getElem?_of_mem hr
    have hlt : i < L.length := by
      have := (List.getElem?_eq_some_iff.1 hi).1
      omega
    obtain ⟨w, hw, _⟩ := hone i r _ hi (List.getElem?_eq_getElem hlt)
    exact ⟨w, hw⟩)
  rw [hws]
  refine ⟨_, rfl, ?_, hsave⟩
  obtain ⟨w1, w2⟩ := mapM_ok hws
  refine same_list (by omega) ?_
  intro i x y hx hy
  have hlt : i < rs.length := by
    have := (List.getElem?_eq_some_iff.1 hx).1
    omega
  obtain ⟨b, hb, hm⟩ := w2 i _ (List.getElem?_eq_getElem hlt)
  rw [hy] at hb
  cases hb
  obtain ⟨w, hw, hs⟩ := hone i _ x (List.getElem?_eq_getElem hlt) hx
  rw [hm] at hw
  cases hw
  exact hs

end Verif.Eumopps.Persist
