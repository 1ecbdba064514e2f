import Verif.Eumopps.Persist.NetcdfRecords

/-! C19: loading a saved catalogue gives it back. -/

namespace Verif.Eumopps.Persist

open Verif Verif.Py Verif.Calendar Verif.Eumopps.Names Verif.Eumopps.Time Verif.Eumopps.Periods

/-- Attributes of simple objects which are kept. -/
inductive MemberOk : Value → Prop
  | none : MemberOk .none
  | scalar {s} : CellOk s → MemberOk (.scalar s)
  | empty : MemberOk (.list [])
  | column {l} : Column l → MemberOk (.list l)

/-- Attributes of other objects which are kept. -/
inductive NetOk (C : Classes) : Value → Prop
  | none : NetOk C .none
  | empty : NetOk C (.list [])
  | str (s) : NetOk C (.scalar (.str s))
  | int (n) : NetOk C (.scalar (.int n))
  | float (b) : NetOk C (.scalar (.float b))
  | column {l} : Column l → NetOk C (.list l)
  | rows {l} : Rows l → NetOk C (.list l)
  | records {l} : RecordsOk C l → NetOk C (.list l)
  | simple {cls f} : KeysOk (f.map (·.1)) → ObjOk C cls f → (∀ kv ∈ f, MemberOk kv.2) → NetOk C (.obj cls f)
  | complex {cls f} : simpleFields f = false → KeysOk (f.map (·.1)) → ObjOk C cls f → (∀ kv ∈ f, NetOk C kv.2) → NetOk C (.obj cls f)
  | items {l} : (∃ v ∈ l, noneOrSimple v = false) → (∀ v ∈ l, isObject v = true) → (∀ cls f, .obj cls f ∈ l → KeysOk (f.map (·.1))) →
      (∀ cls f, .obj cls f ∈ l → ObjOk C cls f) → (∀ cls f, .obj cls f ∈ l → ∀ kv ∈ f, NetOk C kv.2) → NetOk C (.list l)

theorem free_dim {k d : String} {g : Group} (h : Free k g) (hd : d ∈ dimNames k) : ∀ e ∈ g.dims, e.1 ≠ d :=
  fun e he hn => h.1 e he (hn ▸ hd)

theorem free_vars {k : String} {g : Group} (h : Free k g) : ∀ e ∈ g.vars, e.1 ≠ k := fun e he => (h.2.1 e he).1

theorem free_groups {k : String} {g : Group} (h : Free k g) : ∀ e ∈ g.groups, e.1 ≠ k := fun e he => (h.2.2 e he).1

/-- A list of scalars with its own dimension. -/
theorem save_values_column {l : List Value} (h : Column l) (k : String) : ∃ x ds, readVar x = .list l ∧ (∀ d ∈ ds, d.1 ∈ dimNames k) ∧
    ∀ g, Free k g → saveValues g k l = .ok (join g (.mk [] ds [(k, x)] [])) := by
  obtain ⟨x, ds, h1, h2, h3⟩ := save_column h k k
  refine ⟨x, (k, l.length) :: ds, h1, ?_, ?_⟩
  · intro d hd
    rcases List.mem_cons.1 hd with rfl | hd
    · exact self_dim _
    · rw [h2 d hd]; simp [dimNames]
  · intro g hg
    unfold saveValues
    rw [createDim_ok _ (free_dim hg (self_dim k))]
    simp only
    rw [h3 (.mk g.attrs (g.dims ++ [(k, l.length)]) g.vars g.groups) ?_ (show ∀ e ∈ g.vars, e.1 ≠ k from free_vars hg)
      (show ∀ e ∈ g.groups, e.1 ≠ k from free_groups hg)]
    · simp [join, Group.attrs, Group.dims, Group.vars, Group.groups]
    · intro e he
      rcases List.mem_append.1 he with he | he
      · exact free_dim hg (by simp [dimNames]) e he
      · rw [List.mem_singleton.1 he]; exact (length_ne k).symm

/-- Lists of lists of numbers with their own dimensions. -/
theorem save_values_rows {l : List Value} (h : Rows l) (k : String) : ∃ x ds, readVar x = .list l ∧ (∀ d ∈ ds, d.1 ∈ dimNames k) ∧
    ∀ g, Free k g → saveValues g k l = .ok (join g (.mk [] ds [(k, x)] [])) := by
  obtain ⟨x, n, h1, h3⟩ := save_rows h k k
  refine ⟨x, [(k, l.length), (k ++ "2", n)], h1, by simp [dimNames], ?_⟩
  intro g hg
  unfold saveValues
  rw [createDim_ok _ (free_dim hg (self_dim k))]
  simp only
  rw [h3 (.mk g.attrs (g.dims ++ [(k, l.length)]) g.vars g.groups) ?_ (show ∀ e ∈ g.vars, e.1 ≠ k from free_vars hg)
      (show ∀ e ∈ g.groups, e.1 ≠ k from free_groups hg)]
  · simp [join, Group.attrs, Group.dims, Group.vars, Group.groups]
  · intro e he
    rcases List.mem_append.1 he with he | he
    · exact free_dim hg (by simp [dimNames]) e he
    · rw [List.mem_singleton.1 he]; exact (two_ne k).symm

theorem listOfSimple_column {l : List Value} (h : Column l) : listOfSimple l = true := by
  obtain ⟨hne, K, hK⟩ := h
  have hl := listOf_scalars hne (fun v hv => by obtain ⟨s, h1, h2, _⟩ := hK v hv; exact ⟨s, h1, h2⟩)
  unfold listOfSimple
  rw [hl, hl, hl, hl]
  cases K <;> decide

theorem member_simple {v : Value} (h : MemberOk v) : simpleMember v = true := by
  cases h with
  | none => rfl
  | scalar => rfl
  | empty => rfl
  | column h => simp [simpleMember, listOfSimple_column h]

theorem member_writes (C : Classes) {v : Value} (h : MemberOk v) (k : String) : Writes C saveMember k v := by
  cases h with
  | none => exact ⟨_, .absent (dims := []) rfl (by simp), fun g _ => by rw [join_empty]; rfl⟩
  | @scalar s hs =>
    cases s with
    | time t =>
      refine ⟨_, .var (dims := []) (x := .time0 (secondsToNumber timeBase t)) ?_ (by simp), fun g hg => ?_⟩
      · simp only [readVar]
        rw [(c13_roundtrip _ _).2.2 hs.1]
        exact same_refl _
      · unfold saveMember
        simp only
        rw [createVar_ok _ (free_vars hg) (free_groups hg)]
        simp [join, Group.attrs, Group.dims, Group.vars, Group.groups]
    | str s => exact ⟨_, .attr rfl, fun g _ => by simp [saveMember, setAttr, join, Group.attrs, Group.dims, Group.vars, Group.groups]⟩
    | int s => exact ⟨_, .attr rfl, fun g _ => by simp [saveMember, setAttr, join, Group.attrs, Group.dims, Group.vars, Group.groups]⟩
    | float s => exact ⟨_, .attr rfl, fun g _ => by simp [saveMember, setAttr, join, Group.attrs, Group.dims, Group.vars, Group.groups]⟩
  | empty =>
    refine ⟨_, .absent (dims := [(k, 0)]) rfl (by simp [dimNames]), fun g hg => ?_⟩
    have : saveMember g k (.list []) = saveValues g k [] := rfl
    rw [this]
    unfold saveValues
    rw [createDim_ok _ (free_dim hg (self_dim k))]
    simp [saveColumn, join, Group.attrs, Group.dims, Group.vars, Group.groups]
  | @column l h =>
    obtain ⟨x, ds, h1, h2, h3⟩ := save_values_column h k
    refine ⟨_, .var (dims := ds) (x := x) (by rw [h1]; exact same_refl _) h2, fun g hg => ?_⟩
    unfold saveMember
    simp only
    rw [listOfSimple_column h]
    exact h3 g hg

theorem saveMembers_pieces {C : Classes} {f : List (String × Value)} {cls : Option String} (hk : KeysOk (f.map (·.1))) (ho : ObjOk C cls f)
    (hm : ∀ kv ∈ f, Writes C saveMember kv.1 kv.2) :
    ∃ sub w, saveMembers (.mk (classAttrs cls) [] [] []) f = .ok sub ∧ load C sub = .ok w ∧ Same (.obj cls f) w := by
  obtain ⟨ps, h1, h2⟩ := save_pieces (C := C) (save := saveMember) (F := saveMembers) (fun g => by rw [saveMembers])
    (fun g g' k v f h => by rw [saveMembers, h]) hk hm (g := .mk (classAttrs cls) [] [] [])
    (fun kv _ => ⟨by simp [Group.dims], by simp [Group.vars], by simp [Group.groups]⟩)
  obtain ⟨w, hw, hs⟩ := load_pieces hk ho h1 (.inl rfl)
  exact ⟨_, w, h2, hw, hs⟩

theorem saveFields_pieces {C : Classes} {f : List (String × Value)} {cls : Option String} {A : List (String × Scalar)} (hk : KeysOk (f.map (·.1)))
    (ho : ObjOk C cls f) (hm : ∀ kv ∈ f, Writes C saveObject kv.1 kv.2)
    (hA : A = classAttrs cls ∨ (cls.isSome = true ∧ A = ("Conventions", .str "CF-1.6") :: classAttrs cls)) :
    ∃ sub w, saveFields (.mk A [] [] []) f = .ok sub ∧ load C sub = .ok w ∧ Same (.obj cls f) w := by
  obtain ⟨ps, h1, h2⟩ := save_pieces (C := C) (save := saveObject) (F := saveFields) (fun g => by rw [saveFields])
    (fun g g' k v f h => by rw [saveFields, h]) hk hm (g := .mk A [] [] [])
    (fun kv _ => ⟨by simp [Group.dims], by simp [Group.vars], by simp [Group.groups]⟩)
  obtain ⟨w, hw, hs⟩ := load_pieces hk ho h1 hA
  exact ⟨_, w, h2, hw, hs⟩

/-- Lists with an object are not lists of values. -/
theorem valueList_object {l : List Value} {cls : Option String} {f : List (String × Value)} (h : .obj cls f ∈ l) : valueList l = false := by
  have h1 : ∀ K, listOf K l = false := fun K => by
    unfold listOf
    rw [List.all_eq_false]
    exact ⟨_, h, by simp [noneOr]⟩
  have h2 : ∀ K, list2dOf K l = false := fun K => by
    unfold list2dOf
    rw [List.all_eq_false]
    exact ⟨_, h, by simp [rowOf]⟩
  unfold valueList listOfSimple
  simp [h1, h2]

theorem saveItems_ok {C : Classes} (k : String) : ∀ {l : List Value},
    (∀ v ∈ l, ∃ cls f, v = .obj cls f ∧ ∃ sub w, saveFields (.mk (classAttrs cls) [] [] []) f = .ok sub ∧ load C sub = .ok w ∧ Same v w) →
    ∃ subs : List Group, subs.length = l.length ∧
      (∀ (j : Nat) a sub, l[j]? = some a → subs[j]? = some sub → ∃ w, load C sub = .ok w ∧ Same a w) ∧
      ∀ i g, (∀ e ∈ g.vars, ∀ j, e.1 ≠ itemName k j) → (∀ e ∈ g.groups, ∀ j, i ≤ j → e.1 ≠ itemName k j) →
        saveItems g k i l = .ok (.mk g.attrs g.dims g.vars (g.groups ++ (subs.zipIdx i).map fun s => (itemName k s.2, s.1)))
  | [], _ => ⟨[], rfl, by simp, fun i g _ _ => by cases g; simp [saveItems, Group.attrs, Group.dims, Group.vars, Group.groups]⟩
  | v :: l, h => by
    obtain ⟨cls, f, rfl, sub, w, h1, h2, h3⟩ := h v (by simp)
    obtain ⟨subs, a1, a2, a3⟩ := saveItems_ok k (l := l) (fun v hv => h v (by simp [hv]))
    refine ⟨sub :: subs, by simp [a1], ?_, ?_⟩
    · intro j a s ha hs
      cases j with
      | zero =>
        simp at ha hs
        subst ha hs
        exact ⟨w, h2, h3⟩
      | succ j => exact a2 j a s (by simpa using ha) (by simpa using hs)
    · intro i g hv hg
      have ha := addGroup_ok (g := g) (k := itemName k i) sub (fun e he => hv e he i) (fun e he => hg e he i le_rfl)
      rw [saveItems, h1]
      simp only
      rw [ha]
      simp only
      rw [a3 (i + 1) (.mk g.attrs g.dims g.vars (g.groups ++ [(itemName k i, sub)])) hv (by
        intro e he j hj
        rcases List.mem_append.1 he with he | he
        · exact hg e he j (by omega)
        · rw [List.mem_singleton.1 he]
          intro hn
          have := (itemName_inj hn).2
          omega)]
      simp [Group.attrs, Group.dims, Group.vars, Group.groups, List.zipIdx_cons]

theorem net_writes {C : Classes} {v : Value} (h : NetOk C v) : ∀ k, Writes C saveObject k v := by
  induction h with
  | none => exact fun k => ⟨_, .absent (dims := []) rfl (by simp), fun g _ => by rw [join_empty]; rfl⟩
  | empty => exact fun k => ⟨_, .absent (dims := []) rfl (by simp), fun g _ => by rw [join_empty]; rfl⟩
  | str s => exact fun k => ⟨_, .attr rfl, fun g _ => by simp [saveObject, setAttr, join, Group.attrs, Group.dims, Group.vars, Group.groups]⟩
  | int s => exact fun k => ⟨_, .attr rfl, fun g _ => by simp [saveObject, setAttr, join, Group.attrs, Group.dims, Group.vars, Group.groups]⟩
  | float s => exact fun k => ⟨_, .attr rfl, fun g _ => by simp [saveObject, setAttr, join, Group.attrs, Group.dims, Group.vars, Group.groups]⟩
  | @column l h =>
    intro k
    obtain ⟨x, ds, h1, h2, h3⟩ := save_values_column h k
    refine ⟨_, .var (dims := ds) (x := x) (by rw [h1]; exact same_refl _) h2, fun g hg => ?_⟩
    rw [saveObject, if_neg (by simpa using h.1), if_pos (by simp [valueList, listOfSimple_column h])]
    exact h3 g hg
  | @rows l h =>
    intro k
    obtain ⟨x, ds, h1, h2, h3⟩ := save_values_rows h k
    refine ⟨_, .var (dims := ds) (x := x) (by rw [h1]; exact same_refl _) h2, fun g hg => ?_⟩
    have hne : l ≠ [] := by
      obtain ⟨⟨v, hv, _⟩, _⟩ := h
      exact List.ne_nil_of_mem hv
    have hval : valueList l = true := by
      obtain ⟨_, K, hK, hK'⟩ := h
      have := list2dOf_true (K := K) (l := l) (fun v hv => by
        obtain ⟨r, h1, h2⟩ := hK' v hv
        exact ⟨r, h1, fun x hx => by obtain ⟨s, a, b, _⟩ := h2 x hx; exact ⟨s, a, b⟩⟩)
      unfold valueList
      rcases hK with rfl | rfl <;> simp [this]
    rw [saveObject, if_neg (by simpa using hne), if_pos hval]
    exact h3 g hg
  | @records l h =>
    intro k
    obtain ⟨sub, w, h1, h2, h3⟩ := records_load h
    refine ⟨_, .group h1 h2, fun g hg => ?_⟩
    obtain ⟨hne, cls, keys, _, hl, _⟩ := h
    have hmem : ∃ f, Value.obj cls f ∈ l := by
      obtain ⟨v, hv⟩ := List.exists_mem_of_ne_nil l hne
      obtain ⟨f, rfl, _⟩ := hl v hv
      exact ⟨f, hv⟩
    obtain ⟨f, hf⟩ := hmem
    have hall : l.all noneOrSimple = true := by
      rw [List.all_eq_true]
      intro v hv
      obtain ⟨f, rfl, _, _, hs⟩ := hl v hv
      exact hs
    rw [saveObject, if_neg (by simpa using hne), if_neg (by rw [valueList_object hf]; simp), if_pos hall, h3,
      addGroup_ok _ (free_vars hg) (free_groups hg)]
    simp [join, Group.attrs, Group.dims, Group.vars, Group.groups]
  | @simple cls f hk ho hm =>
    intro k
    obtain ⟨sub, w, h1, h2, h3⟩ := saveMembers_pieces hk ho (fun kv h => member_writes C (hm kv h) kv.1)
    refine ⟨_, .group h2 h3, fun g hg => ?_⟩
    have hs : simpleFields f = true := by
      unfold simpleFields
      rw [List.all_eq_true]
      exact fun kv h => member_simple (hm kv h)
    rw [saveObject, if_pos hs, h1]
    simp only
    rw [addGroup_ok _ (free_vars hg) (free_groups hg)]
    simp [join, Group.attrs, Group.dims, Group.vars, Group.groups]
  | @complex cls f hs hk ho _ ih =>
    intro k
    obtain ⟨sub, w, h1, h2, h3⟩ := saveFields_pieces hk ho (fun kv h => ih kv h kv.1) (.inl rfl)
    refine ⟨_, .group h2 h3, fun g hg => ?_⟩
    rw [saveObject, if_neg (by rw [hs]; simp), h1]
    simp only
    rw [addGroup_ok _ (free_vars hg) (free_groups hg)]
    simp [join, Group.attrs, Group.dims, Group.vars, Group.groups]
  | @items l hc hobj hk ho _ ih =>
    intro k
    have hone : ∀ v ∈ l, ∃ cls f, v = .obj cls f ∧ ∃ sub w, saveFields (.mk (classAttrs cls) [] [] []) f = .ok sub ∧ load C sub = .ok w ∧ Same v w := by
      intro v hv
      cases v with
      | obj cls f => exact ⟨cls, f, rfl, saveFields_pieces (hk cls f hv) (ho cls f hv) (fun kv h => ih cls f hv kv h kv.1) (.inl rfl)⟩
      | _ => exact absurd (hobj _ hv) (by simp [isObject])
    obtain ⟨v, hv, hns⟩ := hc
    have hne : l ≠ [] := List.ne_nil_of_mem hv
    obtain ⟨cls, f, hvf, _⟩ := hone v hv
    obtain ⟨subs, b1, b2, b3⟩ := saveItems_ok k hone
    refine ⟨_, .items rfl (List.length_pos_of_mem hv) b1 b2, fun g hg => ?_⟩
    have hall : ¬ l.all noneOrSimple = true := by
      rw [Bool.not_eq_true, List.all_eq_false]
      exact ⟨v, hv, by rw [hns]; simp⟩
    have hall2 : l.all isObject = true := List.all_eq_true.2 hobj
    rw [saveObject, if_neg (by simpa using hne), if_neg (by rw [valueList_object (hvf ▸ hv)]; simp), if_neg hall, if_pos hall2,
      createDim_ok _ (free_dim hg (self_dim k))]
    simp only
    rw [b3 0 (.mk g.attrs (g.dims ++ [(k, l.length)]) g.vars g.groups) (fun e he => (hg.2.1 e he).2) (fun e he j _ => (hg.2.2 e he).2 j)]
    simp [join, itemGroups, Group.attrs, Group.dims, Group.vars, Group.groups]

/-- **C19, partial.** A catalogue (any instance) is given back by loading what was saved, for trees of any depth and lists of any length, if
None and empty lists are what the classes set by default, values of each attribute of a list of simple objects are all there or all None,
times are whole seconds and attributes of simple objects, and no names get in each other's way.  Missing from the full claim: see the
negative results below. -/
theorem c19_round_trip_partial {C : Classes} {c : String} {f : List (String × Value)} (hk : KeysOk (f.map (·.1))) (ho : ObjOk C (some c) f)
    (h : ∀ kv ∈ f, NetOk C kv.2) :
    ∃ g w, saveFile (.obj (some c) f) = .ok g ∧ load C g = .ok w ∧ Same (.obj (some c) f) w := by
  unfold saveFile
  exact saveFields_pieces hk ho (fun kv hkv => net_writes (h kv hkv) kv.1) (.inr ⟨rfl, rfl⟩)

end Verif.Eumopps.Persist
