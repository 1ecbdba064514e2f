import Verif.Eumopps.Persist.NetcdfLemmas

/-! C19: the piece of a group which is saved for each attribute, and how a group made of such pieces is loaded. -/

namespace Verif.Eumopps.Persist

open Verif Verif.Py Verif.Calendar Verif.Eumopps.Names Verif.Eumopps.Time Verif.Eumopps.Periods

/-- Two groups in one. -/
def join (g p : Group) : Group := .mk (g.attrs ++ p.attrs) (g.dims ++ p.dims) (g.vars ++ p.vars) (g.groups ++ p.groups)

theorem join_empty (g : Group) : join g (.mk [] [] [] []) = g := by
  cases g
  simp [join, Group.attrs, Group.dims, Group.vars, Group.groups]

/-- Groups of the elements of a list. -/
def itemGroups (k : String) (subs : List Group) : List (String × Group) := subs.zipIdx.map fun s => (itemName k s.2, s.1)

/-- The piece of a group which holds an attribute. -/
inductive Holds (C : Classes) (k : String) (v : Value) : Group → Prop
  | absent {dims} : dropped v = true → (∀ d ∈ dims, d.1 ∈ dimNames k) → Holds C k v (.mk [] dims [] [])
  | attr {s} : v = .scalar s → Holds C k v (.mk [(k, s)] [] [] [])
  | var {dims x} : Same v (readVar x) → (∀ d ∈ dims, d.1 ∈ dimNames k) → Holds C k v (.mk [] dims [(k, x)] [])
  | group {sub w} : load C sub = .ok w → Same v w → Holds C k v (.mk [] [] [] [(k, sub)])
  | items {l : List Value} {subs : List Group} : v = .list l → 0 < l.length → subs.length = l.length →
      (∀ (i : Nat) a sub, l[i]? = some a → subs[i]? = some sub → ∃ w, load C sub = .ok w ∧ Same a w) →
      Holds C k v (.mk [] [(k, l.length)] [] (itemGroups k subs))

/-- No name of the group is in the way of an attribute. -/
def Free (k : String) (g : Group) : Prop :=
  (∀ d ∈ g.dims, d.1 ∉ dimNames k) ∧ (∀ e ∈ g.vars, e.1 ≠ k ∧ ∀ i, e.1 ≠ itemName k i) ∧ ∀ e ∈ g.groups, e.1 ≠ k ∧ ∀ i, e.1 ≠ itemName k i

theorem holds_dims {C : Classes} {k : String} {v : Value} {p : Group} (h : Holds C k v p) : ∀ d ∈ p.dims, d.1 ∈ dimNames k := by
  cases h with
  | absent _ h => exact h
  | attr => simp [Group.dims]
  | var _ h => exact h
  | group => simp [Group.dims]
  | items => simp [Group.dims, dimNames]

theorem holds_vars {C : Classes} {k : String} {v : Value} {p : Group} (h : Holds C k v p) : ∀ e ∈ p.vars, e.1 = k ∧ Same v (readVar e.2) := by
  cases h with
  | var h _ => simpa [Group.vars] using h
  | _ => simp [Group.vars]

theorem holds_attrs {C : Classes} {k : String} {v : Value} {p : Group} (h : Holds C k v p) : ∀ e ∈ p.attrs, e.1 = k ∧ v = .scalar e.2 := by
  cases h with
  | attr h => simpa [Group.attrs] using h
  | _ => simp [Group.attrs]

theorem mem_itemGroups {k : String} {subs : List Group} {e : String × Group} (h : e ∈ itemGroups k subs) :
    ∃ i, subs[i]? = some e.2 ∧ e.1 = itemName k i := by
  unfold itemGroups at h
  obtain ⟨⟨s, i⟩, h1, h2⟩ := List.mem_map.1 h
  subst h2
  exact ⟨i, by simpa [List.mem_zipIdx_iff_getElem?] using h1, rfl⟩

theorem itemGroups_mem {k : String} {subs : List Group} {i : Nat} {s : Group} (h : subs[i]? = some s) : (itemName k i, s) ∈ itemGroups k subs := by
  unfold itemGroups
  exact List.mem_map.2 ⟨(s, i), by simpa [List.mem_zipIdx_iff_getElem?] using h, rfl⟩

theorem holds_groups {C : Classes} {k : String} {v : Value} {p : Group} (h : Holds C k v p) :
    ∀ e ∈ p.groups, e.1 = k ∨ ∃ i, e.1 = itemName k i := by
  cases h with
  | group => simp [Group.groups]
  | items _ _ _ _ =>
    intro e he
    obtain ⟨i, _, h⟩ := mem_itemGroups he
    exact .inr ⟨i, h⟩
  | _ => simp [Group.groups]

theorem free_join {C : Classes} {k k' : String} {v : Value} {p g : Group} (hp : Holds C k v p) (hk : Plain k) (hk' : Plain k')
    (hd : ∀ d ∈ dimNames k, d ∉ dimNames k') (hg : Free k' g) : Free k' (join g p) := by
  have hne : k ≠ k' := fun h => hd k (by simp [dimNames]) (by rw [h]; simp [dimNames])
  refine ⟨?_, ?_, ?_⟩
  · intro d h
    rcases List.mem_append.1 h with h | h
    · exact hg.1 d h
    · exact hd _ (holds_dims hp d h)
  · intro e h
    rcases List.mem_append.1 h with h | h
    · exact hg.2.1 e h
    · rw [(holds_vars hp e h).1]
      exact ⟨hne, fun i => hk k' i⟩
  · intro e h
    rcases List.mem_append.1 h with h | h
    · exact hg.2.2 e h
    · rcases holds_groups hp e h with h | ⟨i, h⟩
      · rw [h]
        exact ⟨hne, fun i => hk k' i⟩
      · rw [h]
        exact ⟨fun h => hk' k i h.symm, fun j hj => hne (itemName_inj hj).1⟩

/-- An attribute which is saved as a piece, whatever else is in the group. -/
def Writes (C : Classes) (save : Group → String → Value → Except PyErr Group) (k : String) (v : Value) : Prop :=
  ∃ p, Holds C k v p ∧ ∀ g, Free k g → save g k v = .ok (join g p)

/-- Saving attributes one after the other. -/
theorem save_pieces {C : Classes} {save : Group → String → Value → Except PyErr Group} {F : Group → List (String × Value) → Except PyErr Group}
    (h0 : ∀ g, F g [] = .ok g) (h1 : ∀ g g' k v f, save g k v = .ok g' → F g ((k, v) :: f) = F g' f) :
    ∀ {f : List (String × Value)} {g : Group}, KeysOk (f.map (·.1)) → (∀ kv ∈ f, Writes C save kv.1 kv.2) → (∀ kv ∈ f, Free kv.1 g) →
    ∃ ps, List.Forall₂ (fun kv p => Holds C kv.1 kv.2 p) f ps ∧ F g f = .ok (ps.foldl join g)
  | [], g, _, _, _ => ⟨[], .nil, h0 g⟩
  | (k, v) :: f, g, hk, hw, hf => by
    obtain ⟨p, hp, hs⟩ := hw (k, v) (by simp)
    have hk1 := hk.1
    have hk2 := List.pairwise_cons.1 hk.2
    obtain ⟨ps, h2, h3⟩ := save_pieces h0 h1 (f := f) (g := join g p) ⟨fun x hx => hk1 x (List.mem_cons_of_mem _ hx), hk2.2⟩
      (fun kv h => hw kv (by simp [h])) (fun kv h => by
        have hm : kv.1 ∈ f.map (·.1) := List.mem_map_of_mem h
        exact free_join hp (hk1 k (by simp)).1 (hk1 kv.1 (List.mem_cons_of_mem _ hm)).1 (hk2.1 kv.1 hm) (hf kv (by simp [h])))
    exact ⟨p :: ps, .cons hp h2, by rw [h1 _ _ _ _ _ (hs g (hf (k, v) (by simp))), h3]; rfl⟩

theorem foldl_join (ps : List Group) : ∀ (g : Group),
    (∀ e, e ∈ (ps.foldl join g).attrs ↔ e ∈ g.attrs ∨ ∃ p ∈ ps, e ∈ p.attrs) ∧
    (∀ e, e ∈ (ps.foldl join g).dims ↔ e ∈ g.dims ∨ ∃ p ∈ ps, e ∈ p.dims) ∧
    (∀ e, e ∈ (ps.foldl join g).vars ↔ e ∈ g.vars ∨ ∃ p ∈ ps, e ∈ p.vars) ∧
    (∀ e, e ∈ (ps.foldl join g).groups ↔ e ∈ g.groups ∨ ∃ p ∈ ps, e ∈ p.groups) := by
  induction ps with
  | nil => intro g; simp
  | cons p ps ih =>
    intro g
    obtain ⟨h1, h2, h3, h4⟩ := ih (join g p)
    rw [List.foldl_cons]
    refine ⟨fun e => ?_, fun e => ?_, fun e => ?_, fun e => ?_⟩
    · rw [h1, join, Group.attrs, List.mem_append]; simp only [List.mem_cons, exists_eq_or_imp]; tauto
    · rw [h2, join, Group.dims, List.mem_append]; simp only [List.mem_cons, exists_eq_or_imp]; tauto
    · rw [h3, join, Group.vars, List.mem_append]; simp only [List.mem_cons, exists_eq_or_imp]; tauto
    · rw [h4, join, Group.groups, List.mem_append]; simp only [List.mem_cons, exists_eq_or_imp]; tauto

theorem loadGroups_mem {C : Classes} : ∀ {l : List (String × Group)} {e : String × Except PyErr Value},
    e ∈ loadGroups C l ↔ ∃ g, (e.1, g) ∈ l ∧ e.2 = load C g
  | [], e => by simp [loadGroups]
  | (k, g) :: l, e => by
    rw [loadGroups, List.mem_cons, loadGroups_mem (l := l)]
    constructor
    · rintro (h | ⟨g', h1, h2⟩)
      · subst h; exact ⟨g, by simp, rfl⟩
      · exact ⟨g', by simp [h1], h2⟩
    · rintro ⟨g', h1, h2⟩
      rcases List.mem_cons.1 h1 with h | h
      · left; cases h; obtain ⟨a, b⟩ := e; simp at *; exact h2
      · exact .inr ⟨g', h, h2⟩

theorem mapM_mem {α β : Type} {f : α → Except PyErr β} {l : List α} {r : List β} (h : l.mapM f = .ok r) (b : β) :
    b ∈ r ↔ ∃ a ∈ l, f a = .ok b := by
  obtain ⟨h1, h2⟩ := mapM_ok h
  constructor
  · intro hb
    obtain ⟨i, hi⟩ := List.getElem?_of_mem hb
    have hlt : i < l.length := by
      have := (List.getElem?_eq_some_iff.1 hi).1
      omega
    obtain ⟨b', hb', hf⟩ := h2 i _ (List.getElem?_eq_getElem hlt)
    rw [hi] at hb'
    cases hb'
    exact ⟨_, List.getElem_mem hlt, hf⟩
  · rintro ⟨a, ha, hf⟩
    obtain ⟨i, hi⟩ := List.getElem?_of_mem ha
    obtain ⟨b', hb', hf'⟩ := h2 i a hi
    rw [hf] at hf'
    cases hf'
    exact List.mem_of_getElem? hb'

theorem forall₂_zip {α β : Type} {R : α → β → Prop} {f : List α} {ps : List β} (h : List.Forall₂ R f ps) :
    ∃ Z : List (α × β), f = Z.map (·.1) ∧ ps = Z.map (·.2) ∧ ∀ z ∈ Z, R z.1 z.2 := by
  induction h with
  | nil => exact ⟨[], rfl, rfl, by simp⟩
  | @cons a b l l' hab _ ih =>
    obtain ⟨Z, h1, h2, h3⟩ := ih
    refine ⟨(a, b) :: Z, by simp [h1], by simp [h2], ?_⟩
    intro z hz
    rcases List.mem_cons.1 hz with h | h
    · subst h; exact hab
    · exact h3 z h

/-- Pieces with their attributes. -/
abbrev Pieces := List ((String × Value) × Group)

/-- One dimension name belongs to one piece. -/
theorem pieces_sep {Z : Pieces} (hk : KeysOk (Z.map fun z => z.1.1)) {z z' : (String × Value) × Group} (hz : z ∈ Z) (hz' : z' ∈ Z) {d : String}
    (hd : d ∈ dimNames z.1.1) (hd' : d ∈ dimNames z'.1.1) : z = z' := by
  have hn := keys_nodup hk
  have hkeq : z.1.1 = z'.1.1 := by
    by_contra hne
    have hS : Std.Symm (fun a b : String => ∀ d ∈ dimNames a, d ∉ dimNames b) := ⟨fun a b h d hd hd' => h d hd' hd⟩
    have := hk.2.forall (List.mem_map_of_mem (f := fun z => z.1.1) hz) (List.mem_map_of_mem (f := fun z => z.1.1) hz') hne
    exact this d hd hd'
  exact List.inj_on_of_nodup_map hn hz hz' hkeq

theorem self_dim (k : String) : k ∈ dimNames k := by simp [dimNames]

/-- What a piece without groups of elements adds to the parameters. -/
def Entry (C : Classes) (z : (String × Value) × Group) (e : String × Value) : Prop := e.1 = z.1.1 ∧ Same z.1.2 e.2

/-- **Loading a group made of pieces gives the object.** -/
theorem load_pieces {C : Classes} {cls : Option String} {f : List (String × Value)} {ps : List Group} {A : List (String × Scalar)}
    (hk : KeysOk (f.map (·.1))) (ho : ObjOk C cls f) (hp : List.Forall₂ (fun kv p => Holds C kv.1 kv.2 p) f ps)
    (hA : A = classAttrs cls ∨ (cls.isSome = true ∧ A = ("Conventions", .str "CF-1.6") :: classAttrs cls)) :
    ∃ w, load C (ps.foldl join (.mk A [] [] [])) = .ok w ∧ Same (.obj cls f) w := by
  obtain ⟨Z, rfl, rfl, hZ⟩ := forall₂_zip hp
  obtain ⟨m1, m2, m3, m4⟩ := foldl_join (Z.map (·.2)) (.mk A [] [] [])
  generalize hG : (Z.map (·.2)).foldl join (.mk A [] [] []) = G at *
  have hmap : ∀ {Q : Group → Prop}, (∃ p ∈ Z.map (·.2), Q p) ↔ ∃ z ∈ Z, Q z.2 := by
    intro Q
    constructor
    · rintro ⟨p, hp, hq⟩
      obtain ⟨z, hz, rfl⟩ := List.mem_map.1 hp
      exact ⟨z, hz, hq⟩
    · rintro ⟨z, hz, hq⟩
      exact ⟨z.2, List.mem_map_of_mem hz, hq⟩
  have m1 : ∀ e, e ∈ G.attrs ↔ e ∈ A ∨ ∃ z ∈ Z, e ∈ z.2.attrs := fun e => (m1 e).trans (or_congr Iff.rfl hmap)
  have m2 : ∀ e, e ∈ G.dims ↔ ∃ z ∈ Z, e ∈ z.2.dims := fun e => (m2 e).trans ((or_iff_right (List.not_mem_nil (a := e))).trans hmap)
  have m3 : ∀ e, e ∈ G.vars ↔ ∃ z ∈ Z, e ∈ z.2.vars := fun e => (m3 e).trans ((or_iff_right (List.not_mem_nil (a := e))).trans hmap)
  have m4 : ∀ e, e ∈ G.groups ↔ ∃ z ∈ Z, e ∈ z.2.groups := fun e => (m4 e).trans ((or_iff_right (List.not_mem_nil (a := e))).trans hmap)
  have hk' : KeysOk (Z.map fun z => z.1.1) := by simpa [List.map_map, Function.comp_def] using hk
  have hkz : ∀ z ∈ Z, Plain z.1.1 ∧ z.1.1 ≠ classId ∧ z.1.1 ≠ "Conventions" ∧ listCount ∉ dimNames z.1.1 := fun z hz =>
    hk'.1 _ (List.mem_map_of_mem (f := fun z => z.1.1) hz)
  -- no list of records
  have hlc : dictGet G.dims listCount = none := by
    refine dictGet_eq_none fun d hd he => ?_
    obtain ⟨z, hz, hdz⟩ := (m2 d).1 hd
    exact (hkz z hz).2.2.2 (he ▸ holds_dims (hZ z hz) d hdz)
  -- dimensions of lists of objects
  have hlist : ∀ d, d ∈ listDims G ↔ ∃ z ∈ Z, ∃ l subs, z.1.2 = .list l ∧ 0 < l.length ∧ subs.length = l.length ∧
      (∀ (i : Nat) a sub, l[i]? = some a → subs[i]? = some sub → ∃ w, load C sub = .ok w ∧ Same a w) ∧
      z.2 = .mk [] [(z.1.1, l.length)] [] (itemGroups z.1.1 subs) ∧ d = (z.1.1, l.length) := by
    intro d
    unfold listDims
    rw [List.mem_filter, m2]
    constructor
    · rintro ⟨⟨z, hz, hdz⟩, hany⟩
      obtain ⟨e, he, hname⟩ := List.any_eq_true.1 hany
      have hname : e.1 = itemName d.1 0 := by simpa using hname
      obtain ⟨z', hz', hez⟩ := (m4 e).1 he
      have hdn := holds_dims (hZ z hz) d hdz
      rcases holds_groups (hZ z' hz') e hez with h | ⟨i, h⟩
      · exact absurd (h.symm.trans hname) ((hkz z' hz').1 _ _)
      · obtain ⟨h1, _⟩ := itemName_inj (h.symm.trans hname)
        have : z = z' := pieces_sep hk' hz hz' hdn (h1 ▸ self_dim _)
        subst this
        obtain ⟨⟨k, v⟩, p⟩ := z
        have hh := hZ _ hz
        simp only at hh hez hdz h1 h hdn
        cases hh with
        | absent => simp [Group.groups] at hez
        | attr => simp [Group.groups] at hez
        | var => simp [Group.groups] at hez
        | group =>
          simp only [Group.groups, List.mem_singleton] at hez
          subst hez
          exact absurd hname ((hkz _ hz).1 _ _)
        | @items l subs a1 a2 a3 a4 =>
          refine ⟨_, hz, l, subs, a1, a2, a3, a4, rfl, ?_⟩
          simpa [Group.dims] using hdz
    · rintro ⟨z, hz, l, subs, h1, h2, h3, h4, h5, rfl⟩
      refine ⟨⟨z, hz, by rw [h5]; simp [Group.dims]⟩, List.any_eq_true.2 ?_⟩
      have : ∃ s, subs[0]? = some s := ⟨_, List.getElem?_eq_getElem (by omega)⟩
      obtain ⟨s, hs⟩ := this
      exact ⟨(itemName z.1.1 0, s), (m4 _).2 ⟨z, hz, by rw [h5]; exact itemGroups_mem hs⟩, by simp⟩
  -- reading the elements of a list
  have hitems : ∀ d ∈ listDims G, ∃ z ∈ Z, ∃ r, readItems (loadGroups C G.groups) d = .ok r ∧ Entry C z r := by
    intro d hd
    obtain ⟨z, hz, l, subs, h1, h2, h3, h4, h5, rfl⟩ := (hlist d).1 hd
    refine ⟨z, hz, ?_⟩
    have hone : ∀ i < l.length, ∃ w, lookup (loadGroups C G.groups) (itemName z.1.1 i) =
        .ok w ∧ ∀ a, l[i]? = some a → Same a w := by
      intro i hi
      unfold lookup
      have hs : subs[i]? = some (subs[i]'(by omega)) := List.getElem?_eq_getElem (by omega)
      cases hg : dictGet (loadGroups C G.groups) (itemName z.1.1 i) with
      | none =>
        exfalso
        refine dictGet_none_iff.1 hg (itemName z.1.1 i, load C (subs[i]'(by omega))) ?_ rfl
        exact loadGroups_mem.2 ⟨_, (m4 _).2 ⟨z, hz, by rw [h5]; exact itemGroups_mem hs⟩, rfl⟩
      | some r =>
        obtain ⟨g, hg1, hg2⟩ := loadGroups_mem.1 (mem_of_dictGet hg)
        simp only at hg1 hg2
        obtain ⟨z', hz', hez⟩ := (m4 _).1 hg1
        have : z' = z := by
          rcases holds_groups (hZ z' hz') _ hez with h | ⟨j, h⟩
          · exact absurd h.symm ((hkz z' hz').1 _ _)
          · exact pieces_sep hk' hz' hz (self_dim _) ((itemName_inj h).1 ▸ self_dim _)
        subst this
        rw [h5] at hez
        obtain ⟨j, hj1, hj2⟩ := mem_itemGroups hez
        have hij := (itemName_inj hj2).2
        subst hij
        obtain ⟨w, hw1, hw2⟩ := h4 i _ _ (List.getElem?_eq_getElem hi) hj1
        refine ⟨w, by simp only; rw [hg2]; exact hw1, ?_⟩
        intro a ha
        rw [List.getElem?_eq_getElem hi] at ha
        cases ha
        exact hw2
    unfold readItems
    obtain ⟨r, hr⟩ := mapM_total (f := fun i => lookup (loadGroups C G.groups) (itemName z.1.1 i))
      (l := List.range l.length) (fun i hi => by
        obtain ⟨w, hw, _⟩ := hone i (List.mem_range.1 hi)
        exact ⟨w, hw⟩)
    simp only
    rw [hr]
    refine ⟨_, rfl, rfl, ?_⟩
    rw [h1]
    obtain ⟨r1, r2⟩ := mapM_ok hr
    refine same_list (by rw [r1, List.length_range]) ?_
    intro i x y hx hy
    have hi := (List.getElem?_eq_some_iff.1 hx).1
    obtain ⟨b, hb1, hb2⟩ := r2 i i (by rw [List.getElem?_range hi])
    rw [hy] at hb1
    cases hb1
    obtain ⟨w, hw1, hw2⟩ := hone i hi
    rw [hb2] at hw1
    cases hw1
    exact hw2 x hx
  obtain ⟨lists, hlists⟩ := mapM_total (f := readItems (loadGroups C G.groups)) (l := listDims G) (fun d hd => by
    obtain ⟨_, _, r, h, _⟩ := hitems d hd
    exact ⟨r, h⟩)
  -- other groups
  have hrest : ∀ e ∈ (loadGroups C G.groups).filter (fun e => !(itemNames G).contains e.1), ∃ z ∈ Z, ∃ v, e.2 = .ok v ∧ Entry C z (e.1, v) := by
    intro e he
    obtain ⟨he1, he2⟩ := List.mem_filter.1 he
    obtain ⟨g, hg1, hg2⟩ := loadGroups_mem.1 he1
    obtain ⟨z, hz, hez⟩ := (m4 _).1 hg1
    refine ⟨z, hz, ?_⟩
    have hh := hZ z hz
    obtain ⟨⟨k, v⟩, p⟩ := z
    simp only at hh hez
    cases hh with
    | absent => simp [Group.groups] at hez
    | attr => simp [Group.groups] at hez
    | var => simp [Group.groups] at hez
    | @group sub w hl hs =>
      simp only [Group.groups, List.mem_singleton, Prod.mk.injEq] at hez
      rw [hez.2] at hg2
      exact ⟨w, hg2.trans hl, hez.1, hs⟩
    | @items l subs a1 a2 a3 a4 =>
      exfalso
      obtain ⟨i, hi, hn⟩ := mem_itemGroups hez
      simp only at hi hn
      have hin : e.1 ∈ itemNames G := by
        unfold itemNames
        refine List.mem_flatMap.2 ⟨(k, l.length), (hlist _).2 ⟨_, hz, l, subs, a1, a2, a3, a4, rfl, rfl⟩, ?_⟩
        refine List.mem_map.2 ⟨i, List.mem_range.2 ?_, hn.symm⟩
        have := (List.getElem?_eq_some_iff.1 hi).1
        simp only
        omega
      simp at he2
      exact he2 hin
  obtain ⟨rest, hrest'⟩ := mapM_total (f := named)
    (l := (loadGroups C G.groups).filter (fun e => !(itemNames G).contains e.1)) (fun e he => by
      obtain ⟨_, _, v, h, _⟩ := hrest e he
      exact ⟨(e.1, v), by unfold named; rw [h]⟩)
  -- all parameters
  have hparams : parameters G (loadGroups C G.groups) =
      .ok ((G.attrs.map fun kv => (kv.1, .scalar kv.2)) ++ (G.vars.map fun kv => (kv.1, readVar kv.2)) ++ lists ++ rest) := by
    unfold parameters
    rw [hlists]
    simp only
    rw [hrest']
  have hload : load C G = makeObject C ((G.attrs.map fun kv => (kv.1, .scalar kv.2)) ++ (G.vars.map fun kv => (kv.1, readVar kv.2)) ++ lists ++ rest) := by
    obtain ⟨a, d, v, g⟩ := G
    rw [load]
    simp only [Group.dims] at hlc
    rw [hlc]
    simp only
    simp only [Group.groups] at hparams
    rw [hparams]
  rw [hload]
  generalize hP : (G.attrs.map fun kv => (kv.1, Value.scalar kv.2)) ++ (G.vars.map fun kv => (kv.1, readVar kv.2)) ++ lists ++ rest = P
  -- every parameter belongs to the class or to a piece
  have hmem : ∀ e ∈ P, (∃ s, (e.1, s) ∈ A ∧ e.2 = .scalar s) ∨ ∃ z ∈ Z, Entry C z e := by
    intro e he
    rw [← hP, List.mem_append, List.mem_append, List.mem_append] at he
    rcases he with ((he | he) | he) | he
    · obtain ⟨x, hx, rfl⟩ := List.mem_map.1 he
      rcases (m1 x).1 hx with h | ⟨z, hz, h⟩
      · exact .inl ⟨x.2, h, rfl⟩
      · obtain ⟨h1, h2⟩ := holds_attrs (hZ z hz) x h
        exact .inr ⟨z, hz, h1, by rw [h2]; exact same_refl _⟩
    · obtain ⟨x, hx, rfl⟩ := List.mem_map.1 he
      obtain ⟨z, hz, h⟩ := (m3 x).1 hx
      exact .inr ⟨z, hz, holds_vars (hZ z hz) x h⟩
    · obtain ⟨d, hd, h⟩ := (mapM_mem hlists e).1 he
      obtain ⟨z, hz, r, hr, hE⟩ := hitems d hd
      rw [h] at hr
      cases hr
      exact .inr ⟨z, hz, hE⟩
    · obtain ⟨x, hx, h⟩ := (mapM_mem hrest' e).1 he
      obtain ⟨z, hz, v, hv, hE⟩ := hrest x hx
      unfold named at h
      rw [hv] at h
      cases h
      exact .inr ⟨z, hz, hE⟩
  have hAmem : ∀ k s, (k, s) ∈ A → cls.isSome = true ∧ (k = classId ∨ k = "Conventions") := by
    intro k s h
    rcases hA with h' | ⟨h', h''⟩
    · rw [h'] at h
      cases cls with
      | none => simp [classAttrs] at h
      | some c => simp [classAttrs] at h; exact ⟨rfl, .inl h.1⟩
    · rw [h''] at h
      refine ⟨h', ?_⟩
      rcases List.mem_cons.1 h with h | h
      · cases h; exact .inr rfl
      · cases cls with
        | none => simp [classAttrs] at h
        | some c => simp [classAttrs] at h; exact .inl h.1
  refine makeObject_same hk ho ?_ ?_ ?_
  · -- attributes
    intro kv hkv
    obtain ⟨z, hz, rfl⟩ := List.mem_map.1 hkv
    cases hg : dictGet P z.1.1 with
    | some w =>
      left
      refine ⟨w, rfl, ?_⟩
      rcases hmem _ (mem_of_dictGet hg) with ⟨s, hs, _⟩ | ⟨z', hz', h1, h2⟩
      · rcases (hAmem _ s hs).2 with h | h
        · exact absurd h (hkz z hz).2.1
        · exact absurd h (hkz z hz).2.2.1
      · have : z = z' := pieces_sep hk' hz hz' (self_dim _) (by simp only at h1; rw [h1]; exact self_dim _)
        subst this
        exact h2
    | none =>
      right
      refine ⟨?_, rfl⟩
      have hnone := dictGet_none_iff.1 hg
      have hno : ∀ e ∈ P, e.1 ≠ z.1.1 := hnone
      have hh := hZ z hz
      obtain ⟨⟨k, v⟩, p⟩ := z
      simp only at hh hno ⊢
      cases hh with
      | absent h => exact h
      | @attr s h =>
        exfalso
        refine hno (k, .scalar s) ?_ rfl
        rw [← hP, List.mem_append, List.mem_append, List.mem_append]
        exact .inl (.inl (.inl (List.mem_map.2 ⟨(k, s), (m1 _).2 (.inr ⟨_, hz, by simp [Group.attrs]⟩), rfl⟩)))
      | @var _ x h =>
        exfalso
        refine hno (k, readVar x) ?_ rfl
        rw [← hP, List.mem_append, List.mem_append, List.mem_append]
        exact .inl (.inl (.inr (List.mem_map.2 ⟨(k, x), (m3 _).2 ⟨_, hz, by simp [Group.vars]⟩, rfl⟩)))
      | @group sub w hl hs =>
        exfalso
        refine hno (k, w) ?_ rfl
        rw [← hP, List.mem_append]
        refine .inr ((mapM_mem hrest' _).2 ⟨(k, load C sub), List.mem_filter.2 ⟨loadGroups_mem.2 ⟨sub, (m4 _).2 ⟨_, hz, by simp [Group.groups]⟩, rfl⟩, ?_⟩, ?_⟩)
        · simp only [Bool.not_eq_true', List.contains_eq_mem, decide_eq_false_iff_not]
          intro hin
          unfold itemNames at hin
          obtain ⟨d, hd, hd'⟩ := List.mem_flatMap.1 hin
          obtain ⟨i, _, hi⟩ := List.mem_map.1 hd'
          exact (hkz _ hz).1 _ _ hi.symm
        · unfold named
          simp only
          rw [hl]
      | @items l subs a1 a2 a3 a4 =>
        exfalso
        have hd : (k, l.length) ∈ listDims G := (hlist _).2 ⟨_, hz, l, subs, a1, a2, a3, a4, rfl, rfl⟩
        obtain ⟨z', hz', r, hr, hE⟩ := hitems _ hd
        have hr1 : r.1 = k := by
          unfold readItems at hr
          simp only at hr
          split at hr
          · cases hr; rfl
          · cases hr
        refine hno r ?_ hr1
        rw [← hP, List.mem_append, List.mem_append]
        exact .inl (.inr ((mapM_mem hlists _).2 ⟨_, hd, hr⟩))
  · -- the class
    cases cls with
    | none =>
      refine dictGet_eq_none fun e he h => ?_
      rcases hmem e he with ⟨s, hs, _⟩ | ⟨z, hz, h1, _⟩
      · exact absurd (hAmem _ s hs).1 (by simp)
      · exact (hkz z hz).2.1 (h1.symm.trans h)
    | some c =>
      have hin : (classId, Scalar.str c) ∈ A := by
        rcases hA with h | ⟨_, h⟩ <;> rw [h] <;> simp [classAttrs]
      refine dictGet_unique ?_ ?_
      · rw [← hP, List.mem_append, List.mem_append, List.mem_append]
        exact .inl (.inl (.inl (List.mem_map.2 ⟨(classId, .str c), (m1 _).2 (.inl hin), rfl⟩)))
      · intro x hx
        rcases hmem _ hx with ⟨s, hs, h⟩ | ⟨z, hz, h1, _⟩
        · simp only at hs h
          have : s = .str c := by
            rcases hA with h' | ⟨_, h'⟩ <;> rw [h'] at hs <;> simpa [classAttrs, classId] using hs
          rw [h, this]
        · exact absurd h1.symm (hkz z hz).2.1
  · intro e he
    rcases hmem e he with ⟨s, hs, _⟩ | ⟨z, hz, h1, _⟩
    · exact .inr (hAmem _ s hs)
    · left
      rw [h1]
      exact List.mem_map.2 ⟨z.1, List.mem_map.2 ⟨z, hz, rfl⟩, rfl⟩

end Verif.Eumopps.Persist
