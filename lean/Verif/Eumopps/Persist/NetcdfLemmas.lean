import Verif.Eumopps.Persist.Netcdf
import Verif.Eumopps.Persist.JsonProps
import Verif.Eumopps.Time.Props

/-! C19: what is saved for each attribute, and how a group of such pieces is loaded. -/

namespace Verif.Eumopps.Persist

open Verif Verif.Py Verif.Calendar Verif.Eumopps.Names Verif.Eumopps.Time Verif.Eumopps.Periods

/-! ### Dictionaries -/

theorem dictGet_cons {α β : Type} [DecidableEq α] (e : α × β) (l : List (α × β)) (k : α) :
    dictGet (e :: l) k = match dictGet l k with | some v => some v | none => if e.1 = k then some e.2 else none := by
  unfold dictGet
  rw [List.reverse_cons, List.find?_append]
  cases List.find? (fun e : α × β => decide (e.1 = k)) l.reverse with
  | some x => rfl
  | none =>
    by_cases h : e.1 = k <;> simp [h]

theorem dictGet_unique {α β : Type} [DecidableEq α] {l : List (α × β)} {k : α} {w : β} (h : (k, w) ∈ l) (hu : ∀ x, (k, x) ∈ l → x = w) :
    dictGet l k = some w := by
  cases hd : dictGet l k with
  | none => exact absurd rfl (dictGet_none_iff.1 hd _ h)
  | some x => rw [hu x (mem_of_dictGet hd)]

theorem dictGet_filter {α β : Type} [DecidableEq α] {p : α × β → Bool} {k : α} : ∀ {l : List (α × β)}, (∀ x, p (k, x) = true) →
    dictGet (l.filter p) k = dictGet l k
  | [], _ => rfl
  | e :: l, h => by
    have ih := dictGet_filter (l := l) h
    rw [dictGet_cons, List.filter_cons]
    by_cases hp : p e = true
    · rw [if_pos hp, dictGet_cons, ih]
    · rw [if_neg hp, ih]
      cases dictGet l k with
      | some v => rfl
      | none =>
        by_cases he : e.1 = k
        · exact absurd (by obtain ⟨a, b⟩ := e; cases he; exact h b) hp
        · rw [if_neg he]

/-! ### Same values -/

theorem same_refl (v : Value) : Same v v := fun _ => rfl

theorem same_list {a b : List Value} (hl : a.length = b.length) (h : ∀ (i : Nat) x y, a[i]? = some x → b[i]? = some y → Same x y) :
    Same (.list a) (.list b) := by
  intro p
  match p with
  | [] => simp [shapeAt, hl]
  | .attr k :: p => simp [shapeAt]
  | .index i :: p =>
    simp only [shapeAt]
    by_cases hi : i < a.length
    · have hj : i < b.length := hl ▸ hi
      rw [List.getElem?_eq_getElem hi, List.getElem?_eq_getElem hj]
      exact h i _ _ (List.getElem?_eq_getElem hi) (List.getElem?_eq_getElem hj) p
    · rw [List.getElem?_eq_none (by omega), List.getElem?_eq_none (by omega)]

theorem same_obj {c : Option String} {f f' : List (String × Value)}
    (h : ∀ k, (dictGet f k = none ∧ dictGet f' k = none) ∨ ∃ x y, dictGet f k = some x ∧ dictGet f' k = some y ∧ Same x y) :
    Same (.obj c f) (.obj c f') := by
  intro p
  match p with
  | [] => simp [shapeAt]
  | .index k :: p => simp [shapeAt]
  | .attr k :: p =>
    simp only [shapeAt]
    rcases h k with ⟨h1, h2⟩ | ⟨x, y, h1, h2, h3⟩
    · rw [h1, h2]
    · rw [h1, h2]
      exact h3 p

theorem shape_nil (v : Value) : (shapeAt [] v).isSome = true := by
  cases v <;> simp [shapeAt]

theorem same_truthy {v w : Value} (h : Same v w) : truthy v = truthy w := by
  have h0 := h []
  cases v with
  | none => cases w <;> simp [shapeAt] at h0; rfl
  | scalar s =>
    cases w with
    | scalar s' => simp only [shapeAt, Option.some.injEq, Shape.scalar.injEq] at h0; rw [h0]
    | _ => simp [shapeAt] at h0
  | list l =>
    cases w with
    | list l' =>
      simp only [shapeAt, Option.some.injEq, Shape.list.injEq] at h0
      unfold truthy
      cases l <;> cases l' <;> simp at h0 ⊢
    | _ => simp [shapeAt] at h0
  | obj c f =>
    cases w with
    | obj c' f' =>
      simp only [shapeAt, Option.some.injEq, Shape.obj.injEq] at h0
      subst h0
      cases c with
      | some c => rfl
      | none =>
        have key : ∀ {a b : List (String × Value)}, Same (.obj none a) (.obj none b) → b = [] → a = [] := by
          intro a b hs hb
          subst hb
          cases a with
          | nil => rfl
          | cons e a =>
            exfalso
            have := hs [.attr e.1]
            simp only [shapeAt] at this
            cases hd : dictGet (e :: a) e.1 with
            | none => exact dictGet_none_iff.1 hd e (by simp) rfl
            | some x =>
              rw [hd] at this
              have hn : dictGet ([] : List (String × Value)) e.1 = none := rfl
              rw [hn] at this
              have := shape_nil x
              simp_all
        have e1 := key h
        have e2 := key (fun p => (h p).symm)
        unfold truthy
        cases f with
        | nil => rw [e2 rfl]
        | cons a f => cases f' with
          | nil => cases e1 rfl
          | cons b f' => rfl
    | _ => simp [shapeAt] at h0

/-- Attributes one after the other. -/
theorem same_fields {c : Option String} {f f' : List (String × Value)} (h : List.Forall₂ (fun a b => a.1 = b.1 ∧ Same a.2 b.2) f f') :
    Same (.obj c f) (.obj c f') := by
  apply same_obj
  intro k
  induction h with
  | nil => exact .inl ⟨rfl, rfl⟩
  | @cons a b l l' hab _ ih =>
    rw [dictGet_cons, dictGet_cons]
    rcases ih with ⟨h1, h2⟩ | ⟨x, y, h1, h2, h3⟩
    · rw [h1, h2, ← hab.1]
      by_cases hk : a.1 = k
      · rw [if_pos hk]
        exact .inr ⟨a.2, b.2, rfl, by simp [hk], hab.2⟩
      · rw [if_neg hk]
        exact .inl ⟨rfl, by simp [hk]⟩
    · rw [h1, h2]
      exact .inr ⟨x, y, rfl, rfl, h3⟩

/-! ### Names -/

theorem decimal_number (n : Nat) : number (decimal n) = some n := by
  induction n using Nat.strongRecOn with
  | _ n ih =>
    rw [decimal]
    obtain ⟨h1, h2⟩ := digit_value n
    by_cases h : n < 10
    · rw [if_pos h]
      have := number_append [] (digit n)
      rw [List.nil_append] at this
      rw [this]
      show (some 0).bind _ = _
      rw [Option.bind_some, if_pos h1, h2]
      congr 1
      omega
    · rw [if_neg h, number_append, ih (n / 10) (by omega), Option.bind_some, if_pos h1, h2]
      congr 1
      omega

theorem number_zeros (k : Nat) (s : List Char) : number (List.replicate k '0' ++ s) = number s := by
  induction k with
  | zero => rfl
  | succ k ih =>
    rw [List.replicate_succ, List.cons_append]
    exact ih

theorem digit_ne (n : Nat) : digit n ≠ '_' := by
  have := (digit_value n).1.2
  intro h
  rw [h] at this
  exact absurd this (by decide)

theorem decimal_ne (n : Nat) : '_' ∉ decimal n := by
  induction n using Nat.strongRecOn with
  | _ n ih =>
    rw [decimal]
    by_cases h : n < 10
    · rw [if_pos h, List.mem_singleton]
      exact fun e => digit_ne n e.symm
    · rw [if_neg h, List.mem_append, List.mem_singleton]
      rintro (e | e)
      · exact ih (n / 10) (by omega) e
      · exact digit_ne n e.symm

theorem split_last {α : Type} {x : α} {a b s t : List α} (h : a ++ x :: s = b ++ x :: t) (hs : x ∉ s) (ht : x ∉ t) : a = b ∧ s = t := by
  rcases List.append_eq_append_iff.1 h with ⟨c, h1, h2⟩ | ⟨c, h1, h2⟩
  · cases c with
    | nil => simp at h1 h2; exact ⟨h1.symm, h2⟩
    | cons y c => simp at h2; exact absurd (by rw [h2.2]; simp) hs
  · cases c with
    | nil => simp at h1 h2; exact ⟨h1, h2.symm⟩
    | cons y c => simp at h2; exact absurd (by rw [h2.2]; simp) ht

theorem itemName_inj {k k' : String} {i j : Nat} (h : itemName k i = itemName k' j) : k = k' ∧ i = j := by
  unfold itemName at h
  have h := congrArg String.toList h
  rw [String.toList_append, String.toList_append, String.toList_append, String.toList_append, String.toList_ofList, String.toList_ofList,
    String.toList_ofList, List.append_assoc, List.append_assoc, List.singleton_append, List.singleton_append] at h
  have hne : ∀ n, '_' ∉ List.replicate (8 - (decimal n).length) '0' ++ decimal n := by
    intro n hm
    rcases List.mem_append.1 hm with h | h
    · exact absurd (List.mem_replicate.1 h).2 (by decide)
    · exact decimal_ne n h
  obtain ⟨h1, h2⟩ := split_last h (hne i) (hne j)
  refine ⟨String.toList_inj.1 h1, ?_⟩
  have := congrArg number h2
  rw [number_zeros, number_zeros, decimal_number, decimal_number] at this
  exact Option.some.inj this

/-- A name which is not that of an element of a list. -/
def Plain (k : String) : Prop := ∀ x i, k ≠ itemName x i

/-- Names of dimensions made for an attribute. -/
def dimNames (k : String) : List String := [k, lengthName k, k ++ "2"]

/-- Names of attributes which do not get into each other's way. -/
def KeysOk (keys : List String) : Prop :=
  (∀ k ∈ keys, Plain k ∧ k ≠ classId ∧ k ≠ "Conventions" ∧ listCount ∉ dimNames k) ∧
  keys.Pairwise fun k k' => ∀ d ∈ dimNames k, d ∉ dimNames k'

theorem keys_nodup {keys : List String} (h : KeysOk keys) : keys.Nodup := by
  refine h.2.imp ?_
  intro a b h hab
  exact h a (by simp [dimNames]) (by rw [hab]; simp [dimNames])

/-! ### Objects from their parameters -/

/-- Attributes which are not saved: None and empty lists. -/
def dropped : Value → Bool
  | .none => true
  | .list [] => true
  | _ => false

/-- Attributes of an instance which its class gives back: None and empty lists are what the class makes of the default of the parameter. -/
def Restored (ps : List Param) (f : List (String × Value)) : Prop :=
  List.Forall₂ (fun p kv => p.name = kv.1 ∧ p.settle kv.2 = kv.2 ∧
    (dropped kv.2 = true → ∃ d, p.default = some d ∧ p.settle d = kv.2)) ps f

/-- Instances are given back by their class; dictionaries have no None and no empty lists. -/
def ObjOk (C : Classes) (cls : Option String) (f : List (String × Value)) : Prop :=
  match cls with
  | some c => ∃ ps, C c = some ps ∧ (ps.map (·.name)).Nodup ∧ Restored ps f
  | none => ∀ kv ∈ f, dropped kv.2 = false

theorem restored_keys {ps : List Param} {f : List (String × Value)} (h : Restored ps f) : f.map (·.1) = ps.map (·.name) := by
  unfold Restored at h
  induction h with
  | nil => rfl
  | cons h _ ih => rw [List.map_cons, List.map_cons, ih, h.1]

theorem settle_same {p : Param} {v w : Value} (hs : Same v w) (h : p.settle v = v) : Same v (p.settle w) := by
  unfold Param.settle at *
  cases ho : p.orElse with
  | none => exact hs
  | some r =>
    rw [ho] at h
    simp only at h ⊢
    rw [← same_truthy hs]
    by_cases ht : truthy v = true
    · rw [if_pos ht]; exact hs
    · rw [if_neg ht] at h ⊢
      rw [h]
      exact same_refl v

/-- What the parameters hold for the attributes. -/
def Given (P f : List (String × Value)) : Prop :=
  ∀ kv ∈ f, (∃ w, dictGet P kv.1 = some w ∧ Same kv.2 w) ∨ (dropped kv.2 = true ∧ dictGet P kv.1 = none)

theorem make_same {C : Classes} {c : String} {ps : List Param} {P f : List (String × Value)} (hc : C c = some ps) (hd : Restored ps f)
    (hP : Given P f) (hk : ∀ e ∈ P, e.1 ∈ f.map (·.1)) : ∃ w, make C c P = .ok w ∧ Same (.obj (some c) f) w := by
  unfold make
  rw [hc]
  simp only
  rw [if_neg ?_]
  · have : ∃ f', ps.mapM (argument P) = .ok f' ∧ List.Forall₂ (fun a b => a.1 = b.1 ∧ Same a.2 b.2) f f' := by
      clear hk hc
      unfold Restored at hd
      induction hd with
      | nil => exact ⟨[], rfl, .nil⟩
      | @cons p kv ps' f' h _ ih =>
        obtain ⟨r, hr, hr2⟩ := ih fun x hx => hP x (by simp [hx])
        obtain ⟨h1, h2, h3⟩ := h
        have : ∃ b, argument P p = .ok b ∧ kv.1 = b.1 ∧ Same kv.2 b.2 := by
          unfold argument
          rw [h1]
          rcases hP kv (by simp) with ⟨w, hw, hs⟩ | ⟨hdr, hn⟩
          · rw [hw]
            exact ⟨_, rfl, rfl, settle_same hs h2⟩
          · rw [hn]
            obtain ⟨d, hd1, hd2⟩ := h3 hdr
            rw [hd1]
            exact ⟨_, rfl, rfl, by rw [hd2]; exact same_refl _⟩
        obtain ⟨b, hb, hb2⟩ := this
        exact ⟨b :: r, by rw [List.mapM_cons, hb, hr]; rfl, .cons hb2 hr2⟩
    obtain ⟨f', h1, h2⟩ := this
    rw [h1]
    exact ⟨_, rfl, same_fields h2⟩
  · intro h
    rw [List.any_eq_true] at h
    obtain ⟨kv, h1, h2⟩ := h
    have := hk kv h1
    rw [restored_keys hd] at this
    simp at h2
    simp at this
    obtain ⟨p, hp, hpn⟩ := this
    exact h2 p hp hpn

/-- Parameters which hold the attributes and the class give the object. -/
theorem makeObject_same {C : Classes} {cls : Option String} {P f : List (String × Value)} (hk : KeysOk (f.map (·.1))) (ho : ObjOk C cls f)
    (hP : Given P f) (hc : dictGet P classId = cls.map fun c => .scalar (.str c))
    (hkeys : ∀ e ∈ P, e.1 ∈ f.map (·.1) ∨ (cls.isSome = true ∧ (e.1 = classId ∨ e.1 = "Conventions"))) :
    ∃ w, makeObject C P = .ok w ∧ Same (.obj cls f) w := by
  unfold makeObject
  rw [hc]
  cases cls with
  | some c =>
    simp only [Option.map_some]
    obtain ⟨ps, h1, _, h3⟩ := ho
    refine make_same h1 h3 ?_ ?_
    · intro kv hkv
      have hkk := hk.1 kv.1 (List.mem_map_of_mem hkv)
      rw [dictGet_filter (by intro x; simp [hkk.2.1, hkk.2.2.1])]
      exact hP kv hkv
    · intro e he
      obtain ⟨he1, he2⟩ := List.mem_filter.1 he
      simp at he2
      rcases hkeys e he1 with h | ⟨_, h | h⟩
      · exact h
      · exact absurd h he2.1
      · exact absurd h he2.2
  | none =>
    simp only [Option.map_none]
    refine ⟨_, rfl, same_obj ?_⟩
    intro k
    by_cases hkm : k ∈ f.map (·.1)
    · obtain ⟨kv, hkv, rfl⟩ := List.mem_map.1 hkm
      rcases hP kv hkv with ⟨w, hw, hs⟩ | ⟨hd, _⟩
      · exact .inr ⟨kv.2, w, dictGet_eq_some (keys_nodup hk) hkv, hw, hs⟩
      · rw [ho kv hkv] at hd; cases hd
    · left
      refine ⟨dictGet_eq_none fun e he h => hkm (h ▸ List.mem_map_of_mem he), dictGet_eq_none fun e he h => ?_⟩
      rcases hkeys e he with h' | ⟨h', _⟩
      · exact hkm (h ▸ h')
      · cases h'

end Verif.Eumopps.Persist
