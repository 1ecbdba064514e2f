import Verif.Py

/-! Facts about the transcription layer: stable sort followed by grouping. -/
namespace Verif.Py

theorem insertBy_perm (f : α → Int) (x : α) : ∀ l : List α, (insertBy f x l).Perm (x :: l)
  | [] => List.Perm.refl _
  | y :: ys => by
    unfold insertBy
    split
    · exact List.Perm.refl _
    · exact ((insertBy_perm f x ys).cons y).trans (List.Perm.swap x y ys)

theorem insertBy_pairwise (f : α → Int) (x : α) : ∀ {l : List α}, l.Pairwise (fun a b => f a ≤ f b) →
    (insertBy f x l).Pairwise (fun a b => f a ≤ f b)
  | [], _ => by simp [insertBy]
  | y :: ys, h => by
    have h' := List.pairwise_cons.1 h
    unfold insertBy
    split
    · rename_i hxy
      refine List.pairwise_cons.2 ⟨?_, h⟩
      intro z hz
      rcases List.mem_cons.1 hz with rfl | hz
      · exact hxy
      · have := h'.1 z hz; omega
    · rename_i hxy
      refine List.pairwise_cons.2 ⟨?_, insertBy_pairwise f x h'.2⟩
      intro z hz
      rcases List.mem_cons.1 ((insertBy_perm f x ys).mem_iff.1 hz) with rfl | hz
      · omega
      · exact h'.1 z hz

theorem insertBy_filter (f : α → Int) (x : α) (k : Int) : ∀ {l : List α}, l.Pairwise (fun a b => f a ≤ f b) →
    (insertBy f x l).filter (fun a => decide (f a = k)) = (x :: l).filter (fun a => decide (f a = k))
  | [], _ => by simp [insertBy]
  | y :: ys, h => by
    have h' := List.pairwise_cons.1 h
    unfold insertBy
    split
    · rfl
    · rename_i hxy
      have ih := insertBy_filter f x k h'.2
      by_cases hx : f x = k
      · have hy : f y ≠ k := by omega
        rw [List.filter_cons_of_neg (by simpa using hy), ih]
        simp [hx, hy]
      · rw [List.filter_cons, ih]
        simp [List.filter_cons, hx]

theorem sortedBy_pairwise (f : α → Int) (l : List α) :
    (sortedBy f l).Pairwise (fun a b => f a ≤ f b) := by
  induction l with
  | nil => simp [sortedBy]
  | cons x l ih => exact insertBy_pairwise f x ih

theorem sortedBy_perm (f : α → Int) (l : List α) : (sortedBy f l).Perm l := by
  induction l with
  | nil => exact List.Perm.refl _
  | cons x l ih => exact (insertBy_perm f x _).trans (ih.cons x)

/-- The sort is stable: elements with one key keep their original order. -/
theorem sortedBy_filter (f : α → Int) (l : List α) (k : Int) :
    (sortedBy f l).filter (fun a => decide (f a = k)) = l.filter (fun a => decide (f a = k)) := by
  induction l with
  | nil => rfl
  | cons x l ih =>
    have : sortedBy f (x :: l) = insertBy f x (sortedBy f l) := rfl
    rw [this, insertBy_filter f x k (sortedBy_pairwise f l), List.filter_cons, List.filter_cons, ih]

theorem groupby_spec (f : α → Int) : ∀ (l : List α), l.Pairwise (fun a b => f a ≤ f b) →
    ((groupby f l).Pairwise (fun a b => a.1 < b.1)) ∧
    (∀ e ∈ groupby f l, e.2 ≠ [] ∧ e.2 = l.filter (fun a => decide (f a = e.1))) ∧
    (∀ a ∈ l, ∃ e ∈ groupby f l, e.1 = f a) ∧
    (∀ x xs, l = x :: xs → ∃ g rest, groupby f l = (f x, g) :: rest)
  | [], _ => by simp [groupby]
  | x :: xs, h => by
    have hx := List.pairwise_cons.1 h
    obtain ⟨i1, i2, i3, i4⟩ := groupby_spec f xs hx.2
    unfold groupby
    cases hg : groupby f xs with
    | nil =>
      have hxs : xs = [] := by
        cases xs with
        | nil => rfl
        | cons y ys => obtain ⟨g, rest, h4⟩ := i4 y ys rfl; rw [hg] at h4; cases h4
      subst hxs
      simp
    | cons kg rest =>
      obtain ⟨k, g⟩ := kg
      rw [hg] at i1 i2 i3 i4
      have hxs : ∃ y ys, xs = y :: ys := by
        cases xs with
        | nil => simp [groupby] at hg
        | cons y ys => exact ⟨y, ys, rfl⟩
      obtain ⟨y, ys, rfl⟩ := hxs
      have hk : k = f y := by
        obtain ⟨g', r', h4⟩ := i4 y ys rfl
        simp only [List.cons.injEq, Prod.mk.injEq] at h4
        exact h4.1.1
      have hxy : f x ≤ f y := hx.1 y (by simp)
      have i1' := List.pairwise_cons.1 i1
      simp only
      split
      · rename_i heq
        refine ⟨?_, ?_, ?_, ?_⟩
        · exact List.pairwise_cons.2 ⟨i1'.1, i1'.2⟩
        · intro e he
          rcases List.mem_cons.1 he with rfl | he
          · have := (i2 (k, g) (by simp)).2
            simp only at this ⊢
            refine ⟨by simp, ?_⟩
            rw [List.filter_cons_of_pos (by simpa using heq), ← this]
          · have h2 := i2 e (List.mem_cons_of_mem _ he)
            refine ⟨h2.1, ?_⟩
            rw [List.filter_cons_of_neg, ← h2.2]
            have := i1'.1 e he
            simp only at this
            simp only [decide_eq_true_eq]; omega
        · intro a ha
          rcases List.mem_cons.1 ha with rfl | ha
          · exact ⟨(k, a :: g), by simp, heq.symm⟩
          · obtain ⟨e, he, hea⟩ := i3 a ha
            rcases List.mem_cons.1 he with rfl | he
            · exact ⟨(k, x :: g), by simp, hea⟩
            · exact ⟨e, List.mem_cons_of_mem _ he, hea⟩
        · intro a as haas
          simp only [List.cons.injEq] at haas
          obtain ⟨rfl, rfl⟩ := haas
          exact ⟨x :: g, rest, by rw [heq]⟩
      · rename_i hne
        have hlt : f x < k := by omega
        have hallgt : ∀ z ∈ y :: ys, f x < f z := by
          intro z hz
          rcases List.mem_cons.1 hz with rfl | hz
          · omega
          · have := (List.pairwise_cons.1 hx.2).1 z hz
            omega
        have hkeys : ∀ e ∈ (k, g) :: rest, f x < e.1 := by
          intro e he
          rcases List.mem_cons.1 he with rfl | he
          · exact hlt
          · have := i1'.1 e he
            simp only at this; omega
        refine ⟨?_, ?_, ?_, ?_⟩
        · exact List.pairwise_cons.2 ⟨hkeys, i1⟩
        · intro e he
          rcases List.mem_cons.1 he with rfl | he
          · refine ⟨by simp, ?_⟩
            simp only
            rw [List.filter_cons_of_pos (by simp)]
            congr 1
            symm
            rw [List.filter_eq_nil_iff]
            intro z hz
            have := hallgt z hz
            simp only [decide_eq_true_eq]; omega
          · have h2 := i2 e he
            refine ⟨h2.1, ?_⟩
            rw [List.filter_cons_of_neg, ← h2.2]
            have := hkeys e he
            simp only [decide_eq_true_eq]; omega
        · intro a ha
          rcases List.mem_cons.1 ha with rfl | ha
          · exact ⟨(f a, [a]), by simp, rfl⟩
          · obtain ⟨e, he, hea⟩ := i3 a ha
            exact ⟨e, List.mem_cons_of_mem _ he, hea⟩
        · intro a as haas
          simp only [List.cons.injEq] at haas
          obtain ⟨rfl, rfl⟩ := haas
          exact ⟨_, _, rfl⟩

theorem dictGet_eq_some [DecidableEq κ] {l : List (κ × β)} {k : κ} {v : β}
    (hn : (l.map (·.1)).Nodup) (h : (k, v) ∈ l) : dictGet l k = some v := by
  unfold dictGet
  cases hf : l.reverse.find? (fun e => decide (e.1 = k)) with
  | none =>
    rw [List.find?_eq_none] at hf
    have := hf (k, v) (by simpa using h)
    simp at this
  | some e =>
    have he := List.mem_of_find?_eq_some hf
    have hk := List.find?_some hf
    simp only [decide_eq_true_eq] at hk
    rw [List.mem_reverse] at he
    obtain ⟨e1, e2⟩ := e
    simp only at hk; subst hk
    simp only [Option.map_some, Option.some.injEq]
    rw [List.nodup_iff_pairwise_ne, List.pairwise_map] at hn
    by_cases hv : e2 = v
    · exact hv
    · exfalso
      have key : ∀ (m : List (κ × β)), m.Pairwise (fun a b => a.1 ≠ b.1) →
          ∀ a ∈ m, ∀ b ∈ m, a.1 = b.1 → a = b := by
        intro m hm
        induction hm with
        | nil => simp
        | cons hc _ ih =>
          intro a ha b hb hab
          rcases List.mem_cons.1 ha with ha1 | ha1 <;> rcases List.mem_cons.1 hb with hb1 | hb1
          · rw [ha1, hb1]
          · exact absurd hab (by rw [ha1]; exact hc b hb1)
          · exact absurd hab.symm (by rw [hb1]; exact hc a ha1)
          · exact ih a ha1 b hb1 hab
      have := key l hn _ he _ h rfl
      simp only [Prod.mk.injEq, true_and] at this
      exact hv this

theorem dictGet_eq_none [DecidableEq κ] {l : List (κ × β)} {k : κ}
    (h : ∀ e ∈ l, e.1 ≠ k) : dictGet l k = none := by
  unfold dictGet
  have : l.reverse.find? (fun e => decide (e.1 = k)) = none := by
    rw [List.find?_eq_none]
    intro e he
    simpa using h e (by simpa using he)
  rw [this]; rfl

/-- Looking up a key after a stable sort and grouping gives exactly the elements with that key, in order. -/
theorem dictGet_groupby (f : α → Int) (l : List α) (k : Int) :
    dictGet (groupby f (sortedBy f l)) k =
      if l.filter (fun a => decide (f a = k)) = [] then none
      else some (l.filter (fun a => decide (f a = k))) := by
  obtain ⟨h1, h2, h3, _⟩ := groupby_spec f (sortedBy f l) (sortedBy_pairwise f l)
  by_cases hnil : l.filter (fun a => decide (f a = k)) = []
  · rw [if_pos hnil]
    apply dictGet_eq_none
    intro e he hek
    have := h2 e he
    rw [sortedBy_filter, hek, hnil] at this
    exact this.1 this.2
  · rw [if_neg hnil]
    obtain ⟨a, ha⟩ := List.exists_mem_of_ne_nil _ hnil
    simp only [List.mem_filter, decide_eq_true_eq] at ha
    obtain ⟨e, he, hea⟩ := h3 a ((sortedBy_perm f l).mem_iff.2 ha.1)
    have hek : e.1 = k := by omega
    have := (h2 e he).2
    rw [sortedBy_filter, hek] at this
    apply dictGet_eq_some
    · rw [List.nodup_iff_pairwise_ne, List.pairwise_map]
      exact h1.imp (by intro a b hab; omega)
    · rw [← this, ← hek]; exact he

theorem dictGet_map [DecidableEq κ] (l : List (κ × β)) (h : β → γ) (k : κ) :
    dictGet (l.map (fun e => (e.1, h e.2))) k = (dictGet l k).map h := by
  unfold dictGet
  rw [← List.map_reverse, List.find?_map, Option.map_map, Option.map_map]
  rfl

theorem mem_of_dictGet [DecidableEq κ] {l : List (κ × β)} {k : κ} {v : β} (h : dictGet l k = some v) :
    (k, v) ∈ l := by
  unfold dictGet at h
  cases hf : l.reverse.find? (fun e => decide (e.1 = k)) with
  | none => rw [hf] at h; cases h
  | some e =>
    rw [hf] at h
    have he := List.mem_of_find?_eq_some hf
    have hk := List.find?_some hf
    simp only [decide_eq_true_eq, Option.map_some, Option.some.injEq, List.mem_reverse] at hk h he
    subst hk; subst h
    exact he

theorem dictGet_append_single [DecidableEq κ] (l : List (κ × β)) (k k' : κ) (v : β) :
    dictGet (l ++ [(k, v)]) k' = if k = k' then some v else dictGet l k' := by
  unfold dictGet
  rw [List.reverse_append]
  simp only [List.reverse_cons, List.reverse_nil, List.nil_append, List.singleton_append, List.find?_cons]
  by_cases h : k = k' <;> simp [h]

theorem dictGet_none_iff [DecidableEq κ] {l : List (κ × β)} {k : κ} :
    dictGet l k = none ↔ ∀ e ∈ l, e.1 ≠ k := by
  unfold dictGet
  simp [List.find?_eq_none]

/-- A successful `mapM` (a list comprehension whose body may raise) is pointwise. -/
theorem mapM_ok {α β : Type} {f : α → Except PyErr β} : ∀ {l : List α} {r : List β}, l.mapM f = .ok r →
    r.length = l.length ∧ ∀ (k : Nat) (a : α), l[k]? = some a → ∃ b, r[k]? = some b ∧ f a = .ok b
  | [], r, h => by
    simp only [List.mapM_nil] at h; cases h; simp
  | a :: l, r, h => by
    rw [List.mapM_cons] at h
    cases hf : f a with
    | error e => rw [hf] at h; cases h
    | ok b =>
      cases hl : l.mapM f with
      | error e => rw [hf, hl] at h; cases h
      | ok bs =>
        rw [hf, hl] at h
        cases h
        obtain ⟨h1, h2⟩ := mapM_ok hl
        refine ⟨by simp [h1], ?_⟩
        intro k x hx
        cases k with
        | zero => simp only [List.getElem?_cons_zero, Option.some.injEq] at hx ⊢; subst hx; exact ⟨b, rfl, hf⟩
        | succ k => simp only [List.getElem?_cons_succ] at hx ⊢; exact h2 k x hx

/-- `mapM` succeeds when every call does. -/
theorem mapM_total {α β : Type} {f : α → Except PyErr β} : ∀ {l : List α}, (∀ a ∈ l, ∃ b, f a = .ok b) →
    ∃ r, l.mapM f = .ok r
  | [], _ => ⟨[], rfl⟩
  | a :: l, h => by
    obtain ⟨b, hb⟩ := h a (by simp)
    obtain ⟨r, hr⟩ := mapM_total (l := l) (fun x hx => h x (by simp [hx]))
    exact ⟨b :: r, by rw [List.mapM_cons, hb, hr]; rfl⟩

theorem mapM_error {α β : Type} {f : α → Except PyErr β} : ∀ {l : List α} {e : PyErr}, l.mapM f = .error e →
    ∃ a ∈ l, f a = .error e
  | [], e, h => by simp only [List.mapM_nil] at h; cases h
  | a :: l, e, h => by
    rw [List.mapM_cons] at h
    cases hf : f a with
    | error e' => rw [hf] at h; cases h; exact ⟨a, by simp, hf⟩
    | ok b =>
      cases hl : l.mapM f with
      | error e' =>
        rw [hf, hl] at h; cases h
        obtain ⟨x, hx, hx2⟩ := mapM_error hl
        exact ⟨x, by simp [hx], hx2⟩
      | ok bs => rw [hf, hl] at h; cases h

theorem idx_ok {l : List α} {i : Nat} {a : α} : idx l i = .ok a ↔ l[i]? = some a := by
  unfold idx
  cases l[i]? <;> simp

end Verif.Py
