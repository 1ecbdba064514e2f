import Verif.Eustace.Merge.Model
import Verif.Eustace.Merge.Spec

/-! C112, the first half: which files take part, and the correlations left for them. -/

namespace Verif.Eustace.Merge

open Verif

noncomputable section

/-! ### Pairs -/

lemma upper_map {α β γ : Type} (g : β → γ) (f : α → α → β) (l : List α) :
    (upper f l).map g = upper (fun a b => g (f a b)) l := by
  induction l with
  | nil => rfl
  | cons a rest ih => simp [upper, ih, List.map_append, Function.comp_def]

lemma upper_filter {α : Type} (q : α → Bool) (l : List α) :
    (upper Prod.mk l).filter (fun p => q p.1 && q p.2) = upper Prod.mk (l.filter q) := by
  induction l with
  | nil => rfl
  | cons a rest ih =>
    rw [upper, List.filter_append, ih]
    cases ha : q a
    · rw [List.filter_cons_of_neg (by simp [ha])]
      have : List.filter (fun p : α × α => q p.1 && q p.2) (List.map (Prod.mk a) rest) = [] := by
        rw [List.filter_eq_nil_iff]
        intro p hp
        obtain ⟨b, _, rfl⟩ := List.mem_map.1 hp
        simp [ha]
      rw [this, List.nil_append]
    · rw [List.filter_cons_of_pos ha, upper, List.filter_map]
      congr 2
      apply List.filter_congr
      intro b _
      simp [ha]

lemma pairs_from (a n : Nat) :
    ((List.range' a n).flatMap fun i => (List.range' (i + 1) (a + n - (i + 1))).map fun j => (i, j)) =
      upper Prod.mk (List.range' a n) := by
  induction n generalizing a with
  | zero => rfl
  | succ n ih =>
    rw [List.range'_succ, List.flatMap_cons, upper]
    have h := ih (a + 1)
    rw [show a + (n + 1) - (a + 1) = n by omega, ← h]
    congr 1
    apply List.flatMap_congr
    intro i _
    rw [show a + (n + 1) = a + 1 + n by omega]

lemma pairs_eq (n : Nat) : pairs n = upper Prod.mk (List.range n) := by
  have h := pairs_from 0 n
  rw [← List.range_eq_range'] at h
  rw [← h, pairs]
  simp

/-! ### The first loop -/

lemma scan_eq (disc : Disc) (rest : List (Option Path × Option Path)) :
    ∀ (A B : List (Option Path)) (n k : Nat) (r : List Nat), (∀ p ∈ A, isFile disc p = true) → (∀ p ∈ B, isFile disc p = true) →
      scan disc ⟨A ++ rest.map Prod.fst, B ++ rest.map Prod.snd, n, r⟩ k rest =
        ⟨A ++ (rest.map Prod.fst).filter (isFile disc), B ++ (rest.map Prod.snd).filter (isFile disc),
          n + (rest.map Prod.fst).countP (isFile disc),
          r ++ ((rest.zipIdx k).filter fun e => !isFile disc e.1.1).map Prod.snd⟩ := by
  induction rest with
  | nil => intro A B n k r _ _; simp [scan]
  | cons p rest ih =>
    intro A B n k r hA hB
    obtain ⟨x, y⟩ := p
    have herase : ∀ (C D : List (Option Path)) (z : Option Path), (∀ q ∈ C, isFile disc q = true) → isFile disc z = false →
        (C ++ z :: D).erase z = C ++ D := by
      intro C D z hC hz
      rw [List.erase_append_right _ (fun hmem => by rw [hC z hmem] at hz; cases hz), List.erase_cons_head]
    rw [scan]
    cases hx : isFile disc x <;> cases hy : isFile disc y
    · have h := ih A B n (k + 1) (r ++ [k]) hA hB
      simp only [scanOne, hx, hy, Bool.false_eq_true, if_false, List.map_cons, herase A _ x hA hx, herase B _ y hB hy]
      rw [h]
      simp [hx, hy]
    · have h := ih A (B ++ [y]) n (k + 1) (r ++ [k]) hA (by
        intro q hq
        rcases List.mem_append.1 hq with h | h
        · exact hB q h
        · rw [List.mem_singleton.1 h]; exact hy)
      simp only [List.append_assoc, List.singleton_append] at h
      simp only [scanOne, hx, hy, Bool.false_eq_true, if_false, if_true, List.map_cons, herase A _ x hA hx]
      rw [h]
      simp [hx, hy]
    · have h := ih (A ++ [x]) B (n + 1) (k + 1) r (by
        intro q hq
        rcases List.mem_append.1 hq with h | h
        · exact hA q h
        · rw [List.mem_singleton.1 h]; exact hx) hB
      simp only [List.append_assoc, List.singleton_append] at h
      simp only [scanOne, hx, hy, Bool.false_eq_true, if_false, if_true, List.map_cons, herase B _ y hB hy]
      rw [h]
      simp [hx, hy]
      omega
    · have h := ih (A ++ [x]) (B ++ [y]) (n + 1) (k + 1) r (by
        intro q hq
        rcases List.mem_append.1 hq with h | h
        · exact hA q h
        · rw [List.mem_singleton.1 h]; exact hx) (by
        intro q hq
        rcases List.mem_append.1 hq with h | h
        · exact hB q h
        · rw [List.mem_singleton.1 h]; exact hy)
      simp only [List.append_assoc, List.singleton_append] at h
      simp only [scanOne, hx, hy, if_true, List.map_cons]
      rw [h]
      simp [hx, hy]
      omega

/-! ### The correlations left -/

lemma blank_eq (index : Nat) (l : List (Nat × Nat)) (f : Nat × Nat → Option ℝ) :
    ∀ (pre : List (Option ℝ)), blank index l pre.length (pre ++ l.map f) =
      .ok (pre ++ l.map fun p => if index = p.1 ∨ index = p.2 then none else f p) := by
  induction l with
  | nil => intro pre; simp [blank]
  | cons p rest ih =>
    intro pre
    obtain ⟨i, j⟩ := p
    rw [blank]
    by_cases h : index = i ∨ index = j
    · rw [if_pos h, if_pos (by simp)]
      have h1 := ih (pre ++ [none])
      simp only [List.length_append, List.length_singleton, List.append_assoc, List.singleton_append] at h1
      rw [List.map_cons, List.set_append_right _ _ (le_refl _), Nat.sub_self, List.set_cons_zero, h1, List.map_cons, if_pos h]
    · rw [if_neg h]
      have h1 := ih (pre ++ [f (i, j)])
      simp only [List.length_append, List.length_singleton, List.append_assoc, List.singleton_append] at h1
      rw [List.map_cons, h1, List.map_cons, if_neg h]

lemma blankAll_eq (n : Nat) (removed : List Nat) : ∀ f : Nat × Nat → Option ℝ, blankAll n removed ((pairs n).map f) =
    .ok ((pairs n).map fun p => if p.1 ∈ removed ∨ p.2 ∈ removed then none else f p) := by
  induction removed with
  | nil => intro f; simp [blankAll]
  | cons index rest ih =>
    intro f
    have h := blank_eq index (pairs n) f []
    simp only [List.length_nil, List.nil_append] at h
    rw [blankAll, h]
    simp only []
    rw [ih]
    congr 2
    funext p
    by_cases h1 : p.1 ∈ rest ∨ p.2 ∈ rest
    · rw [if_pos h1, if_pos]
      rcases h1 with h1 | h1
      · exact Or.inl (List.mem_cons_of_mem _ h1)
      · exact Or.inr (List.mem_cons_of_mem _ h1)
    · rw [if_neg h1]
      by_cases h2 : index = p.1 ∨ index = p.2
      · rw [if_pos h2, if_pos]
        rcases h2 with h2 | h2
        · exact Or.inl (h2 ▸ List.mem_cons_self)
        · exact Or.inr (h2 ▸ List.mem_cons_self)
      · rw [if_neg h2, if_neg]
        simp only [List.mem_cons]
        push Not at h1 h2 ⊢
        exact ⟨⟨fun e => h2.1 e.symm, h1.1⟩, fun e => h2.2 e.symm, h1.2⟩

lemma reduce_eq (n : Nat) (removed : List Nat) (Rs : List (Nat → Nat → ℝ)) :
    reduce n removed (Rs.map fun R => upper R (List.range n)) =
      .ok (Rs.map fun R => upper R ((List.range n).filter fun k => decide (k ∉ removed))) := by
  induction Rs with
  | nil => rfl
  | cons R rest ih =>
    have h : (upper R (List.range n)).map some = (pairs n).map fun p => some (R p.1 p.2) := by
      rw [pairs_eq, upper_map, upper_map]
    rw [List.map_cons, reduce, h, blankAll_eq]
    simp only [ih, List.map_cons]
    congr 2
    rw [List.filterMap_map]
    have h2 : ∀ l : List (Nat × Nat), l.filterMap (id ∘ fun p : Nat × Nat =>
        if p.1 ∈ removed ∨ p.2 ∈ removed then none else some (R p.1 p.2)) =
        (l.filter fun p => decide (p.1 ∉ removed) && decide (p.2 ∉ removed)).map fun p => R p.1 p.2 := by
      intro l
      induction l with
      | nil => rfl
      | cons p t iht =>
        by_cases h3 : p.1 ∈ removed ∨ p.2 ∈ removed
        · rw [List.filterMap_cons_none (by simp [h3]), List.filter_cons_of_neg, iht]
          rcases h3 with h3 | h3 <;> simp [h3]
        · rw [List.filterMap_cons_some (b := R p.1 p.2) (by simp [h3]), List.filter_cons_of_pos, List.map_cons, iht]
          push Not at h3
          simp [h3.1, h3.2]
    rw [h2, pairs_eq, upper_filter (fun k => decide (k ∉ removed)), upper_map]

/-! ### Statements -/

/-- There is a file of the name given. -/
def There (disc : Disc) (p : Option Path) : Prop := ∃ q d, p = some q ∧ disc q = some d

lemma isFile_iff (disc : Disc) (p : Option Path) : isFile disc p = true ↔ There disc p := by
  unfold There
  cases p with
  | none => simp [isFile]
  | some q => simp [isFile, Option.isSome_iff_exists]

lemma clean_eq (disc : Disc) (sources : List (Option Path × Option Path)) (indexes : List (List ℝ)) :
    clean disc (sources.map Prod.fst) (sources.map Prod.snd) indexes =
      if (sources.map Prod.fst).countP (isFile disc) ≠ (sources.map Prod.snd).countP (isFile disc) then .error .valueError
      else match reduce sources.length (((sources.zipIdx 0).filter fun e => !isFile disc e.1.1).map Prod.snd) indexes with
        | .error e => .error e
        | .ok lists => .ok ⟨(sources.map Prod.fst).filter (isFile disc), (sources.map Prod.snd).filter (isFile disc),
            (sources.map Prod.fst).countP (isFile disc), lists⟩ := by
  have h := scan_eq disc sources [] [] 0 0 [] (by simp) (by simp)
  simp only [List.nil_append, Nat.zero_add] at h
  have hz : (sources.map Prod.fst).zip (sources.map Prod.snd) = sources := by
    clear h
    induction sources with
    | nil => rfl
    | cons p t ih => simp [ih]
  unfold clean
  rw [if_neg (by simp), hz, h]
  simp only [List.length_map, ← List.countP_eq_length_filter]
  split
  · rfl
  · generalize reduce sources.length _ indexes = r
    cases r <;> rfl

open Classical in
/-- C112: of sources whose two files are either both there or both not there, those which are there take part, in their order,
and the correlations left are those between them, in the order which the merging expects. -/
theorem c112_clean (disc : Disc) (sources : List (Option Path × Option Path)) (Rs : List (Nat → Nat → ℝ))
    (h : ∀ p ∈ sources, There disc p.1 ↔ There disc p.2) :
    ∃ c, clean disc (sources.map Prod.fst) (sources.map Prod.snd) (Rs.map fun R => upper R (List.range sources.length)) = .ok c ∧
      c.mains = (sources.filter fun p => decide (There disc p.1)).map Prod.fst ∧
      c.ancillaries = (sources.filter fun p => decide (There disc p.1)).map Prod.snd ∧
      c.sources = (sources.filter fun p => decide (There disc p.1)).length ∧
      c.indexes = Rs.map fun R => upper R ((List.range sources.length).filter fun k =>
        decide (∃ p, sources[k]? = some p ∧ There disc p.1)) := by
  have hb : ∀ p, decide (There disc p) = isFile disc p := by
    intro p
    rw [Bool.eq_iff_iff, decide_eq_true_iff, isFile_iff]
  have h1 : ∀ p ∈ sources, isFile disc p.1 = isFile disc p.2 := by
    intro p hp
    rw [Bool.eq_iff_iff, isFile_iff, isFile_iff]
    exact h p hp
  have hf : (sources.map Prod.fst).filter (isFile disc) = (sources.filter fun p => isFile disc p.1).map Prod.fst := by
    rw [List.filter_map]; rfl
  have hs : (sources.map Prod.snd).filter (isFile disc) = (sources.filter fun p => isFile disc p.1).map Prod.snd := by
    rw [List.filter_map]
    congr 1
    exact List.filter_congr fun p hp => (h1 p hp).symm
  have hc : (sources.map Prod.fst).countP (isFile disc) = (sources.map Prod.snd).countP (isFile disc) := by
    rw [List.countP_eq_length_filter, List.countP_eq_length_filter, hf, hs, List.length_map, List.length_map]
  rw [clean_eq, if_neg (by rw [hc]; simp), reduce_eq]
  refine ⟨_, rfl, ?_, ?_, ?_, ?_⟩
  · simp only [hb, hf]
  · simp only [hb, hs]
  · simp only [hb, List.countP_eq_length_filter, hf, List.length_map]
  · dsimp only
    apply List.map_congr_left
    intro R _
    congr 1
    apply List.filter_congr
    intro k hk
    rw [List.mem_range] at hk
    rw [Bool.eq_iff_iff, decide_eq_true_iff, decide_eq_true_iff]
    simp only [List.mem_map, List.mem_filter, Prod.exists, exists_and_right, exists_eq_right, Bool.not_eq_true']
    simp only [List.mem_zipIdx_iff_getElem?, Nat.zero_add]
    rw [List.getElem?_eq_getElem hk]
    constructor
    · intro h2
      refine ⟨_, ⟨_, rfl⟩, ?_⟩
      rw [← isFile_iff]
      by_contra h3
      exact h2 ⟨_, ⟨_, rfl⟩, by simpa using h3⟩
    · rintro ⟨p, ⟨y, h2⟩, h3⟩ ⟨a, ⟨b, h4⟩, h5⟩
      rw [← isFile_iff] at h3
      rw [h4] at h2
      rw [← (Prod.mk.inj (Option.some.inj h2)).1, h5] at h3
      exact Bool.noConfusion h3

open Classical in
/-- C112: different numbers of primary and ancillary files are refused. -/
theorem c112_unpaired (disc : Disc) (sources : List (Option Path × Option Path)) (indexes : List (List ℝ))
    (h : (sources.filter fun p => decide (There disc p.1)).length ≠ (sources.filter fun p => decide (There disc p.2)).length) :
    clean disc (sources.map Prod.fst) (sources.map Prod.snd) indexes = .error .valueError := by
  rw [clean_eq, if_pos]
  have hb : ∀ p, decide (There disc p) = isFile disc p := by
    intro p
    rw [Bool.eq_iff_iff, decide_eq_true_iff, isFile_iff]
  simp only [hb] at h
  rw [List.countP_eq_length_filter, List.countP_eq_length_filter, List.filter_map, List.filter_map, List.length_map,
    List.length_map]
  exact h

end

end Verif.Eustace.Merge
