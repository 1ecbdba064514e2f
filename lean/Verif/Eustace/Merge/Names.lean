import Verif.Eustace.Merge.Model
import Verif.Eustace.Merge.Spec

/-! Names of files and variables of the merging. -/

namespace Verif.Eustace.Merge

open Verif

lemma splitOn_cons (c : Char) (a rest : List Char) (h : c ∉ a) : (a ++ c :: rest).splitOn c = a :: rest.splitOn c := by
  have h1 := List.splitOn_eq_singleton h
  unfold List.splitOn at h1 ⊢
  rw [List.splitOnP_append_cons _ _ (by simp), h1]
  rfl

lemma basename_eq (dir name : List Char) (hd : dir = [] ∨ dir.getLast? = some '/') (hn : '/' ∉ name) :
    basename (dir ++ name) = name := by
  have h1 := List.splitOn_eq_singleton hn
  unfold basename
  rcases hd with hd | hd
  · rw [hd, List.nil_append, h1]
    rfl
  · obtain ⟨pre, rfl⟩ := List.getLast?_eq_some_iff.1 hd
    unfold List.splitOn at h1 ⊢
    rw [List.append_assoc, List.singleton_append, List.splitOnP_append_cons _ _ (by simp), h1]
    simp

lemma label_eq (path l : List Char) (h : HasLabel path l) : label path = .ok l := by
  obtain ⟨dir, a, b, c, d, rest, rfl, hd, hr, hs, hrest⟩ := h
  simp only [List.mem_cons, List.not_mem_nil, or_false, forall_eq_or_imp, forall_eq] at hs
  obtain ⟨ha, hb, hc, hd', hl⟩ := hs
  unfold label
  rw [basename_eq _ _ hd (by
    simp only [List.mem_append, List.mem_cons, not_or]
    refine ⟨ha.2, by decide, hb.2, by decide, hc.2, by decide, hd'.2, by decide, hl.2, hrest⟩)]
  rw [splitOn_cons _ _ _ ha.1, splitOn_cons _ _ _ hb.1, splitOn_cons _ _ _ hc.1, splitOn_cons _ _ _ hd'.1]
  have h2 : ∃ t, (l ++ rest).splitOn '_' = l :: t := by
    rcases hr with hr | hr
    · exact ⟨[], by rw [hr, List.append_nil, List.splitOn_eq_singleton hl.1]⟩
    · cases rest with
      | nil => cases hr
      | cons x t =>
        cases Option.some.inj hr
        exact ⟨_, splitOn_cons _ _ _ hl.1⟩
  obtain ⟨t, h2⟩ := h2
  rw [h2]
  rfl

lemma HasLabel.clean {path l : List Char} (h : HasLabel path l) : '_' ∉ l := by
  obtain ⟨dir, a, b, c, d, rest, rfl, hd, hr, hs, hrest⟩ := h
  exact (hs l (by simp)).1

/-- Labels do not have underscores, so a labelled name tells both the name and the label. -/
lemma labelled_inj {n n' l l' : List Char} (hl : '_' ∉ l) (hl' : '_' ∉ l') (h : labelled n l = labelled n' l') :
    n = n' ∧ l = l' := by
  unfold labelled at h
  rw [List.append_eq_append_iff] at h
  rcases h with ⟨a, h1, h2⟩ | ⟨a, h1, h2⟩
  · cases a with
    | nil =>
      rw [List.append_nil] at h1
      exact ⟨h1.symm, (List.cons.inj h2).2⟩
    | cons c t =>
      rw [List.cons_append] at h2
      exact absurd ((List.cons.inj h2).2 ▸ List.mem_append_right t List.mem_cons_self) hl
  · cases a with
    | nil =>
      rw [List.append_nil] at h1
      exact ⟨h1, (List.cons.inj h2).2.symm⟩
    | cons c t =>
      rw [List.cons_append] at h2
      exact absurd ((List.cons.inj h2).2 ▸ List.mem_append_right t List.mem_cons_self) hl'

lemma remove_none (sub : List Char) (s : List Char) (h : ∀ a b, a ++ sub ++ b ≠ s) : remove sub s = s := by
  induction s with
  | nil => rw [remove]
  | cons c t ih =>
    rw [remove, if_neg, ih]
    · intro a b hab
      exact h (c :: a) b (by simp [← hab])
    · rintro ⟨_, hp⟩
      obtain ⟨b, hb⟩ := List.isPrefixOf_iff_prefix.1 hp
      exact h [] b (by simpa using hb)

/-- A part which occurs once is taken out there. -/
lemma remove_only (sub pre post : List Char) (hne : sub ≠ []) (h : OnlyAt sub pre post) :
    remove sub (pre ++ sub ++ post) = pre ++ post := by
  induction pre with
  | nil =>
    cases sub with
    | nil => exact absurd rfl hne
    | cons c s =>
      rw [List.nil_append, List.cons_append, remove, if_pos]
      · rw [List.length_cons, Nat.add_sub_cancel, List.drop_left, List.nil_append]
        apply remove_none
        intro a b hab
        have h1 := h (c :: s ++ a) b (by simp [← hab])
        cases h1
      · exact ⟨hne, List.isPrefixOf_iff_prefix.2 ⟨post, by simp⟩⟩
  | cons c pre ih =>
    rw [List.cons_append, List.cons_append, remove, if_neg, ih, List.cons_append]
    · intro a b hab
      exact (List.cons.inj (h (c :: a) b (by simpa using hab))).2
    · rintro ⟨_, hp⟩
      obtain ⟨b, hb⟩ := List.isPrefixOf_iff_prefix.1 hp
      have h1 := h [] b (by simpa using hb)
      cases h1

/-- Whether a part occurs once, by trying all places. -/
lemma onlyAt_of_all (sub pre post : List Char)
    (h : ((List.range ((pre ++ sub ++ post).length + 1)).all fun k =>
      k == pre.length || !sub.isPrefixOf ((pre ++ sub ++ post).drop k)) = true) : OnlyAt sub pre post := by
  intro a b hab
  rw [List.all_eq_true] at h
  have h1 := h a.length (by rw [List.mem_range, ← hab]; simp)
  have h2 : sub.isPrefixOf ((pre ++ sub ++ post).drop a.length) = true := by
    rw [List.isPrefixOf_iff_prefix, ← hab, List.append_assoc, List.drop_left]
    exact List.prefix_append _ _
  rw [h2] at h1
  have h3 : a.length = pre.length := by simpa using h1
  rw [List.append_assoc, List.append_assoc] at hab
  exact (List.append_inj hab h3).1

end Verif.Eustace.Merge
