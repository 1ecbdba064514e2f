import Verif.Eustace.Merge.Fields
import Verif.Eustace.Merge.Names

/-! The dictionary of results of the merging. -/

namespace Verif.Eustace.Merge

open Verif

noncomputable section

/-- The field of a name in a file. -/
def fieldOf (name : Name) (d : Data) : Field := (d.vars name).getD []

/-- All of the files have the field, with a common number of cells, and the library reads it with a mask. -/
def Readable (alwaysMask : Bool) (size : Nat) (name : Name) (handles : List Data) : Prop :=
  ∀ d ∈ handles, ∃ f, d.vars name = some f ∧ f.length = size ∧ (alwaysMask = true ∨ none ∈ f)

lemma extract_ok {alwaysMask : Bool} {name : Name} {d : Data} {f : Field} (h : d.vars name = some f)
    (hm : alwaysMask = true ∨ none ∈ f) : extract alwaysMask d name = .ok f := by
  unfold extract lookup
  rw [h]
  simp only []
  rw [if_pos]
  rcases hm with hm | hm
  · simp [hm]
  · rw [Bool.or_eq_true, List.any_eq_true]
    exact Or.inr ⟨none, hm, rfl⟩

lemma stackRest_ok {alwaysMask : Bool} {size : Nat} {name : Name} (handles : List Data)
    (h : Readable alwaysMask size name handles) :
    stackRest alwaysMask name size handles = .ok (handles.map (fieldOf name)) := by
  induction handles with
  | nil => rfl
  | cons d rest ih =>
    obtain ⟨f, h1, h2, h3⟩ := h d List.mem_cons_self
    rw [stackRest, extract_ok h1 h3]
    simp only []
    rw [if_neg (by simpa using h2), ih fun e he => h e (List.mem_cons_of_mem _ he)]
    simp [fieldOf, h1]

lemma stack_ok {alwaysMask : Bool} {size : Nat} {name : Name} (handles : List Data) (hne : handles ≠ [])
    (h : Readable alwaysMask size name handles) :
    stack alwaysMask name handles = .ok (handles.map (fieldOf name)) ∧
      ((handles.map (fieldOf name)).headD []).length = size ∧ ∀ g ∈ handles.map (fieldOf name), g.length = size := by
  cases handles with
  | nil => exact absurd rfl hne
  | cons d rest =>
    obtain ⟨f, h1, h2, h3⟩ := h d List.mem_cons_self
    refine ⟨?_, ?_, ?_⟩
    · rw [stack, extract_ok h1 h3]
      simp only []
      rw [h2, stackRest_ok rest fun e he => h e (List.mem_cons_of_mem _ he)]
      simp [fieldOf, h1]
    · simp [fieldOf, h1, h2]
    · intro g hg
      obtain ⟨e, he, rfl⟩ := List.mem_map.1 hg
      obtain ⟨f, h1, h2, _⟩ := h e he
      simp [fieldOf, h1, h2]

lemma meanField_ok {alwaysMask : Bool} {size : Nat} {name : Name} (handles : List Data) (hne : handles ≠ [])
    (h : Readable alwaysMask size name handles) :
    ∃ f, meanField alwaysMask handles name = .ok f ∧ IsMean size (handles.map (fieldOf name)) f := by
  obtain ⟨h1, h2, h3⟩ := stack_ok handles hne h
  unfold meanField
  rw [h1]
  exact ⟨_, rfl, h2 ▸ mean_spec _ _ (by rw [h2]; exact h3)⟩

lemma uncertaintyField_ok {alwaysMask : Bool} {size : Nat} {name : Name} (handles : List Data) (hne : handles ≠ [])
    (R : Nat → Nat → ℝ) (hR : IsCorrelation handles.length R) (h : Readable alwaysMask size name handles) :
    ∃ f, uncertaintyField alwaysMask handles name (upper R (List.range handles.length)) = .ok f ∧
      IsPropagated size R (handles.map (fieldOf name)) f := by
  obtain ⟨h1, h2, h3⟩ := stack_ok handles hne h
  obtain ⟨m, h4, h5⟩ := triangular_eq handles.length R
  unfold uncertaintyField
  rw [h4]
  simp only [h1]
  refine ⟨_, rfl, ?_⟩
  have h6 := uncertainty_spec (handles.map (fieldOf name)) size m R h3 (by rw [List.length_map]; exact hR)
    (by rw [List.length_map]; exact h5)
  rw [List.length_map] at h6
  rw [h2]
  exact h6

lemma appendNames_ok (path : Path) (d : Data) (l : List Char) (hl : label path = .ok l) (hu : '_' ∉ l) :
    ∀ (names : List Name) (r : Results), names.Nodup → (∀ name ∈ names, ∃ f, d.vars name = some f) →
      ∃ r', appendNames path d names r = .ok r' ∧ (∀ name ∈ names, r' (labelled name l) = d.vars name) ∧
        ∀ k, (∀ name ∈ names, k ≠ labelled name l) → r' k = r k := by
  intro names
  induction names with
  | nil => intro r _ _; exact ⟨r, rfl, by simp, by simp⟩
  | cons name rest ih =>
    intro r hnd hf
    rw [List.nodup_cons] at hnd
    obtain ⟨f, h1⟩ := hf name List.mem_cons_self
    obtain ⟨r', h2, h3, h4⟩ := ih (Function.update r (labelled name l) (some f)) hnd.2 fun n hn => hf n (List.mem_cons_of_mem _ hn)
    refine ⟨r', ?_, ?_, ?_⟩
    · rw [appendNames]
      simp only [lookup, h1, hl]
      exact h2
    · intro n hn
      rcases List.mem_cons.1 hn with rfl | hn
      · rw [h4 _ fun n' hn' he => hnd.1 ((show n = n' from (labelled_inj hu hu he).1) ▸ hn'), Function.update_self, h1]
      · exact h3 n hn
    · intro k hk
      rw [h4 k fun n hn => hk n (List.mem_cons_of_mem _ hn), Function.update_of_ne (hk name List.mem_cons_self)]

lemma appendOriginal_ok (names : List Name) (hnd : names.Nodup) :
    ∀ (files : List (Path × Data)) (ls : List (List Char)) (r : Results), ls.Nodup → (∀ l ∈ ls, '_' ∉ l) →
      List.Forall₂ (fun e l => label e.1 = .ok l) files ls →
      (∀ e ∈ files, ∀ name ∈ names, ∃ f, e.2.vars name = some f) →
      ∃ r', appendOriginal names files r = .ok r' ∧
        List.Forall₂ (fun e l => ∀ name ∈ names, r' (labelled name l) = e.2.vars name) files ls ∧
        ∀ k, (∀ name ∈ names, ∀ l ∈ ls, k ≠ labelled name l) → r' k = r k := by
  intro files
  induction files with
  | nil =>
    intro ls r _ _ h2 _
    cases h2
    exact ⟨r, rfl, List.Forall₂.nil, by simp⟩
  | cons e rest ih =>
    intro ls r hls hu h2 hf
    cases h2 with
    | @cons _ l _ lt h3 h4 =>
      rw [List.nodup_cons] at hls
      obtain ⟨path, d⟩ := e
      obtain ⟨r1, h5, h6, h7⟩ := appendNames_ok path d l h3 (hu l List.mem_cons_self) names r hnd (hf _ List.mem_cons_self)
      obtain ⟨r2, h8, h9, h10⟩ := ih lt r1 hls.2 (fun l' hl' => hu l' (List.mem_cons_of_mem _ hl')) h4
        fun e he => hf e (List.mem_cons_of_mem _ he)
      refine ⟨r2, ?_, List.Forall₂.cons ?_ h9, ?_⟩
      · rw [appendOriginal, h5]
        exact h8
      · intro name hn
        rw [h10 _ fun n' _ l' hl' he => ?_, h6 name hn]
        have h11 := labelled_inj (hu l List.mem_cons_self) (hu l' (List.mem_cons_of_mem _ hl')) he
        exact hls.1 (h11.2 ▸ hl')
      · intro k hk
        rw [h10 k fun n hn l' hl' => hk n hn l' (List.mem_cons_of_mem _ hl'), h7 k fun n hn => hk n hn l List.mem_cons_self]

lemma meanFields_ok {alwaysMask : Bool} {size : Nat} (handles : List Data) (hne : handles ≠ []) :
    ∀ (names : List Name) (r : Results), names.Nodup → (∀ name ∈ names, Readable alwaysMask size name handles) →
      ∃ r', meanFields alwaysMask handles names r = .ok r' ∧
        (∀ name ∈ names, ∃ f, r' name = some f ∧ IsMean size (handles.map (fieldOf name)) f) ∧
        ∀ k, k ∉ names → r' k = r k := by
  intro names
  induction names with
  | nil => intro r _ _; exact ⟨r, rfl, by simp, by simp⟩
  | cons name rest ih =>
    intro r hnd hf
    rw [List.nodup_cons] at hnd
    obtain ⟨f, h1, h2⟩ := meanField_ok handles hne (hf name List.mem_cons_self)
    obtain ⟨r', h3, h4, h5⟩ := ih (Function.update r name (some f)) hnd.2 fun n hn => hf n (List.mem_cons_of_mem _ hn)
    refine ⟨r', ?_, ?_, ?_⟩
    · rw [meanFields, h1]
      exact h3
    · intro n hn
      rcases List.mem_cons.1 hn with rfl | hn
      · exact ⟨f, by rw [h5 _ hnd.1, Function.update_self], h2⟩
      · exact h4 n hn
    · intro k hk
      rw [List.mem_cons, not_or] at hk
      rw [h5 k hk.2, Function.update_of_ne hk.1]

lemma uncertaintyFields_ok {alwaysMask : Bool} {size : Nat} (handles : List Data) (hne : handles ≠ []) :
    ∀ (names : List Name) (Rs : List (Nat → Nat → ℝ)) (r : Results), names.Nodup → names.length = Rs.length →
      (∀ R ∈ Rs, IsCorrelation handles.length R) → (∀ name ∈ names, Readable alwaysMask size name handles) →
      ∃ r', uncertaintyFields alwaysMask handles names (Rs.map fun R => upper R (List.range handles.length)) r = .ok r' ∧
        List.Forall₂ (fun name R => ∃ f, r' name = some f ∧ IsPropagated size R (handles.map (fieldOf name)) f) names Rs ∧
        ∀ k, k ∉ names → r' k = r k := by
  intro names
  induction names with
  | nil =>
    intro Rs r _ hlen _ _
    cases Rs with
    | nil => exact ⟨r, rfl, List.Forall₂.nil, by simp⟩
    | cons R t => cases hlen
  | cons name rest ih =>
    intro Rs r hnd hlen hR hf
    rw [List.nodup_cons] at hnd
    cases Rs with
    | nil => cases hlen
    | cons R t =>
      obtain ⟨f, h1, h2⟩ := uncertaintyField_ok handles hne R (hR R List.mem_cons_self) (hf name List.mem_cons_self)
      obtain ⟨r', h3, h4, h5⟩ := ih t (Function.update r name (some f)) hnd.2 (Nat.succ.inj hlen)
        (fun R' hR' => hR R' (List.mem_cons_of_mem _ hR')) fun n hn => hf n (List.mem_cons_of_mem _ hn)
      refine ⟨r', ?_, List.Forall₂.cons ⟨f, ?_, h2⟩ h4, ?_⟩
      · rw [List.map_cons, uncertaintyFields, h1]
        exact h3
      · rw [h5 _ hnd.1, Function.update_self]
      · intro k hk
        rw [List.mem_cons, not_or] at hk
        rw [h5 k hk.2, Function.update_of_ne hk.1]

lemma upper_uncorrelated (n : Nat) : List.replicate (n * (n - 1) / 2) (0 : ℝ) = upper uncorrelated (List.range n) := by
  symm
  rw [List.eq_replicate_iff]
  constructor
  · have := upper_length uncorrelated (List.range n)
    rw [List.length_range] at this
    omega
  · intro x hx
    have h1 : upper uncorrelated (List.range n) = (pairs n).map fun p => uncorrelated p.1 p.2 := by rw [pairs_eq, upper_map]
    rw [h1] at hx
    obtain ⟨p, hp, rfl⟩ := List.mem_map.1 hx
    rw [mem_pairs] at hp
    unfold uncorrelated
    rw [if_neg (by omega)]

lemma uncorrelated_ok (n : Nat) : IsCorrelation n uncorrelated :=
  ⟨fun i _ => if_pos rfl, fun i _ j _ => by unfold uncorrelated; simp [eq_comm]⟩

end

end Verif.Eustace.Merge
