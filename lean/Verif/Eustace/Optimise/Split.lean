import Verif.Eustace.Optimise.Spec
import Verif.Eustace.Elements.Values
import Verif.Eustace.Definitions.Props

/-!
C153: the state of the local component is split into the states of two components which add up to it.
-/

namespace Verif.Eustace.Optimise

open Verif Verif.Eustace.Elements Verif.Eustace.Mesh Verif.Eustace.Locator Verif.Eustace.Definitions

noncomputable section

/-! ### Lemmas -/

theorem chosen_eq {α : Type} (flag : Bool) (flags : List Bool) (l : List α) : chosen flag flags l = Picked flag flags l := by
  induction flags generalizing l with
  | nil => rfl
  | cons f flags ih =>
    cases l with
    | nil => rfl
    | cons a l =>
      have := ih l
      unfold chosen at this ⊢
      by_cases h : f = flag <;> simp [Picked, h, this]

theorem picked_map {α β : Type} (g : α → β) (flag : Bool) (flags : List Bool) (l : List α) :
    Picked flag flags (l.map g) = (Picked flag flags l).map g := by
  induction flags generalizing l with
  | nil => rfl
  | cons f flags ih =>
    cases l with
    | nil => rfl
    | cons a l => by_cases h : f = flag <;> simp [Picked, h, ih]

theorem picked_forall₂ {α β : Type} {R : α → β → Prop} (flag : Bool) (flags : List Bool) {l : List α} {m : List β}
    (h : List.Forall₂ R l m) : List.Forall₂ R (Picked flag flags l) (Picked flag flags m) := by
  induction h generalizing flags with
  | nil => cases flags <;> exact .nil
  | cons h0 _ ih =>
    cases flags with
    | nil => exact .nil
    | cons f flags =>
      by_cases h : f = flag
      · simp only [Picked, h, if_true]
        exact .cons h0 (ih flags)
      · simp only [Picked, h, if_false]
        exact ih flags

theorem picked_mem {α : Type} (flag : Bool) (flags : List Bool) (l : List α) : ∀ a ∈ Picked flag flags l, a ∈ l := by
  induction flags generalizing l with
  | nil => intro a ha; simp [Picked] at ha
  | cons f flags ih =>
    cases l with
    | nil => intro a ha; simp [Picked] at ha
    | cons b l =>
      intro a ha
      by_cases h : f = flag
      · simp only [Picked, h, if_true, List.mem_cons] at ha ⊢
        exact ha.imp id (ih l a)
      · simp only [Picked, h, if_false] at ha
        exact List.mem_cons_of_mem _ (ih l a ha)

theorem picked_ne_nil {α : Type} {flag : Bool} {flags : List Bool} {l : List α} (h : flag ∈ flags)
    (hl : flags.length = l.length) : Picked flag flags l ≠ [] := by
  induction flags generalizing l with
  | nil => cases h
  | cons f flags ih =>
    cases l with
    | nil => simp at hl
    | cons b l =>
      by_cases hf : f = flag
      · simp [Picked, hf]
      · simp only [Picked, hf, if_false]
        refine ih ?_ (by simpa using hl)
        rcases List.mem_cons.1 h with rfl | h
        · exact absurd rfl hf
        · exact h

theorem picked_sum (flags : List Bool) (l : List ℝ) (hl : flags.length = l.length) :
    l.sum = (Picked true flags l).sum + (Picked false flags l).sum := by
  induction flags generalizing l with
  | nil => cases l <;> simp_all [Picked]
  | cons f flags ih =>
    cases l with
    | nil => simp at hl
    | cons a l =>
      have := ih l (by simpa using hl)
      cases f <;> simp [Picked, this] <;> ring

theorem picked_zip {α β : Type} (flag : Bool) (flags : List Bool) (l : List α) (m : List β) (h : l.length = m.length) :
    Picked flag flags (l.zip m) = (Picked flag flags l).zip (Picked flag flags m) := by
  induction flags generalizing l m with
  | nil => rfl
  | cons f flags ih =>
    cases l with
    | nil => cases m <;> simp_all [Picked]
    | cons a l =>
      cases m with
      | nil => simp at h
      | cons b m => by_cases hf : f = flag <;> simp [Picked, hf, ih l m (by simpa using h)]

theorem concatenated_some (l : List (List ℝ)) (h : l ≠ []) : concatenated (l.map some) = .ok (some l.flatten) := by
  have h1 : (l.map some).any Option.isNone = false := by simp
  have h2 : (l.map some).filterMap id = l := by simp [List.filterMap_map]
  unfold concatenated
  rw [h1, h2]
  simp [h]

theorem concatenated_none (l : List Nat) (h : l ≠ []) :
    concatenated (l.map fun _ => (none : Option (List ℝ))) = .ok none := by
  unfold concatenated
  cases l with
  | nil => exact absurd rfl h
  | cons a l => simp

theorem priorStates_some (sizes : List Nat) (xs : List (List ℝ)) (h : sizes = xs.map List.length) :
    priorStates sizes (some xs.flatten) = xs.map some := by
  have := statesFrom_eq [] xs
  simp only [List.nil_append, List.length_nil] at this
  simp only [priorStates, h, this]

theorem usableAll_picked {obs : Elements.Obs} {elements : List Element} (h : UsableAll obs elements) (flag : Bool)
    (flags : List Bool) : UsableAll obs (Picked flag flags elements) := by
  rw [usableAll_iff] at h ⊢
  exact fun e he => h e (picked_mem flag flags elements e he)

theorem vectorSum_get (n : Nat) (vs : List (List ℝ)) (i : Nat) (hi : i < n) :
    (vectorSum n vs).getD i 0 = (vs.map fun v => v.getD i 0).sum := by
  simp [vectorSum, List.getD, hi]

theorem values_unique {obs : Elements.Obs} {ps : List (Element × List ℝ)} {vs ws : List (List ℝ)}
    (hv : List.Forall₂ (fun (p : Element × List ℝ) v => (p.1.design obs).function (some p.2) none = .ok v) ps vs)
    (hw : List.Forall₂ (fun (p : Element × List ℝ) v => (p.1.design obs).function (some p.2) none = .ok v) ps ws) :
    vs = ws := by
  induction hv generalizing ws with
  | nil => cases hw; rfl
  | cons h0 _ ih =>
    cases hw with
    | cons h1 h2 =>
      rw [h0] at h1
      injection h1 with h1
      rw [h1, ih h2]

/-! ### The split -/

/-- The states of the parts, one after the other, are split as the flags say. -/
theorem splitStates_some (sizes : List Nat) (flags : List Bool) (xs : List (List ℝ)) (hs : sizes = xs.map List.length)
    (hl : flags.length = xs.length) (ht : true ∈ flags) (hf : false ∈ flags) :
    splitStates sizes flags (some xs.flatten) =
      .ok (some (Picked true flags xs).flatten, some (Picked false flags xs).flatten) := by
  unfold splitStates
  rw [priorStates_some sizes xs hs, if_neg (by simp [hl]), chosen_eq, chosen_eq, picked_map, picked_map,
    concatenated_some _ (picked_ne_nil ht hl)]
  simp only
  rw [concatenated_some _ (picked_ne_nil hf hl)]

/-- **C153.**  The state of a combination is split, by flags of which some are set and some are not, into states for the
combination of the parts with the flag and for the combination of the others.  Whatever the state and the observations, the
values of these two add up to those of the whole. -/
theorem c153_split (obs : Elements.Obs) (elements : List Element) (hypers : List Hyper) (priors : List Prior)
    (hp : priorsOf elements hypers = .ok priors) (hu : UsableAll obs elements) (flags : List Bool)
    (hl : flags.length = elements.length) (ht : true ∈ flags) (hf : false ∈ flags) (x : List ℝ)
    (hx : x.length = ((Element.combination elements).design obs).size) :
    ∃ a b v u w, splitStates (priors.map Prior.size) flags (some x) = .ok (some a, some b) ∧
      ((Element.combination elements).design obs).function (some x) none = .ok v ∧
      ((Element.combination (Picked true flags elements)).design obs).function (some a) none = .ok u ∧
      ((Element.combination (Picked false flags elements)).design obs).function (some b) none = .ok w ∧
      a.length = ((Element.combination (Picked true flags elements)).design obs).size ∧
      b.length = ((Element.combination (Picked false flags elements)).design obs).size ∧
      IsSum obs.locations.length v u w := by
  simp only [Element.design] at hx
  obtain ⟨xs, -, h2, h3⟩ := c39_split (designsOf obs elements) x hx
  rw [designsOf_eq] at h3
  have h4 : List.Forall₂ (fun (e : Element) x => x.length = (e.design obs).size) elements xs :=
    List.forall₂_map_left_iff.1 h3
  have hlen : elements.length = xs.length := h4.length_eq
  have hsizes : priors.map Prior.size = xs.map List.length := by
    rw [← dimensions obs elements hypers priors hp, designsOf_eq]
    clear hp hl hu hx h2 h3 hlen
    induction h4 with
    | nil => rfl
    | cons h0 _ ih => simp only [List.map_cons, h0, ih]
  have hne : elements ≠ [] := by
    rintro rfl
    have : flags = [] := by simpa using hl
    rw [this] at ht
    cases ht
  have hsize : ∀ flag, (Picked flag flags xs).flatten.length =
      ((Element.combination (Picked flag flags elements)).design obs).size := by
    intro flag
    have := picked_forall₂ flag flags h4
    rw [combination_size]
    generalize Picked flag flags elements = es at this
    generalize Picked flag flags xs = ys at this
    induction this with
    | nil => rfl
    | cons h0 _ ih => simp only [List.flatten_cons, List.length_append, List.map_cons, List.sum_cons, h0, ih]
  obtain ⟨vs, hv1, hv2⟩ := c39_sum obs elements (by simp only [Usable]; exact ⟨hne, hu⟩) xs h4
  have hpart : ∀ flag, flag ∈ flags → ((Element.combination (Picked flag flags elements)).design obs).function
      (some (Picked flag flags xs).flatten) none = .ok (vectorSum obs.locations.length (Picked flag flags vs)) := by
    intro flag hm
    obtain ⟨us, hu1, hu2⟩ := c39_sum obs (Picked flag flags elements)
      (by simp only [Usable]; exact ⟨picked_ne_nil hm hl, usableAll_picked hu flag flags⟩) _
      (picked_forall₂ flag flags h4)
    rw [← picked_zip _ _ _ _ hlen] at hu1
    rw [hu2, values_unique hu1 (picked_forall₂ flag flags hv1)]
  refine ⟨(Picked true flags xs).flatten, (Picked false flags xs).flatten, vectorSum obs.locations.length vs,
    vectorSum obs.locations.length (Picked true flags vs), vectorSum obs.locations.length (Picked false flags vs), ?_, ?_,
    hpart true ht, hpart false hf, hsize true, hsize false, ?_⟩
  · rw [← h2]
    exact splitStates_some _ flags xs hsizes (hl.trans hlen) ht hf
  · rw [← h2]
    exact hv2
  · refine ⟨by simp [vectorSum], by simp [vectorSum], by simp [vectorSum], ?_⟩
    intro i hi
    rw [vectorSum_get _ _ _ hi, vectorSum_get _ _ _ hi, vectorSum_get _ _ _ hi, ← picked_map, ← picked_map]
    refine picked_sum flags _ ?_
    have h5 := hv1.length_eq
    rw [List.length_zip, hlen, Nat.min_self] at h5
    rw [List.length_map, ← h5, hl, hlen]

/-- A state `None`, of a day which has not been solved, is split into two of its kind. -/
theorem c153_none (sizes : List Nat) (flags : List Bool) (hl : flags.length = sizes.length) (ht : true ∈ flags)
    (hf : false ∈ flags) : splitStates sizes flags none = .ok (none, none) := by
  unfold splitStates priorStates
  rw [if_neg (by simp [hl]), chosen_eq, chosen_eq, picked_map, picked_map, concatenated_none _ (picked_ne_nil ht hl)]
  simp only
  rw [concatenated_none _ (picked_ne_nil hf hl)]

/-- The flags in use for a field and two biases, with a state of matching size. -/
example : priorsOf [.grandMean, .bias "a" 2, .bias "b" 1] [.covariate 0, .covariate 1, .covariate 2] =
      .ok [covariatePrior 0 1, covariatePrior 1 2, covariatePrior 2 1] ∧
    UsableAll ⟨[(10, 20), (30, 40)], 5, 1900.5, fun g => if g = "a" then some [(0, 1), (1, 0)] else none, fun _ _ _ => 0⟩
      [.grandMean, .bias "a" 2, .bias "b" 1] ∧
    splitStates [1, 2, 1] [true, false, false] (some [1, 2, 3, 4]) = .ok (some [1], some [2, 3, 4]) := by
  refine ⟨?_, ?_, ?_⟩
  · simp [priorsOf, Element.prior]
  · simp only [UsableAll, Usable, true_and, and_true]
    refine ⟨?_, ?_⟩
    · intro pairs h p hp
      simp only [if_true, Option.some.injEq] at h
      subst h
      simp only [List.mem_cons, List.not_mem_nil, or_false] at hp
      rcases hp with rfl | rfl <;> simp
    · intro pairs h
      simp at h
  · exact splitStates_some [1, 2, 1] [true, false, false] [[1], [2, 3], [4]] rfl rfl (by simp) (by simp)

end

end Verif.Eustace.Optimise
