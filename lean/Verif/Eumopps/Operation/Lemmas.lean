import Verif.Eumopps.Operation.Spec
import Verif.Eumopps.Placeholder.Props
import Verif.Eumopps.Reference.Lemmas

namespace Verif.Eumopps.Operation
open Verif Verif.Py Verif.Eumopps.Catalogue Verif.Eumopps.Placeholder Verif.Eumopps.Placeholder.Spec Spec
open Verif.Eumopps.Reference

section Walk
variable {σ : Type} {p : Leaf → σ → Except PyErr (Leaf × σ)} {Pre : σ → Prop} {le : σ → σ → Prop}
  {R : σ → Leaf → Leaf → Prop} {Q : Leaf → Prop}

mutual
theorem TreeRel.mono {R S : Leaf → Leaf → Prop} : ∀ {t t' : Tree}, TreeRel R t t' →
    (∀ l l', Occurs l t → R l l' → S l l') → TreeRel S t t'
  | .leaf l, .leaf l', h, hs => hs l l' (by simp [Occurs]) h
  | .node k c, .node k' c', h, hs => by
    simp only [TreeRel] at h ⊢
    exact ⟨h.1, ForestRel.mono h.2 (by simpa [Occurs] using hs)⟩
  | .leaf _, .node _ _, h, _ => by simp [TreeRel] at h
  | .node _ _, .leaf _, h, _ => by simp [TreeRel] at h
theorem ForestRel.mono {R S : Leaf → Leaf → Prop} : ∀ {t t' : Forest}, ForestRel R t t' →
    (∀ l l', OccursF l t → R l l' → S l l') → ForestRel S t t'
  | .nil, .nil, _, _ => by simp [ForestRel]
  | .cons k t r, .cons k' t' r', h, hs => by
    simp only [ForestRel] at h ⊢
    exact ⟨h.1, TreeRel.mono h.2.1 (fun l l' ho => hs l l' (by simp [OccursF, ho])),
      ForestRel.mono h.2.2 (fun l l' ho => hs l l' (by simp [OccursF, ho]))⟩
  | .nil, .cons _ _ _, h, _ => by simp [ForestRel] at h
  | .cons _ _ _, .nil, h, _ => by simp [ForestRel] at h
end

mutual
theorem TreeRel.comp {R S U : Leaf → Leaf → Prop} (hu : ∀ a b c, R a b → S b c → U a c) :
    ∀ {t t' t'' : Tree}, TreeRel R t t' → TreeRel S t' t'' → TreeRel U t t''
  | .leaf l, .leaf l', .leaf l'', h, h' => hu _ _ _ h h'
  | .node _ _, .node _ _, .node _ _, h, h' => by
    simp only [TreeRel] at h h' ⊢
    exact ⟨h.1.trans h'.1, ForestRel.comp hu h.2 h'.2⟩
  | .leaf _, .node _ _, _, h, _ => by simp [TreeRel] at h
  | .node _ _, .leaf _, _, h, _ => by simp [TreeRel] at h
  | .leaf _, .leaf _, .node _ _, _, h => by simp [TreeRel] at h
  | .node _ _, .node _ _, .leaf _, _, h => by simp [TreeRel] at h
theorem ForestRel.comp {R S U : Leaf → Leaf → Prop} (hu : ∀ a b c, R a b → S b c → U a c) :
    ∀ {t t' t'' : Forest}, ForestRel R t t' → ForestRel S t' t'' → ForestRel U t t''
  | .nil, .nil, .nil, _, _ => by simp [ForestRel]
  | .cons _ _ _, .cons _ _ _, .cons _ _ _, h, h' => by
    simp only [ForestRel] at h h' ⊢
    exact ⟨h.1.trans h'.1, TreeRel.comp hu h.2.1 h'.2.1, ForestRel.comp hu h.2.2 h'.2.2⟩
  | .nil, .cons _ _ _, _, h, _ => by simp [ForestRel] at h
  | .cons _ _ _, .nil, _, h, _ => by simp [ForestRel] at h
  | .nil, .nil, .cons _ _ _, _, h => by simp [ForestRel] at h
  | .cons _ _ _, .cons _ _ _, .nil, _, h => by simp [ForestRel] at h
end

mutual
/-- Every leaf of the result comes from a related leaf of the template. -/
theorem TreeRel.right {R : Leaf → Leaf → Prop} : ∀ {t t' : Tree}, TreeRel R t t' → ∀ l', Occurs l' t' →
    ∃ l, Occurs l t ∧ R l l'
  | .leaf l, .leaf l', h, x, hx => by simp only [Occurs] at hx; subst hx; exact ⟨l, by simp [Occurs], h⟩
  | .node k c, .node k' c', h, x, hx => by
    simp only [TreeRel, Occurs] at h hx ⊢
    exact ForestRel.right h.2 x hx
  | .leaf _, .node _ _, h, _, _ => by simp [TreeRel] at h
  | .node _ _, .leaf _, h, _, _ => by simp [TreeRel] at h
theorem ForestRel.right {R : Leaf → Leaf → Prop} : ∀ {t t' : Forest}, ForestRel R t t' → ∀ l', OccursF l' t' →
    ∃ l, OccursF l t ∧ R l l'
  | .nil, .nil, _, x, hx => by simp [OccursF] at hx
  | .cons k t r, .cons k' t' r', h, x, hx => by
    simp only [ForestRel, OccursF] at h hx ⊢
    rcases hx with hx | hx
    · obtain ⟨l, h1, h2⟩ := TreeRel.right h.2.1 x hx
      exact ⟨l, Or.inl h1, h2⟩
    · obtain ⟨l, h1, h2⟩ := ForestRel.right h.2.2 x hx
      exact ⟨l, Or.inr h1, h2⟩
  | .nil, .cons _ _ _, h, _, _ => by simp [ForestRel] at h
  | .cons _ _ _, .nil, h, _, _ => by simp [ForestRel] at h
end

mutual
theorem walk_rel (hrefl : ∀ s, le s s) (htrans : ∀ a b c, le a b → le b c → le a c)
    (hmono : ∀ s s' l l', R s l l' → le s s' → R s' l l')
    (hstep : ∀ l s l' s', Q l → Pre s → p l s = .ok (l', s') → Pre s' ∧ le s s' ∧ R s' l l') :
    ∀ (t : Tree) (s : σ) (t' : Tree) (s' : σ), (∀ l, Occurs l t → Q l) → Pre s → walk p t s = .ok (t', s') →
      Pre s' ∧ le s s' ∧ TreeRel (R s') t t'
  | .leaf l, s, t', s', hq, hp, h => by
    unfold walk at h
    cases hpl : p l s with
    | error e => rw [hpl] at h; cases h
    | ok r =>
      obtain ⟨l1, s1⟩ := r
      rw [hpl] at h
      simp only [Except.ok.injEq, Prod.mk.injEq] at h
      obtain ⟨rfl, rfl⟩ := h
      obtain ⟨a, b, c⟩ := hstep l s l1 s1 (hq l (by simp [Occurs])) hp hpl
      exact ⟨a, b, by simpa [TreeRel] using c⟩
  | .node k c, s, t', s', hq, hp, h => by
    unfold walk at h
    cases hpl : walkForest p c s with
    | error e => rw [hpl] at h; cases h
    | ok r =>
      obtain ⟨l1, s1⟩ := r
      rw [hpl] at h
      simp only [Except.ok.injEq, Prod.mk.injEq] at h
      obtain ⟨rfl, rfl⟩ := h
      obtain ⟨a, b, c⟩ := walkForest_rel hrefl htrans hmono hstep c s l1 s1 (by simpa [Occurs] using hq) hp hpl
      exact ⟨a, b, by simpa [TreeRel] using c⟩
theorem walkForest_rel (hrefl : ∀ s, le s s) (htrans : ∀ a b c, le a b → le b c → le a c)
    (hmono : ∀ s s' l l', R s l l' → le s s' → R s' l l')
    (hstep : ∀ l s l' s', Q l → Pre s → p l s = .ok (l', s') → Pre s' ∧ le s s' ∧ R s' l l') :
    ∀ (t : Forest) (s : σ) (t' : Forest) (s' : σ), (∀ l, OccursF l t → Q l) → Pre s → walkForest p t s = .ok (t', s') →
      Pre s' ∧ le s s' ∧ ForestRel (R s') t t'
  | .nil, s, t', s', hq, hp, h => by
    unfold walkForest at h
    cases h
    exact ⟨hp, hrefl _, by simp [ForestRel]⟩
  | .cons key t rest, s, t', s', hq, hp, h => by
    unfold walkForest at h
    cases h1 : walk p t s with
    | error e => rw [h1] at h; cases h
    | ok r =>
      obtain ⟨t1, s1⟩ := r
      rw [h1] at h
      simp only at h
      cases h2 : walkForest p rest s1 with
      | error e => rw [h2] at h; cases h
      | ok r =>
        obtain ⟨t2, s2⟩ := r
        rw [h2] at h
        simp only [Except.ok.injEq, Prod.mk.injEq] at h
        obtain ⟨rfl, rfl⟩ := h
        obtain ⟨a, b, c⟩ := walk_rel hrefl htrans hmono hstep t s t1 s1 (fun l ho => hq l (by simp [OccursF, ho])) hp h1
        obtain ⟨a', b', c'⟩ := walkForest_rel hrefl htrans hmono hstep rest s1 t2 s2
          (fun l ho => hq l (by simp [OccursF, ho])) a h2
        refine ⟨a', htrans _ _ _ b b', ?_⟩
        simp only [ForestRel, true_and]
        exact ⟨TreeRel.mono c (fun l l' _ hr => hmono _ _ _ _ hr b'), c'⟩
end

mutual
/-- A walk fails only if `process` fails on some leaf. -/
theorem walk_error : ∀ (t : Tree) (s : σ) (e : PyErr), walk p t s = .error e →
    ∃ l s1, Occurs l t ∧ p l s1 = .error e
  | .leaf l, s, e, h => by
    unfold walk at h
    cases hpl : p l s with
    | error e' => rw [hpl] at h; cases h; exact ⟨l, s, by simp [Occurs], hpl⟩
    | ok r => rw [hpl] at h; cases h
  | .node k c, s, e, h => by
    unfold walk at h
    cases hpl : walkForest p c s with
    | error e' =>
      rw [hpl] at h; cases h
      obtain ⟨l, s1, h1, h2⟩ := walkForest_error c s e hpl
      exact ⟨l, s1, by simpa [Occurs] using h1, h2⟩
    | ok r => rw [hpl] at h; cases h
theorem walkForest_error : ∀ (t : Forest) (s : σ) (e : PyErr), walkForest p t s = .error e →
    ∃ l s1, OccursF l t ∧ p l s1 = .error e
  | .nil, s, e, h => by unfold walkForest at h; cases h
  | .cons key t rest, s, e, h => by
    unfold walkForest at h
    cases h1 : walk p t s with
    | error e' =>
      rw [h1] at h; cases h
      obtain ⟨l, s1, a, b⟩ := walk_error t s e h1
      exact ⟨l, s1, by simp [OccursF, a], b⟩
    | ok r =>
      obtain ⟨t1, s1⟩ := r
      rw [h1] at h
      simp only at h
      cases h2 : walkForest p rest s1 with
      | error e' =>
        rw [h2] at h; cases h
        obtain ⟨l, s2, a, b⟩ := walkForest_error rest s1 e h2
        exact ⟨l, s2, by simp [OccursF, a], b⟩
      | ok r => rw [h2] at h; cases h
end

mutual
/-- If `process` fails on a leaf in every state, the walk of any tree containing it fails. -/
theorem walk_fails {l : Leaf} (hl : ∀ s r, p l s ≠ .ok r) : ∀ (t : Tree) (s : σ) r, Occurs l t → walk p t s ≠ .ok r
  | .leaf l', s, r, ho => by
    simp only [Occurs] at ho; subst ho
    unfold walk
    cases h : p l s with
    | error e => simp
    | ok r => exact absurd h (hl s r)
  | .node k c, s, r, ho => by
    simp only [Occurs] at ho
    unfold walk
    cases h : walkForest p c s with
    | error e => simp
    | ok r => exact absurd h (walkForest_fails hl c s r ho)
theorem walkForest_fails {l : Leaf} (hl : ∀ s r, p l s ≠ .ok r) : ∀ (t : Forest) (s : σ) r, OccursF l t →
    walkForest p t s ≠ .ok r
  | .nil, s, r, ho => by simp [OccursF] at ho
  | .cons key t rest, s, r, ho => by
    simp only [OccursF] at ho
    unfold walkForest
    cases h : walk p t s with
    | error e => simp
    | ok r1 =>
      obtain ⟨t1, s1⟩ := r1
      simp only
      rcases ho with ho | ho
      · exact absurd h (walk_fails hl t s _ ho)
      · cases h2 : walkForest p rest s1 with
        | error e => simp
        | ok r => exact absurd h2 (walkForest_fails hl rest s1 r ho)
end
end Walk

/-! Phase 1: inputs. -/

/-- A leaf after the input phase: every placeholder has one value per step of the full range. -/
def LeafFull (cat : Catalogue) (step : Step) (l l' : Leaf) : Prop :=
  match l with
  | .inputFileList inp => ∃ ps, l' = .plist .fileList ps ∧
      ∀ i < step.count, ∃ v, ps[i]? = some v ∧ InputValue cat step inp i v
  | .inputFile inp => ∃ ps, l' = .plist .file ps ∧
      ∀ i < step.count, ∃ v, ps[i]? = some v ∧ InputValue cat step inp i v
  | .stepTime => ∃ ps, l' = .plist .value ps ∧
      ∀ i < step.count, ∃ t, ps[i]? = some (Lit.time t) ∧ step.timeAtIndex i = .ok t
  | .stepIndex => ∃ ps, l' = .plist .value ps ∧ ∀ i < step.count, ps[i]? = some (Lit.int i)
  | l => l' = l

theorem input_values {inp : InputFileList} {skip skip' : List Bool} {cat : Catalogue} {step : Step}
    {refs : List (List Int)} (h : findReferences inp skip cat step = .ok (refs, skip')) (hl : skip.length = step.count) :
    ∀ i < step.count, ∃ v, (refs.map Lit.ints)[i]? = some v ∧ InputValue cat step inp i v := by
  obtain ⟨s, p, d, h1, h2, h3, h4, h5⟩ := c05_references h
  obtain ⟨s', p', h1', h2', _, _, h6⟩ := findReferences_policy h hl
  rw [h1] at h1'; cases h1'
  rw [h2] at h2'; cases h2'
  intro i hi
  obtain ⟨js, hs, hr⟩ := h5 i hi
  refine ⟨_, by rw [List.getElem?_map, hr]; rfl, s, p, d, js, h1, h2, h3, hs, ?_, rfl⟩
  intro hm hj
  exact (selected_hasFile hs).1 hj (h6 hm i hi)

theorem skip_of_find {inp : InputFileList} {skip skip' : List Bool} {cat : Catalogue} {step : Step}
    {refs : List (List Int)} (h : findReferences inp skip cat step = .ok (refs, skip')) (hl : skip.length = step.count)
    (l : Leaf) (hin : inputOf l = some inp) :
    skip'.length = step.count ∧
    ∀ i : Nat, (skip'[i]? = some true ↔ (skip[i]? = some true ∨ (i < step.count ∧ SkipCause cat step l i))) := by
  obtain ⟨s, p, h1, h2, h3, h4, _⟩ := findReferences_policy h hl
  refine ⟨h3, ?_⟩
  intro i
  by_cases hi : i < step.count
  · rw [h4 i hi]
    simp only [hi, true_and, SkipCause, hin, Option.some.injEq]
    constructor
    · rintro (h | ⟨hm, hn⟩)
      · exact Or.inl h
      · exact Or.inr ⟨inp, s, p, rfl, hm, h1, h2, hn⟩
    · rintro (h | ⟨inp', s', p', rfl, hm, h1', h2', hn⟩)
      · exact Or.inl h
      · rw [h1] at h1'; cases h1'
        rw [h2] at h2'; cases h2'
        exact Or.inr ⟨hm, hn⟩
  · have a : skip'[i]? = none := by simp; omega
    have b : skip[i]? = none := by simp; omega
    simp [a, b, hi]

theorem resolveInput_step {cat : Catalogue} {step : Step} {l l' : Leaf} {skip skip' : List Bool}
    (h : resolveInput step cat l skip = .ok (l', skip')) (hl : skip.length = step.count) :
    skip'.length = step.count ∧ LeafFull cat step l l' ∧
    ∀ i : Nat, (skip'[i]? = some true ↔ (skip[i]? = some true ∨ (i < step.count ∧ SkipCause cat step l i))) := by
  have hother : ∀ l, inputOf l = none → ∀ i, ¬ SkipCause cat step l i := by
    rintro l hl i ⟨inp, s, p, hin, _⟩
    rw [hl] at hin; cases hin
  cases l with
  | inputFileList inp =>
    simp only [resolveInput] at h
    cases hf : findReferences inp skip cat step with
    | error e => rw [hf] at h; cases h
    | ok r =>
      obtain ⟨refs, sk⟩ := r
      rw [hf] at h
      simp only [Except.ok.injEq, Prod.mk.injEq] at h
      obtain ⟨rfl, rfl⟩ := h
      obtain ⟨a, b⟩ := skip_of_find hf hl (.inputFileList inp) rfl
      exact ⟨a, ⟨_, rfl, input_values hf hl⟩, b⟩
  | inputFile inp =>
    simp only [resolveInput] at h
    cases hf : resolveInputFile inp skip cat step with
    | error e => rw [hf] at h; cases h
    | ok r =>
      obtain ⟨refs, sk⟩ := r
      rw [hf] at h
      simp only [Except.ok.injEq, Prod.mk.injEq] at h
      obtain ⟨rfl, rfl⟩ := h
      have hf' := (c06_single_file hf).1
      obtain ⟨a, b⟩ := skip_of_find hf' hl (.inputFile inp) rfl
      exact ⟨a, ⟨_, rfl, input_values hf' hl⟩, b⟩
  | stepTime =>
    simp only [resolveInput] at h
    cases hf : (List.range step.count).mapM step.timeAtIndex with
    | error e => rw [hf] at h; cases h
    | ok ts =>
      rw [hf] at h
      simp only [Except.ok.injEq, Prod.mk.injEq] at h
      obtain ⟨rfl, rfl⟩ := h
      refine ⟨hl, ⟨_, rfl, ?_⟩, fun i => by simp [hother .stepTime rfl]⟩
      intro i hi
      obtain ⟨t, ht, htt⟩ := (mapM_ok hf).2 i i (by simp [hi])
      exact ⟨t, by simp [ht], htt⟩
  | stepIndex =>
    simp only [resolveInput, Except.ok.injEq, Prod.mk.injEq] at h
    obtain ⟨rfl, rfl⟩ := h
    exact ⟨hl, ⟨_, rfl, fun i hi => by simp [hi]⟩, fun i => by simp [hother .stepIndex rfl]⟩
  | lit v => simp only [resolveInput, Except.ok.injEq, Prod.mk.injEq] at h; obtain ⟨rfl, rfl⟩ := h
             exact ⟨hl, rfl, fun i => by simp [hother (.lit v) rfl]⟩
  | outputFile n si =>
    simp only [resolveInput, Except.ok.injEq, Prod.mk.injEq] at h; obtain ⟨rfl, rfl⟩ := h
    exact ⟨hl, rfl, fun i => by simp [hother (.outputFile n si) rfl]⟩
  | plist k ps =>
    simp only [resolveInput, Except.ok.injEq, Prod.mk.injEq] at h; obtain ⟨rfl, rfl⟩ := h
    exact ⟨hl, rfl, fun i => by simp [hother (.plist k ps) rfl]⟩
  | timestamp =>
    simp only [resolveInput, Except.ok.injEq, Prod.mk.injEq] at h; obtain ⟨rfl, rfl⟩ := h
    exact ⟨hl, rfl, fun i => by simp [hother .timestamp rfl]⟩
  | catalogueId =>
    simp only [resolveInput, Except.ok.injEq, Prod.mk.injEq] at h; obtain ⟨rfl, rfl⟩ := h
    exact ⟨hl, rfl, fun i => by simp [hother .catalogueId rfl]⟩

mutual
theorem treeRel_all {P : Leaf → Prop} {S : Leaf → Leaf → Prop} : ∀ {t t' : Tree},
    TreeRel (fun l l' => S l l' ∧ P l) t t' → ∀ l, Occurs l t → P l
  | .leaf l, .leaf l', h, x, hx => by simp only [Occurs] at hx; subst hx; exact h.2
  | .node k c, .node k' c', h, x, hx => by
    simp only [TreeRel, Occurs] at h hx
    exact forestRel_all h.2 x hx
  | .leaf _, .node _ _, h, _, _ => by simp [TreeRel] at h
  | .node _ _, .leaf _, h, _, _ => by simp [TreeRel] at h
theorem forestRel_all {P : Leaf → Prop} {S : Leaf → Leaf → Prop} : ∀ {t t' : Forest},
    ForestRel (fun l l' => S l l' ∧ P l) t t' → ∀ l, OccursF l t → P l
  | .nil, .nil, _, x, hx => by simp [OccursF] at hx
  | .cons k t r, .cons k' t' r', h, x, hx => by
    simp only [ForestRel, OccursF] at h hx
    rcases hx with hx | hx
    · exact treeRel_all h.2.1 x hx
    · exact forestRel_all h.2.2 x hx
  | .nil, .cons _ _ _, h, _, _ => by simp [ForestRel] at h
  | .cons _ _ _, .nil, h, _, _ => by simp [ForestRel] at h
end

/-- Result of the whole input phase. -/
theorem input_phase {cat : Catalogue} {step : Step} {t t' : Tree} {skip : List Bool}
    (h : walk (resolveInput step cat) t (List.replicate step.count false) = .ok (t', skip)) :
    skip.length = step.count ∧ TreeRel (LeafFull cat step) t t' ∧
    ∀ i : Nat, (skip[i]? = some true ↔ i < step.count ∧ ∃ l, Occurs l t ∧ SkipCause cat step l i) := by
  have main := walk_rel (p := resolveInput step cat)
    (Pre := fun sk => sk.length = step.count ∧
      ∀ i : Nat, sk[i]? = some true → i < step.count ∧ ∃ l, Occurs l t ∧ SkipCause cat step l i)
    (le := fun sk sk' => ∀ i : Nat, sk[i]? = some true → sk'[i]? = some true)
    (R := fun sk l l' => LeafFull cat step l l' ∧
      ∀ i : Nat, i < step.count ∧ SkipCause cat step l i → sk[i]? = some true)
    (Q := fun l => Occurs l t)
    (fun _ _ h => h) (fun _ _ _ h1 h2 i h => h2 i (h1 i h))
    (fun s s' l l' hr hle => ⟨hr.1, fun i hi => hle i (hr.2 i hi)⟩)
    (by
      intro l s l' s' ho hp hstep
      obtain ⟨a, b, c⟩ := resolveInput_step hstep hp.1
      refine ⟨⟨a, ?_⟩, fun i hi => (c i).2 (Or.inl hi), b, fun i hi => (c i).2 (Or.inr hi)⟩
      intro i hi
      rcases (c i).1 hi with hi | hi
      · exact hp.2 i hi
      · exact ⟨hi.1, l, ho, hi.2⟩)
    t _ t' skip (fun l hl => hl) (by
      refine ⟨by simp, ?_⟩
      intro i hi
      rw [List.getElem?_replicate] at hi
      split at hi <;> simp at hi) h
  obtain ⟨⟨h1, h2⟩, _, h3⟩ := main
  refine ⟨h1, TreeRel.mono h3 (fun l l' _ hr => hr.1), fun i => ⟨h2 i, ?_⟩⟩
  rintro ⟨hi, l, ho, hc⟩
  exact treeRel_all h3 l ho i ⟨hi, hc⟩

theorem restrictTo_spec (skip : List Bool) :
    (restrictTo skip).Pairwise (· < ·) ∧ ∀ i, i ∈ restrictTo skip ↔ skip[i]? = some false := by
  unfold restrictTo
  constructor
  · have hs : ((skip.zipIdx.filter (fun x => !x.1)).map (·.2)).Sublist (skip.zipIdx.map (·.2)) :=
      List.filter_sublist.map _
    have : skip.zipIdx.map (·.2) = List.range skip.length := by
      rw [List.zipIdx_map_snd, List.range_eq_range']
    rw [this] at hs
    exact List.pairwise_lt_range.sublist hs
  · intro i
    simp only [List.mem_map, List.mem_filter, Prod.exists, exists_eq_right, List.mem_zipIdx_iff_getElem?]
    constructor
    · rintro ⟨a, h, h0⟩
      cases a
      · simpa using h
      · simp at h0
    · intro h
      exact ⟨false, by simpa using h, rfl⟩

/-! Phase 2: outputs. -/

theorem datasubset_eq (c : Catalogue) (n : String) (si : Int) :
    c.datasubset n si = (c.datasetindex n).bind (fun d => if 0 ≤ si then subsetAt c d si.toNat else none) := by
  unfold Catalogue.datasubset Catalogue.dataset Catalogue.datasetindex subsetAt
  cases hf : c.datasets.find? (fun d => d.name == n) with
  | none =>
    have : c.datasets.findIdx? (fun d => d.name == n) = none := by
      rw [List.findIdx?_eq_none_iff]
      rw [List.find?_eq_none] at hf
      intro x hx
      simpa using hf x hx
    rw [this]; rfl
  | some ds =>
    rw [List.find?_eq_some_iff_getElem] at hf
    obtain ⟨hn, k, hk, hks, hlt⟩ := hf
    have : c.datasets.findIdx? (fun d => d.name == n) = some k := by
      rw [List.findIdx?_eq_some_iff_getElem]
      exact ⟨hk, by rw [hks]; exact hn, fun j hj => by simpa using hlt j hj⟩
    rw [this]
    simp only [Option.bind_some, List.getElem?_eq_getElem hk, hks]
    unfold DataSet.subset
    by_cases h0 : 0 ≤ si
    · by_cases h1 : si < ds.subsets.length
      · rw [if_pos ⟨h0, h1⟩, if_pos h0]
      · rw [if_neg (by omega), if_pos h0]
        symm
        simp; omega
    · rw [if_neg (by omega), if_neg h0]

theorem datasetindex_congr {c c' : Catalogue} (h : c.datasets.map (·.name) = c'.datasets.map (·.name)) (n : String) :
    c.datasetindex n = c'.datasetindex n := by
  unfold Catalogue.datasetindex
  have e : ∀ c : Catalogue, c.datasets.findIdx? (fun d => d.name == n) =
      (c.datasets.map (·.name)).findIdx? (fun x => x == n) := by
    intro c
    rw [List.findIdx?_map]; rfl
  rw [e, e, h]

/-- The shape of a catalogue that resolving outputs keeps. -/
structure SameShape (c c' : Catalogue) : Prop where
  sets : c'.datasets.map (fun ds => (ds.name, ds.path, ds.subsets.length)) =
    c.datasets.map (fun ds => (ds.name, ds.path, ds.subsets.length))
  patterns : ∀ d s, (subsetAt c' d s).map (·.patterns) = (subsetAt c d s).map (·.patterns)

theorem SameShape.names {c c' : Catalogue} (h : SameShape c c') :
    c.datasets.map (·.name) = c'.datasets.map (·.name) := by
  have := congrArg (List.map (fun x => x.1)) h.sets
  simpa [Function.comp_def] using this.symm

theorem SameShape.refl (c : Catalogue) : SameShape c c := ⟨rfl, fun _ _ => rfl⟩

theorem SameShape.trans {a b c : Catalogue} (h : SameShape a b) (h' : SameShape b c) : SameShape a c :=
  ⟨h'.sets.trans h.sets, fun d s => (h'.patterns d s).trans (h.patterns d s)⟩

/-- Later catalogues keep every registered entry. -/
def Keeps (c c' : Catalogue) : Prop :=
  SameShape c c' ∧ ∀ d s sub, subsetAt c d s = some sub → sub.entries ≠ [] → subsetAt c' d s = some sub

def LeafOut (cat1 : Catalogue) (step : Step) (keep : List Nat) (cat' : Catalogue) (l l' : Leaf) : Prop :=
  match l with
  | .outputFile n si => ∃ ps, l' = .plist .file ps ∧ ps.length = keep.length ∧
      ∀ (k i : Nat), keep[k]? = some i → ∃ v, ps[k]? = some v ∧ OutputValue cat1 cat' step n si i v
  | .plist kind ps0 => ∃ ps, l' = .plist kind ps ∧ ps.length = keep.length ∧
      ∀ (k i : Nat), keep[k]? = some i → ∃ v, ps[k]? = some v ∧ ps0[i]? = some v
  | l => l' = l

theorem resolveOutput_step {cat1 cat cat' : Catalogue} {step : Step} {keep : List Nat} {l l' : Leaf}
    (hshape : SameShape cat1 cat) (h : resolveOutput step keep l cat = .ok (l', cat')) :
    SameShape cat1 cat' ∧ Keeps cat cat' ∧ LeafOut cat1 step keep cat' l l' := by
  have hk : Keeps cat cat := ⟨SameShape.refl _, fun _ _ _ h _ => h⟩
  cases l with
  | outputFile n si =>
    simp only [resolveOutput] at h
    cases hf : resolveOutputFile n si cat step keep with
    | error e => rw [hf] at h; cases h
    | ok r =>
      obtain ⟨refs, c2⟩ := r
      rw [hf] at h
      simp only [Except.ok.injEq, Prod.mk.injEq] at h
      obtain ⟨rfl, rfl⟩ := h
      obtain ⟨d, s, p, es, js, h1, h2, h3, h4, h5, h6, h7, h8, _, _, _, _, _, h13, h14, h15, h16⟩ := c08_outputs hf
      have hat : subsetAt cat d si.toNat = some s := by
        rw [datasubset_eq, h4] at h1
        simpa [h5] using h1
      have hs2 : SameShape cat c2 := by
        refine ⟨h16, ?_⟩
        intro d' s'
        by_cases hds : (d', s') = (d, si.toNat)
        · simp only [Prod.mk.injEq] at hds
          obtain ⟨rfl, rfl⟩ := hds
          rw [h14, hat]; rfl
        · rw [h15 d' s' hds]
      have hshape2 := hshape.trans hs2
      refine ⟨hshape2, ⟨hs2, ?_⟩, ?_⟩
      · intro d' s' sub hsub hne
        by_cases hds : (d', s') = (d, si.toNat)
        · simp only [Prod.mk.injEq] at hds
          obtain ⟨rfl, rfl⟩ := hds
          rw [hat] at hsub; cases hsub
          exact absurd h2 hne
        · rw [h15 d' s' hds]; exact hsub
      · refine ⟨_, rfl, by rw [h6]; simp [h7], ?_⟩
        intro k i hki
        obtain ⟨j, e, hj, he, hn⟩ := h8 k i hki
        refine ⟨.ints [(d : Int), si, (j : Int)], by rw [h6]; simp [hj], ?_⟩
        have hd1 : cat1.datasetindex n = some d := by
          rw [datasetindex_congr hshape.names]; exact h4
        have hp1 : ∃ s1, subsetAt cat1 d si.toNat = some s1 ∧ s1.patterns = some p := by
          have := hshape.patterns d si.toNat
          rw [hat] at this
          simp only [Option.map_some] at this
          obtain ⟨s1, hs1, hs1'⟩ := Option.map_eq_some_iff.1 this.symm
          exact ⟨s1, hs1, by rw [hs1', h3]⟩
        obtain ⟨s1, hs1, hp⟩ := hp1
        refine ⟨s1, p, d, _, j, e, ?_, hp, hd1, h5, h14, he, hn, rfl⟩
        rw [datasubset_eq, hd1]
        simpa [h5] using hs1
  | plist kd ps0 =>
    simp only [resolveOutput] at h
    cases hf : restrictToSubset ps0 keep with
    | error e => rw [hf] at h; cases h
    | ok ps =>
      rw [hf] at h
      simp only [Except.ok.injEq, Prod.mk.injEq] at h
      obtain ⟨rfl, rfl⟩ := h
      obtain ⟨a, b⟩ := mapM_ok hf
      refine ⟨hshape, hk, ⟨ps, rfl, a, ?_⟩⟩
      intro k i hki
      obtain ⟨v, hv, hi⟩ := b k i hki
      exact ⟨v, hv, idx_ok.1 hi⟩
  | lit v => simp only [resolveOutput, Except.ok.injEq, Prod.mk.injEq] at h; obtain ⟨rfl, rfl⟩ := h; exact ⟨hshape, hk, rfl⟩
  | inputFileList v => simp only [resolveOutput, Except.ok.injEq, Prod.mk.injEq] at h; obtain ⟨rfl, rfl⟩ := h; exact ⟨hshape, hk, rfl⟩
  | inputFile v => simp only [resolveOutput, Except.ok.injEq, Prod.mk.injEq] at h; obtain ⟨rfl, rfl⟩ := h; exact ⟨hshape, hk, rfl⟩
  | stepTime => simp only [resolveOutput, Except.ok.injEq, Prod.mk.injEq] at h; obtain ⟨rfl, rfl⟩ := h; exact ⟨hshape, hk, rfl⟩
  | stepIndex => simp only [resolveOutput, Except.ok.injEq, Prod.mk.injEq] at h; obtain ⟨rfl, rfl⟩ := h; exact ⟨hshape, hk, rfl⟩
  | timestamp => simp only [resolveOutput, Except.ok.injEq, Prod.mk.injEq] at h; obtain ⟨rfl, rfl⟩ := h; exact ⟨hshape, hk, rfl⟩
  | catalogueId => simp only [resolveOutput, Except.ok.injEq, Prod.mk.injEq] at h; obtain ⟨rfl, rfl⟩ := h; exact ⟨hshape, hk, rfl⟩

theorem output_phase {cat1 cat' : Catalogue} {step : Step} {keep : List Nat} {t t' : Tree}
    (h : walk (resolveOutput step keep) t cat1 = .ok (t', cat')) :
    Keeps cat1 cat' ∧ TreeRel (LeafOut cat1 step keep cat') t t' := by
  have main := walk_rel (p := resolveOutput step keep) (Pre := SameShape cat1) (le := Keeps)
    (R := fun c l l' => LeafOut cat1 step keep c l l') (Q := fun _ => True)
    (fun c => ⟨SameShape.refl _, fun _ _ _ h _ => h⟩)
    (fun a b c h1 h2 => ⟨h1.1.trans h2.1, fun d s sub hs hn => h2.2 d s sub (h1.2 d s sub hs hn) hn⟩)
    (by
      intro c c' l l' hr hle
      cases l with
      | outputFile n si =>
        obtain ⟨ps, h1, h2, h3⟩ := hr
        refine ⟨ps, h1, h2, ?_⟩
        intro k i hk
        obtain ⟨v, hv, s, p, d, s', j, e, a1, a2, a3, a4, a5, a6, a7, a8⟩ := h3 k i hk
        have hne : s'.entries ≠ [] := by
          intro h0; rw [h0] at a6; simp at a6
        exact ⟨v, hv, s, p, d, s', j, e, a1, a2, a3, a4, hle.2 d si.toNat s' a5 hne, a6, a7, a8⟩
      | _ => exact hr)
    (fun l s l' s' _ hp hs => resolveOutput_step hp hs)
    t cat1 t' cat' (fun _ _ => trivial) (SameShape.refl _) h
  exact ⟨main.2.1, main.2.2⟩

/-! Phase 3: a single operation. -/

theorem groupAt_ok {l : List α} {i : Int} {a : α} : groupAt l i = .ok a ↔ 0 ≤ i ∧ l[i.toNat]? = some a := by
  unfold groupAt
  by_cases h : 0 ≤ i
  · rw [if_pos h]
    cases l[i.toNat]? <;> simp [h]
  · rw [if_neg h]; simp [h]

theorem loadDataPathname_ok {cat : Catalogue} {r : DataReference} {q : Option String}
    (h : loadDataPathname cat r = .ok q) : PathOf cat r q := by
  unfold loadDataPathname at h
  cases h1 : groupAt cat.datasets r.dataset with
  | error e => rw [h1] at h; cases h
  | ok ds =>
    rw [h1] at h
    simp only at h
    cases h2 : groupAt ds.subsets r.subset with
    | error e => rw [h2] at h; cases h
    | ok s =>
      rw [h2] at h
      simp only at h
      split at h
      · cases h
      · split at h
        · rename_i hge
          cases h3 : idx s.entries r.entry.toNat with
          | error e => rw [h3] at h; cases h
          | ok e =>
            rw [h3] at h
            cases h
            unfold PathOf
            rw [if_neg (by omega)]
            exact ⟨(groupAt_ok.1 h1).1, (groupAt_ok.1 h2).1, ds, s, e, (groupAt_ok.1 h1).2, (groupAt_ok.1 h2).2,
              idx_ok.1 h3, rfl⟩
        · rename_i hlt
          cases h
          unfold PathOf
          rw [if_pos (by omega)]

theorem loadDataPathnames_ok {cat : Catalogue} {refs : List DataReference} {qs : List (Option String)}
    (h : loadDataPathnames cat refs = .ok qs) : PathsOf cat refs qs := by
  obtain ⟨a, b⟩ := mapM_ok h
  refine ⟨a, ?_⟩
  intro k r hr
  obtain ⟨q, hq, hl⟩ := b k r hr
  exact ⟨q, hq, loadDataPathname_ok hl⟩

theorem decode_ok {l : List Int} {refs : List DataReference} (h : referenceIntegersToList l = .ok refs) :
    l = refs.flatMap DataReference.aslist := by
  have hs := toList_spec l
  by_cases h0 : l.length % 3 = 0
  · obtain ⟨refs', h1, h2⟩ := hs.1 h0
    rw [h] at h1; cases h1
    rw [← h2, toIntegers_eq]
  · rw [hs.2 h0] at h; cases h

theorem getItem_nat {l : List α} {i : Nat} : getItem l (i : Int) = idx l i := by
  unfold getItem
  rw [if_pos (by omega)]; rfl

theorem resolveSingle_leaf {count : Nat} {cat : Catalogue} {ident ts : String} {i : Nat} {l l' : Leaf}
    (h : resolveSingle count cat ident (i : Int) ts l () = .ok (l', ())) :
    LeafSingle cat count ident ts i l l' := by
  cases l with
  | plist kd ps =>
    simp only [resolveSingle] at h
    split at h
    · cases h
    · rename_i hc
      have hc : ps.length = count := by omega
      cases hs : plistSingle cat kd ps (i : Int) with
      | error e => rw [hs] at h; cases h
      | ok v =>
        rw [hs] at h
        simp only [Except.ok.injEq, Prod.mk.injEq, and_true] at h
        subst h
        unfold plistSingle at hs
        rw [getItem_nat] at hs
        cases hi : idx ps i with
        | error e => rw [hi] at hs; cases hs
        | ok x =>
          rw [hi] at hs
          simp only at hs
          have hx := idx_ok.1 hi
          cases kd with
          | value =>
            simp only [Except.ok.injEq] at hs; subst hs
            exact ⟨hc, x, hx, rfl⟩
          | file =>
            cases x with
            | ints li =>
              simp only at hs
              cases hr : referenceIntegersToList li with
              | error e => rw [hr] at hs; cases hs
              | ok refs =>
                rw [hr] at hs
                simp only at hs
                have hd := decode_ok hr
                cases hq : loadDataPathnames cat refs with
                | error e => rw [hq] at hs; cases hs
                | ok qs =>
                  rw [hq] at hs
                  have hp := loadDataPathnames_ok hq
                  refine ⟨hc, refs, qs, by rw [hx, hd], hp, ?_⟩
                  cases qs with
                  | nil => simp only [Except.ok.injEq] at hs; subst hs; rfl
                  | cons q qs =>
                    cases q with
                    | none => simp only [Except.ok.injEq] at hs; subst hs; rfl
                    | some q => simp only [Except.ok.injEq] at hs; subst hs; rfl
            | _ => simp at hs
          | fileList =>
            cases x with
            | ints li =>
              simp only at hs
              cases hr : referenceIntegersToList li with
              | error e => rw [hr] at hs; cases hs
              | ok refs =>
                rw [hr] at hs
                simp only at hs
                have hd := decode_ok hr
                cases hq : loadDataPathnames cat refs with
                | error e => rw [hq] at hs; cases hs
                | ok qs =>
                  rw [hq] at hs
                  simp only [Except.ok.injEq] at hs; subst hs
                  exact ⟨hc, refs, qs, by rw [hx, hd], loadDataPathnames_ok hq, rfl⟩
            | _ => simp at hs
  | _ => simp only [resolveSingle, Except.ok.injEq, Prod.mk.injEq, and_true] at h; subst h; rfl

theorem single_phase {t t' : Tree} {count : Nat} {cat : Catalogue} {ident ts : String} {i : Nat}
    (h : resolveSingleOperation t count cat ident (i : Int) ts = .ok t') :
    TreeRel (LeafSingle cat count ident ts i) t t' := by
  unfold resolveSingleOperation at h
  cases hw : walk (resolveSingle count cat ident (i : Int) ts) t () with
  | error e => rw [hw] at h; cases h
  | ok r =>
    obtain ⟨t1, u⟩ := r
    rw [hw] at h
    simp only [Except.ok.injEq] at h
    subst h
    have := walk_rel (p := resolveSingle count cat ident (i : Int) ts) (Pre := fun _ => True) (le := fun _ _ => True)
      (R := fun _ l l' => LeafSingle cat count ident ts i l l') (Q := fun _ => True)
      (fun _ => trivial) (fun _ _ _ _ _ => trivial) (fun _ _ _ _ h _ => h)
      (fun l s l' s' _ _ h => ⟨trivial, trivial, resolveSingle_leaf h⟩)
      t () t1 u (fun _ _ => trivial) trivial hw
    exact this.2.2

theorem dataset_of_subset {c : Catalogue} {n : String} {si : Int} {s : Subset} {d : Nat}
    (h : c.datasubset n si = some s) (hd : c.datasetindex n = some d) :
    ∃ ds, c.dataset n = some ds ∧ ds.subset si = some s ∧ c.datasets[d]? = some ds ∧ 0 ≤ si ∧
      ds.subsets[si.toNat]? = some s := by
  have h' := h
  unfold Catalogue.datasubset at h
  cases hds : c.dataset n with
  | none => rw [hds] at h; cases h
  | some ds =>
    rw [hds] at h
    simp only at h
    refine ⟨ds, rfl, h, ?_⟩
    unfold Catalogue.dataset at hds
    unfold Catalogue.datasetindex at hd
    rw [List.find?_eq_some_iff_getElem] at hds
    rw [List.findIdx?_eq_some_iff_getElem] at hd
    obtain ⟨hn, k, hk, hks, hlt⟩ := hds
    obtain ⟨hk', hp', hlt'⟩ := hd
    have : k = d := by
      rcases Nat.lt_trichotomy k d with h1 | h1 | h1
      · exact absurd (by rw [hks]; exact hn) (hlt' k h1)
      · exact h1
      · have := hlt d h1
        rw [hp'] at this; simp at this
    subst this
    refine ⟨by simp [hk, hks], ?_⟩
    unfold DataSet.subset at h
    split at h
    · rename_i hh; exact ⟨hh.1, h⟩
    · cases h

theorem SameShape.path {c c' : Catalogue} (h : SameShape c c') {d : Nat} {ds ds' : DataSet}
    (h1 : c.datasets[d]? = some ds) (h2 : c'.datasets[d]? = some ds') : ds'.path = ds.path := by
  have := congrArg (fun l => l[d]?) h.sets
  simp only [List.getElem?_map, h1, h2, Option.map_some, Option.some.injEq, Prod.mk.injEq] at this
  exact this.2.1

theorem triples_eq (d s : Int) (es : List Int) :
    triples d s es = (es.map (fun e => (⟨d, s, e⟩ : DataReference))).flatMap DataReference.aslist := by
  unfold triples
  rw [List.flatMap_map]
  rfl

theorem flatMap_aslist_inj {a b : List DataReference} (h : a.flatMap DataReference.aslist = b.flatMap DataReference.aslist) :
    a = b := by
  rw [← toIntegers_eq, ← toIntegers_eq] at h
  have := toList_toIntegers a
  rw [h, toList_toIntegers b] at this
  cases this; rfl

theorem inputPaths_of {cat1 cat' : Catalogue} {step : Step} {inp : InputFileList} {i : Nat} {refs : List DataReference}
    {qs : List (Option String)} (hk : Keeps cat1 cat')
    (hv : InputValue cat1 step inp i (.ints (refs.flatMap DataReference.aslist))) (hq : PathsOf cat' refs qs) :
    InputPaths cat1 step inp i qs := by
  obtain ⟨s, p, d, js, h1, h2, h3, h4, h5, h6⟩ := hv
  simp only [Lit.ints.injEq] at h6
  rw [triples_eq] at h6
  have hr := flatMap_aslist_inj h6
  obtain ⟨ds, g1, g2, g3, g4, g5⟩ := dataset_of_subset h1 h3
  refine ⟨ds, s, p, js, g1, g2, h2, h4, h5, ?_⟩
  obtain ⟨q1, q2⟩ := hq
  split
  · rename_i hc
    rw [if_pos hc] at hr
    rw [hr] at q1 q2
    obtain ⟨q, hq, hp⟩ := q2 0 _ rfl
    unfold PathOf at hp
    rw [if_pos (by simp)] at hp
    subst hp
    match qs, q1, hq with
    | [x], _, hq => simpa using hq
  · rename_i hc
    rw [if_neg hc] at hr
    rw [hr] at q1 q2
    refine ⟨by simpa using q1, ?_⟩
    intro k j hkj
    obtain ⟨q, hq, hp⟩ := q2 k ⟨d, inp.subsetindex, (j : Int)⟩ (by simp [hkj])
    unfold PathOf at hp
    rw [if_neg (by simp)] at hp
    obtain ⟨_, _, ds', sub, fe, p1, p2, p3, p4⟩ := hp
    simp only [Int.toNat_natCast] at p1 p2 p3
    -- the subset read back is the one the references were made for
    have hje : ∃ e, s.entries[j]? = some e := by
      unfold Selected at h4
      have hjm := List.mem_of_getElem? hkj
      split at h4
      · obtain ⟨e, he, _⟩ := (h4.2 j).1 hjm
        exact ⟨e, he⟩
      · rcases h4 with ⟨h4, _⟩ | ⟨j', h4, ⟨e, he, _⟩, _⟩
        · rw [h4] at hjm; simp at hjm
        · rw [h4] at hjm
          simp only [List.mem_singleton] at hjm
          subst hjm
          exact ⟨e, he⟩
    obtain ⟨e, he⟩ := hje
    have hne : s.entries ≠ [] := by intro h0; rw [h0] at he; simp at he
    have hat : subsetAt cat1 d inp.subsetindex.toNat = some s := by simp [subsetAt, g3, g5]
    have hat' := hk.2 d _ s hat hne
    have : sub = s := by
      simp only [subsetAt, p1, Option.bind_some, p2, Option.some.injEq] at hat'
      exact hat'
    subst this
    exact ⟨fe, p3, by rw [hq, p4, hk.1.path g3 p1]⟩

/-- Resolving references and then selecting operation `k`. -/
theorem leaf_run {cat1 cat' : Catalogue} {step : Step} {keep : List Nat} {n : Nat} {ident ts : String} {k i : Nat}
    {a b c : Leaf} (hk : Keeps cat1 cat') (hi : keep[k]? = some i) (h1 : LeafResolved cat1 cat' step keep a b)
    (h2 : LeafSingle cat' n ident ts k b c) : LeafRun cat1 step ident ts i a c := by
  cases a with
  | inputFileList inp =>
    obtain ⟨ps, rfl, _, hv⟩ := h1
    obtain ⟨v, hv1, hv2⟩ := hv k i hi
    obtain ⟨_, refs, qs, hr, hp, rfl⟩ := h2
    rw [hr] at hv1; cases hv1
    exact ⟨qs, inputPaths_of hk hv2 hp, rfl⟩
  | inputFile inp =>
    obtain ⟨ps, rfl, _, hv⟩ := h1
    obtain ⟨v, hv1, hv2⟩ := hv k i hi
    obtain ⟨_, refs, qs, hr, hp, rfl⟩ := h2
    rw [hr] at hv1; cases hv1
    exact ⟨qs, inputPaths_of hk hv2 hp, rfl⟩
  | stepTime =>
    obtain ⟨ps, rfl, _, hv⟩ := h1
    obtain ⟨t, ht, htt⟩ := hv k i hi
    obtain ⟨_, v, hv, rfl⟩ := h2
    rw [ht] at hv; cases hv
    exact ⟨t, htt, rfl⟩
  | stepIndex =>
    obtain ⟨ps, rfl, _, hv⟩ := h1
    have ht := hv k i hi
    obtain ⟨_, v, hv, rfl⟩ := h2
    rw [ht] at hv; cases hv
    rfl
  | outputFile nm si =>
    obtain ⟨ps, rfl, _, hv⟩ := h1
    obtain ⟨v, hv1, s, p, d, s', j, e, a1, a2, a3, a4, a5, a6, a7, rfl⟩ := hv k i hi
    obtain ⟨_, refs, qs, hr, hp, rfl⟩ := h2
    rw [hr] at hv1
    simp only [Option.some.injEq, Lit.ints.injEq] at hv1
    have hrr : refs = [⟨(d : Int), si, (j : Int)⟩] := flatMap_aslist_inj (by rw [hv1]; rfl)
    subst hrr
    obtain ⟨q, hq, hpo⟩ := hp.2 0 _ rfl
    obtain ⟨ds, g1, g2, g3, g4, g5⟩ := dataset_of_subset a1 a3
    refine ⟨ds, s, p, g1, g2, a2, ?_⟩
    unfold PathOf at hpo
    rw [if_neg (by simp)] at hpo
    obtain ⟨_, _, ds', sub, fe, p1, p2, p3, p4⟩ := hpo
    simp only [Int.toNat_natCast] at p1 p2 p3
    have : sub = s' := by
      simp only [subsetAt, p1, Option.bind_some, p2, Option.some.injEq] at a5
      exact a5
    subst this
    rw [a6] at p3; cases p3
    have hqs : qs.head? = some q := by
      rw [List.head?_eq_getElem?]; exact hq
    rw [hqs, p4, a7, hk.1.path g3 p1]
    rfl
  | plist kd ps => trivial
  | lit v => simp only [LeafResolved] at h1; subst h1; exact h2
  | timestamp => simp only [LeafResolved] at h1; subst h1; exact h2
  | catalogueId => simp only [LeafResolved] at h1; subst h1; exact h2

/-! Success of the single-operation phase. -/

theorem loadDataPathname_neg {cat : Catalogue} {d : Nat} {si : Int} {e : Int} {s : Subset} (h0 : 0 ≤ si)
    (hs : subsetAt cat d si.toNat = some s) (hne : s.entries ≠ []) (he : e < 0) :
    loadDataPathname cat ⟨d, si, e⟩ = .ok none := by
  unfold subsetAt at hs
  cases hd : cat.datasets[d]? with
  | none => rw [hd] at hs; cases hs
  | some ds =>
    rw [hd] at hs
    simp only [Option.bind_some] at hs
    have g1 : groupAt cat.datasets (d : Int) = .ok ds := groupAt_ok.2 ⟨by omega, by simpa using hd⟩
    have g2 : groupAt ds.subsets si = .ok s := groupAt_ok.2 ⟨h0, hs⟩
    simp only [loadDataPathname, g1, g2, hne, if_false]
    rw [if_neg (by omega)]

theorem loadDataPathname_pos {cat : Catalogue} {d j : Nat} {si : Int} {s : Subset} {fe : FileEntry} (h0 : 0 ≤ si)
    (hs : subsetAt cat d si.toNat = some s) (he : s.entries[j]? = some fe) :
    ∃ q, loadDataPathname cat ⟨d, si, (j : Int)⟩ = .ok q := by
  unfold subsetAt at hs
  have hne : s.entries ≠ [] := by intro h0; rw [h0] at he; simp at he
  cases hd : cat.datasets[d]? with
  | none => rw [hd] at hs; cases hs
  | some ds =>
    rw [hd] at hs
    simp only [Option.bind_some] at hs
    have g1 : groupAt cat.datasets (d : Int) = .ok ds := groupAt_ok.2 ⟨by omega, by simpa using hd⟩
    have g2 : groupAt ds.subsets si = .ok s := groupAt_ok.2 ⟨h0, hs⟩
    have g3 : idx s.entries j = .ok fe := idx_ok.2 he
    exact ⟨some (pathJoin ds.path fe.name), by simp [loadDataPathname, g1, g2, hne, g3]⟩

theorem loads_of_input {cat1 cat' : Catalogue} {step : Step} {inp : InputFileList} {i : Nat} {v : Lit}
    (hk : Keeps cat1 cat') (hv : InputValue cat1 step inp i v)
    (hne : inp.missingData = .allowed → ∀ s, cat1.datasubset inp.datasetname inp.subsetindex = some s → s.entries ≠ []) :
    ∃ l refs qs, v = .ints l ∧ referenceIntegersToList l = .ok refs ∧ loadDataPathnames cat' refs = .ok qs := by
  obtain ⟨s, p, d, js, h1, h2, h3, h4, h5, rfl⟩ := hv
  obtain ⟨ds, g1, g2, g3, g4, g5⟩ := dataset_of_subset h1 h3
  have hat : subsetAt cat1 d inp.subsetindex.toNat = some s := by simp [subsetAt, g3, g5]
  rw [triples_eq, ← toIntegers_eq]
  suffices h : ∃ qs, loadDataPathnames cat' ((if js = [] ∧ inp.missingData = .allowed then [-1]
      else js.map (fun (j : Nat) => (j : Int))).map (fun e => (⟨d, inp.subsetindex, e⟩ : DataReference))) = .ok qs by
    obtain ⟨qs, hqs⟩ := h
    exact ⟨_, _, qs, rfl, toList_toIntegers _, hqs⟩
  apply mapM_total
  intro r hr
  obtain ⟨e, he, rfl⟩ := List.mem_map.1 hr
  split at he
  · rename_i hc
    simp only [List.mem_singleton] at he
    have hse := hne hc.2 s h1
    exact ⟨none, loadDataPathname_neg g4 (hk.2 d _ s hat hse) hse (by omega)⟩
  · obtain ⟨j, hj, rfl⟩ := List.mem_map.1 he
    have hje : ∃ e, s.entries[j]? = some e := by
      unfold Selected at h4
      split at h4
      · obtain ⟨e, he, _⟩ := (h4.2 j).1 hj
        exact ⟨e, he⟩
      · rcases h4 with ⟨h4, _⟩ | ⟨j', h4, ⟨e, he, _⟩, _⟩
        · rw [h4] at hj; simp at hj
        · rw [h4] at hj
          simp only [List.mem_singleton] at hj
          subst hj
          exact ⟨e, he⟩
    obtain ⟨fe, hfe⟩ := hje
    have hse : s.entries ≠ [] := by intro h0; rw [h0] at hfe; simp at hfe
    exact loadDataPathname_pos g4 (hk.2 d _ s hat hse) hfe

theorem plistSingle_file_ok {cat : Catalogue} {ps : List Lit} {k : Nat} {l : List Int} {refs : List DataReference}
    {qs : List (Option String)} (h : ps[k]? = some (.ints l)) (hr : referenceIntegersToList l = .ok refs)
    (hq : loadDataPathnames cat refs = .ok qs) (kd : PKind) : ∃ v, plistSingle cat kd ps (k : Int) = .ok v := by
  unfold plistSingle
  rw [getItem_nat, idx_ok.2 h]
  cases kd with
  | value => exact ⟨_, rfl⟩
  | file =>
    simp only [hr, hq]
    cases qs with
    | nil => exact ⟨_, rfl⟩
    | cons q qs => cases q <;> exact ⟨_, rfl⟩
  | fileList => simp only [hr, hq]; exact ⟨_, rfl⟩

theorem plistSingle_value_ok {cat : Catalogue} {ps : List Lit} {k : Nat} {v : Lit} (h : ps[k]? = some v) :
    ∃ v, plistSingle cat .value ps (k : Int) = .ok v := by
  unfold plistSingle
  rw [getItem_nat, idx_ok.2 h]
  exact ⟨_, rfl⟩

end Verif.Eumopps.Operation
