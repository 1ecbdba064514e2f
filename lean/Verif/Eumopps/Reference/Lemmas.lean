import Verif.Eumopps.Reference.Model

namespace Verif.Eumopps.Reference
open Verif Verif.Py

theorem foldl_append (l : List DataReference) (acc : List Int) :
    l.foldl (fun result ref => result ++ ref.aslist) acc = acc ++ l.flatMap DataReference.aslist := by
  induction l generalizing acc with
  | nil => simp
  | cons r l ih => simp [ih]

theorem toIntegers_eq (l : List DataReference) :
    referenceListToIntegers l = l.flatMap DataReference.aslist := by
  simp only [referenceListToIntegers]; rw [foldl_append]; rfl

theorem toIntegers_cons (r : DataReference) (l : List DataReference) :
    referenceListToIntegers (r :: l) = r.dataset :: r.subset :: r.entry :: referenceListToIntegers l := by
  simp [toIntegers_eq, DataReference.aslist]

theorem range3_three (n : Nat) :
    Py.range3 0 (n + 3) 3 = 0 :: (Py.range3 0 n 3).map (· + 3) := by
  have : (n + 3 - 0 + 3 - 1) / 3 = (n - 0 + 3 - 1) / 3 + 1 := by omega
  simp only [Py.range3, this, List.range_succ_eq_map, List.map_cons, List.map_map]
  congr 1
  apply List.map_congr_left
  intro a _
  simp only [Function.comp]
  omega

theorem mapM_map {α β γ : Type} (f : α → β) (g : β → Except PyErr γ) (l : List α) :
    (l.map f).mapM g = l.mapM (fun a => g (f a)) := by
  induction l with
  | nil => rfl
  | cons a l ih => simp [ih]

/-- Recursive form of the decoder. -/
theorem toList_cons3 (a b c : Int) (l : List Int) :
    referenceIntegersToList (a :: b :: c :: l)
      = (referenceIntegersToList l).map (fun t => ⟨a, b, c⟩ :: t) := by
  unfold referenceIntegersToList
  have : (a :: b :: c :: l).length = l.length + 3 := by simp
  rw [this, range3_three, List.mapM_cons, mapM_map]
  have h : ∀ index : Nat, (do
      let x ← idx (a :: b :: c :: l) (index + 3)
      let y ← idx (a :: b :: c :: l) (index + 3 + 1)
      let z ← idx (a :: b :: c :: l) (index + 3 + 2)
      pure (⟨x, y, z⟩ : DataReference) : Except PyErr _) = (do
      let x ← idx l index
      let y ← idx l (index + 1)
      let z ← idx l (index + 2)
      pure ⟨x, y, z⟩) := by
    intro index
    simp [idx]
  simp only [h]
  cases (List.mapM (m := Except PyErr) _ (Py.range3 0 l.length 3)) <;> rfl

theorem toList_nil : referenceIntegersToList [] = .ok [] := rfl
theorem toList_one (a : Int) : referenceIntegersToList [a] = .error .indexError := by
  simp [referenceIntegersToList, Py.range3, idx]; rfl
theorem toList_two (a b : Int) : referenceIntegersToList [a, b] = .error .indexError := by
  simp [referenceIntegersToList, Py.range3, idx]; rfl

theorem toList_toIntegers (l : List DataReference) :
    referenceIntegersToList (referenceListToIntegers l) = .ok l := by
  induction l with
  | nil => rfl
  | cons r l ih => rw [toIntegers_cons, toList_cons3, ih]; rfl

theorem toList_spec : ∀ (l : List Int),
    (l.length % 3 = 0 → ∃ refs, referenceIntegersToList l = .ok refs ∧ referenceListToIntegers refs = l) ∧
    (l.length % 3 ≠ 0 → referenceIntegersToList l = .error .indexError)
  | [] => by simp [toList_nil, toIntegers_eq]
  | [a] => by simp [toList_one]
  | [a, b] => by simp [toList_two]
  | a :: b :: c :: l => by
    have ih := toList_spec l
    have hlen : (a :: b :: c :: l).length % 3 = l.length % 3 := by simp; omega
    rw [hlen, toList_cons3]
    constructor
    · intro h
      obtain ⟨refs, h1, h2⟩ := ih.1 h
      exact ⟨⟨a, b, c⟩ :: refs, by rw [h1]; rfl, by rw [toIntegers_cons, h2]⟩
    · intro h
      rw [ih.2 h]; rfl

end Verif.Eumopps.Reference
