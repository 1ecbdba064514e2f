import Verif.Eumopps.Reference.Lemmas

/-! Property C04: catalogue references survive flattening. -/
namespace Verif.Eumopps.Reference
open Verif

/-- **C04.** Decoding the flat integers of any list of references gives back that list. -/
theorem c04_decode_encode (refs : List DataReference) :
    referenceIntegersToList (referenceListToIntegers refs) = .ok refs :=
  toList_toIntegers refs

/-- **C04.** A flat list is accepted exactly when its length is a multiple of three (otherwise IndexError), and
an accepted list is the flattening of what it decodes to. -/
theorem c04_encode_decode (ints : List Int) :
    ((∃ refs, referenceIntegersToList ints = .ok refs) ↔ 3 ∣ ints.length) ∧
    (∀ refs, referenceIntegersToList ints = .ok refs → referenceListToIntegers refs = ints) ∧
    (¬ 3 ∣ ints.length → referenceIntegersToList ints = .error .indexError) := by
  have h := toList_spec ints
  have hd : 3 ∣ ints.length ↔ ints.length % 3 = 0 := Nat.dvd_iff_mod_eq_zero
  rw [hd]
  refine ⟨⟨?_, ?_⟩, ?_, h.2⟩
  · rintro ⟨refs, hr⟩
    apply Classical.byContradiction
    intro hn
    rw [h.2 hn] at hr; cases hr
  · intro h0
    obtain ⟨refs, hr, _⟩ := h.1 h0
    exact ⟨refs, hr⟩
  · intro refs hr
    by_cases h0 : ints.length % 3 = 0
    · obtain ⟨refs', hr', h2⟩ := h.1 h0
      rw [hr'] at hr; cases hr; exact h2
    · rw [h.2 h0] at hr; cases hr

example : referenceListToIntegers [⟨2, 0, 5⟩, ⟨1, 1, -1⟩] = [2, 0, 5, 1, 1, -1] ∧
    referenceIntegersToList [2, 0, 5, 1, 1, -1] = .ok [⟨2, 0, 5⟩, ⟨1, 1, -1⟩] ∧
    referenceIntegersToList [2, 0, 5, 1] = .error .indexError := by decide

end Verif.Eumopps.Reference
