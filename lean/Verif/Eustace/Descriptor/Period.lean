import Verif.Eustace.Descriptor.Violations

/-!
The period of the operations of a descriptor, and the kinds of their arguments.
-/

namespace Verif.Eustace.Descriptor

open Verif Verif.Eumopps.Names

/-- A time of the day, written with fourteen digits. -/
def Spec.stamp (d : Calendar.Date) (hour minute second : ℕ) : List Char :=
  pad 4 d.year ++ pad 2 d.month ++ pad 2 d.day ++ pad 2 hour ++ pad 2 minute ++ pad 2 second

theorem iteration_times (c : Config) (i : ℤ) : ∀ x ∈ iterationFacts c i,
    x.times = (some c.start, some c.stop) ∨ x.step = some "eumopps.catalogue.step.StepOnce" ∧ x.times = (none, none) := by
  intro x hx
  have m0 : (measurement0Facts c i).times = (some c.start, some c.stop) := by
    unfold measurement0Facts; split <;> rfl
  have m1 : (measurement1Facts c i).times = (some c.start, some c.stop) := by
    unfold measurement1Facts; split <;> rfl
  unfold iterationFacts at hx
  split at hx
  · simp only [griddedFacts, List.mem_cons, List.not_mem_nil, or_false] at hx
    rcases hx with rfl | rfl | rfl | rfl | rfl | rfl | rfl | rfl <;>
      first | exact Or.inl m0 | exact Or.inl m1 | exact Or.inr ⟨rfl, rfl⟩ | exact Or.inl rfl
  · simp only [plainFacts, List.mem_cons, List.not_mem_nil, or_false] at hx
    rcases hx with rfl | rfl | rfl | rfl | rfl <;>
      first | exact Or.inl m0 | exact Or.inl m1 | exact Or.inr ⟨rfl, rfl⟩ | exact Or.inl rfl

theorem midnight (s : String) (d : Calendar.Date) (h : s.toList = pad 4 d.year ++ pad 2 d.month ++ pad 2 d.day) :
    (s ++ "000000").toList = Spec.stamp d 0 0 0 := by
  have hz : "000000".toList = pad 2 0 ++ pad 2 0 ++ pad 2 0 := by decide
  rw [String.toList_append, h, hz]
  simp [Spec.stamp]

/-- **C157.** With a first and a last day in eight digits each, all operations of a descriptor which have a period go from midnight at
the start of the first day to midnight at the start of the last day; the others are run once. -/
theorem c157_period {c : Config} (h0 : 0 ≤ c.first) (hn : (stems c).Nodup) {d : Json} (hd : createBatchDescriptor c false = .ok d)
    {first last : Calendar.Date} (hf : c.startDate.toList = pad 4 first.year ++ pad 2 first.month ++ pad 2 first.day)
    (hl : c.endDate.toList = pad 4 last.year ++ pad 2 last.month ++ pad 2 last.day) {op : Json} (ho : op ∈ Spec.operations d) :
    (∃ s e, Spec.stepTimes op = (some s, some e) ∧ s.toList = Spec.stamp first 0 0 0 ∧ e.toList = Spec.stamp last 0 0 0) ∨
    Spec.stepClass op = some "eumopps.catalogue.step.StepOnce" ∧ Spec.stepTimes op = (none, none) := by
  rcases descriptor_all (Q := fun x => x.times = (some c.start, some c.stop) ∨
    x.step = some "eumopps.catalogue.step.StepOnce" ∧ x.times = (none, none)) h0 hn hd (fun i _ => iteration_times c i) ho with h | h
  · exact Or.inl ⟨c.start, c.stop, h, midnight _ _ hf, midnight _ _ hl⟩
  · exact Or.inr h

theorem iteration_fits (c : Config) (i : ℤ) : ∀ x ∈ iterationFacts c i, x.fits = true := by
  intro x hx
  have m0 : (measurement0Facts c i).fits = true := by
    unfold measurement0Facts; split <;> rfl
  have m1 : (measurement1Facts c i).fits = true := by
    unfold measurement1Facts; split <;> rfl
  unfold iterationFacts at hx
  split at hx
  · simp only [griddedFacts, List.mem_cons, List.not_mem_nil, or_false] at hx
    rcases hx with rfl | rfl | rfl | rfl | rfl | rfl | rfl | rfl <;> first | exact m0 | exact m1 | rfl
  · simp only [plainFacts, List.mem_cons, List.not_mem_nil, or_false] at hx
    rcases hx with rfl | rfl | rfl | rfl | rfl <;> first | exact m0 | exact m1 | rfl

/-- **C159.** Arguments of all operations of a descriptor and of their storage objects are one file or day where one is wanted, and lists
where these are wanted: of all times for solving, of the days of the batch otherwise. -/
theorem c159_kinds {c : Config} (h0 : 0 ≤ c.first) (hn : (stems c).Nodup) {d : Json} (hd : createBatchDescriptor c false = .ok d)
    {op : Json} (ho : op ∈ Spec.operations d) : Spec.fits op = true :=
  descriptor_all (Q := fun x => x.fits = true) h0 hn hd (fun i _ => iteration_fits c i) ho

/-- Not everything fits: one file of measurements where those of all times are wanted. -/
example : Spec.fitting [("measurementfilelist_read", dataPlaceholder inputFile "a")] = false := by decide

/-- Such dates. -/
example : ("20060131" : String).toList = pad 4 2006 ++ pad 2 1 ++ pad 2 31 := by decide

end Verif.Eustace.Descriptor
