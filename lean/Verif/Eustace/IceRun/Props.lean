import Verif.Eustace.IceRun.Model

/-! C185: runs of the ice model never replace a file, and what this means
after a run that failed. -/

namespace Verif.Eustace.IceRun

open Verif

variable {R C : Type}

theorem put_keeps (fs : FS C) (name : String) (w : Written C) {other : String} (h : other ≠ name) :
    put fs name w other = fs other := by
  unfold put
  cases w.content with
  | none => rfl
  | some c => exact Function.update_of_ne h _ _

/-- C185: if one of the outputs is there already, the run is refused and no
file is changed. -/
theorem c185_refused (fs : FS C) (main ancillary : String) (day : Day R C)
    (h : fs main ≠ none ∨ fs ancillary ≠ none) :
    runDay fs (some main) (some ancillary) day = (fs, some .valueError) := by
  unfold runDay isfile
  cases hm : fs main with
  | some c => simp [hm]
  | none =>
    cases ha : fs ancillary with
    | some c => simp [hm, ha]
    | none => exact absurd h (by simp [hm, ha])

/-- C185: the only files a run may change are its outputs, and only if neither
was there. -/
theorem c185_only_outputs (fs : FS C) (main ancillary : Option String) (day : Day R C)
    (name : String) (h : (runDay fs main ancillary day).1 name ≠ fs name) :
    (main = some name ∨ ancillary = some name) ∧ fs name = none := by
  unfold runDay at h
  split at h
  · exact absurd rfl h
  · exact absurd rfl h
  · rename_i hm
    split at h
    · exact absurd rfl h
    · exact absurd rfl h
    · rename_i ha
      split at h
      · rename_i m a
        simp only [isfile, Except.ok.injEq, Option.isSome_eq_false_iff, Option.isNone_iff_eq_none] at hm ha
        by_cases e1 : name = m
        · subst e1; exact ⟨Or.inl rfl, hm⟩
        · by_cases e2 : name = a
          · subst e2; exact ⟨Or.inr rfl, ha⟩
          · exfalso
            apply h
            unfold produce
            split
            · rfl
            · split
              · simp only [put_keeps _ _ _ e1]
              · simp only [put_keeps _ _ _ e2, put_keeps _ _ _ e1]
      · exact absurd rfl h

/-- C185: however many runs there are, and whichever of them fail, what was in
a file stays in it. -/
theorem c185_kept (rs : List (Option String × Option String × Day R C)) :
    ∀ (fs : FS C) (name : String) (c : C), fs name = some c → runs fs rs name = some c := by
  induction rs with
  | nil => intro fs name c h; exact h
  | cons r rest ih =>
    intro fs name c h
    refine ih _ name c ?_
    by_cases e : (runDay fs r.1 r.2.1 r.2.2).1 name = fs name
    · rw [e, h]
    · have := (c185_only_outputs fs r.1 r.2.1 r.2.2 name e).2
      rw [h] at this
      cases this

/-- C185: if neither output is there and nothing fails, both outputs hold what
the writer made of the same results. -/
theorem c185_success (fs : FS C) (main ancillary : String) (hne : main ≠ ancillary) (day : Day R C)
    (h1 : fs main = none) (h2 : fs ancillary = none) (r : R) (hr : day.results = .ok r) (p a : C)
    (hp : day.primary r = ⟨some p, none⟩) (ha : day.ancillary r = ⟨some a, none⟩) :
    (runDay fs (some main) (some ancillary) day).2 = none
      ∧ (runDay fs (some main) (some ancillary) day).1 main = some p
      ∧ (runDay fs (some main) (some ancillary) day).1 ancillary = some a := by
  have : runDay fs (some main) (some ancillary) day = produce fs main ancillary day := by
    simp [runDay, isfile, h1, h2]
  rw [this]
  unfold produce
  rw [hr]
  simp only [hp, ha, put]
  refine ⟨by trivial, ?_, by simp⟩
  rw [Function.update_of_ne hne]; simp

/-- Specification: the run of a day and what its outputs should hold. -/
structure Planned (R C : Type) where
  main : String
  ancillary : String
  day : Day R C
  primaryContent : C
  ancillaryContent : C

/-- Specification: nothing fails on the day. -/
def Planned.Succeeds (d : Planned R C) : Prop :=
  ∃ r, d.day.results = .ok r ∧ d.day.primary r = ⟨some d.primaryContent, none⟩
    ∧ d.day.ancillary r = ⟨some d.ancillaryContent, none⟩

/-- C185: runs of any number of days, with outputs that all have names of
their own and are not there before, leave all their outputs. -/
theorem c185_all_days (ds : List (Planned R C)) : ∀ (fs : FS C),
    (ds.flatMap fun d => [d.main, d.ancillary]).Nodup →
    (∀ d ∈ ds, d.Succeeds ∧ fs d.main = none ∧ fs d.ancillary = none) →
    ∀ d ∈ ds, runs fs (ds.map fun d => (some d.main, some d.ancillary, d.day)) d.main
        = some d.primaryContent
      ∧ runs fs (ds.map fun d => (some d.main, some d.ancillary, d.day)) d.ancillary
        = some d.ancillaryContent := by
  induction ds with
  | nil => intro fs _ _ d hd; simp at hd
  | cons x xs ih =>
    intro fs hn h d hd
    simp only [List.flatMap_cons, List.cons_append, List.nil_append, List.nodup_cons,
      List.mem_cons, not_or, List.mem_flatMap, List.not_mem_nil, or_false, not_exists,
      not_and] at hn
    obtain ⟨⟨n1, n2⟩, n3, n4⟩ := hn
    obtain ⟨⟨r, hr, hp, ha⟩, hm, hc⟩ := h x (by simp)
    obtain ⟨_, s1, s2⟩ := c185_success fs x.main x.ancillary n1 x.day hm hc r hr _ _ hp ha
    rcases List.mem_cons.1 hd with rfl | hd
    · simp only [List.map_cons, runs]
      exact ⟨c185_kept _ _ _ _ s1, c185_kept _ _ _ _ s2⟩
    · refine ih _ n4 ?_ d hd
      intro y hy
      obtain ⟨y1, y2, y3⟩ := h y (by simp [hy])
      have absent : ∀ name, fs name = none → name ≠ x.main → name ≠ x.ancillary →
          (runDay fs (some x.main) (some x.ancillary) x.day).1 name = none := by
        intro name hf e1 e2
        by_contra hne
        have := (c185_only_outputs fs _ _ x.day name (by rw [hf]; exact hne)).1
        rcases this with e | e
        · exact e1 (Option.some.inj e).symm
        · exact e2 (Option.some.inj e).symm
      have q1 := n2 y hy
      have q2 := n3 y hy
      exact ⟨y1, absent _ y2 (fun e => q1.1 e.symm) (fun e => q2.1 e.symm),
        absent _ y3 (fun e => q1.2 e.symm) (fun e => q2.2 e.symm)⟩

/-- C185: an error of the inputs leaves no file behind, so that the run may be
done again. -/
theorem c185_inputs (fs : FS C) (main ancillary : String) (day : Day R C)
    (h1 : fs main = none) (h2 : fs ancillary = none) (e : PyErr) (hr : day.results = .error e) :
    runDay fs (some main) (some ancillary) day = (fs, some e) := by
  simp [runDay, isfile, h1, h2, produce, hr]

/-- C185 (violation): if the writer fails after it has made the main output,
all later runs with this output are refused, whatever their inputs: the day is
never completed. -/
theorem c185_retry_violated (fs : FS C) (main ancillary : String) (day : Day R C)
    (h1 : fs main = none) (h2 : fs ancillary = none) (r : R) (hr : day.results = .ok r) (p : C)
    (hp : (day.primary r).content = some p) (e : PyErr)
    (he : (day.primary r).error = some e
      ∨ ((day.primary r).error = none ∧ (day.ancillary r).error = some e))
    (rest : List (Option String × Option String × Day R C)) (other : Option String) (later : Day R C) :
    (runDay fs (some main) (some ancillary) day).2 = some e
      ∧ runDay (runs (runDay fs (some main) (some ancillary) day).1 rest) (some main) other later
        = (runs (runDay fs (some main) (some ancillary) day).1 rest, some .valueError) := by
  have h0 : runDay fs (some main) (some ancillary) day = produce fs main ancillary day := by
    simp [runDay, isfile, h1, h2]
  rw [h0]
  have hm : (produce fs main ancillary day).1 main ≠ none ∧ (produce fs main ancillary day).2 = some e := by
    unfold produce
    rw [hr]
    rcases he with he | ⟨he, he'⟩
    · simp [he, put, hp]
    · simp only [he, he', and_true]
      by_cases e1 : main = ancillary
      · subst e1
        cases hc : (day.ancillary r).content with
        | none => simp [put, hp, hc]
        | some c => simp [put, hc]
      · rw [put_keeps _ _ _ e1]
        simp [put, hp]
  refine ⟨hm.2, ?_⟩
  cases hc : (produce fs main ancillary day).1 main with
  | none => exact absurd hc hm.1
  | some c =>
    have := c185_kept rest _ main c hc
    simp [runDay, isfile, this]

/-- C185 (violation): the command always ends with an error, also when both
outputs were written; and without a name for the ancillary output, which it
allows, it writes nothing. -/
theorem c185_command_violated (fs : FS C) (main : String) (ancillary : Option String) (day : Day R C) :
    (command fs main ancillary day).2 ≠ none
      ∧ (command fs main ancillary day).1 = (runDay fs (some main) ancillary day).1
      ∧ (ancillary = none → (command fs main ancillary day).1 = fs) := by
  have h : (command fs main ancillary day).2 ≠ none
      ∧ (command fs main ancillary day).1 = (runDay fs (some main) ancillary day).1 := by
    unfold command
    split
    · rename_i h; rw [h]; simp
    · rename_i h; rw [h]; simp
  refine ⟨h.1, h.2, ?_⟩
  rintro rfl
  rw [h.2]
  unfold runDay isfile
  cases hm : fs main <;> simp [hm]

/-- A day whose run succeeds. -/
def goodDay : Day Nat Nat := ⟨.ok 1, fun r => ⟨some r, none⟩, fun r => ⟨some (r + 1), none⟩⟩

/-- A day whose ancillary output cannot be made. -/
def badDay : Day Nat Nat := ⟨.ok 1, fun r => ⟨some r, none⟩, fun _ => ⟨none, some .other⟩⟩

/-- The outputs of a run which succeeds. -/
example : (runDay (fun _ => none) (some "main") (some "ancillary") goodDay).1 "ancillary" = some 2 :=
  (c185_success (fun _ => none) "main" "ancillary" (by decide) goodDay rfl rfl 1 rfl 1 2 rfl rfl).2.2

/-- Two days with their outputs. -/
example : runs (fun _ => none) [(some "m1", some "a1", goodDay), (some "m2", some "a2", goodDay)] "m2"
    = some 1 :=
  (c185_all_days [⟨"m1", "a1", goodDay, 1, 2⟩, ⟨"m2", "a2", goodDay, 1, 2⟩] (fun _ => none)
    (by simp) (by simp [Planned.Succeeds, goodDay]) ⟨"m2", "a2", goodDay, 1, 2⟩ (by simp)).1

/-- After `badDay` the same day is refused, though nothing is wrong with it any
more. -/
example : (runDay (runDay (fun _ => none) (some "main") (some "ancillary") badDay).1
    (some "main") (some "ancillary") goodDay).2 = some .valueError :=
  congrArg Prod.snd (c185_retry_violated (fun _ => none) "main" "ancillary" badDay rfl rfl 1 rfl 1 rfl .other
    (Or.inr ⟨rfl, rfl⟩) [] (some "ancillary") goodDay).2

end Verif.Eustace.IceRun
