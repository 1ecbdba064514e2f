import Verif.Eustace.Submit.Iterations

/-! C129: submitted iterations can be run to their end, since every job waits for earlier jobs only. -/
namespace Verif.Eustace.Submit
open Verif Verif.Eumopps.Run Spec

/-- What an element does when everything succeeds. -/
def elementTrace (ops : List StoredOp) (s : Submission) (j : ℕ) (e : ℤ) : List Event :=
  (List.range (commands ops s e).length).map (fun p => Event.ran j e p true) ++ [.ended j e true]

/-- What a job does when everything succeeds. -/
def jobTrace (ops : List StoredOp) (j : ℕ) (s : Submission) : List Event := (elements s).flatMap (elementTrace ops s j)

/-- Jobs one after another. -/
def fullTrace (ops : List StoredOp) (n : ℕ) : List Submission → List Event
  | [] => []
  | s :: ss => jobTrace ops n s ++ fullTrace ops (n + 1) ss

theorem prefix_of_not_mem {α : Type} {X Y past future : List α} {x : α} (h : X ++ Y = past ++ x :: future) (hx : x ∉ X) :
    ∃ t, past = X ++ t := by
  rcases List.append_eq_append_iff.1 h with ⟨t, h1, -⟩ | ⟨t, h1, h2⟩
  · exact ⟨t, h1⟩
  · cases t with
    | nil => exact ⟨[], by simpa using h1.symm⟩
    | cons y t =>
      rw [List.cons_append, List.cons.injEq] at h2
      exact absurd (by rw [h1, ← h2.1]; simp) hx

/-- The job to which an event belongs. -/
def jobOf : Event → ℕ
  | .ran j _ _ _ => j
  | .ended j _ _ => j

/-- The element to which an event belongs. -/
def elementOf : Event → ℤ
  | .ran _ e _ _ => e
  | .ended _ e _ => e

theorem of_mem_elementTrace {ops : List StoredOp} {s : Submission} {j : ℕ} {e : ℤ} {x : Event} (h : x ∈ elementTrace ops s j e) :
    jobOf x = j ∧ elementOf x = e := by
  unfold elementTrace at h
  rw [List.mem_append, List.mem_map, List.mem_singleton] at h
  rcases h with ⟨p, -, rfl⟩ | rfl <;> exact ⟨rfl, rfl⟩

theorem of_mem_jobTrace {ops : List StoredOp} {s : Submission} {j : ℕ} {x : Event} (h : x ∈ jobTrace ops j s) : jobOf x = j := by
  unfold jobTrace at h
  rw [List.mem_flatMap] at h
  obtain ⟨e, -, h⟩ := h
  exact (of_mem_elementTrace h).1

theorem of_mem_fullTrace {ops : List StoredOp} {L : List Submission} {n : ℕ} {x : Event} (h : x ∈ fullTrace ops n L) :
    ∃ i s, L[i]? = some s ∧ x ∈ jobTrace ops (n + i) s := by
  induction L generalizing n with
  | nil => cases h
  | cons s ss ih =>
    rw [fullTrace, List.mem_append] at h
    rcases h with h | h
    · exact ⟨0, s, rfl, h⟩
    · obtain ⟨i, s', h1, h2⟩ := ih h
      exact ⟨i + 1, s', by simpa using h1, by rw [show n + (i + 1) = n + 1 + i by omega]; exact h2⟩

theorem fullTrace_append (ops : List StoredOp) (A B : List Submission) (n : ℕ) :
    fullTrace ops n (A ++ B) = fullTrace ops n A ++ fullTrace ops (n + A.length) B := by
  induction A generalizing n with
  | nil => rfl
  | cons s A ih =>
    rw [List.cons_append, fullTrace, fullTrace, ih, List.append_assoc, List.length_cons, show n + 1 + A.length = n + (A.length + 1) by omega]

theorem mem_fullTrace {ops : List StoredOp} {L : List Submission} {n i : ℕ} {s : Submission} (h : L[i]? = some s) {x : Event}
    (hx : x ∈ jobTrace ops (n + i) s) : x ∈ fullTrace ops n L := by
  induction L generalizing n i with
  | nil => simp at h
  | cons s' ss ih =>
    rw [fullTrace, List.mem_append]
    cases i with
    | zero =>
      simp only [List.getElem?_cons_zero, Option.some.injEq] at h
      subst h
      exact Or.inl hx
    | succ i =>
      right
      exact ih (by simpa using h) (by rw [show n + 1 + i = n + (i + 1) by omega]; exact hx)

theorem elements_nodup (s : Submission) : (elements s).Nodup := by
  unfold elements
  apply List.nodup_range.map
  intro a b h
  have h' : s.first + (a : ℤ) = s.first + (b : ℤ) := h
  omega

theorem split_at {L : List Submission} {j : ℕ} {s : Submission} (h : L[j]? = some s) : ∃ A B, L = A ++ s :: B ∧ A.length = j := by
  have hj : j < L.length := by
    by_contra hc
    rw [List.getElem?_eq_none (by omega)] at h
    cases h
  refine ⟨L.take j, L.drop (j + 1), ?_, by rw [List.length_take]; omega⟩
  rw [List.getElem?_eq_getElem hj] at h
  injection h with h
  rw [← h, List.cons_getElem_drop_succ, List.take_append_drop]

/-- If every job waits for earlier jobs only, running the jobs one after another is permitted. -/
theorem sequential_permitted {ops : List StoredOp} {ids : ℕ → Text} {log : List Submission}
    (h : ∀ j s, log[j]? = some s → ∀ l, Means s.wait l → ∀ j', ids j' ∈ l → j' < j) :
    Permitted ops ids log (fullTrace ops 0 log) ∧ Complete ops log (fullTrace ops 0 log) := by
  have hcomp : ∀ (j : ℕ) s, log[j]? = some s → ∀ e ∈ elements s, ∀ x ∈ elementTrace ops s j e, x ∈ fullTrace ops 0 log := by
    intro j s hj e he x hx
    refine mem_fullTrace hj (n := 0) ?_
    rw [Nat.zero_add]
    unfold jobTrace
    rw [List.mem_flatMap]
    exact ⟨e, he, hx⟩
  have find : ∀ {past future : List Event} {x : Event}, fullTrace ops 0 log = past ++ x :: future →
      ∃ s, log[jobOf x]? = some s ∧ elementOf x ∈ elements s ∧ x ∈ elementTrace ops s (jobOf x) (elementOf x) := by
    intro past future x hx
    have hm : x ∈ fullTrace ops 0 log := by rw [hx]; simp
    obtain ⟨i, s, h1, h2⟩ := of_mem_fullTrace hm
    rw [Nat.zero_add] at h2
    have h3 := of_mem_jobTrace h2
    unfold jobTrace at h2
    rw [List.mem_flatMap] at h2
    obtain ⟨e, he, h4⟩ := h2
    have h5 := (of_mem_elementTrace h4).2
    rw [← h5] at he h4
    rw [← h3] at h1 h4
    exact ⟨s, h1, he, h4⟩
  refine ⟨⟨?_, ?_⟩, ?_⟩
  · intro past future j e p ok hx
    obtain ⟨s, h1, h2, h3⟩ := find hx
    change log[j]? = some s at h1
    change e ∈ elements s at h2
    change _ ∈ elementTrace ops s j e at h3
    unfold elementTrace at h3
    rw [List.mem_append, List.mem_map, List.mem_singleton] at h3
    rcases h3 with ⟨p', hp', h3⟩ | h3
    · rw [Event.ran.injEq] at h3
      obtain ⟨-, -, rfl, rfl⟩ := h3
      rw [List.mem_range] at hp'
      refine ⟨s, (commands ops s e)[p'], h1, h2, List.getElem?_eq_getElem hp', ?_⟩
      intro l hl j' hj'
      have hlt := h j s h1 l hl j' hj'
      intro s' hs' e' he'
      obtain ⟨A, B, hAB, hlen⟩ := split_at h1
      rw [hAB, fullTrace_append] at hx
      obtain ⟨t, ht⟩ := prefix_of_not_mem hx (by
        intro hmem
        obtain ⟨i, s2, h4, h5⟩ := of_mem_fullTrace hmem
        have h6 := of_mem_jobTrace h5
        change j = 0 + i at h6
        rw [List.getElem?_eq_none (by omega)] at h4
        cases h4)
      rw [ht, List.mem_append]
      left
      have h7 : A[j']? = some s' := by
        rw [← hs', hAB, List.getElem?_append_left (by omega)]
      refine mem_fullTrace h7 ?_
      unfold jobTrace
      rw [List.mem_flatMap]
      refine ⟨e', he', ?_⟩
      unfold elementTrace
      rw [Nat.zero_add]
      simp
    · cases h3
  · intro past future j e hx
    obtain ⟨s, h1, h2, -⟩ := find hx
    change log[j]? = some s at h1
    change e ∈ elements s at h2
    refine ⟨s, h1, h2, List.replicate (commands ops s e).length true, List.length_replicate, ?_, ?_⟩
    · unfold exitOk
      have hl : (List.replicate (commands ops s e).length true).getLast?.getD true = true := by
        cases (commands ops s e).length with
        | zero => rfl
        | succ n => simp [List.getLast?_replicate]
      cases s.script with
      | single => exact hl
      | group =>
        dsimp only
        by_cases hf : ranFull ops s e = true
        · rw [if_pos hf]; exact hl
        · rw [if_neg hf]
    · intro p ok hp
      rw [List.getElem?_replicate] at hp
      split at hp
      · rename_i hpl
        injection hp with hp
        subst hp
        obtain ⟨A, B, hAB, hlen⟩ := split_at h1
        obtain ⟨E, F, hEF⟩ := List.append_of_mem h2
        have hnd := elements_nodup s
        rw [hEF] at hnd
        have heE : e ∉ E := by
          intro hmem
          exact (List.nodup_append.1 hnd).2.2 e hmem e (by simp) rfl
        have hsplit : fullTrace ops 0 log = (fullTrace ops 0 A ++ E.flatMap (elementTrace ops s j) ++
            (List.range (commands ops s e).length).map (fun p => Event.ran j e p true)) ++
            (.ended j e true :: (F.flatMap (elementTrace ops s j) ++ fullTrace ops (j + 1) B)) := by
          rw [hAB, fullTrace_append, fullTrace, hlen, Nat.zero_add]
          unfold jobTrace
          rw [hEF, List.flatMap_append, List.flatMap_cons]
          rw [show elementTrace ops s j e = (List.range (commands ops s e).length).map (fun p => Event.ran j e p true) ++
            [.ended j e true] from rfl]
          simp [List.append_assoc]
        rw [hsplit] at hx
        obtain ⟨t, ht⟩ := prefix_of_not_mem hx (by
          intro hmem
          rw [List.mem_append, List.mem_append] at hmem
          rcases hmem with (hmem | hmem) | hmem
          · obtain ⟨i, s2, h4, h5⟩ := of_mem_fullTrace hmem
            have h6 := of_mem_jobTrace h5
            change j = 0 + i at h6
            rw [List.getElem?_eq_none (by omega)] at h4
            cases h4
          · rw [List.mem_flatMap] at hmem
            obtain ⟨e', he', hm⟩ := hmem
            have := (of_mem_elementTrace hm).2
            change e = e' at this
            exact heE (this ▸ he')
          · rw [List.mem_map] at hmem
            obtain ⟨p', -, hm⟩ := hmem
            cases hm)
        rw [ht]
        simp only [List.mem_append, List.mem_map, List.mem_range]
        left; right
        exact ⟨p, hpl, rfl⟩
      · cases hp
  · intro j s hj e he p hp
    refine hcomp j s hj e he _ ?_
    unfold elementTrace
    rw [List.mem_append, List.mem_map]
    exact Or.inl ⟨p, List.mem_range.2 hp, rfl⟩

theorem mem_idsFrom {answers : ℕ → Answer} {ids : ℕ → Text} (ha : Accepting answers ids) {n k j : ℕ} (h : ids j ∈ idsFrom ids n k) :
    j < n + k := by
  unfold idsFrom at h
  rw [List.mem_map] at h
  obtain ⟨i, hi, h⟩ := h
  rw [List.mem_range] at hi
  have := ha.2 _ _ h
  omega

theorem chained_waits {ops : List StoredOp} {answers : ℕ → Answer} {ids : ℕ → Text} (ha : Accepting answers ids)
    {ms : List (String × Script)} {w : Text} {n : ℕ} {L : List Submission} (hc : Chained ops ids ms w n L)
    (hw : ∀ l, Means w l → ∀ j', ids j' ∈ l → j' < n) :
    ∀ (i : ℕ) s, L[i]? = some s → ∀ l, Means s.wait l → ∀ j', ids j' ∈ l → j' < n + i := by
  induction ms generalizing w n L with
  | nil =>
    intro i s hi
    rw [show L = [] from hc] at hi
    simp at hi
  | cons m ms ih =>
    obtain ⟨new, rest, N, h1, h2, -, -, -, h6⟩ := hc
    intro i s hi l hl j' hj'
    by_cases hil : i < new.length
    · rw [h1, List.getElem?_append_left hil] at hi
      have h3 := (h2 s (List.mem_of_getElem? hi)).2.1
      rw [h3] at hl
      have := hw l hl j' hj'
      omega
    · rw [h1, List.getElem?_append_right (by omega)] at hi
      have := ih h6 (by
        intro l hl j' hj'
        have hm : Means (doneCondition (idsFrom ids n new.length)) (idsFrom ids n new.length) := by
          apply means_done
          intro x hx
          unfold idsFrom at hx
          rw [List.mem_map] at hx
          obtain ⟨q, -, rfl⟩ := hx
          exact (ha.1 _).2.1
        rw [means_unique hl hm] at hj'
        exact mem_idsFrom ha hj') _ s hi l hl j' hj'
      omega

/-- **C129.** Submitted iterations can be run to their end: there is a permitted execution in which every operation succeeds. -/
theorem c129_runs {ops : List StoredOp} {answers : ℕ → Answer} {ids : ℕ → Text} (ha : Accepting answers ids) {grouped : Bool}
    {o : Options} {first last final : ℕ} {w' : Text} {log : List Submission}
    (h : multiIteration ops answers grouped o first last final [] [] = (log, .ok w')) :
    ∃ trace, Permitted ops ids log trace ∧ Complete ops log trace := by
  unfold multiIteration at h
  rw [iterationsLoop_eq] at h
  obtain ⟨L, hL, hc⟩ := chain_chained ha (by
    intro st hst
    rw [List.mem_flatMap] at hst
    obtain ⟨i, -, hst⟩ := hst
    exact stages_scripts _ _ _ st hst) h
  rw [List.nil_append] at hL
  subst hL
  refine ⟨fullTrace ops 0 log, sequential_permitted ?_⟩
  intro j s hj l hl j' hj'
  have := chained_waits ha hc (by
    intro l hl j' hj'
    rw [means_unique hl Means.nothing] at hj'
    cases hj') j s hj l hl j' hj'
  simpa using this

end Verif.Eustace.Submit
