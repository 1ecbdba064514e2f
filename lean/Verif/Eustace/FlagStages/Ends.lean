import Verif.Eustace.FlagStages.Scripts

/-! C190: the stages never wait for each other for ever. -/

namespace Verif.Eustace.FlagStages
open Verif.Eustace.FlagJobs Verif.Eustace.MaskDirs

variable {D K F : Type} [DecidableEq D] [DecidableEq K]

/-- How many steps a job has to do. -/
def left (j : Job F) : Nat := 2 * j.todo.length - (if j.writing.isSome then 1 else 0)

theorem run_append (P : Plan D K F) (es es' : List (Event K)) : ∀ s, run P s (es ++ es') = run P (run P s es) es' := by
  induction es with
  | nil => intro s; rfl
  | cons e es ih => intro s; exact ih _

/-- Specification: what is asked of the checks: no error when the stages which
are read have been completed. -/
def Accepts (P : Plan D K F) (reads : K → List D) : Prop :=
  ∀ k (fs : Tree D F), (∀ j, P.dst j ∈ reads k → ∀ i < P.count j, ∀ d ∈ P.days j i, ∃ f, fs (P.dst j) d = .full f) →
    ∀ i < P.count k, ∀ d ∈ P.days k i, P.check k fs d ≠ none

/-- A released job of a good state can be brought to its end. -/
theorem job_ends {P : Plan D K F} {reads : K → List D} (hP : Sound P reads) (hA : Accepts P reads) (fs₀ : Tree D F)
    (k : K) (i : Nat) (hi : i < P.count k) : ∀ n (es : List (Event K)),
    released P (run P (submitted P fs₀) es) k = true →
    left ((run P (submitted P fs₀) es).jobs k i) ≤ n →
    ∃ es', ((run P (submitted P fs₀) (es ++ es')).jobs k i).todo = [] := by
  intro n
  induction n with
  | zero =>
    intro es _ hl
    refine ⟨[], ?_⟩
    rw [List.append_nil]
    generalize (run P (submitted P fs₀) es).jobs k i = j at hl
    unfold left at hl
    apply List.length_eq_zero_iff.1
    split at hl <;> omega
  | succ n ih =>
    intro es hr hl
    have g := run_good hP es _ (submitted_good P fs₀)
    by_cases he : ((run P (submitted P fs₀) es).jobs k i).todo = []
    · exact ⟨[], by rw [List.append_nil]; exact he⟩
    · have hacc : ∀ d ∈ P.days k i, P.check k (run P (submitted P fs₀) es).files d ≠ none := by
        refine hA k _ (fun j hj n hn d hd => ?_) i hi
        have ht := (released_iff _ _ _).1 hr j (hP.waits j k hj) n hn
        obtain ⟨f, _, h2⟩ := c190_consistent P reads hP fs₀ es j n ht d hd
        exact ⟨f, h2⟩
      have hnf : ((run P (submitted P fs₀) es).jobs k i).failed = false := by
        cases hf : ((run P (submitted P fs₀) es).jobs k i).failed with
        | false => rfl
        | true =>
          obtain ⟨d, hd, hc⟩ := c190_failed P reads hP fs₀ es k i hf
          exact absurd hc (hacc d hd)
      have hstep : run P (submitted P fs₀) (es ++ [.own k i])
          = step P (run P (submitted P fs₀) es) (.own k i) := by rw [run_append]; rfl
      have hlt : left ((run P (submitted P fs₀) (es ++ [.own k i])).jobs k i) ≤ n := by
        rw [hstep]
        have hdays : ∀ d ∈ ((run P (submitted P fs₀) es).jobs k i).todo, d ∈ P.days k i := by
          intro d hd
          rw [← g.days k i]
          rcases g.job k i with hf | ⟨_, _, hb⟩
          · rw [hf] at hd ⊢; exact hd
          · obtain ⟨fin, hs, _⟩ := hb.split
            rw [hs]
            exact List.mem_append_right _ hd
        have hjob : (step P (run P (submitted P fs₀) es) (.own k i)).jobs k i
            = (stepJob P k (run P (submitted P fs₀) es).files ((run P (submitted P fs₀) es).jobs k i)).2 := by
          simp only [step]
          rw [if_pos ⟨hr, hi⟩]
          simp [setJob]
        rw [hjob]
        clear hjob hstep
        generalize (run P (submitted P fs₀) es).jobs k i = j at *
        generalize (run P (submitted P fs₀) es).files = fs at *
        obtain ⟨days, todo, writing, failed⟩ := j
        simp only at hnf he hdays
        subst hnf
        unfold stepJob
        simp only [Bool.false_eq_true, if_false]
        cases todo with
        | nil => exact absurd rfl he
        | cons d rest =>
          cases writing with
          | some f => simp [left] at hl ⊢; omega
          | none =>
            simp only
            cases hc : P.check k fs d with
            | none => exact absurd hc (hacc d (hdays d List.mem_cons_self))
            | some f => simp [left] at hl ⊢; omega
      have hr' : released P (run P (submitted P fs₀) (es ++ [.own k i])) k = true := by
        rw [hstep]; exact step_released P _ _ _ hr
      obtain ⟨es', h⟩ := ih (es ++ [.own k i]) hr' hlt
      exact ⟨.own k i :: es', by rw [← List.singleton_append, ← List.append_assoc]; exact h⟩

theorem run_ended (P : Plan D K F) (es : List (Event K)) : ∀ (s : State D K F) (k : K) (i : Nat),
    (s.jobs k i).todo = [] → ((run P s es).jobs k i).todo = [] := by
  induction es with
  | nil => exact fun s k i h => h
  | cons e es ih => exact fun s k i h => ih _ k i (by rw [step_ended P s e k i h]; exact h)

/-- C190: from whatever has happened, with stages each of which waits for
stages before it only and checks without errors, all jobs can still come to their end:
they never wait for each other for ever. -/
theorem c190_ends (P : Plan D K F) (reads : K → List D) (hP : Sound P reads) (hA : Accepts P reads) (rank : K → Nat)
    (hw : ∀ k, ∀ j ∈ P.waits k, rank j < rank k) (stages : List K) (hst : ∀ k, k ∈ stages) (fs : Tree D F)
    (es : List (Event K)) :
    ∃ es', ∀ k, ∀ i < P.count k, ((run P (submitted P fs) (es ++ es')).jobs k i).todo = [] := by
  -- one released stage
  have one : ∀ k n es, n ≤ P.count k → released P (run P (submitted P fs) es) k = true →
      ∃ es', ∀ i < n, ((run P (submitted P fs) (es ++ es')).jobs k i).todo = [] := by
    intro k n
    induction n with
    | zero => intro es _ _; exact ⟨[], fun i hi => absurd hi (by omega)⟩
    | succ n ih =>
      intro es hn hr
      obtain ⟨es₁, h₁⟩ := ih es (by omega) hr
      have hr₁ : released P (run P (submitted P fs) (es ++ es₁)) k = true := by
        rw [released_iff] at hr ⊢
        intro j hj i hi
        rw [run_append]
        exact run_ended P es₁ _ j i (hr j hj i hi)
      obtain ⟨es₂, h₂⟩ := job_ends hP hA fs k n (by omega) _ (es ++ es₁) hr₁ (Nat.le_refl _)
      refine ⟨es₁ ++ es₂, fun i hi => ?_⟩
      rw [← List.append_assoc]
      rcases Nat.lt_succ_iff_lt_or_eq.1 hi with hi | rfl
      · rw [run_append]
        exact run_ended P es₂ _ k i (h₁ i hi)
      · exact h₂
  -- all stages up to a rank
  have all : ∀ r es, ∃ es', ∀ k, rank k < r → ∀ i < P.count k,
      ((run P (submitted P fs) (es ++ es')).jobs k i).todo = [] := by
    intro r
    induction r with
    | zero => intro es; exact ⟨[], fun k hk => absurd hk (by omega)⟩
    | succ r ih =>
      intro es
      obtain ⟨es₁, h₁⟩ := ih es
      have some : ∀ (l : List K), ∃ es', ∀ k, (rank k < r ∨ (k ∈ l ∧ rank k ≤ r)) → ∀ i < P.count k,
          ((run P (submitted P fs) (es ++ es')).jobs k i).todo = [] := by
        intro l
        induction l with
        | nil => exact ⟨es₁, fun k hk => h₁ k (hk.resolve_right fun h => by cases h.1)⟩
        | cons a l ihl =>
          obtain ⟨es₂, h₂⟩ := ihl
          by_cases ha : rank a ≤ r
          · have hra : released P (run P (submitted P fs) (es ++ es₂)) a = true := by
              rw [released_iff]
              intro j hj i hi
              exact h₂ j (Or.inl (by have := hw a j hj; omega)) i hi
            obtain ⟨es₃, h₃⟩ := one a _ (es ++ es₂) (Nat.le_refl _) hra
            refine ⟨es₂ ++ es₃, fun k hk i hi => ?_⟩
            rw [← List.append_assoc]
            by_cases e : k = a
            · subst e; exact h₃ i hi
            · rw [run_append]
              refine run_ended P es₃ _ k i (h₂ k ?_ i hi)
              rcases hk with hk | ⟨hk, hk'⟩
              · exact Or.inl hk
              · rcases List.mem_cons.1 hk with hk | hk
                · exact absurd hk e
                · exact Or.inr ⟨hk, hk'⟩
          · refine ⟨es₂, fun k hk i hi => h₂ k ?_ i hi⟩
            rcases hk with hk | ⟨hk, hk'⟩
            · exact Or.inl hk
            · rcases List.mem_cons.1 hk with hk | hk
              · subst hk; exact absurd hk' ha
              · exact Or.inr ⟨hk, hk'⟩
      obtain ⟨es₂, h₂⟩ := some stages
      exact ⟨es₂, fun k hk i hi => h₂ k (Or.inr ⟨hst k, by omega⟩) i hi⟩
  have hmax : ∀ l : List K, ∃ r, ∀ k ∈ l, rank k < r := by
    intro l
    induction l with
    | nil => exact ⟨0, by simp⟩
    | cons a l ih =>
      obtain ⟨r, hr⟩ := ih
      refine ⟨r + rank a + 1, fun k hk => ?_⟩
      rcases List.mem_cons.1 hk with rfl | hk
      · omega
      · have := hr k hk; omega
  obtain ⟨r, hr⟩ := hmax stages
  obtain ⟨es', h⟩ := all r es
  exact ⟨es', fun k i hi => h k (hr k (hst k)) i hi⟩

/-- C190: the scripts with the conditions they need can always come to their
end. -/
theorem c190_postprocess_ends (s : Settings) (hs : Plain s)
    (check : Script → Tree (Option (Dir × Nat)) F → Nat → Option F) (count : Script → Nat)
    (days : Script → Nat → List Nat)
    (hc : ∀ k fs fs' d, (∀ p ∈ (stage k s).reads, ∀ n, fs (some p) n = fs' (some p) n) → check k fs d = check k fs' d)
    (hn : ∀ k i, (days k i).Nodup) (ha : ∀ k i j, i ≠ j → ∀ d ∈ days k i, d ∉ days k j)
    (hA : Accepts (scripts s check needed count days) (readBy s))
    (fs : Tree (Option (Dir × Nat)) F) (es : List (Event Script)) :
    ∃ es', ∀ k, ∀ i < count k, ((run (scripts s check needed count days)
      (submitted (scripts s check needed count days) fs) (es ++ es')).jobs k i).todo = [] :=
  c190_ends _ (readBy s) (c190_scripts s hs check needed count days hc (fun j k p => c190_needed s hs j k p) hn ha) hA
    rank (by intro k; cases k <;> simp [scripts, needed, rank])
    [.threshold, .window, .calendar, .outlier, .outlierWindow, .merge, .percentile, .location, .apply]
    (by intro k; cases k <;> simp) fs es

theorem chained_accepts : Accepts chained fun k => if k then [false] else [] := by
  intro k fs h i hi d hd
  cases k
  · simp [chained, two]
  · obtain ⟨f, hf⟩ := h false (by simp [chained, two]) i hi d hd
    simp only [chained, two, id] at hf
    simp [chained, two, hf]

example : ∃ es', ∀ k, ∀ i < chained.count k, ((run chained (submitted chained earlier)
    ([.own false 0, .restart false 0] ++ es')).jobs k i).todo = [] :=
  c190_ends chained _ two_sound chained_accepts (fun k => if k then 1 else 0)
    (by intro k j hj; cases k <;> simp_all [chained, two]) [false, true] (by intro k; cases k <;> simp) earlier _

end Verif.Eustace.FlagStages
