import Verif.Eustace.FlagStages.Model
import Mathlib.Data.List.Basic

/-! C190: the stages of the post-processing together. -/

namespace Verif.Eustace.FlagStages
open Verif.Eustace.FlagJobs

variable {D K F : Type} [DecidableEq D] [DecidableEq K]

/-- Specification: what each stage reads decides what it makes; every stage
has a directory of its own and waits for the stages which write what it reads;
no day belongs to two jobs of a stage or twice to one. -/
structure Sound (P : Plan D K F) (reads : K → List D) : Prop where
  local' : ∀ k fs fs' d, (∀ p ∈ reads k, ∀ n, fs p n = fs' p n) → P.check k fs d = P.check k fs' d
  own : ∀ j k, P.dst j = P.dst k → j = k
  waits : ∀ j k, P.dst j ∈ reads k → j ∈ P.waits k
  nodup : ∀ k i, (P.days k i).Nodup
  apart : ∀ k i j, i ≠ j → ∀ d ∈ P.days k i, d ∉ P.days k j

/-- Specification: the file of a day is what the stage makes of the files
which are there. -/
def Right (P : Plan D K F) (fs : Tree D F) (k : K) (d : Nat) : Prop :=
  ∃ f, P.check k fs d = some f ∧ fs (P.dst k) d = .full f

/-- What is known of a job that may have begun. -/
structure Begun (P : Plan D K F) (fs : Tree D F) (k : K) (j : Job F) : Prop where
  split : ∃ fin, j.days = fin ++ j.todo ∧ ∀ d ∈ fin, Right P fs k d
  writing : ∀ f, j.writing = some f → ∃ d rest, j.todo = d :: rest ∧ P.check k fs d = some f
  failed : j.failed = true → ∃ d ∈ j.days, P.check k fs d = none

theorem begun_fresh (P : Plan D K F) (fs : Tree D F) (k : K) (days : List Nat) : Begun P fs k (fresh days) :=
  ⟨⟨[], rfl, by simp⟩, by simp [fresh], by simp [fresh]⟩

/-- What is known of the state. -/
structure Good (P : Plan D K F) (fs₀ : Tree D F) (s : State D K F) : Prop where
  days : ∀ k i, (s.jobs k i).days = P.days k i
  job : ∀ k i, s.jobs k i = fresh (P.days k i) ∨ (released P s k = true ∧ i < P.count k ∧ Begun P s.files k (s.jobs k i))
  other : ∀ p d, (∀ k i, i < P.count k → p = P.dst k → d ∉ P.days k i) → s.files p d = fs₀ p d

theorem released_iff (P : Plan D K F) (s : State D K F) (k : K) :
    released P s k = true ↔ ∀ j ∈ P.waits k, ∀ i < P.count j, (s.jobs j i).todo = [] := by
  simp [released, List.all_eq_true]

/-- What a step of a job changes. -/
theorem stepJob_files (P : Plan D K F) (k : K) (fs : Tree D F) (j : Job F) :
    (stepJob P k fs j).1 = fs ∨ ∃ d rest e, j.todo = d :: rest ∧ (stepJob P k fs j).1 = put fs (P.dst k) d e := by
  obtain ⟨days, todo, writing, failed⟩ := j
  unfold stepJob
  simp only
  cases failed with
  | true => exact Or.inl rfl
  | false =>
    simp only [Bool.false_eq_true, if_false]
    cases todo with
    | nil => exact Or.inl rfl
    | cons d rest =>
      cases writing with
      | some f => exact Or.inr ⟨d, rest, _, rfl, rfl⟩
      | none =>
        simp only
        cases P.check k fs d with
        | none => exact Or.inl rfl
        | some f => exact Or.inr ⟨d, rest, _, rfl, rfl⟩

theorem stepJob_ended (P : Plan D K F) (k : K) (fs : Tree D F) (j : Job F) (h : j.todo = []) :
    stepJob P k fs j = (fs, j) := by
  unfold stepJob
  rw [h]
  split <;> rfl

theorem restartJob_ended (j : Job F) (h : j.todo = []) : restartJob j = j := by
  unfold restartJob
  rw [h]
  split <;> rfl

theorem restartJob_or (j : Job F) : restartJob j = j ∨ restartJob j = fresh j.days := by
  unfold restartJob
  split
  · exact Or.inl rfl
  · split
    · exact Or.inl rfl
    · exact Or.inr rfl

/-- Jobs which have ended remain so. -/
theorem step_ended (P : Plan D K F) (s : State D K F) (e : Event K) (k : K) (i : Nat)
    (h : (s.jobs k i).todo = []) : (step P s e).jobs k i = s.jobs k i := by
  cases e with
  | own k' i' =>
    unfold step
    simp only
    split
    · simp only [setJob]
      split
      · rename_i hk
        obtain ⟨rfl, rfl⟩ := hk
        rw [stepJob_ended P k _ _ h]
      · rfl
    · rfl
  | restart k' i' =>
    simp only [step, setJob]
    split
    · rename_i hk
      obtain ⟨rfl, rfl⟩ := hk
      exact restartJob_ended _ h
    · rfl

theorem step_released (P : Plan D K F) (s : State D K F) (e : Event K) (k : K) (h : released P s k = true) :
    released P (step P s e) k = true := by
  rw [released_iff] at h ⊢
  intro j hj i hi
  rw [step_ended P s e j i (h j hj i hi)]
  exact h j hj i hi

/-- What is known of a job remains when other files are written. -/
theorem Begun.mono {P : Plan D K F} {fs fs' : Tree D F} {k : K} {j : Job F} (h : Begun P fs k j)
    (hc : ∀ d, P.check k fs' d = P.check k fs d) (ho : ∀ d ∈ j.days, fs' (P.dst k) d = fs (P.dst k) d) :
    Begun P fs' k j := by
  obtain ⟨⟨fin, hs, hf⟩, hw, he⟩ := h
  refine ⟨⟨fin, hs, fun d hd => ?_⟩, ?_, ?_⟩
  · obtain ⟨f, f1, f2⟩ := hf d hd
    exact ⟨f, by rw [hc]; exact f1, by rw [ho d (by rw [hs]; exact List.mem_append_left _ hd)]; exact f2⟩
  · intro f hf'
    obtain ⟨d, rest, a, b⟩ := hw f hf'
    exact ⟨d, rest, a, by rw [hc]; exact b⟩
  · intro hf'
    obtain ⟨d, a, b⟩ := he hf'
    exact ⟨d, a, by rw [hc]; exact b⟩

/-- One step of a job, if it does not write what it reads. -/
theorem stepJob_begun {P : Plan D K F} {k : K} {fs : Tree D F} {j : Job F} (hn : j.days.Nodup)
    (hc : ∀ d, P.check k (stepJob P k fs j).1 d = P.check k fs d) (h : Begun P fs k j) :
    (stepJob P k fs j).2.days = j.days ∧ Begun P (stepJob P k fs j).1 k (stepJob P k fs j).2 := by
  obtain ⟨days, todo, writing, failed⟩ := j
  obtain ⟨⟨fin, hs, hf⟩, hw, he⟩ := h
  simp only at hs hf hw he hn
  revert hc
  unfold stepJob
  simp only
  cases failed with
  | true => intro _; exact ⟨rfl, ⟨fin, hs, hf⟩, hw, he⟩
  | false =>
    simp only [Bool.false_eq_true, if_false]
    cases todo with
    | nil => intro _; exact ⟨rfl, ⟨fin, hs, hf⟩, hw, he⟩
    | cons d rest =>
      have hd : d ∈ days := by rw [hs]; simp
      have hnf : d ∉ fin := by
        rw [hs] at hn
        intro hc
        exact (List.nodup_append.1 hn).2.2 d hc d List.mem_cons_self rfl
      cases writing with
      | some f =>
        simp only
        intro hc
        obtain ⟨d', rest', hd', hc'⟩ := hw f rfl
        simp only [List.cons.injEq] at hd'
        obtain ⟨rfl, rfl⟩ := hd'
        refine ⟨(by trivial), ⟨fin ++ [d], by simp [hs], ?_⟩, by simp, by simp⟩
        intro d' hd'
        rw [List.mem_append, List.mem_singleton] at hd'
        by_cases e : d' = d
        · subst e
          exact ⟨f, by rw [hc]; exact hc', by simp [put]⟩
        · obtain ⟨g, g1, g2⟩ := hf d' (hd'.resolve_right e)
          exact ⟨g, by rw [hc]; exact g1, by simp [put, e, g2]⟩
      | none =>
        simp only
        cases hcd : P.check k fs d with
        | none => intro _; exact ⟨rfl, ⟨fin, hs, hf⟩, by simp, fun _ => ⟨d, hd, hcd⟩⟩
        | some f =>
          simp only
          intro hc
          refine ⟨(by trivial), ⟨fin, hs, ?_⟩, ?_, by simp⟩
          · intro d' hd'
            have e : d' ≠ d := fun e => hnf (e ▸ hd')
            obtain ⟨g, g1, g2⟩ := hf d' hd'
            exact ⟨g, by rw [hc]; exact g1, by simp [put, e, g2]⟩
          · intro g hg
            injection hg with hg
            subst hg
            exact ⟨d, rest, rfl, by rw [hc]; exact hcd⟩

theorem step_good {P : Plan D K F} {reads : K → List D} (hP : Sound P reads) {fs₀ : Tree D F} {s : State D K F}
    (h : Good P fs₀ s) (e : Event K) : Good P fs₀ (step P s e) := by
  cases e with
  | restart k i =>
    refine ⟨fun k' i' => ?_, fun k' i' => ?_, h.other⟩
    · simp only [step, setJob]
      split
      · rename_i hk
        obtain ⟨rfl, rfl⟩ := hk
        rcases restartJob_or (s.jobs k' i') with hr | hr
        · rw [hr]; exact h.days k' i'
        · rw [hr]; exact h.days k' i'
      · exact h.days k' i'
    · rcases h.job k' i' with hf | ⟨hr, hi, hb⟩
      · left
        simp only [step, setJob]
        split
        · rename_i hk
          obtain ⟨rfl, rfl⟩ := hk
          rcases restartJob_or (s.jobs k' i') with hr | hr
          · rw [hr]; exact hf
          · rw [hr, h.days]
        · exact hf
      · by_cases hk : k' = k ∧ i' = i
        · obtain ⟨rfl, rfl⟩ := hk
          rcases restartJob_or (s.jobs k' i') with hq | hq
          · right
            refine ⟨step_released P s _ _ hr, hi, ?_⟩
            simp only [step, setJob, and_self, if_true]
            rw [hq]
            exact hb
          · left
            simp only [step, setJob, and_self, if_true]
            rw [hq, h.days]
        · right
          refine ⟨step_released P s _ _ hr, hi, ?_⟩
          simp only [step, setJob, if_neg hk]
          exact hb
  | own k i =>
    by_cases hg : released P s k = true ∧ i < P.count k
    · have hstep : step P s (.own k i) = ⟨(stepJob P k s.files (s.jobs k i)).1,
          setJob s.jobs k i (stepJob P k s.files (s.jobs k i)).2⟩ := by
        simp only [step, if_pos hg]
      have hrel := fun k' => step_released P s (.own k i) k'
      -- what a released stage reads is not written any more
      have hcheck : ∀ k', released P s k' = true →
          ∀ d, P.check k' (stepJob P k s.files (s.jobs k i)).1 d = P.check k' s.files d := by
        intro k' hr' d
        rcases stepJob_files P k s.files (s.jobs k i) with hs | ⟨d', rest, e, ht, hs⟩
        · rw [hs]
        · rw [hs]
          refine hP.local' k' _ _ d fun p hp n => ?_
          have hne : p ≠ P.dst k := by
            rintro rfl
            have := (released_iff P s k').1 hr' k (hP.waits k k' hp) i hg.2
            rw [ht] at this
            cases this
          simp [put, hne]
      have hbegun : Begun P s.files k (s.jobs k i) := by
        rcases h.job k i with hf | ⟨_, _, hb⟩
        · rw [hf]; exact begun_fresh _ _ _ _
        · exact hb
      obtain ⟨hd, hb⟩ := stepJob_begun (by rw [h.days]; exact hP.nodup k i) (hcheck k hg.1) hbegun
      refine ⟨fun k' i' => ?_, fun k' i' => ?_, fun p d hpd => ?_⟩
      · rw [hstep]
        simp only [setJob]
        split
        · rename_i hk
          obtain ⟨rfl, rfl⟩ := hk
          rw [hd]
          exact h.days k' i'
        · exact h.days k' i'
      · by_cases hk : k' = k ∧ i' = i
        · obtain ⟨rfl, rfl⟩ := hk
          right
          refine ⟨hrel k' hg.1, hg.2, ?_⟩
          rw [hstep]
          simp only [setJob, and_self, if_true]
          exact hb
        · rcases h.job k' i' with hf | ⟨hr, hi, hb'⟩
          · left
            rw [hstep]
            simp only [setJob, if_neg hk]
            exact hf
          · right
            refine ⟨hrel k' hr, hi, ?_⟩
            rw [hstep]
            simp only [setJob, if_neg hk]
            refine hb'.mono (hcheck k' hr) fun d hdd => ?_
            rcases stepJob_files P k s.files (s.jobs k i) with hs | ⟨d', rest, e, ht, hs⟩
            · rw [hs]
            · rw [hs]
              have hne : ¬ (P.dst k' = P.dst k ∧ d = d') := by
                rintro ⟨hq, rfl⟩
                have hkk := hP.own _ _ hq
                subst hkk
                rw [h.days] at hdd
                have hmem : d ∈ P.days k' i := by
                  obtain ⟨fin, hs', _⟩ := hbegun.split
                  rw [← h.days, hs', ht]
                  simp
                exact hP.apart k' i' i (fun e => hk ⟨rfl, e⟩) d hdd hmem
              simp only [put, if_neg hne]
      · rw [hstep]
        simp only
        rw [← h.other p d hpd]
        rcases stepJob_files P k s.files (s.jobs k i) with hs | ⟨d', rest, e, ht, hs⟩
        · rw [hs]
        · rw [hs]
          have hne : ¬ (p = P.dst k ∧ d = d') := by
            rintro ⟨hq, rfl⟩
            refine hpd k i hg.2 hq ?_
            obtain ⟨fin, hs', _⟩ := hbegun.split
            rw [← h.days, hs', ht]
            simp
          simp only [put, if_neg hne]
    · have : step P s (.own k i) = s := by simp only [step, if_neg hg]
      rw [this]
      exact h

theorem run_good {P : Plan D K F} {reads : K → List D} (hP : Sound P reads) {fs₀ : Tree D F} (es : List (Event K)) :
    ∀ s, Good P fs₀ s → Good P fs₀ (run P s es) := by
  induction es with
  | nil => exact fun s h => h
  | cons e es ih => exact fun s h => ih _ (step_good hP h e)

theorem submitted_good (P : Plan D K F) (fs : Tree D F) : Good P fs (submitted P fs) :=
  ⟨fun _ _ => rfl, fun _ _ => Or.inl rfl, fun _ _ _ => rfl⟩

/-- C190: whenever a job has ended, the files of all its days are complete and
are what its stage makes of the files which are there: of the flags of this
run, not of those of an earlier one, whatever the order of events and however
often hosts fail. -/
theorem c190_consistent (P : Plan D K F) (reads : K → List D) (hP : Sound P reads) (fs : Tree D F)
    (es : List (Event K)) (k : K) (i : Nat) (hd : ((run P (submitted P fs) es).jobs k i).todo = [])
    (d : Nat) (hm : d ∈ P.days k i) :
    ∃ f, P.check k (run P (submitted P fs) es).files d = some f
      ∧ (run P (submitted P fs) es).files (P.dst k) d = .full f := by
  have g := run_good hP es _ (submitted_good P fs)
  rcases g.job k i with hf | ⟨_, _, hb⟩
  · rw [hf] at hd
    simp only [fresh] at hd
    rw [hd] at hm
    cases hm
  · obtain ⟨fin, hs, hr⟩ := hb.split
    rw [hd, List.append_nil, g.days] at hs
    exact hr d (hs ▸ hm)

/-- C190: no job runs before all jobs of the stages which write what it reads
have ended. -/
theorem c190_order (P : Plan D K F) (reads : K → List D) (hP : Sound P reads) (fs : Tree D F)
    (es : List (Event K)) (k : K) (i : Nat) (hb : (run P (submitted P fs) es).jobs k i ≠ fresh (P.days k i))
    (j : K) (hj : P.dst j ∈ reads k) (n : Nat) (hn : n < P.count j) :
    ((run P (submitted P fs) es).jobs j n).todo = [] := by
  have g := run_good hP es _ (submitted_good P fs)
  rcases g.job k i with hf | ⟨hr, _, _⟩
  · exact absurd hf hb
  · exact (released_iff _ _ _).1 hr j (hP.waits j k hj) n hn

/-- C190: a job ends with an error only if what its stage makes of one of its
days is one. -/
theorem c190_failed (P : Plan D K F) (reads : K → List D) (hP : Sound P reads) (fs : Tree D F)
    (es : List (Event K)) (k : K) (i : Nat) (hf : ((run P (submitted P fs) es).jobs k i).failed = true) :
    ∃ d ∈ P.days k i, P.check k (run P (submitted P fs) es).files d = none := by
  have g := run_good hP es _ (submitted_good P fs)
  rcases g.job k i with h | ⟨_, _, hb⟩
  · rw [h] at hf
    simp [fresh] at hf
  · obtain ⟨d, a, b⟩ := hb.failed hf
    exact ⟨d, g.days k i ▸ a, b⟩

/-- C190: any two runs of all stages which have come to their end leave the
same files, whatever the order of events and failures of hosts. -/
theorem c190_same (P : Plan D K F) (reads : K → List D) (hP : Sound P reads) (rank : K → Nat)
    (hrank : ∀ j k, P.dst j ∈ reads k → rank j < rank k) (fs : Tree D F) (es es' : List (Event K))
    (h : ∀ k, ∀ i < P.count k, ((run P (submitted P fs) es).jobs k i).todo = [])
    (h' : ∀ k, ∀ i < P.count k, ((run P (submitted P fs) es').jobs k i).todo = []) :
    (run P (submitted P fs) es).files = (run P (submitted P fs) es').files := by
  have g := run_good hP es _ (submitted_good P fs)
  have g' := run_good hP es' _ (submitted_good P fs)
  have key : ∀ n, ∀ k, rank k < n → ∀ d,
      (run P (submitted P fs) es).files (P.dst k) d = (run P (submitted P fs) es').files (P.dst k) d := by
    intro n
    induction n with
    | zero => intro k hk; omega
    | succ n ih =>
      intro k hk d
      by_cases hd : ∃ i < P.count k, d ∈ P.days k i
      · obtain ⟨i, hi, hd⟩ := hd
        obtain ⟨f, a, b⟩ := c190_consistent P reads hP fs es k i (h k i hi) d hd
        obtain ⟨f', a', b'⟩ := c190_consistent P reads hP fs es' k i (h' k i hi) d hd
        have hc : P.check k (run P (submitted P fs) es).files d = P.check k (run P (submitted P fs) es').files d := by
          refine hP.local' k _ _ d fun p hp m => ?_
          by_cases hj : ∃ j, p = P.dst j
          · obtain ⟨j, rfl⟩ := hj
            exact ih j (by have := hrank j k hp; omega) m
          · rw [g.other p m fun j _ _ e => absurd ⟨j, e⟩ hj, g'.other p m fun j _ _ e => absurd ⟨j, e⟩ hj]
        rw [a, a'] at hc
        injection hc with hc
        rw [b, b', hc]
      · have hq : ∀ j i, i < P.count j → P.dst k = P.dst j → d ∉ P.days j i := by
          intro j i hi e hm
          have := hP.own _ _ e
          subst this
          exact hd ⟨i, hi, hm⟩
        rw [g.other _ d hq, g'.other _ d hq]
  funext p d
  by_cases hj : ∃ j, p = P.dst j
  · obtain ⟨j, rfl⟩ := hj
    exact key (rank j + 1) j (by omega) d
  · rw [g.other p d fun j _ _ e => absurd ⟨j, e⟩ hj, g'.other p d fun j _ _ e => absurd ⟨j, e⟩ hj]

end Verif.Eustace.FlagStages
