import Verif.Eustace.FlagJobs.Model
import Mathlib.Data.List.Basic

/-! C189: jobs which run at the same time and are started again. -/

namespace Verif.Eustace.FlagJobs

variable {F : Type} {check : (Nat → Entry F) → Nat → Option F}

/-- Specification: all jobs are at their start, no day belongs to two jobs or
twice to one. -/
structure Ready (s : Sys F) : Prop where
  start : ∀ i, s.jobs i = fresh (s.jobs i).days
  nodup : ∀ i, (s.jobs i).days.Nodup
  apart : ∀ i j, i ≠ j → ∀ d ∈ (s.jobs i).days, d ∉ (s.jobs j).days

/-- Specification: the days whose output is the check of the input files `inp`. -/
def Right (check : (Nat → Entry F) → Nat → Option F) (inp : Nat → Entry F) (out : Nat → Entry F) (d : Nat) : Prop :=
  ∃ f, check inp d = some f ∧ out d = .full f

/-- What is known of one job. -/
structure InvJob (check : (Nat → Entry F) → Nat → Option F) (inp out : Nat → Entry F) (j : Job F) : Prop where
  split : ∃ fin, j.days = fin ++ j.todo ∧ ∀ d ∈ fin, Right check inp out d
  writing : ∀ f, j.writing = some f → ∃ d rest, j.todo = d :: rest ∧ check inp d = some f
  failed : j.failed = true → ∃ d ∈ j.days, check inp d = none

theorem put_same (fs : Files F) (d : Nat) (e : Entry F) : put fs true d e false = fs false := by
  simp [put]

theorem put_day (fs : Files F) (d : Nat) (e : Entry F) : put fs true d e true d = e := by
  simp [put]

theorem put_other (fs : Files F) {d d' : Nat} (e : Entry F) (h : d' ≠ d) : put fs true d e true d' = fs true d' := by
  simp [put, h]

/-- One step of a job into another directory than the one it reads. -/
theorem stepJob_spec {inp : Nat → Entry F} {fs : Files F} {j : Job F} (hin : fs false = inp) (hn : j.days.Nodup)
    (h : InvJob check inp (fs true) j) :
    (stepJob check true fs j).1 false = inp
      ∧ (∀ d, d ∉ j.days → (stepJob check true fs j).1 true d = fs true d)
      ∧ (stepJob check true fs j).2.days = j.days
      ∧ InvJob check inp ((stepJob check true fs j).1 true) (stepJob check true fs j).2 := by
  obtain ⟨days, todo, writing, failed⟩ := j
  obtain ⟨⟨fin, hs, hf⟩, hw, he⟩ := h
  simp only at hs hf hw he hn
  unfold stepJob
  simp only
  cases failed with
  | true => exact ⟨hin, fun _ _ => rfl, rfl, ⟨fin, hs, hf⟩, hw, he⟩
  | false =>
    simp only [Bool.false_eq_true, if_false]
    cases todo with
    | nil => exact ⟨hin, fun _ _ => rfl, rfl, ⟨fin, hs, hf⟩, hw, he⟩
    | cons d rest =>
      have hd : d ∈ days := by rw [hs]; simp
      have hnf : d ∉ fin := by
        rw [hs] at hn
        intro hc
        exact (List.nodup_append.1 hn).2.2 d hc d List.mem_cons_self rfl
      cases writing with
      | some f =>
        simp only
        obtain ⟨d', rest', hd', hc⟩ := hw f rfl
        simp only [List.cons.injEq] at hd'
        obtain ⟨rfl, rfl⟩ := hd'
        refine ⟨(put_same _ _ _).trans hin, ?_, (by trivial), ⟨fin ++ [d], by simp [hs], ?_⟩, by simp, by simp⟩
        · intro d' hd'
          exact put_other _ _ (fun e => hd' (e ▸ hd))
        · intro d' hd'
          rw [List.mem_append, List.mem_singleton] at hd'
          by_cases e : d' = d
          · subst e
            exact ⟨f, hc, put_day _ _ _⟩
          · obtain ⟨g, g1, g2⟩ := hf d' (hd'.resolve_right e)
            exact ⟨g, g1, by rw [put_other _ _ e]; exact g2⟩
      | none =>
        simp only
        rw [hin]
        cases hc : check inp d with
        | none => exact ⟨hin, fun _ _ => rfl, rfl, ⟨fin, hs, hf⟩, by simp, fun _ => ⟨d, hd, hc⟩⟩
        | some f =>
          simp only
          refine ⟨(put_same _ _ _).trans hin, ?_, (by trivial), ⟨fin, hs, ?_⟩, ?_, by simp⟩
          · intro d' hd'
            exact put_other _ _ (fun e => hd' (e ▸ hd))
          · intro d' hd'
            obtain ⟨g, g1, g2⟩ := hf d' hd'
            exact ⟨g, g1, by rw [put_other _ _ (show d' ≠ d from fun e => hnf (e ▸ hd'))]; exact g2⟩
          · intro g hg
            injection hg with hg
            subst hg
            exact ⟨d, rest, rfl, hc⟩

/-- What is known of the system. -/
structure Good (check : (Nat → Entry F) → Nat → Option F) (s₀ s : Sys F) : Prop where
  inp : s.files false = s₀.files false
  days : ∀ i, (s.jobs i).days = (s₀.jobs i).days
  other : ∀ d, (∀ i, d ∉ (s₀.jobs i).days) → s.files true d = s₀.files true d
  job : ∀ i, InvJob check (s₀.files false) (s.files true) (s.jobs i)

theorem InvJob.mono {inp out out' : Nat → Entry F} {j : Job F} (h : InvJob check inp out j)
    (ho : ∀ d ∈ j.days, out' d = out d) : InvJob check inp out' j := by
  obtain ⟨⟨fin, hs, hf⟩, hw, he⟩ := h
  refine ⟨⟨fin, hs, fun d hd => ?_⟩, hw, he⟩
  obtain ⟨f, f1, f2⟩ := hf d hd
  exact ⟨f, f1, by rw [ho d (by rw [hs]; exact List.mem_append_left _ hd)]; exact f2⟩

theorem step_good {s₀ s : Sys F} (hr : Ready s₀) (h : Good check s₀ s) (e : Event) :
    Good check s₀ (step check true s e) := by
  cases e with
  | own i =>
    obtain ⟨a1, a2, a3, a4⟩ := stepJob_spec h.inp (by rw [h.days i]; exact hr.nodup i) (h.job i)
    refine ⟨a1, fun j => ?_, fun d hd => ?_, fun j => ?_⟩
    · by_cases e : j = i
      · subst e; simp only [step, Function.update_self]; rw [a3]; exact h.days j
      · simp only [step, Function.update_of_ne e]; exact h.days j
    · exact (a2 d (by rw [h.days i]; exact hd i)).trans (h.other d hd)
    · by_cases e : j = i
      · subst e; simp only [step, Function.update_self]; exact a4
      · simp only [step, Function.update_of_ne e]
        refine (h.job j).mono fun d hd => a2 d ?_
        rw [h.days i]
        rw [h.days j] at hd
        exact hr.apart j i e d hd
  | restart i =>
    refine ⟨h.inp, fun j => ?_, h.other, fun j => ?_⟩
    · by_cases e : j = i
      · subst e
        simp only [step, Function.update_self, restartJob]
        rw [← h.days j]
        split
        · rfl
        · split
          · rfl
          · rfl
      · simp only [step, Function.update_of_ne e]; exact h.days j
    · by_cases e : j = i
      · subst e
        simp only [step, Function.update_self, restartJob]
        split
        · exact h.job j
        · split
          · exact h.job j
          · exact ⟨⟨[], rfl, by simp⟩, by simp [fresh], by simp [fresh]⟩
      · simp only [step, Function.update_of_ne e]; exact h.job j

theorem run_good {s₀ : Sys F} (hr : Ready s₀) (es : List Event) :
    ∀ s, Good check s₀ s → Good check s₀ (run check true s es) := by
  induction es with
  | nil => exact fun s h => h
  | cons e es ih => exact fun s h => ih _ (step_good hr h e)

theorem ready_good {s : Sys F} (hr : Ready s) : Good check s s := by
  refine ⟨rfl, fun _ => rfl, fun _ _ => rfl, fun i => ?_⟩
  rw [hr.start i]
  exact ⟨⟨[], rfl, by simp⟩, by simp [fresh], by simp [fresh]⟩

/-- C189: a job which has ended without an error has left complete files of all
its days, with the flags made from the inputs as they were at the start: no
matter what other jobs did meanwhile, or how often hosts failed, even in the
middle of writing. -/
theorem c189_finished (s : Sys F) (hr : Ready s) (es : List Event) (i : Nat)
    (hd : ((run check true s es).jobs i).todo = []) (d : Nat) (hm : d ∈ (s.jobs i).days) :
    ∃ f, check (s.files false) d = some f ∧ (run check true s es).files true d = .full f := by
  have g := run_good (check := check) hr es s (ready_good hr)
  obtain ⟨fin, hs, hf⟩ := (g.job i).split
  rw [hd, List.append_nil, g.days i] at hs
  exact hf d (hs ▸ hm)

/-- C189: a job ends with an error only if the check of one of its days does,
on the inputs as they were at the start. -/
theorem c189_failed (s : Sys F) (hr : Ready s) (es : List Event) (i : Nat)
    (hf : ((run check true s es).jobs i).failed = true) :
    ∃ d ∈ (s.jobs i).days, check (s.files false) d = none := by
  have g := run_good (check := check) hr es s (ready_good hr)
  obtain ⟨d, h1, h2⟩ := (g.job i).failed hf
  exact ⟨d, g.days i ▸ h1, h2⟩

/-- C189: nothing else is changed: neither the inputs nor files of days which
no job has. -/
theorem c189_untouched (s : Sys F) (hr : Ready s) (es : List Event) :
    (run check true s es).files false = s.files false
      ∧ ∀ d, (∀ i, d ∉ (s.jobs i).days) → (run check true s es).files true d = s.files true d := by
  have g := run_good (check := check) hr es s (ready_good hr)
  exact ⟨g.inp, g.other⟩

/-- Specification: how many steps a job does in a sequence of events. -/
def turns (i : Nat) : List Event → Nat
  | [] => 0
  | .own j :: es => (if j = i then 1 else 0) + turns i es
  | .restart _ :: es => turns i es

/-- How many steps a job has to do. -/
def left (j : Job F) : Nat := if j.failed then 0 else 2 * j.todo.length - (if j.writing.isSome then 1 else 0)

theorem stepJob_left {dst : Bool} (fs : Files F) (j : Job F) : left (stepJob check dst fs j).2 ≤ left j - 1 := by
  obtain ⟨days, todo, writing, failed⟩ := j
  unfold stepJob
  simp only
  cases failed with
  | true => simp [left]
  | false =>
    simp only [Bool.false_eq_true, if_false]
    cases todo with
    | nil => simp [left]
    | cons d rest =>
      cases writing with
      | some f => simp [left]; omega
      | none =>
        simp only
        cases check (fs false) d with
        | none => simp [left]
        | some f => simp [left]

/-- C189: once its host does not fail any more a job ends, after two steps for
each day. -/
theorem c189_ends (dst : Bool) (es : List Event) : ∀ (s : Sys F) (i : Nat),
    (∀ e ∈ es, e ≠ .restart i) → 2 * (s.jobs i).todo.length ≤ turns i es →
    ((run check dst s es).jobs i).todo = [] ∨ ((run check dst s es).jobs i).failed = true := by
  suffices H : ∀ (es : List Event) (s : Sys F) (i : Nat), (∀ e ∈ es, e ≠ .restart i) →
      left ((run check dst s es).jobs i) ≤ left (s.jobs i) - turns i es by
    intro s i h ht
    have h1 := H es s i h
    have h2 : left (s.jobs i) ≤ 2 * (s.jobs i).todo.length := by unfold left; split <;> omega
    have h0 : left ((run check dst s es).jobs i) = 0 := by omega
    unfold left at h0
    split at h0
    · right; assumption
    · left
      apply List.length_eq_zero_iff.1
      split at h0 <;> omega
  intro es
  induction es with
  | nil => intro s i _; simp [run, turns]
  | cons e es ih =>
    intro s i h
    have hr := ih (step check dst s e) i fun e he => h e (List.mem_cons_of_mem _ he)
    cases e with
    | own j =>
      by_cases e : j = i
      · subst e
        have hl := stepJob_left (check := check) (dst := dst) s.files (s.jobs j)
        simp only [step, Function.update_self] at hr
        simp only [run, turns, step, if_true]
        omega
      · simp only [step, Function.update_of_ne (Ne.symm e)] at hr
        simp only [run, turns, step, if_neg e]
        omega
    | restart j =>
      have e : j ≠ i := fun e => h (.restart j) List.mem_cons_self (by rw [e])
      simp only [step, Function.update_of_ne (Ne.symm e)] at hr
      simp only [run, turns, step]
      omega

/-- Specification: a check which cannot read a file that is only in part
there, neither that of the day nor that of the day after. -/
def NeedsWhole (check : (Nat → Entry F) → Nat → Option F) : Prop :=
  ∀ g d, g d = .part ∨ g (d + 1) = .part → check g d = none

/-- C189 (violation): into the same directory, a job whose host fails while it
writes can never be done again: its input is lost. -/
theorem c189_in_place_restart_violated (s : Sys F) (hc : NeedsWhole check) (d : Nat) (rest : List Nat)
    (hj : s.jobs 0 = fresh (d :: rest)) (f : F) (h : check (s.files false) d = some f) :
    ((run check false s [.own 0, .restart 0, .own 0]).jobs 0).failed = true := by
  have hp : check (Function.update (s.files false) d Entry.part) d = none := hc _ d (Or.inl (by simp))
  simp [run, step, hj, fresh, stepJob, h, restartJob, put, hp]

/-- C189 (violation): into the same directory, a job which reads a day while
another job writes it ends with an error, though no host fails. -/
theorem c189_in_place_together_violated (s : Sys F) (hc : NeedsWhole check) (d : Nat) (rest rest' : List Nat)
    (hj : s.jobs 0 = fresh (d :: rest)) (hk : s.jobs 1 = fresh ((d + 1) :: rest')) (f : F)
    (h : check (s.files false) (d + 1) = some f) :
    ((run check false s [.own 1, .own 0]).jobs 0).failed = true := by
  have hp : check (Function.update (s.files false) (d + 1) Entry.part) d = none := hc _ d (Or.inr (by simp))
  simp [run, step, hj, hk, fresh, stepJob, h, put, hp]

/-- A check: the day and the day after must be there. -/
def both (g : Nat → Entry Nat) (d : Nat) : Option Nat :=
  match g d, g (d + 1) with
  | .full a, .full b => some (a + b)
  | _, _ => none

theorem both_needs : NeedsWhole both := by
  intro g d h
  unfold both
  rcases h with h | h
  · rw [h]
  · rw [h]
    cases g d <;> rfl

/-- Two months of two days each. -/
def twoMonths : Sys Nat :=
  ⟨fun b d => if b then .absent else .full d, fun i => if i = 0 then fresh [0, 1] else if i = 1 then fresh [2, 3] else fresh []⟩

theorem twoMonths_ready : Ready twoMonths := by
  refine ⟨fun i => ?_, fun i => ?_, fun i j h d hd => ?_⟩
  · by_cases h0 : i = 0 <;> by_cases h1 : i = 1 <;> simp [twoMonths, h0, h1, fresh]
  · by_cases h0 : i = 0 <;> by_cases h1 : i = 1 <;> simp [twoMonths, h0, h1, fresh]
  · by_cases h0 : i = 0 <;> by_cases h1 : i = 1 <;> by_cases k0 : j = 0 <;> by_cases k1 : j = 1 <;>
      simp_all [twoMonths, fresh] <;> omega

/-- The first job, whose host fails while it writes its second day. -/
def interrupted : List Event :=
  [.own 0, .own 1, .own 0, .own 0, .restart 0, .own 1, .own 0, .own 0, .own 0, .own 0]

example : ∃ f, both (twoMonths.files false) 1 = some f
    ∧ (run both true twoMonths interrupted).files true 1 = .full f :=
  c189_finished twoMonths twoMonths_ready interrupted 0
    (by simp [interrupted, run, step, stepJob, restartJob, twoMonths, fresh, both, put]) 1 (by simp [twoMonths, fresh])

example : ((run both false twoMonths [.own 0, .restart 0, .own 0]).jobs 0).failed = true :=
  c189_in_place_restart_violated twoMonths both_needs 0 [1] (by simp [twoMonths]) 1 (by simp [both, twoMonths])

end Verif.Eustace.FlagJobs
