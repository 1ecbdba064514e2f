import Verif.Eustace.EnsureDir.CheckedModel
import Verif.Eustace.EnsureDir.Props

/-! C186: the directories of the post-processing, made by jobs which run at the
same time. -/

namespace Verif.Eustace.EnsureDir

/-- Specification: the other programs remove and replace nothing and leave a
tree. -/
def AllowedChecked : Sys → List Event → Prop
  | _, [] => True
  | s, .own i :: es => AllowedChecked (eventChecked s (.own i)) es
  | s, .env fs :: es => Keeps s.fs fs ∧ Tree fs ∧ AllowedChecked (eventChecked s (.env fs)) es

/-- The invariant of one process. -/
def InvC (fs : FS) (p : Proc) : Prop :=
  match p.phase with
  | .look => p.path ≠ []
  | .down k => 1 ≤ k ∧ k ≤ p.path.length
  | .up k => 1 ≤ k ∧ k ≤ p.path.length ∧ fs (p.path.take (k - 1)) ≠ none
  | .done => fs p.path ≠ none
  | .failed e => e = .EEXIST → fs p.path ≠ none

theorem InvC.mono {fs fs' : FS} (h : Keeps fs fs') {p : Proc} (hi : InvC fs p) : InvC fs' p := by
  unfold InvC at hi ⊢
  split at hi
  · exact hi
  · exact hi
  · exact ⟨hi.1, hi.2.1, h.ne_none hi.2.2⟩
  · exact h.ne_none hi
  · exact fun he => h.ne_none (hi he)

/-- How many steps a process still has to do. -/
def leftC (p : Proc) : Nat :=
  match p.phase with
  | .look => 2 * p.path.length + 3
  | .down k => p.path.length + k + 2
  | .up k => p.path.length - k + 2
  | .done => 0
  | .failed _ => 0

/-- One step of a process. -/
theorem stepChecked_spec {fs : FS} {p : Proc} (ht : Tree fs) (hi : InvC fs p) :
    Keeps fs (stepChecked fs p).1 ∧ Tree (stepChecked fs p).1
      ∧ InvC (stepChecked fs p).1 (stepChecked fs p).2
      ∧ (stepChecked fs p).2.path = p.path ∧ leftC (stepChecked fs p).2 ≤ leftC p - 1
      ∧ (Free fs p.path → (∀ e, p.phase = .failed e → e = .EEXIST) →
          ∀ e, (stepChecked fs p).2.phase = .failed e → e = .EEXIST) := by
  obtain ⟨path, phase⟩ := p
  cases phase with
  | look =>
    simp only [InvC] at hi
    simp only [stepChecked]
    have hl := List.length_pos_of_ne_nil hi
    by_cases h : fs path ≠ none
    · rw [if_pos h]
      exact ⟨.refl _, ht, h, (by trivial), by simp [leftC], by simp⟩
    · rw [if_neg h]
      refine ⟨.refl _, ht, ⟨by (try dsimp only); omega, by (try dsimp only); omega⟩, (by trivial), ?_, by simp⟩
      simp only [leftC]; omega
  | down k =>
    simp only [InvC] at hi
    simp only [stepChecked]
    by_cases h1 : k ≤ 1
    · rw [if_pos h1]
      have hk : k = 1 := by omega
      subst hk
      refine ⟨.refl _, ht, ⟨by omega, hi.2, ?_⟩, (by trivial), ?_, by simp⟩
      · simp [ht.1]
      · simp only [leftC]; omega
    · rw [if_neg h1]
      by_cases h2 : fs (path.take (k - 1)) ≠ none
      · rw [if_pos h2]
        refine ⟨.refl _, ht, ⟨hi.1, hi.2, h2⟩, (by trivial), ?_, by simp⟩
        simp only [leftC]; omega
      · rw [if_neg h2]
        refine ⟨.refl _, ht, ⟨by (try dsimp only); omega, by (try dsimp only); omega⟩, (by trivial), ?_, by simp⟩
        simp only [leftC]; omega
  | up k =>
    simp only [InvC] at hi
    obtain ⟨h1, h2, h3⟩ := hi
    simp only [stepChecked]
    cases hm : mkdir fs (path.take k) with
    | ok fs' =>
      obtain ⟨m1, m2, m3⟩ := mkdir_spec (take_ne_nil h1 h2) ht hm
      by_cases hk : k = path.length
      · subst hk
        rw [List.take_length] at m3
        simp only [next, if_true]
        refine ⟨m1, m2, ?_, (by trivial), by simp [leftC], by simp⟩
        simp [InvC, m3]
      · simp only [next, if_neg hk]
        refine ⟨m1, m2, ⟨by (try dsimp only); omega, by (try dsimp only); omega, ?_⟩, (by trivial), ?_, by simp⟩
        · rw [Nat.add_sub_cancel]; rw [m3]; simp
        · simp only [leftC]; omega
    | error e =>
      cases e with
      | EEXIST =>
        obtain ⟨m1, m2⟩ := mkdir_exists hm
        by_cases hk : k = path.length
        · subst hk
          rw [List.take_length] at m1
          simp only [nextChecked, if_true]
          exact ⟨.refl _, ht, fun _ => m1, (by trivial), by simp [leftC], by simp⟩
        · simp only [nextChecked, if_neg hk]
          refine ⟨.refl _, ht, ⟨by (try dsimp only); omega, by (try dsimp only); omega, ?_⟩, (by trivial), ?_, by simp⟩
          · rw [Nat.add_sub_cancel]; exact m1
          · simp only [leftC]; omega
      | ENOENT =>
        refine ⟨.refl _, ht, (fun h => by cases h), (by trivial), by simp [leftC], ?_⟩
        intro _ _ _ _
        exfalso
        unfold mkdir at hm
        rw [dropLast_take h2] at hm
        split at hm
        · rename_i hn; exact h3 hn
        · cases hm
        · split at hm <;> cases hm
      | ENOTDIR =>
        refine ⟨.refl _, ht, (fun h => by cases h), (by trivial), by simp [leftC], ?_⟩
        intro hf _ _ _
        exfalso
        unfold mkdir at hm
        rw [dropLast_take h2] at hm
        split at hm
        · cases hm
        · rename_i hn; exact hf _ hn
        · split at hm <;> cases hm
  | done =>
    simp only [stepChecked]
    exact ⟨.refl _, ht, hi, (by trivial), by simp [leftC], by simp⟩
  | failed e =>
    simp only [stepChecked]
    exact ⟨.refl _, ht, hi, (by trivial), by simp [leftC], fun _ h => h⟩

/-- All that is known of a system on the way. -/
structure GoodC (s : Sys) : Prop where
  tree : Tree s.fs
  inv : ∀ i, InvC s.fs (s.procs i)

theorem eventC_same (s : Sys) (i : Nat) :
    (eventChecked s (.own i)).procs i = (stepChecked s.fs (s.procs i)).2 := by simp [eventChecked]

theorem eventC_other (s : Sys) {i j : Nat} (h : j ≠ i) :
    (eventChecked s (.own i)).procs j = s.procs j := by simp [eventChecked, h]

theorem eventC_good {s : Sys} (h : GoodC s) (i : Nat) :
    GoodC (eventChecked s (.own i)) ∧ Keeps s.fs (eventChecked s (.own i)).fs := by
  obtain ⟨h1, h2, h3, _⟩ := stepChecked_spec h.tree (h.inv i)
  refine ⟨⟨h2, fun j => ?_⟩, h1⟩
  by_cases e : j = i
  · subst e; rw [eventC_same]; exact h3
  · rw [eventC_other s e]; exact (h.inv j).mono h1

theorem runC_good (es : List Event) : ∀ (s : Sys), GoodC s → AllowedChecked s es →
    GoodC (runChecked s es) ∧ Keeps s.fs (runChecked s es).fs := by
  induction es with
  | nil => intro s h _; exact ⟨h, .refl _⟩
  | cons e es ih =>
    intro s h ha
    cases e with
    | own i =>
      obtain ⟨g1, g2⟩ := eventC_good h i
      obtain ⟨r1, r2⟩ := ih _ g1 ha
      exact ⟨r1, g2.trans r2⟩
    | env fs =>
      obtain ⟨a1, a2, a3⟩ := ha
      have g : GoodC (eventChecked s (.env fs)) := ⟨a2, fun j => (h.inv j).mono a1⟩
      obtain ⟨r1, r2⟩ := ih _ g a3
      exact ⟨r1, Keeps.trans a1 r2⟩

theorem runC_path (es : List Event) : ∀ (s : Sys) (i : Nat), GoodC s → AllowedChecked s es →
    ((runChecked s es).procs i).path = (s.procs i).path := by
  induction es with
  | nil => intro s i _ _; rfl
  | cons e es ih =>
    intro s i h ha
    cases e with
    | own j =>
      rw [runChecked, ih _ i (eventC_good h j).1 ha]
      by_cases e : i = j
      · subst e; rw [eventC_same]; exact (stepChecked_spec h.tree (h.inv i)).2.2.2.1
      · rw [eventC_other s e]
    | env fs =>
      rw [runChecked, ih _ i ⟨ha.2.1, fun j => (h.inv j).mono ha.1⟩ ha.2.2]
      rfl

theorem runC_left (es : List Event) : ∀ (s : Sys) (i : Nat), GoodC s → AllowedChecked s es →
    leftC ((runChecked s es).procs i) ≤ leftC (s.procs i) - turns i es := by
  induction es with
  | nil => intro s i _ _; simp [runChecked, turns]
  | cons e es ih =>
    intro s i h ha
    cases e with
    | own j =>
      have := ih _ i (eventC_good h j).1 ha
      by_cases e : i = j
      · subst e
        rw [eventC_same] at this
        have sp := (stepChecked_spec h.tree (h.inv i)).2.2.2.2.1
        simp only [runChecked, turns, if_true]
        omega
      · rw [eventC_other s e] at this
        simp only [runChecked, turns, if_neg (fun h => e h.symm : ¬ j = i)]
        omega
    | env fs => exact ih _ i ⟨ha.2.1, fun j => (h.inv j).mono ha.1⟩ ha.2.2

theorem runC_error (es : List Event) : ∀ (s : Sys) (i : Nat), GoodC s → AllowedChecked s es →
    Free (runChecked s es).fs (s.procs i).path →
    (∀ e, (s.procs i).phase = .failed e → e = .EEXIST) →
    ∀ e, ((runChecked s es).procs i).phase = .failed e → e = .EEXIST := by
  induction es with
  | nil => intro s i _ _ _ h; exact h
  | cons e es ih =>
    intro s i h ha hf hp
    have hk := (runC_good (e :: es) s h ha).2
    have hf0 : Free s.fs (s.procs i).path := fun k hk' => hf k (hk _ _ hk')
    cases e with
    | own j =>
      obtain ⟨g, _⟩ := eventC_good h j
      by_cases e : i = j
      · subst e
        have sp := stepChecked_spec h.tree (h.inv i)
        refine ih _ i g ha ?_ ?_
        · rw [eventC_same, sp.2.2.2.1]; exact hf
        · rw [eventC_same]; exact sp.2.2.2.2.2 hf0 hp
      · refine ih _ i g ha ?_ ?_
        · rw [eventC_other s e]; exact hf
        · rw [eventC_other s e]; exact hp
    | env fs => exact ih _ i ⟨ha.2.1, fun j => (h.inv j).mono ha.1⟩ ha.2.2 hf hp

/-- Specification: all jobs are before their test, for some directory. -/
def StartsChecked (s : Sys) : Prop := ∀ i, ∃ path, path ≠ [] ∧ s.procs i = startChecked path

theorem startsC_good {s : Sys} (ht : Tree s.fs) (h : StartsChecked s) : GoodC s := by
  refine ⟨ht, fun i => ?_⟩
  obtain ⟨path, hne, hp⟩ := h i
  rw [hp]
  exact hne

/-- C186: with no file in the way each job has ended after a bounded number of
its own steps, with its directory and all above it there; the only error is
that the directory was there already. -/
theorem c186_ends (s : Sys) (ht : Tree s.fs) (hs : StartsChecked s) (es : List Event)
    (ha : AllowedChecked s es) (i : Nat) (hf : Free (runChecked s es).fs (s.procs i).path)
    (hn : 2 * (s.procs i).path.length + 3 ≤ turns i es) :
    (((runChecked s es).procs i).phase = .done ∨ ((runChecked s es).procs i).phase = .failed .EEXIST)
      ∧ ∀ k, (runChecked s es).fs ((s.procs i).path.take k) = some .dir := by
  have g := startsC_good ht hs
  obtain ⟨r1, _⟩ := runC_good es s g ha
  have hl := runC_left es s i g ha
  obtain ⟨path, hne, hp⟩ := hs i
  have hl0 : leftC (s.procs i) = 2 * (s.procs i).path.length + 3 := by rw [hp]; rfl
  have h0 : leftC ((runChecked s es).procs i) = 0 := by omega
  have hi := r1.inv i
  have hpath := runC_path es s i g ha
  have herr := runC_error es s i g ha hf (by rw [hp]; simp [startChecked])
  have there : (runChecked s es).fs (s.procs i).path ≠ none →
      ∀ k, (runChecked s es).fs ((s.procs i).path.take k) = some .dir := by
    intro hx k
    refine tree_take r1.tree _ k ?_
    cases hk : (runChecked s es).fs (s.procs i).path with
    | none => exact absurd hk hx
    | some kd => cases kd with
      | dir => rfl
      | file =>
        have := hf (s.procs i).path.length
        rw [List.take_length] at this
        exact absurd hk this
  unfold leftC at h0
  unfold InvC at hi
  rw [hpath] at hi
  split at h0
  · omega
  · omega
  · omega
  · rename_i h
    rw [h] at hi
    exact ⟨Or.inl h, there hi⟩
  · rename_i e h
    have he := herr e h
    subst he
    rw [h] at hi
    exact ⟨Or.inr h, there (hi rfl)⟩

/-- A job which has passed its test while its directory has come to be there:
it is on its way to an error. -/
theorem late_step {fs : FS} {p : Proc} (ht : Tree fs) (hi : InvC fs p) (hd : fs p.path = some .dir)
    (hp : (∃ k, p.phase = .down k) ∨ (∃ k, p.phase = .up k) ∨ p.phase = .failed .EEXIST) :
    (∃ k, (stepChecked fs p).2.phase = .down k) ∨ (∃ k, (stepChecked fs p).2.phase = .up k)
      ∨ (stepChecked fs p).2.phase = .failed .EEXIST := by
  obtain ⟨path, phase⟩ := p
  rcases hp with ⟨k, hk⟩ | ⟨k, hk⟩ | hk
  · simp only at hk; subst hk
    simp only [stepChecked]
    by_cases h1 : k ≤ 1
    · rw [if_pos h1]; exact Or.inr (Or.inl ⟨_, rfl⟩)
    · rw [if_neg h1]
      by_cases h2 : fs (path.take (k - 1)) ≠ none
      · rw [if_pos h2]; exact Or.inr (Or.inl ⟨_, rfl⟩)
      · rw [if_neg h2]; exact Or.inl ⟨_, rfl⟩
  · simp only at hk hd; subst hk
    simp only [InvC] at hi
    have hm : mkdir fs (path.take k) = .error .EEXIST := by
      unfold mkdir
      rw [dropLast_take hi.2.1, tree_take ht _ _ hd, tree_take ht _ _ hd]
      simp
    simp only [stepChecked, hm, nextChecked]
    by_cases e : k = path.length
    · simp [e]
    · simp [e]
  · simp only at hk; subst hk
    exact Or.inr (Or.inr rfl)

/-- A job which has passed its test before its directory came to be there ends
with an error. -/
theorem late_run (es : List Event) : ∀ (s : Sys), GoodC s → AllowedChecked s es →
    ∀ i, s.fs (s.procs i).path = some .dir →
    ((∃ k, (s.procs i).phase = .down k) ∨ (∃ k, (s.procs i).phase = .up k)
      ∨ (s.procs i).phase = .failed .EEXIST) →
    leftC (s.procs i) ≤ turns i es →
    ((runChecked s es).procs i).phase = .failed .EEXIST := by
  induction es with
  | nil =>
    intro s _ _ i _ hp hl
    simp only [turns, Nat.le_zero_eq] at hl
    unfold leftC at hl
    rcases hp with ⟨k, hk⟩ | ⟨k, hk⟩ | hk
    · rw [hk] at hl; simp at hl
    · rw [hk] at hl; simp at hl
    · exact hk
  | cons e es ih =>
    intro s h ha i hd hp hl
    cases e with
    | own j =>
      obtain ⟨g, hk⟩ := eventC_good h j
      by_cases e : i = j
      · subst e
        have sp := stepChecked_spec h.tree (h.inv i)
        refine ih _ g ha i ?_ ?_ ?_
        · rw [eventC_same, sp.2.2.2.1]; exact hk _ _ hd
        · rw [eventC_same]; exact late_step h.tree (h.inv i) hd hp
        · rw [eventC_same]
          simp only [turns, if_true] at hl
          have := sp.2.2.2.2.1
          omega
      · refine ih _ g ha i ?_ ?_ ?_
        · rw [eventC_other s e]; exact hk _ _ hd
        · rw [eventC_other s e]; exact hp
        · rw [eventC_other s e]
          simp only [turns, if_neg (fun h => e h.symm : ¬ j = i)] at hl
          omega
    | env fs =>
      exact ih _ ⟨ha.2.1, fun j => (h.inv j).mono ha.1⟩ ha.2.2 i (ha.1 _ _ hd) hp hl

/-- C186 (violation): a job which has looked for its directory in vain, before
another made it, ends with an error, whatever happens afterwards. -/
theorem c186_race_violated (s : Sys) (ht : Tree s.fs) (hs : StartsChecked s) (es₁ es₂ : List Event)
    (ha₁ : AllowedChecked s es₁) (ha₂ : AllowedChecked (runChecked s es₁) es₂) (i : Nat) (k : Nat)
    (hp : ((runChecked s es₁).procs i).phase = .down k ∨ ((runChecked s es₁).procs i).phase = .up k)
    (hd : (runChecked s es₁).fs (s.procs i).path = some .dir)
    (hn : 2 * (s.procs i).path.length + 3 ≤ turns i es₂) :
    ((runChecked (runChecked s es₁) es₂).procs i).phase = .failed .EEXIST := by
  have g := startsC_good ht hs
  have hl := runC_left es₁ s i g ha₁
  obtain ⟨path, hne, hpa⟩ := hs i
  have hl0 : leftC (s.procs i) = 2 * (s.procs i).path.length + 3 := by rw [hpa]; rfl
  refine late_run es₂ _ (runC_good es₁ s g ha₁).1 ha₂ i ?_ ?_ (by omega)
  · rw [runC_path es₁ s i g ha₁]; exact hd
  · rcases hp with h | h
    · exact Or.inl ⟨k, h⟩
    · exact Or.inr (Or.inl ⟨k, h⟩)

/-- Two jobs of an array which write to the same year, `/out/1850`. -/
def sameYear : Sys := ⟨bare, fun _ => startChecked ["out", "1850"]⟩

/-- C186 (violation): two jobs which begin at the same time, each doing all
its steps, in turns: the second ends with an error. -/
theorem c186_two_jobs_violated :
    ((runChecked sameYear
      [.own 0, .own 1, .own 0, .own 1, .own 0, .own 1, .own 0, .own 1, .own 0, .own 1]).procs 0).phase = .done
    ∧ ((runChecked sameYear
      [.own 0, .own 1, .own 0, .own 1, .own 0, .own 1, .own 0, .own 1, .own 0, .own 1]).procs 1).phase
        = .failed .EEXIST := by
  simp [sameYear, runChecked, eventChecked, stepChecked, startChecked, mkdir, next, nextChecked, bare]

/-- The invariant of a job which is alone: what it is about to make is not
there. -/
def Alone (fs : FS) (p : Proc) : Prop :=
  match p.phase with
  | .look => True
  | .down k => fs (p.path.take k) = none
  | .up k => fs (p.path.take k) = none
  | .done => True
  | .failed _ => False

theorem tree_below {fs : FS} (ht : Tree fs) {path : List String} {k : Nat}
    (h : fs (path.take k) = none) (hk : k < path.length) : fs (path.take (k + 1)) = none := by
  by_contra hne
  rw [List.take_add_one, List.getElem?_eq_getElem hk] at hne
  have := ht.2 (path.take k) path[k] hne
  rw [h] at this
  cases this

theorem alone_step {fs : FS} {p : Proc} (ht : Tree fs) (hi : InvC fs p) (hf : Free fs p.path)
    (ha : Alone fs p) : Alone (stepChecked fs p).1 (stepChecked fs p).2
      ∧ Free (stepChecked fs p).1 p.path := by
  obtain ⟨path, phase⟩ := p
  cases phase with
  | look =>
    simp only [stepChecked]
    by_cases h : fs path ≠ none
    · rw [if_pos h]; exact ⟨trivial, hf⟩
    · rw [if_neg h]
      refine ⟨?_, hf⟩
      simp only [Alone, List.take_length]
      exact not_not.1 h
  | down k =>
    simp only [Alone] at ha
    simp only [stepChecked]
    by_cases h1 : k ≤ 1
    · rw [if_pos h1]; exact ⟨ha, hf⟩
    · rw [if_neg h1]
      by_cases h2 : fs (path.take (k - 1)) ≠ none
      · rw [if_pos h2]; exact ⟨ha, hf⟩
      · rw [if_neg h2]; exact ⟨not_not.1 h2, hf⟩
  | up k =>
    simp only [Alone] at ha
    simp only [InvC] at hi
    obtain ⟨h1, h2, h3⟩ := hi
    have hd : fs (path.take (k - 1)) = some .dir := by
      cases hk : fs (path.take (k - 1)) with
      | none => exact absurd hk h3
      | some kd => cases kd with
        | dir => rfl
        | file => exact absurd hk (hf _)
    have hm : mkdir fs (path.take k) = .ok (Function.update fs (path.take k) (some .dir)) := by
      unfold mkdir
      rw [dropLast_take h2, hd]
      simp [ha]
    simp only [stepChecked, hm, next]
    refine ⟨?_, ?_⟩
    · by_cases e : k = path.length
      · simp [e, Alone]
      · simp only [if_neg e, Alone]
        rw [Function.update_of_ne]
        · exact tree_below ht ha (by omega)
        · intro h
          have := congrArg List.length h
          simp only [List.length_take] at this
          omega
    · intro j
      rw [Function.update_apply]
      split
      · simp
      · exact hf j
  | done => exact ⟨trivial, hf⟩
  | failed e => exact absurd ha (by simp [Alone])

/-- A job which is alone, from any of its phases. -/
theorem alone_run (n : Nat) : ∀ (s : Sys) (i : Nat), GoodC s →
    Free s.fs (s.procs i).path → Alone s.fs (s.procs i) → leftC (s.procs i) ≤ n →
    ((runChecked s (List.replicate n (.own i))).procs i).phase = .done := by
  induction n with
  | zero =>
    intro s i h _ ha hl
    simp only [List.replicate, runChecked]
    simp only [Nat.le_zero_eq] at hl
    unfold leftC at hl
    unfold Alone at ha
    split at hl
    · omega
    · omega
    · omega
    · rename_i h; exact h
    · rename_i e h; rw [h] at ha; exact absurd ha (by simp)
  | succ n ih =>
    intro s i h hf ha hl
    have sp := stepChecked_spec h.tree (h.inv i)
    obtain ⟨a1, a2⟩ := alone_step h.tree (h.inv i) hf ha
    rw [List.replicate_succ, runChecked]
    refine ih _ i (eventC_good h i).1 ?_ ?_ ?_
    · rw [eventC_same, sp.2.2.2.1]; exact a2
    · rw [eventC_same]; exact a1
    · rw [eventC_same]
      have := sp.2.2.2.2.1
      omega

/-- C186: a job which is alone makes its directory and ends without an
error.  Missing: jobs which run at the same time, for which it is false
(`c186_race_violated`). -/
theorem c186_alone_partial (s : Sys) (ht : Tree s.fs) (hs : StartsChecked s) (i n : Nat)
    (hf : Free s.fs (s.procs i).path) (hn : 2 * (s.procs i).path.length + 3 ≤ n) :
    ((runChecked s (List.replicate n (.own i))).procs i).phase = .done := by
  obtain ⟨path, hne, hpa⟩ := hs i
  have hl0 : leftC (s.procs i) = 2 * (s.procs i).path.length + 3 := by rw [hpa]; rfl
  exact alone_run n s i (startsC_good ht hs) hf (by rw [hpa]; trivial) (by omega)

/-- C186: when the directory is there before, any number of jobs at the same
time end without an error and change nothing: a job which failed succeeds when
it is done again. -/
theorem c186_again (s : Sys) (i : Nat) (es : List Event) (hp : s.procs i = startChecked (s.procs i).path)
    (hd : s.fs (s.procs i).path ≠ none) :
    ((runChecked s (.own i :: es)).procs i).phase = .done
      ∧ (eventChecked s (.own i)).fs = s.fs := by
  have h1 : stepChecked s.fs (s.procs i) = (s.fs, ⟨(s.procs i).path, .done⟩) := by
    generalize (s.procs i).path = path at hp hd
    rw [hp]
    unfold stepChecked startChecked
    exact if_pos hd
  constructor
  · rw [runChecked]
    have keep : ∀ (es : List Event) (t : Sys), (t.procs i).phase = .done →
        ((runChecked t es).procs i).phase = .done := by
      intro es
      induction es with
      | nil => intro t ht; exact ht
      | cons e es ih =>
        intro t ht
        refine ih _ ?_
        cases e with
        | own j =>
          by_cases e : i = j
          · subst e; rw [eventC_same]; simp [stepChecked, ht]
          · rw [eventC_other t e]; exact ht
        | env fs => exact ht
    apply keep
    rw [eventC_same, h1]
  · simp [eventChecked, h1]

/-- The hypotheses of `c186_alone_partial` for the first job of `sameYear`. -/
example : ((runChecked sameYear (List.replicate 7 (.own 0))).procs 0).phase = .done :=
  c186_alone_partial sameYear bare_tree (fun _ => ⟨_, by simp, rfl⟩) 0 7
    (by intro k; simp [sameYear, bare, startChecked]) (by simp [sameYear, startChecked])

/-- The hypotheses of `c186_race_violated`: the second job has looked, then the
first does all its steps. -/
example : ((runChecked (runChecked sameYear (.own 1 :: List.replicate 7 (.own 0)))
    (List.replicate 7 (.own 1))).procs 1).phase = .failed .EEXIST :=
  c186_race_violated sameYear bare_tree (fun _ => ⟨_, by simp, rfl⟩) _ _
    (by simp [AllowedChecked, List.replicate]) (by simp [AllowedChecked, List.replicate]) 1 2
    (by simp [sameYear, runChecked, eventChecked, stepChecked, startChecked, mkdir, next, bare,
      List.replicate])
    (by simp [sameYear, runChecked, eventChecked, stepChecked, startChecked, mkdir, next, bare,
      List.replicate])
    (by simp [sameYear, startChecked, turns, List.replicate])

end Verif.Eustace.EnsureDir
