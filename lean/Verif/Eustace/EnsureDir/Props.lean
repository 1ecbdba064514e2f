import Verif.Eustace.EnsureDir.Model
import Mathlib.Data.List.Induction

/-! C184: any number of processes may make the directories of their outputs
at the same time. -/

namespace Verif.Eustace.EnsureDir

/-- Specification: a file system is a tree: the root is a directory, and
whatever there is lies in a directory. -/
def Tree (fs : FS) : Prop :=
  fs [] = some .dir ∧ ∀ p c, fs (p ++ [c]) ≠ none → fs p = some .dir

/-- Specification: nothing is removed or replaced. -/
def Keeps (fs fs' : FS) : Prop := ∀ p k, fs p = some k → fs' p = some k

/-- Specification: the other programs keep to this: they remove and replace
nothing, and leave a tree. -/
def Allowed : Sys → List Event → Prop
  | _, [] => True
  | s, .own i :: es => Allowed (step s (.own i)) es
  | s, .env fs :: es => Keeps s.fs fs ∧ Tree fs ∧ Allowed (step s (.env fs)) es

/-- Specification: no file stands where a directory of the path should be. -/
def Free (fs : FS) (path : List String) : Prop := ∀ k, fs (path.take k) ≠ some .file

theorem Keeps.refl (fs : FS) : Keeps fs fs := fun _ _ h => h

theorem Keeps.trans {a b c : FS} (h1 : Keeps a b) (h2 : Keeps b c) : Keeps a c :=
  fun p k h => h2 p k (h1 p k h)

theorem mkdir_spec {fs fs' : FS} {p : List String} (hp : p ≠ []) (ht : Tree fs)
    (h : mkdir fs p = .ok fs') : Keeps fs fs' ∧ Tree fs' ∧ fs' p = some .dir := by
  unfold mkdir at h
  split at h
  · cases h
  · cases h
  · rename_i hd
    split at h
    · rename_i hn
      cases h
      refine ⟨?_, ⟨?_, ?_⟩, by simp⟩
      · intro q k hq
        rw [Function.update_of_ne]
        · exact hq
        · rintro rfl; rw [hn] at hq; cases hq
      · rw [Function.update_of_ne (fun h => hp h.symm)]; exact ht.1
      · intro q c hq
        by_cases e : q ++ [c] = p
        · subst e
          rw [List.dropLast_concat] at hd
          rw [Function.update_of_ne (by simp)]
          exact hd
        · rw [Function.update_of_ne e] at hq
          have := ht.2 q c hq
          by_cases e' : q = p
          · subst e'; simp
          · rw [Function.update_of_ne e']; exact this
    · cases h

/-- All paths before a directory are directories. -/
theorem tree_take {fs : FS} (ht : Tree fs) : ∀ (p : List String) (k : Nat), fs p = some .dir →
    fs (p.take k) = some .dir := by
  intro p
  induction p using List.reverseRecOn with
  | nil => intro k h; simpa using h
  | append_singleton q c ih =>
    intro k h
    by_cases hk : k ≤ q.length
    · rw [List.take_append_of_le_length hk]
      exact ih k (ht.2 q c (by rw [h]; simp))
    · rw [List.take_of_length_le (by simp; omega)]; exact h

/-- The invariant of one process. -/
def Inv (fs : FS) (p : Proc) : Prop :=
  match p.phase with
  | .down k => 1 ≤ k ∧ k ≤ p.path.length
  | .up k => 1 ≤ k ∧ k ≤ p.path.length ∧ fs (p.path.take (k - 1)) ≠ none
  | .look => p.path ≠ [] ∧ fs p.path ≠ none
  | .done => fs p.path = some .dir
  | .failed _ => True

theorem Keeps.ne_none {fs fs' : FS} (h : Keeps fs fs') {p : List String} (hp : fs p ≠ none) :
    fs' p ≠ none := by
  cases hk : fs p with
  | none => exact absurd hk hp
  | some k => rw [h p k hk]; simp

theorem Inv.mono {fs fs' : FS} (h : Keeps fs fs') {p : Proc} (hi : Inv fs p) : Inv fs' p := by
  unfold Inv at hi ⊢
  split at hi
  · exact hi
  · exact ⟨hi.1, hi.2.1, h.ne_none hi.2.2⟩
  · exact ⟨hi.1, h.ne_none hi.2⟩
  · exact h _ _ hi
  · trivial

theorem take_ne_nil {l : List String} {k : Nat} (h1 : 1 ≤ k) (h2 : k ≤ l.length) : l.take k ≠ [] := by
  intro h
  have := congrArg List.length h
  simp only [List.length_take, List.length_nil] at this
  omega

theorem dropLast_take {l : List String} {k : Nat} (h2 : k ≤ l.length) :
    (l.take k).dropLast = l.take (k - 1) := by
  rw [List.dropLast_eq_take, List.take_take, List.length_take]
  congr 1
  omega

theorem mkdir_exists {fs : FS} {p : List String} (h : mkdir fs p = .error .EEXIST) :
    fs p ≠ none ∧ fs p.dropLast = some .dir := by
  unfold mkdir at h
  split at h
  · cases h
  · cases h
  · rename_i hd
    split at h
    · cases h
    · rename_i hn; exact ⟨hn, hd⟩

/-- How many steps a process still has to do. -/
def left (p : Proc) : Nat :=
  match p.phase with
  | .down k => p.path.length + k + 2
  | .up k => p.path.length - k + 2
  | .look => 1
  | .done => 0
  | .failed _ => 0

/-- One step of a process: it keeps what there is, leaves a tree and the
invariant, and brings the process nearer to its end. -/
theorem stepProc_spec {fs : FS} {p : Proc} (ht : Tree fs) (hi : Inv fs p) :
    Keeps fs (stepProc fs p).1 ∧ Tree (stepProc fs p).1 ∧ Inv (stepProc fs p).1 (stepProc fs p).2
      ∧ (stepProc fs p).2.path = p.path ∧ left (stepProc fs p).2 ≤ left p - 1
      ∧ (Free fs p.path → (∀ e, p.phase ≠ .failed e) → ∀ e, (stepProc fs p).2.phase ≠ .failed e) := by
  obtain ⟨path, phase⟩ := p
  cases phase with
  | down k =>
    simp only [Inv] at hi
    simp only [stepProc]
    by_cases h1 : k ≤ 1
    · rw [if_pos h1]
      have hk : k = 1 := by omega
      subst hk
      refine ⟨.refl _, ht, ⟨by omega, hi.2, ?_⟩, (by trivial), ?_, by simp⟩
      · simp [ht.1]
      · simp only [left]; omega
    · rw [if_neg h1]
      by_cases h2 : fs (path.take (k - 1)) ≠ none
      · rw [if_pos h2]
        refine ⟨.refl _, ht, ⟨hi.1, hi.2, h2⟩, (by trivial), ?_, by simp⟩
        simp only [left]; omega
      · rw [if_neg h2]
        refine ⟨.refl _, ht, ⟨by (try dsimp only); omega, by (try dsimp only); omega⟩, (by trivial), ?_, by simp⟩
        simp only [left]; omega
  | up k =>
    simp only [Inv] at hi
    obtain ⟨h1, h2, h3⟩ := hi
    simp only [stepProc]
    cases hm : mkdir fs (path.take k) with
    | ok fs' =>
      obtain ⟨m1, m2, m3⟩ := mkdir_spec (take_ne_nil h1 h2) ht hm
      by_cases hk : k = path.length
      · subst hk
        rw [List.take_length] at m3
        simp only [next, if_true]
        exact ⟨m1, m2, m3, (by trivial), by simp [left], by simp⟩
      · simp only [next, if_neg hk]
        refine ⟨m1, m2, ⟨by (try dsimp only); omega, by (try dsimp only); omega, ?_⟩, (by trivial), ?_, by simp⟩
        · rw [Nat.add_sub_cancel]; rw [m3]; simp
        · simp only [left]; omega
    | error e =>
      cases e with
      | EEXIST =>
        obtain ⟨m1, m2⟩ := mkdir_exists hm
        by_cases hk : k = path.length
        · subst hk
          rw [List.take_length] at m1
          simp only [nextExists, if_true]
          refine ⟨.refl _, ht, ⟨?_, m1⟩, (by trivial), by simp [left], by simp⟩
          rintro rfl; simp at h1
        · simp only [nextExists, if_neg hk]
          refine ⟨.refl _, ht, ⟨by (try dsimp only); omega, by (try dsimp only); omega, ?_⟩, (by trivial), ?_, by simp⟩
          · rw [Nat.add_sub_cancel]; exact m1
          · simp only [left]; omega
      | ENOENT =>
        refine ⟨.refl _, ht, trivial, (by trivial), by simp [left], ?_⟩
        intro _ _ _
        exfalso
        unfold mkdir at hm
        rw [dropLast_take h2] at hm
        split at hm
        · rename_i hn; exact h3 hn
        · cases hm
        · split at hm <;> cases hm
      | ENOTDIR =>
        refine ⟨.refl _, ht, trivial, (by trivial), by simp [left], ?_⟩
        intro hf _ _
        exfalso
        unfold mkdir at hm
        rw [dropLast_take h2] at hm
        split at hm
        · cases hm
        · rename_i hn; exact hf _ hn
        · split at hm <;> cases hm
  | look =>
    simp only [Inv] at hi
    simp only [stepProc]
    by_cases h : fs path = some .dir
    · rw [if_pos h]
      exact ⟨.refl _, ht, h, (by trivial), by simp [left], by simp⟩
    · rw [if_neg h]
      refine ⟨.refl _, ht, trivial, (by trivial), by simp [left], ?_⟩
      intro hf _ _
      exfalso
      have := hf path.length
      rw [List.take_length] at this
      cases hk : fs path with
      | none => exact hi.2 hk
      | some k => cases k with
        | dir => exact h hk
        | file => exact this hk
  | done =>
    simp only [stepProc]
    exact ⟨.refl _, ht, hi, (by trivial), by simp [left], by simp⟩
  | failed e =>
    simp only [stepProc]
    exact ⟨.refl _, ht, trivial, (by trivial), by simp [left], fun _ h => absurd rfl (h e)⟩

/-- All that is known of a system on the way. -/
structure Good (s : Sys) : Prop where
  tree : Tree s.fs
  inv : ∀ i, Inv s.fs (s.procs i)

theorem step_own_same (s : Sys) (i : Nat) : (step s (.own i)).procs i = (stepProc s.fs (s.procs i)).2 := by
  simp [step]

theorem step_own_other (s : Sys) {i j : Nat} (h : j ≠ i) : (step s (.own i)).procs j = s.procs j := by
  simp [step, h]

theorem step_good {s : Sys} (h : Good s) (i : Nat) :
    Good (step s (.own i)) ∧ Keeps s.fs (step s (.own i)).fs := by
  obtain ⟨h1, h2, h3, _⟩ := stepProc_spec h.tree (h.inv i)
  refine ⟨⟨h2, fun j => ?_⟩, h1⟩
  by_cases e : j = i
  · subst e; rw [step_own_same]; exact h3
  · rw [step_own_other s e]; exact (h.inv j).mono h1

theorem run_good (es : List Event) : ∀ (s : Sys), Good s → Allowed s es →
    Good (run s es) ∧ Keeps s.fs (run s es).fs := by
  induction es with
  | nil => intro s h _; exact ⟨h, .refl _⟩
  | cons e es ih =>
    intro s h ha
    cases e with
    | own i =>
      obtain ⟨g1, g2⟩ := step_good h i
      obtain ⟨r1, r2⟩ := ih _ g1 ha
      exact ⟨r1, g2.trans r2⟩
    | env fs =>
      obtain ⟨a1, a2, a3⟩ := ha
      have g : Good (step s (.env fs)) := ⟨a2, fun j => (h.inv j).mono a1⟩
      obtain ⟨r1, r2⟩ := ih _ g a3
      exact ⟨r1, Keeps.trans a1 r2⟩

/-- Specification: all processes are at their start. -/
def Starts (s : Sys) : Prop := ∀ i, ∃ path, s.procs i = start path

theorem starts_good {s : Sys} (ht : Tree s.fs) (h : Starts s) : Good s := by
  refine ⟨ht, fun i => ?_⟩
  obtain ⟨path, hp⟩ := h i
  rw [hp]
  unfold start Inv
  by_cases e : path = []
  · subst e; simpa using ht.1
  · simp only [if_neg e]
    have := List.length_pos_of_ne_nil e
    exact ⟨by omega, Nat.le_refl _⟩

theorem run_path (es : List Event) : ∀ (s : Sys) (i : Nat), Good s → Allowed s es →
    ((run s es).procs i).path = (s.procs i).path := by
  induction es with
  | nil => intro s i _ _; rfl
  | cons e es ih =>
    intro s i h ha
    cases e with
    | own j =>
      rw [run, ih _ i (step_good h j).1 ha]
      by_cases e : i = j
      · subst e; rw [step_own_same]; exact (stepProc_spec h.tree (h.inv i)).2.2.2.1
      · rw [step_own_other s e]
    | env fs =>
      rw [run, ih _ i ⟨ha.2.1, fun j => (h.inv j).mono ha.1⟩ ha.2.2]
      rfl

theorem run_ok (es : List Event) : ∀ (s : Sys) (i : Nat), Good s → Allowed s es →
    Free (run s es).fs (s.procs i).path → (∀ e, (s.procs i).phase ≠ .failed e) →
    ∀ e, ((run s es).procs i).phase ≠ .failed e := by
  induction es with
  | nil => intro s i _ _ _ h; exact h
  | cons e es ih =>
    intro s i h ha hf hp
    have hk := (run_good (e :: es) s h ha).2
    have hf0 : Free s.fs (s.procs i).path := fun k hk' => hf k (hk _ _ hk')
    cases e with
    | own j =>
      obtain ⟨g, _⟩ := step_good h j
      by_cases e : i = j
      · subst e
        have sp := stepProc_spec h.tree (h.inv i)
        refine ih _ i g ha ?_ ?_
        · rw [step_own_same, sp.2.2.2.1]; exact hf
        · rw [step_own_same]; exact sp.2.2.2.2.2 hf0 hp
      · refine ih _ i g ha ?_ ?_
        · rw [step_own_other s e]; exact hf
        · rw [step_own_other s e]; exact hp
    | env fs =>
      exact ih _ i ⟨ha.2.1, fun j => (h.inv j).mono ha.1⟩ ha.2.2 hf hp

/-- Specification: how many of the events are steps of process `i`. -/
def turns (i : Nat) : List Event → Nat
  | [] => 0
  | .own j :: es => (if j = i then 1 else 0) + turns i es
  | .env _ :: es => turns i es

theorem run_left (es : List Event) : ∀ (s : Sys) (i : Nat), Good s → Allowed s es →
    left ((run s es).procs i) ≤ left (s.procs i) - turns i es := by
  induction es with
  | nil => intro s i _ _; simp [run, turns]
  | cons e es ih =>
    intro s i h ha
    cases e with
    | own j =>
      have := ih _ i (step_good h j).1 ha
      by_cases e : i = j
      · subst e
        rw [step_own_same] at this
        have sp := (stepProc_spec h.tree (h.inv i)).2.2.2.2.1
        simp only [run, turns, if_true]
        omega
      · rw [step_own_other s e] at this
        simp only [run, turns, if_neg (fun h => e h.symm : ¬ j = i)]
        omega
    | env fs =>
      have := ih _ i ⟨ha.2.1, fun j => (h.inv j).mono ha.1⟩ ha.2.2
      exact this

/-- C184: whatever the processes and the other programs do in between, a
process never ends with an error, if no file stands where one of its
directories should be. -/
theorem c184_no_error (s : Sys) (ht : Tree s.fs) (hs : Starts s) (es : List Event)
    (ha : Allowed s es) (i : Nat) (hf : Free (run s es).fs (s.procs i).path) (e : Errno) :
    ((run s es).procs i).phase ≠ .failed e := by
  refine run_ok es s i (starts_good ht hs) ha hf ?_ e
  intro e'
  obtain ⟨path, hp⟩ := hs i
  rw [hp]
  unfold start
  by_cases h : path = [] <;> simp [h]

/-- C184: when a process has ended without an error its directory is there,
and so are all directories above it; and all that was there before is there
still. -/
theorem c184_there (s : Sys) (ht : Tree s.fs) (hs : Starts s) (es : List Event)
    (ha : Allowed s es) (i : Nat) (hd : ((run s es).procs i).phase = .done) :
    (∀ k, (run s es).fs ((s.procs i).path.take k) = some .dir)
      ∧ Keeps s.fs (run s es).fs ∧ Tree (run s es).fs := by
  have g := starts_good ht hs
  obtain ⟨r1, r2⟩ := run_good es s g ha
  have hi := r1.inv i
  unfold Inv at hi
  rw [hd] at hi
  simp only [run_path es s i g ha] at hi
  exact ⟨fun k => tree_take r1.tree _ k hi, r2, r1.tree⟩

/-- C184: a process has ended after at most twice as many steps of its own as
its path has names, and two; the others cannot hold it up. -/
theorem c184_ends (s : Sys) (ht : Tree s.fs) (hs : Starts s) (es : List Event)
    (ha : Allowed s es) (i : Nat) (hn : 2 * (s.procs i).path.length + 2 ≤ turns i es) :
    ((run s es).procs i).phase = .done ∨ ∃ e, ((run s es).procs i).phase = .failed e := by
  have g := starts_good ht hs
  have h := run_left es s i g ha
  have hl : left (s.procs i) ≤ 2 * (s.procs i).path.length + 2 := by
    obtain ⟨path, hp⟩ := hs i
    rw [hp]
    unfold start left
    by_cases h : path = []
    · simp [h]
    · simp only [if_neg h]; omega
  have h0 : left ((run s es).procs i) = 0 := by omega
  unfold left at h0
  split at h0
  · omega
  · omega
  · omega
  · rename_i h; exact Or.inl h
  · rename_i e h; exact Or.inr ⟨e, h⟩

/-- C184: so with no file in the way each process makes its directory. -/
theorem c184_made (s : Sys) (ht : Tree s.fs) (hs : Starts s) (es : List Event)
    (ha : Allowed s es) (i : Nat) (hf : Free (run s es).fs (s.procs i).path)
    (hn : 2 * (s.procs i).path.length + 2 ≤ turns i es) :
    ((run s es).procs i).phase = .done
      ∧ ∀ k, (run s es).fs ((s.procs i).path.take k) = some .dir := by
  have hd : ((run s es).procs i).phase = .done := by
    rcases c184_ends s ht hs es ha i hn with h | ⟨e, h⟩
    · exact h
    · exact absurd h (c184_no_error s ht hs es ha i hf e)
  exact ⟨hd, (c184_there s ht hs es ha i hd).1⟩

/-- C184: a file in the way is never taken for a directory: the process ends
with an error. -/
theorem c184_file_refused (s : Sys) (ht : Tree s.fs) (hs : Starts s) (es : List Event)
    (ha : Allowed s es) (i k : Nat) (hf : s.fs ((s.procs i).path.take k) = some .file)
    (hn : 2 * (s.procs i).path.length + 2 ≤ turns i es) :
    ∃ e, ((run s es).procs i).phase = .failed e := by
  rcases c184_ends s ht hs es ha i hn with h | h
  · obtain ⟨h1, h2, _⟩ := c184_there s ht hs es ha i h
    have := h2 _ _ hf
    rw [h1 k] at this
    cases this
  · exact h

theorem nothing_else (es : List Event) (he : ∀ e ∈ es, ∃ i, e = .own i) :
    ∀ (s : Sys), Good s → ∀ p, s.fs p = none → (run s es).fs p ≠ none →
      (run s es).fs p = some .dir ∧ ∃ i k, p = (s.procs i).path.take k := by
  induction es with
  | nil => intro s _ p h1 h2; exact absurd h1 h2
  | cons e es ih =>
    intro s h p h1 h2
    obtain ⟨j, rfl⟩ := he e (by simp)
    obtain ⟨g, _⟩ := step_good h j
    have he' : ∀ e ∈ es, ∃ i, e = .own i := fun e h => he e (by simp [h])
    have ha : ∀ (es : List Event) (s : Sys), (∀ e ∈ es, ∃ i, e = .own i) → Allowed s es := by
      intro es
      induction es with
      | nil => intros; trivial
      | cons e es ih =>
        intro s he
        obtain ⟨j, rfl⟩ := he e (by simp)
        exact ih _ fun e h => he e (by simp [h])
    have hpath : ∀ i, ((step s (.own j)).procs i).path = (s.procs i).path := by
      intro i
      by_cases e : i = j
      · subst e; rw [step_own_same]; exact (stepProc_spec h.tree (h.inv i)).2.2.2.1
      · rw [step_own_other s e]
    by_cases hn : (step s (.own j)).fs p = none
    · obtain ⟨r1, i, k, r2⟩ := ih he' _ g p hn h2
      exact ⟨r1, i, k, by rw [r2, hpath]⟩
    · have hk := (run_good es _ g (ha es _ he')).2
      have hs : (step s (.own j)).fs p = some .dir ∧ ∃ k, p = (s.procs j).path.take k := by
        change (stepProc s.fs (s.procs j)).1 p ≠ none at hn
        change (stepProc s.fs (s.procs j)).1 p = some .dir ∧ _
        generalize hq : s.procs j = q at hn
        unfold stepProc at hn ⊢
        split at hn
        · split at hn
          · exact absurd h1 hn
          · split at hn <;> exact absurd h1 hn
        · rename_i k hph
          cases hm : mkdir s.fs (q.path.take k) with
          | ok fs' =>
            simp only [hm] at hn ⊢
            unfold mkdir at hm
            split at hm
            · cases hm
            · cases hm
            · split at hm
              · cases hm
                by_cases e : p = q.path.take k
                · subst e; exact ⟨by simp, k, rfl⟩
                · rw [Function.update_of_ne e] at hn; exact absurd h1 hn
              · cases hm
          | error e =>
            cases e <;> simp only [hm] at hn <;> exact absurd h1 hn
        · split at hn <;> exact absurd h1 hn
        · exact absurd h1 hn
        · exact absurd h1 hn
      obtain ⟨r1, k, r2⟩ := hs
      exact ⟨hk _ _ r1, j, k, r2⟩

/-- C184: nothing but directories on the paths of the processes is made: if no
other program writes, a path that is new is a directory and one of the
directories of a process. -/
theorem c184_nothing_else (s : Sys) (ht : Tree s.fs) (hs : Starts s) (es : List Event)
    (he : ∀ e ∈ es, ∃ i, e = .own i) (p : List String) (h1 : s.fs p = none)
    (h2 : (run s es).fs p ≠ none) :
    (run s es).fs p = some .dir ∧ ∃ i k, p = (s.procs i).path.take k :=
  nothing_else es he s (starts_good ht hs) p h1 h2

/-! ### A case with two processes -/

/-- The file system with the root only. -/
def bare : FS := fun p => if p = [] then some .dir else none

theorem bare_tree : Tree bare := ⟨by simp [bare], fun p c h => by simp [bare] at h⟩

/-- All processes want the directory `/a/b`. -/
def twins : Sys := ⟨bare, fun _ => start ["a", "b"]⟩

/-- Both find that `/a` is not there, both try to make it and `/a/b`, in
turns. -/
def turnsTaken : List Event :=
  [.own 0, .own 1, .own 0, .own 1, .own 0, .own 1, .own 0, .own 1, .own 0, .own 1, .own 0, .own 1]

theorem twins_free : Free (run twins turnsTaken).fs ["a", "b"] := by
  have h : (run twins turnsTaken).fs
      = Function.update (Function.update bare ["a"] (some .dir)) ["a", "b"] (some .dir) := by
    simp [twins, turnsTaken, run, step, stepProc, start, mkdir, next, nextExists, bare]
  intro k
  rw [h]
  simp only [Function.update_apply, bare]
  repeat' split
  all_goals simp

/-- The hypotheses of `c184_made` are met, also by the process that comes
second everywhere. -/
example : ((run twins turnsTaken).procs 1).phase = .done
    ∧ ∀ k, (run twins turnsTaken).fs ((twins.procs 1).path.take k) = some .dir :=
  c184_made twins bare_tree (fun _ => ⟨_, rfl⟩) turnsTaken (by simp [turnsTaken, Allowed]) 1
    twins_free (by simp [turnsTaken, turns, twins, start])

/-- A new directory, as in `c184_nothing_else`. -/
example : (run twins turnsTaken).fs ["a"] = some .dir
    ∧ ∃ i k, ["a"] = (twins.procs i).path.take k :=
  c184_nothing_else twins bare_tree (fun _ => ⟨_, rfl⟩) turnsTaken
    (by simp [turnsTaken]) ["a"] (by simp [twins, bare])
    (by simp [twins, turnsTaken, run, step, stepProc, start, mkdir, next, nextExists, bare])

/-- A file `/a` where a directory should be, as in `c184_file_refused`. -/
example (es : List Event) (h : es = List.replicate 6 (.own 0)) :
    ∃ e, ((run ⟨Function.update bare ["a"] (some .file), fun _ => start ["a", "b"]⟩ es).procs 0).phase
      = .failed e := by
  subst h
  refine c184_file_refused _ ⟨by simp [bare], ?_⟩ (fun _ => ⟨_, rfl⟩) _ ?_ 0 1 (by simp [start]) ?_
  · intro p c h
    by_cases e : p ++ [c] = ["a"]
    · have : p = [] := by
        have := congrArg List.length e
        simp at this
        exact this
      subst this; simp [bare]
    · simp only [Function.update_of_ne e] at h
      simp [bare] at h
  · simp [Allowed]
  · simp [turns, start]

/-- C184 (limits): if another program removes a directory in between, a
process ends with an error, though its own directories were never in doubt. -/
theorem c184_removed_violated :
    ((run twins [.own 0, .own 0, .own 0, .env bare, .own 0]).procs 0).phase = .failed .ENOENT := by
  simp [twins, run, step, stepProc, start, mkdir, next, bare]

end Verif.Eustace.EnsureDir
