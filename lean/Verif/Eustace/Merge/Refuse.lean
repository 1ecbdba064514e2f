import Verif.Eustace.Merge.Day

/-! C112, C113: inputs which are refused, and several days one after the other. -/

namespace Verif.Eustace.Merge

open Verif

/-- C112: lists of main and ancillary files of different lengths are refused, and nothing is written. -/
theorem c112_lengths (m : Merger) (disc : Disc) (mains ancillaries : List (Option Path)) (outMain outAncillary : Path)
    (h : mains.length ≠ ancillaries.length) :
    mergeSingleDay m disc mains ancillaries outMain outAncillary = (disc, .error .valueError) := by
  unfold mergeSingleDay clean
  rw [if_pos h]

theorem stackRest_sizes (alwaysMask : Bool) (name : Name) (size : Nat) (ds : List Data) :
    ∀ fs, stackRest alwaysMask name size ds = .ok fs → fs.length = ds.length ∧ ∀ f ∈ fs, f.length = size := by
  induction ds with
  | nil =>
    intro fs h
    cases h
    simp
  | cons d rest ih =>
    intro fs h
    rw [stackRest] at h
    cases he : extract alwaysMask d name with
    | error e => rw [he] at h; cases h
    | ok f =>
      rw [he] at h
      dsimp only at h
      by_cases hf : f.length = size
      · rw [if_neg (by simpa using hf)] at h
        cases hr : stackRest alwaysMask name size rest with
        | error e => rw [hr] at h; cases h
        | ok gs =>
          rw [hr] at h
          cases h
          obtain ⟨h1, h2⟩ := ih gs hr
          refine ⟨by simp [h1], ?_⟩
          intro g hg
          rcases List.mem_cons.1 hg with rfl | hg
          · exact hf
          · exact h2 g hg
      · rw [if_pos (by simpa using hf)] at h
        cases h

/-- C112: fields are only put together if all files have as many cells as the first. -/
theorem c112_sizes (alwaysMask : Bool) (name : Name) (ds : List Data) (fs : List Field)
    (h : stack alwaysMask name ds = .ok fs) : fs.length = ds.length ∧ ∀ f ∈ fs, ∀ g ∈ fs, f.length = g.length := by
  cases ds with
  | nil => cases h
  | cons d rest =>
    rw [stack] at h
    cases he : extract alwaysMask d name with
    | error e => rw [he] at h; cases h
    | ok f =>
      rw [he] at h
      dsimp only at h
      cases hr : stackRest alwaysMask name f.length rest with
      | error e => rw [hr] at h; cases h
      | ok gs =>
        rw [hr] at h
        cases h
        obtain ⟨h1, h2⟩ := stackRest_sizes _ _ _ _ gs hr
        have hall : ∀ g ∈ f :: gs, g.length = f.length := by
          intro g hg
          rcases List.mem_cons.1 hg with rfl | hg
          · rfl
          · exact h2 g hg
        exact ⟨by simp [h1], fun a ha b hb => (hall a ha).trans (hall b hb).symm⟩

/-- Two files of different sizes are refused. -/
example : stack true "tas".toList [⟨0, fun _ => some [some 1, none], []⟩, ⟨0, fun _ => some [some 1], []⟩]
    ≠ .ok [[some 1, none], [some 1]] := by
  intro h
  have := (c112_sizes _ _ _ _ h).2 _ (List.mem_cons_self ..) _ (List.mem_cons_of_mem _ (List.mem_cons_self ..))
  simp at this

/-- The days one after the other, each with its own files; the first error stops it. -/
noncomputable def dayByDay (m : Merger) : Disc → List (List Path × List Path) → Outcome
  | disc, [] => (disc, .ok ([], []))
  | disc, day :: rest =>
    match mergeDay m disc day.1 day.2 with
    | (disc, .error e) => (disc, .error e)
    | (disc, .ok (a, b)) =>
      match dayByDay m disc rest with
      | (disc, .error e) => (disc, .error e)
      | (disc, .ok (a', b')) => (disc, .ok (a ++ a', b ++ b'))

/-- C113: a run over several days merges for each day just the files of that day. -/
theorem c113_days (m : Merger) (days : List (List Path × List Path)) (h : ∀ d ∈ days, d.2.length = d.1.length) :
    ∀ disc, mergeDays m disc (days.map fun d => d.1.length) (days.flatMap fun d => d.1) (days.flatMap fun d => d.2)
      = dayByDay m disc days := by
  induction days with
  | nil => intro disc; rfl
  | cons d rest ih =>
    intro disc
    have hd := h d (List.mem_cons_self ..)
    rw [List.map_cons, List.flatMap_cons, List.flatMap_cons, mergeDays, dayByDay, List.take_left, List.drop_left,
      List.take_left' hd, List.drop_left' hd]
    cases mergeDay m disc d.1 d.2 with
    | mk disc1 o =>
      cases o with
      | error e => rfl
      | ok ab =>
        obtain ⟨a, b⟩ := ab
        dsimp only
        rw [ih (fun x hx => h x (List.mem_cons_of_mem _ hx)) disc1]
        cases dayByDay m disc1 rest with
        | mk disc2 o => cases o <;> rfl

end Verif.Eustace.Merge
