import Verif.Eustace.Submit.Progress

/-! C130: the order of stages submitted by the shell script. -/
namespace Verif.Eustace.Submit
open Verif Verif.Eumopps.Run Spec

theorem once_length_pos {ops : List StoredOp} {new : List Submission} {m : String} {N : ℕ} (hN : 0 < N) (h : allPerformed ops new = once m N) :
    0 < new.length := by
  obtain ⟨i, s, e, hi, -⟩ := block_nonempty hN h
  exact List.length_pos_of_mem (List.mem_of_getElem? hi)

theorem shellChain_chained {ops : List StoredOp} {answers : ℕ → Answer} {ids : ℕ → Text} (ha : Accepting answers ids)
    {stages : List (String × Bool)} (hN : ∀ st ∈ stages, ∃ N, Operations ops st.1 N ∧ 0 < N) (w : Text) (log : List Submission) :
    ∃ L w', shellChain ops answers stages w log = (log ++ L, w') ∧
      Chained ops ids (stages.map fun st => (st.1, .single)) w log.length L := by
  induction stages generalizing w log with
  | nil => exact ⟨[], w, by rw [shellChain, List.append_nil], rfl⟩
  | cons st sts ih =>
    obtain ⟨N, h1, h2⟩ := hN st (by simp)
    have key : ∃ new, (if st.2 then runlsfSolver ops answers st.1 w log.length log else runlsf ops answers st.1 w 366 log.length log) =
        (log ++ new, doneCondition (idsFrom ids log.length new.length)) ∧
        allPerformed ops new = once st.1 N ∧ ∀ s ∈ new, s.module = st.1 ∧ s.wait = w ∧ s.script = .single := by
      cases st.2 with
      | true => exact c128_solver ha w h1 log
      | false => exact c128_runlsf ha w (by omega) h1 log
    obtain ⟨new, h3, h4, h5⟩ := key
    obtain ⟨L, w', h6, h7⟩ := ih (fun s hs => hN s (by simp [hs])) (doneCondition (idsFrom ids log.length new.length)) (log ++ new)
    refine ⟨new ++ L, w', ?_, ?_⟩
    · rw [shellChain, h3]
      dsimp only
      rw [h6, List.append_assoc]
    · rw [List.length_append] at h7
      exact ⟨new, L, N, rfl, h5, h1, h2, h4, h7⟩

/-- The five kinds of stages. -/
def shellKinds : List Kind := [.climatologyInput, .climatologySolve, .largeScaleInput, .largeScaleSolve, .localSolve]

theorem mem_shellKinds (k : Kind) : k ∈ shellKinds ↔ InShell k := by
  unfold shellKinds InShell
  cases k <;> simp

/-- Stages of all iterations. -/
def shellKeys (is : List ℕ) : List (ℕ × Kind) := is.flatMap fun i => shellKinds.map fun k => (i, k)

theorem shellKeys_sorted {is : List ℕ} (h : is.Pairwise (· < ·)) : (shellKeys is).Pairwise keyLt := by
  unfold shellKeys
  rw [List.pairwise_flatMap]
  constructor
  · intro i _
    rw [List.pairwise_map]
    have h1 : shellKinds.Pairwise fun a b => a.rank < b.rank := by unfold shellKinds; decide
    exact h1.imp fun hab => Or.inr ⟨rfl, hab⟩
  · apply h.imp
    intro i j hij x hx y hy
    rw [List.mem_map] at hx hy
    obtain ⟨_, _, rfl⟩ := hx
    obtain ⟨_, _, rfl⟩ := hy
    exact Or.inl hij

theorem shellStages_keys (first last : ℕ) : ((shellStages first last).map fun st => (st.1, Script.single)) =
    ((shellKeys ((List.range (last + 1 - first)).map (first + ·))).map fun x => (moduleName x.2 x.1, Script.single)) ++
      [("output_grid", .single)] := by
  unfold shellStages shellKeys
  rw [List.map_append, List.map_flatMap, List.map_flatMap]
  rfl

/-- No stage of an iteration is called "output_grid". -/
theorem moduleName_ne (k : Kind) (i : ℕ) : moduleName k i ≠ "output_grid" := by
  intro h
  have h1 := congrArg String.toList h
  unfold moduleName at h1
  rw [String.toList_append] at h1
  have h2 := congrArg List.getLast? h1
  have hne : (toString i).toList ≠ [] := by
    intro hc
    have : Nat.toDigits 10 i = [] := by simpa using hc
    exact absurd this Nat.toDigits_ne_nil
  rw [List.getLast?_append_of_ne_nil _ hne, List.getLast?_eq_getLast_of_ne_nil hne] at h2
  have h3 : "output_grid".toList.getLast? = some 'd' := rfl
  rw [h3] at h2
  injection h2 with h2
  have := toString_digits i _ (List.getLast_mem hne)
  rw [h2] at this
  revert this
  decide

/-- **C130.** When runlsf_iterations.sh has submitted iterations of which every stage has operations, then in every execution which the
batch system allows, whenever an operation of some stage has been run, all operations of all earlier stages had been performed
successfully before. -/
theorem c130_order {ops : List StoredOp} {answers : ℕ → Answer} {ids : ℕ → Text} (ha : Accepting answers ids) {first last : ℕ} {w : Text}
    (hops : ∀ i, first ≤ i → i ≤ last → ∀ k, InShell k → ∃ N, Operations ops (moduleName k i) N ∧ 0 < N)
    (hout : ∃ N, Operations ops "output_grid" N ∧ 0 < N) {trace : List Event}
    (ht : Permitted ops ids (shellChain ops answers (shellStages first last) w []).1 trace)
    {k₁ : Kind} {i₁ : ℕ} (hi₁ : first ≤ i₁ ∧ i₁ ≤ last) (hk₁ : InShell k₁) {m : String}
    (hm : m = "output_grid" ∨ ∃ k₂ i₂, m = moduleName k₂ i₂ ∧ (i₁ < i₂ ∨ i₁ = i₂ ∧ k₁.rank < k₂.rank))
    {past future : List Event} {ev : Event} {q : ℤ} {ok : Bool} (hs : trace = past ++ ev :: future)
    (hev : Performs ops (shellChain ops answers (shellStages first last) w []).1 m q ok ev) {N : ℕ}
    (hN : Operations ops (moduleName k₁ i₁) N) {q' : ℕ} (hq : q' < N) :
    ∃ ev' ∈ past, Performs ops (shellChain ops answers (shellStages first last) w []).1 (moduleName k₁ i₁) q' true ev' := by
  have hall : ∀ st ∈ shellStages first last, ∃ N, Operations ops st.1 N ∧ 0 < N := by
    intro st hst
    have h1 : (st.1, Script.single) ∈ (shellStages first last).map fun st => (st.1, Script.single) := List.mem_map_of_mem hst
    rw [shellStages_keys, List.mem_append, List.mem_map, List.mem_singleton] at h1
    rcases h1 with ⟨x, hx, h1⟩ | h1
    · unfold shellKeys at hx
      rw [List.mem_flatMap] at hx
      obtain ⟨i, hi, hx⟩ := hx
      rw [List.mem_map] at hi hx
      obtain ⟨d, hd, rfl⟩ := hi
      obtain ⟨k, hk, rfl⟩ := hx
      rw [List.mem_range] at hd
      rw [Prod.mk.injEq] at h1
      rw [← h1.1]
      exact hops _ (by omega) (by omega) k ((mem_shellKinds k).1 hk)
    · rw [Prod.mk.injEq] at h1
      rw [h1.1]
      exact hout
  obtain ⟨L, w', hL, hc⟩ := shellChain_chained ha hall w []
  rw [hL] at ht hev ⊢
  rw [List.nil_append] at ht hev ⊢
  rw [shellStages_keys] at hc
  have hsort : (shellKeys ((List.range (last + 1 - first)).map (first + ·))).Pairwise keyLt := by
    apply shellKeys_sorted
    rw [List.pairwise_map]
    exact List.pairwise_lt_range.imp fun h => by omega
  have hmem : (i₁, k₁) ∈ shellKeys ((List.range (last + 1 - first)).map (first + ·)) := by
    unfold shellKeys
    rw [List.mem_flatMap]
    refine ⟨i₁, ?_, ?_⟩
    · rw [List.mem_map]
      exact ⟨i₁ - first, by rw [List.mem_range]; omega, by omega⟩
    · rw [List.mem_map]
      exact ⟨k₁, (mem_shellKinds k₁).2 hk₁, rfl⟩
  obtain ⟨as, bs, hab⟩ := List.append_of_mem hmem
  rw [hab] at hsort hc
  rw [List.map_append, List.map_cons, List.append_assoc, List.cons_append] at hc
  obtain ⟨ev', he, ok', hp, hok⟩ := chained_order ha ht hc (m := m) (by
    intro x hx hxm
    rw [List.mem_append, List.mem_singleton] at hx
    rcases hm with rfl | ⟨k₂, i₂, rfl, hlt⟩
    · rcases hx with hx | hx
      · rw [List.mem_map] at hx
        obtain ⟨y, -, rfl⟩ := hx
        exact moduleName_ne _ _ hxm
      · subst hx
        exact moduleName_ne _ _ hxm
    · rcases hx with hx | hx
      · rw [List.mem_map] at hx
        obtain ⟨y, hy, rfl⟩ := hx
        obtain ⟨h1, h2⟩ := moduleName_inj hxm
        have h3 := (List.pairwise_append.1 hsort).2.2 y hy (i₁, k₁) (by simp)
        have h4 : keyLt (i₁, k₁) y := by
          rcases hlt with hlt | ⟨hlt, hlt2⟩
          · left; show i₁ < y.1; omega
          · right; exact ⟨by show i₁ = y.1; omega, by show k₁.rank < y.2.rank; rw [h1]; exact hlt2⟩
        exact keyLt_asymm h4 h3
      · subst hx
        obtain ⟨h1, h2⟩ := moduleName_inj hxm
        subst h1 h2
        rcases hlt with hlt | ⟨-, hlt⟩
        · exact absurd hlt (Nat.lt_irrefl _)
        · exact absurd hlt (Nat.lt_irrefl _)) hs hev hN hq
  rw [hok rfl] at hp
  exact ⟨ev', he, hp⟩

end Verif.Eustace.Submit
