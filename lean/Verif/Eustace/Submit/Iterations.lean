import Verif.Eustace.Submit.Order

/-! C129: the order of the stages of iterations. -/
namespace Verif.Eustace.Submit
open Verif Verif.Eumopps.Run Spec

/-! ### Names -/

theorem toString_digits (i : ℕ) : ∀ c ∈ (toString i).toList, isDigit c = true := by
  intro c hc
  have : c ∈ Nat.toDigits 10 i := by simpa using hc
  have h := Nat.isDigit_of_mem_toDigits (by decide) (by decide) this
  have := Char.isDigit_iff_toNat.1 h
  unfold isDigit
  rw [Bool.and_eq_true, decide_eq_true_eq, decide_eq_true_eq]
  exact this

theorem name_split {a b : List Char} {d e : Char} (hd : isDigit d = false) (he : isDigit e = false) {i i' : ℕ}
    (h : (a ++ [d]) ++ (toString i).toList = (b ++ [e]) ++ (toString i').toList) : a ++ [d] = b ++ [e] ∧ i = i' := by
  have key : ∀ (a : List Char) (d : Char) (i : ℕ), isDigit d = false →
      ((a ++ [d]) ++ (toString i).toList).reverse.dropWhile isDigit = (a ++ [d]).reverse := by
    intro a d i hd
    rw [List.reverse_append, List.dropWhile_append_of_pos (by simpa using toString_digits i), List.reverse_append]
    simp [List.dropWhile_cons, hd]
  have h1 := key a d i hd
  rw [h, key b e i' he] at h1
  have h2 : a ++ [d] = b ++ [e] := by
    have := congrArg List.reverse h1
    rw [List.reverse_reverse, List.reverse_reverse] at this
    exact this.symm
  refine ⟨h2, ?_⟩
  rw [h2] at h
  have h3 := List.append_cancel_left h
  exact Nat.repr_injective (String.toList_inj.1 h3)

theorem kind_split (k : Kind) : ∃ a, k.name.toList = a ++ ['_'] := by
  cases k
  · exact ⟨"climatology_input".toList, rfl⟩
  · exact ⟨"climatology_solve".toList, rfl⟩
  · exact ⟨"climatology_solve_prior_sample".toList, rfl⟩
  · exact ⟨"large_scale_input".toList, rfl⟩
  · exact ⟨"large_scale_solve".toList, rfl⟩
  · exact ⟨"large_scale_solve_prior_sample".toList, rfl⟩
  · exact ⟨"local_input_and_solve".toList, rfl⟩
  · exact ⟨"output_grid".toList, rfl⟩

theorem kind_name_inj {k k' : Kind} (h : k.name = k'.name) : k = k' := by
  cases k <;> cases k' <;> first | rfl | (exfalso; revert h; decide +kernel)

/-- Modules of different stages or iterations have different names. -/
theorem moduleName_inj {k k' : Kind} {i i' : ℕ} (h : moduleName k i = moduleName k' i') : k = k' ∧ i = i' := by
  obtain ⟨a, ha⟩ := kind_split k
  obtain ⟨b, hb⟩ := kind_split k'
  have h1 := congrArg String.toList h
  unfold moduleName at h1
  rw [String.toList_append, String.toList_append, ha, hb] at h1
  obtain ⟨h2, h3⟩ := name_split (by decide) (by decide) h1
  rw [← ha, ← hb] at h2
  exact ⟨kind_name_inj (String.toList_inj.1 h2), h3⟩

/-! ### Stages -/

theorem chain_append (ops : List StoredOp) (answers : ℕ → Answer) (as bs : List Stage) (w : Text) (log : List Submission) :
    chain ops answers (as ++ bs) w log = match chain ops answers as w log with
      | (log', .error e) => (log', .error e)
      | (log', .ok w') => chain ops answers bs w' log' := by
  induction as generalizing w log with
  | nil => rfl
  | cons a as ih =>
    rw [List.cons_append, chain, chain]
    cases submitStage ops answers log w a with
    | mk log' r =>
      cases r with
      | error e => rfl
      | ok l => exact ih _ _

/-- Options of one iteration of several. -/
def optionsAt (o : Options) (final i : ℕ) : Options :=
  { o with gridOutput := decide (i = final) && o.gridOutput, priorSample := decide (i = final), localHyperparameters := false }

theorem iterationsLoop_eq (ops : List StoredOp) (answers : ℕ → Answer) (grouped : Bool) (o : Options) (final : ℕ) (is : List ℕ) (w : Text)
    (log : List Submission) :
    iterationsLoop ops answers grouped o final is w log =
      chain ops answers (is.flatMap fun i => iterationStages grouped (optionsAt o final i) i) w log := by
  induction is generalizing w log with
  | nil => rfl
  | cons i is ih =>
    rw [iterationsLoop, List.flatMap_cons, chain_append]
    show (match chain ops answers (iterationStages grouped (optionsAt o final i) i) w log with
      | (log', .error e) => (log', Except.error e)
      | (log', .ok w') => iterationsLoop ops answers grouped o final is w' log') = _
    cases chain ops answers (iterationStages grouped (optionsAt o final i) i) w log with
    | mk log' r =>
      cases r with
      | error e => rfl
      | ok l => exact ih _ _

/-- All stages in order. -/
def allKinds : List Kind :=
  [.climatologyInput, .climatologySolve, .climatologyPrior, .largeScaleInput, .largeScaleSolve, .largeScalePrior, .localSolve, .outputGrid]

/-- `Kind.wanted` as a truth value. -/
def wantedB (o : Options) (final i : ℕ) : Kind → Bool
  | .climatologyInput => o.climatologyInput
  | .climatologySolve => o.climatologySolve
  | .climatologyPrior => o.climatologySolve && decide (i = final)
  | .largeScaleInput => o.largeScaleInput
  | .largeScaleSolve => o.largeScaleSolve
  | .largeScalePrior => o.largeScaleSolve && decide (i = final)
  | .localSolve => o.localInputAndSolve
  | .outputGrid => o.gridOutput && decide (i = final)

theorem wantedB_iff (o : Options) (final i : ℕ) (k : Kind) : wantedB o final i k = true ↔ k.wanted o final i := by
  cases k <;> simp [wantedB, Kind.wanted]

/-- The script of a stage. -/
def kindScript (grouped : Bool) : Kind → Script
  | .localSolve => if grouped then .group else .single
  | _ => .single

theorem stages_keys (grouped : Bool) (o : Options) (final i : ℕ) :
    (iterationStages grouped (optionsAt o final i) i).map stageKey =
      (allKinds.filter (wantedB o final i)).map fun k => (moduleName k i, kindScript grouped k) := by
  unfold iterationStages optionsAt allKinds
  dsimp only
  rcases o with ⟨a, b, c, d, e, f, g, h⟩
  unfold wantedB
  dsimp only
  generalize decide (i = final) = t
  cases a <;> cases b <;> cases c <;> cases d <;> cases e <;> cases f <;> cases grouped <;> cases t <;> rfl

theorem stages_scripts (grouped : Bool) (o : Options) (i : ℕ) :
    ∀ st ∈ iterationStages grouped o i, scriptNamed st.script = some (stageKey st).2 := by
  unfold iterationStages
  rcases o with ⟨a, b, c, d, e, f, g, h⟩
  intro st hst
  simp only [List.mem_append, List.mem_ite_nil_right, List.mem_cons, List.mem_singleton, List.not_mem_nil, or_false] at hst
  rcases hst with ((((hst | hst) | hst) | hst) | hst) | hst
  · obtain ⟨-, rfl⟩ := hst; simp [scriptNamed, stageKey]
  · obtain ⟨-, rfl | ⟨-, rfl⟩⟩ := hst <;> simp [scriptNamed, stageKey]
  · obtain ⟨-, rfl⟩ := hst; simp [scriptNamed, stageKey]
  · obtain ⟨-, rfl | ⟨-, rfl⟩⟩ := hst <;> simp [scriptNamed, stageKey]
  · obtain ⟨-, rfl⟩ := hst
    cases grouped <;> simp [scriptNamed, stageKey]
  · obtain ⟨-, rfl⟩ := hst; simp [scriptNamed, stageKey]

/-- Stage of an iteration before another. -/
def keyLt (a b : ℕ × Kind) : Prop := a.1 < b.1 ∨ a.1 = b.1 ∧ a.2.rank < b.2.rank

/-- Stages of all iterations. -/
def keys (o : Options) (final : ℕ) (is : List ℕ) : List (ℕ × Kind) :=
  is.flatMap fun i => (allKinds.filter (wantedB o final i)).map fun k => (i, k)

theorem keys_sorted (o : Options) (final : ℕ) {is : List ℕ} (h : is.Pairwise (· < ·)) : (keys o final is).Pairwise keyLt := by
  unfold keys
  rw [List.pairwise_flatMap]
  constructor
  · intro i _
    rw [List.pairwise_map]
    have h1 : allKinds.Pairwise fun a b => a.rank < b.rank := by unfold allKinds; decide
    exact (h1.filter _).imp fun hab => Or.inr ⟨rfl, hab⟩
  · apply h.imp
    intro i j hij x hx y hy
    rw [List.mem_map] at hx hy
    obtain ⟨_, _, rfl⟩ := hx
    obtain ⟨_, _, rfl⟩ := hy
    exact Or.inl hij

theorem mem_keys {o : Options} {final : ℕ} {is : List ℕ} {i : ℕ} {k : Kind} (hi : i ∈ is) (hk : k.wanted o final i) : (i, k) ∈ keys o final is := by
  unfold keys
  rw [List.mem_flatMap]
  refine ⟨i, hi, ?_⟩
  rw [List.mem_map]
  refine ⟨k, ?_, rfl⟩
  rw [List.mem_filter]
  exact ⟨by unfold allKinds; cases k <;> simp, (wantedB_iff o final i k).2 hk⟩

theorem keyLt_irrefl (a : ℕ × Kind) : ¬ keyLt a a := by
  rintro (h | ⟨-, h⟩) <;> omega

theorem keyLt_asymm {a b : ℕ × Kind} (h : keyLt a b) : ¬ keyLt b a := by
  rcases h with h | ⟨h1, h2⟩
  · rintro (h' | ⟨h', -⟩) <;> omega
  · rintro (h' | ⟨h', h''⟩) <;> omega

/-- The stages of several iterations in order, whether grouped or not. -/
theorem iterations_order {ops : List StoredOp} {answers : ℕ → Answer} {ids : ℕ → Text} (ha : Accepting answers ids) {grouped : Bool}
    {o : Options} {first last final : ℕ} {w w' : Text} {log : List Submission}
    (h : multiIteration ops answers grouped o first last final w [] = (log, .ok w')) {trace : List Event}
    (ht : Permitted ops ids log trace) {k₁ k₂ : Kind} {i₁ i₂ : ℕ} (hi₁ : first ≤ i₁ ∧ i₁ ≤ last) (hk₁ : k₁.wanted o final i₁)
    (hlt : i₁ < i₂ ∨ i₁ = i₂ ∧ k₁.rank < k₂.rank) {past future : List Event} {ev : Event} {q : ℤ} {ok : Bool}
    (hs : trace = past ++ ev :: future) (hev : Performs ops log (moduleName k₂ i₂) q ok ev) {N : ℕ}
    (hN : Operations ops (moduleName k₁ i₁) N) {q' : ℕ} (hq : q' < N) :
    ∃ ev' ∈ past, ∃ ok', Performs ops log (moduleName k₁ i₁) q' ok' ev' ∧ (kindScript grouped k₁ = .single → ok' = true) := by
  unfold multiIteration at h
  rw [iterationsLoop_eq] at h
  obtain ⟨L, hL, hc⟩ := chain_chained ha (by
    intro st hst
    rw [List.mem_flatMap] at hst
    obtain ⟨i, -, hst⟩ := hst
    exact stages_scripts _ _ _ st hst) h
  rw [List.nil_append] at hL
  subst hL
  rw [List.map_flatMap] at hc
  have e : (((List.range (last + 1 - first)).map (first + ·)).flatMap fun i => (iterationStages grouped (optionsAt o final i) i).map stageKey) =
      (keys o final ((List.range (last + 1 - first)).map (first + ·))).map fun x => (moduleName x.2 x.1, kindScript grouped x.2) := by
    unfold keys
    rw [List.map_flatMap]
    apply List.flatMap_congr
    intro i _
    rw [stages_keys, List.map_map]
    rfl
  rw [e] at hc
  have hsort : (keys o final ((List.range (last + 1 - first)).map (first + ·))).Pairwise keyLt := by
    apply keys_sorted
    rw [List.pairwise_map]
    exact List.pairwise_lt_range.imp fun h => by omega
  have hmem : (i₁, k₁) ∈ keys o final ((List.range (last + 1 - first)).map (first + ·)) := by
    apply mem_keys _ hk₁
    rw [List.mem_map]
    exact ⟨i₁ - first, by rw [List.mem_range]; omega, by omega⟩
  obtain ⟨as, bs, hab⟩ := List.append_of_mem hmem
  rw [hab] at hsort hc
  rw [List.map_append, List.map_cons] at hc
  refine chained_order ha ht hc ?_ hs hev hN hq
  intro x hx hxm
  rw [List.mem_append, List.mem_singleton] at hx
  rcases hx with hx | hx
  · rw [List.mem_map] at hx
    obtain ⟨y, hy, rfl⟩ := hx
    obtain ⟨h1, h2⟩ := moduleName_inj hxm
    have h3 := (List.pairwise_append.1 hsort).2.2 y hy (i₁, k₁) (by simp)
    have h4 : keyLt (i₁, k₁) y := by
      rcases hlt with hlt | ⟨hlt, hlt2⟩
      · left; show i₁ < y.1; omega
      · right; exact ⟨by show i₁ = y.1; omega, by show k₁.rank < y.2.rank; rw [h1]; exact hlt2⟩
    exact keyLt_asymm h4 h3
  · subst hx
    obtain ⟨h1, h2⟩ := moduleName_inj hxm
    subst h1 h2
    rcases hlt with hlt | ⟨-, hlt⟩
    · exact absurd hlt (Nat.lt_irrefl _)
    · exact absurd hlt (Nat.lt_irrefl _)

/-- **C129.** When iterations have been submitted, then in every execution which the batch system allows, whenever an operation of some
stage has been run, all operations of all earlier stages had been performed successfully before. -/
theorem c129_order {ops : List StoredOp} {answers : ℕ → Answer} {ids : ℕ → Text} (ha : Accepting answers ids)
    {o : Options} {first last final : ℕ} {w w' : Text} {log : List Submission}
    (h : multiIteration ops answers false o first last final w [] = (log, .ok w')) {trace : List Event}
    (ht : Permitted ops ids log trace) {k₁ k₂ : Kind} {i₁ i₂ : ℕ} (hi₁ : first ≤ i₁ ∧ i₁ ≤ last) (hk₁ : k₁.wanted o final i₁)
    (hlt : i₁ < i₂ ∨ i₁ = i₂ ∧ k₁.rank < k₂.rank) {past future : List Event} {ev : Event} {q : ℤ} {ok : Bool}
    (hs : trace = past ++ ev :: future) (hev : Performs ops log (moduleName k₂ i₂) q ok ev) {N : ℕ}
    (hN : Operations ops (moduleName k₁ i₁) N) {q' : ℕ} (hq : q' < N) :
    ∃ ev' ∈ past, Performs ops log (moduleName k₁ i₁) q' true ev' := by
  obtain ⟨ev', he, ok', hp, hok⟩ := iterations_order ha h ht hi₁ hk₁ hlt hs hev hN hq
  rw [hok (by cases k₁ <;> rfl)] at hp
  exact ⟨ev', he, hp⟩

/-- **C129.** If local operations are grouped, all operations of earlier stages have been run before, and those other than the local
ones successfully. Missing: success of the local operations (see `c129_grouped_violated`). -/
theorem c129_grouped_partial {ops : List StoredOp} {answers : ℕ → Answer} {ids : ℕ → Text} (ha : Accepting answers ids)
    {o : Options} {first last final : ℕ} {w w' : Text} {log : List Submission}
    (h : multiIteration ops answers true o first last final w [] = (log, .ok w')) {trace : List Event}
    (ht : Permitted ops ids log trace) {k₁ k₂ : Kind} {i₁ i₂ : ℕ} (hi₁ : first ≤ i₁ ∧ i₁ ≤ last) (hk₁ : k₁.wanted o final i₁)
    (hlt : i₁ < i₂ ∨ i₁ = i₂ ∧ k₁.rank < k₂.rank) {past future : List Event} {ev : Event} {q : ℤ} {ok : Bool}
    (hs : trace = past ++ ev :: future) (hev : Performs ops log (moduleName k₂ i₂) q ok ev) {N : ℕ}
    (hN : Operations ops (moduleName k₁ i₁) N) {q' : ℕ} (hq : q' < N) :
    ∃ ev' ∈ past, ∃ ok', Performs ops log (moduleName k₁ i₁) q' ok' ev' ∧ (k₁ ≠ .localSolve → ok' = true) := by
  obtain ⟨ev', he, ok', hp, hok⟩ := iterations_order ha h ht hi₁ hk₁ hlt hs hev hN hq
  exact ⟨ev', he, ok', hp, fun hne => hok (by cases k₁ <;> first | rfl | exact absurd rfl hne)⟩

end Verif.Eustace.Submit
