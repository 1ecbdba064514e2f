import Verif.Eustace.Submit.Once
import Std.Data.String.ToNat

/-! C129, C130: stages are run in order. -/
namespace Verif.Eustace.Submit
open Verif Verif.Eumopps.Run Spec

/-! ### Conditions -/

theorem means_done {l : List Text} (h : ∀ i ∈ l, Identifier i) : Means (doneCondition l) l := by
  induction l with
  | nil => exact Means.nothing
  | cons a l ih =>
    cases l with
    | nil =>
      have := Means.one (h a (by simp))
      simpa [doneCondition, List.intercalate] using this
    | cons b l =>
      have h2 := Means.both (h a (by simp)) (by simp) (ih fun i hi => h i (by simp [hi]))
      have e : doneCondition (a :: b :: l) = "done(".toList ++ a ++ ") && ".toList ++ doneCondition (b :: l) := by
        unfold doneCondition
        rw [List.map_cons, List.map_cons, List.intercalate_cons_cons]
        simp
      rw [e]
      exact h2

theorem split_digits {i i' r r' : Text} (h : Identifier i) (h' : Identifier i') (e : i ++ ')' :: r = i' ++ ')' :: r') : i = i' ∧ r = r' := by
  have h1 : (i ++ ')' :: r).takeWhile isDigit = i := by
    rw [List.takeWhile_append_of_pos (isDigit_of h), List.takeWhile_cons_of_neg (by decide), List.append_nil]
  have h2 : (i' ++ ')' :: r').takeWhile isDigit = i' := by
    rw [List.takeWhile_append_of_pos (isDigit_of h'), List.takeWhile_cons_of_neg (by decide), List.append_nil]
  have : i = i' := by rw [← h1, e, h2]
  subst this
  exact ⟨rfl, by simpa using e⟩

/-- A condition has one meaning. -/
theorem means_unique {c : Text} {l l' : List Text} (h : Means c l) (h' : Means c l') : l = l' := by
  induction h generalizing l' with
  | nothing =>
    generalize hc : ([] : Text) = c at h'
    cases h' with
    | nothing => rfl
    | one hi => simp at hc
    | both hi hl hm => simp at hc
  | @one i hi =>
    generalize hc : ("done(".toList ++ i ++ [')']) = c at h'
    cases h' with
    | nothing => simp at hc
    | @one i' hi' =>
      have : i ++ ')' :: [] = i' ++ ')' :: [] := by simpa using hc
      rw [(split_digits hi hi' this).1]
    | @both i' c' l' hi' hl hm =>
      have : i ++ ')' :: [] = i' ++ ')' :: (" && ".toList ++ c') := by simpa using hc
      have := (split_digits hi hi' this).2
      simp at this
  | @both i c l hi hl hm ih =>
    generalize hc : ("done(".toList ++ i ++ ") && ".toList ++ c) = c2 at h'
    cases h' with
    | nothing => simp at hc
    | @one i' hi' =>
      have : i ++ ')' :: (" && ".toList ++ c) = i' ++ ')' :: [] := by simpa using hc
      have := (split_digits hi hi' this).2
      simp at this
    | @both i' c' l' hi' hl' hm' =>
      have : i ++ ')' :: (" && ".toList ++ c) = i' ++ ')' :: (" && ".toList ++ c') := by simpa using hc
      obtain ⟨h1, h2⟩ := split_digits hi hi' this
      have h3 : c = c' := by simpa using h2
      subst h3
      rw [h1, ih hm']

/-! ### Blocks of jobs -/

/-- Identifiers of `k` jobs from number `n`. -/
def idsFrom (ids : ℕ → Text) (n k : ℕ) : List Text := (List.range k).map fun i => ids (n + i)

/-- Jobs for some modules one after another, each waiting for the one before.  For each module the script is given. -/
def Chained (ops : List StoredOp) (ids : ℕ → Text) : List (String × Script) → Text → ℕ → List Submission → Prop
  | [], _, _, L => L = []
  | m :: ms, w, n, L => ∃ new rest N, L = new ++ rest ∧ (∀ s ∈ new, s.module = m.1 ∧ s.wait = w ∧ s.script = m.2) ∧ Operations ops m.1 N ∧
      0 < N ∧ allPerformed ops new = once m.1 N ∧ Chained ops ids ms (doneCondition (idsFrom ids n new.length)) (n + new.length) rest

theorem stage_block {ops : List StoredOp} {answers : ℕ → Answer} {ids : ℕ → Text} (ha : Accepting answers ids) {log log' : List Submission}
    {w : Text} {st : Stage} {l : List Text} {k : Script} (hk : scriptNamed st.script = some k) (hg : st.grouped = true ↔ k = .group)
    (h : submitStage ops answers log w st = (log', .ok l)) :
    ∃ new N, log' = log ++ new ∧ (∀ s ∈ new, s.module = st.module ∧ s.wait = w ∧ s.script = k) ∧ Operations ops st.module N ∧ 0 < N ∧
      allPerformed ops new = once st.module N ∧ l = idsFrom ids log.length new.length := by
  unfold submitStage at h
  cases hgr : st.grouped with
  | true =>
    have := hg.1 hgr
    subst this
    rw [hgr, if_pos rfl] at h
    obtain ⟨N, new, hN, hp, h1, h2, -, h4⟩ := c128_grouped hk h
    obtain ⟨new', h5, -⟩ := (c128_accepts ha log w hN hp hk).2 100 20 (by omega) (by omega)
    rw [h5] at h
    have h6 : log ++ new' = log' := congrArg Prod.fst h
    rw [h1] at h6
    have h7 := List.append_cancel_left h6
    subst h7
    refine ⟨new', N, h1, fun s hs => ⟨(h4 s hs).1, (h4 s hs).2.1, (h4 s hs).2.2.1⟩, hN, hp, h2, ?_⟩
    have h8 := congrArg Prod.snd h
    injection h8 with h8
    exact h8.symm
  | false =>
    have : k = .single := by
      cases k with
      | single => rfl
      | group => rw [hg.2 rfl] at hgr; cases hgr
    subst this
    rw [hgr, if_neg (by simp)] at h
    obtain ⟨N, new, hN, hp, h1, h2, -, h4⟩ := c128_jobs hk h
    obtain ⟨new', h5, -⟩ := (c128_accepts ha log w hN hp hk).1 366 (by omega)
    rw [h5] at h
    have h6 : log ++ new' = log' := congrArg Prod.fst h
    rw [h1] at h6
    have h7 := List.append_cancel_left h6
    subst h7
    refine ⟨new', N, h1, h4, hN, hp, h2, ?_⟩
    have h8 := congrArg Prod.snd h
    injection h8 with h8
    exact h8.symm

/-- The script by which a stage is run. -/
def stageKey (st : Stage) : String × Script := (st.module, if st.grouped then .group else .single)

theorem chain_chained {ops : List StoredOp} {answers : ℕ → Answer} {ids : ℕ → Text} (ha : Accepting answers ids) {log log' : List Submission}
    {w w' : Text} {stages : List Stage} (hk : ∀ st ∈ stages, scriptNamed st.script = some (stageKey st).2)
    (h : chain ops answers stages w log = (log', .ok w')) :
    ∃ L, log' = log ++ L ∧ Chained ops ids (stages.map stageKey) w log.length L := by
  induction stages generalizing w log with
  | nil =>
    simp only [chain, Prod.mk.injEq] at h
    exact ⟨[], by simp [h.1], rfl⟩
  | cons st sts ih =>
    rw [chain] at h
    cases hs : submitStage ops answers log w st with
    | mk log1 r =>
      rw [hs] at h
      cases r with
      | error e => cases h
      | ok l =>
        dsimp only at h
        have hk1 := hk st (by simp)
        obtain ⟨new, N, h1, h2, h3, h4, h5, h6⟩ := stage_block ha hk1 (by unfold stageKey; cases st.grouped <;> simp) hs
        subst h6
        obtain ⟨L, h7, h8⟩ := ih (fun s hs => hk s (by simp [hs])) h
        refine ⟨new ++ L, by rw [h7, h1, List.append_assoc], ?_⟩
        rw [h1, List.length_append] at h8
        exact ⟨new, L, N, rfl, h2, h3, h4, h5, h8⟩

/-! ### Order -/

theorem done_ran {ops : List StoredOp} {ids : ℕ → Text} {log : List Submission} {trace past future : List Event}
    (ht : Permitted ops ids log trace) (hs : trace = past ++ future) {j : ℕ} (hd : Done log past j) {s : Submission} (hj : log[j]? = some s)
    {e : ℤ} (he : e ∈ elements s) {p : ℕ} (hp : p < (commands ops s e).length) :
    (∃ ok, Event.ran j e p ok ∈ past) ∧ (s.script = .single → Event.ran j e p true ∈ past) := by
  obtain ⟨p1, p2, hp12⟩ := List.append_of_mem (hd s hj e he)
  obtain ⟨s', hj', -, outs, hlen, hex, hran⟩ := ht.ends p1 (p2 ++ future) j e (by rw [hs, hp12]; simp)
  rw [hj] at hj'
  injection hj' with hj'
  subst hj'
  have hsub : ∀ x ∈ p1, x ∈ past := fun x hx => by rw [hp12]; simp [hx]
  have hpo : p < outs.length := by omega
  refine ⟨⟨outs[p], hsub _ (hran p outs[p] (List.getElem?_eq_getElem hpo))⟩, ?_⟩
  intro hsc
  have hc : (commands ops s e).length = 1 := by unfold commands; rw [hsc]; rfl
  rw [hc] at hlen hp
  obtain ⟨o, rfl⟩ := List.length_eq_one_iff.1 hlen
  unfold exitOk at hex
  rw [hsc] at hex
  simp only [List.getLast?_singleton, Option.getD_some] at hex
  subst hex
  have : p = 0 := by omega
  subst this
  exact hsub _ (hran 0 true rfl)

/-- An event of a job, all operations of the block before being over. -/
def Over (ops : List StoredOp) (log : List Submission) (n k : ℕ) (past : List Event) : Prop :=
  ∀ j, n ≤ j → j < n + k → ∀ s, log[j]? = some s → ∀ e ∈ elements s, ∀ p < (commands ops s e).length,
    (∃ ok, Event.ran j e p ok ∈ past) ∧ (s.script = .single → Event.ran j e p true ∈ past)

theorem over_direct {ops : List StoredOp} {answers : ℕ → Answer} {ids : ℕ → Text} (ha : Accepting answers ids) {log : List Submission}
    {trace past future : List Event} (ht : Permitted ops ids log trace) {j : ℕ} {e : ℤ} {p : ℕ} {ok : Bool}
    (hs : trace = past ++ .ran j e p ok :: future) {s : Submission} (hj : log[j]? = some s) {n k : ℕ}
    (hw : s.wait = doneCondition (idsFrom ids n k)) : Over ops log n k past := by
  obtain ⟨s', a, hj', -, -, hwait⟩ := ht.waits past future j e p ok hs
  rw [hj] at hj'
  injection hj' with hj'
  subst hj'
  have hm : Means s.wait (idsFrom ids n k) := by
    rw [hw]
    apply means_done
    intro i hi
    unfold idsFrom at hi
    rw [List.mem_map] at hi
    obtain ⟨q, -, rfl⟩ := hi
    exact (ha.1 _).2.1
  intro j1 h1 h2 s1 hs1 e1 he1 p1 hp1
  refine done_ran ht hs (hwait _ hm j1 ?_) hs1 he1 hp1
  unfold idsFrom
  rw [List.mem_map]
  exact ⟨j1 - n, by rw [List.mem_range]; omega, by congr 1; omega⟩

/-- A block which performs something has a job with an element with a command. -/
theorem block_nonempty {ops : List StoredOp} {new : List Submission} {m : String} {N : ℕ} (hN : 0 < N) (h : allPerformed ops new = once m N) :
    ∃ (i : ℕ) (s : Submission) (e : ℤ), new[i]? = some s ∧ e ∈ elements s ∧ 0 < (commands ops s e).length := by
  have : (m, Except.ok ((0 : ℕ) : ℤ)) ∈ allPerformed ops new := by
    rw [h]
    unfold once
    rw [List.mem_map]
    exact ⟨0, List.mem_range.2 hN, rfl⟩
  unfold allPerformed at this
  rw [List.mem_flatMap] at this
  obtain ⟨s, hs, this⟩ := this
  rw [List.mem_flatMap] at this
  obtain ⟨e, he, this⟩ := this
  rw [List.mem_map] at this
  obtain ⟨a, ha, -⟩ := this
  obtain ⟨i, hi⟩ := List.mem_iff_getElem?.1 hs
  exact ⟨i, s, e, hi, he, List.length_pos_of_mem ha⟩

/-- When a job of a later block does something, the block is over. -/
theorem over_later {ops : List StoredOp} {answers : ℕ → Answer} {ids : ℕ → Text} (ha : Accepting answers ids) {log : List Submission}
    {trace : List Event} (ht : Permitted ops ids log trace) {ms : List (String × Script)} {n k : ℕ} {pre rest : List Submission}
    (hlog : log = pre ++ rest) (hpre : pre.length = n + k) (hc : Chained ops ids ms (doneCondition (idsFrom ids n k)) (n + k) rest)
    {past future : List Event} {j : ℕ} {e : ℤ} {p : ℕ} {ok : Bool} (hs : trace = past ++ .ran j e p ok :: future) (hj : n + k ≤ j) :
    Over ops log n k past := by
  induction ms generalizing n k pre rest with
  | nil =>
    have hr : rest = [] := hc
    obtain ⟨s, a, hjs, -⟩ := ht.waits past future j e p ok hs
    rw [hlog, hr, List.append_nil, List.getElem?_eq_none (by omega)] at hjs
    cases hjs
  | cons m ms ih =>
    obtain ⟨new, rest2, N, h1, h2, h3, h4, h5, h6⟩ := hc
    have first : ∀ {past future : List Event} {j : ℕ} {e : ℤ} {p : ℕ} {ok : Bool}, trace = past ++ .ran j e p ok :: future → n + k ≤ j →
        j < n + k + new.length → Over ops log n k past := by
      intro past future j e p ok hs hj hj2
      have hjs : log[j]? = some new[j - (n + k)] := by
        rw [hlog, h1, List.getElem?_append_right (by omega), List.getElem?_append_left (by omega), hpre,
          List.getElem?_eq_getElem (by omega)]
      exact over_direct ha ht hs hjs (h2 _ (List.getElem_mem _)).2.1
    by_cases hj2 : j < n + k + new.length
    · exact first hs hj hj2
    · have hov := ih (n := n + k) (k := new.length) (pre := pre ++ new) (rest := rest2) (by rw [hlog, h1, List.append_assoc])
        (by rw [List.length_append, hpre]) h6 (by omega)
      obtain ⟨i, s, e1, hi, he1, hp1⟩ := block_nonempty h4 h5
      have hil : i < new.length := by
        by_contra hc
        rw [List.getElem?_eq_none (by omega)] at hi
        cases hi
      have hls : log[n + k + i]? = some s := by
        rw [hlog, h1, List.getElem?_append_right (by omega), hpre, Nat.add_sub_cancel_left, List.getElem?_append_left hil, hi]
      obtain ⟨⟨ok', hr⟩, -⟩ := hov (n + k + i) (by omega) (by omega) s hls e1 he1 0 hp1
      obtain ⟨p1, p2, hp12⟩ := List.append_of_mem hr
      have := first (past := p1) (future := p2 ++ .ran j e p ok :: future) (j := n + k + i) (e := e1) (p := 0) (ok := ok') (by rw [hs, hp12]; simp) (by omega)
        (show n + k + i < n + k + new.length by omega)
      intro j1 hj1 hj1' s1 hs1 e2 he2 q hq
      obtain ⟨⟨ok2, ho⟩, hsg⟩ := this j1 hj1 hj1' s1 hs1 e2 he2 q hq
      have hsub : ∀ x ∈ p1, x ∈ past := fun x hx => by rw [hp12]; simp [hx]
      exact ⟨⟨ok2, hsub _ ho⟩, fun h => hsub _ (hsg h)⟩

theorem chained_split {ops : List StoredOp} {ids : ℕ → Text} {as bs : List (String × Script)} {w : Text} {n : ℕ} {L : List Submission}
    (h : Chained ops ids (as ++ bs) w n L) : ∃ LA LB w', L = LA ++ LB ∧ (∀ s ∈ LA, ∃ a ∈ as, s.module = a.1) ∧
      Chained ops ids bs w' (n + LA.length) LB := by
  induction as generalizing w n L with
  | nil => exact ⟨[], L, w, rfl, by simp, by simpa using h⟩
  | cons a as ih =>
    obtain ⟨new, rest, N, h1, h2, -, -, -, h6⟩ := h
    obtain ⟨LA, LB, w', h7, h8, h9⟩ := ih h6
    refine ⟨new ++ LA, LB, w', by rw [h1, h7, List.append_assoc], ?_, by rw [List.length_append, ← Nat.add_assoc]; exact h9⟩
    intro s hs
    rw [List.mem_append] at hs
    rcases hs with hs | hs
    · exact ⟨a, by simp, (h2 s hs).1⟩
    · obtain ⟨b, hb, hb2⟩ := h8 s hs
      exact ⟨b, by simp [hb], hb2⟩

/-- The order of modules in a chain of stages: nothing of a module is done before everything of the modules before it is over, and has
succeeded if it is run by single operations. -/
theorem chained_order {ops : List StoredOp} {answers : ℕ → Answer} {ids : ℕ → Text} (ha : Accepting answers ids) {log : List Submission}
    {trace : List Event} (ht : Permitted ops ids log trace) {as bs : List (String × Script)} {a : String × Script} {w : Text}
    (hc : Chained ops ids (as ++ a :: bs) w 0 log) {m : String} (hm : ∀ x ∈ as ++ [a], x.1 ≠ m)
    {past future : List Event} {ev : Event} {q : ℤ} {ok : Bool} (hs : trace = past ++ ev :: future) (hev : Performs ops log m q ok ev)
    {N : ℕ} (hN : Operations ops a.1 N) {q' : ℕ} (hq : q' < N) :
    ∃ ev' ∈ past, ∃ ok', Performs ops log a.1 q' ok' ev' ∧ (a.2 = .single → ok' = true) := by
  obtain ⟨j, e, p, s, c, rfl, hj, hjm, he, hcmd, hperf⟩ := hev
  obtain ⟨LA, LB, w', h1, h2, h3⟩ := chained_split hc
  rw [Nat.zero_add] at h3
  obtain ⟨new, rest, N', h4, h5, h6, -, h7, h8⟩ := h3
  have := operations_unique hN h6
  subst this
  have hge : LA.length + new.length ≤ j := by
    by_contra hlt
    have hin : s ∈ LA ++ new := by
      rw [List.mem_iff_getElem?]
      refine ⟨j, ?_⟩
      have e1 : log = (LA ++ new) ++ rest := by rw [h1, h4, List.append_assoc]
      rw [← hj, e1, List.getElem?_append_left (l₁ := LA ++ new) (by rw [List.length_append]; omega)]
    rw [List.mem_append] at hin
    rcases hin with hin | hin
    · obtain ⟨x, hx, hx2⟩ := h2 s hin
      exact hm x (by simp [hx]) (by rw [← hx2, hjm])
    · exact hm a (by simp) (by rw [← (h5 s hin).1, hjm])
  have hov := over_later ha ht (pre := LA ++ new) (by rw [h1, h4, List.append_assoc]) (by rw [List.length_append]) h8 hs hge
  have hmem : (a.1, Except.ok ((q' : ℕ) : ℤ)) ∈ allPerformed ops new := by
    rw [h7]
    unfold once
    rw [List.mem_map]
    exact ⟨q', List.mem_range.2 hq, rfl⟩
  unfold allPerformed at hmem
  rw [List.mem_flatMap] at hmem
  obtain ⟨s1, hs1, hmem⟩ := hmem
  rw [List.mem_flatMap] at hmem
  obtain ⟨e1, he1, hmem⟩ := hmem
  rw [List.mem_map] at hmem
  obtain ⟨c1, hc1, hmem⟩ := hmem
  rw [Prod.mk.injEq] at hmem
  obtain ⟨i, hi⟩ := List.mem_iff_getElem?.1 hs1
  obtain ⟨p1, hp1⟩ := List.mem_iff_getElem?.1 hc1
  have hil : i < new.length := by
    by_contra hc
    rw [List.getElem?_eq_none (by omega)] at hi
    cases hi
  have hpl : p1 < (commands ops s1 e1).length := by
    by_contra hc
    rw [List.getElem?_eq_none (by omega)] at hp1
    cases hp1
  have hls : log[LA.length + i]? = some s1 := by
    rw [h1, h4, List.getElem?_append_right (by omega), Nat.add_sub_cancel_left, List.getElem?_append_left hil, hi]
  obtain ⟨⟨ok1, ho1⟩, ho2⟩ := hov (LA.length + i) (by omega) (by omega) s1 hls e1 he1 p1 hpl
  have mk : ∀ b, Performs ops log a.1 q' b (.ran (LA.length + i) e1 p1 b) := fun b =>
    ⟨_, _, _, s1, c1, rfl, hls, (h5 s1 hs1).1, he1, hp1, hmem.2⟩
  by_cases hsg : a.2 = .single
  · exact ⟨_, ho2 (by rw [(h5 s1 hs1).2.2, hsg]), true, mk true, fun _ => rfl⟩
  · exact ⟨_, ho1, ok1, mk ok1, fun h => absurd h hsg⟩

end Verif.Eustace.Submit
