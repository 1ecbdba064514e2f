import Verif.Eustace.Optimise.Model
import Verif.Eustace.Components.Props

/-!
C155: a component whose solution is delayed, from observations to states.
-/

namespace Verif.Eustace.Optimise

open Verif Matrix Verif.Eustace.Linear Verif.Eustace.Components

noncomputable section

/-! ### Specification -/

/-- What the observations of a day say about the state of one component on this day, the other components given: twice the
negative logarithm of the posterior density, up to a constant. -/
def dayCost {A : Analysis} (J : Designs A) (X : Assignment A) (k : Fin A.K) (obs : List Obs) (x : Vec (A.comp k).n) : ℝ :=
  quad (A.comp k).prior x + (obs.map fun o => quad o.R (o.y - predict J (Function.update X k fun _ => x) o)).sum

/-- The days in order, each with its loaders. -/
def dsDays (A : Analysis) (k : Fin A.K) : List (Int × List Loader) → Store A → Except PyErr (Store A)
  | [], S => .ok S
  | p :: rest, S =>
    match dsTime A p.2 k p.1 S with
    | .error e => .error e
    | .ok S => dsDays A k rest S

/-! ### Lemmas -/

variable {A : Analysis}

theorem dsLoaders_eq (S : Store A) (k : Fin A.K)
    {J : ∀ o : Obs, Matrix (Fin o.m) (Fin (A.comp k).n) ℝ} (hJ : IsLinear (A.comp k) J) (t : Int)
    (ls : List Loader) (ht : ∀ l ∈ ls, (l t).time = t)
    (st : Storage (A.comp k).n) (sol : STSolution (A.comp k).n) (hs : sol.time = none ∨ sol.time = some t) :
    dsLoaders A S k t ls (st, sol) = .ok (st,
      ⟨((dayData ls t).map fun o => (batchOf J (subtractOffset A S k) o).update).foldl accum sol.measurement,
        if dayData ls t = [] then sol.time else some t⟩) := by
  induction ls generalizing sol with
  | nil => rfl
  | cons l ls ih =>
    have htl := ht l (by simp)
    have ih := ih (fun l hl => ht l (by simp [hl]))
    rw [dsLoaders, dayData_cons]
    by_cases hm : 0 < (l t).m
    · rw [if_pos hm, if_pos hm]
      have hp : dsProcess (A.comp k).toElement st sol (l t) (subtractOffset A S k (l t)) =
          .ok (st, ⟨accum sol.measurement (batchOf J (subtractOffset A S k) (l t)).update, some t⟩) := by
        have hlin : dsLinearise (A.comp k).toElement st (l t).time (l t) ((l t).y - subtractOffset A S k (l t)) =
            (st, st.states (l t).time, (l t).y - subtractOffset A S k (l t)) := by
          simp [dsLinearise, hJ.linear]
        have hu : createFromSystem ((A.comp k).jacobian (l t) (st.states (l t).time)) (l t).R
            ((l t).y - subtractOffset A S k (l t)) = (batchOf J (subtractOffset A S k) (l t)).update := by
          rw [hJ.jacobian]; rfl
        unfold dsProcess
        dsimp only
        rw [hlin]
        dsimp only
        rw [hu, htl]
        rw [if_neg (by rcases hs with h | h <;> simp [h])]
        cases sol.measurement <;> simp [accum]
      rw [hp]
      dsimp only
      rw [ih _ (Or.inr rfl)]
      simp
    · rw [if_neg hm, if_neg hm]
      exact ih sol hs

/-- What is stored for a day. -/
def dayEntry {k : Fin A.K} (J : ∀ o : Obs, Matrix (Fin o.m) (Fin (A.comp k).n) ℝ) (S : Store A) (p : Int × List Loader) :
    Option Int × Option (Update (A.comp k).n) :=
  (if dayData p.2 p.1 = [] then none else some p.1,
    ((dayData p.2 p.1).map fun o => (batchOf J (subtractOffset A S k) o).update).foldl accum none)

theorem dsDays_eq (k : Fin A.K) {J : ∀ o : Obs, Matrix (Fin o.m) (Fin (A.comp k).n) ℝ} (hJ : IsLinear (A.comp k) J)
    (input : List (Int × List Loader)) (hi : ∀ p ∈ input, p.2 ≠ [] ∧ ∀ l ∈ p.2, (l p.1).time = p.1) (S : Store A) :
    dsDays A k input S = .ok (Function.update S k { S k with
      measurement := (input.map (dayEntry J S)).foldl (fun d e => dictWrite e.1 e.2 d) (S k).measurement }) := by
  induction input generalizing S with
  | nil => simp [dsDays]
  | cons p rest ih =>
    have hp := hi p (by simp)
    have htime : dsTime A p.2 k p.1 S = .ok (Function.update S k { S k with
        measurement := dictWrite (dayEntry J S p).1 (dayEntry J S p).2 (S k).measurement }) := by
      unfold dsTime
      rw [if_neg hp.1, dsLoaders_eq S k hJ p.1 p.2 hp.2 (S k) _ (Or.inl rfl)]
      rfl
    rw [dsDays, htime]
    dsimp only
    rw [ih fun q hq => hi q (by simp [hq])]
    have hoff : ∀ v, subtractOffset A (Function.update S k v) k = subtractOffset A S k := by
      intro v
      funext o
      exact offset_congr (fun j hj => by simp [hj]) o
    have he : ∀ v, dayEntry J (Function.update S k v) = dayEntry J S := by
      intro v
      funext q
      simp only [dayEntry, hoff]
    simp only [he, Function.update_self, Function.update_idem, List.map_cons, List.foldl_cons]

theorem dictWrite_new {α β : Type} [DecidableEq α] (k : α) (v : β) (d : List (α × β)) (h : k ∉ d.map Prod.fst) :
    dictWrite k v d = d ++ [(k, v)] := by
  induction d with
  | nil => rfl
  | cons p d ih =>
    obtain ⟨a, b⟩ := p
    simp only [List.map_cons, List.mem_cons, not_or] at h
    rw [dictWrite, if_neg (fun e => h.1 e.symm), ih h.2]
    rfl

theorem writes_new {α β : Type} [DecidableEq α] (es d : List (α × β)) (h : ((d ++ es).map Prod.fst).Nodup) :
    es.foldl (fun d e => dictWrite e.1 e.2 d) d = d ++ es := by
  induction es generalizing d with
  | nil => simp
  | cons e es ih =>
    rw [List.foldl_cons, dictWrite_new]
    · rw [ih]
      · simp
      · simpa using h
    · intro hm
      rw [List.map_append, List.nodup_append] at h
      exact h.2.2 _ hm e.1 (by simp) rfl

/-- The solutions of measurements with different days. -/
theorem dsSolve_eq (c : Element) (hl : c.nonlinear = false) (opt : Options) (approximated : System c.n → Vec c.n)
    (es : List (Int × Update c.n)) (hn : (es.map Prod.fst).Nodup) (st : Storage c.n) :
    ∃ st', dsSolve c opt approximated (es.map fun e => (some e.1, some e.2)) st = .ok st' ∧
      (∀ e ∈ es, st'.states e.1 = some ((System.new c.prior).append e.2).maximumAPosteriori ∧
        st'.stds e.1 = (match stdWritten opt approximated ((System.new c.prior).append e.2) with
          | none => st.stds e.1
          | some x => some x)) ∧
      (∀ t, t ∉ es.map Prod.fst → st'.states t = st.states t ∧ st'.stds t = st.stds t) ∧
      st'.state = st.state ∧ st'.std = st.std ∧ st'.measurement = st.measurement := by
  induction es generalizing st with
  | nil => exact ⟨st, rfl, by simp, by simp, rfl, rfl, rfl⟩
  | cons e es ih =>
    simp only [List.map_cons, List.nodup_cons] at hn
    obtain ⟨st', h1, h2, h3, h4⟩ := ih hn.2 { st with
        states := fun v => if v = e.1 then some ((System.new c.prior).append e.2).maximumAPosteriori else st.states v
        stds := fun v => if v = e.1 then (match stdWritten opt approximated ((System.new c.prior).append e.2) with
          | none => st.stds e.1
          | some x => some x) else st.stds v }
    refine ⟨st', ?_, ?_, ?_, h4⟩
    · simp only [List.map_cons, dsSolve, hl, Bool.false_eq_true, if_false]
      exact h1
    · intro f hf
      rcases List.mem_cons.1 hf with rfl | hf
      · obtain ⟨g1, g2⟩ := h3 f.1 hn.1
        rw [g1, g2]
        simp
      · obtain ⟨g1, g2⟩ := h2 f hf
        have hne : f.1 ≠ e.1 := fun heq => hn.1 (heq ▸ List.mem_map_of_mem hf)
        refine ⟨g1, ?_⟩
        rw [g2]
        simp [hne]
    · intro t ht
      simp only [List.map_cons, List.mem_cons, not_or] at ht
      obtain ⟨g1, g2⟩ := h3 t ht.2
      rw [g1, g2]
      simp [ht.1]

/-- The system which belongs to what is stored for a day. -/
theorem entry_system {k : Fin A.K} (J : ∀ o : Obs, Matrix (Fin o.m) (Fin (A.comp k).n) ℝ) (S : Store A)
    (p : Int × List Loader) (hd : HasData p.2 p.1) : ∃ u, dayEntry J S p = (some p.1, some u) ∧
      (System.new (A.comp k).prior).append u =
        systemOf (A.comp k).prior ((dayData p.2 p.1).map (batchOf J (subtractOffset A S k))) := by
  have hne := (hasData_iff p.2 p.1).1 hd
  have hsome : (((dayData p.2 p.1).map fun o => (batchOf J (subtractOffset A S k) o).update).foldl accum none).isSome :=
    accum_isSome _ _ (Or.inr (by simpa using hne))
  obtain ⟨u, hu⟩ := Option.isSome_iff_exists.1 hsome
  refine ⟨u, ?_, ?_⟩
  · unfold dayEntry
    rw [if_neg hne, hu]
  · have h := accum_getD ((dayData p.2 p.1).map fun o => (batchOf J (subtractOffset A S k) o).update) none
    rw [hu] at h
    simp only [Option.getD_some, Option.getD_none] at h
    have h2 := foldl_append ((dayData p.2 p.1).map fun o => (batchOf J (subtractOffset A S k) o).update)
      (System.new (A.comp k).prior)
    have h3 : systemOf (A.comp k).prior ((dayData p.2 p.1).map (batchOf J (subtractOffset A S k))) =
        ((dayData p.2 p.1).map fun o => (batchOf J (subtractOffset A S k) o).update).foldl System.append
          (System.new (A.comp k).prior) := by
      rw [systemOf, List.foldl_map, List.foldl_map]
    rw [h3, h2, h]
    simp only [System.append, System.new, append_blank]

/-- The cost of a day in terms of batches. -/
theorem dayCost_eq {J : Designs A} (hJ : ∀ k, IsLinear (A.comp k) (J k)) (S : Store A) (k : Fin A.K) (ls : List Loader)
    (t : Int) (x : Vec (A.comp k).n) : dayCost J (statesOf S) k (dayObs ls t) x =
      cost (A.comp k).prior ((dayData ls t).map (batchOf (J k) (subtractOffset A S k))) x := by
  unfold dayCost cost
  congr 1
  rw [sum_filter_obs _ _ (fun o ho => quad_no_obs o ho _), List.map_map]
  refine congrArg List.sum (List.map_congr_left fun o _ => ?_)
  rw [offset_others hJ]
  simp only [Function.comp, Batch.misfit, batchOf]
  rw [predict_split J _ k, others_update, Function.update_self, ← sub_sub]
  rfl

/-! ### What holds -/

/-- **C155.**  Days with observations, each with its loaders, are processed one by one and then solved.  Afterwards the
component has for each of them the one state which is most probable given the observations of that day and the other
components; the states of other days, and the other components, are as before. -/
theorem c155_solution {J : Designs A} (hJ : ∀ k, IsLinear (A.comp k) (J k)) (k : Fin A.K) (hQ : (A.comp k).prior.PosDef)
    (input : List (Int × List Loader)) (hn : (input.map Prod.fst).Nodup) (hd : ∀ p ∈ input, HasData p.2 p.1)
    (ht : ∀ p ∈ input, ∀ l ∈ p.2, (l p.1).time = p.1) (hR : ∀ p ∈ input, ∀ l ∈ p.2, (l p.1).R.PosSemidef)
    (S : Store A) (he : (S k).measurement = []) (opt : Options) (approximated : System (A.comp k).n → Vec (A.comp k).n) :
    ∃ S₁ st, dsDays A k input S = .ok S₁ ∧ dsUpdate (A.comp k).toElement opt approximated (S₁ k) = .ok st ∧
      (∀ j, j ≠ k → S₁ j = S j) ∧
      (∀ p ∈ input, ∃ x, st.states p.1 = some x ∧
        ∀ z, z ≠ x → dayCost J (statesOf S) k (dayObs p.2 p.1) x < dayCost J (statesOf S) k (dayObs p.2 p.1) z) ∧
      ∀ t, t ∉ input.map Prod.fst → st.states t = (S k).states t ∧ st.stds t = (S k).stds t := by
  have hu : ∀ p : Int × List Loader, ∃ u, p ∈ input → dayEntry (J k) S p = (some p.1, some u) ∧
      (System.new (A.comp k).prior).append u =
        systemOf (A.comp k).prior ((dayData p.2 p.1).map (batchOf (J k) (subtractOffset A S k))) := by
    intro p
    by_cases hp : p ∈ input
    · obtain ⟨u, h⟩ := entry_system (J k) S p (hd p hp)
      exact ⟨u, fun _ => h⟩
    · exact ⟨createBlank _, fun h => absurd h hp⟩
  choose u hu using hu
  have hmap : input.map (dayEntry (J k) S) = (input.map fun p => (p.1, u p)).map fun e => (some e.1, some e.2) := by
    rw [List.map_map]
    exact List.map_congr_left fun p hp => (hu p hp).1
  have hkeys : ((input.map fun p => (p.1, u p)).map Prod.fst) = input.map Prod.fst := by
    rw [List.map_map]
    rfl
  have h1 := dsDays_eq k (hJ k) input (fun p hp => ⟨fun h0 => by
    obtain ⟨l, hl, -⟩ := hd p hp
    rw [h0] at hl
    exact absurd hl (by simp), ht p hp⟩) S
  rw [he, writes_new _ _ (by
    rw [List.nil_append, hmap, List.map_map]
    have : (input.map fun p => (p.1, u p)).map (Prod.fst ∘ fun e : Int × Update (A.comp k).n => (some e.1, some e.2)) =
        (input.map Prod.fst).map some := by
      rw [List.map_map, List.map_map]
      rfl
    rw [this]
    exact hn.map (Option.some_injective _)), List.nil_append, hmap] at h1
  obtain ⟨st, h2, h3, h4, -⟩ := dsSolve_eq (A.comp k).toElement (hJ k).linear opt approximated
    (input.map fun p => (p.1, u p)) (by rw [hkeys]; exact hn)
    { S k with measurement := (input.map fun p => (p.1, u p)).map fun e => (some e.1, some e.2) }
  refine ⟨_, st, h1, ?_, fun j hj => by simp [hj], ?_, ?_⟩
  · unfold dsUpdate
    rw [Function.update_self]
    exact h2
  · intro p hp
    refine ⟨_, (h3 (p.1, u p) (List.mem_map.2 ⟨p, hp, rfl⟩)).1, ?_⟩
    intro z hz
    dsimp only at hz ⊢
    rw [(hu p hp).2] at hz ⊢
    rw [dayCost_eq hJ, dayCost_eq hJ]
    refine c32_minimiser _ _ hQ ?_ z hz
    intro b hb
    obtain ⟨o, ho, rfl⟩ := List.mem_map.1 hb
    simp only [dayData, dayObs, List.mem_filter, List.mem_map] at ho
    obtain ⟨⟨l, hl, rfl⟩, -⟩ := ho
    exact hR p hp l hl
  · intro t hnt
    exact h4 t (by rw [hkeys]; exact hnt)

/-- **C155, route.**  The states are those of a spatial component, which solves every day at once. -/
theorem c155_same_route {J : Designs A} (hJ : ∀ k, IsLinear (A.comp k) (J k)) (k : Fin A.K) (hk : (A.comp k).kind = .spatial)
    (hQ : (A.comp k).prior.PosDef) (loaders : List Loader) (times : List Int) (hn : times.Nodup) (hne : loaders ≠ [])
    (hd : ∀ t ∈ times, HasData loaders t) (ht : ∀ t ∈ times, ∀ l ∈ loaders, (l t).time = t)
    (hR : ∀ t ∈ times, ∀ l ∈ loaders, (l t).R.PosSemidef)
    (S : Store A) (he : (S k).measurement = []) (opt : Options) (approximated : System (A.comp k).n → Vec (A.comp k).n) :
    ∃ S₁ st S₂, dsDays A k (times.map fun t => (t, loaders)) S = .ok S₁ ∧
      dsUpdate (A.comp k).toElement opt approximated (S₁ k) = .ok st ∧ updateComponent A loaders times k S = .ok S₂ ∧
      st.states = (S₂ k).states := by
  have hfst : (times.map fun t => (t, loaders)).map Prod.fst = times := by simp [Function.comp_def]
  have hm : ∀ p ∈ times.map fun t => (t, loaders), p.1 ∈ times ∧ p.2 = loaders := by
    intro p hp
    obtain ⟨t, ht, rfl⟩ := List.mem_map.1 hp
    exact ⟨ht, rfl⟩
  obtain ⟨S₁, st, h1, h2, -, h3, h4⟩ := c155_solution hJ k hQ (times.map fun t => (t, loaders)) (by rw [hfst]; exact hn)
    (fun p hp => by rw [(hm p hp).2]; exact hd _ (hm p hp).1)
    (fun p hp => by rw [(hm p hp).2]; exact ht _ (hm p hp).1)
    (fun p hp => by rw [(hm p hp).2]; exact hR _ (hm p hp).1) S he opt approximated
  obtain ⟨st₂, g1, g2, -⟩ := updateComponent_spatial k hk (hJ k) loaders hne times (fun l hl t htt => ht t htt l hl) S
  refine ⟨S₁, st, _, h1, h2, g1, ?_⟩
  rw [Function.update_self]
  funext t
  rw [g2]
  by_cases htt : t ∈ times
  · rw [if_pos ⟨htt, hd t htt⟩]
    obtain ⟨x, hx1, hx2⟩ := h3 (t, loaders) (List.mem_map.2 ⟨t, htt, rfl⟩)
    dsimp only at hx1 hx2
    rw [hx1]
    congr 1
    by_contra hne'
    have hlt := hx2 _ (fun h => hne' h.symm)
    rw [dayCost_eq hJ, dayCost_eq hJ] at hlt
    have := c32_minimiser (A.comp k).prior ((dayData loaders t).map (batchOf (J k) (subtractOffset A S k))) hQ (by
      intro b hb
      obtain ⟨o, ho, rfl⟩ := List.mem_map.1 hb
      simp only [dayData, dayObs, List.mem_filter, List.mem_map] at ho
      obtain ⟨⟨l, hl, rfl⟩, -⟩ := ho
      exact hR t htt l hl) x hne'
    exact absurd (hlt.trans this) (lt_irrefl _)
  · rw [if_neg (fun h => htt h.1)]
    exact (h4 t (by rw [hfst]; exact htt)).1

/-- **C155, uncertainties.**  With the method EXACT, the uncertainties of each day are the marginal standard deviations. -/
theorem c155_exact {n : Nat} (printstats cu sample size : Val) (hcu : cu.truth = true) (approximated : System n → Vec n)
    (s : System n) :
    stdWritten (delayedOptions printstats cu (.text "EXACT") sample size) approximated s = some (marginalStdOf s) := by
  simp [stdWritten, delayedOptions, hcu]

/-- Such an argument. -/
example : (Val.number 1).truth = true := rfl

/-! ### What fails -/

/-- **C155 fails for uncertainties in the systems in use.**  Whatever is asked for, no uncertainties are stored, unless the
flag for samples is one of the names of the methods: the constructor is given its arguments by position, and the one for
statistics has been left out, so that the method is what was meant as the flag for samples. -/
theorem c155_uncertainties_violated {n : Nat} (cu method sample size : Val)
    (hs : ∀ text, sample ≠ .text text) (approximated : System n → Vec n) (s : System n) :
    stdWritten (systemOptions cu method sample size) approximated s = none := by
  simp [stdWritten, systemOptions, delayedOptions, hs]

/-- The arguments of the template: uncertainties are wanted, and the method is given. -/
example {n : Nat} (approximated : System n → Vec n) (s : System n) :
    stdWritten (systemOptions (.number 1) (.text "EXACT") (.number 0) (.number 5)) approximated s = none ∧
      stdWritten ⟨.bool false, .number 1, .text "EXACT", .number 0⟩ approximated s = some (marginalStdOf s) :=
  ⟨c155_uncertainties_violated _ _ _ _ (by simp) _ _, by simp [stdWritten, Val.truth]⟩

theorem dsSolve_none (c : Element) (hl : c.nonlinear = false) (opt : Options) (approximated : System c.n → Vec c.n)
    (es : List (Option Int × Option (Update c.n))) (hf : ∀ e ∈ es, e.1.isSome = e.2.isSome) (hm : ∃ e ∈ es, e.2 = none)
    (st : Storage c.n) : dsSolve c opt approximated es st = .error .attributeError := by
  induction es generalizing st with
  | nil => simp at hm
  | cons e es ih =>
    obtain ⟨a, b⟩ := e
    have h0 := hf (a, b) (by simp)
    dsimp only at h0
    cases b with
    | none => cases a <;> rfl
    | some u =>
      cases a with
      | none => simp at h0
      | some t =>
        simp only [dsSolve, hl, Bool.false_eq_true, if_false]
        refine ih (fun e he => hf e (by simp [he])) ?_ _
        obtain ⟨e, he, hn⟩ := hm
        rcases List.mem_cons.1 he with rfl | he
        · cases hn
        · exact ⟨e, he, hn⟩

theorem mem_writes {α β : Type} [DecidableEq α] (es d : List (α × β)) (hd : (d.map Prod.fst).Nodup) :
    ((es.foldl (fun d e => dictWrite e.1 e.2 d) d).map Prod.fst).Nodup ∧
    (∀ q ∈ es.foldl (fun d e => dictWrite e.1 e.2 d) d, q ∈ es ∨ q ∈ d) ∧
    ∀ q, (q ∈ es ∨ q ∈ d) → ∃ b, (q.1, b) ∈ es.foldl (fun d e => dictWrite e.1 e.2 d) d := by
  induction es generalizing d with
  | nil => exact ⟨hd, fun q hq => Or.inr hq, fun q hq => ⟨q.2, by simpa using hq⟩⟩
  | cons e es ih =>
    rw [List.foldl_cons]
    obtain ⟨h1, h2, h3⟩ := ih _ (dictWrite_nodup e.1 e.2 hd)
    refine ⟨h1, ?_, ?_⟩
    · intro q hq
      rcases h2 q hq with h | h
      · exact Or.inl (List.mem_cons_of_mem _ h)
      · rcases (dictWrite_mem e.1 e.2 hd q.1 q.2).1 h with ⟨g1, g2⟩ | ⟨-, g⟩
        · exact Or.inl (by simp [Prod.ext_iff, g1, g2])
        · exact Or.inr g
    · intro q hq
      by_cases hqe : q.1 = e.1
      · exact h3 (q.1, e.2) (Or.inr ((dictWrite_mem e.1 e.2 hd _ _).2 (Or.inl ⟨hqe, rfl⟩)))
      · rcases hq with hq | hq
        · rcases List.mem_cons.1 hq with rfl | hq
          · exact absurd rfl hqe
          · exact h3 q (Or.inl hq)
        · exact h3 q (Or.inr ((dictWrite_mem e.1 e.2 hd _ _).2 (Or.inr ⟨hqe, hq⟩)))

/-- **C155 fails for days without observations.**  As soon as one of the days has none, no day is solved: what is stored for it is
`None`, with the key `None`. -/
theorem c155_empty_day_violated (k : Fin A.K) {J : ∀ o : Obs, Matrix (Fin o.m) (Fin (A.comp k).n) ℝ}
    (hJ : IsLinear (A.comp k) J) (input : List (Int × List Loader))
    (hi : ∀ p ∈ input, p.2 ≠ [] ∧ ∀ l ∈ p.2, (l p.1).time = p.1) (hd : ∃ p ∈ input, ¬ HasData p.2 p.1)
    (S : Store A) (he : (S k).measurement = []) (opt : Options) (approximated : System (A.comp k).n → Vec (A.comp k).n) :
    ∃ S₁, dsDays A k input S = .ok S₁ ∧
      dsUpdate (A.comp k).toElement opt approximated (S₁ k) = .error .attributeError := by
  have hentry : ∀ p, (dayEntry J S p).1.isSome = (dayEntry J S p).2.isSome := by
    intro p
    by_cases h : dayData p.2 p.1 = []
    · simp [dayEntry, h]
    · obtain ⟨u, hu, -⟩ := entry_system J S p ((hasData_iff _ _).2 h)
      rw [hu]
      rfl
  refine ⟨_, dsDays_eq k hJ input hi S, ?_⟩
  unfold dsUpdate
  rw [Function.update_self, he]
  obtain ⟨-, h2, h3⟩ := mem_writes (input.map (dayEntry J S)) [] (by simp)
  have hf : ∀ e ∈ (input.map (dayEntry J S)).foldl (fun d e => dictWrite e.1 e.2 d) [], e.1.isSome = e.2.isSome := by
    intro e hm
    rcases h2 e hm with h | h
    · obtain ⟨p, -, rfl⟩ := List.mem_map.1 h
      exact hentry p
    · cases h
  refine dsSolve_none (A.comp k).toElement hJ.linear opt approximated _ hf ?_ _
  obtain ⟨p, hp, hnd⟩ := hd
  have hnil : dayData p.2 p.1 = [] := by
    by_contra h
    exact hnd ((hasData_iff _ _).2 h)
  obtain ⟨b, hb⟩ := h3 (dayEntry J S p) (Or.inl (List.mem_map_of_mem hp))
  refine ⟨_, hb, ?_⟩
  have := hf _ hb
  simp only [dayEntry, hnil, if_true, Option.isSome_none] at this
  exact Option.not_isSome_iff_eq_none.1 (by simp [← this])

/-- **C155 fails for a nonlinear element**: the first day which has a measurement is refused. -/
theorem c155_nonlinear_violated (c : Element) (hn : c.nonlinear = true) (opt : Options)
    (approximated : System c.n → Vec c.n) (t : Int) (u : Update c.n) (rest : List (Option Int × Option (Update c.n)))
    (st : Storage c.n) (hs : st.measurement = (some t, some u) :: rest) :
    dsUpdate c opt approximated st = .error .typeError := by
  simp [dsUpdate, hs, dsSolve, hn]

/-! ### A case which meets the hypotheses -/

/-- An analysis with a field for all times and a local field for each day, both observed directly. -/
noncomputable def twoFields : Analysis where
  K := 2
  comp k := ⟨⟨1, 1, false, fun _ x => fun _ => x 0, fun _ x => fun _ => |x 0|, fun _ _ => Matrix.of fun _ _ => 1, fun _ => 0⟩,
    if k = 0 then .spaceTime else .spatial, false⟩

/-- The local field. -/
def localField : Fin twoFields.K := (1 : Fin 2)

/-- The field for all times. -/
def fullField : Fin twoFields.K := (0 : Fin 2)

/-- No uncertainties, no samples. -/
def defaultOptions : Options := ⟨.bool false, .bool false, .bool false, .bool false⟩

/-- Designs of both. -/
noncomputable def twoDesigns : Designs twoFields := fun _ o => (Matrix.of fun _ _ => 1 : Matrix (Fin o.m) (Fin 1) ℝ)

/-- One observation, on whichever day is asked for. -/
noncomputable def oneObservation (y : ℝ) : Loader := fun t => ⟨t, 1, fun _ => (0, 0), fun _ => y, 1⟩

/-- The field for all times has been found before, the local one is new. -/
noncomputable def twoStore : Store twoFields := fun k =>
  (if k = fullField then ⟨some fun _ => (2 : ℝ), none, [], fun _ => none, fun _ => none⟩ else Storage.empty 1 : Storage 1)

theorem ones_mulVec (m : Nat) (x : Fin 1 → ℝ) :
    (fun _ => x 0) = (Matrix.of fun _ _ => 1 : Matrix (Fin m) (Fin 1) ℝ).mulVec x := by
  funext i
  simp [mulVec, dotProduct]

theorem twoFields_linear : ∀ k, IsLinear (twoFields.comp k) (twoDesigns k) := fun _ =>
  ⟨rfl, fun o x => ones_mulVec o.m x, fun _ _ => rfl⟩

theorem twoFields_prior : ((twoFields.comp localField).prior).PosDef := (Matrix.PosDef.one : (1 : Mat 1).PosDef)

theorem twoStore_local : twoStore localField = Storage.empty 1 := by
  have h : localField ≠ fullField := by
    intro h
    exact absurd (congrArg Fin.val h) (by decide)
  exact if_neg h

theorem twoStore_empty : (twoStore localField).measurement = [] := by
  rw [twoStore_local]
  rfl

/-- Two days, out of order, with one and two observations. -/
example : ∃ S₁ st, dsDays twoFields localField [(9, [oneObservation 3]), (4, [oneObservation 5, oneObservation 6])] twoStore = .ok S₁ ∧
    dsUpdate (twoFields.comp localField).toElement defaultOptions (fun _ => 0) (S₁ localField) = .ok st ∧ ∃ x y, st.states 9 = some x ∧
      st.states 4 = some y ∧ st.states 0 = none := by
  obtain ⟨S₁, st, h1, h2, -, h4, h5⟩ := c155_solution twoFields_linear localField twoFields_prior
    [(9, [oneObservation 3]), (4, [oneObservation 5, oneObservation 6])] (by decide)
    (by
      intro p hp
      simp only [List.mem_cons, List.not_mem_nil, or_false] at hp
      rcases hp with rfl | rfl
      · exact ⟨_, List.mem_cons_self, Nat.one_pos⟩
      · exact ⟨_, List.mem_cons_self, Nat.one_pos⟩)
    (by
      intro p hp l hl
      simp only [List.mem_cons, List.not_mem_nil, or_false] at hp
      rcases hp with rfl | rfl
      · simp only [List.mem_cons, List.not_mem_nil, or_false] at hl
        rw [hl]; rfl
      · simp only [List.mem_cons, List.not_mem_nil, or_false] at hl
        rcases hl with rfl | rfl <;> rfl)
    (by
      intro p hp l hl
      simp only [List.mem_cons, List.not_mem_nil, or_false] at hp
      rcases hp with rfl | rfl
      · simp only [List.mem_cons, List.not_mem_nil, or_false] at hl
        rw [hl]; exact (Matrix.PosSemidef.one : (1 : Mat 1).PosSemidef)
      · simp only [List.mem_cons, List.not_mem_nil, or_false] at hl
        rcases hl with rfl | rfl <;> exact (Matrix.PosSemidef.one : (1 : Mat 1).PosSemidef)) twoStore twoStore_empty defaultOptions
    (fun _ => 0)
  obtain ⟨x, hx, -⟩ := h4 _ List.mem_cons_self
  obtain ⟨y, hy, -⟩ := h4 _ (List.mem_cons_of_mem _ List.mem_cons_self)
  exact ⟨S₁, st, h1, h2, x, y, hx, hy, (h5 0 (by simp)).1.trans (by rw [twoStore_local]; rfl)⟩

end

end Verif.Eustace.Optimise
