import Verif.Eustace.Components.Lemmas
import Verif.Eustace.Linear.Props

/-!
Properties of the analysis system (C34, C35, C36 and part of C33).
-/

namespace Verif.Eustace.Components

open Matrix Verif.Eustace.Linear

theorem sum_if_ne {ι M : Type} [Fintype ι] [DecidableEq ι] [AddCommMonoid M] (f : ι → M) (k : ι) :
    ∑ j, f j = (∑ j, if j ≠ k then f j else 0) + f k := by
  have h : ∀ j, f j = (if j ≠ k then f j else 0) + (if j = k then f j else 0) := by
    intro j
    by_cases h : j = k <;> simp [h]
  rw [Finset.sum_congr rfl fun j _ => h j, Finset.sum_add_distrib]
  simp

/-! ### C36: residual of all other components -/

/-- C36: what is subtracted from the observations is the value of the whole analysis less the value of the
component being updated; it does not depend on the latter's own storage. -/
theorem c36_offset (A : Analysis) (S : Store A) (k : Fin A.K) (o : Obs) :
    subtractOffset A S k o = evaluateMap A S o - expectedValue (A.comp k) (S k) o ∧
    ∀ st, subtractOffset A (Function.update S k st) k o = subtractOffset A S k o := by
  constructor
  · rw [offset_eq, map_eq, eq_sub_iff_add_eq]
    exact (sum_if_ne _ k).symm
  · intro st
    exact offset_congr (fun j hj => by simp [hj]) o

/-! ### C35: block-wise minimisation -/

/-- Requirements on designs, priors and observations.  A space-time component needs observations on every
day (see `c81_empty_day_violated`). -/
structure Setup (A : Analysis) (J : Designs A) (loaders : List Loader) (times : List Int) : Prop where
  linear : ∀ k, IsLinear (A.comp k) (J k)
  prior : ∀ k, (A.comp k).prior.PosDef
  precision : ∀ l ∈ loaders, ∀ t ∈ times, (l t).R.PosSemidef
  time : ∀ l ∈ loaders, ∀ t ∈ times, (l t).time = t
  distinct : times.Nodup
  loader : loaders ≠ []
  data : ∀ k, (A.comp k).kind = .spaceTime → ∀ t ∈ times, HasData loaders t

/-- Measurements left by earlier updates belong to the times in use. -/
def Ready {A : Analysis} (times : List Int) (S : Store A) : Prop :=
  ∀ k, (A.comp k).kind = .spaceTime → Stored times (S k).measurement

theorem ready_empty (A : Analysis) (times : List Int) :
    Ready times (fun k => Storage.empty (A.comp k).n : Store A) := fun _ _ => by
  simp [Storage.empty, Stored]

/-- Value of all components but one. -/
def others {A : Analysis} (J : Designs A) (X : Assignment A) (k : Fin A.K) (o : Obs) : Vec o.m :=
  ∑ j, if j ≠ k then J j o *ᵥ X j (keyAt A j o.time) else 0

theorem predict_split {A : Analysis} (J : Designs A) (X : Assignment A) (k : Fin A.K) (o : Obs) :
    predict J X o = others J X k o + J k o *ᵥ X k (keyAt A k o.time) := by
  rw [predict, others, sum_if_ne _ k]

theorem others_update {A : Analysis} (J : Designs A) (X : Assignment A) (k : Fin A.K)
    (x : Option Int → Vec (A.comp k).n) (o : Obs) :
    others J (Function.update X k x) k o = others J X k o := by
  refine Finset.sum_congr rfl fun j _ => ?_
  by_cases h : j = k
  · simp [h]
  · simp [h]

theorem expectedValue_eq {A : Analysis} {J : Designs A} (hJ : ∀ k, IsLinear (A.comp k) (J k)) (S : Store A)
    (j : Fin A.K) (o : Obs) :
    expectedValue (A.comp j) (S j) o = J j o *ᵥ statesOf S j (keyAt A j o.time) := by
  unfold expectedValue keyAt
  cases hk : (A.comp j).kind with
  | spaceTime =>
    simp only [statesOf]
    cases h : (S j).state with
    | none => simp [(hJ j).linear]
    | some x => simp [(hJ j).function]
  | spatial =>
    simp only [statesOf]
    cases h : (S j).states o.time with
    | none => simp
    | some x => simp [(hJ j).function]

theorem offset_others {A : Analysis} {J : Designs A} (hJ : ∀ k, IsLinear (A.comp k) (J k)) (S : Store A)
    (k : Fin A.K) : subtractOffset A S k = others J (statesOf S) k := by
  funext o
  rw [offset_eq, others]
  refine Finset.sum_congr rfl fun j _ => ?_
  rw [expectedValue_eq hJ]

/-- C36 (value of the analysis): the pointwise output is the prediction of the sum of all components. -/
theorem c36_output {A : Analysis} {J : Designs A} (hJ : ∀ k, IsLinear (A.comp k) (J k)) (S : Store A)
    (o : Obs) : evaluateMap A S o = predict J (statesOf S) o := by
  rw [map_eq, predict]
  exact Finset.sum_congr rfl fun j _ => expectedValue_eq hJ S j o

/-- The part of the cost which the states of one component take part in. -/
def blockCost {A : Analysis} (J : Designs A) (loaders : List Loader) (times : List Int) (X : Assignment A)
    (k : Fin A.K) (x : Option Int → Vec (A.comp k).n) : ℝ :=
  ((keys A loaders times k).map fun κ => quad (A.comp k).prior (x κ)).sum +
    ((allObs loaders times).map fun o =>
      (batchOf (J k) (others J X k) o).misfit (x (keyAt A k o.time))).sum

/-- The part of the cost which it does not take part in. -/
def restCost {A : Analysis} (loaders : List Loader) (times : List Int) (X : Assignment A)
    (k : Fin A.K) : ℝ :=
  ∑ j, if j ≠ k then ((keys A loaders times j).map fun κ => quad (A.comp j).prior (X j κ)).sum else 0

theorem total_split {A : Analysis} (J : Designs A) (loaders : List Loader) (times : List Int)
    (X : Assignment A) (k : Fin A.K) (x : Option Int → Vec (A.comp k).n) :
    totalCost J loaders times (Function.update X k x) =
      restCost loaders times X k + blockCost J loaders times X k x := by
  rw [totalCost, blockCost, restCost, ← add_assoc]
  congr 1
  · rw [sum_if_ne _ k, Function.update_self]
    congr 1
    refine Finset.sum_congr rfl fun j hj => ?_
    by_cases h : j = k
    · simp [h]
    · rw [if_pos h, if_pos h, Function.update_of_ne h]
  · congr 1
    refine List.map_congr_left fun o _ => ?_
    rw [predict_split J _ k, others_update, Function.update_self, ← sub_sub]
    rfl

theorem quad_no_obs (o : Obs) (h : ¬ 0 < o.m) (v : Vec o.m) : quad o.R v = 0 := by
  rw [quad, dotProduct]
  exact Finset.sum_eq_zero fun i _ => absurd (Nat.lt_of_le_of_lt (Nat.zero_le _) i.isLt) h

theorem sum_filter_obs (l : List Obs) (f : Obs → ℝ) (h : ∀ o, ¬ 0 < o.m → f o = 0) :
    (l.map f).sum = ((l.filter fun o => 0 < o.m).map f).sum := by
  induction l with
  | nil => rfl
  | cons o l ih =>
    rw [List.map_cons, List.sum_cons, ih, List.filter_cons]
    by_cases ho : 0 < o.m
    · simp [ho]
    · simp [ho, h o ho]

theorem sum_flatMap {α β : Type} (l : List α) (g : α → List β) (f : β → ℝ) :
    ((l.flatMap g).map f).sum = (l.map fun a => ((g a).map f).sum).sum := by
  induction l with
  | nil => rfl
  | cons a l ih => simp [ih]

theorem misfit_no_obs {c : Comp} (J : ∀ o : Obs, Matrix (Fin o.m) (Fin c.n) ℝ)
    (off : ∀ o : Obs, Vec o.m) (o : Obs) (h : ¬ 0 < o.m) (x : Vec c.n) : (batchOf J off o).misfit x = 0 :=
  quad_no_obs o h _

theorem day_time {A : Analysis} {J : Designs A} {loaders : List Loader} {times : List Int}
    (hs : Setup A J loaders times) {t : Int} (ht : t ∈ times) {o : Obs} (ho : o ∈ dayData loaders t) :
    o.time = t ∧ o.R.PosSemidef := by
  simp only [dayData, dayObs, List.mem_filter, List.mem_map] at ho
  obtain ⟨⟨l, hl, rfl⟩, -⟩ := ho
  exact ⟨hs.time l hl t ht, hs.precision l hl t ht⟩

/-- Block cost of a space-time component. -/
theorem blockCost_spaceTime {A : Analysis} (J : Designs A) (loaders : List Loader) (times : List Int)
    (X : Assignment A) (k : Fin A.K) (hk : (A.comp k).kind = .spaceTime)
    (x : Option Int → Vec (A.comp k).n) :
    blockCost J loaders times X k x = cost (A.comp k).prior
      (times.flatMap fun t => (dayData loaders t).map (batchOf (J k) (others J X k))) (x none) := by
  have hkey : ∀ t, keyAt A k t = none := fun t => by simp [keyAt, hk]
  have hkeys : keys A loaders times k = [none] := by simp [keys, hk]
  rw [blockCost, cost, hkeys]
  congr 1
  · simp
  · rw [allObs, sum_flatMap, sum_flatMap]
    congr 1
    refine List.map_congr_left fun t _ => ?_
    rw [sum_filter_obs _ _ (fun o ho => misfit_no_obs _ _ o ho _), List.map_map]
    simp only [hkey]
    rfl

/-- Block cost of a spatial component: every day by itself. -/
theorem blockCost_spatial {A : Analysis} {J : Designs A} {loaders : List Loader} {times : List Int}
    (hs : Setup A J loaders times)
    (X : Assignment A) (k : Fin A.K) (hk : (A.comp k).kind = .spatial)
    (x : Option Int → Vec (A.comp k).n) :
    blockCost J loaders times X k x = ((times.filter fun t => HasData loaders t).map fun t =>
      cost (A.comp k).prior ((dayData loaders t).map (batchOf (J k) (others J X k))) (x (some t))).sum := by
  have hkey : ∀ t, keyAt A k t = some t := fun t => by simp [keyAt, hk]
  have hkeys : keys A loaders times k = (times.filter fun t => HasData loaders t).map some := by
    simp [keys, hk]
  have hobs : ((allObs loaders times).map fun o =>
      (batchOf (J k) (others J X k) o).misfit (x (keyAt A k o.time))).sum =
      ((times.filter fun t => HasData loaders t).map fun t =>
        (((dayData loaders t).map (batchOf (J k) (others J X k))).map fun b => b.misfit (x (some t))).sum).sum := by
    rw [allObs, sum_flatMap]
    have : ∀ ts : List Int, (∀ t ∈ ts, t ∈ times) → (ts.map fun t => ((dayObs loaders t).map fun o =>
        (batchOf (J k) (others J X k) o).misfit (x (keyAt A k o.time))).sum).sum =
      ((ts.filter fun t => HasData loaders t).map fun t =>
        (((dayData loaders t).map (batchOf (J k) (others J X k))).map fun b => b.misfit (x (some t))).sum).sum := by
      intro ts
      induction ts with
      | nil => intro _; rfl
      | cons t ts ih =>
        intro hts
        rw [List.map_cons, List.sum_cons, ih (fun u hu => hts u (by simp [hu])), List.filter_cons]
        have hday : ((dayObs loaders t).map fun o =>
            (batchOf (J k) (others J X k) o).misfit (x (keyAt A k o.time))).sum =
            (((dayData loaders t).map (batchOf (J k) (others J X k))).map
              fun b => b.misfit (x (some t))).sum := by
          rw [sum_filter_obs _ _ (fun o ho => misfit_no_obs _ _ o ho _), List.map_map]
          congr 1
          refine List.map_congr_left fun o ho => ?_
          rw [(day_time hs (hts t (by simp)) ho).1, hkey]
          rfl
        rw [hday]
        by_cases hd : HasData loaders t
        · simp [hd]
        · have : dayData loaders t = [] := by
            by_contra h
            exact hd ((hasData_iff loaders t).2 h)
          simp [hd, this]
    exact this times fun t ht => ht
  rw [blockCost, hobs, hkeys, List.map_map]
  simp only [cost]
  rw [List.sum_map_add]
  rfl

theorem statesOf_update {A : Analysis} (S : Store A) (k : Fin A.K) (st : Storage (A.comp k).n) :
    statesOf (Function.update S k st) = Function.update (statesOf S) k (fun κ =>
      match κ with
      | none => st.state.getD 0
      | some t => (st.states t).getD 0) := by
  funext j κ
  by_cases h : j = k
  · subst h
    cases κ <;> simp [statesOf]
  · rw [Function.update_of_ne h]
    cases κ <;> simp [statesOf, h]

theorem sum_lt_of_le {α : Type} (l : List α) (f g : α → ℝ) (h : ∀ a ∈ l, f a ≤ g a)
    (hex : ∃ a ∈ l, f a < g a) : (l.map f).sum < (l.map g).sum := by
  obtain ⟨a, ha, hlt⟩ := hex
  exact List.sum_lt_sum f g h ⟨a, ha, hlt⟩

/-- C35, one component: updating it succeeds, leaves all others as they are, and gives its states the values
which minimise the joint cost, every other choice being strictly worse. -/
theorem c35_component {A : Analysis} {J : Designs A} {loaders : List Loader} {times : List Int}
    (hs : Setup A J loaders times) (S : Store A) (hr : Ready times S) (k : Fin A.K) :
    ∃ S', updateComponent A loaders times k S = .ok S' ∧ Ready times S' ∧ (∀ j, j ≠ k → S' j = S j) ∧
      ∀ x : Option Int → Vec (A.comp k).n, (∃ κ ∈ keys A loaders times k, x κ ≠ statesOf S' k κ) →
        totalCost J loaders times (statesOf S') <
          totalCost J loaders times (Function.update (statesOf S) k x) := by
  cases hk : (A.comp k).kind with
  | spaceTime =>
    obtain ⟨st, h1, h2, -, h4, -, -⟩ := updateComponent_spaceTime k hk (hs.linear k) loaders times
      hs.distinct hs.time (hs.data k hk) S (hr k hk)
    refine ⟨_, h1, ?_, fun j hj => by simp [hj], ?_⟩
    · intro j hj
      by_cases hjk : j = k
      · subst hjk; rw [Function.update_self]; exact h4
      · rw [Function.update_of_ne hjk]; exact hr j hj
    · rintro x ⟨κ, hκ, hx⟩
      have hkeys : keys A loaders times k = [none] := by simp [keys, hk]
      rw [hkeys, List.mem_singleton] at hκ
      subst hκ
      rw [statesOf_update] at hx ⊢
      rw [total_split, total_split, blockCost_spaceTime J loaders times _ k hk,
        blockCost_spaceTime J loaders times _ k hk]
      simp only [Function.update_self, h2, Option.getD_some] at hx ⊢
      have hb : batches (J k) S loaders times =
          times.flatMap fun t => (dayData loaders t).map (batchOf (J k) (others J (statesOf S) k)) := by
        rw [batches, offset_others hs.linear]
      rw [hb] at hx ⊢
      apply add_lt_add_of_le_of_lt le_rfl
      refine c32_minimiser _ _ (hs.prior k) ?_ _ hx
      intro b hb
      rw [List.mem_flatMap] at hb
      obtain ⟨t, ht, hb⟩ := hb
      obtain ⟨o, ho, rfl⟩ := List.mem_map.1 hb
      exact (day_time hs ht ho).2
  | spatial =>
    obtain ⟨st, h1, h2, -, h3, -, h4⟩ := updateComponent_spatial k hk (hs.linear k) loaders
      hs.loader times hs.time S
    refine ⟨_, h1, ?_, fun j hj => by simp [hj], ?_⟩
    · intro j hj
      by_cases hjk : j = k
      · subst hjk; rw [hk] at hj; cases hj
      · rw [Function.update_of_ne hjk]; exact hr j hj
    · rintro x ⟨κ, hκ, hx⟩
      have hkeys : keys A loaders times k = (times.filter fun t => HasData loaders t).map some := by
        simp [keys, hk]
      rw [hkeys, List.mem_map] at hκ
      obtain ⟨t, ht, rfl⟩ := hκ
      rw [statesOf_update] at hx ⊢
      rw [total_split, total_split, blockCost_spatial hs _ k hk, blockCost_spatial hs _ k hk]
      apply add_lt_add_of_le_of_lt le_rfl
      simp only [Function.update_self] at hx
      have hval : ∀ u ∈ times.filter fun t => HasData loaders t, (st.states u).getD 0 =
          (systemOf (A.comp k).prior ((dayData loaders u).map
            (batchOf (J k) (others J (statesOf S) k)))).maximumAPosteriori := by
        intro u hu
        rw [List.mem_filter] at hu
        rw [h2, if_pos ⟨hu.1, by simpa using hu.2⟩, offset_others hs.linear]
        rfl
      have hpsd : ∀ u ∈ times.filter fun t => HasData loaders t, ∀ b ∈ (dayData loaders u).map
            (batchOf (J k) (others J (statesOf S) k)), b.R.PosSemidef := by
        intro u hu b hb
        rw [List.mem_filter] at hu
        obtain ⟨o, ho, rfl⟩ := List.mem_map.1 hb
        exact (day_time hs hu.1 ho).2
      apply sum_lt_of_le
      · intro u hu
        dsimp only
        rw [hval u hu]
        by_cases he : x (some u) = (systemOf (A.comp k).prior ((dayData loaders u).map
            (batchOf (J k) (others J (statesOf S) k)))).maximumAPosteriori
        · rw [he]
        · exact (c32_minimiser _ _ (hs.prior k) (hpsd u hu) _ he).le
      · refine ⟨t, ht, ?_⟩
        dsimp only
        rw [hval t ht] at hx ⊢
        exact c32_minimiser _ _ (hs.prior k) (hpsd t ht) _ hx

theorem total_agree {A : Analysis} {J : Designs A} {loaders : List Loader} {times : List Int}
    (hs : Setup A J loaders times) {X Y : Assignment A} (h : Agree loaders times X Y) :
    totalCost J loaders times X = totalCost J loaders times Y := by
  rw [totalCost, totalCost]
  congr 1
  · refine Finset.sum_congr rfl fun k _ => ?_
    congr 1
    exact List.map_congr_left fun κ hκ => by rw [h k κ hκ]
  · rw [allObs, sum_flatMap, sum_flatMap]
    congr 1
    refine List.map_congr_left fun t ht => ?_
    rw [sum_filter_obs _ (fun o => quad o.R (o.y - predict J X o)) (fun o ho => quad_no_obs o ho _),
      sum_filter_obs _ (fun o => quad o.R (o.y - predict J Y o)) (fun o ho => quad_no_obs o ho _)]
    congr 1
    refine List.map_congr_left fun o ho => ?_
    have hp : predict J X o = predict J Y o := by
      refine Finset.sum_congr rfl fun k _ => ?_
      congr 1
      apply h
      have hd : HasData loaders t := (hasData_iff loaders t).2 (List.ne_nil_of_mem ho)
      unfold keyAt keys
      cases (A.comp k).kind with
      | spaceTime => simp
      | spatial =>
        simp only [(day_time hs ht ho).1, List.mem_map, List.mem_filter]
        exact ⟨t, ⟨ht, by simpa using hd⟩, rfl⟩
    rw [hp]

/-- C35, one component: the joint cost never grows, and becomes smaller unless the estimated states stay
what they are. -/
theorem c35_decrease {A : Analysis} {J : Designs A} {loaders : List Loader} {times : List Int}
    (hs : Setup A J loaders times) (S : Store A) (hr : Ready times S) (k : Fin A.K) :
    ∃ S', updateComponent A loaders times k S = .ok S' ∧ Ready times S' ∧
      totalCost J loaders times (statesOf S') ≤ totalCost J loaders times (statesOf S) ∧
      (¬ Agree loaders times (statesOf S') (statesOf S) →
        totalCost J loaders times (statesOf S') < totalCost J loaders times (statesOf S)) := by
  obtain ⟨S', h1, h2, h3, h4⟩ := c35_component hs S hr k
  have hlt : ¬ Agree loaders times (statesOf S') (statesOf S) →
        totalCost J loaders times (statesOf S') < totalCost J loaders times (statesOf S) := by
    intro hn
    have h5 := h4 (statesOf S k)
    rw [Function.update_eq_self] at h5
    apply h5
    by_contra hno
    apply hn
    intro j κ hκ
    by_cases hj : j = k
    · subst hj
      by_contra hne
      exact hno ⟨κ, hκ, fun e => hne e.symm⟩
    · cases κ <;> simp [statesOf, h3 j hj]
  refine ⟨S', h1, h2, ?_, hlt⟩
  by_cases ha : Agree loaders times (statesOf S') (statesOf S)
  · exact (total_agree hs ha).le
  · exact (hlt ha).le

/-- C35, any sequence of component updates: never an error, and the joint cost never grows. -/
theorem c35_sequence {A : Analysis} {J : Designs A} {loaders : List Loader} {times : List Int}
    (hs : Setup A J loaders times) (ks : List (Fin A.K)) (S : Store A) (hr : Ready times S) :
    ∃ S', updateAll A loaders times ks S = .ok S' ∧ Ready times S' ∧
      totalCost J loaders times (statesOf S') ≤ totalCost J loaders times (statesOf S) := by
  induction ks generalizing S with
  | nil => exact ⟨S, rfl, hr, le_rfl⟩
  | cons k ks ih =>
    obtain ⟨S₁, h1, h2, h3, -⟩ := c35_decrease hs S hr k
    obtain ⟨S₂, h4, h5, h6⟩ := ih S₁ h2
    exact ⟨S₂, by rw [updateAll, h1]; exact h4, h5, h6.trans h3⟩

/-- C35, a whole iteration over all components. -/
theorem c35_update {A : Analysis} {J : Designs A} {loaders : List Loader} {times : List Int}
    (hs : Setup A J loaders times) (S : Store A) (hr : Ready times S) :
    ∃ S', update A loaders times S = .ok S' ∧ Ready times S' ∧
      totalCost J loaders times (statesOf S') ≤ totalCost J loaders times (statesOf S) :=
  c35_sequence hs _ S hr

/-! ### Joint optimum -/

/-- First order change of the cost. -/
def slope {A : Analysis} (J : Designs A) (loaders : List Loader) (times : List Int)
    (X H : Assignment A) : ℝ :=
  ∑ k, ((keys A loaders times k).map fun κ => H k κ ⬝ᵥ ((A.comp k).prior *ᵥ X k κ)).sum -
    ((allObs loaders times).map fun o => predict J H o ⬝ᵥ (o.R *ᵥ (o.y - predict J X o))).sum

/-- Second order change of the cost. -/
def curve {A : Analysis} (J : Designs A) (loaders : List Loader) (times : List Int) (H : Assignment A) : ℝ :=
  ∑ k, ((keys A loaders times k).map fun κ => quad (A.comp k).prior (H k κ)).sum +
    ((allObs loaders times).map fun o => quad o.R (predict J H o)).sum

theorem predict_add {A : Analysis} (J : Designs A) (X H : Assignment A) (o : Obs) :
    predict J (X + H) o = predict J X o + predict J H o := by
  simp only [predict, ← Finset.sum_add_distrib]
  refine Finset.sum_congr rfl fun k _ => ?_
  simp [mulVec_add]

theorem predict_smul {A : Analysis} (J : Designs A) (c : ℝ) (H : Assignment A) (o : Obs) :
    predict J (c • H) o = c • predict J H o := by
  simp only [predict, Finset.smul_sum]
  refine Finset.sum_congr rfl fun k _ => ?_
  simp [mulVec_smul]

theorem allObs_psd {A : Analysis} {J : Designs A} {loaders : List Loader} {times : List Int}
    (hs : Setup A J loaders times) {o : Obs} (ho : o ∈ allObs loaders times) : o.R.PosSemidef := by
  rw [allObs, List.mem_flatMap] at ho
  obtain ⟨t, ht, ho⟩ := ho
  obtain ⟨l, hl, rfl⟩ := List.mem_map.1 ho
  exact hs.precision l hl t ht

theorem total_add {A : Analysis} {J : Designs A} {loaders : List Loader} {times : List Int}
    (hs : Setup A J loaders times) (X H : Assignment A) :
    totalCost J loaders times (X + H) =
      totalCost J loaders times X + 2 * slope J loaders times X H + curve J loaders times H := by
  have h1 : ∑ k, ((keys A loaders times k).map fun κ => quad (A.comp k).prior ((X + H) k κ)).sum =
      ∑ k, ((keys A loaders times k).map fun κ => quad (A.comp k).prior (X k κ)).sum +
      2 * ∑ k, ((keys A loaders times k).map fun κ => H k κ ⬝ᵥ ((A.comp k).prior *ᵥ X k κ)).sum +
      ∑ k, ((keys A loaders times k).map fun κ => quad (A.comp k).prior (H k κ)).sum := by
    rw [Finset.mul_sum, ← Finset.sum_add_distrib, ← Finset.sum_add_distrib]
    refine Finset.sum_congr rfl fun k _ => ?_
    rw [← List.sum_map_mul_left, ← List.sum_map_add, ← List.sum_map_add]
    congr 1
    refine List.map_congr_left fun κ _ => ?_
    exact quad_add (sym_of_herm (hs.prior k).1) _ _
  have h2 : ((allObs loaders times).map fun o => quad o.R (o.y - predict J (X + H) o)).sum =
      ((allObs loaders times).map fun o => quad o.R (o.y - predict J X o)).sum +
      2 * (-((allObs loaders times).map fun o =>
        predict J H o ⬝ᵥ (o.R *ᵥ (o.y - predict J X o))).sum) +
      ((allObs loaders times).map fun o => quad o.R (predict J H o)).sum := by
    have hgen : ∀ l : List Obs, (∀ o ∈ l, o.R.PosSemidef) →
        (l.map fun o => quad o.R (o.y - predict J (X + H) o)).sum =
        (l.map fun o => quad o.R (o.y - predict J X o)).sum +
        2 * (-(l.map fun o => predict J H o ⬝ᵥ (o.R *ᵥ (o.y - predict J X o))).sum) +
        (l.map fun o => quad o.R (predict J H o)).sum := by
      intro l hl
      induction l with
      | nil => simp
      | cons o l ih =>
        simp only [List.map_cons, List.sum_cons]
        rw [ih fun o ho => hl o (by simp [ho]), predict_add, ← sub_sub,
          quad_sub (sym_of_herm (hl o (by simp)).1)]
        ring
    exact hgen _ fun o ho => allObs_psd hs ho
  rw [totalCost, h1, h2, totalCost, slope, curve]
  ring

theorem sum_nonneg_list {α : Type} (l : List α) (f : α → ℝ) (h : ∀ a ∈ l, 0 ≤ f a) : 0 ≤ (l.map f).sum :=
  List.sum_nonneg fun x hx => by
    obtain ⟨a, ha, rfl⟩ := List.mem_map.1 hx
    exact h a ha

theorem curve_nonneg {A : Analysis} {J : Designs A} {loaders : List Loader} {times : List Int}
    (hs : Setup A J loaders times) (H : Assignment A) : 0 ≤ curve J loaders times H := by
  apply add_nonneg
  · exact Finset.sum_nonneg fun k _ => sum_nonneg_list _ _ fun κ _ => quad_nonneg (hs.prior k).posSemidef _
  · exact sum_nonneg_list _ _ fun o ho => quad_nonneg (allObs_psd hs ho) _

theorem curve_pos {A : Analysis} {J : Designs A} {loaders : List Loader} {times : List Int}
    (hs : Setup A J loaders times) {H : Assignment A} (h : ¬ Agree loaders times H 0) :
    0 < curve J loaders times H := by
  unfold Agree at h
  push_neg at h
  obtain ⟨k, κ, hκ, hne⟩ := h
  apply add_pos_of_pos_of_nonneg
  · apply Finset.sum_pos'
    · exact fun k _ => sum_nonneg_list _ _ fun κ _ => quad_nonneg (hs.prior k).posSemidef _
    · refine ⟨k, Finset.mem_univ k, ?_⟩
      have := sum_lt_of_le (keys A loaders times k) (fun _ => (0 : ℝ))
        (fun κ => quad (A.comp k).prior (H k κ)) (fun κ _ => quad_nonneg (hs.prior k).posSemidef _)
        ⟨κ, hκ, quad_pos (hs.prior k) hne⟩
      simpa using this
  · exact sum_nonneg_list _ _ fun o ho => quad_nonneg (allObs_psd hs ho) _

theorem slope_add {A : Analysis} (J : Designs A) (loaders : List Loader) (times : List Int)
    (X H G : Assignment A) :
    slope J loaders times X (H + G) = slope J loaders times X H + slope J loaders times X G := by
  have h1 : ∑ k, ((keys A loaders times k).map fun κ =>
        (H + G) k κ ⬝ᵥ ((A.comp k).prior *ᵥ X k κ)).sum =
      ∑ k, ((keys A loaders times k).map fun κ => H k κ ⬝ᵥ ((A.comp k).prior *ᵥ X k κ)).sum +
      ∑ k, ((keys A loaders times k).map fun κ => G k κ ⬝ᵥ ((A.comp k).prior *ᵥ X k κ)).sum := by
    rw [← Finset.sum_add_distrib]
    refine Finset.sum_congr rfl fun k _ => ?_
    rw [← List.sum_map_add]
    congr 1
    exact List.map_congr_left fun κ _ => by simp [add_dotProduct]
  have h2 : ((allObs loaders times).map fun o =>
        predict J (H + G) o ⬝ᵥ (o.R *ᵥ (o.y - predict J X o))).sum =
      ((allObs loaders times).map fun o => predict J H o ⬝ᵥ (o.R *ᵥ (o.y - predict J X o))).sum +
      ((allObs loaders times).map fun o => predict J G o ⬝ᵥ (o.R *ᵥ (o.y - predict J X o))).sum := by
    rw [← List.sum_map_add]
    congr 1
    exact List.map_congr_left fun o _ => by rw [predict_add, add_dotProduct]
  rw [slope, h1, h2, slope, slope]
  ring

theorem slope_smul {A : Analysis} (J : Designs A) (loaders : List Loader) (times : List Int)
    (c : ℝ) (X H : Assignment A) :
    slope J loaders times X (c • H) = c * slope J loaders times X H := by
  rw [slope, slope, mul_sub, Finset.mul_sum, ← List.sum_map_mul_left]
  congr 1
  · refine Finset.sum_congr rfl fun k _ => ?_
    rw [← List.sum_map_mul_left]
    congr 1
    exact List.map_congr_left fun κ _ => by simp [smul_dotProduct]
  · congr 1
    exact List.map_congr_left fun o _ => by rw [predict_smul, smul_dotProduct, smul_eq_mul]

theorem curve_smul {A : Analysis} (J : Designs A) (loaders : List Loader) (times : List Int)
    (c : ℝ) (H : Assignment A) :
    curve J loaders times (c • H) = c * c * curve J loaders times H := by
  have hq : ∀ {m : Nat} (M : Mat m) (x : Vec m), quad M (c • x) = c * c * quad M x := by
    intro m M x
    simp [quad, mulVec_smul]
    ring
  rw [curve, curve, mul_add, Finset.mul_sum, ← List.sum_map_mul_left]
  congr 1
  · refine Finset.sum_congr rfl fun k _ => ?_
    rw [← List.sum_map_mul_left]
    congr 1
    exact List.map_congr_left fun κ _ => hq _ _
  · congr 1
    exact List.map_congr_left fun o _ => by rw [predict_smul, hq]

/-- A change of one component only. -/
def only {A : Analysis} (k : Fin A.K) (H : Assignment A) : Assignment A := Function.update 0 k (H k)

theorem sum_only {A : Analysis} (H : Assignment A) : ∑ k, only k H = H := by
  funext j
  rw [Finset.sum_apply, Finset.sum_eq_single j]
  · simp [only]
  · intro k _ hk
    simp [only, Function.update_of_ne hk.symm]
  · simp

theorem slope_sum {A : Analysis} (J : Designs A) (loaders : List Loader) (times : List Int)
    (X : Assignment A) {ι : Type} [DecidableEq ι] (s : Finset ι) (H : ι → Assignment A) :
    slope J loaders times X (∑ i ∈ s, H i) = ∑ i ∈ s, slope J loaders times X (H i) := by
  have h0 : slope J loaders times X 0 = 0 := by
    have := slope_smul J loaders times 0 X 0
    rwa [zero_smul, zero_mul] at this
  induction s using Finset.induction_on with
  | empty => simpa using h0
  | insert i s hi ih => rw [Finset.sum_insert hi, Finset.sum_insert hi, slope_add, ih]

/-- If no component can improve, the slope is zero. -/
theorem slope_zero_of_blocks {A : Analysis} {J : Designs A} {loaders : List Loader} {times : List Int}
    (hs : Setup A J loaders times) (X : Assignment A)
    (hb : ∀ k (x : Option Int → Vec (A.comp k).n),
      totalCost J loaders times X ≤ totalCost J loaders times (Function.update X k x))
    (H : Assignment A) : slope J loaders times X H = 0 := by
  have hone : ∀ k, slope J loaders times X (only k H) = 0 := by
    intro k
    have hc : ∀ c : ℝ, 0 ≤ 2 * (c * slope J loaders times X (only k H)) +
        c * c * curve J loaders times (only k H) := by
      intro c
      have h := hb k (X k + c • H k)
      have he : Function.update X k (X k + c • H k) = X + c • only k H := by
        funext j
        by_cases hj : j = k
        · subst hj; simp [only]
        · simp [only, hj]
      rw [he, total_add hs, slope_smul, curve_smul] at h
      linarith
    set s := slope J loaders times X (only k H)
    set q := curve J loaders times (only k H)
    have hq : 0 ≤ q := curve_nonneg hs _
    by_contra hne
    have h := hc (-s / (q + 1))
    have hq1 : 0 < q + 1 := by linarith
    have he : 2 * (-s / (q + 1) * s) + -s / (q + 1) * (-s / (q + 1)) * q =
        -(s * s) * (q + 2) / ((q + 1) * (q + 1)) := by
      field_simp
      ring
    rw [he] at h
    have hs2 : 0 < s * s := mul_self_pos.2 hne
    have : -(s * s) * (q + 2) / ((q + 1) * (q + 1)) < 0 := by
      apply div_neg_of_neg_of_pos
      · nlinarith
      · positivity
    linarith
  rw [← sum_only H, slope_sum]
  exact Finset.sum_eq_zero fun k _ => hone k

/-- C35, fixed point: if no component update changes an estimated state, the states are the joint optimum of
all components, and every assignment with another estimated state is strictly worse. -/
theorem c35_fixed_point {A : Analysis} {J : Designs A} {loaders : List Loader} {times : List Int}
    (hs : Setup A J loaders times) (S : Store A) (hr : Ready times S)
    (hfix : ∀ k S', updateComponent A loaders times k S = .ok S' →
      Agree loaders times (statesOf S') (statesOf S))
    (X : Assignment A) (hX : ¬ Agree loaders times X (statesOf S)) :
    totalCost J loaders times (statesOf S) < totalCost J loaders times X := by
  have hb : ∀ k (x : Option Int → Vec (A.comp k).n),
      totalCost J loaders times (statesOf S) ≤
        totalCost J loaders times (Function.update (statesOf S) k x) := by
    intro k x
    obtain ⟨S', h1, -, h3, h4⟩ := c35_component hs S hr k
    have ha := hfix k S' h1
    rw [← total_agree hs ha]
    by_cases hx : ∃ κ ∈ keys A loaders times k, x κ ≠ statesOf S' k κ
    · exact (h4 x hx).le
    · push_neg at hx
      apply le_of_eq
      apply total_agree hs
      intro j κ hκ
      by_cases hj : j = k
      · subst hj; rw [Function.update_self, hx κ hκ]
      · rw [Function.update_of_ne hj]
        exact ha j κ hκ
  have hz := slope_zero_of_blocks hs _ hb (X - statesOf S)
  have ht := total_add hs (statesOf S) (X - statesOf S)
  rw [add_sub_cancel, hz] at ht
  have hp : 0 < curve J loaders times (X - statesOf S) := by
    apply curve_pos hs
    intro h
    apply hX
    intro k κ hκ
    have := h k κ hκ
    simpa [sub_eq_zero] using this
  linarith

end Verif.Eustace.Components
