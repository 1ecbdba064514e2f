import Verif.Eustace.Components.Props

/-!
Storage of measurements: processing many days at once (C33), merging stored measurements (C34), days without
observations (C81) and nonlinear components (C84).
-/

namespace Verif.Eustace.Components

open Matrix Verif.Eustace.Linear

variable {A : Analysis}

/-! ### C33: days one at a time or all at once -/

/-- The batches of many days with their own loaders. -/
def inputBatches {k : Fin A.K} (J : ∀ o : Obs, Matrix (Fin o.m) (Fin (A.comp k).n) ℝ) (S : Store A)
    (input : List (Int × List Loader)) : List (Batch (A.comp k).n) :=
  input.flatMap fun p => (dayData p.2 p.1).map (batchOf J (subtractOffset A S k))

theorem stBatch_eq (S : Store A) (k : Fin A.K)
    {J : ∀ o : Obs, Matrix (Fin o.m) (Fin (A.comp k).n) ℝ} (hJ : IsLinear (A.comp k) J)
    (input : List (Int × List Loader)) (hi : ∀ p ∈ input, p.2 ≠ [] ∧ ∀ l ∈ p.2, (l p.1).time = p.1)
    (st : Storage (A.comp k).n) (sol : STSolution (A.comp k).n) :
    ∃ time, stBatch A S k input (st, sol) = .ok (st,
      ⟨((inputBatches J S input).map Batch.update).foldl accum sol.measurement, time⟩) := by
  induction input generalizing sol with
  | nil => exact ⟨sol.time, rfl⟩
  | cons p rest ih =>
    obtain ⟨t, ls⟩ := p
    have hp := hi (t, ls) (by simp)
    rw [stBatch, if_neg hp.1, stLoaders_eq S k hJ t ls hp.2 st _ (Or.inl rfl)]
    dsimp only
    obtain ⟨time, h⟩ := ih (fun p hp => hi p (by simp [hp]))
      ⟨((dayData ls t).map fun o => (batchOf J (subtractOffset A S k) o).update).foldl accum sol.measurement,
        if dayData ls t = [] then none else some t⟩
    refine ⟨time, h.trans ?_⟩
    simp only [inputBatches, List.flatMap_cons, List.map_append, List.foldl_append, List.map_map]
    rfl

/-- C33, all days at once: one measurement for many days gives the state which is best for the observations of
all of them.  Days without observations do no harm here as long as there is one with. -/
theorem c33_batch (S : Store A) (k : Fin A.K) (hk : (A.comp k).kind = .spaceTime)
    {J : ∀ o : Obs, Matrix (Fin o.m) (Fin (A.comp k).n) ℝ} (hJ : IsLinear (A.comp k) J)
    (input : List (Int × List Loader)) (hi : ∀ p ∈ input, p.2 ≠ [] ∧ ∀ l ∈ p.2, (l p.1).time = p.1)
    (hd : ∃ p ∈ input, HasData p.2 p.1) (he : (S k).measurement = []) :
    ∃ S₁ S', updateComponentTimes A k input S = .ok S₁ ∧ updateComponentSolution A k S₁ = .ok S' ∧
      (∀ j, j ≠ k → S' j = S j) ∧
      (S' k).state = some (systemOf (A.comp k).prior (inputBatches J S input)).maximumAPosteriori := by
  obtain ⟨time, h⟩ := stBatch_eq S k hJ input hi (S k) (STSolution.new _)
  set m := ((inputBatches J S input).map Batch.update).foldl accum none with hm
  have hs : m.isSome := by
    apply accum_isSome
    right
    obtain ⟨p, hp, hd⟩ := hd
    have hne := (hasData_iff _ _).1 hd
    obtain ⟨o, ho⟩ := List.exists_mem_of_ne_nil _ hne
    apply List.ne_nil_of_mem (a := (batchOf J (subtractOffset A S k) o).update)
    simp only [inputBatches, List.mem_map, List.mem_flatMap]
    exact ⟨_, ⟨p, hp, o, ho, rfl⟩, rfl⟩
  obtain ⟨u, hu⟩ := Option.isSome_iff_exists.1 hs
  have hsum : (System.new (A.comp k).prior).append u =
      systemOf (A.comp k).prior (inputBatches J S input) := by
    have hg := accum_getD ((inputBatches J S input).map Batch.update) none
    rw [← hm, hu] at hg
    simp only [Option.getD_some, Option.getD_none] at hg
    rw [hg, foldl_sums, systemOf_eq]
    simp [System.append, System.new, Update.append, createBlank, Function.comp_def]
  have h1 : updateComponentTimes A k input S =
      .ok (Function.update S k { S k with measurement := [(time, some u)] }) := by
    rw [updateComponentTimes, hk]
    dsimp only
    rw [h]
    simp only [stUpdateTimeStep, STSolution.new, he]
    rw [← hm, hu]
    rfl
  have h2 : stUpdate (A.comp k) { S k with measurement := [(time, some u)] } = .ok { S k with
      measurement := [(time, some u)]
      state := some (systemOf (A.comp k).prior (inputBatches J S input)).maximumAPosteriori
      std := if (A.comp k).computeUncertainties then
        some (marginalStdOf (systemOf (A.comp k).prior (inputBatches J S input))) else (S k).std } := by
    simp only [stUpdate, appendAll, hJ.linear, hsum]
    rfl
  have h3 : updateComponentSolution A k (Function.update S k { S k with measurement := [(time, some u)] }) =
      .ok (Function.update S k { S k with
        measurement := [(time, some u)]
        state := some (systemOf (A.comp k).prior (inputBatches J S input)).maximumAPosteriori
        std := if (A.comp k).computeUncertainties then
          some (marginalStdOf (systemOf (A.comp k).prior (inputBatches J S input))) else (S k).std }) := by
    rw [updateComponentSolution, hk]
    dsimp only
    rw [Function.update_self, h2]
    simp only [Function.update_idem]
  exact ⟨_, _, h1, h3, fun j hj => by simp [hj], by rw [Function.update_self]⟩

/-- C33: processing days one at a time and all at once gives the same state. -/
theorem c33_routes (S : Store A) (k : Fin A.K) (hk : (A.comp k).kind = .spaceTime)
    {J : ∀ o : Obs, Matrix (Fin o.m) (Fin (A.comp k).n) ℝ} (hJ : IsLinear (A.comp k) J)
    (loaders : List Loader) (times : List Int) (hn : times.Nodup) (hne : times ≠ [])
    (ht : ∀ l ∈ loaders, ∀ t ∈ times, (l t).time = t) (hd : ∀ t ∈ times, HasData loaders t)
    (he : (S k).measurement = []) :
    ∃ S₁ S₂ S₃ : Store A, updateComponentTimes A k (times.map fun t => (t, loaders)) S = .ok S₁ ∧
      updateComponentSolution A k S₁ = .ok S₂ ∧ updateComponent A loaders times k S = .ok S₃ ∧
      (S₂ k).state = (S₃ k).state := by
  obtain ⟨t, htm⟩ := List.exists_mem_of_ne_nil _ hne
  have hl : loaders ≠ [] := by
    obtain ⟨l, hl, -⟩ := hd t htm
    exact List.ne_nil_of_mem hl
  obtain ⟨S₁, S₂, h1, h2, -, h3⟩ := c33_batch S k hk hJ (times.map fun t => (t, loaders))
    (by
      intro p hp
      obtain ⟨u, hu, rfl⟩ := List.mem_map.1 hp
      exact ⟨hl, fun l hlm => ht l hlm u hu⟩)
    ⟨(t, loaders), List.mem_map.2 ⟨t, htm, rfl⟩, hd t htm⟩ he
  obtain ⟨st, h4, h5, -⟩ := updateComponent_spaceTime k hk hJ loaders times hn ht hd S
    (by rw [he]; simp [Stored])
  refine ⟨S₁, S₂, _, h1, h2, h4, ?_⟩
  rw [h3, Function.update_self, h5]
  simp [inputBatches, batches, List.flatMap_map]

theorem spUpdateTimeStep_new (c : Comp) (st : Storage c.n) (sol : SpSolution c.n) :
    (spUpdateTimeStep c st sol).2 = SpSolution.new _ := by
  unfold spUpdateTimeStep
  split <;> rfl

theorem spLoaders_congr {S S' : Store A} {k : Fin A.K} (h : ∀ j, j ≠ k → S j = S' j) (t : Int)
    (ls : List Loader) (sol : SpSolution (A.comp k).n) :
    spLoaders A S k t ls sol = spLoaders A S' k t ls sol := by
  induction ls generalizing sol with
  | nil => rfl
  | cons l ls ih =>
    rw [spLoaders, spLoaders, offset_congr h]
    split
    · split <;> simp [ih]
    · exact ih sol

/-- C33: for a spatial component the two routes are the same in every respect, errors included. -/
theorem c33_routes_spatial (S : Store A) (k : Fin A.K) (hk : (A.comp k).kind = .spatial)
    (loaders : List Loader) (times : List Int) :
    updateComponentTimes A k (times.map fun t => (t, loaders)) S = updateTimes A loaders k times S := by
  have hgen : ∀ (times : List Int) (S' : Store A), (∀ j, j ≠ k → S j = S' j) →
      updateTimes A loaders k times S' =
        match spBatch A S k (times.map fun t => (t, loaders)) (S' k, SpSolution.new _) with
        | .error e => .error e
        | .ok r => .ok (Function.update S' k r.1) := by
    intro times
    induction times with
    | nil => intro S' _; simp [updateTimes, spBatch]
    | cons t ts ih =>
      intro S' h
      rw [updateTimes, updateComponentTime, List.map_cons, spBatch]
      by_cases hl : loaders = []
      · rw [if_pos hl, if_pos hl]
      · rw [if_neg hl, if_neg hl, hk]
        dsimp only
        rw [spLoaders_congr h]
        cases hsp : spLoaders A S' k t loaders (SpSolution.new _) with
        | error e => rfl
        | ok sol =>
          dsimp only
          rw [ih (Function.update S' k (spUpdateTimeStep (A.comp k) (S' k) sol).1)
            (fun j hj => by rw [Function.update_of_ne hj]; exact h j hj)]
          rw [Function.update_self, show spUpdateTimeStep (A.comp k) (S' k) sol =
            ((spUpdateTimeStep (A.comp k) (S' k) sol).1, SpSolution.new _) from
              Prod.ext rfl (spUpdateTimeStep_new _ _ _)]
          simp only [Function.update_idem]
  rw [hgen times S (fun _ _ => rfl), updateComponentTimes]
  simp only [hk]
  generalize spBatch A S k _ _ = r
  cases r <;> rfl

/-! ### C34: merging stored measurements -/

theorem mergeRest_some {n : Nat} (l : List (Option Int × Option (Update n))) (u : Update n)
    (h : ∀ p ∈ l, p.2.isSome) :
    mergeRest l (some u) = .ok (some ((l.map fun p => p.2.getD (createBlank n)).foldl Update.append u)) := by
  induction l generalizing u with
  | nil => rfl
  | cons p l ih =>
    obtain ⟨a, b⟩ := p
    cases b with
    | none => simpa using h (a, none) (by simp)
    | some v =>
      rw [mergeRest, ih _ (fun p hp => h p (by simp [hp]))]
      rfl

/-- C34: the merged measurement stands for all stored ones: a solution with it alone is the solution with all of
them. -/
theorem c34_merged {n : Nat} (st : Storage n) (hne : st.measurement ≠ [])
    (h : ∀ p ∈ st.measurement, p.2.isSome) (Q : Mat n) :
    ∃ u, mergeUpdatesFiles st = .ok (some u, st) ∧
      appendAll st.measurement (System.new Q) = .ok ((System.new Q).append u) ∧
      ∃ st', mergeUpdates st = .ok (some u, st') := by
  obtain ⟨⟨a, b⟩, l, hl⟩ := List.exists_cons_of_ne_nil hne
  cases b with
  | none =>
    have := h (a, none) (by simp [hl])
    simp at this
  | some v =>
    have hm : mergeRest st.measurement none =
        .ok (some ((l.map fun p => p.2.getD (createBlank n)).foldl Update.append v)) := by
      rw [hl, mergeRest, mergeRest_some _ _ (fun p hp => h p (by simp [hl, hp]))]
    refine ⟨_, by rw [mergeUpdatesFiles, hm], ?_, _, by rw [mergeUpdates, hm]⟩
    rw [appendAll_some _ _ h, hl]
    simp only [List.map_cons, List.foldl_cons, Option.getD_some]
    rw [append_sums, foldl_sums]
    simp [System.append, System.new, Update.append, createBlank]

/-- C34: solving does not change the stored measurements, and solving again changes nothing. -/
theorem c34_solve_twice (c : Comp) (hl : c.nonlinear = false) (st st' : Storage c.n)
    (h : stUpdate c st = .ok st') : st'.measurement = st.measurement ∧ stUpdate c st' = .ok st' := by
  unfold stUpdate at h ⊢
  cases ha : appendAll st.measurement (System.new c.prior) with
  | error e => rw [ha] at h; cases h
  | ok s =>
    rw [ha] at h
    simp only [hl, Bool.false_eq_true, if_false, Except.ok.injEq] at h
    subst h
    refine ⟨rfl, ?_⟩
    simp only [ha, hl, Bool.false_eq_true, if_false]
    split <;> rfl

/-- C34: a merge changes nothing if at most one measurement is stored. -/
theorem c34_memory_partial {n : Nat} (st : Storage n) (hl : st.measurement.length ≤ 1)
    (r : Option (Update n) × Storage n) (h : mergeUpdates st = .ok r) : r.2 = st := by
  obtain ⟨state, std, ms, states, stds⟩ := st
  match ms, hl with
  | [], _ =>
    simp only [mergeUpdates, mergeRest, Except.ok.injEq] at h
    rw [← h]; rfl
  | [(a, none)], _ =>
    simp only [mergeUpdates, mergeRest, Except.ok.injEq] at h
    rw [← h]; rfl
  | [(a, some u)], _ =>
    simp only [mergeUpdates, mergeRest, Except.ok.injEq] at h
    rw [← h]; rfl

/-- Design and prior of one parameter which is observed directly. -/
noncomputable def unitElement (nonlinear : Bool) : Comp where
  n := 1
  prior := 1
  nonlinear := nonlinear
  function o x := fun _ => x 0
  rectified o x := fun _ => |x 0|
  jacobian o _ := Matrix.of fun _ _ => 1
  initial _ := 0
  kind := .spaceTime
  computeUncertainties := false

theorem solve_one (M : Mat 1) (v : Vec 1) (a b : ℝ) (hM : M 0 0 = a) (hv : v 0 = b) (ha : a ≠ 0) :
    solveA M v = fun _ => b / a := by
  have hf : fromUpper M = M := by
    ext i j
    have hi : i = 0 := Subsingleton.elim _ _
    have hj : j = 0 := Subsingleton.elim _ _
    subst hi hj
    simp [fromUpper]
  have hi : M⁻¹ = Matrix.of fun _ _ => a⁻¹ := by
    apply inv_eq_right_inv
    ext i j
    have hi : i = 0 := Subsingleton.elim _ _
    have hj : j = 0 := Subsingleton.elim _ _
    subst hi hj
    simp [mul_apply, ha, hM]
  funext i
  rw [solveA, hf, hi]
  simp [mulVec, dotProduct, hv]
  field_simp

/-- C34: with the in-memory storage a merge adds to the first stored measurement, so the next solution counts the
others twice: here the state is 1/3 before, and 2/4 after the merge. -/
theorem c34_memory_violated : ∃ (c : Comp) (st st₁ st₂ st₃ : Storage c.n) (u : Option (Update c.n)),
    stUpdate c st = .ok st₁ ∧ mergeUpdates st = .ok (u, st₂) ∧ stUpdate c st₂ = .ok st₃ ∧
      st₂.measurement ≠ st.measurement ∧ st₃.state ≠ st₁.state := by
  let u₀ : Update 1 := ⟨Matrix.of fun _ _ => 1, fun _ => 0⟩
  let u₁ : Update 1 := ⟨Matrix.of fun _ _ => 1, fun _ => 1⟩
  let st : Storage 1 := ⟨none, none, [(some 0, some u₀), (some 1, some u₁)], fun _ => none, fun _ => none⟩
  let c := unitElement false
  have hlin : c.nonlinear = false := rfl
  have hu : c.computeUncertainties = false := rfl
  have h1 : (System.append (System.append (System.new (1 : Mat 1)) u₀) u₁).maximumAPosteriori =
      fun _ => 1 / 3 := by
    refine solve_one _ _ 3 1 ?_ ?_ (by norm_num)
    · simp [System.posteriorPrecision, System.append, System.new, createBlank, Update.append, u₀, u₁]
      norm_num
    · simp [System.append, System.new, createBlank, Update.append, u₀, u₁]
  have h2 : (System.append (System.append (System.new (1 : Mat 1)) (u₀.append u₁)) u₁).maximumAPosteriori =
      fun _ => 2 / 4 := by
    refine solve_one _ _ 4 2 ?_ ?_ (by norm_num)
    · simp [System.posteriorPrecision, System.append, System.new, createBlank, Update.append, u₀, u₁]
      norm_num
    · simp [System.append, System.new, createBlank, Update.append, u₀, u₁]
      norm_num
  refine ⟨c, st, _, { st with measurement := [(some 0, some (u₀.append u₁)), (some 1, some u₁)] }, _,
    some (u₀.append u₁), rfl, rfl, rfl, ?_, ?_⟩
  · intro h
    have h' : u₀.append u₁ = u₀ := by
      have h'' : [(some 0, some (u₀.append u₁)), (some 1, some u₁)] =
        [((some 0 : Option Int), some u₀), (some 1, some u₁)] := h
      have := congrArg List.head? h''
      simpa using this
    have hv := congrFun (congrArg Update.vector h') 0
    simp [Update.append, u₀, u₁] at hv
  · intro h
    have h' : (some (System.append (System.append (System.new (1 : Mat 1)) (u₀.append u₁)) u₁).maximumAPosteriori) =
        some (System.append (System.append (System.new (1 : Mat 1)) u₀) u₁).maximumAPosteriori := h
    rw [h1, h2, Option.some.injEq] at h'
    have := congrFun h' 0
    norm_num at this

/-! ### C81: days without observations -/

theorem appendAll_none {n : Nat} (l : List (Option Int × Option (Update n))) (s : System n)
    (h : ∃ a, (a, none) ∈ l) : appendAll l s = .error .attributeError := by
  obtain ⟨a, h⟩ := h
  induction l generalizing s with
  | nil => cases h
  | cons p l ih =>
    obtain ⟨b, c⟩ := p
    cases c with
    | none => rfl
    | some u =>
      rw [appendAll]
      apply ih
      rcases List.mem_cons.1 h with h | h
      · simp at h
      · exact h

theorem dictWrite_keeps {α β : Type} [DecidableEq α] (k : α) (v : β) (d : List (α × β)) (p : α × β)
    (hp : p ∈ d) (h : p.1 = k → p.2 = v) : p ∈ dictWrite k v d := by
  induction d with
  | nil => cases hp
  | cons q d ih =>
    obtain ⟨a, b⟩ := q
    rw [dictWrite]
    rcases List.mem_cons.1 hp with rfl | hp
    · by_cases hk : a = k
      · rw [if_pos hk, ← h hk]; exact List.mem_cons_self ..
      · rw [if_neg hk]; exact List.mem_cons_self ..
    · by_cases hk : a = k
      · rw [if_pos hk]; exact List.mem_cons_of_mem _ hp
      · rw [if_neg hk]; exact List.mem_cons_of_mem _ (ih hp)

theorem dictWrite_has {α β : Type} [DecidableEq α] (k : α) (v : β) (d : List (α × β)) :
    (k, v) ∈ dictWrite k v d := by
  induction d with
  | nil => simp [dictWrite]
  | cons q d ih =>
    obtain ⟨a, b⟩ := q
    rw [dictWrite]
    by_cases hk : a = k
    · rw [if_pos hk, hk]; exact List.mem_cons_self ..
    · rw [if_neg hk]; exact List.mem_cons_of_mem _ ih

theorem updateTimes_ok (k : Fin A.K) (hk : (A.comp k).kind = .spaceTime)
    {J : ∀ o : Obs, Matrix (Fin o.m) (Fin (A.comp k).n) ℝ} (hJ : IsLinear (A.comp k) J)
    (loaders : List Loader) (hne : loaders ≠ []) (times : List Int)
    (ht : ∀ l ∈ loaders, ∀ t ∈ times, (l t).time = t) (S : Store A)
    (hd : (∃ t ∈ times, ¬ HasData loaders t) ∨ (none, none) ∈ (S k).measurement) :
    ∃ st : Storage (A.comp k).n, updateTimes A loaders k times S = .ok (Function.update S k st) ∧
      (none, none) ∈ st.measurement := by
  induction times generalizing S with
  | nil =>
    rcases hd with ⟨t, ht, -⟩ | hd
    · cases ht
    · exact ⟨S k, by simp [updateTimes], hd⟩
  | cons t ts ih =>
    rw [updateTimes, updateComponentTime, if_neg hne, hk]
    dsimp only
    rw [stLoaders_eq S k hJ t loaders (fun l hl => ht l hl t (by simp)) _ _ (Or.inl rfl)]
    dsimp only
    have hd' : (∃ u ∈ ts, ¬ HasData loaders u) ∨ (none, none) ∈
        (Function.update S k (stUpdateTimeStep (S k)
          ⟨((dayData loaders t).map fun o => (batchOf J (subtractOffset A S k) o).update).foldl accum
            (STSolution.new (A.comp k).n).measurement,
            if dayData loaders t = [] then (STSolution.new (A.comp k).n).time else some t⟩).1 k).measurement := by
      rw [Function.update_self]
      simp only [stUpdateTimeStep, STSolution.new]
      by_cases he : dayData loaders t = []
      · right
        rw [he]
        exact dictWrite_has _ _ _
      · rw [if_neg he]
        rcases hd with ⟨u, hu, hn⟩ | hd
        · rcases List.mem_cons.1 hu with rfl | hu
          · exact absurd ((hasData_iff loaders u).2 he) hn
          · exact Or.inl ⟨u, hu, hn⟩
        · right
          exact dictWrite_keeps _ _ _ _ hd (by simp)
    obtain ⟨st, h1, h2⟩ := ih (fun l hl u hu => ht l hl u (by simp [hu])) _ hd'
    refine ⟨st, ?_, h2⟩
    rw [h1, Function.update_idem]

/-- C81: a single day without observations makes the update of a space-time component fail, whatever the other days
hold. -/
theorem c81_empty_day_violated (k : Fin A.K) (hk : (A.comp k).kind = .spaceTime)
    {J : ∀ o : Obs, Matrix (Fin o.m) (Fin (A.comp k).n) ℝ} (hJ : IsLinear (A.comp k) J)
    (loaders : List Loader) (hne : loaders ≠ []) (times : List Int)
    (ht : ∀ l ∈ loaders, ∀ t ∈ times, (l t).time = t) (S : Store A)
    (hd : ∃ t ∈ times, ¬ HasData loaders t) :
    updateComponent A loaders times k S = .error .attributeError := by
  obtain ⟨st, h1, h2⟩ := updateTimes_ok k hk hJ loaders hne times ht S (Or.inl hd)
  rw [updateComponent, h1]
  dsimp only
  rw [updateComponentSolution, hk]
  dsimp only
  rw [stUpdate, Function.update_self, appendAll_none _ _ ⟨none, h2⟩]

/-- C81: for spatial components such days are passed over: their state stays what it was, and all other days are
estimated. -/
theorem c81_spatial_partial (k : Fin A.K) (hk : (A.comp k).kind = .spatial)
    {J : ∀ o : Obs, Matrix (Fin o.m) (Fin (A.comp k).n) ℝ} (hJ : IsLinear (A.comp k) J)
    (loaders : List Loader) (hne : loaders ≠ []) (times : List Int)
    (ht : ∀ l ∈ loaders, ∀ t ∈ times, (l t).time = t) (S : Store A) :
    ∃ S', updateComponent A loaders times k S = .ok S' ∧
      ∀ t ∈ times, (HasData loaders t → ((S' k).states t).isSome) ∧
        (¬ HasData loaders t → (S' k).states t = (S k).states t) := by
  obtain ⟨st, h1, h2, -⟩ := updateComponent_spatial k hk hJ loaders hne times ht S
  refine ⟨_, h1, fun t htt => ?_⟩
  rw [Function.update_self, h2]
  constructor
  · intro h; simp [htt, h]
  · intro h; simp [h]

/-! ### C84: nonlinear components -/

/-- One update of a nonlinear component from one batch of observations: the stored state moves by the solution for the
residual. -/
theorem nonlinear_step (c : Comp) (hn : c.nonlinear = true) (st : Storage c.n) (he : st.measurement = [])
    (x : Vec c.n) (hx : st.state = some x) (o : Obs) (offset : Vec o.m) :
    ∃ st₁ sol st₂, stProcess c.toElement st (STSolution.new _) o offset = .ok (st₁, sol) ∧
      stUpdate c (stUpdateTimeStep st₁ sol).1 = .ok st₂ ∧
      st₂.state = some ((systemOf c.prior [⟨o.m, c.jacobian o (some x), o.R,
        o.y - offset - c.function o x⟩]).maximumAPosteriori + x) := by
  set u := createFromSystem (c.jacobian o (some x)) o.R (o.y - offset - c.function o x) with hu
  have h1 : stProcess c.toElement st (STSolution.new _) o offset = .ok (st, ⟨some u, some o.time⟩) := by
    simp only [stProcess, linearise, hn, hx, if_true, STSolution.new]
    rfl
  have h2 : (stUpdateTimeStep st ⟨some u, some o.time⟩).1 =
      { st with measurement := [(some o.time, some u)] } := by
    simp only [stUpdateTimeStep, he, dictWrite]
  have h3 : stUpdate c { st with measurement := [(some o.time, some u)] } = .ok { st with
      measurement := [(some o.time, some u)]
      state := some (((System.new c.prior).append u).maximumAPosteriori + x)
      std := if c.computeUncertainties then some (marginalStdOf ((System.new c.prior).append u)) else st.std } := by
    simp only [stUpdate, appendAll, hn, hx, if_true]
  exact ⟨_, _, _, h1, by rw [h2]; exact h3, rfl⟩

/-- C84: an iteration leaves the state of a nonlinear component as it is exactly if the observation misfit alone is
stationary there; the prior has no say in it. -/
theorem c84_stationary {n : Nat} (Q : Mat n) (hQ : Q.PosDef) (b : Batch n) (hR : b.R.PosSemidef) (x : Vec n) :
    (systemOf Q [b]).maximumAPosteriori + x = x ↔ (b.Jᵀ * b.R) *ᵥ b.y = 0 := by
  have hP := posterior_posDef Q [b] hQ (by simpa using hR)
  have hsol : (systemOf Q [b]).posteriorPrecision *ᵥ (systemOf Q [b]).maximumAPosteriori =
      (systemOf Q [b]).measurement.vector := solveA_spec hP _
  have hv : (systemOf Q [b]).measurement.vector = (b.Jᵀ * b.R) *ᵥ b.y := by
    rw [systemOf_eq]
    simp [Batch.update, createFromSystem]
  rw [add_eq_right, ← hv]
  constructor
  · intro h
    rw [← hsol, h, mulVec_zero]
  · intro h
    rw [System.maximumAPosteriori, h, solveA, mulVec_zero]

/-- One observation of the parameter with value one. -/
noncomputable def unitObs : Obs := ⟨0, 1, fun _ => (0, 0), fun _ => 1, 1⟩

/-- C84: iterating a nonlinear component does not minimise prior plus observation misfit: here the minimiser 1/2 is left
for 3/4, and the state 1 with twice the minimal misfit is kept. -/
theorem c84_violated : ∃ c : Comp, c.nonlinear = true ∧ c.prior.PosDef ∧
    (∀ x : Vec c.n, quad c.prior (fun _ => 1 / 2) + quad unitObs.R (unitObs.y - c.function unitObs (fun _ => 1 / 2)) ≤
      quad c.prior x + quad unitObs.R (unitObs.y - c.function unitObs x)) ∧
    ∀ (a : ℝ) (st : Storage c.n), st.measurement = [] → st.state = some (fun _ => a) →
      ∃ st₁ sol st₂, stProcess c.toElement st (STSolution.new _) unitObs 0 = .ok (st₁, sol) ∧
        stUpdate c (stUpdateTimeStep st₁ sol).1 = .ok st₂ ∧ st₂.state = some (fun _ => (1 + a) / 2) := by
  refine ⟨unitElement true, rfl, Matrix.PosDef.one, ?_, ?_⟩
  · intro (x : Vec 1)
    have h1 : ∀ y : Vec 1, quad (1 : Mat 1) y = y 0 * y 0 := fun y => by simp [quad, dotProduct]
    have h2 : quad (unitElement true).prior (fun _ => 1 / 2) +
        quad unitObs.R (unitObs.y - (unitElement true).function unitObs (fun _ => 1 / 2)) = 1 / 2 := by
      have := h1 (fun _ => 1 / 2)
      have h3 := h1 (fun _ => 1 - 1 / 2)
      refine (congrArg₂ (· + ·) this h3).trans ?_
      norm_num
    have h3 : quad (unitElement true).prior x +
        quad unitObs.R (unitObs.y - (unitElement true).function unitObs x) =
        x 0 * x 0 + (1 - x 0) * (1 - x 0) :=
      congrArg₂ (· + ·) (h1 x) (h1 (fun _ => 1 - x 0))
    rw [h2, h3]
    nlinarith [sq_nonneg (x 0 - 1 / 2)]
  · intro a st he hx
    obtain ⟨st₁, sol, st₂, h1, h2, h3⟩ := nonlinear_step (unitElement true) rfl st he _ hx unitObs 0
    refine ⟨st₁, sol, st₂, h1, h2, h3.trans ?_⟩
    have hs : (systemOf (1 : Mat 1) [⟨1, Matrix.of fun _ _ => 1, 1,
        fun _ => 1 - 0 - a⟩]).maximumAPosteriori = fun _ => (1 - a) / 2 := by
      rw [systemOf_eq]
      refine solve_one _ _ 2 (1 - a) ?_ ?_ (by norm_num)
      · simp [System.posteriorPrecision, Batch.update, createFromSystem, mul_apply]
        norm_num
      · simp [Batch.update, createFromSystem, mulVec, dotProduct]
    have he : (systemOf (1 : Mat 1) [⟨1, Matrix.of fun _ _ => 1, 1,
        fun _ => 1 - 0 - a⟩]).maximumAPosteriori + (fun _ => a) = fun _ => (1 + a) / 2 := by
      rw [hs]
      funext i
      simp only [Pi.add_apply]
      ring
    exact congrArg some he

end Verif.Eustace.Components
