import Verif.Eustace.Components.Props
import Mathlib.Topology.Instances.Matrix
import Mathlib.Topology.MetricSpace.ProperSpace.Real
import Mathlib.Topology.Order.MonotoneConvergence
import Mathlib.Analysis.Normed.Group.Basic
import Mathlib.Analysis.Normed.Module.Basic
import Mathlib.Topology.Algebra.Monoid

/-!
The iteration over all components converges to the joint optimum (C35).
-/

namespace Verif.Eustace.Components

open Matrix Verif.Eustace.Linear Filter Topology

/-! ### A descent lemma -/

/-- A continuous map which strictly decreases a continuous function everywhere but in one point, with compact
level sets, has orbits which converge to that point. -/
theorem descent {V : Type} [TopologicalSpace V] (T : V → V) (Φ : V → ℝ) (p : V) (hT : Continuous T)
    (hΦ : Continuous Φ) (hc : ∀ r, IsCompact {v | Φ v ≤ r}) (hle : ∀ v, Φ (T v) ≤ Φ v)
    (hlt : ∀ v, v ≠ p → Φ (T v) < Φ v) (hb : ∀ v, Φ p ≤ Φ v) (u : ℕ → V) (hu : ∀ n, u (n + 1) = T (u n)) :
    Tendsto u atTop (𝓝 p) := by
  have hanti : Antitone fun n => Φ (u n) := antitone_nat_of_succ_le fun n => by rw [hu]; exact hle _
  have hbdd : BddBelow (Set.range fun n => Φ (u n)) := ⟨Φ p, by rintro _ ⟨n, rfl⟩; exact hb _⟩
  obtain hlim := tendsto_atTop_ciInf hanti hbdd
  set L := ⨅ n, Φ (u n)
  have huniq : ∀ {w : ℕ → ℝ} {a : ℝ}, Tendsto w atTop (𝓝 L) → MapClusterPt a atTop w → a = L := by
    intro w a hw ha
    have : ClusterPt a (𝓝 L) := ClusterPt.mono ha hw
    exact eq_of_nhds_neBot this
  refine (hc (Φ (u 0))).tendsto_nhds_of_unique_mapClusterPt
    (Eventually.of_forall fun n => hanti (Nat.zero_le n)) ?_
  intro y _ hy
  have h1 : Φ y = L := huniq hlim (hy.continuousAt_comp hΦ.continuousAt)
  have h2 : Φ (T y) = L := by
    have hcl : MapClusterPt (Φ (T y)) atTop (fun n => Φ (u (n + 1))) := by
      have := hy.continuousAt_comp (hΦ.comp hT).continuousAt
      have he : (Φ ∘ T) ∘ u = fun n => Φ (u (n + 1)) := by
        funext n; simp [hu]
      rwa [he] at this
    exact huniq ((tendsto_add_atTop_iff_nat 1).2 hlim) hcl
  by_contra hne
  have := hlt y hne
  rw [h1, h2] at this
  exact lt_irrefl _ this

/-! ### One iteration as a map on states -/

/-- The states of component `k` which its update computes. -/
noncomputable def blockMin {A : Analysis} (J : Designs A) (loaders : List Loader) (times : List Int)
    (X : Assignment A) (k : Fin A.K) : Option Int → Vec (A.comp k).n := fun κ =>
  match κ with
  | none =>
    match (A.comp k).kind with
    | .spaceTime => (systemOf (A.comp k).prior (times.flatMap fun t =>
        (dayData loaders t).map (batchOf (J k) (others J X k)))).maximumAPosteriori
    | .spatial => X k none
  | some t =>
    match (A.comp k).kind with
    | .spaceTime => X k (some t)
    | .spatial => if t ∈ times ∧ HasData loaders t then
        (systemOf (A.comp k).prior ((dayData loaders t).map
          (batchOf (J k) (others J X k)))).maximumAPosteriori
        else X k (some t)

/-- All states after the update of one component. -/
noncomputable def step {A : Analysis} (J : Designs A) (loaders : List Loader) (times : List Int)
    (k : Fin A.K) (X : Assignment A) : Assignment A :=
  Function.update X k (blockMin J loaders times X k)

/-- All states after the update of several components, one after another. -/
noncomputable def steps {A : Analysis} (J : Designs A) (loaders : List Loader) (times : List Int)
    (ks : List (Fin A.K)) (X : Assignment A) : Assignment A :=
  ks.foldl (fun X k => step J loaders times k X) X

variable {A : Analysis} {J : Designs A} {loaders : List Loader} {times : List Int}

theorem updateComponent_states (hs : Setup A J loaders times) (S : Store A) (hr : Ready times S)
    (k : Fin A.K) :
    ∃ S', updateComponent A loaders times k S = .ok S' ∧ Ready times S' ∧
      statesOf S' = step J loaders times k (statesOf S) := by
  cases hk : (A.comp k).kind with
  | spaceTime =>
    obtain ⟨st, h1, h2, -, h4, h5, -⟩ := updateComponent_spaceTime k hk (hs.linear k) loaders times
      hs.distinct hs.time (hs.data k hk) S (hr k hk)
    refine ⟨_, h1, ?_, ?_⟩
    · intro j hj
      by_cases hjk : j = k
      · subst hjk; rw [Function.update_self]; exact h4
      · rw [Function.update_of_ne hjk]; exact hr j hj
    · rw [statesOf_update, step]
      congr 1
      funext κ
      cases κ with
      | none =>
        simp only [blockMin, hk, h2, Option.getD_some, batches, offset_others hs.linear]
      | some t => simp only [blockMin, hk, h5, statesOf]
  | spatial =>
    obtain ⟨st, h1, h2, -, h3, -, h4⟩ := updateComponent_spatial k hk (hs.linear k) loaders
      hs.loader times hs.time S
    refine ⟨_, h1, ?_, ?_⟩
    · intro j hj
      by_cases hjk : j = k
      · subst hjk; rw [hk] at hj; cases hj
      · rw [Function.update_of_ne hjk]; exact hr j hj
    · rw [statesOf_update, step]
      congr 1
      funext κ
      cases κ with
      | none => simp only [blockMin, hk, h3, statesOf]
      | some t =>
        simp only [blockMin, hk, h2, offset_others hs.linear]
        split
        · rfl
        · rfl

theorem updateAll_states (hs : Setup A J loaders times) (ks : List (Fin A.K)) (S : Store A)
    (hr : Ready times S) :
    ∃ S', updateAll A loaders times ks S = .ok S' ∧ Ready times S' ∧
      statesOf S' = steps J loaders times ks (statesOf S) := by
  induction ks generalizing S with
  | nil => exact ⟨S, rfl, hr, rfl⟩
  | cons k ks ih =>
    obtain ⟨S₁, h1, h2, h3⟩ := updateComponent_states hs S hr k
    obtain ⟨S₂, h4, h5, h6⟩ := ih S₁ h2
    refine ⟨S₂, by rw [updateAll, h1]; exact h4, h5, ?_⟩
    rw [h6, h3]
    rfl

/-- A store which holds the given states. -/
def storeOf (X : Assignment A) : Store A := fun k =>
  ⟨some (X k none), none, [], fun t => some (X k (some t)), fun _ => none⟩

theorem statesOf_storeOf (X : Assignment A) : statesOf (storeOf X) = X := by
  funext k κ
  cases κ <;> rfl

theorem ready_storeOf (X : Assignment A) : Ready times (storeOf X) := fun _ _ => by
  simp [storeOf, Stored]

theorem agree_symm {X Y : Assignment A} (h : Agree loaders times X Y) : Agree loaders times Y X :=
  fun k κ hκ => (h k κ hκ).symm

theorem agree_trans {X Y Z : Assignment A} (h : Agree loaders times X Y) (h' : Agree loaders times Y Z) :
    Agree loaders times X Z := fun k κ hκ => (h k κ hκ).trans (h' k κ hκ)

theorem step_le (hs : Setup A J loaders times) (k : Fin A.K) (X : Assignment A) :
    totalCost J loaders times (step J loaders times k X) ≤ totalCost J loaders times X ∧
    (¬ Agree loaders times (step J loaders times k X) X →
      totalCost J loaders times (step J loaders times k X) < totalCost J loaders times X) := by
  obtain ⟨S', h1, -, h3, h4⟩ := c35_decrease hs (storeOf X) (ready_storeOf X) k
  obtain ⟨S'', h5, -, h6⟩ := updateComponent_states hs (storeOf X) (ready_storeOf X) k
  have he : S' = S'' := by
    rw [h1] at h5
    exact Except.ok.inj h5
  rw [he, h6, statesOf_storeOf] at h3 h4
  exact ⟨h3, h4⟩

theorem others_agree (hs : Setup A J loaders times) {X Y : Assignment A} (h : Agree loaders times X Y)
    (k : Fin A.K) {t : Int} (ht : t ∈ times) {o : Obs} (ho : o ∈ dayData loaders t) :
    others J X k o = others J Y k o := by
  refine Finset.sum_congr rfl fun j _ => ?_
  have hd : HasData loaders t := (hasData_iff loaders t).2 (List.ne_nil_of_mem ho)
  have : X j (keyAt A j o.time) = Y j (keyAt A j o.time) := by
    apply h
    unfold keyAt keys
    cases (A.comp j).kind with
    | spaceTime => simp
    | spatial =>
      simp only [(day_time hs ht ho).1, List.mem_map, List.mem_filter]
      exact ⟨t, ⟨ht, by simpa using hd⟩, rfl⟩
  rw [this]

theorem batchOf_agree (hs : Setup A J loaders times) {X Y : Assignment A} (h : Agree loaders times X Y)
    (k : Fin A.K) {t : Int} (ht : t ∈ times) :
    (dayData loaders t).map (batchOf (J k) (others J X k)) =
      (dayData loaders t).map (batchOf (J k) (others J Y k)) :=
  List.map_congr_left fun o ho => by rw [batchOf, batchOf, others_agree hs h k ht ho]

theorem step_agree (hs : Setup A J loaders times) {X Y : Assignment A} (h : Agree loaders times X Y)
    (k : Fin A.K) : Agree loaders times (step J loaders times k X) (step J loaders times k Y) := by
  intro j κ hκ
  by_cases hj : j = k
  · subst hj
    rw [step, step, Function.update_self, Function.update_self]
    cases κ with
    | none =>
      cases hk : (A.comp j).kind with
      | spaceTime =>
        simp only [blockMin, hk]
        have : (times.flatMap fun t => (dayData loaders t).map (batchOf (J j) (others J X j))) =
            times.flatMap fun t => (dayData loaders t).map (batchOf (J j) (others J Y j)) := by
          rw [List.flatMap_def, List.flatMap_def]
          congr 1
          exact List.map_congr_left fun t ht => batchOf_agree hs h j ht
        rw [this]
      | spatial => simp only [blockMin, hk]; exact h j _ hκ
    | some t =>
      cases hk : (A.comp j).kind with
      | spaceTime => simp only [blockMin, hk]; exact h j _ hκ
      | spatial =>
        simp only [blockMin, hk]
        split
        · rename_i hd
          rw [batchOf_agree hs h j hd.1]
        · exact h j _ hκ
  · rw [step, step, Function.update_of_ne hj, Function.update_of_ne hj]
    exact h j κ hκ

theorem steps_agree (hs : Setup A J loaders times) (ks : List (Fin A.K)) {X Y : Assignment A}
    (h : Agree loaders times X Y) :
    Agree loaders times (steps J loaders times ks X) (steps J loaders times ks Y) := by
  induction ks generalizing X Y with
  | nil => exact h
  | cons k ks ih => exact ih (step_agree hs h k)

theorem steps_le (hs : Setup A J loaders times) (ks : List (Fin A.K)) (X : Assignment A) :
    totalCost J loaders times (steps J loaders times ks X) ≤ totalCost J loaders times X ∧
    (totalCost J loaders times X ≤ totalCost J loaders times (steps J loaders times ks X) →
      ∀ k ∈ ks, Agree loaders times (step J loaders times k X) X) := by
  induction ks generalizing X with
  | nil => exact ⟨le_rfl, fun _ k hk => absurd hk (by simp)⟩
  | cons k ks ih =>
    have h1 := step_le hs k X
    have h2 := ih (step J loaders times k X)
    have he : steps J loaders times (k :: ks) X = steps J loaders times ks (step J loaders times k X) := rfl
    rw [he]
    refine ⟨h2.1.trans h1.1, ?_⟩
    intro hge
    have ha : Agree loaders times (step J loaders times k X) X := by
      by_contra hn
      have := h1.2 hn
      linarith [h2.1]
    intro k' hk'
    rcases List.mem_cons.1 hk' with rfl | hk'
    · exact ha
    · have h3 := h2.2 (by linarith [h1.1]) k' hk'
      exact agree_trans (agree_trans (step_agree hs (agree_symm ha) k') h3) ha

/-- Where no step changes anything is the joint optimum. -/
theorem optimum_of_fixed (hs : Setup A J loaders times) (X : Assignment A)
    (hf : ∀ k, Agree loaders times (step J loaders times k X) X) (Y : Assignment A)
    (hY : ¬ Agree loaders times Y X) :
    totalCost J loaders times X < totalCost J loaders times Y := by
  have := c35_fixed_point hs (storeOf X) (ready_storeOf X) ?_ Y (by rwa [statesOf_storeOf])
  · rwa [statesOf_storeOf] at this
  · intro k S' h
    obtain ⟨S'', h5, -, h6⟩ := updateComponent_states hs (storeOf X) (ready_storeOf X) k
    have he : S' = S'' := by
      rw [h] at h5
      exact Except.ok.inj h5
    rw [he, h6, statesOf_storeOf]
    exact hf k

/-! ### Continuity -/

theorem continuous_quad {T : Type} [TopologicalSpace T] {n : Nat} (M : Mat n) {f : T → Vec n}
    (hf : Continuous f) : Continuous fun x => quad M (f x) :=
  Continuous.dotProduct hf (Continuous.matrix_mulVec continuous_const hf)

theorem continuous_state (k : Fin A.K) (κ : Option Int) : Continuous fun X : Assignment A => X k κ :=
  (continuous_apply κ).comp (continuous_apply k)

theorem continuous_predict (J : Designs A) (o : Obs) : Continuous fun X : Assignment A => predict J X o := by
  unfold predict
  exact continuous_finsetSum _ fun k _ => Continuous.matrix_mulVec continuous_const (continuous_state k _)

theorem continuous_others (J : Designs A) (k : Fin A.K) (o : Obs) :
    Continuous fun X : Assignment A => others J X k o := by
  unfold others
  refine continuous_finsetSum _ fun j _ => ?_
  split
  · exact Continuous.matrix_mulVec continuous_const (continuous_state j _)
  · exact continuous_const

theorem continuous_total (J : Designs A) (loaders : List Loader) (times : List Int) :
    Continuous fun X : Assignment A => totalCost J loaders times X := by
  unfold totalCost
  refine Continuous.add (continuous_finsetSum _ fun k _ => ?_) ?_
  · exact continuous_list_sum _ fun κ _ => continuous_quad _ (continuous_state k κ)
  · exact continuous_list_sum _ fun o _ => continuous_quad _
      (continuous_const.sub (continuous_predict J o))

theorem map_eq_solve {n : Nat} (Q : Mat n) (bs : List (Batch n)) :
    (systemOf Q bs).maximumAPosteriori =
      solveA (Q + (bs.map fun b : Batch n => b.update.precision).sum)
        ((bs.map fun b : Batch n => b.update.vector).sum) := by
  rw [systemOf_eq]
  rfl

theorem continuous_map (J : Designs A) (k : Fin A.K) (l : List Obs) :
    Continuous fun X : Assignment A => (systemOf (A.comp k).prior
      (l.map (batchOf (J k) (others J X k)))).maximumAPosteriori := by
  simp only [map_eq_solve, List.map_map]
  have hp : ∀ X : Assignment A, (l.map ((fun b : Batch (A.comp k).n => b.update.precision) ∘
      batchOf (J k) (others J X k))) = l.map fun o => (J k o)ᵀ * o.R * J k o := fun X => rfl
  simp only [hp, solveA]
  refine Continuous.matrix_mulVec continuous_const ?_
  refine continuous_list_sum _ fun o _ => ?_
  have hv : Continuous fun X : Assignment A => o.y - others J X k o :=
    Continuous.sub continuous_const (continuous_others J k o)
  exact Continuous.matrix_mulVec (A := fun _ => (J k o)ᵀ * o.R) continuous_const hv

theorem continuous_step (J : Designs A) (loaders : List Loader) (times : List Int) (k : Fin A.K) :
    Continuous (step J loaders times k) := by
  unfold step
  refine Continuous.update continuous_id k ?_
  refine continuous_pi fun κ => ?_
  cases κ with
  | none =>
    simp only [blockMin]
    cases (A.comp k).kind with
    | spaceTime =>
      have := continuous_map J k (times.flatMap (dayData loaders))
      simpa only [List.map_flatMap] using this
    | spatial => exact continuous_state k none
  | some t =>
    simp only [blockMin]
    cases (A.comp k).kind with
    | spaceTime => exact continuous_state k (some t)
    | spatial =>
      dsimp only
      split
      · exact continuous_map J k _
      · exact continuous_state k (some t)

theorem continuous_steps (J : Designs A) (loaders : List Loader) (times : List Int) (ks : List (Fin A.K)) :
    Continuous (steps J loaders times ks) := by
  induction ks with
  | nil => exact continuous_id
  | cons k ks ih => exact ih.comp (continuous_step J loaders times k)

/-! ### Finite dimension -/

/-- The estimated states only. -/
abbrev Estimated (A : Analysis) (loaders : List Loader) (times : List Int) :=
  ∀ k : Fin A.K, {κ // κ ∈ keys A loaders times k} → Vec (A.comp k).n

/-- Forget the states which are not estimated. -/
def restrict (X : Assignment A) : Estimated A loaders times := fun k κ => X k κ.1

/-- Zero for the states which are not estimated. -/
def extend (v : Estimated A loaders times) : Assignment A := fun k κ =>
  if h : κ ∈ keys A loaders times k then v k ⟨κ, h⟩ else 0

theorem restrict_extend (v : Estimated A loaders times) : restrict (extend v) = v := by
  funext k κ
  simp [restrict, extend, κ.2]

theorem agree_iff (X Y : Assignment A) :
    Agree loaders times X Y ↔ (restrict X : Estimated A loaders times) = restrict Y := by
  constructor
  · intro h
    funext k κ
    exact h k κ.1 κ.2
  · intro h k κ hκ
    exact congrFun (congrFun h k) ⟨κ, hκ⟩

theorem extend_restrict (X : Assignment A) :
    Agree loaders times (extend (restrict X : Estimated A loaders times)) X := by
  rw [agree_iff, restrict_extend]

theorem continuous_extend : Continuous (extend : Estimated A loaders times → Assignment A) := by
  refine continuous_pi fun k => continuous_pi fun κ => ?_
  unfold extend
  by_cases h : κ ∈ keys A loaders times k
  · simp only [h, dite_true]
    exact (continuous_apply _).comp (continuous_apply k)
  · simp only [h, dite_false]
    exact continuous_const

theorem continuous_restrict : Continuous (restrict : Assignment A → Estimated A loaders times) :=
  continuous_pi fun k => continuous_pi fun κ => continuous_state k κ.1

theorem continuous_curve (J : Designs A) (loaders : List Loader) (times : List Int) :
    Continuous fun X : Assignment A => curve J loaders times X := by
  unfold curve
  refine Continuous.add (continuous_finsetSum _ fun k _ => ?_) ?_
  · exact continuous_list_sum _ fun κ _ => continuous_quad _ (continuous_state k κ)
  · exact continuous_list_sum _ fun o _ => continuous_quad _ (continuous_predict J o)

/-- The cost grows with the size of the state. -/
theorem prior_coercive (hs : Setup A J loaders times) :
    ∃ c : ℝ, 0 < c ∧ ∀ v : Estimated A loaders times, c * (‖v‖ * ‖v‖) ≤
      ∑ k, ((keys A loaders times k).map fun κ => quad (A.comp k).prior (extend v k κ)).sum := by
  set q : Estimated A loaders times → ℝ := fun v =>
    ∑ k, ((keys A loaders times k).map fun κ => quad (A.comp k).prior (extend v k κ)).sum with hq
  have hcont : Continuous q := by
    refine continuous_finsetSum _ fun k _ => continuous_list_sum _ fun κ _ => continuous_quad _ ?_
    exact (continuous_state k κ).comp continuous_extend
  have hhom : ∀ (a : ℝ) v, q (a • v) = a * a * q v := by
    intro a v
    rw [hq]
    simp only [Finset.mul_sum]
    refine Finset.sum_congr rfl fun k _ => ?_
    rw [← List.sum_map_mul_left]
    congr 1
    refine List.map_congr_left fun κ hκ => ?_
    have : extend (a • v) k κ = a • extend v k κ := by
      simp [extend, hκ]
    rw [this]
    simp [quad, mulVec_smul]
    ring
  have hnn : ∀ v, 0 ≤ q v := fun v =>
    Finset.sum_nonneg fun k _ => sum_nonneg_list _ _ fun κ _ => quad_nonneg (hs.prior k).posSemidef _
  have hpos : ∀ v, v ≠ 0 → 0 < q v := by
    intro v hv
    have hex : ∃ k, ∃ κ : {κ // κ ∈ keys A loaders times k}, v k κ ≠ 0 := by
      by_contra hno
      push_neg at hno
      exact hv (by funext k κ; exact hno k κ)
    obtain ⟨k, κ, hne⟩ := hex
    apply Finset.sum_pos'
    · exact fun k _ => sum_nonneg_list _ _ fun κ _ => quad_nonneg (hs.prior k).posSemidef _
    · refine ⟨k, Finset.mem_univ k, ?_⟩
      have := sum_lt_of_le (keys A loaders times k) (fun _ => (0 : ℝ))
        (fun κ => quad (A.comp k).prior (extend v k κ)) (fun κ _ => quad_nonneg (hs.prior k).posSemidef _)
        ⟨κ.1, κ.2, quad_pos (hs.prior k) (by simpa [extend, κ.2] using hne)⟩
      simpa using this
  have hcompact : IsCompact (Metric.sphere (0 : Estimated A loaders times) 1) := isCompact_sphere 0 1
  by_cases hemp : (Metric.sphere (0 : Estimated A loaders times) 1).Nonempty
  · obtain ⟨w, hw, hmin⟩ := hcompact.exists_isMinOn hemp hcont.continuousOn
    have hw1 : ‖w‖ = 1 := by simpa using hw
    refine ⟨q w, hpos w (by intro h; rw [h, norm_zero] at hw1; exact zero_ne_one hw1), ?_⟩
    intro v
    by_cases hv : v = 0
    · rw [hv]; simpa using hnn 0
    · have hn : 0 < ‖v‖ := norm_pos_iff.2 hv
      have hmem : ‖v‖⁻¹ • v ∈ Metric.sphere (0 : Estimated A loaders times) 1 := by
        rw [mem_sphere_zero_iff_norm, norm_smul, norm_inv, norm_norm, inv_mul_cancel₀ hn.ne']
      have h1 : q w ≤ q (‖v‖⁻¹ • v) := hmin hmem
      rw [hhom] at h1
      have h2 := mul_le_mul_of_nonneg_right h1 (mul_nonneg hn.le hn.le)
      have h3 : ‖v‖⁻¹ * ‖v‖⁻¹ * q v * (‖v‖ * ‖v‖) = q v := by
        field_simp
      rw [h3] at h2
      exact h2
  · refine ⟨1, one_pos, ?_⟩
    intro v
    have hv : v = 0 := by
      by_contra hv
      have hn : 0 < ‖v‖ := norm_pos_iff.2 hv
      apply hemp
      refine ⟨‖v‖⁻¹ • v, ?_⟩
      rw [mem_sphere_zero_iff_norm, norm_smul, norm_inv, norm_norm, inv_mul_cancel₀ hn.ne']
    rw [hv]
    simpa using hnn 0

theorem levels_compact (hs : Setup A J loaders times) (r : ℝ) :
    IsCompact {v : Estimated A loaders times | totalCost J loaders times (extend v) ≤ r} := by
  obtain ⟨c, hc, hb⟩ := prior_coercive hs
  have hcl : IsClosed {v : Estimated A loaders times | totalCost J loaders times (extend v) ≤ r} :=
    isClosed_le ((continuous_total J loaders times).comp continuous_extend) continuous_const
  apply (isCompact_closedBall (0 : Estimated A loaders times) (|r| / c + 1)).of_isClosed_subset hcl
  intro v hv
  rw [mem_closedBall_zero_iff]
  have h1 : c * (‖v‖ * ‖v‖) ≤ r := by
    refine (hb v).trans (le_trans ?_ hv)
    rw [totalCost]
    exact le_add_of_nonneg_right (sum_nonneg_list _ _ fun o ho => quad_nonneg (allObs_psd hs ho) _)
  have h2 : ‖v‖ * ‖v‖ ≤ |r| / c := by
    rw [le_div_iff₀ hc]
    nlinarith [le_abs_self r]
  nlinarith [norm_nonneg v, abs_nonneg r, div_nonneg (abs_nonneg r) hc.le]

/-- C35: there is exactly one joint optimum of all components, and repeating the update of the analysis from any
states whatever converges to it. -/
theorem c35_converges (hs : Setup A J loaders times) :
    ∃ X : Assignment A,
      (∀ Y, ¬ Agree loaders times Y X → totalCost J loaders times X < totalCost J loaders times Y) ∧
      ∀ S : ℕ → Store A, Ready times (S 0) → (∀ n, update A loaders times (S n) = .ok (S (n + 1))) →
        ∀ k, ∀ κ ∈ keys A loaders times k,
          Tendsto (fun n => statesOf (S n) k κ) atTop (𝓝 (X k κ)) := by
  set Φ : Estimated A loaders times → ℝ := fun v => totalCost J loaders times (extend v) with hΦ
  set T : Estimated A loaders times → Estimated A loaders times := fun v =>
    restrict (steps J loaders times (List.finRange A.K) (extend v)) with hT
  have hΦc : Continuous Φ := (continuous_total J loaders times).comp continuous_extend
  have hTc : Continuous T :=
    continuous_restrict.comp ((continuous_steps J loaders times _).comp continuous_extend)
  obtain ⟨p, hp, hmin⟩ := (levels_compact hs (Φ 0)).exists_isMinOn ⟨0, le_refl (Φ 0)⟩ hΦc.continuousOn
  have hall : ∀ v, Φ p ≤ Φ v := by
    intro v
    by_cases hv : Φ v ≤ Φ 0
    · exact hmin hv
    · exact le_trans hp (le_of_lt (not_le.1 hv))
  have hle : ∀ v, Φ (T v) ≤ Φ v := by
    intro v
    have h1 := (steps_le hs (List.finRange A.K) (extend v)).1
    rw [hΦ]
    dsimp only
    rw [total_agree hs (extend_restrict (steps J loaders times (List.finRange A.K) (extend v)))]
    exact h1
  have hfixed : ∀ v, Φ v ≤ Φ (T v) → ∀ Y, ¬ Agree loaders times Y (extend v) →
      totalCost J loaders times (extend v) < totalCost J loaders times Y := by
    intro v hv Y hY
    refine optimum_of_fixed hs (extend v) (fun k => ?_) Y hY
    refine (steps_le hs (List.finRange A.K) (extend v)).2 ?_ k (by simp)
    rw [← total_agree hs (extend_restrict (steps J loaders times (List.finRange A.K) (extend v)))]
    exact hv
  have hopt := hfixed p (hall _)
  have hlt : ∀ v, v ≠ p → Φ (T v) < Φ v := by
    intro v hv
    by_contra hn
    have h1 := hfixed v (not_lt.1 hn) (extend p) (by
      intro h
      rw [agree_iff, restrict_extend, restrict_extend] at h
      exact hv h.symm)
    have h2 := hall v
    exact absurd h1 (not_lt.2 h2)
  refine ⟨extend p, hopt, ?_⟩
  intro S hr hS k κ hκ
  have hready : ∀ n, Ready times (S n) ∧
      statesOf (S (n + 1)) = steps J loaders times (List.finRange A.K) (statesOf (S n)) := by
    have hone : ∀ n, Ready times (S n) → Ready times (S (n + 1)) ∧
      statesOf (S (n + 1)) = steps J loaders times (List.finRange A.K) (statesOf (S n)) := by
      intro n hn
      obtain ⟨S', h1, h2, h3⟩ := updateAll_states hs (List.finRange A.K) (S n) hn
      have he : S (n + 1) = S' := by
        have := hS n
        rw [update, h1] at this
        exact (Except.ok.inj this).symm
      rw [he]
      exact ⟨h2, h3⟩
    have hrn : ∀ n, Ready times (S n) := by
      intro n
      induction n with
      | zero => exact hr
      | succ n ih => exact (hone n ih).1
    exact fun n => ⟨hrn n, (hone n (hrn n)).2⟩
  have hconv := descent T Φ p hTc hΦc (levels_compact hs) hle hlt hall
    (fun n => restrict (statesOf (S n))) (by
      intro n
      rw [(hready n).2]
      exact (agree_iff _ _).1 (steps_agree hs _ (agree_symm (extend_restrict (statesOf (S n))))))
  have h1 := tendsto_pi_nhds.1 (tendsto_pi_nhds.1 hconv k) ⟨κ, hκ⟩
  have h2 : extend p k κ = p k ⟨κ, hκ⟩ := by simp [extend, hκ]
  rw [h2]
  exact h1

end Verif.Eustace.Components
