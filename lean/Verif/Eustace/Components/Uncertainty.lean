import Verif.Eustace.Components.Storage
import Mathlib.Tactic.FinCases

/-!
Reported uncertainties of the analysis (C82, C83), and a concrete case for the theorems on the iteration.
-/

namespace Verif.Eustace.Components

open Matrix Verif.Eustace.Linear

variable {A : Analysis} {J : Designs A} {loaders : List Loader} {times : List Int}

/-- Observations in which a state takes part. -/
def relevant (loaders : List Loader) (times : List Int) (κ : Option Int) : List Obs :=
  match κ with
  | none => allObs loaders times
  | some t => dayObs loaders t

/-- Precision of a state if the states of all other components were known. -/
def condPrecision (J : Designs A) (loaders : List Loader) (times : List Int) (k : Fin A.K) (κ : Option Int) :
    Mat (A.comp k).n :=
  (A.comp k).prior + ((relevant loaders times κ).map fun o => (J k o)ᵀ * o.R * J k o).sum

/-- Stored standard deviations. -/
def stdOf (S : Store A) (k : Fin A.K) (κ : Option Int) : Option (Vec (A.comp k).n) :=
  match κ with
  | none => (S k).std
  | some t => (S k).stds t

/-- A change of a single state. -/
def single (k : Fin A.K) (κ : Option Int) (h : Vec (A.comp k).n) : Assignment A :=
  Function.update 0 k (Function.update 0 κ h)

/-- `σ` is at least the standard deviation which the joint posterior of all components gives to the output `i` of
`o`: the variance of a linear output `a` is the largest value of `(a · H)² / curve H`. -/
def Covers (J : Designs A) (loaders : List Loader) (times : List Int) (o : Obs) (i : Fin o.m) (σ : ℝ) : Prop :=
  ∀ H : Assignment A, predict J H o i ^ 2 ≤ σ ^ 2 * curve J loaders times H

theorem precision_no_obs {n : Nat} (o : Obs) (h : ¬ 0 < o.m) (M : Matrix (Fin o.m) (Fin n) ℝ) :
    Mᵀ * o.R * M = 0 := by
  ext i j
  rw [mul_apply]
  exact Finset.sum_eq_zero fun i _ => absurd (Nat.lt_of_le_of_lt (Nat.zero_le _) i.isLt) h

theorem sum_filter_mat {n : Nat} (l : List Obs) (f : Obs → Mat n) (h : ∀ o, ¬ 0 < o.m → f o = 0) :
    (l.map f).sum = ((l.filter fun o => 0 < o.m).map f).sum := by
  induction l with
  | nil => rfl
  | cons o l ih =>
    rw [List.map_cons, List.sum_cons, ih, List.filter_cons]
    by_cases ho : 0 < o.m
    · simp [ho]
    · simp [ho, h o ho]

theorem marginalStdOf_eq (Q : Mat n) (bs : List (Batch n)) (hQ : Q.PosDef) (hR : ∀ b ∈ bs, b.R.PosSemidef) :
    marginalStdOf (systemOf Q bs) = fun j =>
      Real.sqrt ((Q + (bs.map fun b : Batch n => b.J.transpose * b.R * b.J).sum)⁻¹ j j) := by
  have hP := posterior_posDef Q bs hQ hR
  funext j
  rw [marginalStdOf, fromUpper_symm (sym_of_herm hP.1), systemOf_eq]
  rfl

theorem condPrecision_spaceTime (k : Fin A.K) :
    condPrecision J loaders times k none = (A.comp k).prior +
      ((times.flatMap (dayData loaders)).map fun o => (J k o)ᵀ * o.R * J k o).sum := by
  rw [condPrecision]
  congr 1
  have : ∀ ts : List Int, ((ts.flatMap (dayObs loaders)).map fun o => (J k o)ᵀ * o.R * J k o).sum =
      ((ts.flatMap (dayData loaders)).map fun o => (J k o)ᵀ * o.R * J k o).sum := by
    intro ts
    induction ts with
    | nil => rfl
    | cons t ts ih =>
      simp only [List.flatMap_cons, List.map_append, List.sum_append, ih]
      rw [sum_filter_mat (dayObs loaders t) (fun o => (J k o)ᵀ * o.R * J k o)
        (fun o ho => precision_no_obs o ho _)]
      rfl
  exact this times

theorem condPrecision_spatial (k : Fin A.K) (t : Int) :
    condPrecision J loaders times k (some t) = (A.comp k).prior +
      ((dayData loaders t).map fun o => (J k o)ᵀ * o.R * J k o).sum := by
  rw [condPrecision]
  congr 1
  exact sum_filter_mat (dayObs loaders t) (fun o => (J k o)ᵀ * o.R * J k o)
        (fun o ho => precision_no_obs o ho _)

/-- After a component update the stored standard deviations are those of the states given all other components. -/
theorem updateComponent_std (hs : Setup A J loaders times) (S : Store A) (hr : Ready times S) (k : Fin A.K) :
    ∃ S', updateComponent A loaders times k S = .ok S' ∧ Ready times S' ∧ (∀ j, j ≠ k → S' j = S j) ∧
      ((A.comp k).computeUncertainties = true → ∀ κ ∈ keys A loaders times k,
        stdOf S' k κ = some fun j => Real.sqrt ((condPrecision J loaders times k κ)⁻¹ j j)) := by
  cases hk : (A.comp k).kind with
  | spaceTime =>
    obtain ⟨st, h1, -, h3, h4, -, -⟩ := updateComponent_spaceTime k hk (hs.linear k) loaders times
      hs.distinct hs.time (hs.data k hk) S (hr k hk)
    refine ⟨_, h1, ?_, fun j hj => by simp [hj], ?_⟩
    · intro j hj
      by_cases hjk : j = k
      · subst hjk; rw [Function.update_self]; exact h4
      · rw [Function.update_of_ne hjk]; exact hr j hj
    · intro hu κ hκ
      have hkeys : keys A loaders times k = [none] := by simp [keys, hk]
      rw [hkeys, List.mem_singleton] at hκ
      subst hκ
      simp only [stdOf, Function.update_self, h3, hu, if_true]
      rw [marginalStdOf_eq _ _ (hs.prior k), condPrecision_spaceTime, batches]
      · simp only [List.map_flatMap, List.map_map]
        rfl
      · intro b hb
        rw [batches, List.mem_flatMap] at hb
        obtain ⟨t, ht, hb⟩ := hb
        obtain ⟨o, ho, rfl⟩ := List.mem_map.1 hb
        exact (day_time hs ht ho).2
  | spatial =>
    obtain ⟨st, h1, -, h2, -, -, h4⟩ := updateComponent_spatial k hk (hs.linear k) loaders
      hs.loader times hs.time S
    refine ⟨_, h1, ?_, fun j hj => by simp [hj], ?_⟩
    · intro j hj
      by_cases hjk : j = k
      · subst hjk; rw [hk] at hj; cases hj
      · rw [Function.update_of_ne hjk]; exact hr j hj
    · intro hu κ hκ
      have hkeys : keys A loaders times k = (times.filter fun t => HasData loaders t).map some := by
        simp [keys, hk]
      rw [hkeys, List.mem_map] at hκ
      obtain ⟨t, ht, rfl⟩ := hκ
      rw [List.mem_filter] at ht
      simp only [stdOf, Function.update_self, h2]
      rw [if_pos ⟨ht.1, by simpa using ht.2, hu⟩, marginalStdOf_eq _ _ (hs.prior k), condPrecision_spatial]
      · simp only [List.map_map]
        rfl
      · intro b hb
        obtain ⟨o, ho, rfl⟩ := List.mem_map.1 hb
        exact (day_time hs ht.1 ho).2

/-- C83: what an update of the analysis stores as uncertainty of each component are the standard deviations of its
states given the states of all other components. -/
theorem c83_reported (hs : Setup A J loaders times) (S : Store A) (hr : Ready times S) :
    ∃ S', update A loaders times S = .ok S' ∧ ∀ k, (A.comp k).computeUncertainties = true →
      ∀ κ ∈ keys A loaders times k,
        stdOf S' k κ = some fun j => Real.sqrt ((condPrecision J loaders times k κ)⁻¹ j j) := by
  have hgen : ∀ (ks : List (Fin A.K)) (S : Store A), Ready times S →
      ∃ S', updateAll A loaders times ks S = .ok S' ∧ ∀ k, (k ∉ ks → S' k = S k) ∧
        (k ∈ ks → (A.comp k).computeUncertainties = true → ∀ κ ∈ keys A loaders times k,
          stdOf S' k κ = some fun j => Real.sqrt ((condPrecision J loaders times k κ)⁻¹ j j)) := by
    intro ks
    induction ks with
    | nil => intro S _; exact ⟨S, rfl, fun k => ⟨fun _ => rfl, fun h => absurd h (by simp)⟩⟩
    | cons k ks ih =>
      intro S hr
      obtain ⟨S₁, h1, h2, h3, h4⟩ := updateComponent_std hs S hr k
      obtain ⟨S₂, h5, h6⟩ := ih S₁ h2
      refine ⟨S₂, by rw [updateAll, h1]; exact h5, fun j => ⟨?_, ?_⟩⟩
      · intro hj
        rw [List.mem_cons, not_or] at hj
        rw [(h6 j).1 hj.2, h3 j hj.1]
      · intro hj hu κ hκ
        by_cases hjk : j ∈ ks
        · exact (h6 j).2 hjk hu κ hκ
        · rcases List.mem_cons.1 hj with rfl | hj
          · have he := (h6 j).1 hjk
            have h7 := h4 hu κ hκ
            cases κ <;> simpa only [stdOf, he] using h7
          · exact absurd hj hjk
  obtain ⟨S', h1, h2⟩ := hgen (List.finRange A.K) S hr
  exact ⟨S', h1, fun k hu κ hκ => (h2 k).2 (by simp) hu κ hκ⟩

/-! ### The part which holds: one component given the others -/

theorem keys_nodup (hs : Setup A J loaders times) (k : Fin A.K) : (keys A loaders times k).Nodup := by
  unfold keys
  cases (A.comp k).kind with
  | spaceTime => simp
  | spatial => exact (hs.distinct.filter _).map (Option.some_injective _)

theorem sum_map_update {α : Type} [DecidableEq α] {n : Nat} (l : List α) (hl : l.Nodup) (a : α) (ha : a ∈ l)
    (M : Mat n) (h : Vec n) :
    (l.map fun b => quad M ((Function.update 0 a h : α → Vec n) b)).sum = quad M h := by
  induction l with
  | nil => cases ha
  | cons b l ih =>
    rw [List.nodup_cons] at hl
    rw [List.map_cons, List.sum_cons]
    have h0 : quad M (0 : Vec n) = 0 := by simp [quad]
    by_cases hb : b = a
    · subst hb
      have hz : (l.map fun c => quad M ((Function.update 0 b h : α → Vec n) c)) = l.map fun _ => (0 : ℝ) := by
        refine List.map_congr_left fun c hc => ?_
        have : c ≠ b := fun e => hl.1 (e ▸ hc)
        simp [this, h0]
      rw [hz, Function.update_self]
      simp
    · rcases List.mem_cons.1 ha with e | ha
      · exact absurd e.symm hb
      · rw [ih hl.2 ha, Function.update_of_ne hb]
        simp [h0]

theorem predict_single (k : Fin A.K) (κ : Option Int) (h : Vec (A.comp k).n) (o : Obs) :
    predict J (single k κ h) o = if keyAt A k o.time = κ then J k o *ᵥ h else 0 := by
  rw [predict, Finset.sum_eq_single k]
  · simp only [single, Function.update_self]
    by_cases hκ : keyAt A k o.time = κ
    · rw [if_pos hκ, hκ, Function.update_self]
    · rw [if_neg hκ, Function.update_of_ne hκ]
      simp
  · intro j _ hj
    simp [single, Function.update_of_ne hj]
  · simp

theorem quad_design {m n : Nat} (M : Matrix (Fin m) (Fin n) ℝ) (R : Mat m) (h : Vec n) :
    quad R (M *ᵥ h) = quad (Mᵀ * R * M) h := by
  rw [quad, quad, ← mulVec_mulVec, ← mulVec_mulVec, dotProduct_mulVec h, vecMul_transpose]

theorem quad_list_sum {n : Nat} (l : List Obs) (f : Obs → Mat n) (h : Vec n) :
    quad ((l.map f).sum) h = (l.map fun o => quad (f o) h).sum := by
  induction l with
  | nil => simp [quad]
  | cons o l ih => simp only [List.map_cons, List.sum_cons, quad_add_matrix, ih]

/-- The cost as a function of a single state has the curvature which the code calls posterior precision. -/
theorem curve_single (hs : Setup A J loaders times) (k : Fin A.K) (κ : Option Int)
    (hκ : κ ∈ keys A loaders times k) (h : Vec (A.comp k).n) :
    curve J loaders times (single k κ h) = quad (condPrecision J loaders times k κ) h := by
  rw [curve, condPrecision, quad_add_matrix, quad_list_sum]
  congr 1
  · rw [Finset.sum_eq_single k]
    · simp only [single, Function.update_self]
      exact sum_map_update _ (keys_nodup hs k) κ hκ _ _
    · intro j _ hj
      have h0 : ∀ κ', quad (A.comp j).prior (single k κ h j κ') = 0 := by
        intro κ'
        simp [single, Function.update_of_ne hj, quad]
      simp [h0]
    · simp
  · have h0 : ∀ {m : Nat} (R : Mat m), quad R 0 = 0 := fun R => by simp [quad]
    unfold keys at hκ
    cases hk : (A.comp k).kind with
    | spaceTime =>
      rw [hk] at hκ
      simp only [List.mem_singleton] at hκ
      subst hκ
      congr 1
      refine List.map_congr_left fun o _ => ?_
      rw [predict_single, keyAt, hk]
      simp only [if_true]
      exact quad_design _ _ _
    | spatial =>
      rw [hk] at hκ
      simp only [List.mem_map, List.mem_filter] at hκ
      obtain ⟨t, ⟨ht, -⟩, rfl⟩ := hκ
      simp only [relevant]
      rw [allObs, sum_flatMap]
      have hkey : ∀ u, keyAt A k u = some u := fun u => by simp [keyAt, hk]
      have hday : ∀ u ∈ times, ((dayObs loaders u).map fun o =>
          quad o.R (predict J (single k (some t) h) o)).sum =
          if u = t then ((dayObs loaders t).map fun o => quad ((J k o)ᵀ * o.R * J k o) h).sum else 0 := by
        intro u hu
        by_cases hut : u = t
        · subst hut
          rw [if_pos rfl]
          congr 1
          refine List.map_congr_left fun o ho => ?_
          obtain ⟨l, hl, rfl⟩ := List.mem_map.1 ho
          rw [predict_single, hkey, hs.time l hl u hu, if_pos rfl]
          exact quad_design _ _ _
        · rw [if_neg hut]
          have : ((dayObs loaders u).map fun o => quad o.R (predict J (single k (some t) h) o)) =
              (dayObs loaders u).map fun _ => (0 : ℝ) := by
            refine List.map_congr_left fun o ho => ?_
            obtain ⟨l, hl, rfl⟩ := List.mem_map.1 ho
            rw [predict_single, hkey, hs.time l hl u hu, if_neg (by simpa using hut), h0]
          rw [this]
          simp
      rw [List.map_congr_left hday]
      have hsum : ∀ (ts : List Int) (c : ℝ), ts.Nodup → t ∈ ts →
          (ts.map fun u => if u = t then c else 0).sum = c := by
        intro ts c hn hm
        induction ts with
        | nil => cases hm
        | cons u ts ih =>
          rw [List.nodup_cons] at hn
          rw [List.map_cons, List.sum_cons]
          by_cases hut : u = t
          · subst hut
            rw [if_pos rfl]
            have : (ts.map fun v => if v = u then c else 0) = ts.map fun _ => (0 : ℝ) :=
              List.map_congr_left fun v hv => by
                have : v ≠ u := fun e => hn.1 (e ▸ hv)
                simp [this]
            rw [this]
            simp
          · rcases List.mem_cons.1 hm with e | hm
            · exact absurd e.symm hut
            · rw [if_neg hut, ih hn.2 hm, zero_add]
      exact hsum times _ hs.distinct ht

theorem cauchy {n : Nat} {P : Mat n} (hP : P.PosDef) (a h : Vec n) :
    (a ⬝ᵥ h) ^ 2 ≤ outputVariance P⁻¹ a * quad P h := by
  by_cases hz : h = 0
  · subst hz
    simp [quad]
  · have hq := quad_pos hP hz
    have hv := variational hP a ((a ⬝ᵥ h / quad P h) • h)
    have e1 : ((a ⬝ᵥ h / quad P h) • h) ⬝ᵥ a = (a ⬝ᵥ h) ^ 2 / quad P h := by
      rw [smul_dotProduct, dotProduct_comm h a, smul_eq_mul]
      ring
    have e2 : quad P ((a ⬝ᵥ h / quad P h) • h) = (a ⬝ᵥ h) ^ 2 / quad P h := by
      have : quad P ((a ⬝ᵥ h / quad P h) • h) = (a ⬝ᵥ h / quad P h) * ((a ⬝ᵥ h / quad P h) * quad P h) := by
        simp only [quad, mulVec_smul, smul_dotProduct, dotProduct_smul, smul_eq_mul]
      rw [this]
      field_simp
    rw [e1, e2] at hv
    have h3 : (a ⬝ᵥ h) ^ 2 / quad P h ≤ outputVariance P⁻¹ a := by linarith
    rwa [div_le_iff₀ hq] at h3

theorem condPrecision_posDef (hs : Setup A J loaders times) (k : Fin A.K) (κ : Option Int)
    (hκ : κ ∈ keys A loaders times k) : (condPrecision J loaders times k κ).PosDef := by
  refine (hs.prior k).add_posSemidef ?_
  have hpsd : ∀ l : List Obs, (∀ o ∈ l, o.R.PosSemidef) →
      ((l.map fun o => (J k o)ᵀ * o.R * J k o).sum).PosSemidef := by
    intro l hl
    induction l with
    | nil => simpa using (Matrix.PosSemidef.zero (n := Fin (A.comp k).n) (R := ℝ))
    | cons o l ih =>
      simp only [List.map_cons, List.sum_cons]
      refine Matrix.PosSemidef.add ?_ (ih fun o ho => hl o (by simp [ho]))
      have := (hl o (by simp)).conjTranspose_mul_mul_same (J k o)
      simpa [conjTranspose_eq_transpose_of_trivial] using this
  apply hpsd
  intro o ho
  cases κ with
  | none => exact allObs_psd hs ho
  | some t =>
    obtain ⟨l, hl, rfl⟩ := List.mem_map.1 ho
    unfold keys at hκ
    cases hk : (A.comp k).kind with
    | spaceTime => rw [hk] at hκ; simp at hκ
    | spatial =>
      rw [hk] at hκ
      simp only [List.mem_map, List.mem_filter, Option.some.injEq] at hκ
      obtain ⟨u, ⟨hu, -⟩, rfl⟩ := hκ
      exact hs.precision l hl u hu

/-- C83, what holds: the uncertainty which a component reports for an output covers every change of its own state
alone, the states of the other components held fixed. -/
theorem c83_conditional_partial (hs : Setup A J loaders times)
    (hrect : ∀ k o x, (A.comp k).rectified o x = designFunction (J k o) x true)
    (S : Store A) (hr : Ready times S) :
    ∃ S', update A loaders times S = .ok S' ∧ ∀ k, (A.comp k).computeUncertainties = true →
      ∀ (o : Obs) (i : Fin o.m) (h : Vec (A.comp k).n), keyAt A k o.time ∈ keys A loaders times k →
        predict J (single k (keyAt A k o.time) h) o i ^ 2 ≤
          expectedUncertainty (A.comp k) (S' k) o i ^ 2 *
            curve J loaders times (single k (keyAt A k o.time) h) := by
  obtain ⟨S', h1, h2⟩ := c83_reported hs S hr
  refine ⟨S', h1, ?_⟩
  intro k hu o i h hκ
  have hP := condPrecision_posDef hs k _ hκ
  have hstd := h2 k hu _ hκ
  have hexp : expectedUncertainty (A.comp k) (S' k) o = designFunction (J k o)
      (fun j => Real.sqrt ((condPrecision J loaders times k (keyAt A k o.time))⁻¹ j j)) true := by
    rw [← hrect]
    unfold expectedUncertainty
    unfold keyAt at hstd ⊢
    cases hk : (A.comp k).kind with
    | spaceTime =>
      simp only [hk, stdOf] at hstd ⊢
      rw [hstd]
    | spatial =>
      simp only [hk, stdOf] at hstd ⊢
      rw [hstd]
  rw [predict_single, if_pos rfl, curve_single hs k _ hκ, hexp]
  have hc := c80_conservative (hP.inv.posSemidef) (J k o) i
  have hv0 : 0 ≤ outputVariance (condPrecision J loaders times k (keyAt A k o.time))⁻¹ (J k o i) :=
    quad_nonneg hP.inv.posSemidef _
  have hsq : outputVariance (condPrecision J loaders times k (keyAt A k o.time))⁻¹ (J k o i) ≤
      designFunction (J k o) (fun j => Real.sqrt
        ((condPrecision J loaders times k (keyAt A k o.time))⁻¹ j j)) true i ^ 2 := by
    rw [← Real.sq_sqrt hv0]
    exact pow_le_pow_left₀ (Real.sqrt_nonneg _) hc 2
  have hca := cauchy hP (J k o i) h
  have he : (J k o *ᵥ h) i = J k o i ⬝ᵥ h := rfl
  rw [he]
  exact hca.trans (mul_le_mul_of_nonneg_right hsq (quad_nonneg hP.posSemidef h))

theorem evaluateStd_sq (S : Store A) (o : Obs) (i : Fin o.m) :
    evaluateStd A S o i ^ 2 = ∑ k, expectedUncertainty (A.comp k) (S k) o i ^ 2 := by
  have hfold : ∀ (l : List (Fin A.K)) (a : ℝ), l.foldl (fun acc j => acc +
      expectedUncertainty (A.comp j) (S j) o i * expectedUncertainty (A.comp j) (S j) o i) a =
      a + (l.map fun j => expectedUncertainty (A.comp j) (S j) o i ^ 2).sum := by
    intro l
    induction l with
    | nil => intro a; simp
    | cons j l ih =>
      intro a
      rw [List.foldl_cons, ih, List.map_cons, List.sum_cons]
      ring
  rw [evaluateStd, hfold, zero_add, Real.sq_sqrt]
  · rw [Fin.sum_univ_def]
  · exact List.sum_nonneg (by
      intro x hx
      obtain ⟨j, -, rfl⟩ := List.mem_map.1 hx
      exact sq_nonneg _)

/-- C83, what holds: the reported uncertainty of the whole analysis covers the joint posterior if the states which the
output depends on are independent of each other, that is if the cost of changing them all is no less than the sum of
the costs of changing one at a time. -/
theorem c83_independent_partial (hs : Setup A J loaders times)
    (hrect : ∀ k o x, (A.comp k).rectified o x = designFunction (J k o) x true)
    (hall : ∀ k, (A.comp k).computeUncertainties = true) (S : Store A) (hr : Ready times S) :
    ∃ S', update A loaders times S = .ok S' ∧
      ∀ (o : Obs) (i : Fin o.m), (∀ k, keyAt A k o.time ∈ keys A loaders times k) →
        (∀ H : Assignment A, ∑ k, curve J loaders times (single k (keyAt A k o.time) (H k (keyAt A k o.time))) ≤
          curve J loaders times H) →
        Covers J loaders times o i (evaluateStd A S' o i) := by
  obtain ⟨S', h1, h2⟩ := c83_conditional_partial hs hrect S hr
  refine ⟨S', h1, ?_⟩
  intro o i hκ hind H
  rw [evaluateStd_sq]
  have hp : predict J H o i =
      ∑ k, predict J (single k (keyAt A k o.time) (H k (keyAt A k o.time))) o i := by
    simp only [predict_single, if_true]
    rw [predict, Finset.sum_apply]
  have hc : ∀ k, 0 ≤ curve J loaders times (single k (keyAt A k o.time) (H k (keyAt A k o.time))) := fun k => by
    rw [curve_single hs k _ (hκ k)]
    exact quad_nonneg (condPrecision_posDef hs k _ (hκ k)).posSemidef _
  rw [hp]
  refine le_trans ?_ (mul_le_mul_of_nonneg_left (hind H) (Finset.sum_nonneg fun k _ => sq_nonneg _))
  refine Finset.sum_sq_le_sum_mul_sum_of_sq_le_mul _ (fun k _ => sq_nonneg _) (fun k _ => hc k) fun k _ => ?_
  exact h2 k (hall k) o i _ (hκ k)

/-! ### C83: the joint posterior -/

/-- A component with one parameter, design weight `f` of the first coordinate of the location. -/
noncomputable def pointComp (f : ℝ → ℝ) (kind : Kind) : Comp where
  toElement := linearElement 1 1 fun o => Matrix.of fun i _ => f (o.loc i).1
  kind := kind
  computeUncertainties := true

/-- Designs of such components. -/
noncomputable def pointDesign (f : ℝ → ℝ) (o : Obs) : Matrix (Fin o.m) (Fin 1) ℝ :=
  Matrix.of fun i _ => f (o.loc i).1

theorem pointComp_linear (f : ℝ → ℝ) (kind : Kind) : IsLinear (pointComp f kind) (pointDesign f) where
  linear := rfl
  function o x := by
    simp only [pointComp, linearElement, designFunction]
    rfl
  jacobian o x := rfl

/-- One observation of value one and precision one at the given first coordinate. -/
noncomputable def pointObs (x : ℝ) (t : Int) : Obs := ⟨t, 1, fun _ => (x, 0), fun _ => 1, 1⟩

/-- Design weights of two components: the second one takes part where the coordinate is not zero. -/
def twoWeights (k : Fin 2) (x : ℝ) : ℝ := if k = 0 then 1 else x

/-- Two components, both for all days. -/
noncomputable abbrev twoComps : Analysis := ⟨2, fun k => pointComp (twoWeights k) .spaceTime⟩

/-- Their designs. -/
noncomputable abbrev twoDesigns : Designs twoComps := fun k => pointDesign (twoWeights k)

/-- A loader which has one observation of the sum of both components every day. -/
noncomputable def sumLoader : Loader := fun t => pointObs 1 t

theorem twoComps_setup : Setup twoComps twoDesigns [sumLoader] [0] where
  linear k := pointComp_linear (twoWeights k) .spaceTime
  prior k := Matrix.PosDef.one
  precision l hl t ht := by
    rw [List.mem_singleton] at hl
    subst hl
    exact Matrix.PosSemidef.one
  time l hl t ht := by
    rw [List.mem_singleton] at hl
    subst hl
    rfl
  distinct := by simp
  loader := by simp
  data k hk t ht := ⟨sumLoader, by simp, Nat.one_pos⟩

theorem inv_one (M : Mat 1) (a : ℝ) (hM : M 0 0 = a) (ha : a ≠ 0) : M⁻¹ 0 0 = a⁻¹ := by
  have hi : M⁻¹ = Matrix.of fun _ _ => a⁻¹ := by
    apply inv_eq_right_inv
    ext i j
    have hi : i = 0 := Subsingleton.elim _ _
    have hj : j = 0 := Subsingleton.elim _ _
    subst hi hj
    simp [mul_apply, ha, hM]
  rw [hi]
  rfl

/-- C83: the reported uncertainty of the sum of all components can be smaller than the standard deviation of the joint
posterior: two components are observed in sum, and the output has the first one only; reported is the square root of 1/2
instead of 2/3. -/
theorem c83_joint_violated : ∃ (A : Analysis) (J : Designs A) (loaders : List Loader) (times : List Int),
    Setup A J loaders times ∧ (∀ k, (A.comp k).computeUncertainties = true) ∧
    ∀ S : Store A, Ready times S → ∃ S', update A loaders times S = .ok S' ∧
      evaluateStd A S' (pointObs 0 0) (0 : Fin 1) = Real.sqrt (1 / 2) ∧
      ¬ Covers J loaders times (pointObs 0 0) (0 : Fin 1) (evaluateStd A S' (pointObs 0 0) (0 : Fin 1)) := by
  refine ⟨twoComps, twoDesigns, [sumLoader], [0], twoComps_setup, fun k => rfl, ?_⟩
  intro S hr
  obtain ⟨S', h1, h2⟩ := c83_reported twoComps_setup S hr
  have hprec : ∀ k : Fin 2, condPrecision twoDesigns [sumLoader] [0] k none =
      (Matrix.of fun _ _ => 2 : Mat 1) := by
    intro k
    have h : condPrecision twoDesigns [sumLoader] [0] k none = ((1 : Mat 1) +
        (((Matrix.of fun _ _ => twoWeights k 1 : Mat 1)ᵀ * (1 : Mat 1) * (Matrix.of fun _ _ => twoWeights k 1 : Mat 1) +
          0 : Mat 1)) : Mat 1) := rfl
    have hw : twoWeights k 1 = 1 := by fin_cases k <;> simp [twoWeights]
    rw [h, hw]
    refine Matrix.ext fun i j => ?_
    have hi : i = (0 : Fin 1) := Subsingleton.elim (α := Fin 1) _ _
    have hj : j = (0 : Fin 1) := Subsingleton.elim (α := Fin 1) _ _
    subst hi hj
    simp [mul_apply]
    norm_num
  have hstd : ∀ k : Fin 2, (S' k).std = some (fun _ : Fin 1 => Real.sqrt (1 / 2)) := by
    intro k
    have h := h2 k rfl none (by
      show none ∈ [none]
      simp)
    have he : (fun j => Real.sqrt ((condPrecision twoDesigns [sumLoader] [0] k none)⁻¹ j j)) =
        fun _ : Fin 1 => Real.sqrt (1 / 2) := by
      funext j
      have hj : j = (0 : Fin 1) := Subsingleton.elim (α := Fin 1) _ _
      subst hj
      have hi : (condPrecision twoDesigns [sumLoader] [0] k none)⁻¹ (0 : Fin 1) (0 : Fin 1) = (2 : ℝ)⁻¹ := by
        rw [hprec k]
        exact inv_one (Matrix.of fun _ _ => 2) 2 rfl (by norm_num)
      rw [one_div]
      exact congrArg Real.sqrt hi
    exact h.trans (congrArg some he)
  have hu : ∀ k : Fin 2, expectedUncertainty (twoComps.comp k) (S' k) (pointObs 0 0) (0 : Fin 1) =
      if k = 0 then Real.sqrt (1 / 2) else 0 := by
    intro k
    have h : expectedUncertainty (twoComps.comp k) (S' k) (pointObs 0 0) =
        (twoComps.comp k).rectified (pointObs 0 0) (fun _ : Fin 1 => Real.sqrt (1 / 2)) := by
      unfold expectedUncertainty
      have hk : (twoComps.comp k).kind = .spaceTime := rfl
      rw [hk]
      dsimp only
      rw [hstd k]
    rw [h]
    have hr : (twoComps.comp k).rectified (pointObs 0 0) (fun _ : Fin 1 => Real.sqrt (1 / 2)) (0 : Fin 1) =
        designFunction (Matrix.of fun _ _ => twoWeights k 0 : Mat 1) (fun _ : Fin 1 => Real.sqrt (1 / 2)) true 0 :=
      rfl
    rw [hr]
    fin_cases k <;> simp [designFunction, twoWeights, mulVec, dotProduct]
  have hval : evaluateStd twoComps S' (pointObs 0 0) (0 : Fin 1) = Real.sqrt (1 / 2) := by
    have h0 := hu 0
    have h1 := hu 1
    rw [if_pos rfl] at h0
    rw [if_neg (by decide)] at h1
    have : evaluateStd twoComps S' (pointObs 0 0) (0 : Fin 1) = Real.sqrt ((0 +
        expectedUncertainty (twoComps.comp (0 : Fin 2)) (S' (0 : Fin 2)) (pointObs 0 0) (0 : Fin 1) *
        expectedUncertainty (twoComps.comp (0 : Fin 2)) (S' (0 : Fin 2)) (pointObs 0 0) (0 : Fin 1)) +
        expectedUncertainty (twoComps.comp (1 : Fin 2)) (S' (1 : Fin 2)) (pointObs 0 0) (0 : Fin 1) *
        expectedUncertainty (twoComps.comp (1 : Fin 2)) (S' (1 : Fin 2)) (pointObs 0 0) (0 : Fin 1)) := rfl
    rw [this, h0, h1, Real.mul_self_sqrt (by norm_num)]
    norm_num
  refine ⟨S', h1, hval, ?_⟩
  rw [hval]
  intro hcov
  -- the first component goes up by two, the second one down by one
  let d : Fin 2 → Vec 1 := fun k _ => if k = 0 then 2 else -1
  let H : Assignment twoComps := fun k _ => d k
  have h := hcov H
  have hp : ∀ x t, predict twoDesigns H (pointObs x t) (0 : Fin 1) = 2 - x := by
    intro x t
    have : predict twoDesigns H (pointObs x t) =
      ∑ k : Fin 2, (Matrix.of fun _ _ => twoWeights k x : Mat 1) *ᵥ d k := rfl
    rw [this, Fin.sum_univ_two]
    simp [d, twoWeights, mulVec, dotProduct]
    ring
  have hc : curve twoDesigns [sumLoader] [0] H = 6 := by
    have hq : ∀ v : Vec 1, quad (1 : Mat 1) v = v 0 * v 0 := fun v => by simp [quad, dotProduct]
    have : curve twoDesigns [sumLoader] [0] H =
        (∑ k : Fin 2, (quad (1 : Mat 1) (d k) + 0)) +
        (quad (1 : Mat 1) (predict twoDesigns H (pointObs 1 0)) + 0) := rfl
    have h3 : quad (1 : Mat 1) (predict twoDesigns H (pointObs 1 0)) = 1 := by
      refine (hq (predict twoDesigns H (pointObs 1 0))).trans ?_
      have h1 : predict twoDesigns H (pointObs 1 0) (0 : Fin 1) = 2 - 1 := hp 1 0
      norm_num [h1]
    rw [this, Fin.sum_univ_two, hq, hq]
    refine (congrArg (fun z : ℝ => d 0 0 * d 0 0 + 0 + (d 1 0 * d 1 0 + 0) + (z + 0)) h3).trans ?_
    simp only [d]
    norm_num
  rw [hp, hc, Real.sq_sqrt (by norm_num)] at h
  norm_num at h

/-! ### C82: days without observations -/

/-- C82: on a day without observations a spatial component reports uncertainty zero for every output, although its
prior standard deviation of every output it takes part in is positive. -/
theorem c82_no_data_violated (hs : Setup A J loaders times) (S : Store A) (k : Fin A.K)
    (hk : (A.comp k).kind = .spatial) (t : Int) (hd : ¬ HasData loaders t) (hn : (S k).stds t = none) :
    ∃ S', updateComponent A loaders times k S = .ok S' ∧
      ∀ o : Obs, o.time = t → ∀ i : Fin o.m, expectedUncertainty (A.comp k) (S' k) o i = 0 ∧
        (J k o i ≠ 0 → 0 < outputVariance (A.comp k).prior⁻¹ (J k o i)) := by
  obtain ⟨st, h1, -, h2, -⟩ := updateComponent_spatial k hk (hs.linear k) loaders hs.loader times hs.time S
  refine ⟨_, h1, fun o ho i => ⟨?_, fun hne => ?_⟩⟩
  · have hnone : st.stds o.time = none := by
      rw [h2, ho, if_neg (fun h => hd h.2.1), hn]
    unfold expectedUncertainty
    rw [hk]
    simp [hnone]
  · exact quad_pos (hs.prior k).inv hne

/-! ### A concrete case -/

/-- A climatology for all days and a daily component, as in the EUSTACE system. -/
noncomputable abbrev mixedComps : Analysis :=
  ⟨2, fun k => pointComp (fun _ => 1) (if k = 0 then .spaceTime else .spatial)⟩

example : Setup mixedComps (fun _ => pointDesign fun _ => 1) [sumLoader, sumLoader] [0, 1] where
  linear k := pointComp_linear (fun _ => 1) _
  prior k := Matrix.PosDef.one
  precision l hl t ht := by
    have : l = sumLoader := by simpa using hl
    subst this
    exact Matrix.PosSemidef.one
  time l hl t ht := by
    have : l = sumLoader := by simpa using hl
    subst this
    rfl
  distinct := by simp
  loader := by simp
  data k hk t ht := ⟨sumLoader, by simp, Nat.one_pos⟩

example : Ready [0, 1] (fun k => Storage.empty (mixedComps.comp k).n : Store mixedComps) :=
  ready_empty _ _

/-- A single component. -/
noncomputable abbrev oneComp : Analysis := ⟨1, fun _ => pointComp (fun _ => 1) .spaceTime⟩

/-- A system with a single component meets the hypothesis of independence. -/
example (H : Assignment oneComp) :
    ∑ k : Fin 1, curve (A := oneComp) (fun _ => pointDesign fun _ => 1)
      [sumLoader] [0] (single k (keyAt oneComp k 0) (H k (keyAt oneComp k 0))) ≤
    curve (A := oneComp) (fun _ => pointDesign fun _ => 1) [sumLoader] [0] H := by
  refine le_of_eq ?_
  rw [Fin.sum_univ_one]
  have h : ∀ G : Assignment oneComp,
      curve (A := oneComp) (fun _ => pointDesign fun _ => 1) [sumLoader] [0] G =
      (∑ k : Fin 1, (quad (1 : Mat 1) (G k none) + 0)) +
        (quad (1 : Mat 1) (∑ k : Fin 1, (Matrix.of fun _ _ => (1 : ℝ) : Mat 1) *ᵥ G k none) + 0) := fun G => rfl
  rw [h, h, Fin.sum_univ_one, Fin.sum_univ_one, Fin.sum_univ_one, Fin.sum_univ_one]
  have e : single (A := oneComp) (0 : Fin 1) none (H (0 : Fin 1) none)
      (0 : Fin 1) none = H (0 : Fin 1) none := by
    rw [single, Function.update_self, Function.update_self]
  exact congrArg (fun z : Vec 1 => quad (1 : Mat 1) z + 0 +
    (quad (1 : Mat 1) ((Matrix.of fun _ _ => (1 : ℝ) : Mat 1) *ᵥ z) + 0)) e

end Verif.Eustace.Components
