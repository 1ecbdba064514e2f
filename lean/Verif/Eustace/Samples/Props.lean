import Verif.Eustace.Samples.Spec
import Verif.Eustace.Linear.Props

namespace Verif.Eustace.Samples

open Matrix Verif.Eustace.Linear Verif.Eustace.Components MeasureTheory

/-! ### What is kept -/

/-- **C171.**  A space-time component which was asked for a sample keeps after `update` as many draws as were asked for, solutions of
`Lᵀ x = z` for the precision of the prior and all measurements together; without being asked it keeps what it had; if the prior is
to be sampled, nothing is solved. -/
theorem c171_update {c : Sampled} (hk : c.which = .spaceTime) (chol : Mat c.n → Mat c.n)
    (z : Matrix (Fin c.n) (Fin (solutionSettings c).2.1) ℝ) (st st' : Storage c.n) (kept kept' : Kept)
    (h : stUpdateSample c chol z st kept = .ok (st', kept')) :
    (solutionSettings c).2.1 = c.sampleSize ∧
    (c.computePriorSample = false → stUpdate c.toComp st = .ok st' ∧ kept'.prior = kept.prior ∧
      (c.computeSample = false → kept' = kept) ∧
      (c.computeSample = true → ∀ s, appendAll st.measurement (System.new c.prior) = .ok s →
        (chol s.posteriorPrecision).det ≠ 0 →
        ∃ x : Matrix (Fin c.n) (Fin (solutionSettings c).2.1) ℝ, Keeps c kept' 0 x ∧ (chol s.posteriorPrecision)ᵀ * x = z)) ∧
    (c.computePriorSample = true → st' = st ∧ kept'.sample = kept.sample ∧ ((chol (c.prior + 0)).det ≠ 0 →
      ∃ x : Matrix (Fin c.n) (Fin (solutionSettings c).2.1) ℝ, kept'.prior = some (.table _ _ x) ∧
        (chol (c.prior + 0))ᵀ * x = z)) := by
  have hs : solutionSettings c = (c.computeSample, c.sampleSize, c.computePriorSample) := by
    rw [solutionSettings, hk]
  have inv : ∀ L : Mat c.n, L.det ≠ 0 → Lᵀ * ((Lᵀ)⁻¹ * z) = z := by
    intro L hL
    rw [← Matrix.mul_assoc, Matrix.mul_nonsing_inv _ (by rw [det_transpose]; exact isUnit_iff_ne_zero.2 hL), Matrix.one_mul]
  have h2 : (solutionSettings c).2.2 = c.computePriorSample := by rw [hs]
  have h1 : (solutionSettings c).1 = c.computeSample := by rw [hs]
  refine ⟨by rw [hs], ?_, ?_⟩
  · intro hp
    rw [stUpdateSample, h2, hp, if_neg (by decide)] at h
    cases ha : appendAll st.measurement (System.new c.prior) with
    | error e => rw [ha] at h; cases h
    | ok s =>
      cases hu : stUpdate c.toComp st with
      | error e => rw [ha, hu] at h; cases h
      | ok st1 =>
        rw [ha, hu, h1] at h
        cases hc : c.computeSample with
        | false =>
          rw [hc] at h
          simp only [Bool.false_eq_true, if_false, Except.ok.injEq, Prod.mk.injEq] at h
          obtain ⟨rfl, rfl⟩ := h
          exact ⟨rfl, rfl, fun _ => rfl, fun hf => (nomatch hf)⟩
        | true =>
          rw [hc] at h
          simp only [if_true, Except.ok.injEq, Prod.mk.injEq] at h
          obtain ⟨rfl, rfl⟩ := h
          refine ⟨rfl, rfl, fun hf => (nomatch hf), ?_⟩
          intro _ s' hs' hd
          cases hs'
          exact ⟨_, Or.inl ⟨hk, rfl⟩, inv _ hd⟩
  · intro hp
    rw [stUpdateSample, h2, hp, if_pos rfl] at h
    simp only [Except.ok.injEq, Prod.mk.injEq] at h
    obtain ⟨rfl, rfl⟩ := h
    exact ⟨rfl, rfl, fun hd => ⟨_, rfl, inv _ hd⟩⟩

/-- **C171.**  A spatial component keeps the draws of a time step under the time index of its observations and no other; the draws
solve `Lᵀ x = z` for the precision of this time step. -/
theorem c171_time_step {c : Sampled} (hk : c.which = .spatial) (chol : Mat c.n → Mat c.n)
    (z : Matrix (Fin c.n) (Fin (solutionSettings c).2.1) ℝ) (st : Storage c.n) (s : System c.n) (t : ℤ) (kept : Kept) :
    let r := spUpdateSample c chol z st ⟨some s, some t⟩ kept
    (solutionSettings c).2.1 = c.sampleSize ∧
    (r.1, r.2.1) = spUpdateTimeStep c.toComp st ⟨some s, some t⟩ ∧
    (c.computeSample = false → r.2.2 = kept) ∧
    (c.computeSample = true → (∀ u, u ≠ t → r.2.2.samples u = kept.samples u ∧ r.2.2.priors u = kept.priors u) ∧
      ((chol s.posteriorPrecision).det ≠ 0 →
        ∃ x : Matrix (Fin c.n) (Fin (solutionSettings c).2.1) ℝ, Keeps c r.2.2 t x ∧ (chol s.posteriorPrecision)ᵀ * x = z)) := by
  have hs : solutionSettings c = (c.computeSample, c.sampleSize, c.computePriorSample) := by
    rw [solutionSettings, hk]
  have h1 : (solutionSettings c).1 = c.computeSample := by rw [hs]
  refine ⟨by rw [hs], rfl, ?_, ?_⟩
  · intro hc
    simp only [spUpdateSample, h1, hc, Bool.false_eq_true, if_false]
  · intro hc
    simp only [spUpdateSample, h1, hc, if_true]
    refine ⟨?_, ?_⟩
    · intro u hu
      refine ⟨if_neg hu, if_neg fun hh => hu hh.1⟩
    · intro hL
      refine ⟨_, Or.inr ⟨hk, if_pos rfl⟩, ?_⟩
      rw [← Matrix.mul_assoc, Matrix.mul_nonsing_inv _ (by rw [det_transpose]; exact isUnit_iff_ne_zero.2 hL), Matrix.one_mul]

/-! ### Projection -/

theorem stretch_self {m : ℕ} (h : m = m ∨ m = 1) (i : Fin m) : stretch h i = i := by
  apply Fin.ext
  simp only [stretch]
  split <;> omega

theorem addInto_table {m s : ℕ} (total x : Matrix (Fin m) (Fin s) ℝ) : addInto total (.table m s x) = .ok (total + x) := by
  rw [addInto, dif_pos ⟨Or.inl rfl, Or.inl rfl⟩]
  congr 1
  ext i j
  simp only [of_apply, stretch_self, Matrix.add_apply]

theorem projected_part {o : Obs} {s : ℕ} {c : Sampled × Kept} {y : Matrix (Fin o.m) (Fin s) ℝ}
    (hs : (solutionSettings c.1).2.1 = s) (h : Part o s c y) : projectedSample c.1 c.2 o = .ok (.table o.m s y) := by
  subst hs
  rcases h with ⟨x, hk, hy⟩ | ⟨hk, hl, rfl⟩
  · have hd : designOf c.1.toElement o (.table c.1.n _ x) = .ok (.table o.m _ y) := by
      rw [designOf, dif_pos rfl]
      congr 2
      ext i j
      rw [of_apply, hy]
      rfl
    rcases hk with ⟨h1, h2⟩ | ⟨h1, h2⟩
    · rw [projectedSample, h1]
      simp only [h2, hd]
    · rw [projectedSample, h1]
      simp only [h2, hd]
  · rcases hk with ⟨h1, h2⟩ | ⟨h1, h2⟩
    · rw [projectedSample, h1]
      simp only [h2, hl h1, Bool.false_eq_true, if_false]
    · rw [projectedSample, h1]
      simp only [h2]

theorem addSamples_parts {o : Obs} {s : ℕ} {cs : List (Sampled × Kept)} {ys : List (Matrix (Fin o.m) (Fin s) ℝ)}
    (hs : ∀ c ∈ cs, (solutionSettings c.1).2.1 = s) (h : List.Forall₂ (Part o s) cs ys) :
    ∀ total, addSamples o s total cs = .ok (total + ys.sum) := by
  induction h with
  | nil => intro total; rw [addSamples, List.sum_nil, add_zero]
  | @cons c y cs ys hc _ ih =>
    intro total
    rw [addSamples, projected_part (hs c (List.mem_cons_self ..)) hc]
    simp only [addInto_table]
    rw [ih (fun d hd => hs d (List.mem_cons_of_mem _ hd)), List.sum_cons, add_assoc]

/-- **C171.**  The draws at the places of the output are, draw by draw and place by place, the sum of the values of all components
at their draws with the same number; a linear component without draws adds nothing. -/
theorem c171_total {o : Obs} {s : ℕ} {cs : List (Sampled × Kept)} {ys : List (Matrix (Fin o.m) (Fin s) ℝ)}
    (hne : cs ≠ []) (hs : ∀ c ∈ cs, c.1.which ≠ .delayed ∧ c.1.sampleSize = s) (h : List.Forall₂ (Part o s) cs ys) :
    evaluateSamples o cs = .ok ⟨s, ys.sum⟩ := by
  have hset : ∀ c ∈ cs, (solutionSettings c.1).2.1 = s := by
    intro c hc
    obtain ⟨h1, h2⟩ := hs c hc
    rw [solutionSettings]
    cases hw : c.1.which with
    | spaceTime => exact h2
    | spatial => exact h2
    | delayed => exact absurd hw h1
  have hrep : (cs.map fun c => (solutionSettings c.1).2.1) = List.replicate cs.length s :=
    List.eq_replicate_iff.2 ⟨List.length_map .., fun b hb => by
      obtain ⟨c, hc, rfl⟩ := List.mem_map.1 hb
      exact hset c hc⟩
  obtain ⟨n, hn⟩ : ∃ n, cs.length = n + 1 := ⟨cs.length - 1, by
    have := List.length_pos_iff.2 hne
    omega⟩
  rw [evaluateSamples]
  simp only [hrep, hn]
  have hd : (List.replicate (n + 1) s).dedup = [s] := List.replicate_dedup (by omega)
  rw [hd, if_neg (by simp), List.replicate_succ]
  simp only [addSamples_parts hset h, zero_add]

/-- **C171.**  Components with different numbers of draws are refused. -/
theorem c171_sizes {o : Obs} {cs : List (Sampled × Kept)} {a b : Sampled × Kept} (ha : a ∈ cs) (hb : b ∈ cs)
    (hda : a.1.which ≠ .delayed) (hdb : b.1.which ≠ .delayed) (hne : a.1.sampleSize ≠ b.1.sampleSize) :
    evaluateSamples o cs = .error .valueError := by
  have hset : ∀ c : Sampled × Kept, c.1.which ≠ .delayed → (solutionSettings c.1).2.1 = c.1.sampleSize := by
    intro c hc
    rw [solutionSettings]
    cases hw : c.1.which with
    | spaceTime => rfl
    | spatial => rfl
    | delayed => exact absurd hw hc
  rw [evaluateSamples]
  refine if_pos ?_
  by_contra hlt
  have hlen : (cs.map fun c => (solutionSettings c.1).2.1).dedup.length ≤ 1 := by omega
  have h1 : a.1.sampleSize ∈ (cs.map fun c => (solutionSettings c.1).2.1).dedup :=
    List.mem_dedup.2 (List.mem_map.2 ⟨a, ha, hset a hda⟩)
  have h2 : b.1.sampleSize ∈ (cs.map fun c => (solutionSettings c.1).2.1).dedup :=
    List.mem_dedup.2 (List.mem_map.2 ⟨b, hb, hset b hdb⟩)
  generalize (cs.map fun c => (solutionSettings c.1).2.1).dedup = l at hlen h1 h2
  match l, hlen with
  | [], _ => exact (nomatch h1)
  | [x], _ => exact hne ((List.mem_singleton.1 h1).trans (List.mem_singleton.1 h2).symm)

/-- **C171.**  The ensemble has the members asked for, in order: the expected value and the draw with the same number. -/
theorem c171_members {m s : ℕ} (sample : Matrix (Fin m) (Fin s) ℝ) (expected : Vec m) {indices : List ℕ}
    (h : ∀ k ∈ indices, k < s) : ∃ members, ensemble sample expected indices = .ok members ∧
      members.length = indices.length ∧
      ∀ (p : ℕ) (k : ℕ) (hk : indices[p]? = some k) (hks : k < s) (i : Fin m),
        ∃ v, members[p]? = some v ∧ v i = expected i + sample i ⟨k, hks⟩ := by
  induction indices with
  | nil => exact ⟨[], rfl, rfl, fun p k hk => by simp at hk⟩
  | cons a l ih =>
    obtain ⟨ms, h1, h2, h3⟩ := ih fun k hk => h k (List.mem_cons_of_mem _ hk)
    refine ⟨(fun i => sample i ⟨a, h a (List.mem_cons_self ..)⟩ + expected i) :: ms, ?_, by simp [h2], ?_⟩
    · rw [ensemble, dif_pos (h a (List.mem_cons_self ..)), h1]
    · intro p k hk hks i
      cases p with
      | zero =>
        simp only [List.getElem?_cons_zero, Option.some.injEq] at hk
        subst hk
        exact ⟨_, rfl, add_comm _ _⟩
      | succ p => simpa using h3 p k (by simpa using hk) hks i

end Verif.Eustace.Samples
