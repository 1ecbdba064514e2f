import Mathlib.MeasureTheory.Integral.Bochner.SumMeasure
import Verif.Eustace.Samples.Law

namespace Verif.Eustace.Samples

open Matrix Verif.Eustace.Linear Verif.Eustace.Components MeasureTheory

/-! ### A case which meets the hypotheses -/

/-- Four equally likely outcomes. -/
noncomputable def four : Measure (Fin 4) := (4 : ENNReal)⁻¹ • Measure.count

theorem four_integral (f : Fin 4 → ℝ) : ∫ ω, f ω ∂four = (f 0 + f 1 + f 2 + f 3) / 4 := by
  rw [four, integral_smul_measure, integral_count, Fin.sum_univ_four]
  simp only [ENNReal.toReal_inv, ENNReal.toReal_ofNat, smul_eq_mul]
  ring

theorem four_integrable (f : Fin 4 → ℝ) : Integrable f four := by
  rw [four]
  exact (Integrable.of_finite (μ := Measure.count) (f := f)).smul_measure (by simp)

instance : IsProbabilityMeasure four := by
  constructor
  rw [four, Measure.smul_apply, Measure.count_univ, smul_eq_mul, ENat.card_eq_coe_fintype_card, Fintype.card_fin]
  simpa using ENNReal.inv_mul_cancel (a := 4) (by simp) (by simp)

/-- White noise for one state parameter and two draws. -/
def noise4 (ω : Fin 4) : Matrix (Fin 1) (Fin 2) ℝ := fun _ j => if j = 0 then ![1, 1, -1, -1] ω else ![1, -1, 1, -1] ω

theorem noise4_white : White four fun (p : Fin 1 × Fin 2) ω => noise4 ω p.1 p.2 where
  integrable p := four_integrable _
  product p q := four_integrable _
  mean p := by
    rw [four_integral]
    obtain ⟨a, b⟩ := p
    fin_cases b <;> simp [noise4]
  covariance p q := by
    rw [four_integral]
    obtain ⟨a, b⟩ := p
    obtain ⟨a', b'⟩ := q
    fin_cases a <;> fin_cases a' <;> fin_cases b <;> fin_cases b' <;> simp [noise4] <;> norm_num

/-- The factor of the precision four. -/
def half4 : Mat 1 := !![2]

theorem half4_factor : half4 * half4ᵀ = !![4] := by
  ext i j
  fin_cases i; fin_cases j
  norm_num [half4, Matrix.mul_apply]

theorem four_posDef : (!![4] : Mat 1).PosDef := by
  have h : (!![4] : Mat 1) = Matrix.diagonal fun _ => 4 := by
    ext i j; fin_cases i; fin_cases j; rfl
  rw [h]
  exact Matrix.PosDef.diagonal fun _ => by norm_num

example (i : Fin 1) : ∫ ω, approximatedStd half4 (noise4 ω) i ^ 2 ∂four = 1 / 8 := by
  rw [c171_approximated (by norm_num) four_posDef half4_factor noise4_white i]
  have hi : (!![4] : Mat 1)⁻¹ = !![1 / 4] := by
    apply Matrix.inv_eq_left_inv
    ext a b; fin_cases a; fin_cases b; norm_num [Matrix.mul_apply]
  rw [hi]
  fin_cases i
  norm_num

/-- A linear component with one state parameter, which is seen three times as large. -/
def triple (which : Kind) (size : ℕ) : Sampled :=
  { linearElement 1 !![4] (fun _ => Matrix.of fun _ _ => 3) with
    kind := .spatial, computeUncertainties := false, which := which, computeSample := true, sampleSize := size,
    computePriorSample := false }

/-- Two places at the time index 5. -/
def twoPlaces : Obs := ⟨5, 2, fun _ => (0, 0), 0, 1⟩

/-- Draws for the time index 5. -/
def keptAt (x : Arr) : Kept := ⟨none, none, fun u => if u = 5 then some x else none, fun _ => none⟩

example : ∃ y : Fin 4 → Matrix (Fin 2) (Fin 2) ℝ,
    (∀ ω, evaluateSamples twoPlaces [(triple .spatial 2, keptAt (whiten half4 (noise4 ω)))] = .ok ⟨2, y ω⟩) ∧
    (∀ i j, ∫ ω, (y ω i j + 7) ∂four = 7) ∧ ∀ i i', ∫ ω, y ω i 0 * y ω i' 0 ∂four = 9 / 4 := by
  have hw : White four fun (p : Σ _ : Fin 1, Fin 1 × Fin 2) ω => noise4 ω p.2.1 p.2.2 :=
    { integrable := fun p => four_integrable _
      product := fun p q => four_integrable _
      mean := fun p => noise4_white.mean p.2
      covariance := fun p q => by
        rw [noise4_white.covariance p.2 q.2]
        obtain ⟨a, b⟩ := p
        obtain ⟨a', b'⟩ := q
        obtain rfl : a = a' := Subsingleton.elim _ _
        by_cases h : b = b'
        · rw [if_pos h, if_pos (by rw [h])]
        · rw [if_neg h, if_neg (by simpa using h)] }
  obtain ⟨y, h1, h2, h3⟩ := c171_ensemble (K := 1) (s := 2) (μ := four) (by norm_num) (fun _ => triple .spatial 2) twoPlaces
    (fun _ => Matrix.of fun _ _ => 3) (fun _ _ => rfl) (fun _ => ⟨by decide, rfl⟩) (fun _ => !![4]) (fun _ => half4)
    (fun _ => four_posDef) (fun _ => half4_factor) (fun _ => noise4) hw
    (fun _ ω => keptAt (whiten half4 (noise4 ω)))
    (fun _ ω x hx => Or.inr ⟨rfl, congrArg some hx⟩) (fun _ => 7)
  refine ⟨y, h1, h2, ?_⟩
  intro i i'
  refine (h3 i 0 i' 0).trans ?_
  rw [if_pos rfl, Fin.sum_univ_one]
  have hi : (!![4] : Mat 1)⁻¹ = !![1 / 4] := by
    apply Matrix.inv_eq_left_inv
    ext a b; fin_cases a; fin_cases b; norm_num [Matrix.mul_apply]
  change ((Matrix.of fun (_ : Fin 2) (_ : Fin 1) => (3 : ℝ)) * (!![4] : Mat 1)⁻¹ *
    (Matrix.of fun (_ : Fin 2) (_ : Fin 1) => (3 : ℝ))ᵀ) i i' = 9 / 4
  simp only [Matrix.mul_apply, Matrix.transpose_apply]
  change ∑ a : Fin 1, (∑ b : Fin 1, (3 : ℝ) * (!![4] : Mat 1)⁻¹ b a) * 3 = 9 / 4
  rw [hi]
  norm_num

example (z : Matrix (Fin 1) (Fin 2) ℝ) (u : Update 1) : ∃ st' kept', stUpdateSample (triple .spaceTime 2) (fun _ => half4) z
    { Storage.empty 1 with measurement := [(some 5, some u)] } Kept.empty = .ok (st', kept') := ⟨_, _, rfl⟩

/-! ### Violations -/

/-- **C171, violated.**  A delayed component which is asked for a sample makes none: its solution has the settings of no sample and one
draw whatever was asked for; and if it is among the components, no sample of the analysis can be computed. -/
theorem c171_delayed_violated (c : Sampled) (hc : c.which = .delayed) :
    (solutionSettings c).1 = false ∧ (solutionSettings c).2.1 = 1 ∧
    ∀ o kept cs, (c, kept) ∈ cs → ∃ e, evaluateSamples o cs = .error e := by
  have hs : solutionSettings c = (false, 1, false) := by rw [solutionSettings, hc]
  refine ⟨by rw [hs], by rw [hs], ?_⟩
  intro o kept cs hmem
  have loop : ∀ (s : ℕ) (l : List (Sampled × Kept)) (total : Matrix (Fin o.m) (Fin s) ℝ), (c, kept) ∈ l →
      ∃ e, addSamples o s total l = .error e := by
    intro s l
    induction l with
    | nil => intro _ h; exact (nomatch h)
    | cons d l ih =>
      intro total h
      rw [addSamples]
      rcases List.mem_cons.1 h with rfl | h
      · refine ⟨.attributeError, ?_⟩
        simp only [projectedSample, hc]
      · cases projectedSample d.1 d.2 o with
        | error e => exact ⟨e, rfl⟩
        | ok x =>
          cases ha : addInto total x with
          | error e => exact ⟨e, by simp only [ha]⟩
          | ok t =>
            obtain ⟨e, he⟩ := ih t h
            exact ⟨e, by simp only [ha, he]⟩
  rw [evaluateSamples]
  by_cases hd : 1 < (cs.map fun c => (solutionSettings c.1).2.1).dedup.length
  · exact ⟨_, if_pos hd⟩
  · cases cs with
    | nil => exact (nomatch hmem)
    | cons d l =>
      obtain ⟨e, he⟩ := loop (solutionSettings d.1).2.1 (d :: l) 0 hmem
      refine ⟨e, (if_neg hd).trans ?_⟩
      simp only [List.map_cons, he]

/-- **C171, violated.**  The single draw which the solution of a delayed component writes has lost its dimension, so that its values at
more than one place cannot be added to the result. -/
theorem c171_squeeze_violated {n : ℕ} (L : Mat n) (z : Matrix (Fin n) (Fin 1) ℝ) (c : Element) (hn : c.n = n) (o : Obs)
    (total : Matrix (Fin o.m) (Fin 1) ℝ) : ∃ x, designOf c o (delayedSample L z) = .ok x ∧
      (1 < o.m → addInto total x = .error .valueError) := by
  subst hn
  have h : delayedSample L z = .flat c.n fun i => ((Lᵀ)⁻¹ * z) i ⟨0, by omega⟩ := by
    rw [delayedSample, whiten, squeeze, dif_pos rfl]
  rw [h]
  refine ⟨_, by rw [designOf, dif_pos rfl], ?_⟩
  intro hm
  rw [addInto, dif_neg (by omega)]

/-- **C171, violated.**  A space-time component with a nonlinear design which has no draws yet gives one number for each place instead
of one for each place and draw.  With as many draws as places this is taken for a row: every place gets, in draw `j`, the value of
place `j`; otherwise (and unless there is a single place) the sample of the analysis cannot be computed. -/
theorem c171_nonlinear_violated (c : Sampled) (hc : c.which = .spaceTime) (hn : c.nonlinear = true) (kept : Kept)
    (hk : kept.sample = none) (o : Obs) (ho : o.m ≠ 1) :
    (c.sampleSize ≠ o.m → evaluateSamples o [(c, kept)] = .error .valueError) ∧
    (c.sampleSize = o.m → ∃ y : Matrix (Fin o.m) (Fin o.m) ℝ, evaluateSamples o [(c, kept)] = .ok ⟨o.m, y⟩ ∧
      ∀ i j, y i j = c.function o (c.initial o) j) := by
  have hs : solutionSettings c = (c.computeSample, c.sampleSize, c.computePriorSample) := by rw [solutionSettings, hc]
  have hp : projectedSample c kept o = .ok (.flat o.m (c.function o (c.initial o))) := by
    simp only [projectedSample, hc, hk, hn, if_true]
  have ha : ∀ s : ℕ, addSamples o s 0 [(c, kept)] =
      addInto (0 : Matrix (Fin o.m) (Fin s) ℝ) (.flat o.m (c.function o (c.initial o))) := by
    intro s
    rw [addSamples]
    simp only [hp]
    cases addInto (0 : Matrix (Fin o.m) (Fin s) ℝ) (.flat o.m (c.function o (c.initial o))) with
    | error e => rfl
    | ok t => simp only [addSamples]
  have e : ∀ s, c.sampleSize = s → ∀ r, addInto (0 : Matrix (Fin o.m) (Fin s) ℝ) (.flat o.m (c.function o (c.initial o))) = r →
      evaluateSamples o [(c, kept)] = (match r with | .error e => .error e | .ok total => .ok ⟨s, total⟩) := by
    intro s h r hr
    have h' : (solutionSettings c).2.1 = s := by rw [hs]; exact h
    subst h'
    rw [evaluateSamples]
    refine (if_neg (by simp)).trans ?_
    simp only [List.map_cons, ha, hr]
    cases r <;> rfl
  constructor
  · intro hne
    rw [e c.sampleSize rfl (.error .valueError) (by rw [addInto, dif_neg (by omega)])]
  · intro heq
    refine ⟨_, e o.m heq (.ok _) (by rw [addInto, dif_pos (Or.inl rfl)]), ?_⟩
    intro i j
    simp only [of_apply, Matrix.zero_apply, zero_add, stretch_self]

/-- **C171, violated.**  With one draw the approximated standard deviation is zero, whatever the solution is. -/
theorem c171_single_violated {n : ℕ} (L : Mat n) (z : Matrix (Fin n) (Fin 1) ℝ) (i : Fin n) : approximatedStd L z i = 0 := by
  simp [approximatedStd, stdRow]

/-- **C171, violated.**  Components with the default sample size of one cannot give the ensemble of the output, which has ten
members (definitions.py 24). -/
theorem c171_members_violated {m : ℕ} (sample : Matrix (Fin m) (Fin 1) ℝ) (expected : Vec m) :
    ensemble sample expected (List.range 10) = .error .indexError := by
  have h : List.range 10 = 0 :: 1 :: [2, 3, 4, 5, 6, 7, 8, 9] := by decide
  rw [h, ensemble, dif_pos (by omega), ensemble, dif_neg (by omega)]

/-- **C171, violated.**  The draws of a nonlinear component are deviations, but the design is applied to them as if they were states:
with the design `x ↦ x²`, state 3 and deviation -1 the member is not the value at the state plus the deviation. -/
theorem c171_deviation_violated : ∃ (c : Sampled) (o : Obs) (state deviation : Vec c.n) (y : Matrix (Fin o.m) (Fin 1) ℝ) (i : Fin o.m),
    c.which = .spaceTime ∧
    evaluateSamples o [(c, { Kept.empty with sample := some (.table c.n 1 (Matrix.of fun l _ => deviation l)) })] = .ok ⟨1, y⟩ ∧
    y i 0 + c.function o state i ≠ c.function o (state + deviation) i := by
  let c : Sampled :=
    { n := 1, prior := 1, nonlinear := true, function := fun _ x _ => x 0 * x 0, rectified := fun _ x _ => x 0 * x 0,
      jacobian := fun _ x => Matrix.of fun _ _ => (match x with | none => 0 | some v => 2 * v 0), initial := fun _ => 0,
      kind := .spaceTime, computeUncertainties := false, which := .spaceTime, computeSample := true, sampleSize := 1,
      computePriorSample := false }
  have hk : Keeps c { Kept.empty with sample := some (.table c.n 1 (Matrix.of fun l _ => (fun _ : Fin 1 => (-1 : ℝ)) l)) } 5
      (Matrix.of fun l _ => (fun _ : Fin 1 => (-1 : ℝ)) l) := Or.inl ⟨rfl, rfl⟩
  refine ⟨c, twoPlaces, fun _ => 3, fun _ => -1, [Matrix.of fun (_ : Fin 2) (_ : Fin 1) => (1 : ℝ)].sum, (0 : Fin 2), rfl, ?_, ?_⟩
  · refine c171_total (by simp) ?_ (.cons (Or.inl ⟨_, hk, ?_⟩) .nil)
    · intro d hd
      rw [List.mem_singleton.1 hd]
      exact ⟨by decide, rfl⟩
    · intro i j
      change (1 : ℝ) = -1 * -1
      norm_num
  · rw [List.sum_singleton]
    change (1 : ℝ) + 3 * 3 ≠ (3 + -1) * (3 + -1)
    norm_num

end Verif.Eustace.Samples
