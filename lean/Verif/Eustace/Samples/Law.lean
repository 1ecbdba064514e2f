import Verif.Eustace.Samples.Props

namespace Verif.Eustace.Samples

open Matrix Verif.Eustace.Linear Verif.Eustace.Components MeasureTheory

variable {Ω : Type} [MeasurableSpace Ω] {μ : Measure Ω}

/-! ### Linear images of white noise -/

section

variable {ι : Type} [Fintype ι] [DecidableEq ι]

theorem white_integrable {z : ι → Ω → ℝ} (h : White μ z) (a : ι → ℝ) : Integrable (fun ω => ∑ l, a l * z l ω) μ :=
  integrable_finset_sum _ fun l _ => (h.integrable l).const_mul (a l)

theorem white_mean {z : ι → Ω → ℝ} (h : White μ z) (a : ι → ℝ) : ∫ ω, ∑ l, a l * z l ω ∂μ = 0 := by
  rw [integral_finset_sum _ fun l _ => (h.integrable l).const_mul (a l)]
  refine Finset.sum_eq_zero fun l _ => ?_
  rw [integral_const_mul, h.mean, mul_zero]

theorem product_expand (z : ι → Ω → ℝ) (a b : ι → ℝ) (ω : Ω) :
    (∑ l, a l * z l ω) * (∑ l, b l * z l ω) = ∑ l, ∑ l', (a l * b l') * (z l ω * z l' ω) := by
  rw [Finset.sum_mul_sum]
  exact Finset.sum_congr rfl fun l _ => Finset.sum_congr rfl fun l' _ => by ring

theorem white_product {z : ι → Ω → ℝ} (h : White μ z) (a b : ι → ℝ) :
    Integrable (fun ω => (∑ l, a l * z l ω) * (∑ l, b l * z l ω)) μ := by
  simp only [product_expand]
  exact integrable_finset_sum _ fun l _ => integrable_finset_sum _ fun l' _ => (h.product l l').const_mul _

theorem white_covariance {z : ι → Ω → ℝ} (h : White μ z) (a b : ι → ℝ) :
    ∫ ω, (∑ l, a l * z l ω) * (∑ l, b l * z l ω) ∂μ = ∑ l, a l * b l := by
  simp only [product_expand]
  rw [integral_finset_sum _ fun l _ => integrable_finset_sum _ fun l' _ => (h.product l l').const_mul _]
  refine Finset.sum_congr rfl fun l _ => ?_
  rw [integral_finset_sum _ fun l' _ => (h.product l l').const_mul _]
  have : ∀ l', ∫ ω, a l * b l' * (z l ω * z l' ω) ∂μ = if l = l' then a l * b l' else 0 := by
    intro l'
    rw [integral_const_mul, h.covariance]
    split <;> simp
  simp only [this]
  simp

end

theorem whiten_inverse {n : ℕ} {A L : Mat n} (hA : A.PosDef) (hL : L * Lᵀ = A) : (Lᵀ)⁻¹ * ((Lᵀ)⁻¹)ᵀ = A⁻¹ := by
  rw [← hL, Matrix.mul_inv_rev, Matrix.transpose_nonsing_inv, Matrix.transpose_transpose]

/-! ### The law of the draws -/

/-- **C171.**  If the white noise has mean zero, variance one and no correlation, the draws have mean zero, and the covariance of two
state parameters in a draw is the element of the inverse of the precision; different draws are not correlated. -/
theorem c171_law {n k : ℕ} {A L : Mat n} (hA : A.PosDef) (hL : L * Lᵀ = A) {z : Ω → Matrix (Fin n) (Fin k) ℝ}
    (hz : White μ fun (p : Fin n × Fin k) ω => z ω p.1 p.2) :
    ∃ x : Ω → Matrix (Fin n) (Fin k) ℝ, (∀ ω, whiten L (z ω) = .table n k (x ω)) ∧
      (∀ i j, ∫ ω, x ω i j ∂μ = 0) ∧
      ∀ i j i' j', ∫ ω, x ω i j * x ω i' j' ∂μ = if j = j' then A⁻¹ i i' else 0 := by
  have hx : ∀ ω i j, ((Lᵀ)⁻¹ * z ω) i j =
      ∑ p : Fin n × Fin k, (if p.2 = j then (Lᵀ)⁻¹ i p.1 else 0) * z ω p.1 p.2 := by
    intro ω i j
    rw [Matrix.mul_apply, Fintype.sum_prod_type]
    refine Finset.sum_congr rfl fun l _ => ?_
    simp
  refine ⟨fun ω => (Lᵀ)⁻¹ * z ω, fun ω => rfl, ?_, ?_⟩
  · intro i j
    simp only [hx]
    exact white_mean hz _
  · intro i j i' j'
    simp only [hx]
    rw [white_covariance hz, Fintype.sum_prod_type]
    rw [← whiten_inverse hA hL, Matrix.mul_apply]
    by_cases hj : j = j'
    · subst hj
      rw [if_pos rfl]
      refine Finset.sum_congr rfl fun l _ => ?_
      simp
    · rw [if_neg hj]
      refine Finset.sum_eq_zero fun l _ => ?_
      refine Finset.sum_eq_zero fun p _ => ?_
      by_cases h1 : p = j
      · rw [if_neg fun h2 => hj (h1.symm.trans h2), mul_zero]
      · rw [if_neg h1, zero_mul]

/-- **C171.**  For components with linear designs whose draws were made from white noise, independent of each other, the members of
the ensemble have the expected value as their mean, and their covariance between two places is the sum over the components of the
covariance of the solution, taken through the designs; different members are not correlated. -/
theorem c171_ensemble [IsProbabilityMeasure μ] {K s : ℕ} (hK : 0 < K) (comp : Fin K → Sampled) (o : Obs)
    (design : ∀ c, Matrix (Fin o.m) (Fin (comp c).n) ℝ) (hd : ∀ c x, (comp c).function o x = design c *ᵥ x)
    (hs : ∀ c, (comp c).which ≠ .delayed ∧ (comp c).sampleSize = s)
    (P L : ∀ c, Mat (comp c).n) (hP : ∀ c, (P c).PosDef) (hL : ∀ c, L c * (L c)ᵀ = P c)
    (z : ∀ c, Ω → Matrix (Fin (comp c).n) (Fin s) ℝ)
    (hz : White μ fun (p : Σ c, Fin (comp c).n × Fin s) ω => z p.1 ω p.2.1 p.2.2)
    (kept : Fin K → Ω → Kept)
    (hkept : ∀ c ω (x : Matrix (Fin (comp c).n) (Fin s) ℝ), whiten (L c) (z c ω) = .table (comp c).n s x →
      Keeps (comp c) (kept c ω) o.time x)
    (expected : Vec o.m) :
    ∃ y : Ω → Matrix (Fin o.m) (Fin s) ℝ,
      (∀ ω, evaluateSamples o (List.ofFn fun c => (comp c, kept c ω)) = .ok ⟨s, y ω⟩) ∧
      (∀ i j, ∫ ω, (y ω i j + expected i) ∂μ = expected i) ∧
      ∀ i j i' j', ∫ ω, y ω i j * y ω i' j' ∂μ =
        if j = j' then ∑ c, (design c * (P c)⁻¹ * (design c)ᵀ) i i' else 0 := by
  let W := fun c => design c * ((L c)ᵀ)⁻¹
  have hexp : ∀ ω i j, (∑ c, W c * z c ω) i j =
      ∑ p : Σ c, Fin (comp c).n × Fin s, (if p.2.2 = j then W p.1 i p.2.1 else 0) * z p.1 ω p.2.1 p.2.2 := by
    intro ω i j
    rw [Matrix.sum_apply, Fintype.sum_sigma]
    refine Finset.sum_congr rfl fun c _ => ?_
    rw [Matrix.mul_apply, Fintype.sum_prod_type]
    refine Finset.sum_congr rfl fun l _ => ?_
    simp
  refine ⟨fun ω => ∑ c, W c * z c ω, ?_, ?_, ?_⟩
  · intro ω
    have := c171_total (o := o) (s := s) (cs := List.ofFn fun c => (comp c, kept c ω))
      (ys := List.ofFn fun c => W c * z c ω) ?_ ?_ ?_
    · rw [this, List.sum_ofFn]
    · intro h
      have := congrArg List.length h
      simp at this
      omega
    · intro c hc
      obtain ⟨i, rfl⟩ := List.mem_ofFn.1 hc
      exact hs i
    · rw [List.forall₂_iff_get]
      refine ⟨by simp, ?_⟩
      intro i h1 h2
      simp only [List.get_eq_getElem, List.getElem_ofFn]
      refine Or.inl ⟨((L _)ᵀ)⁻¹ * z _ ω, hkept _ ω _ rfl, ?_⟩
      intro a b
      rw [hd]
      simp only [W]
      rw [Matrix.mul_assoc]
      rfl
  · intro i j
    have h0 : ∫ ω, (∑ c, W c * z c ω) i j ∂μ = 0 := by
      simp only [hexp]
      exact white_mean hz _
    have hi : Integrable (fun ω => (∑ c, W c * z c ω) i j) μ := by
      simp only [hexp]
      exact white_integrable hz _
    rw [integral_add hi (integrable_const _), h0, integral_const]
    simp
  · intro i j i' j'
    simp only [hexp]
    rw [white_covariance hz, Fintype.sum_sigma]
    by_cases hj : j = j'
    · subst hj
      rw [if_pos rfl]
      refine Finset.sum_congr rfl fun c _ => ?_
      have hw : design c * (P c)⁻¹ * (design c)ᵀ = W c * (W c)ᵀ := by
        rw [← whiten_inverse (hP c) (hL c)]
        simp only [W, Matrix.transpose_mul, Matrix.mul_assoc]
      rw [hw, Matrix.mul_apply, Fintype.sum_prod_type]
      refine Finset.sum_congr rfl fun l _ => ?_
      simp
    · rw [if_neg hj]
      refine Finset.sum_eq_zero fun c _ => Finset.sum_eq_zero fun p _ => ?_
      by_cases h1 : p.2 = j
      · rw [if_neg fun h2 => hj (h1.symm.trans h2), mul_zero]
      · rw [if_neg h1, zero_mul]

/-! ### The standard deviation of draws -/

theorem spread_expand {k : ℕ} (hk : 0 < k) (x : Fin k → ℝ) :
    (∑ j, (x j - (∑ l, x l) / k) * (x j - (∑ l, x l) / k)) / k =
      (∑ j, x j * x j) / k - (∑ j, ∑ l, x j * x l) / (k * k) := by
  have hk' : (k : ℝ) ≠ 0 := by positivity
  have h1 : ∀ j, (x j - (∑ l, x l) / k) * (x j - (∑ l, x l) / k) =
      x j * x j - 2 * ((∑ l, x l) / k) * x j + ((∑ l, x l) / k) * ((∑ l, x l) / k) := fun j => by ring
  have h2 : ∑ j, ∑ l, x j * x l = (∑ l, x l) * (∑ l, x l) := by rw [Finset.sum_mul_sum]
  simp only [h1]
  rw [Finset.sum_add_distrib, Finset.sum_sub_distrib, ← Finset.mul_sum, h2, Finset.sum_const, Finset.card_univ, Fintype.card_fin,
    nsmul_eq_mul]
  field_simp
  ring

/-- **C171.**  The square of the approximated standard deviation, which is computed from `k` draws, has as its mean the variance of
the state parameter times `(k - 1) / k`: it is too small, the less the more draws. -/
theorem c171_approximated {n k : ℕ} (hk : 0 < k) {A L : Mat n} (hA : A.PosDef) (hL : L * Lᵀ = A)
    {z : Ω → Matrix (Fin n) (Fin k) ℝ} (hz : White μ fun (p : Fin n × Fin k) ω => z ω p.1 p.2) (i : Fin n) :
    ∫ ω, approximatedStd L (z ω) i ^ 2 ∂μ = ((k : ℝ) - 1) / k * A⁻¹ i i := by
  obtain ⟨x, hx, -, hcov⟩ := c171_law hA hL hz
  have hx' : ∀ ω, x ω = (Lᵀ)⁻¹ * z ω := by
    intro ω
    have := hx ω
    rw [whiten, Arr.table.injEq] at this
    exact (eq_of_heq this.2.2).symm
  have hint : ∀ j l, Integrable (fun ω => x ω i j * x ω i l) μ := by
    intro j l
    have he : ∀ ω j, x ω i j = ∑ p : Fin n × Fin k, (if p.2 = j then (Lᵀ)⁻¹ i p.1 else 0) * z ω p.1 p.2 := by
      intro ω j
      rw [hx', Matrix.mul_apply, Fintype.sum_prod_type]
      refine Finset.sum_congr rfl fun l _ => ?_
      simp
    simp only [he]
    exact white_product hz _ _
  have hk' : (k : ℝ) ≠ 0 := by positivity
  have hsq : ∀ ω, approximatedStd L (z ω) i ^ 2 =
      (∑ j, x ω i j * x ω i j) / k - (∑ j, ∑ l, x ω i j * x ω i l) / (k * k) := by
    intro ω
    rw [approximatedStd, stdRow, Real.sq_sqrt, spread_expand hk, hx']
    exact div_nonneg (Finset.sum_nonneg fun j _ => mul_self_nonneg _) (by positivity)
  simp only [hsq]
  rw [integral_sub ((integrable_finset_sum _ fun j _ => hint j j).div_const _)
    ((integrable_finset_sum _ fun j _ => integrable_finset_sum _ fun l _ => hint j l).div_const _),
    integral_div, integral_div, integral_finset_sum _ fun j _ => hint j j,
    integral_finset_sum _ fun j _ => integrable_finset_sum _ fun l _ => hint j l]
  have h2 : ∀ j, ∫ ω, ∑ l, x ω i j * x ω i l ∂μ = A⁻¹ i i := by
    intro j
    rw [integral_finset_sum _ fun l _ => hint j l]
    simp only [hcov]
    simp
  simp only [h2, hcov, if_true]
  rw [Finset.sum_const, Finset.card_univ, Fintype.card_fin, nsmul_eq_mul]
  field_simp

end Verif.Eustace.Samples
