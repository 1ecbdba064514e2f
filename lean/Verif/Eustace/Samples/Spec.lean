import Mathlib.MeasureTheory.Integral.Bochner.Basic
import Verif.Eustace.Samples.Model

/-!
What the theorems about samples refer to.
-/

namespace Verif.Eustace.Samples

open Matrix Verif.Eustace.Linear Verif.Eustace.Components MeasureTheory

/-- The component keeps the draws `x` for the time `t`, one draw in each column. -/
def Keeps (c : Sampled) (kept : Kept) (t : ℤ) {s : ℕ} (x : Matrix (Fin c.n) (Fin s) ℝ) : Prop :=
  (c.which = .spaceTime ∧ kept.sample = some (.table c.n s x)) ∨
  (c.which = .spatial ∧ kept.samples t = some (.table c.n s x))

/-- The component keeps no draws for the time `t`. -/
def KeepsNone (c : Sampled) (kept : Kept) (t : ℤ) : Prop :=
  (c.which = .spaceTime ∧ kept.sample = none) ∨ (c.which = .spatial ∧ kept.samples t = none)

/-- The part `y` which a component has in the draws at the places of `o`: draw by draw the value of the design at the draw, or
zero if a linear component has no draws. -/
def Part (o : Obs) (s : ℕ) (c : Sampled × Kept) (y : Matrix (Fin o.m) (Fin s) ℝ) : Prop :=
  (∃ x : Matrix (Fin c.1.n) (Fin s) ℝ, Keeps c.1 c.2 o.time x ∧ ∀ i j, y i j = c.1.function o (fun l => x l j) i) ∨
  (KeepsNone c.1 c.2 o.time ∧ (c.1.which = .spaceTime → c.1.nonlinear = false) ∧ y = 0)

variable {Ω : Type} [MeasurableSpace Ω]

/-- Random variables with mean zero, variance one and no correlation. -/
structure White (μ : Measure Ω) {ι : Type} [DecidableEq ι] (z : ι → Ω → ℝ) : Prop where
  integrable : ∀ i, Integrable (z i) μ
  product : ∀ i j, Integrable (fun ω => z i ω * z j ω) μ
  mean : ∀ i, ∫ ω, z i ω ∂μ = 0
  covariance : ∀ i j, ∫ ω, z i ω * z j ω ∂μ = if i = j then 1 else 0

end Verif.Eustace.Samples
