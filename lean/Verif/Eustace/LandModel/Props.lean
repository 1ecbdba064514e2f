import Verif.Eustace.LandModel.Model
import Mathlib.Tactic.Linarith
import Mathlib.Tactic.NormNum
import Mathlib.Tactic.Ring
import Mathlib.Tactic.FieldSimp
import Mathlib.Tactic.Positivity

/-! C178: air temperatures over land. -/

namespace Verif.Eustace.LandModel

open Verif Verif.Calendar Verif.Eustace.OceanModel

noncomputable section

/-! ### Specification -/

/-- Whether a file has a land surface temperature with all its uncertainties for a cell, of enough observations which differ little
enough, not on ice. -/
def Seen (splThresh fracThresh : ℝ) (d : Day) (file : Option Lst) (c : ℕ) : Prop :=
  ∃ l, file = some l ∧ l.ts c ≠ -32768 ∧ l.ran c ≠ -32768 ∧ l.atm c ≠ -32768 ∧ l.sfc c ≠ -32768 ∧ l.spl c ≠ -32768 ∧
    max 0 ((l.spl c : ℝ) * 0.001 + 32.767) ≤ splThresh ∧ fracThresh ≤ (if 0 < l.all c then (l.clear c : ℝ) / l.all c else 0) ∧ d.ice c = false

/-- Whether a model with coefficients can be used for a cell: there is what its coefficients multiply. -/
def Usable (splThresh fracThresh : ℝ) (d : Day) (fvc : Fvc) (k : Coefs) (c : ℕ) : Prop :=
  (k.day ≠ 0 → Seen splThresh fracThresh d d.day c) ∧ (k.night ≠ 0 → Seen splThresh fracThresh d d.night c) ∧
  (k.fvc ≠ 0 → fvc.fvc c ≠ 255 ∧ fvc.mean c ≠ 255) ∧ (k.snow ≠ 0 → ∃ s, d.snow = some s ∧ s c ≠ 255)

/-- A number of a file, nought if there is none. -/
def raw (file : Option Lst) (v : Lst → ℕ → ℤ) (c : ℕ) : ℝ :=
  match file with
  | some l => v l c
  | none => 0

/-- An uncertainty of a file. -/
def unc (file : Option Lst) (v : Lst → ℕ → ℤ) (c : ℕ) : ℝ := raw file v c * 0.001 + 32.767

/-- Snow of a cell. -/
def snowOf (d : Day) (c : ℕ) : ℝ :=
  match d.snow with
  | some s => s c
  | none => 0

/-- The air temperature: linear in the variables, with surface temperatures in degrees Celsius. -/
def air (d : Day) (fvc : Fvc) (k : Coefs) (c : ℕ) : ℝ :=
  273.15 + (k.const + k.day * (raw d.day Lst.ts c * 0.005) + k.night * (raw d.night Lst.ts c * 0.005) + k.fvc * (fvc.fvc c * 0.004) +
    k.dem * d.dem c + k.solz * d.sun c + k.snow * snowOf d c)

/-- The square of random and sampling uncertainty of a file. -/
def ran2 (file : Option Lst) (c : ℕ) : ℝ := unc file Lst.ran c ^ 2 + max 0 (unc file Lst.spl c) ^ 2

/-- The random uncertainty. -/
def airRandom (d : Day) (fvc : Fvc) (k : Coefs) (c : ℕ) : ℝ :=
  Real.sqrt (k.day ^ 2 * ran2 d.day c + k.night ^ 2 * ran2 d.night c + k.fvc ^ 2 * (fvc.max c * 0.005 - fvc.mean c * 0.005) ^ 2)

/-- The uncertainty correlated over distances of the atmosphere. -/
def airAtm (d : Day) (k : Coefs) (c : ℕ) : ℝ :=
  Real.sqrt (k.day ^ 2 * unc d.day Lst.atm c ^ 2 + k.night ^ 2 * unc d.night Lst.atm c ^ 2 + k.fcal ^ 2)

/-- The uncertainty correlated over distances of the surface. -/
def airSfc (d : Day) (fvc : Fvc) (k : Coefs) (c : ℕ) : ℝ :=
  Real.sqrt (k.day ^ 2 * unc d.day Lst.sfc c ^ 2 + k.night ^ 2 * unc d.night Lst.sfc c ^ 2 + k.fvc ^ 2 * (fvc.mean c * 0.005) ^ 2)

/-- The file of vegetation to be used: no other is nearer, an earlier one of the list is farther, and it is less than ten days away. -/
def Nearest (today : ℤ) (files : List (ℤ × Fvc)) (f : Fvc) : Prop :=
  ∃ (i : ℕ) (day : ℤ), files[i]? = some (day, f) ∧ |today - day| < 10 ∧
    ∀ (j : ℕ) (g : ℤ × Fvc), files[j]? = some g → |today - day| ≤ |today - g.1| ∧ (j < i → |today - day| < |today - g.1|)

/-- The cell is not the last of the grid, or there are a cell without any data and a cell of ice. -/
def Ordinary (d : Day) (fvc : Fvc) (c : ℕ) : Prop :=
  c ≠ d.cells - 1 ∨ ((∃ c0 < d.cells, d.ice c0 = true) ∧ ∃ c0 < d.cells,
    (∀ l, (d.day = some l ∨ d.night = some l) → l.ts c0 = -32768 ∧ l.ran c0 = -32768 ∧ l.atm c0 = -32768 ∧ l.sfc c0 = -32768 ∧
      l.spl c0 = -32768) ∧ fvc.fvc c0 = 255 ∧ ∀ s, d.snow = some s → s c0 = 255)

/-- The values of a cell in a file are those of a set of coefficients: numbers of 16 bits with offset and scale. -/
structure Written (d : Day) (fvc : Fvc) (k : Coefs) (number : ℕ) (o : Field) (c : ℕ) : Prop where
  number : o.number c = number
  t : 110 ≤ air d fvc k c → air d fvc k c ≤ 436 → |(o.t c * 0.005 + 273.15) - air d fvc k c| ≤ 0.0025
  ran : airRandom d fvc k c ≤ 65 → |(o.ran c * 0.001 + 32.767) - airRandom d fvc k c| ≤ 0.0005
  atm : airAtm d k c ≤ 65 → |(o.atm c * 0.001 + 32.767) - airAtm d k c| ≤ 0.0005
  sfc : airSfc d fvc k c ≤ 65 → |(o.sfc c * 0.001 + 32.767) - airSfc d fvc k c| ≤ 0.0005
  sys : |((o.sys c : ℝ) * 0.001 + 32.767) - 0.1| ≤ 0.0005

/-- The values of a cell are those for no data. -/
structure Empty (o : Field) (c : ℕ) : Prop where
  number : o.number c = 0
  t : o.t c = -32767
  ran : o.ran c = -32767
  atm : o.atm c = -32767
  sfc : o.sfc c = -32767
  sys : o.sys c = -32767

/-! ### Lemmas -/

theorem setWhere_at {α : Type} {n : ℕ} {p : ℕ → Prop} (v : α) (a : ℕ → α) (c : ℕ) (hn : c < n) (h : c ≠ n - 1 ∨ ∃ c0 < n, p c0) :
    (p c → setWhere n p v a c = v) ∧ (¬ p c → setWhere n p v a c = a c) := by
  unfold setWhere
  by_cases hx : ∃ c0 < n, p c0
  · rw [if_pos hx]
    exact ⟨fun hp => if_pos hp, fun hp => if_neg hp⟩
  · have hc : c ≠ n - 1 := h.resolve_right hx
    rw [if_neg hx]
    exact ⟨fun hp => absurd ⟨c, hn, hp⟩ hx, fun _ => if_neg hc⟩

theorem mask_at (d : Day) (fvc : Fvc) (c : ℕ) (hn : c < d.cells) (ho : Ordinary d fvc c) : globalMask d c = d.ice c := by
  have h := setWhere_at (n := d.cells) (p := fun c => d.ice c = true) true (fun _ => false) c hn (ho.imp id fun h => h.1)
  unfold globalMask
  cases hi : d.ice c with
  | true => exact h.1 hi
  | false => exact h.2 (by simp [hi])

/-- A cell of a file without any data, or not the last cell. -/
def Blank (n : ℕ) (l : Lst) (c : ℕ) : Prop := c ≠ n - 1 ∨ ∃ c0 < n, l.ts c0 = -32768 ∧ l.ran c0 = -32768 ∧ l.atm c0 = -32768 ∧
  l.sfc c0 = -32768 ∧ l.spl c0 = -32768

theorem blank_of (d : Day) (fvc : Fvc) (c : ℕ) (hn : c < d.cells) (ho : Ordinary d fvc c) (file : Option Lst)
    (hf : file = d.day ∨ file = d.night) : Blank d.cells (file.getD nodata) c := by
  rcases ho with h | ⟨_, c0, h0, h1, _⟩
  · exact Or.inl h
  · cases file with
    | none => exact Or.inr ⟨c, hn, rfl, rfl, rfl, rfl, rfl⟩
    | some l => exact Or.inr ⟨c0, h0, h1 l (hf.imp Eq.symm Eq.symm)⟩

theorem sampling_at (n : ℕ) (l : Lst) (c : ℕ) (hn : c < n) (hb : Blank n l c) :
    (l.spl c = -32768 → sampling n l c = none) ∧ (l.spl c ≠ -32768 → sampling n l c = some (max 0 ((l.spl c : ℝ) * 0.001 + 32.767))) := by
  have h := setWhere_at (n := n) (p := fun c => l.spl c = -32768) none (fun c => some ((l.spl c : ℝ) * 0.001 + 32.767)) c hn
    (hb.imp id fun ⟨c0, h0, h⟩ => ⟨c0, h0, h.2.2.2.2⟩)
  unfold sampling
  refine ⟨fun e => by rw [h.1 e], fun e => ?_⟩
  rw [h.2 e]
  simp only
  split_ifs with hx
  · rw [max_eq_left hx.le]
  · rw [max_eq_right (not_lt.1 hx)]

theorem screened_at (n : ℕ) (reject : ℕ → Prop) (r : ℕ → ℤ) (factor offset : ℝ) (c : ℕ) (hn : c < n)
    (hb : c ≠ n - 1 ∨ ∃ c0 < n, r c0 = -32768) :
    (r c ≠ -32768 ∧ ¬ reject c → screened n reject r factor offset c = some (r c * factor + offset)) ∧
    (¬ (r c ≠ -32768 ∧ ¬ reject c) → screened n reject r factor offset c = none) := by
  have h := setWhere_at (n := n) (p := fun c => r c = -32768 ∨ reject c) none (fun c => some ((r c : ℝ) * factor + offset)) c hn
    (hb.imp id fun ⟨c0, h0, h⟩ => ⟨c0, h0, Or.inl h⟩)
  unfold screened
  exact ⟨fun e => h.2 (by tauto), fun e => h.1 (by tauto)⟩

theorem prepared_seen (sp fr : ℝ) (d : Day) (fvc : Fvc) (c : ℕ) (hn : c < d.cells) (ho : Ordinary d fvc c) (file : Option Lst)
    (hf : file = d.day ∨ file = d.night) (hs : Seen sp fr d file c) :
    (prepare d.cells sp fr (globalMask d) file).ts c = some (raw file Lst.ts c * 0.005 + 273.15) ∧
    (prepare d.cells sp fr (globalMask d) file).ran c = some (Real.sqrt (ran2 file c)) ∧
    (prepare d.cells sp fr (globalMask d) file).atm c = some (unc file Lst.atm c) ∧
    (prepare d.cells sp fr (globalMask d) file).sfc c = some (unc file Lst.sfc c) := by
  have hb := blank_of d fvc c hn ho file hf
  obtain ⟨l, rfl, h1, h2, h3, h4, h5, h6, h7, h8⟩ := hs
  simp only [Option.getD_some] at hb
  have hsp := (sampling_at d.cells l c hn hb).2 h5
  have hr : ¬ rejected d.cells sp fr (globalMask d) l c := by
    rintro (⟨x, hx, hlt⟩ | h | h)
    · rw [hsp] at hx
      rw [← Option.some.inj hx] at hlt
      linarith
    · unfold fraction at h
      linarith
    · rw [mask_at d fvc c hn ho, h8] at h
      exact (nomatch h)
  unfold prepare
  simp only [Option.getD_some]
  refine ⟨?_, ?_, ?_, ?_⟩
  · exact (screened_at _ _ _ _ _ c hn (hb.imp id fun ⟨c0, h0, h⟩ => ⟨c0, h0, h.1⟩)).1 ⟨h1, hr⟩
  · rw [(screened_at _ _ l.ran _ _ c hn (hb.imp id fun ⟨c0, h0, h⟩ => ⟨c0, h0, h.2.1⟩)).1 ⟨h2, hr⟩, hsp]
    rfl
  · exact (screened_at _ _ _ _ _ c hn (hb.imp id fun ⟨c0, h0, h⟩ => ⟨c0, h0, h.2.2.1⟩)).1 ⟨h3, hr⟩
  · exact (screened_at _ _ _ _ _ c hn (hb.imp id fun ⟨c0, h0, h⟩ => ⟨c0, h0, h.2.2.2.1⟩)).1 ⟨h4, hr⟩

theorem prepared_unseen (sp fr : ℝ) (d : Day) (fvc : Fvc) (c : ℕ) (hn : c < d.cells) (ho : Ordinary d fvc c) (file : Option Lst)
    (hf : file = d.day ∨ file = d.night) (hs : ¬ Seen sp fr d file c) :
    (prepare d.cells sp fr (globalMask d) file).ts c = none ∨ (prepare d.cells sp fr (globalMask d) file).ran c = none ∨
    (prepare d.cells sp fr (globalMask d) file).atm c = none ∨ (prepare d.cells sp fr (globalMask d) file).sfc c = none := by
  have hb := blank_of d fvc c hn ho file hf
  have hts := (screened_at d.cells (rejected d.cells sp fr (globalMask d) (file.getD nodata)) (file.getD nodata).ts 0.005 273.15 c hn
    (hb.imp id fun ⟨c0, h0, h⟩ => ⟨c0, h0, h.1⟩)).2
  have hran := (screened_at d.cells (rejected d.cells sp fr (globalMask d) (file.getD nodata)) (file.getD nodata).ran 0.001 32.767 c hn
    (hb.imp id fun ⟨c0, h0, h⟩ => ⟨c0, h0, h.2.1⟩)).2
  have hatm := (screened_at d.cells (rejected d.cells sp fr (globalMask d) (file.getD nodata)) (file.getD nodata).atm 0.001 32.767 c hn
    (hb.imp id fun ⟨c0, h0, h⟩ => ⟨c0, h0, h.2.2.1⟩)).2
  have hsfc := (screened_at d.cells (rejected d.cells sp fr (globalMask d) (file.getD nodata)) (file.getD nodata).sfc 0.001 32.767 c hn
    (hb.imp id fun ⟨c0, h0, h⟩ => ⟨c0, h0, h.2.2.2.1⟩)).2
  by_cases g1 : (file.getD nodata).ts c ≠ -32768 ∧ ¬ rejected d.cells sp fr (globalMask d) (file.getD nodata) c
  swap
  · exact Or.inl (hts g1)
  by_cases g2 : (file.getD nodata).ran c = -32768
  · refine Or.inr (Or.inl ?_)
    unfold prepare
    simp only
    rw [hran fun h => h.1 g2]
    rfl
  by_cases g3 : (file.getD nodata).atm c = -32768
  · exact Or.inr (Or.inr (Or.inl (hatm fun h => h.1 g3)))
  by_cases g4 : (file.getD nodata).sfc c = -32768
  · exact Or.inr (Or.inr (Or.inr (hsfc fun h => h.1 g4)))
  have hsp := sampling_at d.cells (file.getD nodata) c hn hb
  by_cases g5 : (file.getD nodata).spl c = -32768
  · refine Or.inr (Or.inl ?_)
    unfold prepare
    simp only
    rw [hsp.1 g5]
    unfold quadrature
    split
    · next h => exact (nomatch h)
    · rfl
  exfalso
  cases file with
  | none => exact g2 rfl
  | some l =>
    simp only [Option.getD_some] at *
    obtain ⟨g1, g1'⟩ := g1
    unfold rejected at g1'
    rw [not_or, not_or] at g1'
    obtain ⟨r1, r2, r3⟩ := g1'
    rw [mask_at d fvc c hn ho] at r3
    refine hs ⟨l, rfl, g1, g2, g3, g4, g5, ?_, not_lt.1 r2, by simpa using r3⟩
    by_contra hlt
    exact r1 ⟨_, hsp.2 g5, not_le.1 hlt⟩

/-! ### The models -/

theorem term_eq (k : ℝ) (v : Option ℝ) (x : ℝ) (h : k ≠ 0 → v = some x) : (used k v).map (k * ·) = some (k * x) := by
  unfold used
  by_cases hk : k = 0
  · rw [if_pos hk, hk]; simp
  · rw [if_neg hk, h hk]; rfl

theorem squared_eq (k : ℝ) (v : Option ℝ) (x : ℝ) (h : k ≠ 0 → v = some x) : squared k v = some (k ^ 2 * x ^ 2) := by
  unfold squared used
  by_cases hk : k = 0
  · rw [if_pos hk, hk]; simp
  · rw [if_neg hk, h hk]; rfl

theorem term_none (k : ℝ) (hk : k ≠ 0) : (used k none).map (k * ·) = none := by
  unfold used
  rw [if_neg hk]; rfl

theorem squared_none (k : ℝ) (hk : k ≠ 0) : squared k none = none := by
  unfold squared used
  rw [if_neg hk]; rfl

theorem total_none (l : List (Option ℝ)) (h : none ∈ l) : total l = none := by
  induction l with
  | nil => exact (nomatch h)
  | cons a l ih =>
    cases a with
    | none => rfl
    | some a =>
      have : none ∈ l := by simpa using h
      simp [total, ih this]

theorem estimate_none (k : Coefs) (x r a s : Vars)
    (h : linear k x = none ∨ random k r = none ∨ atmosphere k a = none ∨ surface k s = none) : estimate k x r a s = none := by
  unfold estimate
  rcases h with h | h | h | h <;> rw [h]
  · cases linear k x <;> rfl
  · cases linear k x <;> cases random k r <;> rfl
  · cases linear k x <;> cases random k r <;> cases atmosphere k a <;> rfl

theorem linear_none (k : Coefs) (x : Vars) (h : (k.day ≠ 0 ∧ x.day = none) ∨ (k.night ≠ 0 ∧ x.night = none) ∨
    (k.fvc ≠ 0 ∧ x.fvc = none) ∨ (k.snow ≠ 0 ∧ x.snow = none)) : linear k x = none := by
  unfold linear
  rw [total_none]
  · rfl
  · rcases h with ⟨h1, h2⟩ | ⟨h1, h2⟩ | ⟨h1, h2⟩ | ⟨h1, h2⟩ <;> simp [h2, term_none _ h1]

theorem random_none (k : Coefs) (x : Vars) (h : (k.day ≠ 0 ∧ x.day = none) ∨ (k.night ≠ 0 ∧ x.night = none)) : random k x = none := by
  unfold random
  rw [total_none]
  · rfl
  · rcases h with ⟨h1, h2⟩ | ⟨h1, h2⟩ <;> simp [h2, squared_none _ h1]

theorem atmosphere_none (k : Coefs) (x : Vars) (h : (k.day ≠ 0 ∧ x.day = none) ∨ (k.night ≠ 0 ∧ x.night = none)) :
    atmosphere k x = none := by
  unfold atmosphere
  rw [total_none]
  · rfl
  · rcases h with ⟨h1, h2⟩ | ⟨h1, h2⟩ <;> simp [h2, squared_none _ h1]

theorem surface_none (k : Coefs) (x : Vars) (h : (k.day ≠ 0 ∧ x.day = none) ∨ (k.night ≠ 0 ∧ x.night = none)) : surface k x = none := by
  unfold surface
  rw [total_none]
  · rfl
  · rcases h with ⟨h1, h2⟩ | ⟨h1, h2⟩ <;> simp [h2, squared_none _ h1]

/-- Values of a set of coefficients in a cell. -/
def specified (d : Day) (fvc : Fvc) (k : Coefs) (c : ℕ) : Estimate := ⟨air d fvc k c, airRandom d fvc k c, airAtm d k c, airSfc d fvc k c⟩

/-- The estimate of one model in one cell. -/
def cellEstimate (sp fr : ℝ) (d : Day) (fvc : Fvc) (k : Coefs) (c : ℕ) : Option Estimate :=
  let v := vars d fvc (prepare d.cells sp fr (globalMask d) d.day) (prepare d.cells sp fr (globalMask d) d.night) c
  estimate k v.1 v.2.1 v.2.2.1 v.2.2.2

theorem fvc_at (d : Day) (fvc : Fvc) (c : ℕ) (hn : c < d.cells) (ho : Ordinary d fvc c) (f : ℕ → Option ℝ) :
    (¬ (fvc.fvc c ≠ 255 ∧ fvc.mean c ≠ 255) → setWhere d.cells (fun c => fvc.fvc c = 255 ∨ fvc.mean c = 255) none f c = none) ∧
    (fvc.fvc c ≠ 255 ∧ fvc.mean c ≠ 255 → setWhere d.cells (fun c => fvc.fvc c = 255 ∨ fvc.mean c = 255) none f c = f c) := by
  have h := setWhere_at (n := d.cells) (p := fun c => fvc.fvc c = 255 ∨ fvc.mean c = 255) none f c hn
    (ho.imp id fun ⟨_, c0, h0, _, h, _⟩ => ⟨c0, h0, Or.inl h⟩)
  exact ⟨fun e => h.1 (by tauto), fun e => h.2 (by tauto)⟩

theorem snow_at (d : Day) (fvc : Fvc) (c : ℕ) (hn : c < d.cells) (ho : Ordinary d fvc c) (s : ℕ → ℤ) (hs : d.snow = some s) :
    (s c = 255 → setWhere d.cells (fun c => s c = 255) none (fun c => some (s c : ℝ)) c = none) ∧
    (s c ≠ 255 → setWhere d.cells (fun c => s c = 255) none (fun c => some (s c : ℝ)) c = some (s c : ℝ)) :=
  setWhere_at (n := d.cells) (p := fun c => s c = 255) none _ c hn (ho.imp id fun ⟨_, c0, h0, _, _, h⟩ => ⟨c0, h0, h s hs⟩)

theorem cellEstimate_usable (sp fr : ℝ) (d : Day) (fvc : Fvc) (k : Coefs) (c : ℕ) (hn : c < d.cells) (ho : Ordinary d fvc c)
    (hk : k.day ≠ 0 ∨ k.night ≠ 0) (hu : Usable sp fr d fvc k c) : cellEstimate sp fr d fvc k c = some (specified d fvc k c) := by
  obtain ⟨u1, u2, u3, u4⟩ := hu
  have p1 := fun h => prepared_seen sp fr d fvc c hn ho d.day (Or.inl rfl) (u1 h)
  have p2 := fun h => prepared_seen sp fr d fvc c hn ho d.night (Or.inr rfl) (u2 h)
  have hsol : ((prepare d.cells sp fr (globalMask d) d.day).ts c).isSome ∨ ((prepare d.cells sp fr (globalMask d) d.night).ts c).isSome := by
    rcases hk with h | h
    · exact Or.inl (by rw [(p1 h).1]; rfl)
    · exact Or.inr (by rw [(p2 h).1]; rfl)
  unfold cellEstimate vars
  simp only [if_pos hsol]
  have hsnow : k.snow ≠ 0 → snowValue d c = some (snowOf d c) := by
    intro h
    obtain ⟨s, hs, hs'⟩ := u4 h
    unfold snowValue
    rw [hs]
    simp only
    rw [(snow_at d fvc c hn ho s hs).2 hs']
    unfold snowOf
    rw [hs]
  have hsu : k.snow ≠ 0 → snowUnc d = some (0 : ℝ) := by
    intro h
    obtain ⟨s, hs, _⟩ := u4 h
    unfold snowUnc
    rw [hs]
  unfold estimate linear random atmosphere surface
  simp only
  rw [term_eq k.day _ (raw d.day Lst.ts c * 0.005) (fun h => by rw [(p1 h).1]; simp),
    term_eq k.night _ (raw d.night Lst.ts c * 0.005) (fun h => by rw [(p2 h).1]; simp),
    term_eq k.fvc _ _ (fun h => (fvc_at d fvc c hn ho _).2 (u3 h)), term_eq k.dem _ _ (fun _ => rfl), term_eq k.solz _ _ (fun _ => rfl),
    term_eq k.snow _ _ hsnow,
    squared_eq k.day _ _ (fun h => (p1 h).2.1), squared_eq k.night _ _ (fun h => (p2 h).2.1),
    squared_eq k.fvc _ _ (fun h => (fvc_at d fvc c hn ho _).2 (u3 h)), squared_eq k.dem _ _ (fun _ => rfl),
    squared_eq k.solz _ _ (fun _ => rfl), squared_eq k.snow _ _ hsu,
    squared_eq k.day _ _ (fun h => (p1 h).2.2.1), squared_eq k.night _ _ (fun h => (p2 h).2.2.1),
    squared_eq k.day _ _ (fun h => (p1 h).2.2.2), squared_eq k.night _ _ (fun h => (p2 h).2.2.2),
    squared_eq k.fvc _ _ (fun h => (fvc_at d fvc c hn ho _).2 (u3 h))]
  have q : ∀ f, Real.sqrt (ran2 f c) ^ 2 = ran2 f c := fun f => Real.sq_sqrt (by unfold ran2; positivity)
  simp only [total, Option.map_some, q, specified]
  congr 2
  · unfold air; ring
  · unfold airRandom; congr 1; ring
  · unfold airAtm; congr 1; ring
  · unfold airSfc; congr 1; ring

theorem cellEstimate_unusable (sp fr : ℝ) (d : Day) (fvc : Fvc) (k : Coefs) (c : ℕ) (hn : c < d.cells) (ho : Ordinary d fvc c)
    (hu : ¬ Usable sp fr d fvc k c) : cellEstimate sp fr d fvc k c = none := by
  unfold cellEstimate
  apply estimate_none
  by_cases g1 : k.day ≠ 0 → Seen sp fr d d.day c
  swap
  · rw [Classical.not_imp] at g1
    rcases prepared_unseen sp fr d fvc c hn ho d.day (Or.inl rfl) g1.2 with h | h | h | h
    · exact Or.inl (linear_none _ _ (Or.inl ⟨g1.1, by simp [vars, h]⟩))
    · exact Or.inr (Or.inl (random_none _ _ (Or.inl ⟨g1.1, by simp [vars, h]⟩)))
    · exact Or.inr (Or.inr (Or.inl (atmosphere_none _ _ (Or.inl ⟨g1.1, by simp [vars, h]⟩))))
    · exact Or.inr (Or.inr (Or.inr (surface_none _ _ (Or.inl ⟨g1.1, by simp [vars, h]⟩))))
  by_cases g2 : k.night ≠ 0 → Seen sp fr d d.night c
  swap
  · rw [Classical.not_imp] at g2
    rcases prepared_unseen sp fr d fvc c hn ho d.night (Or.inr rfl) g2.2 with h | h | h | h
    · exact Or.inl (linear_none _ _ (Or.inr (Or.inl ⟨g2.1, by simp [vars, h]⟩)))
    · exact Or.inr (Or.inl (random_none _ _ (Or.inr ⟨g2.1, by simp [vars, h]⟩)))
    · exact Or.inr (Or.inr (Or.inl (atmosphere_none _ _ (Or.inr ⟨g2.1, by simp [vars, h]⟩))))
    · exact Or.inr (Or.inr (Or.inr (surface_none _ _ (Or.inr ⟨g2.1, by simp [vars, h]⟩))))
  by_cases g3 : k.fvc ≠ 0 → fvc.fvc c ≠ 255 ∧ fvc.mean c ≠ 255
  swap
  · rw [Classical.not_imp] at g3
    exact Or.inl (linear_none _ _ (Or.inr (Or.inr (Or.inl ⟨g3.1, (fvc_at d fvc c hn ho _).1 g3.2⟩))))
  by_cases g4 : k.snow ≠ 0 → ∃ s, d.snow = some s ∧ s c ≠ 255
  swap
  · rw [Classical.not_imp] at g4
    refine Or.inl (linear_none _ _ (Or.inr (Or.inr (Or.inr ⟨g4.1, ?_⟩))))
    unfold vars snowValue
    simp only
    cases hs : d.snow with
    | none => rfl
    | some s =>
      simp only
      exact (snow_at d fvc c hn ho s hs).1 (by_contra fun h => g4.2 ⟨s, hs, h⟩)
  exact absurd ⟨g1, g2, g3, g4⟩ hu

/-! ### Numbers in the file -/

theorem round_bound (x : ℝ) : |(idlRound x : ℝ) - x| ≤ 1 / 2 := by
  unfold idlRound
  rw [abs_le]
  split_ifs
  · have h1 := Int.floor_le (x + 1 / 2)
    have h2 := Int.lt_floor_add_one (x + 1 / 2)
    constructor <;> linarith
  · have h1 := Int.le_ceil (x - 1 / 2)
    have h2 := Int.ceil_lt_add_one (x - 1 / 2)
    constructor <;> linarith

theorem fix_id (n : ℤ) (h1 : -32768 ≤ n) (h2 : n ≤ 32767) : fix n = n := by
  unfold fix
  omega

theorem written_number (x offset factor : ℝ) (hf : 0 < factor) (h1 : -32767 ≤ (x - offset) / factor) (h2 : (x - offset) / factor ≤ 32767) :
    |((fix (idlRound ((x - offset) / factor)) : ℝ) * factor + offset) - x| ≤ factor / 2 := by
  have hb := round_bound ((x - offset) / factor)
  obtain ⟨a, b⟩ := abs_le.1 hb
  have l1 : -32768 ≤ idlRound ((x - offset) / factor) := by
    have : (-32768 : ℝ) ≤ idlRound ((x - offset) / factor) := by linarith
    exact_mod_cast this
  have l2 : idlRound ((x - offset) / factor) ≤ 32767 := by
    have : (idlRound ((x - offset) / factor) : ℝ) < 32768 := by linarith
    have : idlRound ((x - offset) / factor) < 32768 := by exact_mod_cast this
    omega
  rw [fix_id _ l1 l2]
  have e : ((idlRound ((x - offset) / factor) : ℝ) * factor + offset) - x = factor * ((idlRound ((x - offset) / factor) : ℝ) - (x - offset) / factor) := by
    field_simp
    ring
  rw [e, abs_mul, abs_of_pos hf]
  nlinarith

theorem written_t (x : ℝ) (h1 : 110 ≤ x) (h2 : x ≤ 436) : |((fix (idlRound ((x - 273.15) / 0.005)) : ℝ) * 0.005 + 273.15) - x| ≤ 0.0025 := by
  have h := written_number x 273.15 0.005 (by norm_num) (by rw [le_div_iff₀ (by norm_num)]; norm_num at *; linarith)
    (by rw [div_le_iff₀ (by norm_num)]; norm_num at *; linarith)
  refine h.trans (by norm_num)

theorem written_u (x : ℝ) (h1 : 0 ≤ x) (h2 : x ≤ 65) : |((fix (idlRound ((x - 32.767) / 0.001)) : ℝ) * 0.001 + 32.767) - x| ≤ 0.0005 := by
  have h := written_number x 32.767 0.001 (by norm_num) (by rw [le_div_iff₀ (by norm_num)]; norm_num at *; linarith)
    (by rw [div_le_iff₀ (by norm_num)]; norm_num at *; linarith)
  refine h.trans (by norm_num)

/-! ### The nearest file -/

theorem smallest_spec (l : List ℤ) (h : l ≠ []) : smallest l ∈ l ∧ ∀ x ∈ l, smallest l ≤ x := by
  have key : ∀ (l : List ℤ) (a : ℤ), l.foldl min a ≤ a ∧ (∀ x ∈ l, l.foldl min a ≤ x) ∧ (l.foldl min a = a ∨ l.foldl min a ∈ l) := by
    intro l
    induction l with
    | nil => intro a; exact ⟨le_refl _, fun x hx => (nomatch hx), Or.inl rfl⟩
    | cons b l ih =>
      intro a
      obtain ⟨h1, h2, h3⟩ := ih (min a b)
      rw [List.foldl_cons]
      refine ⟨h1.trans (min_le_left _ _), ?_, ?_⟩
      · intro x hx
        rcases List.mem_cons.1 hx with rfl | hx
        · exact h1.trans (min_le_right _ _)
        · exact h2 x hx
      · rcases h3 with h3 | h3
        · rw [h3]
          rcases min_choice a b with h | h
          · exact Or.inl h
          · rw [h]; exact Or.inr List.mem_cons_self
        · exact Or.inr (List.mem_cons_of_mem _ h3)
  obtain ⟨h1, h2, h3⟩ := key l (l.headD 0)
  refine ⟨?_, h2⟩
  unfold smallest
  rcases h3 with h3 | h3
  · rw [h3]
    cases l with
    | nil => exact absurd rfl h
    | cons a l => exact List.mem_cons_self
  · exact h3

theorem nearest_eq (today : ℤ) (files : List (ℤ × Fvc)) (f : Fvc) (h : Nearest today files f) : nearestFvc today files = some f := by
  obtain ⟨i, day, hi, hlt, hall⟩ := h
  have hmem := List.mem_of_getElem? hi
  have hne : files.map (fun f => |today - f.1|) ≠ [] := by
    intro e
    rw [List.map_eq_nil_iff] at e
    rw [e] at hmem
    exact (nomatch hmem)
  obtain ⟨s1, s2⟩ := smallest_spec _ hne
  have hs : smallest (files.map fun f => |today - f.1|) = |today - day| := by
    apply le_antisymm
    · exact s2 _ (List.mem_map.2 ⟨(day, f), hmem, rfl⟩)
    · obtain ⟨g, hg, hge⟩ := List.mem_map.1 s1
      obtain ⟨j, hj⟩ := List.mem_iff_getElem?.1 hg
      rw [← hge]
      exact (hall j g hj).1
  have hfind : files.find? (fun f => decide (|today - f.1| = |today - day|)) = some (day, f) := by
    obtain ⟨hil, hie⟩ := List.getElem?_eq_some_iff.1 hi
    rw [List.find?_eq_some_iff_getElem]
    refine ⟨by simp, i, hil, hie, fun j hj => ?_⟩
    have := (hall j files[j] (List.getElem?_eq_getElem (hj.trans hil))).2 hj
    simp only [Bool.not_eq_true', decide_eq_false_iff_not]
    omega
  unfold nearestFvc
  simp only [hs, hfind, if_pos hlt]

theorem nearest_exists (today : ℤ) (files : List (ℤ × Fvc)) (h : ∃ g ∈ files, |today - g.1| < 10) : ∃ f, Nearest today files f := by
  obtain ⟨g, hg, hlt⟩ := h
  have hne : files.map (fun f => |today - f.1|) ≠ [] := by
    intro e
    rw [List.map_eq_nil_iff] at e
    rw [e] at hg
    exact (nomatch hg)
  obtain ⟨s1, s2⟩ := smallest_spec _ hne
  obtain ⟨m, hm, hme⟩ := List.mem_map.1 s1
  cases hf : files.find? (fun f => decide (|today - f.1| = smallest (files.map fun f => |today - f.1|))) with
  | none =>
    have := List.find?_eq_none.1 hf m hm
    simp only [decide_eq_true_eq] at this
    exact absurd hme this
  | some r =>
    rw [List.find?_eq_some_iff_getElem] at hf
    obtain ⟨hr, i, hil, hie, hbefore⟩ := hf
    simp only [decide_eq_true_eq] at hr
    refine ⟨r.2, i, r.1, by rw [List.getElem?_eq_getElem hil, hie], ?_, fun j g' hj => ?_⟩
    · rw [hr]
      exact lt_of_le_of_lt (s2 _ (List.mem_map.2 ⟨g, hg, rfl⟩)) hlt
    · have hle := s2 _ (List.mem_map.2 ⟨g', List.mem_of_getElem? hj, rfl⟩)
      refine ⟨by rw [hr]; exact hle, fun hlt => ?_⟩
      obtain ⟨hjl, hje⟩ := List.getElem?_eq_some_iff.1 hj
      have := hbefore j hlt
      rw [hje] at this
      simp only [Bool.not_eq_true', decide_eq_false_iff_not] at this
      rw [hr]
      exact lt_of_le_of_ne hle (Ne.symm this)

/-! ### One day -/

/-- What a file has to have in a cell: the values of the first model which can be used. -/
def Result (sp fr : ℝ) (d : Day) (fvc : Fvc) (k1 k2 : Coefs) (o : Field) (c : ℕ) : Prop :=
  (Usable sp fr d fvc k1 c → Written d fvc k1 1 o c) ∧
  (¬ Usable sp fr d fvc k1 c → Usable sp fr d fvc k2 c → Written d fvc k2 2 o c) ∧
  (¬ Usable sp fr d fvc k1 c → ¬ Usable sp fr d fvc k2 c → Empty o c)

/-- A set of coefficients uses a land surface temperature. -/
def Uses (k : Coefs) : Prop := k.day ≠ 0 ∨ k.night ≠ 0

theorem files_of_usable (sp fr : ℝ) (d : Day) (fvc : Fvc) (k : Coefs) (c : ℕ) (hk : Uses k) (h : Usable sp fr d fvc k c) :
    d.day.isSome ∨ d.night.isSome := by
  rcases hk with hk | hk
  · obtain ⟨l, hl, _⟩ := h.1 hk
    exact Or.inl (by rw [hl]; rfl)
  · obtain ⟨l, hl, _⟩ := h.2.1 hk
    exact Or.inr (by rw [hl]; rfl)

theorem chosen_eq (sp fr : ℝ) (d : Day) (fvc : Fvc) (k1 k2 : Coefs) (c : ℕ) (hn : c < d.cells) (ho : Ordinary d fvc c) (h1 : Uses k1)
    (h2 : Uses k2) :
    (Usable sp fr d fvc k1 c → chosen sp fr d fvc k1 k2 c = some (specified d fvc k1 c, 1)) ∧
    (¬ Usable sp fr d fvc k1 c → Usable sp fr d fvc k2 c → chosen sp fr d fvc k1 k2 c = some (specified d fvc k2 c, 2)) ∧
    (¬ Usable sp fr d fvc k1 c → ¬ Usable sp fr d fvc k2 c → chosen sp fr d fvc k1 k2 c = none) := by
  refine ⟨fun u => ?_, fun u v => ?_, fun u v => ?_⟩
  · have e := cellEstimate_usable sp fr d fvc k1 c hn ho h1 u
    unfold cellEstimate at e
    simp only at e
    unfold chosen
    rw [if_pos (files_of_usable sp fr d fvc k1 c h1 u)]
    simp only [modelLoop, e]
    split <;> rfl
  · have e := cellEstimate_usable sp fr d fvc k2 c hn ho h2 v
    have e' := cellEstimate_unusable sp fr d fvc k1 c hn ho u
    unfold cellEstimate at e e'
    simp only at e e'
    unfold chosen
    rw [if_pos (files_of_usable sp fr d fvc k2 c h2 v)]
    simp only [modelLoop, e, e']
  · have e := cellEstimate_unusable sp fr d fvc k2 c hn ho v
    have e' := cellEstimate_unusable sp fr d fvc k1 c hn ho u
    unfold cellEstimate at e e'
    simp only at e e'
    unfold chosen
    split_ifs
    · simp only [modelLoop, e, e']
    · rfl

theorem written_of (d : Day) (fvc : Fvc) (k : Coefs) (number : ℕ) (s : ℕ → Option (Estimate × ℕ)) (c : ℕ)
    (h : s c = some (specified d fvc k c, number)) : Written d fvc k number (fieldOf s).fixed c := by
  have e : ∀ (v : Estimate → ℝ) (o f : ℝ), encoded s v o f c = idlRound ((v (specified d fvc k c) - o) / f) := by
    intro v o f; unfold encoded; rw [h]
  refine ⟨?_, ?_, ?_, ?_, ?_, ?_⟩
  · simp only [Field.fixed, fieldOf, h]
  · intro h1 h2
    simp only [Field.fixed, fieldOf, e]
    exact written_t _ h1 h2
  · intro h2
    simp only [Field.fixed, fieldOf, e]
    exact written_u _ (Real.sqrt_nonneg _) h2
  · intro h2
    simp only [Field.fixed, fieldOf, e]
    exact written_u _ (Real.sqrt_nonneg _) h2
  · intro h2
    simp only [Field.fixed, fieldOf, e]
    exact written_u _ (Real.sqrt_nonneg _) h2
  · simp only [Field.fixed, fieldOf, e]
    exact written_u 0.1 (by norm_num) (by norm_num)

theorem empty_of (s : ℕ → Option (Estimate × ℕ)) (c : ℕ) (h : s c = none) : Empty (fieldOf s).fixed c := by
  have e : ∀ (v : Estimate → ℝ) (o f : ℝ), encoded s v o f c = -32767 := by
    intro v o f; unfold encoded; rw [h]
  have hf : fix (-32767) = -32767 := by decide
  refine ⟨?_, ?_, ?_, ?_, ?_, ?_⟩ <;> simp only [Field.fixed, fieldOf, e, h, hf]

theorem run_ok (m1 m2 m3 : Rows) (sp fr : ℝ) (d : Day) (fvc : Fvc) (o : Output) (h : run m1 m2 m3 sp fr d = .ok o)
    (hf : Nearest (Date.number d.date : ℤ) d.fvcFiles fvc) :
    o.time = (Date.number d.date : ℤ) - (Date.number ⟨1850, 1, 1⟩ : ℤ) ∧ o.max = (fieldOf (chosen sp fr d fvc m1.max m2.max)).fixed ∧
      o.min = (fieldOf (chosen sp fr d fvc m1.min m2.min)).fixed := by
  unfold run at h
  simp only [nearest_eq _ _ _ hf] at h
  by_cases h1 : ∀ f ∈ d.fvcFiles, ¬ ((Date.number d.date : ℤ) - 10 < f.1 ∧ f.1 < (Date.number d.date : ℤ) + 10)
  · rw [if_pos h1] at h
    exact (nomatch h)
  · rw [if_neg h1] at h
    by_cases h2 : (fieldOf (chosen sp fr d fvc m1.max m2.max)).tooLow d.cells ∨ (fieldOf (chosen sp fr d fvc m1.min m2.min)).tooLow d.cells
    · rw [if_pos h2] at h
      exact (nomatch h)
    · rw [if_neg h2] at h
      rw [← Except.ok.inj h]
      exact ⟨rfl, rfl, rfl⟩

/-- **C178**, for all files, coefficients, thresholds and dates: each cell has the air temperatures and uncertainties of the first model
for which there is what its coefficients multiply, with the number of this model, and no data if there is none; vegetation is that of the
nearest day.  Missing: the third model (see `c178_third_violated`), and the last cell if a mask matches nothing (`c178_last_violated`). -/
theorem c178_day_partial (m1 m2 m3 : Rows) (sp fr : ℝ) (d : Day) (fvc : Fvc) (o : Output) (h : run m1 m2 m3 sp fr d = .ok o)
    (hf : Nearest (Date.number d.date : ℤ) d.fvcFiles fvc) (u1 : Uses m1.max) (u2 : Uses m2.max) (u3 : Uses m1.min) (u4 : Uses m2.min) :
    o.time = (Date.number d.date : ℤ) - (Date.number ⟨1850, 1, 1⟩ : ℤ) ∧ ∀ c < d.cells, Ordinary d fvc c →
      Result sp fr d fvc m1.max m2.max o.max c ∧ Result sp fr d fvc m1.min m2.min o.min c := by
  obtain ⟨h1, h2, h3⟩ := run_ok m1 m2 m3 sp fr d fvc o h hf
  refine ⟨h1, fun c hn ho => ⟨?_, ?_⟩⟩
  · obtain ⟨a, b, e⟩ := chosen_eq sp fr d fvc m1.max m2.max c hn ho u1 u2
    rw [h2]
    exact ⟨fun u => written_of d fvc _ _ _ c (a u), fun u v => written_of d fvc _ _ _ c (b u v), fun u v => empty_of _ c (e u v)⟩
  · obtain ⟨a, b, e⟩ := chosen_eq sp fr d fvc m1.min m2.min c hn ho u3 u4
    rw [h3]
    exact ⟨fun u => written_of d fvc _ _ _ c (a u), fun u v => written_of d fvc _ _ _ c (b u v), fun u v => empty_of _ c (e u v)⟩

theorem ready_of_nearest (today : ℤ) (files : List (ℤ × Fvc)) (f : Fvc) (h : Nearest today files f) :
    ¬ ∀ g ∈ files, ¬ (today - 10 < g.1 ∧ g.1 < today + 10) := by
  obtain ⟨i, day, hi, hlt, _⟩ := h
  intro hall
  obtain ⟨a, b⟩ := abs_lt.1 hlt
  exact hall (day, f) (List.mem_of_getElem? hi) ⟨by simp only; omega, by simp only; omega⟩

theorem round_mono_int (n : ℤ) (x : ℝ) (h : (n : ℝ) ≤ x) : n ≤ idlRound x := by
  obtain ⟨a, b⟩ := abs_le.1 (round_bound x)
  have : (n : ℝ) < idlRound x + 1 := by linarith
  have : n < idlRound x + 1 := by exact_mod_cast this
  omega

/-- **C178**, for all files, coefficients, thresholds and dates: the program ends with a file if there is one of vegetation less than ten
days away and no air temperature is below 110 degrees; without such a file of vegetation it stops. -/
theorem c178_runs (m1 m2 m3 : Rows) (sp fr : ℝ) (d : Day) :
    (∀ fvc, Nearest (Date.number d.date : ℤ) d.fvcFiles fvc → (∀ c < d.cells, Ordinary d fvc c) → Uses m1.max → Uses m2.max → Uses m1.min →
      Uses m2.min → (∀ c < d.cells, ∀ k ∈ [m1.max, m2.max, m1.min, m2.min], Usable sp fr d fvc k c → 110 ≤ air d fvc k c) →
      ∃ o, run m1 m2 m3 sp fr d = .ok o) ∧
    ((∃ g ∈ d.fvcFiles, |(Date.number d.date : ℤ) - g.1| < 10) → ∃ fvc, Nearest (Date.number d.date : ℤ) d.fvcFiles fvc) ∧
    ((∀ g ∈ d.fvcFiles, 10 ≤ |(Date.number d.date : ℤ) - g.1|) → run m1 m2 m3 sp fr d = .error .other) := by
  refine ⟨fun fvc hf ho u1 u2 u3 u4 hair => ?_, nearest_exists _ _, fun h => ?_⟩
  · have low : ∀ k1 k2, Uses k1 → Uses k2 → (∀ c < d.cells, ∀ k ∈ [k1, k2], Usable sp fr d fvc k c → 110 ≤ air d fvc k c) →
        ¬ (fieldOf (chosen sp fr d fvc k1 k2)).tooLow d.cells := by
      rintro k1 k2 v1 v2 ha ⟨c, hn, hc⟩
      have hu : ∀ x : ℝ, 0 ≤ x → ¬ idlRound ((x - 32.767) / 0.001) < -32767 := by
        intro x hx
        refine not_lt.2 (round_mono_int _ _ ?_)
        rw [le_div_iff₀ (by norm_num)]
        push_cast
        norm_num
        linarith
      have ht : ∀ x : ℝ, 110 ≤ x → ¬ idlRound ((x - 273.15) / 0.005) < -32767 := by
        intro x hx
        refine not_lt.2 (round_mono_int _ _ ?_)
        rw [le_div_iff₀ (by norm_num)]
        push_cast
        norm_num
        linarith
      have go : ∀ k n, 110 ≤ air d fvc k c → chosen sp fr d fvc k1 k2 c = some (specified d fvc k c, n) → False := by
        intro k n hk e
        simp only [fieldOf, encoded, e] at hc
        rcases hc with h | h | h | h
        · exact ht _ hk h
        · exact hu _ (Real.sqrt_nonneg _) h
        · exact hu _ (Real.sqrt_nonneg _) h
        · exact hu _ (Real.sqrt_nonneg _) h
      obtain ⟨a, b, e⟩ := chosen_eq sp fr d fvc k1 k2 c hn (ho c hn) v1 v2
      by_cases p : Usable sp fr d fvc k1 c
      · exact go _ _ (ha c hn k1 (by simp) p) (a p)
      · by_cases q : Usable sp fr d fvc k2 c
        · exact go _ _ (ha c hn k2 (by simp) q) (b p q)
        · simp only [fieldOf, encoded, e p q] at hc
          simp at hc
    have l1 := low m1.max m2.max u1 u2 fun c hn k hk => hair c hn k (by
      simp only [List.mem_cons, List.not_mem_nil, or_false] at hk ⊢; tauto)
    have l2 := low m1.min m2.min u3 u4 fun c hn k hk => hair c hn k (by
      simp only [List.mem_cons, List.not_mem_nil, or_false] at hk ⊢; tauto)
    unfold run
    simp only [nearest_eq _ _ _ hf]
    rw [if_neg (ready_of_nearest _ _ _ hf)]
    have : ¬ ((fieldOf (chosen sp fr d fvc m1.max m2.max)).tooLow d.cells ∨ (fieldOf (chosen sp fr d fvc m1.min m2.min)).tooLow d.cells) :=
      fun h => h.elim l1 l2
    exact ⟨_, if_neg this⟩
  · unfold run
    simp only
    rw [if_pos]
    intro g hg hx
    have := h g hg
    rcases abs_cases ((Date.number d.date : ℤ) - g.1) with ⟨e, _⟩ | ⟨e, _⟩ <;> omega

/-! ### What fails -/

/-- **C178 violated**, for all files, coefficients, thresholds and dates: the third model is never used, and a cell for which only it can be
used has no data. -/
theorem c178_third_violated (m1 m2 m3 : Rows) (sp fr : ℝ) (d : Day) :
    (∀ m3', run m1 m2 m3' sp fr d = run m1 m2 m3 sp fr d) ∧
    ∀ (fvc : Fvc) (o : Output) (c : ℕ), run m1 m2 m3 sp fr d = .ok o → Nearest (Date.number d.date : ℤ) d.fvcFiles fvc → Uses m1.max →
      Uses m2.max → Uses m1.min → Uses m2.min → c < d.cells → Ordinary d fvc c → ¬ Usable sp fr d fvc m1.max c →
      ¬ Usable sp fr d fvc m2.max c → Usable sp fr d fvc m3.max c → o.max.t c = -32767 ∧ o.max.number c = 0 := by
  refine ⟨fun _ => rfl, fun fvc o c h hf u1 u2 u3 u4 hn ho n1 n2 _ => ?_⟩
  have e := (((c178_day_partial m1 m2 m3 sp fr d fvc o h hf u1 u2 u3 u4).2 c hn ho).1).2.2 n1 n2
  exact ⟨e.t, e.number⟩

/-- **C178 violated**, for all files, coefficients, thresholds and dates: an uncertainty of less than half a thousandth is written as the
number for no data, although the air temperature is there. -/
theorem c178_zero_violated (m1 m2 m3 : Rows) (sp fr : ℝ) (d : Day) (fvc : Fvc) (o : Output) (h : run m1 m2 m3 sp fr d = .ok o)
    (hf : Nearest (Date.number d.date : ℤ) d.fvcFiles fvc) (u1 : Uses m1.max) (u2 : Uses m2.max) (c : ℕ) (hn : c < d.cells)
    (ho : Ordinary d fvc c) (hu : Usable sp fr d fvc m1.max c) (hs : airSfc d fvc m1.max c < 0.0005) :
    o.max.number c = 1 ∧ o.max.sfc c = -32767 := by
  obtain ⟨_, h2, _⟩ := run_ok m1 m2 m3 sp fr d fvc o h hf
  have e := (chosen_eq sp fr d fvc m1.max m2.max c hn ho u1 u2).1 hu
  rw [h2]
  simp only [Field.fixed, fieldOf, encoded, e, specified]
  refine ⟨trivial, ?_⟩
  have h0 : 0 ≤ airSfc d fvc m1.max c := Real.sqrt_nonneg _
  have hr : idlRound ((airSfc d fvc m1.max c - 32.767) / 0.001) = -32767 := by
    have hx : (airSfc d fvc m1.max c - 32.767) / 0.001 = 1000 * airSfc d fvc m1.max c - 32767 := by
      rw [div_eq_iff (by norm_num)]; norm_num; ring
    rw [hx]
    unfold idlRound
    rw [if_neg (by norm_num at hs; linarith), Int.ceil_eq_iff]
    norm_num at hs
    constructor <;> push_cast <;> linarith
  rw [hr]
  decide

/-- **C178 violated**, for all files, coefficients, thresholds and dates: if the masks have no cell of ice, the last cell has no data, even
if there is all that the models need. -/
theorem c178_last_violated (m1 m2 m3 : Rows) (sp fr : ℝ) (d : Day) (fvc : Fvc) (o : Output) (h : run m1 m2 m3 sp fr d = .ok o)
    (hf : Nearest (Date.number d.date : ℤ) d.fvcFiles fvc) (u1 : Uses m1.max) (u2 : Uses m2.max) (hn : 0 < d.cells)
    (hi : ∀ c < d.cells, d.ice c = false) : o.max.t (d.cells - 1) = -32767 := by
  obtain ⟨_, h2, _⟩ := run_ok m1 m2 m3 sp fr d fvc o h hf
  have hm : globalMask d (d.cells - 1) = true := by
    unfold globalMask setWhere
    rw [if_neg]
    · simp
    · rintro ⟨c, hc, e⟩
      rw [hi c hc] at e
      exact (nomatch e)
  have hts : ∀ file, (prepare d.cells sp fr (globalMask d) file).ts (d.cells - 1) = none := by
    intro file
    have hp : (file.getD nodata).ts (d.cells - 1) = -32768 ∨ rejected d.cells sp fr (globalMask d) (file.getD nodata) (d.cells - 1) :=
      Or.inr (Or.inr (Or.inr hm))
    unfold prepare screened setWhere
    simp only
    rw [if_pos ⟨d.cells - 1, by omega, hp⟩, if_pos hp]
  have hest : ∀ k, Uses k → cellEstimate sp fr d fvc k (d.cells - 1) = none := by
    intro k hk
    unfold cellEstimate
    apply estimate_none
    rcases hk with hk | hk
    · exact Or.inl (linear_none _ _ (Or.inl ⟨hk, by simp [vars, hts]⟩))
    · exact Or.inl (linear_none _ _ (Or.inr (Or.inl ⟨hk, by simp [vars, hts]⟩)))
  have e1 := hest _ u1
  have e2 := hest _ u2
  unfold cellEstimate at e1 e2
  simp only at e1 e2
  rw [h2]
  refine (empty_of _ _ ?_).t
  unfold chosen
  simp only
  split_ifs
  · simp only [modelLoop, e1, e2]
  · rfl

/-! ### Non-vacuity -/

/-- Three cells: one with ten degrees, one without data and one of ice. -/
def smallLst : Lst where
  ts := fun c => if c = 1 then -32768 else 2000
  clear := fun _ => 8
  all := fun _ => 10
  ran := fun c => if c = 1 then -32768 else -32267
  atm := fun c => if c = 1 then -32768 else -32267
  sfc := fun c => if c = 1 then -32768 else -32767
  spl := fun c => if c = 1 then -32768 else -32267

def smallFvc : Fvc := ⟨fun c => if c = 1 then 255 else 100, fun _ => 0, fun _ => 40⟩

def smallDay : Day where
  date := ⟨2004, 2, 29⟩
  cells := 3
  day := some smallLst
  night := none
  ice := fun c => c == 2
  dem := fun _ => 100
  fvcFiles := [((Date.number ⟨2004, 2, 29⟩ : ℤ) + 4, smallFvc), ((Date.number ⟨2004, 2, 29⟩ : ℤ) - 4, ⟨fun _ => 255, fun _ => 255, fun _ => 255⟩)]
  snow := some fun c => if c = 1 then 255 else 0
  sun := fun _ => 45

theorem small_fields : smallDay.day = some smallLst ∧ smallDay.night = none ∧ (∀ c, smallDay.dem c = 100) ∧ (∀ c, smallDay.sun c = 45) ∧
    smallDay.snow = some fun c => if c = 1 then 255 else 0 := ⟨rfl, rfl, fun _ => rfl, fun _ => rfl, rfl⟩

/-- Models by day and by night. -/
def byDay : Rows := ⟨⟨1, 1, 0, 1, 0, 0, 1, 2⟩, ⟨1, 1, 0, 1, 0, 0, 1, 2⟩⟩
def byNight : Rows := ⟨⟨1, 0, 1, 1, 0, 0, 1, 2⟩, ⟨1, 0, 1, 1, 0, 0, 1, 2⟩⟩

theorem small_nearest : Nearest (Date.number smallDay.date : ℤ) smallDay.fvcFiles smallFvc := by
  have e : smallDay.date = ⟨2004, 2, 29⟩ := rfl
  rw [e]
  unfold smallDay
  generalize (Date.number ⟨2004, 2, 29⟩ : ℤ) = t
  refine ⟨0, t + 4, rfl, ?_, fun j g hj => ⟨?_, fun h => absurd h (Nat.not_lt_zero j)⟩⟩
  · have : t - (t + 4) = -4 := by ring
    rw [this]; decide
  · match j with
    | 0 =>
      have : g = (t + 4, smallFvc) := by simpa using hj.symm
      rw [this]
    | 1 =>
      have : g = (t - 4, (⟨fun _ => 255, fun _ => 255, fun _ => 255⟩ : Fvc)) := by simpa using hj.symm
      rw [this]
      have e1 : t - (t + 4) = -4 := by ring
      have e2 : t - (t - 4) = 4 := by ring
      simp only [e1, e2]; decide
    | j + 2 => exact (nomatch hj)

theorem small_ordinary (c : ℕ) : Ordinary smallDay smallFvc c := by
  refine Or.inr ⟨⟨2, by decide, rfl⟩, 1, by decide, fun l hl => ?_, rfl, fun s hs => ?_⟩
  · rcases hl with hl | hl
    · rw [← Option.some.inj hl]; exact ⟨rfl, rfl, rfl, rfl, rfl⟩
    · exact (nomatch hl)
  · rw [← Option.some.inj hs]; rfl

theorem small_usable : Usable 3 0.2 smallDay smallFvc byDay.max 0 ∧ ¬ Usable 3 0.2 smallDay smallFvc byNight.max 0 ∧
    ¬ Usable 3 0.2 smallDay smallFvc byDay.max 1 ∧ ¬ Usable 3 0.2 smallDay smallFvc byDay.max 2 := by
  refine ⟨⟨fun _ => ⟨smallLst, rfl, by decide, by decide, by decide, by decide, by decide, ?_, ?_, rfl⟩, fun h => ?_, fun _ => ⟨by decide, by decide⟩,
    fun _ => ⟨_, rfl, by decide⟩⟩, ?_, ?_, ?_⟩
  · norm_num [smallLst]
  · norm_num [smallLst]
  · exact absurd rfl h
  · intro h
    obtain ⟨l, hl, _⟩ := h.2.1 (by norm_num [byNight])
    exact (nomatch hl)
  · intro h
    obtain ⟨l, hl, h1, _⟩ := h.1 (by norm_num [byDay])
    rw [← Option.some.inj hl] at h1
    exact h1 rfl
  · intro h
    obtain ⟨l, hl, _, _, _, _, _, _, _, h1⟩ := h.1 (by norm_num [byDay])
    exact (nomatch h1)

theorem small_runs (m3 : Rows) : ∃ o, run byDay byNight m3 3 0.2 smallDay = .ok o := by
  refine (c178_runs byDay byNight m3 3 0.2 smallDay).1 smallFvc small_nearest (fun c _ => small_ordinary c) (Or.inl (by norm_num [byDay]))
    (Or.inr (by norm_num [byNight])) (Or.inl (by norm_num [byDay])) (Or.inr (by norm_num [byNight])) ?_
  intro c hc k hk hu
  have hc : c < 3 := hc
  have day : Usable 3 0.2 smallDay smallFvc byDay.max c → 110 ≤ air smallDay smallFvc byDay.max c := by
    intro hu
    match c, hc with
    | 0, _ =>
      obtain ⟨e1, e2, e3, e4, e5⟩ := small_fields
      unfold air raw snowOf
      simp only [e1, e2, e3, e4, e5]
      norm_num [smallLst, smallFvc, byDay]
    | 1, _ => exact absurd hu small_usable.2.2.1
    | 2, _ => exact absurd hu small_usable.2.2.2
  have night : ¬ Usable 3 0.2 smallDay smallFvc byNight.max c := by
    intro h
    obtain ⟨l, hl, _⟩ := h.2.1 (by norm_num [byNight])
    exact (nomatch hl)
  simp only [List.mem_cons, List.not_mem_nil, or_false] at hk
  rcases hk with rfl | rfl | rfl | rfl
  · exact day hu
  · exact absurd hu night
  · exact day hu
  · exact absurd hu night

/-- The first cell has an air temperature, and its uncertainty of the surface, which is nought, reads as missing. -/
example (m3 : Rows) : ∃ o, run byDay byNight m3 3 0.2 smallDay = .ok o ∧ o.max.number 0 = 1 ∧ o.max.sfc 0 = -32767 := by
  obtain ⟨o, h⟩ := small_runs m3
  refine ⟨o, h, c178_zero_violated byDay byNight m3 3 0.2 smallDay smallFvc o h small_nearest (Or.inl (by norm_num [byDay]))
    (Or.inr (by norm_num [byNight])) 0 (by decide) (small_ordinary 0) small_usable.1 ?_⟩
  obtain ⟨e1, e2, _⟩ := small_fields
  unfold airSfc unc raw
  simp only [e1, e2]
  norm_num [smallLst, smallFvc, byDay]

/-- With models by night first and second and by day third, the first cell has no data. -/
example : ∃ o, run byNight byNight byDay 3 0.2 smallDay = .ok o ∧ o.max.t 0 = -32767 ∧ o.max.number 0 = 0 := by
  have u : Uses byNight.max := Or.inr (by norm_num [byNight])
  have u' : Uses byNight.min := Or.inr (by norm_num [byNight])
  have night : ∀ c, ¬ Usable 3 0.2 smallDay smallFvc byNight.max c := by
    intro c h
    obtain ⟨l, hl, _⟩ := h.2.1 (by norm_num [byNight])
    exact (nomatch hl)
  obtain ⟨o, h⟩ := (c178_runs byNight byNight byDay 3 0.2 smallDay).1 smallFvc small_nearest (fun c _ => small_ordinary c) u u u' u' (by
    intro c _ k hk hu
    simp only [List.mem_cons, List.not_mem_nil, or_false] at hk
    rcases hk with rfl | rfl | rfl | rfl <;> exact absurd hu (night c))
  exact ⟨o, h, (c178_third_violated byNight byNight byDay 3 0.2 smallDay).2 smallFvc o 0 h small_nearest u u u' u' (by decide)
    (small_ordinary 0) (night 0) (night 0) small_usable.1⟩

end

end Verif.Eustace.LandModel
