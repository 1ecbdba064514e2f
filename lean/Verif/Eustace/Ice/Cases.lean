import Verif.Eustace.Ice.Global
import Mathlib.Tactic.FinCases
import Mathlib.Tactic.IntervalCases

/-! Concrete inputs over ice, and what the program does not guarantee. -/

namespace Verif.Eustace.Ice

open Verif

noncomputable section

/-- The same value everywhere on a grid of five columns. -/
def even {α : Type} (rows : ℕ) (v : α) : Grid α := ⟨rows, 5, fun _ _ => v⟩

/-- Land ice everywhere, one observation in every part of the day, and the same temperatures and uncertainties everywhere. -/
def uniform (latitude : List ℝ) (ts tsMin tsMax : Option ℝ) (bins ul : ℝ) : Inputs where
  daynumber := 18262
  latitude := latitude
  longitude := [0, 1, 2, 3, 4]
  ts := even latitude.length ts
  tsMin := even latitude.length tsMin
  tsMax := even latitude.length tsMax
  tsStd := even latitude.length none
  ts3d := ⟨8, latitude.length, 5, fun _ _ _ => some bins⟩
  nobs3d := ⟨8, latitude.length, 5, fun _ _ _ => some 1⟩
  land := even latitude.length 1
  fraction := even latitude.length none
  uncorrelated := even latitude.length (some 0)
  synoptic := even latitude.length (some 0)
  largeScale := even latitude.length (some ul)

/-- A model which adds an offset, the same for both surfaces. -/
def offsets (a : Observable → ℝ) : Model := fun _ =>
  some [(Surface.landIce.name, fun o => [a o, 1, 0, 0]), (Surface.seaIce.name, fun o => [a o, 1, 0, 0])]

/-- Its coefficients. -/
def coefficients (a : Observable → ℝ) (_ : Surface) (o : Observable) : ℕ → ℝ
  | 0 => a o
  | 1 => 1
  | _ => 0

theorem uniform_counts (l : List ℝ) (a b c : Option ℝ) (d e : ℝ) : Counts (uniform l a b c d e) := by
  intro _ _ _ n h
  cases h
  decide

theorem uniform_ready (f : Observable → ℝ) (l0 : ℝ) (l : List ℝ) (a b c : Option ℝ) (d e : ℝ) :
    Ready (offsets f) (uniform (l0 :: l) a b c d e) (if l0 > 0 then .north else .south) (coefficients f) where
  shaped := (construct_iff _ _).mpr ⟨rfl, rfl, rfl, rfl, rfl, rfl, rfl, rfl, rfl, rfl, rfl⟩
  counts := uniform_counts (l0 :: l) a b c d e
  nobs := le_refl 8
  bins := le_refl 8
  hemi := rfl
  parameters := by
    refine ⟨_, rfl, fun _ o => [f o, 1, 0, 0], ?_, ?_⟩
    · intro s
      cases s <;> rfl
    · intro s o
      exact ⟨[], rfl⟩

theorem uniform_land (l : List ℝ) (a b c : Option ℝ) (d e : ℝ) (i j : ℕ) : OnLandIce (uniform l a b c d e) i j := Or.inl rfl

theorem uniform_observed (l : List ℝ) (a b c : Option ℝ) (d e : ℝ) (bins : Finset ℕ) (h : bins.Nonempty) (i j : ℕ) :
    Observed (uniform l a b c d e) bins i j := by
  obtain ⟨k, hk⟩ := h
  exact ⟨k, hk, 1, by decide, rfl⟩

theorem uniform_plausible (l : List ℝ) (t : ℝ) (b c : Option ℝ) (d e : ℝ) (ht : t ≤ 278) (i j : ℕ) :
    Plausible (uniform l (some t) b c d e) i j := by
  refine ⟨fun s hs => (by cases hs), fun s hs => ?_⟩
  cases hs
  linarith

theorem not_outlier_border (rows cols : ℕ) (g : ℕ → ℕ → Option ℝ) (group : ℕ → ℕ → Prop) (i j : ℕ) (h : i < 2 ∨ j < 2) :
    ¬ Outlier rows cols g group i j := by
  rintro ⟨⟨h1, -, h2, -⟩, -⟩
  omega

theorem uniform_known (l : List ℝ) (a b c : Option ℝ) (d e : ℝ) (bins : Finset ℕ) (i j : ℕ) :
    known (uniform l a b c d e) bins i j = bins := by
  classical
  unfold known
  exact Finset.filter_true_of_mem fun k _ => ⟨d, rfl⟩

theorem uniform_far (l : List ℝ) (a b c : Option ℝ) (d e : ℝ) (bins : Finset ℕ) (hb : bins.Nonempty) (limit t : ℝ)
    (g : Grid (Option ℝ)) (i j : ℕ) (hg : g.at' i j = some t) :
    FarFromBins (uniform l a b c d e) bins limit g i j ↔ limit < |t - d| := by
  have hm : (∑ k ∈ bins, ((uniform l a b c d e).ts3d.at' k i j).getD 0) / (bins.card : ℝ) = d := by
    have : ∀ k ∈ bins, ((uniform l a b c d e).ts3d.at' k i j).getD 0 = d := fun _ _ => rfl
    rw [Finset.sum_congr rfl this, Finset.sum_const, nsmul_eq_mul]
    have : (bins.card : ℝ) ≠ 0 := by exact_mod_cast Finset.card_ne_zero.mpr hb
    field_simp
  unfold FarFromBins
  rw [uniform_known, hm, hg]
  constructor
  · rintro ⟨-, t', ht, h⟩; cases ht; exact h
  · intro h; exact ⟨hb, t, rfl, h⟩

/-- A minimum temperature sixty degrees from the temperatures of the night is kept: the comparison with the bins of the night has no
effect. -/
theorem c114_night_violated : ∃ x : Inputs, construct x = .ok x ∧ Counts x ∧ ∃ g, surfaceTemperature x .tasmin = .ok g ∧
    ∃ i < x.ts.rows, ∃ j < x.ts.cols, ∃ t, g.at' i j = some t ∧ FarFromBins x nights 20 x.tsMin i j ∧ ¬ GoodMin x i j := by
  have hr := uniform_ready (fun _ => 0) (-5) [-4, -3, -2, -1] (some 260) (some 260) (some 260) 200 (1 / 10)
  refine ⟨uniform [-5, -4, -3, -2, -1] (some 260) (some 260) (some 260) 200 (1 / 10), hr.shaped, hr.counts, ?_⟩
  obtain ⟨g, hg, -, hv⟩ := c114_min_partial _ hr.counts (le_refl 8) (le_refl 8)
  have hf : FarFromBins (uniform [-5, -4, -3, -2, -1] (some 260) (some 260) (some 260) 200 (1 / 10)) nights 20
      (uniform [-5, -4, -3, -2, -1] (some 260) (some 260) (some 260) 200 (1 / 10)).tsMin 0 0 := by
    refine (uniform_far _ _ _ _ _ _ nights (by decide) 20 260 _ 0 0 rfl).mpr ?_
    rw [show (260 : ℝ) - 200 = 60 by norm_num, abs_of_pos (by norm_num)]; norm_num
  refine ⟨g, hg, 0, by decide, 0, by decide, 260, (hv 0 0 260).mpr ⟨rfl, ?_⟩, hf, fun h => h.2.2 hf⟩
  refine ⟨⟨uniform_plausible _ _ _ _ _ _ (by norm_num) _ _, uniform_observed _ _ _ _ _ _ _ (by decide) _ _⟩,
    Or.inl (uniform_land ..), not_outlier_border _ _ _ _ _ _ (by omega), not_outlier_border _ _ _ _ _ _ (by omega)⟩

/-- A maximum temperature above five degrees is kept: only the mean is compared with the limit. -/
theorem c114_warm_violated : ∃ x : Inputs, construct x = .ok x ∧ Counts x ∧ ∃ g, surfaceTemperature x .tasmax = .ok g ∧
    ∃ i < x.ts.rows, ∃ j < x.ts.cols, ∃ t, g.at' i j = some t ∧ temperatureMax < t := by
  have hr := uniform_ready (fun _ => 0) (-5) [-4, -3, -2, -1] (some 270) (some 270) (some 285) 270 (1 / 10)
  refine ⟨uniform [-5, -4, -3, -2, -1] (some 270) (some 270) (some 285) 270 (1 / 10), hr.shaped, hr.counts, ?_⟩
  obtain ⟨g, hg, -, hv⟩ := c114_max _ hr.counts (show 6 ≤ 8 by decide) (show 6 ≤ 8 by decide)
  refine ⟨g, hg, 0, by decide, 0, by decide, 285, (hv 0 0 285).mpr ⟨rfl, ?_⟩, by unfold temperatureMax; norm_num⟩
  refine ⟨⟨uniform_plausible _ _ _ _ _ _ (by norm_num) _ _, uniform_observed _ _ _ _ _ _ _ (by decide) _ _, ?_⟩,
    Or.inl (uniform_land ..), not_outlier_border _ _ _ _ _ _ (by omega), not_outlier_border _ _ _ _ _ _ (by omega)⟩
  rw [uniform_far _ _ _ _ _ _ days (by decide) 20 285 _ 0 0 rfl, show (285 : ℝ) - 270 = 15 by norm_num, abs_of_pos (by norm_num)]
  norm_num

/-- The constructor accepts exactly inputs in which all arrays but the land mask have the shape of the axes: a land mask of any shape
is accepted. -/
theorem c114_shape (x : Inputs) : construct x = .ok x ↔ Shaped x := by
  rw [construct_iff]
  exact ⟨fun h => h.2, fun h => ⟨rfl, h⟩⟩

/-- An accepted input whose land mask has another shape. -/
theorem c114_shape_violated : ∃ x : Inputs, construct x = .ok x ∧ x.land.shape ≠ x.ts.shape := by
  refine ⟨{ uniform [-5, -4, -3, -2, -1] (some 270) (some 270) (some 285) 270 (1 / 10) with land := ⟨1, 7, fun _ _ => 1⟩ },
    (c114_shape _).mpr ⟨rfl, rfl, rfl, rfl, rfl, rfl, rfl, rfl, rfl, rfl⟩, by decide⟩

/-- One cold cell in the middle of five by five. -/
def coldSpot : Inputs :=
  { uniform [-5, -4, -3, -2, -1] (some 260) (some 260) (some 260) 255 (1 / 10) with
    ts := ⟨5, 5, fun i j => if i = 2 ∧ j = 2 then some 247 else some 260⟩ }

theorem coldSpot_good (i j : ℕ) : GoodMean coldSpot i j := by
  have ho := fun bins hb => uniform_observed [-5, -4, -3, -2, -1] (some 260) (some 260) (some 260) 255 (1 / 10) bins hb i j
  refine ⟨⟨fun s hs => (by cases hs), fun t ht => ?_⟩, ho days (by decide), ho nights (by decide), ?_⟩
  · simp only [coldSpot] at ht
    split_ifs at ht <;> cases ht <;> norm_num
  · rintro ⟨hne, t, ht, h⟩
    have hk : known coldSpot (Finset.range coldSpot.ts3d.bins) i j = Finset.range 8 :=
      uniform_known [-5, -4, -3, -2, -1] (some 260) (some 260) (some 260) 255 (1 / 10) (Finset.range 8) i j
    have hm : (∑ b ∈ Finset.range 8, (coldSpot.ts3d.at' b i j).getD 0) / ((Finset.range 8).card : ℝ) = 255 := by
      have : ∀ k ∈ Finset.range 8, (coldSpot.ts3d.at' k i j).getD 0 = 255 := fun _ _ => rfl
      rw [Finset.sum_congr rfl this, Finset.sum_const, nsmul_eq_mul, Finset.card_range]
      norm_num
    rw [hk, hm] at h
    simp only [coldSpot] at ht
    split_ifs at ht
    · cases ht
      rw [show (247 : ℝ) - 255 = -8 by norm_num, abs_neg, abs_of_pos (by norm_num)] at h
      norm_num at h
    · cases ht
      rw [show (260 : ℝ) - 255 = 5 by norm_num, abs_of_pos (by norm_num)] at h
      norm_num at h

/-- A case in which quality control removes an outlier and keeps its neighbours. -/
example : ∃ g, surfaceTemperature coldSpot .tas = .ok g ∧ g.at' 2 2 = none ∧ g.at' 0 0 = some 260 := by
  classical
  have hc : Counts coldSpot := uniform_counts [-5, -4, -3, -2, -1] (some 260) (some 260) (some 260) 255 (1 / 10)
  obtain ⟨g, hg, -, hv⟩ := c114_mean coldSpot hc (le_refl 8)
  refine ⟨g, hg, ?_, ?_⟩
  · cases h : g.at' 2 2 with
    | none => rfl
    | some t =>
      exfalso
      obtain ⟨-, -, -, hno, -⟩ := (hv 2 2 t).mp h
      apply hno
      set group : ℕ → ℕ → Prop := fun a b => GoodMean coldSpot a b ∧ OnLandIce coldSpot a b
      have hgr : ∀ a b, group a b := fun a b => ⟨coldSpot_good a b, Or.inl rfl⟩
      have hmem : ∀ q, q ∈ neighbours 5 5 coldSpot.ts.at' group 2 2 → coldSpot.ts.at' q.1 q.2 = some 260 := by
        intro q hq
        have hq := (Finset.mem_filter.mp hq)
        have h' := hq.2.2.2.2.2.2.2.1
        have : ¬ (q.1 = 2 ∧ q.2 = 2) := fun e => h' (by rw [e.1, e.2])
        simp only [coldSpot, if_neg this]
      have hin : ∀ b, b < 2 → (0, b) ∈ neighbours 5 5 coldSpot.ts.at' group 2 2 := by
        intro b hb
        refine Finset.mem_filter.mpr ⟨by simp; omega, by dsimp only; omega, by dsimp only; omega, by dsimp only; omega, by dsimp only; omega,
          by dsimp only; omega, by dsimp only; omega, by simp, hgr _ _, 260, ?_⟩
        simp [coldSpot]
      have hcard : 2 ≤ (neighbours 5 5 coldSpot.ts.at' group 2 2).card :=
        Finset.one_lt_card.mpr ⟨(0, 0), hin 0 (by omega), (0, 1), hin 1 (by omega), by decide⟩
      refine ⟨⟨le_refl 2, ?_, le_refl 2, ?_⟩, hgr 2 2, hcard, 247, rfl, ?_⟩
      · show 2 + 2 < 5; decide
      · show 2 + 2 < 5; decide
      · show (247 : ℝ) + 10 < (∑ q ∈ neighbours 5 5 coldSpot.ts.at' group 2 2, (coldSpot.ts.at' q.1 q.2).getD 0)
          / ((neighbours 5 5 coldSpot.ts.at' group 2 2).card : ℝ)
        have : ∀ q ∈ neighbours 5 5 coldSpot.ts.at' group 2 2, (coldSpot.ts.at' q.1 q.2).getD 0 = 260 := fun q hq => by
          rw [hmem q hq]; rfl
        rw [Finset.sum_congr rfl this, Finset.sum_const, nsmul_eq_mul]
        have hne : ((neighbours 5 5 coldSpot.ts.at' group 2 2).card : ℝ) ≠ 0 := by
          have : (neighbours 5 5 coldSpot.ts.at' group 2 2).card ≠ 0 := by omega
          exact_mod_cast this
        rw [mul_comm, mul_div_assoc, div_self hne]
        norm_num
  · refine (hv 0 0 260).mpr ⟨rfl, coldSpot_good 0 0, Or.inl (Or.inl rfl), not_outlier_border _ _ _ _ _ _ (by omega),
      not_outlier_border _ _ _ _ _ _ (by omega)⟩

theorem uniform_usable (l : List ℝ) (t d e : ℝ) (ht : t ≤ 278) (hd : |t - d| ≤ 10) (o : Observable) (j : ℕ) (i : ℕ)
    (hj : j < 2) : Usable (uniform l (some t) (some t) (some t) d e) o i j t 0 0 e := by
  have hp := uniform_plausible l t (some t) (some t) d e ht i j
  have hn := uniform_observed l (some t) (some t) (some t) d e nights (by decide) i j
  have hdd := uniform_observed l (some t) (some t) (some t) d e days (by decide) i j
  have hb := fun g => not_outlier_border l.length 5 (even l.length (some t)).at' g i j (Or.inr hj)
  cases o with
  | tas =>
    refine ⟨rfl, ⟨⟨hp, hdd, hn, ?_⟩, Or.inl (uniform_land ..), hb _, hb _⟩, rfl, rfl, rfl⟩
    show ¬ FarFromBins _ (Finset.range 8) _ _ _ _
    rw [uniform_far _ _ _ _ _ _ (Finset.range 8) (by decide) 10 t _ i j rfl]
    exact not_lt.mpr hd
  | tasmin => exact ⟨rfl, ⟨⟨hp, hn⟩, Or.inl (uniform_land ..), hb _, hb _⟩, rfl, rfl, rfl⟩
  | tasmax =>
    refine ⟨rfl, ⟨⟨hp, hdd, ?_⟩, Or.inl (uniform_land ..), hb _, hb _⟩, rfl, rfl, rfl⟩
    rw [uniform_far _ _ _ _ _ _ days (by decide) 20 t _ i j rfl]
    exact not_lt.mpr (le_trans hd (by norm_num))

/-- The uncertainty stored for clouds can be negative: that of the satellite, less two tenths of a degree. -/
theorem c115_cloud_violated : ∃ m x r, construct x = .ok x ∧ processObservable m x .tas = .ok r ∧
    ∃ g, ("tas_unc_cloud", g) ∈ r ∧ ∃ i < x.ts.rows, ∃ j < x.ts.cols, ∃ v, g.at' i j = some v ∧ v < 0 := by
  have hr := uniform_ready (fun _ => 0) (-5) [-4, -3, -2, -1] (some 260) (some 260) (some 260) 260 (1 / 10)
  obtain ⟨r, h1, h2, -, h4⟩ := observable_ready _ _ _ _ hr .tas
  refine ⟨_, _, r, hr.shaped, h1, ?_⟩
  have hu := uniform_usable [-5, -4, -3, -2, -1] 260 260 (1 / 10) (by norm_num) (by norm_num) .tas 0 0 (by omega)
  obtain ⟨cell, hc, hv⟩ := (h4 0 (by decide) 0 (by decide)).1 .landIce 260 0 0 (1 / 10) (uniform_land ..) hu
  have hm : ("tas_unc_cloud", some cell.cloud) ∈ valuesAt r 0 0 := by
    rw [hv, show ("tas_unc_cloud" : String) = Observable.tas.name ++ "_unc_cloud" by decide]; simp [Cell.fields]
  obtain ⟨e, he, hee⟩ := List.mem_map.mp hm
  obtain ⟨n, g⟩ := e
  simp only [Prod.mk.injEq] at hee
  obtain ⟨rfl, hg⟩ := hee
  refine ⟨g, he, 0, by decide, 0, by decide, _, hg, ?_⟩
  rw [hc.cloud, if_neg (by decide)]
  norm_num [coefficients]

/-- The air temperatures of a cell need not be in order, though the surface temperatures are: the coefficients of the three
observables are independent, and unlike over land nothing is removed afterwards. -/
theorem c115_order_violated : ∃ m x rmin rmax, construct x = .ok x ∧ processObservable m x .tasmin = .ok rmin ∧
    processObservable m x .tasmax = .ok rmax ∧ ∃ gmin gmax, ("tasmin", gmin) ∈ rmin ∧ ("tasmax", gmax) ∈ rmax ∧
    ∃ i < x.ts.rows, ∃ j < x.ts.cols, ∃ smin smax tmin tmax, x.tsMin.at' i j = some smin ∧ x.tsMax.at' i j = some smax ∧
      smin ≤ smax ∧ gmin.at' i j = some tmin ∧ gmax.at' i j = some tmax ∧ tmax < tmin := by
  have hr := uniform_ready (fun o => if o = .tasmin then 1 else 0) (-5) [-4, -3, -2, -1] (some 260) (some 260) (some 260) 260 (1 / 10)
  obtain ⟨r, h1, -, -, h4⟩ := observable_ready _ _ _ _ hr .tasmin
  obtain ⟨r', h1', -, -, h4'⟩ := observable_ready _ _ _ _ hr .tasmax
  refine ⟨_, _, r, r', hr.shaped, h1, h1', ?_⟩
  have hu := uniform_usable [-5, -4, -3, -2, -1] 260 260 (1 / 10) (by norm_num) (by norm_num) .tasmin 0 0 (by omega)
  have hu' := uniform_usable [-5, -4, -3, -2, -1] 260 260 (1 / 10) (by norm_num) (by norm_num) .tasmax 0 0 (by omega)
  obtain ⟨cell, hc, hv⟩ := (h4 0 (by decide) 0 (by decide)).1 .landIce 260 0 0 (1 / 10) (uniform_land ..) hu
  obtain ⟨cell', hc', hv'⟩ := (h4' 0 (by decide) 0 (by decide)).1 .landIce 260 0 0 (1 / 10) (uniform_land ..) hu'
  have hm : ("tasmin", some cell.air) ∈ valuesAt r 0 0 := by rw [hv]; simp [Cell.fields, Observable.name]
  have hm' : ("tasmax", some cell'.air) ∈ valuesAt r' 0 0 := by rw [hv']; simp [Cell.fields, Observable.name]
  obtain ⟨⟨n, g⟩, he, hee⟩ := List.mem_map.mp hm
  obtain ⟨⟨n', g'⟩, he', hee'⟩ := List.mem_map.mp hm'
  simp only [Prod.mk.injEq] at hee hee'
  obtain ⟨rfl, hg⟩ := hee
  obtain ⟨rfl, hg'⟩ := hee'
  refine ⟨g, g', he, he', 0, by decide, 0, by decide, 260, 260, _, _, rfl, rfl, le_refl _, hg, hg', ?_⟩
  have a := hc.air
  have a' := hc'.air
  simp only [coefficients, if_true, zero_mul, add_zero, one_mul] at a a'
  rw [if_neg (by decide)] at a'
  linarith

/-- Whatever the signs of the parts, the total is at least the total without clouds, and at least each of its parts. -/
theorem c115_total (h : Hemisphere) (s : Surface) (o : Observable) (c0 c1 c2 c3 day t ur us ul : ℝ) (c : Cell)
    (hc : IsCell h s o c0 c1 c2 c3 day t ur us ul c) :
    c.noCloud ≤ c.total ∧ |c.uncorrelated| ≤ c.noCloud ∧ c.synoptic ≤ c.noCloud ∧ |c.largeScale| ≤ c.noCloud ∧ |c.cloud| ≤ c.total := by
  have h1 := hc.total
  have h2 := hc.noCloud
  refine ⟨?_, ?_, ?_, ?_, ?_⟩
  · exact abs_le_of_sq_le_sq' (by nlinarith [sq_nonneg c.cloud]) hc.totalSign |>.2
  · exact abs_le_of_sq_le_sq (by nlinarith [sq_nonneg c.synoptic, sq_nonneg c.largeScale]) hc.noCloudSign
  · exact abs_le_of_sq_le_sq' (by nlinarith [sq_nonneg c.uncorrelated, sq_nonneg c.largeScale]) hc.noCloudSign |>.2
  · exact abs_le_of_sq_le_sq (by nlinarith [sq_nonneg c.synoptic, sq_nonneg c.uncorrelated]) hc.noCloudSign
  · exact abs_le_of_sq_le_sq (by nlinarith [sq_nonneg c.noCloud]) hc.totalSign

/-- The southern input of the next cases. -/
def south : Inputs := uniform [-4, -3, -2, -1, 0] (some 260) (some 260) (some 260) 260 (1 / 10)

/-- A northern input without temperatures. -/
def north (first : ℝ) : Inputs := uniform [first, first + 1, first + 2, first + 3, first + 4] none none none 260 (1 / 10)

theorem check_eq (first : ℝ) (h : 0 < first) : check south (north first) = .ok ⟨-4, -3 - -4, first + 4⟩ := by
  have e1 : hemisphere south = .ok .south := by
    show Except.ok (if (-4 : ℝ) > 0 then Hemisphere.north else .south) = .ok .south
    rw [if_neg (by norm_num)]
  have e2 : hemisphere (north first) = .ok .north := by
    show Except.ok (if first > 0 then Hemisphere.north else .south) = .ok .north
    rw [if_pos h]
  have u1 : uneven (-3 - -4) [-4, -3, -2, -1, 0] = .ok false := by
    simp only [uneven, steps, List.any_cons, List.any_nil]
    norm_num
  have u2 : uneven (-3 - -4) [first, first + 1, first + 2, first + 3, first + 4] = .ok false := by
    have d1 : first + 1 - first = 1 := by ring
    have d2 : first + 2 - (first + 1) = 1 := by ring
    have d3 : first + 3 - (first + 2) = 1 := by ring
    have d4 : first + 4 - (first + 3) = 1 := by ring
    simp only [uneven, steps, List.any_cons, List.any_nil, d1, d2, d3, d4]
    norm_num
  have l1 : south.latitude = [-4, -3, -2, -1, 0] := rfl
  have l2 : (north first).latitude = [first, first + 1, first + 2, first + 3, first + 4] := rfl
  have l3 : south.daynumber = (north first).daynumber := rfl
  have l4 : south.longitude.length = (north first).longitude.length := rfl
  unfold check
  rw [e1, e2]
  dsimp only
  rw [if_neg (not_not.mpr l3), if_neg (not_not.mpr l4), l1, l2]
  simp only [List.getLast?_cons_cons, List.getLast?_singleton, List.head?_cons]
  rw [if_neg (by norm_num), if_neg (by linarith), u1]
  dsimp only
  rw [u2]

theorem south_ready : Ready (offsets fun _ => 0) south .south (coefficients fun _ => 0) := by
  have := uniform_ready (fun _ => 0) (-4) [-3, -2, -1, 0] (some 260) (some 260) (some 260) 260 (1 / 10)
  rw [if_neg (by norm_num)] at this
  exact this

theorem north_ready (first : ℝ) (h : 0 < first) : Ready (offsets fun _ => 0) (north first) .north (coefficients fun _ => 0) := by
  have := uniform_ready (fun _ => 0) first [first + 1, first + 2, first + 3, first + 4] none none none 260 (1 / 10)
  rw [if_pos h] at this
  exact this

/-- A case in which both hemispheres lie on one grid: the first northern row is the sixth step from the first southern row. -/
example : ∃ r, processGlobal (offsets fun _ => 0) south (north 2) = .ok (18262, r) ∧
    ∃ g, entryOf r "tas" = some g ∧ g.shape = (11, 5) := by
  obtain ⟨r, hr, hv⟩ := c116_rows (offsets fun _ => 0) south (north 2) _ (check_eq 2 (by norm_num)) _ _ south_ready
    (north_ready 2 (by norm_num)) 6 (by norm_num) (by
      intro k v hk
      have l2 : (north 2).latitude = [2, 2 + 1, 2 + 2, 2 + 3, 2 + 4] := rfl
      rw [l2] at hk
      have hlt : k < 5 := (List.getElem?_eq_some_iff.mp hk).1
      interval_cases k <;> simp at hk <;> subst hk <;> norm_num) (by decide)
  refine ⟨r, hr, ?_⟩
  obtain ⟨rs, rn, e1, e2, hv⟩ := hv .tas
  obtain ⟨rs', e1', n1, -⟩ := observable_ready _ _ _ _ south_ready .tas
  obtain ⟨rn', e2', n2, -⟩ := observable_ready _ _ _ _ (north_ready 2 (by norm_num)) .tas
  rw [e1] at e1'
  rw [e2] at e2'
  cases e1'
  cases e2'
  have m1 : "tas" ∈ rs.map Prod.fst := by rw [n1]; decide
  have m2 : "tas" ∈ rn.map Prod.fst := by rw [n2]; decide
  obtain ⟨⟨a, gs⟩, ha, rfl⟩ := List.mem_map.mp m1
  obtain ⟨⟨b, gn⟩, hb, hb'⟩ := List.mem_map.mp m2
  simp only at hb'
  subst hb'
  obtain ⟨g, hg, hs, -⟩ := hv _ gs gn ha hb
  exact ⟨g, hg, hs⟩

/-- The latitudes of the north are not checked to lie on the grid of the south: here they are half a step off, less than one step
after the last latitude of the south, and the first northern row replaces the last southern one, of which the data are lost. -/
theorem c116_alignment_violated : ∃ m south north r, construct south = .ok south ∧ construct north = .ok north ∧
    processGlobal m south north = .ok (south.daynumber, r) ∧
    ∃ rs gs g, processObservable m south .tas = .ok rs ∧ ("tas", gs) ∈ rs ∧ entryOf r "tas" = some g ∧
      ∃ i < south.latitude.length, ∃ j v, gs.at' i j = some v ∧ g.at' i j = none := by
  have c := check_eq (1 / 2) (by norm_num)
  have rn := north_ready (1 / 2) (by norm_num)
  obtain ⟨r, hr, hv⟩ := global_rows (offsets fun _ => 0) south (north (1 / 2)) _ c _ _ south_ready rn rfl 4 9
    (by
      intro l hl
      cases hl
      unfold truncate
      rw [if_pos (by norm_num), Int.floor_eq_iff]
      norm_num)
    (by
      intro l hl
      cases hl
      unfold truncate
      rw [if_pos (by norm_num), Int.floor_eq_iff]
      norm_num)
    (by
      have : truncate (((1 : ℝ) / 2 + 4 - -4 + 0.000001) / (-3 - -4)) = 8 := by
        unfold truncate
        rw [if_pos (by norm_num), Int.floor_eq_iff]
        norm_num
      dsimp only
      rw [this]; rfl) (by decide) (by decide)
  refine ⟨_, _, _, r, south_ready.shaped, rn.shaped, hr, ?_⟩
  obtain ⟨rs, rn', e1, e2, hv⟩ := hv .tas
  obtain ⟨rs', e1', n1, -, v1⟩ := observable_ready _ _ _ _ south_ready .tas
  obtain ⟨rn'', e2', n2, -, v2⟩ := observable_ready _ _ _ _ rn .tas
  rw [e1] at e1'
  rw [e2] at e2'
  cases e1'
  cases e2'
  have m2 : "tas" ∈ rn'.map Prod.fst := by rw [n2]; decide
  obtain ⟨⟨b, gn⟩, hb, hb'⟩ := List.mem_map.mp m2
  simp only at hb'
  subst hb'
  have hu := uniform_usable [-4, -3, -2, -1, 0] 260 260 (1 / 10) (by norm_num) (by norm_num) .tas 0 4 (by omega)
  obtain ⟨cell, -, hcell⟩ := (v1 4 (by decide) 0 (by decide)).1 .landIce 260 0 0 (1 / 10) (Or.inl rfl) hu
  have hm : ("tas", some cell.air) ∈ valuesAt rs 4 0 := by rw [hcell]; simp [Cell.fields, Observable.name]
  obtain ⟨⟨a, gs⟩, ha, ha'⟩ := List.mem_map.mp hm
  simp only [Prod.mk.injEq] at ha'
  obtain ⟨rfl, hgs⟩ := ha'
  obtain ⟨g, hg, -, hat⟩ := hv _ gs gn ha hb
  refine ⟨rs, gs, g, e1, ha, hg, 4, by decide, 0, cell.air, hgs, ?_⟩
  rw [hat, if_pos ⟨le_refl 4, by decide⟩]
  exact (v2 0 (by decide) 0 (by decide)).2 (by rintro ⟨t, _, _, _, h, -⟩; cases h) ("tas", gn.at' 0 0)
    (List.mem_map.mpr ⟨("tas", gn), hb, rfl⟩)

end

end Verif.Eustace.Ice
