import Verif.Eustace.Definitions.Model
import Verif.Eustace.Lattice.Design

/-!
C109: the lattices in time and latitude which the definitions of the analysis use.
-/

namespace Verif.Eustace.Definitions

open Verif Verif.Calendar Verif.Eustace.Lattice

noncomputable section

/-! ### Specification -/

/-- The distance between nodes of a line which does not repeat. -/
def gap (start stop : ℝ) (count : Nat) : ℝ := (stop - start) / ((count : ℝ) - 1)

/-- The row of a time or latitude: one weight for each node. -/
def lineRow (L : Lattice 1) (overlap t : ℝ) (c : Nat) : ℝ := buildARow L .wendlandC4 (spanOf L overlap) (fun _ => t) c

/-! ### Lemmas -/

theorem line_proper {start stop : ℝ} {count : Nat} (wrapped : Bool) (h : start < stop) (hc : 2 ≤ count) :
    Proper (line start stop count wrapped) := fun _ => ⟨h, hc⟩

theorem line_size (start stop : ℝ) (count : Nat) (wrapped : Bool) : (line start stop count wrapped).size = count := by
  simp [Lattice.size, line]

theorem span_pos {L : Lattice 1} (hL : Proper L) {overlap : ℝ} (ho : 0 < overlap) : ∀ k, 0 < spanOf L overlap k := by
  intro k
  unfold spanOf
  rw [spacing_eq]
  exact mul_pos (step_pos hL k) ho

theorem ravel_line (n : Multi 1 Nat) (c : Nat) : ravelF n (fun _ => c) = c := by
  simp [ravelF, stride]

theorem wendland_pos {span δ : Multi 1 ℝ} (hs : 0 < span 0) : 0 < basisValue .wendlandC4 span δ ↔ |δ 0| < span 0 := by
  unfold basisValue
  have e : Real.sqrt (∑ k : Fin 1, (δ k / span k) ^ 2) = |δ 0| / span 0 := by
    rw [Fin.sum_univ_one, Real.sqrt_sq_eq_abs, abs_div, abs_of_pos hs]
  dsimp only
  rw [e]
  have hr : 0 ≤ |δ 0| / span 0 := by positivity
  generalize hgen : |δ 0| / span 0 = r at hr
  have hiff : |δ 0| < span 0 ↔ r < 1 := by rw [← hgen, div_lt_one hs]
  rw [hiff]
  constructor
  · intro h
    by_contra h1
    rw [max_eq_left (by linarith)] at h
    simp at h
  · intro h
    rw [max_eq_right (by linarith)]
    have : 0 < (1 - r) ^ 6 := pow_pos (by linarith) 6
    positivity

theorem wendland_nonneg {span δ : Multi 1 ℝ} (hs : 0 < span 0) : 0 ≤ basisValue .wendlandC4 span δ := by
  unfold basisValue
  have hr : 0 ≤ Real.sqrt (∑ k : Fin 1, (δ k / span k) ^ 2) := Real.sqrt_nonneg _
  dsimp only
  have : 0 ≤ max 0 (1 - Real.sqrt (∑ k : Fin 1, (δ k / span k) ^ 2)) ^ 6 := pow_nonneg (le_max_left _ _) 6
  positivity

/-- The weight of a node, for a displacement of the time from it. -/
theorem lineRow_eq {L : Lattice 1} (hL : Proper L) {overlap : ℝ} (ho : 0 < overlap) (t : ℝ) {c : Nat} (hc : c < L.n 0)
    {δ : Multi 1 ℝ} (hδ : IsDisplacement L (fun _ => t) (fun _ => c) δ) :
    lineRow L overlap t c = basisValue .wendlandC4 (spanOf L overlap) δ := by
  have hi : IsNode L fun _ => c := fun k => by rw [Subsingleton.elim k 0]; exact hc
  have := c47_design hL .wendlandC4 (span_pos hL ho) (fun _ => t) hi hδ
  rw [ravel_line] at this
  exact this

theorem lineRow_beyond {L : Lattice 1} (hL : Proper L) (overlap t : ℝ) {c : Nat} (hc : ¬ c < L.size) : lineRow L overlap t c = 0 := by
  unfold lineRow buildARow
  rw [if_neg]
  exact fun h => hc (c47_valid hL _ h)

/-! ### Theorems -/

/-- **C109**, repeating lines: times which differ by whole periods have the same weights. -/
theorem c109_repeats (start stop : ℝ) (count : Nat) (overlap : ℝ) (h : start < stop) (hc : 2 ≤ count) (ho : 0 < overlap) (t : ℝ)
    (m : ℤ) (c : Nat) :
    lineRow (line start stop count true) overlap (t + m * (stop - start)) c = lineRow (line start stop count true) overlap t c := by
  have hL := line_proper true h hc
  by_cases hcs : c < (line start stop count true).size
  · have hcn : c < (line start stop count true).n 0 := by rw [line_size] at hcs; exact hcs
    have hi : IsNode (line start stop count true) fun _ => c := fun k => by rw [Subsingleton.elim k 0]; exact hcn
    obtain ⟨δ, hδ⟩ := displacement_exists hL (fun _ => t) hi
    have hδ' : IsDisplacement (line start stop count true) (fun _ => t + m * (stop - start)) (fun _ => c) δ := by
      intro k
      have hk := hδ k
      have hw : (line start stop count true).wrap k = true := rfl
      rw [if_pos hw] at hk ⊢
      obtain ⟨⟨m', hm'⟩, hb⟩ := hk
      refine ⟨⟨m' + m, ?_⟩, hb⟩
      rw [hm']
      have e : (line start stop count true).hi k - (line start stop count true).lo k = stop - start := rfl
      rw [e]
      push_cast
      ring
    rw [lineRow_eq hL ho _ hcn hδ, lineRow_eq hL ho _ hcn hδ']
  · rw [lineRow_beyond hL _ _ hcs, lineRow_beyond hL _ _ hcs]

/-- Non-vacuity: the seasonal line of the climatology, in years, at 1995.3 and 2006.3. -/
example : (0 : ℝ) < 1 ∧ (2 : ℕ) ≤ 12 ∧ (0 : ℝ) < 2.5 ∧ (2006.3 : ℝ) = 1995.3 + ((11 : ℤ) : ℝ) * (1 - 0) := by norm_num

theorem plain_displacement (start stop : ℝ) (count : Nat) (t : ℝ) (c : Nat) :
    IsDisplacement (line start stop count false) (fun _ => t) (fun _ => c) (fun _ => t - (start + c * gap start stop count)) := by
  intro k
  rw [if_neg (by simp [line])]
  rfl

theorem plain_span (start stop : ℝ) (count : Nat) (overlap : ℝ) :
    spanOf (line start stop count false) overlap 0 = gap start stop count * overlap := by
  unfold spanOf
  rw [spacing_eq]
  rfl

/-- **C109**, other lines: no weight is negative, and exactly those nodes have weight which are nearer than the span. -/
theorem c109_weights (start stop : ℝ) (count : Nat) (overlap : ℝ) (h : start < stop) (hc : 2 ≤ count) (ho : 0 < overlap) (t : ℝ)
    (c : Nat) :
    0 ≤ lineRow (line start stop count false) overlap t c ∧
    (0 < lineRow (line start stop count false) overlap t c ↔
      c < count ∧ |t - (start + c * gap start stop count)| < gap start stop count * overlap) := by
  have hL := line_proper false h hc
  have hs := span_pos hL ho 0
  by_cases hcs : c < count
  · have hcn : c < (line start stop count false).n 0 := hcs
    rw [lineRow_eq hL ho t hcn (plain_displacement start stop count t c)]
    refine ⟨wendland_nonneg hs, ?_⟩
    rw [wendland_pos hs, plain_span]
    simp [hcs]
  · rw [lineRow_beyond hL _ _ (by rw [line_size]; exact hcs)]
    simp [hcs]

theorem gap_pos {start stop : ℝ} {count : Nat} (h : start < stop) (hc : 2 ≤ count) : 0 < gap start stop count := by
  have : (2 : ℝ) ≤ count := by exact_mod_cast hc
  exact div_pos (by linarith) (by linarith)

/-- **C109**, period: every time of the period has weight at some node, if spans reach half way between nodes; times further away from
the period than the span have none. -/
theorem c109_period (start stop : ℝ) (count : Nat) (overlap : ℝ) (h : start < stop) (hc : 2 ≤ count) (ho : 1 / 2 < overlap) (t : ℝ) :
    (start ≤ t → t ≤ stop → ∃ c < count, 0 < lineRow (line start stop count false) overlap t c) ∧
    (t ≤ start - gap start stop count * overlap ∨ stop + gap start stop count * overlap ≤ t →
      ∀ c, lineRow (line start stop count false) overlap t c = 0) := by
  have hg := gap_pos h hc
  have hc2 : (2 : ℝ) ≤ count := by exact_mod_cast hc
  have hlast : start + ((count : ℝ) - 1) * gap start stop count = stop := by
    have hne : (count : ℝ) - 1 ≠ 0 := by linarith
    unfold gap
    rw [mul_div_cancel₀ _ hne]
    ring
  constructor
  · intro h1 h2
    obtain ⟨z, hz⟩ : ∃ z : ℤ, z = ⌊(t - start) / gap start stop count + 1 / 2⌋ := ⟨_, rfl⟩
    have hz1 : (z : ℝ) ≤ (t - start) / gap start stop count + 1 / 2 := by rw [hz]; exact Int.floor_le _
    have hz2 : (t - start) / gap start stop count + 1 / 2 < z + 1 := by rw [hz]; exact Int.lt_floor_add_one _
    have hq : (t - start) / gap start stop count * gap start stop count = t - start := div_mul_cancel₀ _ hg.ne'
    have hq0 : 0 ≤ (t - start) / gap start stop count := div_nonneg (by linarith) hg.le
    have hq1 : (t - start) / gap start stop count ≤ count - 1 := by
      rw [div_le_iff₀ hg]
      linarith
    have hz0 : 0 ≤ z := by rw [hz]; exact Int.floor_nonneg.2 (by linarith)
    have hzc : z < count := by
      have : (z : ℝ) < count := by linarith
      exact_mod_cast this
    obtain ⟨n, rfl⟩ := Int.eq_ofNat_of_zero_le hz0
    refine ⟨n, by exact_mod_cast hzc, ?_⟩
    rw [(c109_weights start stop count overlap h hc (by linarith) t n).2]
    refine ⟨by exact_mod_cast hzc, ?_⟩
    have e : t - (start + n * gap start stop count) = ((t - start) / gap start stop count - n) * gap start stop count := by
      rw [sub_mul, hq]; ring
    rw [e, abs_mul, abs_of_pos hg, mul_comm]
    refine mul_lt_mul_of_pos_left ?_ hg
    rw [Int.cast_natCast] at hz1 hz2
    rw [abs_lt]
    constructor <;> linarith
  · intro hout c
    have hw := c109_weights start stop count overlap h hc (by linarith) t c
    by_contra hne
    have hpos : 0 < lineRow (line start stop count false) overlap t c := lt_of_le_of_ne hw.1 (Ne.symm hne)
    obtain ⟨hcc, hlt⟩ := hw.2.1 hpos
    rw [abs_lt] at hlt
    have hc0 : 0 ≤ (c : ℝ) * gap start stop count := by positivity
    have hc1 : (c : ℝ) * gap start stop count ≤ ((count : ℝ) - 1) * gap start stop count := by
      refine mul_le_mul_of_nonneg_right ?_ hg.le
      have : (c : ℝ) + 1 ≤ count := by exact_mod_cast hcc
      linarith
    rcases hout with ho' | ho' <;> linarith [hlt.1, hlt.2]

/-- Non-vacuity: a line of five nodes with the overlap of the analysis. -/
example : (1860 : ℝ) < 1876 ∧ (2 : ℕ) ≤ 5 ∧ (1 / 2 : ℝ) < 2.5 ∧ (1860 : ℝ) ≤ 1863 := by norm_num

/-! ### Nodes of the slow element -/

/-- **C109**, quantisation: the period is enlarged to whole multiples of the distance of nodes, by less than that distance at each
end, and the number of nodes gives exactly that distance. -/
theorem c109_quantised (s e q : ℝ) (hq : 0 < q) (h : s < e) :
    floorTo s q ≤ s ∧ s < floorTo s q + q ∧ e ≤ ceilTo e q ∧ ceilTo e q < e + q ∧ 2 ≤ slowNodes (floorTo s q) (ceilTo e q) q ∧
      gap (floorTo s q) (ceilTo e q) (slowNodes (floorTo s q) (ceilTo e q) q) = q := by
  have hs : s / q * q = s := div_mul_cancel₀ _ hq.ne'
  have he : e / q * q = e := div_mul_cancel₀ _ hq.ne'
  have h1 : floorTo s q ≤ s := by
    unfold floorTo
    calc (⌊s / q⌋ : ℝ) * q ≤ s / q * q := mul_le_mul_of_nonneg_right (Int.floor_le _) hq.le
      _ = s := hs
  have h2 : s < floorTo s q + q := by
    unfold floorTo
    have := mul_lt_mul_of_pos_right (Int.lt_floor_add_one (s / q)) hq
    rw [hs] at this
    linarith
  have h3 : e ≤ ceilTo e q := by
    unfold ceilTo
    calc e = e / q * q := he.symm
      _ ≤ _ := mul_le_mul_of_nonneg_right (Int.le_ceil _) hq.le
  have h4 : ceilTo e q < e + q := by
    unfold ceilTo
    have := mul_lt_mul_of_pos_right (Int.ceil_lt_add_one (e / q)) hq
    rw [add_mul, he, one_mul] at this
    exact this
  have hlt : ⌊s / q⌋ < ⌈e / q⌉ := by
    have : (⌊s / q⌋ : ℝ) < ⌈e / q⌉ := by
      calc (⌊s / q⌋ : ℝ) ≤ s / q := Int.floor_le _
        _ < e / q := (div_lt_div_iff_of_pos_right hq).2 h
        _ ≤ _ := Int.le_ceil _
    exact_mod_cast this
  have hn : ⌊(ceilTo e q - floorTo s q) / q + 1 + 1 / 2⌋ = ⌈e / q⌉ - ⌊s / q⌋ + 1 := by
    have : (ceilTo e q - floorTo s q) / q = ((⌈e / q⌉ - ⌊s / q⌋ : ℤ) : ℝ) := by
      unfold ceilTo floorTo
      push_cast
      field_simp
    rw [this, Int.floor_eq_iff]
    push_cast
    constructor <;> linarith
  have hcast : ((slowNodes (floorTo s q) (ceilTo e q) q : Nat) : ℤ) = ⌈e / q⌉ - ⌊s / q⌋ + 1 := by
    unfold slowNodes
    rw [hn]
    omega
  refine ⟨h1, h2, h3, h4, by omega, ?_⟩
  have hreal : ((slowNodes (floorTo s q) (ceilTo e q) q : Nat) : ℝ) = (⌈e / q⌉ : ℝ) - ⌊s / q⌋ + 1 := by
    exact_mod_cast hcast
  have hpos : (0 : ℝ) < (⌈e / q⌉ : ℝ) - ⌊s / q⌋ := by
    have : (⌊s / q⌋ : ℝ) < ⌈e / q⌉ := by exact_mod_cast hlt
    linarith
  unfold gap
  rw [hreal]
  unfold ceilTo floorTo
  rw [div_eq_iff (by linarith)]
  ring

/-- Non-vacuity: the period of the analysis. -/
example : (0 : ℝ) < 4 ∧ (1860 : ℝ) < 2035 := by norm_num

/-! ### Nodes of the monthly element -/

theorem filter_le_range (n a b : Nat) (h : a ≤ b) (hn : b - a < n) :
    ((List.range n).filter fun k => decide (a + k ≤ b)).length = b - a + 1 := by
  have e : ((List.range n).filter fun k => decide (a + k ≤ b)) = List.range (b - a + 1) := by
    have hsplit : List.range n = List.range (b - a + 1) ++ (List.range (n - (b - a + 1))).map (b - a + 1 + ·) := by
      rw [← List.range_add]
      congr 1
      omega
    rw [hsplit, List.filter_append]
    have h1 : (List.range (b - a + 1)).filter (fun k => decide (a + k ≤ b)) = List.range (b - a + 1) := by
      rw [List.filter_eq_self]
      intro k hk
      rw [List.mem_range] at hk
      simp only [decide_eq_true_eq]
      omega
    have h2 : ((List.range (n - (b - a + 1))).map (b - a + 1 + ·)).filter (fun k => decide (a + k ≤ b)) = [] := by
      rw [List.filter_eq_nil_iff]
      intro k hk
      obtain ⟨j, _, rfl⟩ := List.mem_map.1 hk
      simp only [decide_eq_true_eq]
      omega
    rw [h1, h2, List.append_nil]
  rw [e, List.length_range]

theorem newYearDay_lt {a b : Nat} (h : a < b) : newYearDay a < newYearDay b := by
  unfold newYearDay
  have h1 := daysBeforeYear_mono (y := a + 1) (y' := b) h
  have h2 : daysBeforeYear a < daysBeforeYear (a + 1) := by
    simp only [daysBeforeYear]
    unfold daysInYear
    split <;> omega
  have : (daysBeforeYear a : Int) - (daysBeforeYear 1850 : Int) < (daysBeforeYear b : Int) - (daysBeforeYear 1850 : Int) := by omega
  exact_mod_cast this

/-- **C109**, months: four nodes for each year and one more at the end, at distances of the mean length of a quarter of a year. -/
theorem c109_months (start stop : Nat) (h : start < stop) (hs : stop ≤ 9999) :
    monthlyNodes start stop 3 = 4 * (stop - start) + 1 ∧
      gap (newYearDay start) (newYearDay stop) (monthlyNodes start stop 3) =
        (newYearDay stop - newYearDay start) / (4 * ((stop : ℝ) - start)) := by
  have e : monthlyNodes start stop 3 = 4 * (stop - start) + 1 := by
    unfold monthlyNodes monthCount
    rw [filter_le_range _ _ _ (by omega) (by omega)]
    omega
  refine ⟨e, ?_⟩
  unfold gap
  rw [e]
  push_cast [h.le]
  congr 1
  ring

/-- Non-vacuity: the period of the analysis. -/
example : 1878 < 2018 ∧ 2018 ≤ 9999 := by decide

/-! ### Latitudes -/

theorem latitude_gap (count : Nat) (hc : 2 ≤ count) :
    gap (-90.0 - paddingNodes * (180.0 / ((count : ℝ) - 1))) (90.0 + paddingNodes * (180.0 / ((count : ℝ) - 1)))
      (count + paddingNodes * 2) = 180 / ((count : ℝ) - 1) := by
  have : (2 : ℝ) ≤ count := by exact_mod_cast hc
  have hne : (count : ℝ) - 1 ≠ 0 := by linarith
  have hne' : (count : ℝ) + 360 - 1 ≠ 0 := by linarith
  have e : (180.0 : ℝ) / ((count : ℝ) - 1) = 180 / ((count : ℝ) - 1) := by norm_num
  have hm : 180 / ((count : ℝ) - 1) * ((count : ℝ) - 1) = 180 := div_mul_cancel₀ _ hne
  rw [e]
  generalize 180 / ((count : ℝ) - 1) = sep at hm
  unfold gap paddingNodes
  push_cast
  rw [div_eq_iff hne']
  norm_num
  linarith

/-- **C109**, latitudes: the distance between nodes is 180 degrees divided by the number of steps, and padding does its purpose:
every multiple of the distance which is nearer to a latitude than the span has a node, so that the weights at the poles are those
of a line without ends. -/
theorem c109_latitudes (count : Nat) (hc : 2 ≤ count) (overlap : ℝ) (ho : 0 < overlap) (hp : overlap ≤ 180) (latitude : ℝ)
    (hl : -90 ≤ latitude ∧ latitude ≤ 90) :
    Proper (latitudeLine count) ∧ (latitudeLine count).spacing 0 = 180 / ((count : ℝ) - 1) ∧
      ∀ j : ℤ, |latitude - (-90 + j * (180 / ((count : ℝ) - 1)))| < 180 / ((count : ℝ) - 1) * overlap →
        ∃ c < (latitudeLine count).size, nodes (latitudeLine count) c 0 = -90 + j * (180 / ((count : ℝ) - 1)) ∧
          0 < lineRow (latitudeLine count) overlap latitude c := by
  have hc2 : (2 : ℝ) ≤ count := by exact_mod_cast hc
  have hsep : 0 < 180 / ((count : ℝ) - 1) := div_pos (by norm_num) (by linarith)
  have hlt : (-90.0 - paddingNodes * (180.0 / ((count : ℝ) - 1)) : ℝ) < 90.0 + paddingNodes * (180.0 / ((count : ℝ) - 1)) := by
    have : (0 : ℝ) < 180.0 / ((count : ℝ) - 1) := by norm_num at hsep ⊢; exact hsep
    have hp' : (0 : ℝ) ≤ (paddingNodes : ℝ) := by positivity
    nlinarith
  have hcount : 2 ≤ count + paddingNodes * 2 := by omega
  have hL : Proper (latitudeLine count) := line_proper false hlt hcount
  have hgap := latitude_gap count hc
  refine ⟨hL, ?_, ?_⟩
  · rw [spacing_eq]
    exact hgap
  · intro j hj
    generalize hsepdef : 180 / ((count : ℝ) - 1) = sep at hsep hgap hj ⊢
    have hspan : sep * ((count : ℝ) - 1) = 180 := by
      rw [← hsepdef]
      exact div_mul_cancel₀ _ (by linarith)
    rw [abs_lt] at hj
    have hj1 : -(180 : ℝ) < j := by
      have : -(overlap) < j := by
        by_contra hcon
        have : (j : ℝ) * sep ≤ -overlap * sep := mul_le_mul_of_nonneg_right (not_lt.1 hcon) hsep.le
        nlinarith [hj.2, hl.1]
      linarith
    have hj2 : (j : ℝ) < count - 1 + 180 := by
      have : (j : ℝ) < count - 1 + overlap := by
        by_contra hcon
        have : ((count : ℝ) - 1 + overlap) * sep ≤ (j : ℝ) * sep := mul_le_mul_of_nonneg_right (not_lt.1 hcon) hsep.le
        nlinarith [hj.1, hl.2]
      linarith
    have hz1 : -(180 : ℤ) < j := by exact_mod_cast hj1
    have hz2 : j < (count : ℤ) - 1 + 180 := by exact_mod_cast hj2
    obtain ⟨c, hcj⟩ := Int.eq_ofNat_of_zero_le (show 0 ≤ j + 180 by omega)
    have hcr : (c : ℝ) = j + 180 := by
      have : (c : ℤ) = j + 180 := hcj.symm
      exact_mod_cast this
    have hcs : c < count + paddingNodes * 2 := by
      unfold paddingNodes
      have : (c : ℤ) = j + 180 := hcj.symm
      omega
    have hsize : (latitudeLine count).size = count + paddingNodes * 2 := line_size _ _ _ _
    have hstep : step (latitudeLine count) 0 = sep := hgap
    have hlo : (latitudeLine count).lo 0 = -90 - 180 * sep := by
      show (-90.0 - paddingNodes * (180.0 / ((count : ℝ) - 1)) : ℝ) = _
      unfold paddingNodes
      rw [← hsepdef]
      norm_num
    have hnode : (latitudeLine count).lo 0 + c * step (latitudeLine count) 0 = -90 + j * sep := by
      rw [hstep, hlo, hcr]
      ring
    refine ⟨c, by rw [hsize]; exact hcs, ?_, ?_⟩
    · have hi : IsNode (latitudeLine count) fun _ => c := fun k => by rw [Subsingleton.elim k 0]; exact hcs
      have := nodes_eq hL hi
      rw [ravel_line] at this
      rw [this]
      exact hnode
    · refine (c109_weights _ _ (count + paddingNodes * 2) overlap hlt hcount ho latitude c).2.2 ⟨hcs, ?_⟩
      have e : (-90.0 - paddingNodes * (180.0 / ((count : ℝ) - 1)) : ℝ) + c *
          gap (-90.0 - paddingNodes * (180.0 / ((count : ℝ) - 1))) (90.0 + paddingNodes * (180.0 / ((count : ℝ) - 1)))
            (count + paddingNodes * 2) = -90 + j * sep := hnode
      rw [e, hgap, abs_lt]
      exact hj

/-- Non-vacuity: the north pole with the nodes of the analysis, and the node beyond it. -/
example : (2 : ℕ) ≤ 361 ∧ (0 : ℝ) < 2.5 ∧ (2.5 : ℝ) ≤ 180 ∧
    |(90 : ℝ) - (-90 + ((361 : ℤ) : ℝ) * (180 / (((361 : ℕ) : ℝ) - 1)))| < 180 / (((361 : ℕ) : ℝ) - 1) * 2.5 := by
  norm_num [abs_lt]

end

end Verif.Eustace.Definitions
