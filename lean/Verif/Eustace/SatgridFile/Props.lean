import Verif.Eustace.SatgridFile.Model
import Mathlib.Tactic.Linarith
import Mathlib.Tactic.NormNum
import Mathlib.Tactic.FieldSimp
import Mathlib.Tactic.Ring
import Mathlib.Tactic.Positivity

/-! C162: the files of gridded satellite data say of every box what follows from the pixels in it. -/

namespace Verif.Eustace.SatgridFile

open Verif Verif.Eustace.Satgrid

/-! ### Specification -/

/-- A number is read which is at most `tol` from `x`. -/
def Close (tol x : ℝ) (r : Option ℝ) : Prop := ∃ y, r = some y ∧ |y - x| ≤ tol

/-- What a variable of the file says of a box. -/
def File.Says (f : File) (name : String) (g : Nat) (P : Option ℝ → Prop) : Prop := ∃ v, f name = some v ∧ P (v.read g)

/-- The mean of the values. -/
noncomputable def meanOf (l : List Pixel) : ℝ := (l.map Pixel.value).sum / l.length

/-- The variance of the values (of a sample). -/
noncomputable def varianceOf (l : List Pixel) : ℝ := (l.map fun p => (p.value - meanOf l) ^ 2).sum / ((l.length : ℝ) - 1)

/-- The quadratic mean. -/
noncomputable def rms (u : Pixel → ℝ) (l : List Pixel) : ℝ := Real.sqrt ((l.map fun p => u p ^ 2).sum / l.length)

/-- What the file says of a box with given pixels: temperatures to 0.0025 K, uncertainties to 0.0005 K and variances to
0.0000025 K²; the minimum, the mean and the maximum are in order. -/
structure Tells (f : File) (g : Nat) (valid obs : List Pixel) : Prop where
  number : f.Says "ts_number_of_observations" g fun r => r = some (valid.length : ℝ)
  total : f.Says "total_number_of_observations" g fun r => r = some (obs.length : ℝ)
  empty : valid = [] → ∀ n ∈ ["tsmean", "tsmin", "tsmax", "tsmean_unc_ran", "tsmean_unc_loc_atm", "tsmean_unc_loc_sfc",
    "tsmean_unc_sys"], f.Says n g fun r => r = none
  mean : valid ≠ [] → f.Says "tsmean" g (Close 0.0025 (meanOf valid))
  min : valid ≠ [] → ∃ x, IsLeast {x | ∃ p ∈ valid, p.value = x} x ∧ f.Says "tsmin" g (Close 0.0025 x)
  max : valid ≠ [] → ∃ x, IsGreatest {x | ∃ p ∈ valid, p.value = x} x ∧ f.Says "tsmax" g (Close 0.0025 x)
  order : valid ≠ [] → ∃ a b c, a ≤ b ∧ b ≤ c ∧ (f.Says "tsmin" g fun r => r = some a) ∧ (f.Says "tsmean" g fun r => r = some b) ∧
    f.Says "tsmax" g fun r => r = some c
  ran : valid ≠ [] → f.Says "tsmean_unc_ran" g (Close 0.0005 (Real.sqrt ((valid.map fun p => p.ran ^ 2).sum) / valid.length))
  atm : valid ≠ [] → f.Says "tsmean_unc_loc_atm" g (Close 0.0005 (rms Pixel.atm valid))
  sfc : valid ≠ [] → f.Says "tsmean_unc_loc_sfc" g (Close 0.0005 (rms Pixel.sfc valid))
  sys : valid ≠ [] → f.Says "tsmean_unc_sys" g (Close 0.0005 (rms Pixel.sys valid))
  few : valid.length < 2 → (f.Says "tsvariance" g fun r => r = none) ∧ f.Says "tsmean_unc_spl" g fun r => r = none
  variance : 2 ≤ valid.length → f.Says "tsvariance" g (Close 0.0000025 (varianceOf valid))
  sampling : 2 ≤ valid.length → f.Says "tsmean_unc_spl" g
    (Close 0.0005 (((obs.length : ℝ) - valid.length) / (obs.length - 1) * Real.sqrt (varianceOf valid)))

/-- Pixels of a box which can be stored: temperatures within the range of the type, at most 92 K apart; uncertainties of at most
65.5 K. -/
structure Fits (l : List Pixel) : Prop where
  value : ∀ p ∈ l, 109.4 ≤ p.value ∧ p.value ≤ 436.9
  apart : ∀ p ∈ l, ∀ q ∈ l, p.value - q.value ≤ 92
  ran : ∀ p ∈ l, |p.ran| ≤ 65.5
  atm : ∀ p ∈ l, |p.atm| ≤ 65.5
  sfc : ∀ p ∈ l, |p.sfc| ≤ 65.5
  sys : ∀ p ∈ l, |p.sys| ≤ 65.5

/-! ### Rounding -/

theorem roundEven_near (x : ℝ) : |(roundEven x : ℝ) - x| ≤ 1 / 2 := by
  have h1 := Int.floor_le x
  have h2 := Int.lt_floor_add_one x
  unfold roundEven
  split
  · rw [abs_le]; constructor <;> linarith
  · split
    · push_cast; rw [abs_le]; constructor <;> linarith
    · split
      · rw [abs_le]; constructor <;> linarith
      · push_cast; rw [abs_le]; constructor <;> linarith

theorem roundEven_mono {a b : ℝ} (h : a ≤ b) : roundEven a ≤ roundEven b := by
  by_contra hc
  have hc : roundEven b + 1 ≤ roundEven a := by omega
  have ha := abs_le.1 (roundEven_near a)
  have hb := abs_le.1 (roundEven_near b)
  have hc' : ((roundEven b : ℝ)) + 1 ≤ roundEven a := by exact_mod_cast hc
  have e : a = b := by linarith
  subst e
  omega

theorem roundEven_bounds {x : ℝ} {lo hi : ℤ} (h1 : (lo : ℝ) - 1 / 2 < x) (h2 : x < hi + 1 / 2) :
    lo ≤ roundEven x ∧ roundEven x ≤ hi := by
  have h := abs_le.1 (roundEven_near x)
  constructor
  · have : ((lo - 1 : ℤ) : ℝ) < roundEven x := by push_cast; linarith
    have := Int.cast_lt.1 this
    omega
  · have : (roundEven x : ℝ) < ((hi + 1 : ℤ) : ℝ) := by push_cast; linarith
    have := Int.cast_lt.1 this
    omega

/-! ### Cells -/

/-- The number of the code of `x`. -/
noncomputable def code (s : Storage) (x : ℝ) : ℤ := roundEven ((x - s.offset) / s.scale)

theorem code_near (s : Storage) (hs : 0 < s.scale) (x : ℝ) : |(code s x : ℝ) * s.scale + s.offset - x| ≤ s.scale / 2 := by
  have h := roundEven_near ((x - s.offset) / s.scale)
  have e : (code s x : ℝ) * s.scale + s.offset - x = ((code s x : ℝ) - (x - s.offset) / s.scale) * s.scale := by
    field_simp; ring
  rw [e, abs_mul, abs_of_pos hs]
  have := mul_le_mul_of_nonneg_right h hs.le
  unfold code
  linarith

theorem cell_value {cast : IntType → ℤ → ℤ} (hc : Casts cast) (s : Storage) {x : ℝ}
    (h1 : -s.datatype.half ≤ code s x) (h2 : code s x < s.datatype.half) (h3 : code s x ≠ s.fill) :
    unpackCell s (packCell cast s (some x)) = some (code s x * s.scale + s.offset) := by
  show unpackCell s (cast s.datatype (code s x)) = _
  rw [(hc s.datatype _).2 h1 h2]
  exact if_neg h3

theorem cell_none (cast : IntType → ℤ → ℤ) (s : Storage) : unpackCell s (packCell cast s none) = none := if_pos rfl

/-- Temperatures which the type has. -/
def InK (x : ℝ) : Prop := 109.3125 < x ∧ x < 436.9875

/-- Uncertainties which the type has. -/
def InRelativeK (x : ℝ) : Prop := -0.0005 < x ∧ x < 65.5345

/-- Variances which the type has. -/
def InRelativeK2 (x : ℝ) : Prop := 0 ≤ x ∧ x < 10737.4182375

theorem code_K {x : ℝ} (h : InK x) : -32767 ≤ code storageK x ∧ code storageK x ≤ 32767 := by
  apply roundEven_bounds
  · rw [lt_div_iff₀ (by norm_num [storageK])]; norm_num [storageK]; linarith [h.1]
  · rw [div_lt_iff₀ (by norm_num [storageK])]; norm_num [storageK]; linarith [h.2]

theorem code_relativeK {x : ℝ} (h : InRelativeK x) : -32767 ≤ code storageRelativeK x ∧ code storageRelativeK x ≤ 32767 := by
  apply roundEven_bounds
  · rw [lt_div_iff₀ (by norm_num [storageRelativeK])]; norm_num [storageRelativeK]; linarith [h.1]
  · rw [div_lt_iff₀ (by norm_num [storageRelativeK])]; norm_num [storageRelativeK]; linarith [h.2]

theorem code_relativeK2 {x : ℝ} (h : InRelativeK2 x) : 0 ≤ code storageRelativeK2 x ∧ code storageRelativeK2 x ≤ 2147483647 := by
  apply roundEven_bounds
  · rw [lt_div_iff₀ (by norm_num [storageRelativeK2])]; norm_num [storageRelativeK2]; linarith [h.1]
  · rw [div_lt_iff₀ (by norm_num [storageRelativeK2])]; norm_num [storageRelativeK2]; linarith [h.2]

theorem cell_K {cast : IntType → ℤ → ℤ} (hc : Casts cast) {x : ℝ} (h : InK x) :
    unpackCell storageK (packCell cast storageK (some x)) = some ((code storageK x : ℝ) * 0.005 + 273.15) := by
  obtain ⟨h1, h2⟩ := code_K h
  exact cell_value hc storageK (by simp only [storageK, IntType.half] at *; omega) (by simp only [storageK, IntType.half] at *; omega)
    (by simp only [storageK] at *; omega)

theorem cell_relativeK {cast : IntType → ℤ → ℤ} (hc : Casts cast) {x : ℝ} (h : InRelativeK x) :
    unpackCell storageRelativeK (packCell cast storageRelativeK (some x)) = some ((code storageRelativeK x : ℝ) * 0.001 + 32.767) := by
  obtain ⟨h1, h2⟩ := code_relativeK h
  exact cell_value hc storageRelativeK (by simp only [storageRelativeK, IntType.half] at *; omega)
    (by simp only [storageRelativeK, IntType.half] at *; omega) (by simp only [storageRelativeK] at *; omega)

theorem cell_relativeK2 {cast : IntType → ℤ → ℤ} (hc : Casts cast) {x : ℝ} (h : InRelativeK2 x) :
    unpackCell storageRelativeK2 (packCell cast storageRelativeK2 (some x)) = some ((code storageRelativeK2 x : ℝ) * 5.0e-6 + 0) := by
  obtain ⟨h1, h2⟩ := code_relativeK2 h
  exact cell_value hc storageRelativeK2 (by simp only [storageRelativeK2, IntType.half] at *; omega)
    (by simp only [storageRelativeK2, IntType.half] at *; omega) (by simp only [storageRelativeK2] at *; omega)

theorem close_K {cast : IntType → ℤ → ℤ} (hc : Casts cast) {x : ℝ} (h : InK x) :
    Close 0.0025 x (unpackCell storageK (packCell cast storageK (some x))) := by
  refine ⟨_, cell_K hc h, ?_⟩
  have := code_near storageK (by norm_num [storageK]) x
  generalize code storageK x = k at this ⊢
  norm_num [storageK] at this ⊢
  exact this

theorem close_relativeK {cast : IntType → ℤ → ℤ} (hc : Casts cast) {x : ℝ} (h : InRelativeK x) :
    Close 0.0005 x (unpackCell storageRelativeK (packCell cast storageRelativeK (some x))) := by
  refine ⟨_, cell_relativeK hc h, ?_⟩
  have := code_near storageRelativeK (by norm_num [storageRelativeK]) x
  generalize code storageRelativeK x = k at this ⊢
  norm_num [storageRelativeK] at this ⊢
  exact this

theorem close_relativeK2 {cast : IntType → ℤ → ℤ} (hc : Casts cast) {x : ℝ} (h : InRelativeK2 x) :
    Close 0.0000025 x (unpackCell storageRelativeK2 (packCell cast storageRelativeK2 (some x))) := by
  refine ⟨_, cell_relativeK2 hc h, ?_⟩
  have := code_near storageRelativeK2 (by norm_num [storageRelativeK2]) x
  generalize code storageRelativeK2 x = k at this ⊢
  norm_num [storageRelativeK2] at this ⊢
  exact this

/-! ### Statistics of a box -/

theorem sum_bounds (u : Pixel → ℝ) (l : List Pixel) {a b : ℝ} (h : ∀ p ∈ l, a ≤ u p ∧ u p ≤ b) :
    a * l.length ≤ (l.map u).sum ∧ (l.map u).sum ≤ b * l.length := by
  induction l with
  | nil => simp
  | cons p rest ih =>
    obtain ⟨h1, h2⟩ := ih fun q hq => h q (List.mem_cons_of_mem _ hq)
    obtain ⟨h3, h4⟩ := h p List.mem_cons_self
    simp only [List.map_cons, List.sum_cons, List.length_cons]
    push_cast
    constructor <;> linarith

theorem length_pos {l : List Pixel} (h : l ≠ []) : (0 : ℝ) < l.length := by
  exact_mod_cast List.length_pos_iff.2 h

theorem meanOf_bounds {l : List Pixel} (hne : l ≠ []) {a b : ℝ} (h : ∀ p ∈ l, a ≤ p.value ∧ p.value ≤ b) :
    a ≤ meanOf l ∧ meanOf l ≤ b := by
  obtain ⟨h1, h2⟩ := sum_bounds Pixel.value l h
  have := length_pos hne
  exact ⟨(le_div_iff₀ this).2 h1, (div_le_iff₀ this).2 h2⟩

theorem sq_bounds (u : Pixel → ℝ) (l : List Pixel) (h : ∀ p ∈ l, |u p| ≤ 65.5) :
    0 ≤ (l.map fun p => u p ^ 2).sum ∧ (l.map fun p => u p ^ 2).sum ≤ 65.5 ^ 2 * l.length := by
  have := sum_bounds (fun p => u p ^ 2) l (a := 0) (b := 65.5 ^ 2) fun p hp => ⟨sq_nonneg _, by
    rw [← sq_abs]; exact pow_le_pow_left₀ (abs_nonneg _) (h p hp) 2⟩
  exact ⟨by linarith [this.1], this.2⟩

theorem rms_in (u : Pixel → ℝ) {l : List Pixel} (hne : l ≠ []) (h : ∀ p ∈ l, |u p| ≤ 65.5) : InRelativeK (rms u l) := by
  have h0 : (0 : ℝ) ≤ rms u l := Real.sqrt_nonneg _
  have h1 : rms u l ≤ 65.5 := by
    apply Real.sqrt_le_iff.2 ⟨by norm_num, ?_⟩
    rw [div_le_iff₀ (length_pos hne)]
    exact (sq_bounds u l h).2
  exact ⟨by norm_num; linarith, by norm_num; norm_num at h1; linarith⟩

theorem ran_in {l : List Pixel} (hne : l ≠ []) (h : ∀ p ∈ l, |p.ran| ≤ 65.5) :
    InRelativeK (Real.sqrt ((l.map fun p => p.ran ^ 2).sum) / l.length) := by
  have hp := length_pos hne
  have hn : (1 : ℝ) ≤ l.length := by exact_mod_cast List.length_pos_iff.2 hne
  have h0 : (0 : ℝ) ≤ Real.sqrt ((l.map fun p => p.ran ^ 2).sum) / l.length := by positivity
  have h1 : Real.sqrt ((l.map fun p => p.ran ^ 2).sum) / l.length ≤ 65.5 := by
    rw [div_le_iff₀ hp]
    apply Real.sqrt_le_iff.2 ⟨by positivity, ?_⟩
    have := (sq_bounds Pixel.ran l h).2
    nlinarith
  exact ⟨by norm_num; linarith, by norm_num; norm_num at h1; linarith⟩

theorem sum_sq_shift (l : List Pixel) (c m : ℝ) : (l.map fun p => (p.value - c) ^ 2).sum =
    (l.map fun p => (p.value - m) ^ 2).sum + 2 * (m - c) * ((l.map Pixel.value).sum - m * l.length) + (m - c) ^ 2 * l.length := by
  induction l with
  | nil => simp
  | cons p rest ih =>
    simp only [List.map_cons, List.sum_cons, List.length_cons, ih]
    push_cast
    ring

theorem varianceOf_bounds {l : List Pixel} (h2 : 2 ≤ l.length) {a b : ℝ} (h : ∀ p ∈ l, a ≤ p.value ∧ p.value ≤ b) :
    0 ≤ varianceOf l ∧ varianceOf l ≤ (b - a) ^ 2 / 2 := by
  have hne : l ≠ [] := by rintro rfl; simp at h2
  have hn : (2 : ℝ) ≤ l.length := by exact_mod_cast h2
  have hd : (0 : ℝ) < (l.length : ℝ) - 1 := by linarith
  have hnn : (0 : ℝ) ≤ (l.map fun p => (p.value - meanOf l) ^ 2).sum := by
    apply List.sum_nonneg
    intro x hx
    obtain ⟨p, _, rfl⟩ := List.mem_map.1 hx
    positivity
  have hs := sum_sq_shift l ((a + b) / 2) (meanOf l)
  have hm : (l.map Pixel.value).sum - meanOf l * l.length = 0 := by
    rw [meanOf, div_mul_cancel₀ _ (length_pos hne).ne', sub_self]
  rw [hm, mul_zero, add_zero] at hs
  have hb := (sum_bounds (fun p => (p.value - (a + b) / 2) ^ 2) l (a := 0) (b := ((b - a) / 2) ^ 2) fun p hp => ⟨sq_nonneg _, by
    obtain ⟨h3, h4⟩ := h p hp
    nlinarith⟩).2
  have hc : (0 : ℝ) ≤ (meanOf l - (a + b) / 2) ^ 2 * l.length := by positivity
  refine ⟨div_nonneg hnn hd.le, ?_⟩
  rw [varianceOf, div_le_iff₀ hd]
  nlinarith [sq_nonneg (b - a)]

/-- The temperatures of a box are within 92 K. -/
theorem fits_range {l : List Pixel} (h : Fits l) (hne : l ≠ []) : ∃ a, ∀ p ∈ l, a ≤ p.value ∧ p.value ≤ a + 92 := by
  obtain ⟨q, hq, hmin⟩ : ∃ q ∈ l, ∀ p ∈ l, q.value ≤ p.value := by
    clear h
    induction l with
    | nil => exact absurd rfl hne
    | cons q rest ih =>
      by_cases hr : rest = []
      · subst hr
        exact ⟨q, List.mem_cons_self, fun p hp => by rw [List.mem_singleton.1 hp]⟩
      · obtain ⟨r, hr1, hr2⟩ := ih hr
        by_cases hle : q.value ≤ r.value
        · exact ⟨q, List.mem_cons_self, fun p hp => by
            rcases List.mem_cons.1 hp with rfl | hp
            · exact le_rfl
            · exact hle.trans (hr2 p hp)⟩
        · exact ⟨r, List.mem_cons_of_mem _ hr1, fun p hp => by
            rcases List.mem_cons.1 hp with rfl | hp
            · exact (not_le.1 hle).le
            · exact hr2 p hp⟩
  exact ⟨q.value, fun p hp => ⟨hmin p hp, by linarith [h.apart p hp q hq]⟩⟩

theorem variance_in {l : List Pixel} (h : Fits l) (h2 : 2 ≤ l.length) : 0 ≤ varianceOf l ∧ varianceOf l ≤ 4232 := by
  obtain ⟨a, ha⟩ := fits_range h (by rintro rfl; simp at h2)
  have := varianceOf_bounds h2 ha
  exact ⟨this.1, this.2.trans (by ring_nf; norm_num)⟩

theorem sampling_in {l : List Pixel} (h : Fits l) (h2 : 2 ≤ l.length) {n : ℕ} (hn : l.length ≤ n) :
    InRelativeK (((n : ℝ) - l.length) / (n - 1) * Real.sqrt (varianceOf l)) := by
  obtain ⟨_, h4⟩ := variance_in h h2
  have h5 : (2 : ℝ) ≤ l.length := by exact_mod_cast h2
  have h6 : (l.length : ℝ) ≤ n := by exact_mod_cast hn
  have h7 : Real.sqrt (varianceOf l) ≤ 65.1 := Real.sqrt_le_iff.2 ⟨by norm_num, h4.trans (by norm_num)⟩
  have h8 : (0 : ℝ) ≤ ((n : ℝ) - l.length) / (n - 1) := div_nonneg (by linarith) (by linarith)
  have h9 : ((n : ℝ) - l.length) / (n - 1) ≤ 1 := (div_le_one (by linarith)).2 (by linarith)
  have h10 := Real.sqrt_nonneg (varianceOf l)
  have h11 : 0 ≤ ((n : ℝ) - l.length) / (n - 1) * Real.sqrt (varianceOf l) := mul_nonneg h8 h10
  have h12 : ((n : ℝ) - l.length) / (n - 1) * Real.sqrt (varianceOf l) ≤ 65.1 := by nlinarith
  exact ⟨by norm_num; linarith, by norm_num; norm_num at h12; linarith⟩

/-! ### The file -/

theorem file_fields (cast : IntType → ℤ → ℤ) (o : IrisOutput) :
    let f := writeCubes cast overrides (cubesOf o)
    f "total_number_of_observations" = some (.plain fun g => some (o.total g)) ∧
    f "ts_number_of_observations" = some (.plain fun g => some (o.number g)) ∧
    f "tsmean" = some (.packed storageK fun g => packCell cast storageK (o.mean g)) ∧
    f "tsmin" = some (.packed storageK fun g => packCell cast storageK (o.min g)) ∧
    f "tsmax" = some (.packed storageK fun g => packCell cast storageK (o.max g)) ∧
    f "tsmean_unc_ran" = some (.packed storageRelativeK fun g => packCell cast storageRelativeK (o.ran g)) ∧
    f "tsmean_unc_loc_atm" = some (.packed storageRelativeK fun g => packCell cast storageRelativeK (o.atm g)) ∧
    f "tsmean_unc_loc_sfc" = some (.packed storageRelativeK fun g => packCell cast storageRelativeK (o.sfc g)) ∧
    f "tsmean_unc_sys" = some (.packed storageRelativeK fun g => packCell cast storageRelativeK (o.sys g)) ∧
    f "tsvariance" = some (.packed storageRelativeK2 fun g => packCell cast storageRelativeK2 (o.variance g)) ∧
    f "tsmean_unc_spl" = some (.packed storageRelativeK fun g => packCell cast storageRelativeK (o.sampling g)) := by
  refine ⟨?_, ?_, ?_, ?_, ?_, ?_, ?_, ?_, ?_, ?_, ?_⟩ <;>
    simp [writeCubes, cubesOf, outputPrimary, outputUncertainty, outputScalars, createVariable, overrides, setStorage]

/-- The file says of a box what the fields of the pipeline say of it. -/
theorem tells {cast : IntType → ℤ → ℤ} (hc : Casts cast) {o : IrisOutput} {g : Nat} {valid obs : List Pixel}
    (h : DescribesMasked o g valid obs) (hf : Fits valid) (hn : valid.length ≤ obs.length) :
    Tells (writeCubes cast overrides (cubesOf o)) g valid obs := by
  obtain ⟨f1, f2, f3, f4, f5, f6, f7, f8, f9, f10, f11⟩ := file_fields cast o
  have hin : ∀ p ∈ valid, InK p.value := fun p hp => by
    obtain ⟨h1, h2⟩ := hf.value p hp
    norm_num at h1 h2
    exact ⟨by norm_num; linarith, by norm_num; linarith⟩
  have hmean : valid ≠ [] → InK (meanOf valid) := fun hne => by
    obtain ⟨h1, h2⟩ := meanOf_bounds hne hf.value
    norm_num at h1 h2
    exact ⟨by norm_num; linarith, by norm_num; linarith⟩
  have hsays : ∀ {n : String} {s : Storage} {field : Nat → Option ℝ} {P : Option ℝ → Prop},
      writeCubes cast overrides (cubesOf o) n = some (.packed s fun g => packCell cast s (field g)) →
      P (unpackCell s (packCell cast s (field g))) → (writeCubes cast overrides (cubesOf o)).Says n g P :=
    fun e hP => ⟨_, e, hP⟩
  constructor
  · exact ⟨_, f2, by rw [← h.number]; rfl⟩
  · exact ⟨_, f1, by rw [← h.total]; rfl⟩
  · intro he
    obtain ⟨e1, e2, e3, e4, e5, e6, e7⟩ := h.empty he
    intro n hn
    simp only [List.mem_cons, List.not_mem_nil, or_false] at hn
    rcases hn with rfl | rfl | rfl | rfl | rfl | rfl | rfl
    · exact hsays f3 (by rw [e1]; exact cell_none _ _)
    · exact hsays f4 (by rw [e2]; exact cell_none _ _)
    · exact hsays f5 (by rw [e3]; exact cell_none _ _)
    · exact hsays f6 (by rw [e4]; exact cell_none _ _)
    · exact hsays f7 (by rw [e5]; exact cell_none _ _)
    · exact hsays f8 (by rw [e6]; exact cell_none _ _)
    · exact hsays f9 (by rw [e7]; exact cell_none _ _)
  · intro hne
    exact hsays f3 (by rw [h.mean hne]; exact close_K hc (hmean hne))
  · intro hne
    obtain ⟨x, hx, hl⟩ := h.min hne
    obtain ⟨p, hp, rfl⟩ := hl.1
    exact ⟨_, hl, hsays f4 (by rw [hx]; exact close_K hc (hin p hp))⟩
  · intro hne
    obtain ⟨x, hx, hl⟩ := h.max hne
    obtain ⟨p, hp, rfl⟩ := hl.1
    exact ⟨_, hl, hsays f5 (by rw [hx]; exact close_K hc (hin p hp))⟩
  · intro hne
    obtain ⟨x, hx, hl⟩ := h.min hne
    obtain ⟨y, hy, hg⟩ := h.max hne
    have hb := meanOf_bounds hne (a := x) (b := y) fun p hp => ⟨hl.2 ⟨p, hp, rfl⟩, hg.2 ⟨p, hp, rfl⟩⟩
    obtain ⟨p, hp, rfl⟩ := hl.1
    obtain ⟨q, hq, rfl⟩ := hg.1
    have mono : ∀ {a b : ℝ}, a ≤ b → (code storageK a : ℝ) * 0.005 + 273.15 ≤ (code storageK b : ℝ) * 0.005 + 273.15 := by
      intro a b hab
      have : code storageK a ≤ code storageK b :=
        roundEven_mono (div_le_div_of_nonneg_right (sub_le_sub_right hab _) (by norm_num [storageK]))
      have : (code storageK a : ℝ) ≤ code storageK b := by exact_mod_cast this
      linarith
    exact ⟨_, _, _, mono hb.1, mono hb.2, hsays f4 (by rw [hx]; exact cell_K hc (hin p hp)),
      hsays f3 (by rw [h.mean hne]; exact cell_K hc (hmean hne)), hsays f5 (by rw [hy]; exact cell_K hc (hin q hq))⟩
  · intro hne
    exact hsays f6 (by rw [h.ran hne]; exact close_relativeK hc (ran_in hne hf.ran))
  · intro hne
    exact hsays f7 (by rw [h.atm hne]; exact close_relativeK hc (rms_in Pixel.atm hne hf.atm))
  · intro hne
    exact hsays f8 (by rw [h.sfc hne]; exact close_relativeK hc (rms_in Pixel.sfc hne hf.sfc))
  · intro hne
    exact hsays f9 (by rw [h.sys hne]; exact close_relativeK hc (rms_in Pixel.sys hne hf.sys))
  · intro h2
    obtain ⟨e1, e2⟩ := h.few h2
    exact ⟨hsays f10 (by rw [e1]; exact cell_none _ _), hsays f11 (by rw [e2]; exact cell_none _ _)⟩
  · intro h2
    have hv := variance_in hf h2
    exact hsays f10 (by rw [h.variance h2]; exact close_relativeK2 hc ⟨hv.1, lt_of_le_of_lt hv.2 (by norm_num)⟩)
  · intro h2
    refine hsays f11 ?_
    rw [h.sampling h2 (by omega), show ∀ a b c : ℝ, a * b / c = a / c * b from fun a b c => by ring]
    exact close_relativeK hc (sampling_in hf h2 hn)

theorem obs_superset (g : Arguments) (hm : g.maskValid &&& g.maskObs = g.maskObs) (hfl : g.filterValid &&& g.maskObs = g.filterObs)
    (files : List IrisFile) (k : Nat) :
    (inBox g.satgrid (files.flatMap fun f => f.valid g.maskValid g.filterValid) k).length ≤
      (inBox g.satgrid (files.flatMap fun f => f.obs g.maskObs g.filterObs) k).length := by
  classical
  have hone : ∀ f : IrisFile, List.Sublist (f.valid g.maskValid g.filterValid) (f.obs g.maskObs g.filterObs) := by
    intro f
    unfold IrisFile.valid IrisFile.obs SatelliteFile.pixels
    refine List.Sublist.trans ?_ (((List.filter_sublist (p := fun i => decide (f.clear i))).map _).filter _)
    · apply List.monotone_filter_right
      intro p
      simp only [decide_eq_true_eq]
      rintro ⟨h1, h2⟩
      refine ⟨?_, h2⟩
      rw [← hm, ← Nat.and_assoc, h1, hfl]
  have hall : List.Sublist (files.flatMap fun f => f.valid g.maskValid g.filterValid)
      (files.flatMap fun f => f.obs g.maskObs g.filterObs) := by
    induction files with
    | nil => simp
    | cons f rest ih => exact (hone f).append ih
  exact (hall.filter _).length_le

/-- C162: the file which is written for any list of files says of every box what follows from the pixels in it, provided that these
can be stored. -/
theorem c162_file {cast : IntType → ℤ → ℤ} (hcast : Casts cast) (g : Arguments) (hg : g.Regular)
    (hm : g.maskValid &&& g.maskObs = g.maskObs) (hfl : g.filterValid &&& g.maskObs = g.filterObs)
    (files : List (Option IrisFile)) (before : Option File) (hf : ∀ f ∈ files.filterMap id, f.Sized)
    (hne : usable files ≠ [])
    (hc : ∀ f ∈ usable files, ∀ p, p ∈ f.valid g.maskValid g.filterValid ∨ p ∈ f.obs g.maskObs g.filterObs →
      ∃ k, Located g.satgrid p k)
    (hfit : ∀ k, Fits (inBox g.satgrid ((usable files).flatMap fun f => f.valid g.maskValid g.filterValid) k)) :
    ∃ f, run cast g.iris files before = .ok (.ok, some f) ∧ ∀ k, Tells f k
      (inBox g.satgrid ((usable files).flatMap fun f => f.valid g.maskValid g.filterValid) k)
      (inBox g.satgrid ((usable files).flatMap fun f => f.obs g.maskObs g.filterObs) k) := by
  have hv : ∀ f ∈ usable files, ∀ p ∈ f.valid g.maskValid g.filterValid, |p.value| ≤ 10 ^ 20 := by
    intro f hfu p hp
    obtain ⟨k, hk⟩ := hc f hfu p (Or.inl hp)
    have := (hfit k).value p (List.mem_filter.2 ⟨List.mem_flatMap.2 ⟨f, hfu, hp⟩, by simpa using hk⟩)
    norm_num at this
    rw [abs_le]
    constructor <;> linarith [this.1, this.2]
  obtain ⟨o, h1, h2⟩ := c98_fields g hg files hf hne hc hv
  refine ⟨_, by rw [run, h1], fun k => tells hcast (h2 k) (hfit k) (obs_superset g hm hfl _ k)⟩

/-- C162: the status tells of a file only if there is one, which is new: without usable files there is no data, and what was at the
name of the output stays. -/
theorem c162_status {cast : IntType → ℤ → ℤ} (a : Pipeline) (files : List (Option IrisFile)) (before : Option File) {st : Status}
    {after : Option File} (h : run cast a files before = .ok (st, after)) :
    (st = .noData ∧ after = before) ∨ (st = .ok ∧ ∃ o, irisRun a files = .ok (some o) ∧ after = some (writeCubes cast overrides (cubesOf o))) := by
  unfold run at h
  cases hr : irisRun a files with
  | error e => rw [hr] at h; cases h
  | ok r =>
    rw [hr] at h
    cases r with
    | none => cases h; exact .inl ⟨rfl, rfl⟩
    | some o => cases h; exact .inr ⟨rfl, o, rfl, rfl⟩

/-- C162: files which are not there or cannot be used give no data. -/
theorem c162_no_data (cast : IntType → ℤ → ℤ) (a : Pipeline) (files : List (Option IrisFile)) (before : Option File)
    (h : ∀ f ∈ files.filterMap id, ∃ e, irisLoad f = .error e) : run cast a files before = .ok (.noData, before) := by
  have : (files.filterMap fun f => f.bind fun f => (irisLoad f).toOption) = [] := by
    rw [List.filterMap_eq_nil_iff]
    rintro (_ | f) hf
    · rfl
    · obtain ⟨e, he⟩ := h f (List.mem_filterMap.2 ⟨some f, hf, rfl⟩)
      show (irisLoad f).toOption = none
      rw [he]
      rfl
  simp only [run, irisRun, this, if_true]

/-! ### What cannot be stored -/

/-- C162 fails for boxes whose temperatures vary much: whatever the cast, the variance which is read is missing or less than 10737.5,
although two pixels of 200 K and 350 K have a variance of 11250. -/
theorem c162_variance_violated {cast : IntType → ℤ → ℤ} (hc : Casts cast) {x : ℝ} (hx : 10737.5 ≤ x) :
    ¬ Close 0.0000025 x (unpackCell storageRelativeK2 (packCell cast storageRelativeK2 (some x))) := by
  rintro ⟨y, hy, hyx⟩
  have hr := (hc .int32 (code storageRelativeK2 x)).1.2
  change unpackCell storageRelativeK2 (cast .int32 (code storageRelativeK2 x)) = some y at hy
  generalize cast .int32 (code storageRelativeK2 x) = k at hr hy
  unfold unpackCell at hy
  split at hy
  · cases hy
  · have hk : (k : ℝ) ≤ 2147483647 := by
      have : k ≤ 2147483647 := by simp only [IntType.half] at hr; omega
      exact_mod_cast this
    injection hy with hy
    norm_num [storageRelativeK2] at hy hx hyx
    have := (abs_le.1 hyx).1
    linarith

/-- The variance of two pixels of 200 K and 350 K. -/
example : varianceOf [⟨0, 200, 0, 0, 1, 1, 1, 1⟩, ⟨0, 350, 0, 0, 1, 1, 1, 1⟩] = 11250 := by
  norm_num [varianceOf, meanOf]

/-- C162 fails for temperatures which the type does not have: they are not read back. -/
theorem c162_temperature_violated {cast : IntType → ℤ → ℤ} (hc : Casts cast) {x : ℝ} (hx : x ≤ 109.3 ∨ 437 ≤ x) :
    ¬ Close 0.0025 x (unpackCell storageK (packCell cast storageK (some x))) := by
  rintro ⟨y, hy, hyx⟩
  have hr := (hc .int16 (code storageK x)).1
  change unpackCell storageK (cast .int16 (code storageK x)) = some y at hy
  generalize cast .int16 (code storageK x) = k at hr hy
  unfold unpackCell at hy
  split at hy
  · cases hy
  · have hk : (k : ℝ) ≤ 32767 := by
      have : k ≤ 32767 := by simp only [IntType.half] at hr; omega
      exact_mod_cast this
    have hk' : (-32768 : ℝ) ≤ k := by
      have : -32768 ≤ k := by simp only [IntType.half] at hr; omega
      exact_mod_cast this
    injection hy with hy
    norm_num [storageK] at hy hx hyx
    have := abs_le.1 hyx
    rcases hx with hx | hx <;> linarith [this.1, this.2]

/-- C162 fails where more pixels are valid than are of interest, which the flags on the command line allow: the uncertainty of
sampling is negative, and no negative number is read. -/
theorem c162_sampling_violated {cast : IntType → ℤ → ℤ} (hc : Casts cast) {o : IrisOutput} {g : Nat} {valid obs : List Pixel}
    (h : DescribesMasked o g valid obs) (h2 : 2 ≤ obs.length) (hn : obs.length < valid.length)
    (hv : 0.002 * (obs.length - 1 : ℝ) ≤ Real.sqrt (varianceOf valid)) :
    ¬ (writeCubes cast overrides (cubesOf o)).Says "tsmean_unc_spl" g
      (Close 0.0005 (((obs.length : ℝ) - valid.length) / (obs.length - 1) * Real.sqrt (varianceOf valid))) := by
  obtain ⟨_, _, _, _, _, _, _, _, _, _, f11⟩ := file_fields cast o
  rintro ⟨v, hv1, hv2⟩
  rw [f11] at hv1
  cases hv1
  have hobs : (2 : ℝ) ≤ obs.length := by exact_mod_cast h2
  have hvn : (obs.length : ℝ) + 1 ≤ valid.length := by exact_mod_cast hn
  have hneg : ((obs.length : ℝ) - valid.length) / (obs.length - 1) * Real.sqrt (varianceOf valid) ≤ -0.002 := by
    rw [div_mul_eq_mul_div, div_le_iff₀ (by linarith)]
    norm_num at hv ⊢
    nlinarith
  obtain ⟨y, hy, hyx⟩ := hv2
  change unpackCell storageRelativeK (packCell cast storageRelativeK (o.sampling g)) = some y at hy
  rw [h.sampling (by omega) (by omega)] at hy
  generalize ((obs.length : ℝ) - valid.length) / (obs.length - 1) * Real.sqrt (varianceOf valid) = x at hyx hneg
  simp only [packCell] at hy
  generalize roundEven _ = m at hy
  have hr := (hc .int16 m).1
  change unpackCell storageRelativeK (cast .int16 m) = some y at hy
  generalize cast .int16 m = k at hr hy
  unfold unpackCell at hy
  split at hy
  · cases hy
  · have hk' : (-32768 : ℝ) ≤ k := by
      have : -32768 ≤ k := by simp only [IntType.half] at hr; omega
      exact_mod_cast this
    injection hy with hy
    norm_num [storageRelativeK] at hy hyx hneg
    have := abs_le.1 hyx
    linarith [this.1, this.2]

/-- Casts which keep the low bits, as of common processors for small types. -/
example : Casts fun t k => (k + t.half) % (2 * t.half) - t.half := by
  intro t k
  cases t <;> simp only [IntType.half] <;> constructor <;> omega

/-- A box with two pixels which can be stored. -/
example : Fits [⟨0, 280, 0, 0, 1, 1, 1, 1⟩, ⟨0, 281.5, 0, 0, 1, 1, 1, 1⟩] := by
  constructor <;> norm_num [abs_le]

/-- Two pixels of interest and three valid ones, with a variance of one. -/
example : 0.002 * ((2 : ℕ) - 1 : ℝ) ≤
    Real.sqrt (varianceOf [⟨0, 280, 0, 0, 1, 1, 1, 1⟩, ⟨0, 281, 0, 0, 1, 1, 1, 1⟩, ⟨0, 282, 0, 0, 1, 1, 1, 1⟩]) := by
  norm_num [varianceOf, meanOf]

end Verif.Eustace.SatgridFile
