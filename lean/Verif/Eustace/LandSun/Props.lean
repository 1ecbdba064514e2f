import Verif.Eustace.LandSun.Dates
import Mathlib.Analysis.SpecialFunctions.Trigonometric.Bounds
import Mathlib.Analysis.Real.Pi.Bounds
import Mathlib.Analysis.SpecialFunctions.Trigonometric.Inverse
import Mathlib.Tactic.Ring
import Mathlib.Tactic.FieldSimp
import Mathlib.Tactic.LinearCombination

/-! Noon and the angle of the sun from the zenith. -/

namespace Verif.Eustace.LandSun

open Verif Verif.Calendar

theorem whileHigh_spec : ∀ (fuel : ℕ) (l : ℝ), l ≤ 360 * (fuel + 1) →
    whileHigh fuel l ≤ 360 ∧ (0 ≤ l → 0 ≤ whileHigh fuel l) ∧ (l < 0 → whileHigh fuel l = l) ∧ ∃ k : ℤ, whileHigh fuel l = l - 360 * k
  | 0, l, h => ⟨by simpa [whileHigh] using h, fun h0 => by simpa [whileHigh] using h0, fun _ => rfl, 0, by simp [whileHigh]⟩
  | fuel + 1, l, h => by
    simp only [whileHigh]
    by_cases hl : 360 < l
    · rw [if_pos hl]
      obtain ⟨h1, h2, h3, k, hk⟩ := whileHigh_spec fuel (l - 360) (by push_cast at h; linarith)
      refine ⟨h1, fun _ => h2 (by linarith), fun h0 => by linarith, k + 1, ?_⟩
      rw [hk]; push_cast; ring
    · rw [if_neg hl]
      exact ⟨not_lt.1 hl, id, fun _ => rfl, 0, by simp⟩

theorem whileLow_spec : ∀ (fuel : ℕ) (l : ℝ), -360 * (fuel : ℝ) ≤ l → l ≤ 360 →
    0 ≤ whileLow fuel l ∧ whileLow fuel l ≤ 360 ∧ ∃ k : ℤ, whileLow fuel l = l - 360 * k
  | 0, l, h, h2 => ⟨by simpa [whileLow] using h, by simpa [whileLow] using h2, 0, by simp [whileLow]⟩
  | fuel + 1, l, h, h2 => by
    simp only [whileLow]
    by_cases hl : l < 0
    · rw [if_pos hl]
      obtain ⟨h1, h2, k, hk⟩ := whileLow_spec fuel (l + 360) (by push_cast at h; linarith) (by linarith)
      refine ⟨h1, h2, k - 1, ?_⟩
      rw [hk]; push_cast; ring
    · rw [if_neg hl]
      exact ⟨not_lt.1 hl, h2, 0, by simp⟩

/-- The mean longitude of the sun is brought into one turn. -/
theorem c179_mean_longitude (t : ℝ) : 0 ≤ calcGeomMeanLongSun t ∧ calcGeomMeanLongSun t ≤ 360 ∧
    ∃ k : ℤ, calcGeomMeanLongSun t = 280.46646 + 36000.76983 * t + 0.0003032 * t ^ 2 - 360 * k := by
  simp only [calcGeomMeanLongSun]
  generalize hl0 : (280.46646 : ℝ) + t * (36000.76983 + 0.0003032 * t) = l0
  have hb : ∀ l : ℝ, |l| ≤ (⌈|l|⌉₊ : ℝ) := fun l => Nat.le_ceil _
  have h0 : ∀ l : ℝ, (0 : ℝ) ≤ (⌈|l|⌉₊ : ℝ) := fun l => Nat.cast_nonneg _
  obtain ⟨a1, _, _, k1, hk1⟩ := whileHigh_spec ⌈|l0|⌉₊ l0 (by have := hb l0; have := h0 l0; have := le_abs_self l0; linarith)
  generalize whileHigh ⌈|l0|⌉₊ l0 = l1 at *
  obtain ⟨b1, b2, k2, hk2⟩ := whileLow_spec ⌈|l1|⌉₊ l1 (by have := hb l1; have := h0 l1; have := neg_abs_le l1; linarith) a1
  refine ⟨b1, b2, k1 + k2, ?_⟩
  rw [hk2, hk1, ← hl0]
  push_cast
  ring

theorem number_2000 : Date.number ⟨2000, 1, 1⟩ = 730485 := by
  have hc := daysBeforeYear_closed 2000
  simp only [Date.number, daysBeforeMonth]
  generalize daysBeforeYear 2000 = q at hc
  omega

/-- Both programs for the sun take the time in days since noon on 1 January 2000. -/
theorem c179_times (y : ℕ) (h1 : 1901 ≤ y) (h2 : y ≤ 2100) (doy : ℤ) (sec : ℝ) :
    sunTime y doy sec = (Date.number ⟨y, 1, 1⟩ : ℝ) + (doy - 1) + sec / 86400 - (Date.number ⟨2000, 1, 1⟩ + 0.5) ∧
    ghaTime y (doy + sec / 86400) = sunTime y doy sec := by
  have hj := (c179_jd y doy).2 ⟨h1, h2⟩
  have hs : sunTime y doy sec = (Date.number ⟨y, 1, 1⟩ : ℝ) + (doy - 1) + sec / 86400 - (Date.number ⟨2000, 1, 1⟩ + 0.5) := by
    rw [number_2000]
    simp only [sunTime, hj]
    push_cast
    norm_num
    ring
  refine ⟨hs, ?_⟩
  rw [hs, number_2000]
  simp only [ghaTime]
  rw [c179_jday y (by omega)]
  push_cast
  norm_num
  ring

example : (1901 ≤ 2010 ∧ 2010 ≤ 2100) := by norm_num

/-- In 1900, before the years for which the program for the sun is meant, the two times differ by a day. -/
theorem c179_1900_violated (doy : ℤ) (sec : ℝ) : ghaTime 1900 (doy + sec / 86400) = sunTime 1900 doy sec + 1 := by
  have hc := daysBeforeYear_closed 1900
  have hn : (Date.number ⟨1900, 1, 1⟩ : ℤ) = 693961 := by
    simp only [Date.number, daysBeforeMonth]
    generalize daysBeforeYear 1900 = q at hc
    omega
  simp only [ghaTime, sunTime]
  rw [c179_jday 1900 (by omega), hn]
  simp only [jd]
  push_cast
  norm_num
  ring

theorem mod360_spec (x : ℝ) : -360 < mod360 x ∧ mod360 x < 360 ∧ ∃ k : ℤ, mod360 x = x - 360 * k := by
  refine ⟨?_, ?_, trunc (x / 360), rfl⟩ <;> simp only [mod360, trunc] <;> split_ifs with h
  · have := Int.floor_le (x / 360); linarith
  · have := Int.ceil_lt_add_one (x / 360); linarith
  · have := Int.lt_floor_add_one (x / 360); linarith
  · have := Int.le_ceil (x / 360); linarith

/-- The angle of Greenwich is brought into one turn. -/
theorem c179_greenwich (y : ℕ) (day : ℝ) : 0 ≤ gha2000 y day ∧ gha2000 y day < 360 ∧
    ∃ k : ℤ, gha2000 y day = 100.4606184 + 0.9856473663 * ghaTime y day + 2.908e-13 * ghaTime y day ^ 2
      + dpsi (ephparms (ghaTime y day)) * Real.cos (rad (eps (ghaTime y day) (ephparms (ghaTime y day)))) + 360 * day - 360 * k := by
  simp only [gha2000]
  obtain ⟨h1, h2, k, hk⟩ := mod360_spec (100.4606184 + 0.9856473663 * ghaTime y day + 0.0000000000002908 * ghaTime y day * ghaTime y day
    + dpsi (ephparms (ghaTime y day)) * Real.cos (rad (eps (ghaTime y day) (ephparms (ghaTime y day)))) + (day - trunc day) * 360)
  split_ifs with h
  · refine ⟨by linarith, by linarith, k + trunc day - 1, ?_⟩
    rw [hk]; push_cast; norm_num; ring
  · refine ⟨not_lt.1 h, h2, k + trunc day, ?_⟩
    rw [hk]; push_cast; norm_num; ring

/-- A vector of length one has a declination and a right ascension. -/
theorem exists_angles (x y z : ℝ) (h : x ^ 2 + y ^ 2 + z ^ 2 = 1) :
    ∃ α δ : ℝ, -(Real.pi / 2) ≤ δ ∧ δ ≤ Real.pi / 2 ∧ x = Real.cos δ * Real.cos α ∧ y = Real.cos δ * Real.sin α ∧ z = Real.sin δ := by
  have hz1 : -1 ≤ z := by nlinarith [sq_nonneg x, sq_nonneg y]
  have hz2 : z ≤ 1 := by nlinarith [sq_nonneg x, sq_nonneg y]
  refine ⟨Complex.arg ⟨x, y⟩, Real.arcsin z, Real.neg_pi_div_two_le_arcsin z, Real.arcsin_le_pi_div_two z, ?_, ?_, (Real.sin_arcsin hz1 hz2).symm⟩
  all_goals
    have hn : ‖(⟨x, y⟩ : ℂ)‖ = Real.cos (Real.arcsin z) := by
      rw [Real.cos_arcsin, Complex.norm_def, Complex.normSq_mk]
      congr 1
      linarith
    rw [← hn]
  · exact (Complex.norm_mul_cos_arg ⟨x, y⟩).symm
  · exact (Complex.norm_mul_sin_arg ⟨x, y⟩).symm

theorem rad_deg (x : ℝ) : rad (x * (180 / Real.pi)) = x := by
  have := Real.pi_ne_zero
  simp only [rad]; field_simp

theorem rad_turn (x : ℝ) : rad (x + 360) = rad x + 2 * Real.pi := by
  simp only [rad]; ring

/-- Vertical, east and north of a place which is not at a pole. -/
theorem axes (lon lat : ℝ) (h : 0 < Real.cos (rad lat)) :
    eastOf (upOf lon lat) = ⟨-Real.sin (rad lon), Real.cos (rad lon), 0⟩ ∧
    crossp (upOf lon lat) ⟨-Real.sin (rad lon), Real.cos (rad lon), 0⟩ =
      ⟨-(Real.sin (rad lat) * Real.cos (rad lon)), -(Real.sin (rad lat) * Real.sin (rad lon)), Real.cos (rad lat)⟩ := by
  have hs := Real.sin_sq_add_cos_sq (rad lon)
  constructor
  · have hq : Real.sqrt (Real.cos (rad lat) * Real.cos (rad lon) * (Real.cos (rad lat) * Real.cos (rad lon))
        + Real.cos (rad lat) * Real.sin (rad lon) * (Real.cos (rad lat) * Real.sin (rad lon))) = Real.cos (rad lat) := by
      rw [show Real.cos (rad lat) * Real.cos (rad lon) * (Real.cos (rad lat) * Real.cos (rad lon))
        + Real.cos (rad lat) * Real.sin (rad lon) * (Real.cos (rad lat) * Real.sin (rad lon)) = Real.cos (rad lat) ^ 2 by
          linear_combination Real.cos (rad lat) ^ 2 * hs]
      exact Real.sqrt_sq h.le
    simp only [eastOf, upOf, hq]
    congr 1 <;> field_simp
  · simp only [crossp, upOf]
    congr 1
    · ring
    · ring
    · linear_combination Real.cos (rad lat) * hs

/-- `lonlat2solz` gives the angle from the zenith and the azimuth, from north through east, which spherical trigonometry gives for the
declination and the hour angle of the sun of `sun2000` and `gha2000`. -/
theorem c179_zenith (lon lat : ℝ) (year : ℕ) (day : ℤ) (msec : ℝ) (h1 : -90 < lat) (h2 : lat < 90) :
    ∃ α δ : ℝ, (-(Real.pi / 2) ≤ δ ∧ δ ≤ Real.pi / 2) ∧
      (let t := sunTime year day (msec / 1000)
       let l := rad (xlsa t)
       let e := rad (eps t (ephparms t))
       Real.cos δ * Real.cos α = Real.cos l ∧ Real.cos δ * Real.sin α = Real.cos e * Real.sin l ∧ Real.sin δ = Real.sin e * Real.sin l) ∧
      (let hour := rad (gha2000 year (day + msec / 1000 / 86400)) + rad lon - α
       let z := (lonlat2solz lon lat year day msec).1
       let a := (lonlat2solz lon lat year day msec).2
       (0 ≤ z ∧ z ≤ 180) ∧ (0 ≤ a ∧ a < 360) ∧
       Real.cos (rad z) = Real.sin (rad lat) * Real.sin δ + Real.cos (rad lat) * Real.cos δ * Real.cos hour ∧
       (0.05 < z → Real.sin (rad z) * Real.sin (rad a) = -(Real.cos δ * Real.sin hour) ∧
         Real.sin (rad z) * Real.cos (rad a) = Real.cos (rad lat) * Real.sin δ - Real.sin (rad lat) * Real.cos δ * Real.cos hour) ∧
       (z ≤ 0.05 → a = 0)) := by
  have hpi := Real.pi_pos
  have hcos : 0 < Real.cos (rad lat) := by
    apply Real.cos_pos_of_mem_Ioo
    constructor <;> simp only [rad] <;> nlinarith
  obtain ⟨α, δ, hδ1, hδ2, hx, hy, hz⟩ := exists_angles (sun2000 year day (msec / 1000)).x (sun2000 year day (msec / 1000)).y
    (sun2000 year day (msec / 1000)).z (by
      simp only [sun2000]
      have a := Real.sin_sq_add_cos_sq (rad (xlsa (sunTime year day (msec / 1000))))
      have b := Real.sin_sq_add_cos_sq (rad (eps (sunTime year day (msec / 1000)) (ephparms (sunTime year day (msec / 1000)))))
      linear_combination a + Real.sin (rad (xlsa (sunTime year day (msec / 1000)))) ^ 2 * b)
  refine ⟨α, δ, ⟨hδ1, hδ2⟩, ⟨hx.symm, ?_, ?_⟩, ?_⟩
  · rw [← hy]; simp only [sun2000]; ring
  · rw [← hz]; simp only [sun2000]; ring
  obtain ⟨hea, hno⟩ := axes lon lat hcos
  simp only [lonlat2solz, hea, hno]
  simp only [lSun, dot, hx, hy, hz, upOf]
  generalize rad (gha2000 year (day + msec / 1000 / 86400)) = g
  generalize rad lat = φ at *
  generalize rad lon = lam
  generalize hsx : -Real.sin lam * (Real.cos δ * Real.cos α * Real.cos g + Real.cos δ * Real.sin α * Real.sin g) +
      Real.cos lam * (Real.cos δ * Real.sin α * Real.cos g - Real.cos δ * Real.cos α * Real.sin g) + 0 * Real.sin δ = sx
  generalize hsy : -(Real.sin φ * Real.cos lam) * (Real.cos δ * Real.cos α * Real.cos g + Real.cos δ * Real.sin α * Real.sin g) +
      -(Real.sin φ * Real.sin lam) * (Real.cos δ * Real.sin α * Real.cos g - Real.cos δ * Real.cos α * Real.sin g) +
      Real.cos φ * Real.sin δ = sy
  generalize hsz : Real.cos φ * Real.cos lam * (Real.cos δ * Real.cos α * Real.cos g + Real.cos δ * Real.sin α * Real.sin g) +
      Real.cos φ * Real.sin lam * (Real.cos δ * Real.sin α * Real.cos g - Real.cos δ * Real.cos α * Real.sin g) +
      Real.sin φ * Real.sin δ = sz
  have esx : sx = -(Real.cos δ * Real.sin (g + lam - α)) := by
    rw [← hsx, Real.sin_sub, Real.sin_add, Real.cos_add]; ring
  have esy : sy = Real.cos φ * Real.sin δ - Real.sin φ * Real.cos δ * Real.cos (g + lam - α) := by
    rw [← hsy, Real.cos_sub, Real.sin_add, Real.cos_add]; ring
  have esz : sz = Real.sin φ * Real.sin δ + Real.cos φ * Real.cos δ * Real.cos (g + lam - α) := by
    rw [← hsz, Real.cos_sub, Real.sin_add, Real.cos_add]; ring
  have hunit : sx * sx + sy * sy + sz * sz = 1 := by
    rw [esx, esy, esz]
    have a := Real.sin_sq_add_cos_sq φ
    have b := Real.sin_sq_add_cos_sq δ
    have c := Real.sin_sq_add_cos_sq (g + lam - α)
    linear_combination (Real.sin δ ^ 2 + Real.cos δ ^ 2 * Real.cos (g + lam - α) ^ 2) * a + b + Real.cos δ ^ 2 * c
  clear hsx hsy hsz
  generalize hw : Real.sqrt (sx * sx + sy * sy) = w
  have hw0 : 0 ≤ w := hw ▸ Real.sqrt_nonneg _
  have hww : w * w = sx * sx + sy * sy := by
    rw [← hw]; exact Real.mul_self_sqrt (by nlinarith [mul_self_nonneg sx, mul_self_nonneg sy])
  have hn1 : ‖(⟨sz, w⟩ : ℂ)‖ = 1 := by
    rw [Complex.norm_def, Complex.normSq_mk, hww, show sz * sz + (sx * sx + sy * sy) = 1 by linarith, Real.sqrt_one]
  have hzc : Real.cos (atan2 w sz) = sz := by
    have := Complex.norm_mul_cos_arg ⟨sz, w⟩
    rw [hn1, one_mul] at this
    exact this
  have hzs : Real.sin (atan2 w sz) = w := by
    have := Complex.norm_mul_sin_arg ⟨sz, w⟩
    rw [hn1, one_mul] at this
    exact this
  have hn2 : ‖(⟨sy, sx⟩ : ℂ)‖ = w := by
    rw [Complex.norm_def, Complex.normSq_mk, ← hw, add_comm]
  have hac : w * Real.cos (atan2 sx sy) = sy := by
    have := Complex.norm_mul_cos_arg ⟨sy, sx⟩
    rw [hn2] at this
    exact this
  have has : w * Real.sin (atan2 sx sy) = sx := by
    have := Complex.norm_mul_sin_arg ⟨sy, sx⟩
    rw [hn2] at this
    exact this
  have ha1 : -Real.pi < atan2 sx sy := Complex.neg_pi_lt_arg _
  have ha2 : atan2 sx sy ≤ Real.pi := Complex.arg_le_pi _
  have hz1 : 0 ≤ atan2 w sz := Complex.arg_nonneg_iff.2 hw0
  have hz2 : atan2 w sz ≤ Real.pi := Complex.arg_le_pi _
  have hdeg : ∀ x : ℝ, x * (180 / Real.pi) = 180 * (x / Real.pi) := fun x => by ring
  refine ⟨⟨mul_nonneg hz1 (by positivity), ?_⟩, ?_, ?_, ?_, ?_⟩
  · rw [hdeg]
    have : atan2 w sz / Real.pi ≤ 1 := (div_le_one hpi).2 hz2
    linarith
  · by_cases hs : 0.05 < atan2 w sz * (180 / Real.pi)
    · rw [if_pos hs, hdeg]
      have u : atan2 sx sy / Real.pi ≤ 1 := (div_le_one hpi).2 ha2
      have v : -1 < atan2 sx sy / Real.pi := by rw [lt_div_iff₀ hpi]; linarith
      split_ifs with hneg
      · exact ⟨by linarith, by linarith⟩
      · exact ⟨not_lt.1 hneg, by linarith⟩
    · simp [if_neg hs]
  · rw [rad_deg, hzc, esz]
  · intro hs
    simp only [if_pos hs, rad_deg, hzs, ← esx, ← esy]
    split_ifs with hneg
    · rw [rad_turn, rad_deg, Real.sin_add_two_pi, Real.cos_add_two_pi]
      exact ⟨has, hac⟩
    · rw [rad_deg]
      exact ⟨has, hac⟩
  · intro hs
    simp [if_neg (not_lt.2 hs)]

example : ∃ lon lat : ℝ, -90 < lat ∧ lat < 90 ∧ lon = 0.125 := ⟨0.125, 51.125, by norm_num, by norm_num, rfl⟩

theorem mul_bound {a s c : ℝ} (ha : |a| ≤ c) (hs : |s| ≤ 1) : |a * s| ≤ c := by
  rw [abs_mul]
  calc |a| * |s| ≤ |a| * 1 := mul_le_mul_of_nonneg_left hs (abs_nonneg a)
    _ ≤ c := by linarith

theorem obliquity_bounds (t : ℝ) (h1 : -1.01 ≤ t) (h2 : t ≤ 1.01) :
    23.4 ≤ calcObliquityCorrection t ∧ calcObliquityCorrection t ≤ 23.47 := by
  simp only [calcObliquityCorrection, calcMeanObliquityOfEcliptic]
  have c1 := Real.neg_one_le_cos (Real.pi / 180 * (125.04 - 1934.136 * t))
  have c2 := Real.cos_le_one (Real.pi / 180 * (125.04 - 1934.136 * t))
  have ht2 : t ^ 2 ≤ 1.1 := by nlinarith
  have ht3 : t ^ 3 ≤ 1.2 := by nlinarith [sq_nonneg t]
  have ht3' : -1.2 ≤ t ^ 3 := by nlinarith [sq_nonneg t]
  have hp : t * (46.8150 + t * (0.00059 - t * 0.001813)) = 46.8150 * t + 0.00059 * t ^ 2 - 0.001813 * t ^ 3 := by ring
  rw [hp]
  have hsq := sq_nonneg t
  norm_num at *
  constructor <;> linarith

theorem half_obliquity (t : ℝ) (h1 : -1.01 ≤ t) (h2 : t ≤ 1.01) :
    0 ≤ Real.tan (Real.pi / 180 * calcObliquityCorrection t / 2) ∧ Real.tan (Real.pi / 180 * calcObliquityCorrection t / 2) ≤ 0.2096 := by
  obtain ⟨o1, o2⟩ := obliquity_bounds t h1 h2
  have p1 := Real.pi_gt_d2
  have p2 := Real.pi_lt_d4
  generalize calcObliquityCorrection t = o at *
  have hx0 : 0 ≤ Real.pi / 180 * o / 2 := by positivity
  have hx1 : Real.pi / 180 * o / 2 ≤ 0.205 := by
    have : Real.pi * o ≤ 3.1416 * 23.47 := mul_le_mul p2.le o2 (by norm_num at o1; linarith) (by norm_num)
    norm_num at this ⊢
    linarith
  generalize Real.pi / 180 * o / 2 = x at *
  have hc := Real.one_sub_sq_div_two_le_cos (x := x)
  have hs := Real.sin_le hx0
  have hs0 : 0 ≤ Real.sin x := Real.sin_nonneg_of_nonneg_of_le_pi hx0 (by norm_num at hx1; linarith)
  have hcp : 0.9789 ≤ Real.cos x := by
    have : x ^ 2 ≤ 0.205 ^ 2 := by gcongr
    norm_num at this ⊢
    linarith
  have hcp0 : 0 < Real.cos x := by norm_num at hcp; linarith
  rw [Real.tan_eq_sin_div_cos]
  refine ⟨by positivity, ?_⟩
  rw [div_le_iff₀ hcp0]
  norm_num at *
  linarith

/-- From 1899 to 2101 the difference of true and mean noon is less than twenty minutes. -/
theorem equation_bound (t : ℝ) (h1 : -1.01 ≤ t) (h2 : t ≤ 1.01) : |calcEquationOfTime t| ≤ 19 := by
  obtain ⟨y1, y2⟩ := half_obliquity t h1 h2
  have he : 0.0166 ≤ calcEccentricityEarthOrbit t ∧ calcEccentricityEarthOrbit t ≤ 0.0168 := by
    simp only [calcEccentricityEarthOrbit]
    have hp : t * (0.000042037 + 0.0000001267 * t) = 0.000042037 * t + 0.0000001267 * t ^ 2 := by ring
    rw [hp]
    have ht2 : t ^ 2 ≤ 1.1 := by nlinarith
    have := sq_nonneg t
    norm_num at *
    constructor <;> linarith
  obtain ⟨e1, e2⟩ := he
  simp only [calcEquationOfTime]
  generalize Real.tan (Real.pi / 180 * calcObliquityCorrection t / 2) = y0 at *
  generalize calcEccentricityEarthOrbit t = e at *
  generalize hs1 : Real.sin (2 * (Real.pi / 180 * calcGeomMeanLongSun t)) = s1
  generalize hs2 : Real.sin (Real.pi / 180 * calcGeomMeanAnomalySun t) = s2
  generalize hs3 : Real.cos (2 * (Real.pi / 180 * calcGeomMeanLongSun t)) = s3
  generalize hs4 : Real.sin (4 * (Real.pi / 180 * calcGeomMeanLongSun t)) = s4
  generalize hs5 : Real.sin (2 * (Real.pi / 180 * calcGeomMeanAnomalySun t)) = s5
  have b1 : |s1| ≤ 1 := hs1 ▸ Real.abs_sin_le_one _
  have b2 : |s2| ≤ 1 := hs2 ▸ Real.abs_sin_le_one _
  have b3 : |s3| ≤ 1 := hs3 ▸ Real.abs_cos_le_one _
  have b4 : |s4| ≤ 1 := hs4 ▸ Real.abs_sin_le_one _
  have b5 : |s5| ≤ 1 := hs5 ▸ Real.abs_sin_le_one _
  have hy0 : 0 ≤ y0 * y0 := mul_self_nonneg _
  have hy : y0 * y0 ≤ 0.044 := by
    have : y0 * y0 ≤ 0.2096 * 0.2096 := mul_le_mul y2 y2 y1 (by norm_num)
    norm_num at this ⊢; linarith
  generalize y0 * y0 = y at *
  have he0 : 0 ≤ e := by norm_num at e1; linarith
  have t1 : |y * s1| ≤ 0.044 := mul_bound (by rw [abs_of_nonneg hy0]; exact hy) b1
  have t2 : |2 * e * s2| ≤ 0.0336 := mul_bound (by rw [abs_of_nonneg (by linarith)]; norm_num at e2 ⊢; linarith) b2
  have hey : e * y ≤ 0.0168 * 0.044 := mul_le_mul e2 hy hy0 (by norm_num)
  have hyy : y * y ≤ 0.044 * 0.044 := mul_le_mul hy hy hy0 (by norm_num)
  have hee : e * e ≤ 0.0168 * 0.0168 := mul_le_mul e2 e2 he0 (by norm_num)
  have t3 : |4 * e * y * s2 * s3| ≤ 0.003 :=
    mul_bound (mul_bound (by rw [abs_of_nonneg (by positivity)]; norm_num at hey ⊢; nlinarith) b2) b3
  have t4 : |0.5 * y * y * s4| ≤ 0.001 := mul_bound (by rw [abs_of_nonneg (by positivity)]; norm_num at hyy ⊢; nlinarith) b4
  have t5 : |1.25 * e * e * s5| ≤ 0.0004 := mul_bound (by rw [abs_of_nonneg (by positivity)]; norm_num at hee ⊢; nlinarith) b5
  have hsum : |y * s1 - 2 * e * s2 + 4 * e * y * s2 * s3 - 0.5 * y * y * s4 - 1.25 * e * e * s5| ≤ 0.082 := by
    rw [abs_le] at *
    norm_num at *
    constructor <;> linarith
  have p1 := Real.pi_gt_d2
  have hpi := Real.pi_pos
  rw [abs_mul, abs_mul, abs_of_pos (show (0 : ℝ) < 180 / Real.pi by positivity), abs_of_pos (show (0 : ℝ) < 4 by norm_num)]
  generalize |y * s1 - 2 * e * s2 + 4 * e * y * s2 * s3 - 0.5 * y * y * s4 - 1.25 * e * e * s5| = q at *
  rw [show 180 / Real.pi * q * 4 = 720 * q / Real.pi by ring, div_le_iff₀ hpi]
  norm_num at *
  linarith

theorem year_bounds (y : ℕ) (h1 : 1901 ≤ y) (h2 : y ≤ 2099) : 694326 ≤ daysBeforeYear y ∧ daysBeforeYear y + 366 ≤ 767011 := by
  have a := daysBeforeYear_mono h1
  have b := daysBeforeYear_mono h2
  have ca := daysBeforeYear_closed 1901
  have cb := daysBeforeYear_closed 2099
  generalize daysBeforeYear 1901 = p at *
  generalize daysBeforeYear 2099 = q at *
  omega

/-- Noon of `sunrise` is that of mean time less the equation of time. -/
theorem noon_value (d : Date) (h1 : 1901 ≤ d.year) (h2 : d.year ≤ 2099) (hd : d.Valid) (lon : ℝ) (h3 : -180 ≤ lon) (h4 : lon ≤ 180) :
    ∃ noon q, sunriseNoon (d.number - (Date.number ⟨d.year, 1, 1⟩ : ℤ) + 1) d.year lon = .ok noon ∧
      noon = 12 - lon / 15 - q / 60 ∧ |q| ≤ 19.01 := by
  have hmd := c179_month_day d (by omega) hd
  have hjd := c179_julian d (by omega) hd
  have hlt := dayOfYear_lt hd
  obtain ⟨yb1, yb2⟩ := year_bounds d.year h1 h2
  have hdy : (d.number : ℤ) - (Date.number ⟨d.year, 1, 1⟩ : ℤ) + 1 = daysBeforeMonth d.year d.month + d.day :=
    number_sub d.year d.month d.day hd.2.2.1
  have hday := hd.2.2.1
  have hyear : daysInYear d.year ≤ 366 := by unfold daysInYear; split <;> omega
  have hn1 : 694326 ≤ d.number := by simp only [Date.number]; omega
  have hn2 : d.number ≤ 767010 := by simp only [Date.number]; omega
  have hn1' : (694326 : ℝ) ≤ d.number := by exact_mod_cast hn1
  have hn2' : (d.number : ℝ) ≤ 767010 := by exact_mod_cast hn2
  simp only [sunriseNoon]
  rw [if_neg (by rw [hdy]; omega), hmd]
  simp only
  rw [hjd]
  have hl : ∃ l, l = (if lon = 0 then 0.0001 else lon) ∧ |l - lon| ≤ 0.0001 ∧ -180 ≤ l ∧ l ≤ 180 := by
    refine ⟨_, rfl, ?_⟩
    split_ifs with h0
    · subst h0; norm_num [abs_le]
    · simp only [sub_self, abs_zero]; exact ⟨by norm_num, h3, h4⟩
  obtain ⟨l, hle, hla, hl1, hl2⟩ := hl
  rw [← hle]
  simp only [calcSolNoonUTC, calcTimeJulianCent, calcJDFromJulianCent]
  generalize ht : (((d.number : ℝ) + 1721059.5 - 2451545) / 36525 * 36525 + 2451545 + 0.5 + l * -1 / 360 - 2451545) / 36525 = t
  have hb := equation_bound t (by rw [← ht]; norm_num; linarith) (by rw [← ht]; norm_num; linarith)
  refine ⟨_, calcEquationOfTime t + 4 * (l - lon), rfl, by ring, ?_⟩
  rw [abs_le] at *
  norm_num at hla ⊢
  constructor <;> linarith [hb.1, hb.2, hla.1, hla.2]

/-- Noon for the places and days of the satellites is, in hours of universal time, within twenty minutes of twelve less the longitude over
fifteen. -/
theorem c179_noon (d : Date) (h1 : 1901 ≤ d.year) (h2 : d.year ≤ 2099) (hd : d.Valid) (lon : ℝ) (h3 : -180 ≤ lon) (h4 : lon ≤ 180) :
    ∃ noon, sunriseNoon (d.number - (Date.number ⟨d.year, 1, 1⟩ : ℤ) + 1) d.year lon = .ok noon ∧ |noon - (12 - lon / 15)| ≤ 1 / 3 := by
  obtain ⟨noon, q, h, hn, hq⟩ := noon_value d h1 h2 hd lon h3 h4
  refine ⟨noon, h, ?_⟩
  rw [abs_le] at *
  norm_num at hq
  constructor <;> linarith [hq.1, hq.2]

example : (⟨2003, 7, 5⟩ : Date).Valid ∧ (-180 : ℝ) ≤ -179.875 := ⟨by decide, by norm_num⟩

/-- The angle of the sun used by the model of air temperature is the angle of `lonlat2solz` at a moment which is, up to a whole day, within
twenty minutes of noon of mean time at the place. -/
theorem c179_noon_zenith (d : Date) (h1 : 1901 ≤ d.year) (h2 : d.year ≤ 2099) (hd : d.Valid) (lon lat : ℝ) (h3 : -180 ≤ lon) (h4 : lon ≤ 180) :
    ∃ hours : ℝ, ∃ k : ℤ, 0 ≤ hours ∧ hours ≤ 24 + 1 / 3 ∧ (k = 0 ∨ k = 1) ∧ |hours - 24 * k - (12 - lon / 15)| ≤ 1 / 3 ∧
      noonZenith lon lat d.year (d.number - (Date.number ⟨d.year, 1, 1⟩ : ℤ) + 1) =
        .ok (lonlat2solz lon lat d.year (d.number - (Date.number ⟨d.year, 1, 1⟩ : ℤ) + 1) (hours * 3600000)).1 := by
  obtain ⟨noon, hn, hb⟩ := c179_noon d h1 h2 hd lon h3 h4
  simp only [noonZenith, hn]
  have hb' := abs_le.1 hb
  by_cases hneg : noon < 0
  · refine ⟨noon + 24, 1, by linarith [hb'.1], by linarith, Or.inr rfl, ?_, ?_⟩
    · rw [show noon + 24 - 24 * ((1 : ℤ) : ℝ) - (12 - lon / 15) = noon - (12 - lon / 15) by push_cast; ring]
      exact hb
    · rw [if_pos hneg, show (noon + 24) * 60 * 60 * 1000 = (noon + 24) * 3600000 by ring]
  · refine ⟨noon, 0, not_lt.1 hneg, by linarith [hb'.2], Or.inl rfl, ?_, ?_⟩
    · rw [show noon - 24 * ((0 : ℤ) : ℝ) - (12 - lon / 15) = noon - (12 - lon / 15) by push_cast; ring]
      exact hb
    · rw [if_neg hneg, show noon * 60 * 60 * 1000 = noon * 3600000 by ring]

end Verif.Eustace.LandSun
