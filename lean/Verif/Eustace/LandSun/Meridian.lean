import Verif.Eustace.LandSun.Props

/-! The sun is near the meridian at the noon of the model of air temperature over land. -/

namespace Verif.Eustace.LandSun

open Verif Verif.Calendar

theorem dpsi_bound (p : Eph) : |dpsi p| ≤ 0.0054 := by
  simp only [dpsi]
  have a1 := abs_le.1 (Real.abs_sin_le_one (rad p.omega))
  have a2 := abs_le.1 (Real.abs_sin_le_one (rad (2 * p.omega)))
  have a3 := abs_le.1 (Real.abs_sin_le_one (rad (2 * p.xls)))
  have a4 := abs_le.1 (Real.abs_sin_le_one (rad p.gs))
  have a5 := abs_le.1 (Real.abs_sin_le_one (rad (2 * p.xlm)))
  rw [abs_le]
  norm_num
  constructor <;> linarith [a1.1, a1.2, a2.1, a2.2, a3.1, a3.2, a4.1, a4.2, a5.1, a5.2]

/-- The obliquity is that of our time. -/
theorem eps_bound (t : ℝ) (h : |t| ≤ 36600) (p : Eph) : 23.42 ≤ eps t p ∧ eps t p ≤ 23.46 := by
  simp only [eps]
  have a1 := abs_le.1 (Real.abs_cos_le_one (rad p.omega))
  have a2 := abs_le.1 (Real.abs_cos_le_one (rad (2 * p.xls)))
  have ht := abs_le.1 h
  norm_num
  constructor <;> linarith [a1.1, a1.2, a2.1, a2.2, ht.1, ht.2]

/-- The apparent longitude of the sun is within two degrees of the mean longitude. -/
theorem xlsa_bound (t : ℝ) (h : |t| ≤ 36600) : ∃ k : ℤ, |xlsa t - (280.46592 + 0.9856473516 * t - 360 * k)| ≤ 1.965 := by
  obtain ⟨_, _, k, hk⟩ := mod360_spec (280.46592 + 0.9856473516 * t)
  refine ⟨k, ?_⟩
  have hd := abs_le.1 (dpsi_bound (ephparms t))
  have hx : (ephparms t).xls = 280.46592 + 0.9856473516 * t - 360 * k := hk
  simp only [xlsa]
  rw [← hx]
  generalize ephparms t = p at *
  generalize mod360 (50.40828 + 1.60213022 * t) = g2
  generalize mod360 (19.38816 + 0.52402078 * t) = g4
  generalize mod360 (20.35116 + 0.08309121 * t) = g5
  have c1 := abs_le.1 (Real.abs_cos_le_one (rad p.gs))
  have c2 := abs_le.1 (Real.abs_cos_le_one (rad (2 * p.gs)))
  have hrs : 0.98 ≤ 1.00014 - 0.01671 * Real.cos (rad p.gs) - 0.00014 * Real.cos (rad (2 * p.gs)) := by
    norm_num
    linarith [c1.2, c2.2]
  generalize 1.00014 - 0.01671 * Real.cos (rad p.gs) - 0.00014 * Real.cos (rad (2 * p.gs)) = rs at *
  have hab : 0 ≤ 0.0056932 / rs ∧ 0.0056932 / rs ≤ 0.00582 := by
    have : 0 < rs := by norm_num at hrs; linarith
    refine ⟨by positivity, ?_⟩
    rw [div_le_iff₀ this]
    norm_num at *
    linarith
  generalize 0.0056932 / rs = ab at *
  have ht := abs_le.1 h
  have s1 : |(6893 - 0.00046543463 * t) * Real.sin (rad p.gs)| ≤ 6911 := mul_bound (by
    rw [abs_le]; norm_num; constructor <;> linarith [ht.1, ht.2]) (Real.abs_sin_le_one _)
  rw [abs_le] at s1
  have s2 := abs_le.1 (Real.abs_sin_le_one (rad (2 * p.gs)))
  have s3 := abs_le.1 (Real.abs_cos_le_one (rad (p.gs - g5)))
  have s4 := abs_le.1 (Real.abs_sin_le_one (rad (p.xlm - p.xls)))
  have s5 := abs_le.1 (Real.abs_sin_le_one (rad (4 * p.gs - 8 * g4 + 3 * g5)))
  have s6 := abs_le.1 (Real.abs_cos_le_one (rad (2 * p.gs - 2 * g2)))
  have s7 := abs_le.1 (Real.abs_sin_le_one (rad (p.gs - g2)))
  have s8 := abs_le.1 (Real.abs_cos_le_one (rad (4 * p.gs - 8 * g4 + 3 * g5)))
  have s9 := abs_le.1 (Real.abs_sin_le_one (rad (2 * p.gs - 2 * g2)))
  have s10 := abs_le.1 (Real.abs_sin_le_one (rad g5))
  have s11 := abs_le.1 (Real.abs_sin_le_one (rad (2 * p.gs - 2 * g5)))
  rw [abs_le]
  generalize (6893 - 0.00046543463 * t) * Real.sin (rad p.gs) = m at *
  norm_num at *
  constructor <;> linarith [s1.1, s1.2, s2.1, s2.2, s3.1, s3.2, s4.1, s4.2, s5.1, s5.2, s6.1, s6.2, s7.1, s7.2, s8.1, s8.2, s9.1, s9.2, s10.1, s10.2,
    s11.1, s11.2, hd.1, hd.2, hab.1, hab.2]

/-- An angle near nought has a cosine near one. -/
theorem cos_near (x : ℝ) (k : ℤ) (h : |x - 360 * k| ≤ 6.8) : 0.9929 ≤ Real.cos (rad x) ∧ |Real.sin (rad x)| ≤ 0.119 := by
  have hp := Real.pi_lt_d4
  have hpi := Real.pi_pos
  have e : rad x = rad (x - 360 * k) + k * (2 * Real.pi) := by simp only [rad]; ring
  rw [e, Real.cos_add_int_mul_two_pi, Real.sin_add_int_mul_two_pi]
  generalize x - 360 * k = y at h
  have hy : |rad y| ≤ 0.11869 := by
    simp only [rad]
    rw [abs_div, abs_mul, abs_of_pos hpi, abs_of_pos (show (0 : ℝ) < 180 by norm_num)]
    have : |y| * Real.pi ≤ 6.8 * 3.1416 := mul_le_mul h hp.le hpi.le (by norm_num)
    norm_num at this ⊢
    linarith
  have hc := Real.one_sub_sq_div_two_le_cos (x := rad y)
  have hsq : rad y ^ 2 ≤ 0.11869 ^ 2 := by rw [← sq_abs (rad y)]; gcongr
  refine ⟨by norm_num at *; linarith, ?_⟩
  have := Real.abs_sin_le_abs (x := rad y)
  norm_num at *
  linarith

/-- Near the meridian, the right ascension being near the longitude. -/
theorem meridian (l e G α δ : ℝ) (k : ℤ) (he1 : 0.916 ≤ Real.cos e) (hδ : 0 ≤ Real.cos δ)
    (h1 : Real.cos δ * Real.cos α = Real.cos (rad l)) (h2 : Real.cos δ * Real.sin α = Real.cos e * Real.sin (rad l))
    (h3 : Real.sin δ = Real.sin e * Real.sin (rad l)) (hG : |G - l - 360 * k| ≤ 6.8) : 0.98 ≤ Real.cos (rad G - α) := by
  obtain ⟨t1, t2⟩ := cos_near (G - l) k hG
  have he2 := Real.cos_le_one e
  have hs := Real.sin_sq_add_cos_sq (rad l)
  have hee := Real.sin_sq_add_cos_sq e
  have hdd := Real.sin_sq_add_cos_sq δ
  have eG : rad G - α = rad (G - l) + (rad l - α) := by simp only [rad]; ring
  rw [eG, Real.cos_add]
  have hcc : Real.cos δ * Real.cos (rad l - α) = Real.cos (rad l) ^ 2 + Real.cos e * Real.sin (rad l) ^ 2 := by
    rw [Real.cos_sub]; linear_combination Real.cos (rad l) * h1 + Real.sin (rad l) * h2
  have hss : Real.cos δ * Real.sin (rad l - α) = (1 - Real.cos e) * (Real.sin (rad l) * Real.cos (rad l)) := by
    rw [Real.sin_sub]; linear_combination Real.sin (rad l) * h1 - Real.cos (rad l) * h2
  have hone := Real.sin_sq_add_cos_sq (rad l - α)
  generalize Real.cos (rad (G - l)) = ct at *
  generalize Real.sin (rad (G - l)) = st at *
  generalize Real.cos (rad l - α) = ca at *
  generalize Real.sin (rad l - α) = sa at *
  generalize Real.cos (rad l) = c at *
  generalize Real.sin (rad l) = s at *
  generalize Real.cos e = k at *
  generalize Real.sin e = se at *
  have hk1 : 0.916 ≤ Real.cos δ := by
    have : 0.916 ^ 2 ≤ Real.cos δ ^ 2 := by
      have hd2 : Real.cos δ ^ 2 = c ^ 2 + k ^ 2 * s ^ 2 := by
        rw [h3] at hdd
        linear_combination hdd - s ^ 2 * hee - hs
      rw [hd2]
      have : 0.916 ^ 2 ≤ k ^ 2 := by gcongr
      nlinarith [sq_nonneg s, sq_nonneg c]
    exact le_of_sq_le_sq this hδ
  generalize Real.cos δ = cd at *
  have hsc : |s * c| ≤ 1 / 2 := by
    rw [abs_le]; constructor <;> nlinarith [sq_nonneg (s + c), sq_nonneg (s - c)]
  have hsa : |sa| ≤ 0.0459 := by
    have h4 : |cd * sa| ≤ 0.084 * (1 / 2) := by
      rw [hss, abs_mul, abs_of_nonneg (by linarith)]
      exact mul_le_mul (by norm_num at he1 ⊢; linarith) hsc (abs_nonneg _) (by norm_num)
    rw [abs_mul, abs_of_nonneg hδ] at h4
    have := mul_le_mul_of_nonneg_right hk1 (abs_nonneg sa)
    norm_num at *
    linarith
  have hca0 : 0 < ca := by
    by_contra hneg
    have : cd * ca ≤ 0 := mul_nonpos_of_nonneg_of_nonpos hδ (not_lt.1 hneg)
    rw [hcc] at this
    norm_num at he1
    nlinarith [sq_nonneg s, sq_nonneg c]
  have hca : 0.9989 ≤ ca := by
    have h5 : sa ^ 2 ≤ 0.0459 ^ 2 := by rw [← sq_abs sa]; gcongr
    have : 0.9989 ^ 2 ≤ ca ^ 2 := by norm_num at *; linarith
    exact le_of_sq_le_sq this hca0.le
  have hprod : |st * sa| ≤ 0.119 * 0.0459 := by
    rw [abs_mul]; exact mul_le_mul t2 hsa (abs_nonneg _) (by norm_num)
  have hmul : 0.9929 * 0.9989 ≤ ct * ca := mul_le_mul t1 hca (by norm_num) (le_trans (by norm_num) t1)
  have := abs_le.1 hprod
  norm_num at *
  linarith [this.1, this.2]

/-- The angle of the sun used by the model of air temperature over land is that of noon at the place and on the day: with a declination from
the obliquity and a longitude of the sun which is within two and a half degrees of its mean longitude on the day, the cosine of the angle is
that of latitude less declination, up to two hundredths. -/
theorem c179_sun_at_noon (d : Date) (h1 : 1901 ≤ d.year) (h2 : d.year ≤ 2099) (hd : d.Valid) (lon lat : ℝ) (h3 : -180 ≤ lon) (h4 : lon ≤ 180)
    (h5 : -90 < lat) (h6 : lat < 90) :
    ∃ z e l δ : ℝ, noonZenith lon lat d.year (d.number - (Date.number ⟨d.year, 1, 1⟩ : ℤ) + 1) = .ok z ∧ 0 ≤ z ∧ z ≤ 180 ∧
      23.42 ≤ e ∧ e ≤ 23.46 ∧
      (∃ k : ℤ, |l - (280.46592 + 0.9856473516 * ((d.number : ℝ) - Date.number ⟨2000, 1, 1⟩) - 360 * k)| ≤ 2.5) ∧
      -(Real.pi / 2) ≤ δ ∧ δ ≤ Real.pi / 2 ∧ Real.sin δ = Real.sin (rad e) * Real.sin (rad l) ∧
      Real.cos (rad lat - δ) - 0.02 ≤ Real.cos (rad z) ∧ Real.cos (rad z) ≤ Real.cos (rad lat - δ) := by
  obtain ⟨noon, q, hn, hnq, hq⟩ := noon_value d h1 h2 hd lon h3 h4
  have hq' := abs_le.1 hq
  have hdy := number_sub d.year d.month d.day hd.2.2.1
  obtain ⟨yb1, yb2⟩ := year_bounds d.year h1 h2
  have hlt := dayOfYear_lt hd
  have hyear : daysInYear d.year ≤ 366 := by unfold daysInYear; split <;> omega
  have hn1 : 694326 ≤ d.number := by simp only [Date.number]; omega
  have hn2 : d.number ≤ 767010 := by simp only [Date.number]; omega
  have hn1' : (694326 : ℝ) ≤ d.number := by exact_mod_cast hn1
  have hn2' : (d.number : ℝ) ≤ 767010 := by exact_mod_cast hn2
  -- the moment
  obtain ⟨hours, m, hz, hh, hh0, hh1⟩ : ∃ hours : ℝ, ∃ m : ℤ,
      noonZenith lon lat d.year (d.number - (Date.number ⟨d.year, 1, 1⟩ : ℤ) + 1) =
        .ok (lonlat2solz lon lat d.year (d.number - (Date.number ⟨d.year, 1, 1⟩ : ℤ) + 1) (hours * 3600000)).1 ∧
      hours = 12 - lon / 15 - q / 60 + 24 * m ∧ 0 ≤ hours ∧ hours ≤ 24.32 := by
    simp only [noonZenith, hn]
    norm_num at hq'
    by_cases hneg : noon < 0
    · refine ⟨noon + 24, 1, ?_, by rw [hnq]; push_cast; ring, by linarith [hq'.1, hq'.2], by norm_num; linarith⟩
      rw [if_pos hneg, show (noon + 24) * 60 * 60 * 1000 = (noon + 24) * 3600000 by ring]
    · refine ⟨noon, 0, ?_, by rw [hnq]; push_cast; ring, not_lt.1 hneg, by norm_num; linarith [hq'.1, hq'.2]⟩
      rw [if_neg hneg, show noon * 60 * 60 * 1000 = noon * 3600000 by ring]
  obtain ⟨α, δ, ⟨d1, d2⟩, ⟨e1, e2, e3⟩, ⟨z1, z2⟩, _, hcz, _⟩ :=
    c179_zenith lon lat d.year (d.number - (Date.number ⟨d.year, 1, 1⟩ : ℤ) + 1) (hours * 3600000) h5 h6
  obtain ⟨tt1, tt2⟩ := c179_times d.year h1 (by omega) (d.number - (Date.number ⟨d.year, 1, 1⟩ : ℤ) + 1) (hours * 3600000 / 1000)
  have hd1 : (Date.number ⟨d.year, 1, 1⟩ : ℝ) = ((Date.number ⟨d.year, 1, 1⟩ : ℤ) : ℝ) := by push_cast; rfl
  obtain ⟨_, _, kg, hkg⟩ := c179_greenwich d.year
    ((((d.number : ℤ) - (Date.number ⟨d.year, 1, 1⟩ : ℤ) + 1 : ℤ) : ℝ) + hours * 3600000 / 1000 / 86400)
  rw [tt2] at hkg
  rw [number_2000] at tt1 ⊢
  generalize hdoy : (d.number : ℤ) - (Date.number ⟨d.year, 1, 1⟩ : ℤ) + 1 = doy at *
  have hdoy' : (doy : ℝ) = (d.number : ℝ) - (Date.number ⟨d.year, 1, 1⟩ : ℝ) + 1 := by rw [← hdoy]; push_cast; ring
  generalize (Date.number ⟨d.year, 1, 1⟩ : ℝ) = first at *
  have htime : sunTime d.year doy (hours * 3600000 / 1000) = (d.number : ℝ) - 730485.5 + hours / 24 := by
    rw [tt1, hdoy']; push_cast; norm_num; ring
  generalize sunTime d.year doy (hours * 3600000 / 1000) = t at *
  generalize (d.number : ℝ) = num at *
  have ht : |t| ≤ 36600 := by
    rw [htime, abs_le]; norm_num at hh1 ⊢; constructor <;> linarith
  obtain ⟨o1, o2⟩ := eps_bound t ht (ephparms t)
  obtain ⟨kx, hx⟩ := xlsa_bound t ht
  have hx' := abs_le.1 hx
  have hp := Real.pi_gt_d2
  have hp4 := Real.pi_lt_d4
  have hpi := Real.pi_pos
  have hcosδ : 0 ≤ Real.cos δ := Real.cos_nonneg_of_mem_Icc ⟨d1, d2⟩
  have hcosφ : 0 ≤ Real.cos (rad lat) := by
    apply Real.cos_nonneg_of_mem_Icc
    clear * - h5 h6 hpi
    constructor <;> simp only [rad] <;> nlinarith
  have hcose : 0.916 ≤ Real.cos (rad (eps t (ephparms t))) := by
    have hc := Real.one_sub_sq_div_two_le_cos (x := rad (eps t (ephparms t)))
    have hr0 : 0 ≤ rad (eps t (ephparms t)) := by
      have : 0 ≤ eps t (ephparms t) := le_trans (by norm_num) o1
      simp only [rad]; positivity
    have hr : rad (eps t (ephparms t)) ≤ 0.4095 := by
      have : eps t (ephparms t) * Real.pi ≤ 23.46 * 3.1416 := mul_le_mul o2 hp4.le hpi.le (by norm_num)
      simp only [rad]
      generalize eps t (ephparms t) * Real.pi = x at this
      clear * - this
      norm_num at *
      linarith
    have hr2 : rad (eps t (ephparms t)) ^ 2 ≤ 0.4095 ^ 2 := by gcongr
    clear * - hr2 hc
    norm_num at *
    linarith
  refine ⟨_, eps t (ephparms t), xlsa t, δ, hz, z1, z2, o1, o2, ⟨kx, ?_⟩, d1, d2, e3, ?_⟩
  · rw [abs_le]
    clear * - hx' htime hh0 hh1
    norm_num at *
    constructor <;> linarith [hx'.1, hx'.2]
  have hdp := abs_le.1 (dpsi_bound (ephparms t))
  have hm := meridian (xlsa t) (rad (eps t (ephparms t))) (gha2000 d.year ((doy : ℝ) + hours * 3600000 / 1000 / 86400) + lon) α δ
    (kx + doy + m - kg) hcose hcosδ e1 e2 e3 (by
      have hdc := abs_le.1 (mul_bound (dpsi_bound (ephparms t)) (Real.abs_cos_le_one (rad (eps t (ephparms t)))))
      have ht' := abs_le.1 ht
      have htt : t ^ 2 ≤ 36600 ^ 2 := by rw [← sq_abs t]; gcongr
      have htt0 := sq_nonneg t
      have hdays : 360 * ((doy : ℝ) + hours * 3600000 / 1000 / 86400) = 360 * doy + 15 * hours := by ring
      rw [hkg, hdays, hh, abs_le]
      clear * - hdc ht' htt htt0 hx' hq'
      generalize dpsi (ephparms t) * Real.cos (rad (eps t (ephparms t))) = v at *
      generalize t ^ 2 = u at *
      push_cast
      norm_num at *
      constructor <;> linarith [hdc.1, hdc.2, ht'.1, ht'.2, hx'.1, hx'.2, hq'.1, hq'.2])
  have hrad : rad (gha2000 d.year ((doy : ℝ) + hours * 3600000 / 1000 / 86400) + lon) - α =
      rad (gha2000 d.year ((doy : ℝ) + hours * 3600000 / 1000 / 86400)) + rad lon - α := by simp only [rad]; ring
  rw [hrad] at hm
  have hle := Real.cos_le_one (rad (gha2000 d.year ((doy : ℝ) + hours * 3600000 / 1000 / 86400)) + rad lon - α)
  rw [hcz, Real.cos_sub]
  generalize Real.cos (rad (gha2000 d.year ((doy : ℝ) + hours * 3600000 / 1000 / 86400)) + rad lon - α) = ch at *
  have hcc : 0 ≤ Real.cos (rad lat) * Real.cos δ := mul_nonneg hcosφ hcosδ
  have hcc1 : Real.cos (rad lat) * Real.cos δ ≤ 1 := mul_le_one₀ (Real.cos_le_one _) hcosδ (Real.cos_le_one _)
  generalize Real.cos (rad lat) * Real.cos δ = cc at *
  clear * - hm hle hcc hcc1
  norm_num at hm ⊢
  constructor <;> nlinarith

example : (1901 ≤ 2003 ∧ 2003 ≤ 2099) ∧ (⟨2003, 7, 5⟩ : Date).Valid ∧ (-180 : ℝ) ≤ 0.125 ∧ (0.125 : ℝ) ≤ 180 ∧ (-90 : ℝ) < 51.125 ∧ (51.125 : ℝ) < 90 := by
  refine ⟨by norm_num, by decide, ?_⟩
  norm_num

end Verif.Eustace.LandSun
