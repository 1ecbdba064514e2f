import Mathlib.Data.Rat.Floor
import Mathlib.Data.Int.Log
import Mathlib.Tactic.Linarith
import Mathlib.Tactic.NormNum
import Mathlib.Tactic.FieldSimp
import Mathlib.Tactic.Ring
import Mathlib.Tactic.Positivity
import Mathlib.Algebra.Order.Field.Power

/-! IEEE single precision rounding of rationals: 24 significant bits, ties to even. Overflow, subnormal numbers and signed
zero are not modelled (all numbers rounded by the modelled code lie between 10^-14 and 10^8, or are zero). -/
namespace Verif.Float32

/-- Nearest integer, ties to even. -/
def rne (x : ℚ) : Int :=
  if x - ⌊x⌋ < 1 / 2 then ⌊x⌋ else if 1 / 2 < x - ⌊x⌋ then ⌊x⌋ + 1 else if ⌊x⌋ % 2 = 0 then ⌊x⌋ else ⌊x⌋ + 1

/-- Distance of neighbouring single precision numbers in the binade of `x`. -/
def ulp (x : ℚ) : ℚ := 2 ^ (Int.log 2 |x| - 23)

/-- `numpy.float32(x)`. -/
def f32 (x : ℚ) : ℚ := if x = 0 then 0 else rne (x / ulp x) * ulp x

theorem rne_le {x : ℚ} {n : Int} (h : x < n + 1 / 2) : rne x ≤ n := by
  have h1 := Int.floor_le x
  have h2 := Int.lt_floor_add_one x
  unfold rne
  have hle : ⌊x⌋ ≤ n := by
    by_contra hc
    have : (n : ℚ) + 1 ≤ ⌊x⌋ := by exact_mod_cast (by omega : n + 1 ≤ ⌊x⌋)
    linarith
  split
  · exact hle
  · rename_i hf
    have : ⌊x⌋ < n := by
      by_contra hc
      have : (⌊x⌋ : ℚ) = n := by exact_mod_cast (by omega : ⌊x⌋ = n)
      rw [this] at hf; linarith
    split
    · omega
    · split <;> omega

theorem le_rne {x : ℚ} {n : Int} (h : (n : ℚ) - 1 / 2 < x) : n ≤ rne x := by
  have h1 := Int.floor_le x
  have h2 := Int.lt_floor_add_one x
  unfold rne
  have hle : n - 1 ≤ ⌊x⌋ := by
    by_contra hc
    have : (⌊x⌋ : ℚ) + 2 ≤ n := by exact_mod_cast (by omega : ⌊x⌋ + 2 ≤ n)
    linarith
  by_cases he : n ≤ ⌊x⌋
  · split
    · exact he
    · split
      · omega
      · split <;> omega
  · have hn : ⌊x⌋ = n - 1 := by omega
    have hq : (⌊x⌋ : ℚ) = n - 1 := by exact_mod_cast hn
    rw [if_neg (by rw [hq]; linarith), if_pos (by rw [hq]; linarith)]
    omega

theorem le_rne_even {x : ℚ} {n : Int} (hn : n % 2 = 0) (h : (n : ℚ) - 1 / 2 ≤ x) : n ≤ rne x := by
  rcases lt_or_eq_of_le h with h | h
  · exact le_rne h
  · have hfl : ⌊x⌋ = n - 1 := by
      rw [Int.floor_eq_iff]; push_cast; constructor <;> linarith
    have hq : (⌊x⌋ : ℚ) = n - 1 := by exact_mod_cast hfl
    unfold rne
    rw [if_neg (by rw [hq]; linarith), if_neg (by rw [hq]; linarith), if_neg (by omega)]
    omega

theorem rne_near (x : ℚ) : |(rne x : ℚ) - x| ≤ 1 / 2 := by
  have h1 := Int.floor_le x
  have h2 := Int.lt_floor_add_one x
  unfold rne
  split
  · rw [abs_le]; constructor <;> linarith
  · split
    · push_cast; rw [abs_le]; constructor <;> linarith
    · split
      · rw [abs_le]; constructor <;> linarith
      · push_cast; rw [abs_le]; constructor <;> linarith

theorem ulp_pos (x : ℚ) : 0 < ulp x := by unfold ulp; positivity

theorem ulp_eq {x : ℚ} {e : Int} (h1 : (2 : ℚ) ^ e ≤ x) (h2 : x < 2 ^ (e + 1)) : ulp x = 2 ^ (e - 23) := by
  have hx : 0 < x := lt_of_lt_of_le (by positivity) h1
  unfold ulp
  rw [abs_of_pos hx]
  have a : e ≤ Int.log 2 x := (Int.zpow_le_iff_le_log (by norm_num) hx).1 (by exact_mod_cast h1)
  have b : Int.log 2 x < e + 1 := (Int.lt_zpow_iff_log_lt (by norm_num) hx).1 (by exact_mod_cast h2)
  have : Int.log 2 x = e := by omega
  rw [this]

theorem f32_zero : f32 0 = 0 := by simp [f32]

theorem f32_of_pos {x : ℚ} (h : 0 < x) : f32 x = rne (x / ulp x) * ulp x := by
  unfold f32; rw [if_neg h.ne']

/-- Bounds of the significand. -/
theorem significand {x : ℚ} (h : 0 < x) : (2 : ℚ) ^ 23 ≤ x / ulp x ∧ x / ulp x < 2 ^ 24 := by
  have hu := ulp_pos x
  have h1 := Int.zpow_log_le_self (b := 2) (r := x) (by norm_num) h
  have h2 := Int.lt_zpow_succ_log_self (b := 2) (by norm_num) x
  push_cast at h1 h2
  rw [le_div_iff₀ hu, div_lt_iff₀ hu]
  unfold ulp
  rw [abs_of_pos h]
  have e1 : (2 : ℚ) ^ 23 * 2 ^ (Int.log 2 x - 23) = 2 ^ (Int.log 2 x) := by
    rw [← zpow_natCast, ← zpow_add₀ (by norm_num)]; congr 1; push_cast; omega
  have e2 : (2 : ℚ) ^ 24 * 2 ^ (Int.log 2 x - 23) = 2 ^ (Int.log 2 x + 1) := by
    rw [← zpow_natCast, ← zpow_add₀ (by norm_num)]; congr 1; push_cast; omega
  rw [e1, e2]
  exact ⟨h1, h2⟩

/-- Numbers with at most 24 significant bits. -/
def Rep (y : ℚ) : Prop := ∃ m k : Int, 0 ≤ m ∧ m ≤ 2 ^ 24 ∧ y = m * 2 ^ k

/-- Such a number is a multiple of the spacing at `x`, or is no larger than the start of the binade of `x`. -/
theorem rep_multiple {x y : ℚ} (h : 0 < x) (hy : Rep y) :
    (∃ n : Int, y = n * ulp x) ∨ y ≤ 2 ^ 23 * ulp x := by
  obtain ⟨m, k, hm0, hm, rfl⟩ := hy
  unfold ulp
  rw [abs_of_pos h]
  set e := Int.log 2 x
  by_cases hk : e - 23 ≤ k
  · left
    obtain ⟨j, hj⟩ := Int.le.dest hk
    refine ⟨m * 2 ^ j, ?_⟩
    have : (2 : ℚ) ^ k = 2 ^ j * 2 ^ (e - 23) := by
      rw [← hj, zpow_add₀ (by norm_num), mul_comm, zpow_natCast]
    rw [this]; push_cast; ring
  · right
    have hle : (2 : ℚ) ^ k ≤ 2 ^ (e - 24) := zpow_le_zpow_right₀ (by norm_num) (by omega)
    have hmq : (m : ℚ) ≤ 2 ^ 24 := by exact_mod_cast hm
    have hm0q : (0 : ℚ) ≤ m := by exact_mod_cast hm0
    calc (m : ℚ) * 2 ^ k ≤ 2 ^ 24 * 2 ^ (e - 24) := mul_le_mul hmq hle (by positivity) (by positivity)
      _ = 2 ^ 23 * 2 ^ (e - 23) := by
        have : (2 : ℚ) ^ (e - 23) = 2 * 2 ^ (e - 24) := by
          rw [show e - 23 = (e - 24) + 1 by omega, zpow_add₀ (by norm_num)]; ring
        rw [this]; ring

theorem f32_le {x y : ℚ} (h : 0 < x) (hxy : x ≤ y) (hy : Rep y) : f32 x ≤ y := by
  have hu := ulp_pos x
  rw [f32_of_pos h]
  have hs := (significand h).1
  rw [le_div_iff₀ hu] at hs
  have key : ∃ n : Int, y = n * ulp x := by
    rcases rep_multiple h hy with h' | h'
    · exact h'
    · exact ⟨2 ^ 23, by push_cast; linarith⟩
  obtain ⟨n, rfl⟩ := key
  have : x / ulp x ≤ n := by rw [div_le_iff₀ hu]; exact hxy
  have hr : rne (x / ulp x) ≤ n := rne_le (by linarith)
  exact mul_le_mul_of_nonneg_right (by exact_mod_cast hr) hu.le

theorem le_f32 {x y : ℚ} (h : 0 < x) (hxy : y ≤ x) (hy : Rep y) : y ≤ f32 x := by
  have hu := ulp_pos x
  rw [f32_of_pos h]
  have hs := (significand h).1
  rcases rep_multiple h hy with ⟨n, rfl⟩ | h'
  · have : (n : ℚ) ≤ x / ulp x := by rw [le_div_iff₀ hu]; exact hxy
    have hr : n ≤ rne (x / ulp x) := le_rne (by linarith)
    exact mul_le_mul_of_nonneg_right (by exact_mod_cast hr) hu.le
  · have hr : (2 ^ 23 : Int) ≤ rne (x / ulp x) := le_rne (by push_cast; linarith)
    refine le_trans h' (mul_le_mul_of_nonneg_right (by exact_mod_cast hr) hu.le)

theorem f32_rep {y : ℚ} (h : 0 ≤ y) (hy : Rep y) : f32 y = y := by
  rcases eq_or_lt_of_le h with h | h
  · rw [← h, f32_zero]
  · exact le_antisymm (f32_le h le_rfl hy) (le_f32 h le_rfl hy)

theorem rep_zero : Rep 0 := ⟨0, 0, by norm_num, by norm_num, by simp⟩
theorem rep_one : Rep 1 := ⟨1, 0, by norm_num, by norm_num, by simp⟩

theorem f32_nonneg {x : ℚ} (h : 0 ≤ x) : 0 ≤ f32 x := by
  rcases eq_or_lt_of_le h with h | h
  · rw [← h, f32_zero]
  · exact le_f32 h h.le rep_zero

theorem f32_pos {x : ℚ} (h : 0 < x) : 0 < f32 x := by
  rw [f32_of_pos h]
  have hr : (2 ^ 23 : Int) ≤ rne (x / ulp x) := le_rne (by push_cast; linarith [(significand h).1])
  have : (0 : ℚ) < rne (x / ulp x) := by exact_mod_cast (by omega : 0 < rne (x / ulp x))
  exact mul_pos this (ulp_pos x)

/-- Rounding error is at most half the spacing. -/
theorem f32_near {x : ℚ} {e : Int} (h : 0 ≤ x) (hx : x ≤ 2 ^ (e + 1)) : |f32 x - x| ≤ 2 ^ (e - 24) := by
  rcases eq_or_lt_of_le h with h | h
  · rw [← h, f32_zero]; simp; positivity
  rcases eq_or_lt_of_le hx with hx | hx
  · rw [f32_rep h.le ⟨1, e + 1, by norm_num, by norm_num, by rw [hx]; simp⟩]; simp; positivity
  have hu := ulp_pos x
  have hul : ulp x ≤ 2 ^ (e - 23) := by
    unfold ulp
    rw [abs_of_pos h]
    have : Int.log 2 x < e + 1 := (Int.lt_zpow_iff_log_lt (by norm_num) h).1 (by exact_mod_cast hx)
    exact zpow_le_zpow_right₀ (by norm_num) (by omega)
  rw [f32_of_pos h]
  have : (rne (x / ulp x) : ℚ) * ulp x - x = (rne (x / ulp x) - x / ulp x) * ulp x := by
    rw [sub_mul, div_mul_cancel₀ _ hu.ne']
  rw [this, abs_mul, abs_of_pos hu]
  have h2 : (2 : ℚ) ^ (e - 23) = 2 * 2 ^ (e - 24) := by
    rw [show e - 23 = (e - 24) + 1 by omega, zpow_add₀ (by norm_num)]; ring
  calc _ ≤ 1 / 2 * (2 : ℚ) ^ (e - 23) := mul_le_mul (rne_near _) hul hu.le (by norm_num)
    _ = 2 ^ (e - 24) := by rw [h2]; ring

/-- The single precision fraction `s / total` of a part `s` of `total`, where `total = M·u` is representable with even
significand `M` in the binade of spacing `u = 2^(e-23)`: it is 1 exactly if `s` is within half a spacing of `total`. -/
theorem fraction {s total : ℚ} {M e : Int} (ht : total = M * 2 ^ (e - 23)) (hM : 2 ^ 23 < M) (hM' : M ≤ 2 ^ 24)
    (heven : M % 2 = 0) (hs0 : 0 ≤ s) (hs : s < total) :
    (s < total - 2 ^ (e - 23) / 2 → f32 (f32 s / f32 total) < 1) ∧
    (total - 2 ^ (e - 23) / 2 ≤ s → f32 (f32 s / f32 total) = 1) := by
  have hu : (0 : ℚ) < 2 ^ (e - 23) := by positivity
  have hMq : (2 : ℚ) ^ 23 + 1 ≤ M := by exact_mod_cast (by omega : (2 : Int) ^ 23 + 1 ≤ M)
  have hMq' : (M : ℚ) ≤ 2 ^ 24 := by exact_mod_cast hM'
  have htpos : 0 < total := by rw [ht]; exact mul_pos (by linarith [show (0:ℚ) < 2 ^ 23 by positivity]) hu
  have hrt : Rep total := ⟨M, e - 23, by omega, hM', ht⟩
  rw [f32_rep htpos.le hrt]
  have he1 : (2 : ℚ) ^ e = 2 ^ 23 * 2 ^ (e - 23) := by
    rw [← zpow_natCast, ← zpow_add₀ (by norm_num)]; congr 1; push_cast; omega
  have he2 : (2 : ℚ) ^ (e + 1) = 2 ^ 24 * 2 ^ (e - 23) := by
    rw [← zpow_natCast, ← zpow_add₀ (by norm_num)]; congr 1; push_cast; omega
  have htop : total ≤ 2 ^ (e + 1) := by
    rw [he2, ht]; exact mul_le_mul_of_nonneg_right hMq' hu.le
  constructor
  · intro hlt
    rcases eq_or_lt_of_le hs0 with h0 | h0
    · rw [← h0, f32_zero]; simp [f32_zero]
    have hle : f32 s ≤ (M - 1 : Int) * 2 ^ (e - 23) := by
      by_cases hse : s < 2 ^ e
      · refine f32_le h0 ?_ ⟨M - 1, e - 23, by omega, by omega, rfl⟩
        rw [he1] at hse
        refine le_trans hse.le (mul_le_mul_of_nonneg_right ?_ hu.le)
        push_cast; linarith
      · rw [f32_of_pos h0, ulp_eq (not_lt.1 hse) (lt_of_lt_of_le hs htop)]
        refine mul_le_mul_of_nonneg_right ?_ hu.le
        have : rne (s / 2 ^ (e - 23)) ≤ M - 1 := by
          apply rne_le
          rw [div_lt_iff₀ hu]; push_cast
          rw [ht] at hlt; linarith
        exact_mod_cast this
    by_cases hz : f32 s = 0
    · rw [hz]; simp [f32_zero]
    have hfp : 0 < f32 s := lt_of_le_of_ne (f32_nonneg hs0) (Ne.symm hz)
    have hq : f32 s / total ≤ ((2 ^ 24 - 1 : Int) : ℚ) * 2 ^ (-24 : Int) := by
      rw [div_le_iff₀ htpos]
      refine le_trans hle ?_
      rw [ht]
      push_cast
      rw [zpow_neg]
      have : ((2 : ℚ) ^ (24 : Int))⁻¹ = 1 / 16777216 := by norm_num
      rw [this, ← mul_assoc]
      refine mul_le_mul_of_nonneg_right ?_ hu.le
      norm_num at hMq' ⊢
      linarith
    have := f32_le (div_pos hfp htpos) hq ⟨2 ^ 24 - 1, -24, by norm_num, by norm_num, rfl⟩
    refine lt_of_le_of_lt this ?_
    norm_num
  · intro hge
    have hM2 : (2 : ℚ) ^ 23 * 2 ^ (e - 23) ≤ s := by
      have : (M : ℚ) * 2 ^ (e - 23) - 2 ^ (e - 23) / 2 ≤ s := by rw [← ht]; exact hge
      have h3 : (2 : ℚ) ^ 23 * 2 ^ (e - 23) ≤ (M - 1) * 2 ^ (e - 23) :=
        mul_le_mul_of_nonneg_right (by linarith) hu.le
      nlinarith
    have h0 : 0 < s := lt_of_lt_of_le (by positivity) hM2
    have hfs : f32 s = total := by
      apply le_antisymm (f32_le h0 hs.le hrt)
      rw [f32_of_pos h0, ulp_eq (he1 ▸ hM2) (lt_of_lt_of_le hs htop)]
      nth_rewrite 1 [ht]
      refine mul_le_mul_of_nonneg_right ?_ hu.le
      have : M ≤ rne (s / 2 ^ (e - 23)) := by
        apply le_rne_even heven
        rw [le_div_iff₀ hu]
        rw [ht] at hge; linarith
      exact_mod_cast this
    rw [hfs, div_self htpos.ne']
    exact f32_rep zero_le_one rep_one

end Verif.Float32
