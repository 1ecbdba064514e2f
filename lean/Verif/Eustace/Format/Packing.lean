import Verif.Eustace.Format.Model
import Verif.Eustace.Format.Spec
import Mathlib.Tactic.Linarith
import Mathlib.Tactic.NormNum
import Mathlib.Tactic.FieldSimp
import Mathlib.Tactic.Ring
import Mathlib.Tactic.Positivity

/-! Packed numbers: writing and reading single cells. -/
namespace Verif.Eustace.Format
open Verif Verif.Float32 Spec

/-- Attributes with a scale factor and an offset. -/
def Packs (attrs : String → Option AttrValue) (s o : ℚ) : Prop :=
  numberAttr attrs "scale_factor" = some s ∧ numberAttr attrs "add_offset" = some o

theorem signed_id {k : ℤ} (h1 : -32768 ≤ k) (h2 : k ≤ 32767) : signed 32768 k = k := by
  unfold signed; omega

theorem signed_range (k : ℤ) : -32768 ≤ signed 32768 k ∧ signed 32768 k ≤ 32767 := by
  unfold signed; omega

theorem signed_mod (k : ℤ) : ∃ m, signed 32768 k = k + 65536 * m := by
  refine ⟨-((k + 32768) / 65536), ?_⟩
  unfold signed; omega

theorem pack_int16 {attrs : String → Option AttrValue} {s o : ℚ} (h : Packs attrs s o) (x : ℚ) :
    pack .int16 attrs x = signed 32768 (rne ((x - o) / s)) := by
  simp [pack, h.1, h.2, isInteger, castTo]

theorem unpack_int16 {attrs : String → Option AttrValue} {s o : ℚ} (h : Packs attrs s o) (k : ℤ) :
    unpackCell .int16 (some (-32768)) attrs k = if k = -32768 then none else some (k * s + o) := by
  have : ((k : ℚ) = -32768) ↔ k = -32768 := by
    constructor
    · intro e; exact_mod_cast e
    · intro e; subst e; norm_num
  simp only [unpackCell, fillOf, Option.getD_some, this, h.1, h.2]

/-- The number of the code which stands for `x`. -/
def code (s o x : ℚ) : ℤ := rne ((x - o) / s)

theorem rne_int (n : ℤ) : rne (n : ℚ) = n := by
  apply le_antisymm
  · apply rne_le; linarith
  · apply le_rne; linarith

theorem code_near {s o x : ℚ} (hs : 0 < s) : |(code s o x : ℚ) * s + o - x| ≤ s / 2 := by
  have h := rne_near ((x - o) / s)
  have e : (code s o x : ℚ) * s + o - x = ((code s o x : ℚ) - (x - o) / s) * s := by
    field_simp; ring
  rw [e, abs_mul, abs_of_pos hs]
  have := mul_le_mul_of_nonneg_right h hs.le
  unfold code
  linarith

/-- Numbers of codes other than the fill value. -/
theorem code_range {s o x : ℚ} (hs : 0 < s) (h : |x - o| < 65535 / 2 * s) : -32767 ≤ code s o x ∧ code s o x ≤ 32767 := by
  rw [abs_lt] at h
  have h1 : (x - o) / s < 65535 / 2 := by rw [div_lt_iff₀ hs]; linarith [h.2]
  have h2 : -(65535 / 2) < (x - o) / s := by rw [lt_div_iff₀ hs]; linarith [h.1]
  constructor
  · apply le_rne; push_cast; linarith
  · apply rne_le; push_cast; linarith

theorem code_range_iff {s o x : ℚ} (hs : 0 < s) :
    (-32767 ≤ code s o x ∧ code s o x ≤ 32767) ↔ |x - o| < 65535 / 2 * s := by
  refine ⟨fun ⟨h1, h2⟩ => ?_, code_range hs⟩
  by_contra hc
  rw [abs_lt, not_and_or, not_lt, not_lt] at hc
  rcases hc with hc | hc
  · have : (x - o) / s ≤ -(65535 / 2) := by rw [div_le_iff₀ hs]; linarith
    have h3 : (code s o x) ≤ -32768 := by
      have h4 := rne_near ((x - o) / s)
      have h5 : ((code s o x : ℤ) : ℚ) ≤ -32767 := by
        rw [abs_le] at h4; unfold code; linarith [h4.2]
      rcases lt_or_eq_of_le h5 with h6 | h6
      · have : code s o x < -32767 := by exact_mod_cast h6
        omega
      · -- the value is halfway between -32768 and -32767, and goes to the even one
        have h7 : code s o x = -32767 := by exact_mod_cast h6
        have h8 : (x - o) / s = -(65535 / 2) := by
          unfold code at h7
          rw [h7, abs_le] at h4
          push_cast at h4
          linarith [h4.1, h4.2]
        have h9 : rne (-(65535 / 2) : ℚ) = -32768 := by decide +kernel
        unfold code at h7
        rw [h8, h9] at h7
        omega
    omega
  · have : 65535 / 2 ≤ (x - o) / s := by rw [le_div_iff₀ hs]; linarith
    have : 32768 ≤ code s o x := le_rne_even (by norm_num) (by push_cast; linarith)
    omega

/-- A value in range is read back to within half of the scale factor. -/
theorem cell_near {attrs : String → Option AttrValue} {s o : ℚ} (h : Packs attrs s o) (hs : 0 < s) {x : ℚ}
    (hx : |x - o| < 65535 / 2 * s) :
    Near (s / 2) (some x) (unpackCell .int16 (some (-32768)) attrs (packCell .int16 (some (-32768)) attrs (some x))) := by
  obtain ⟨h1, h2⟩ := code_range hs hx
  simp only [packCell, pack_int16 h]
  rw [show rne ((x - o) / s) = code s o x from rfl, signed_id (by omega) h2, unpack_int16 h, if_neg (by omega)]
  exact .value (code_near hs)

/-- A value out of range is read back as missing, or is far off. -/
theorem cell_far {attrs : String → Option AttrValue} {s o : ℚ} (h : Packs attrs s o) (hs : 0 < s) {x : ℚ}
    (hx : ¬ |x - o| < 65535 / 2 * s) {y : ℚ}
    (hy : unpackCell .int16 (some (-32768)) attrs (packCell .int16 (some (-32768)) attrs (some x)) = some y) :
    65535 * s ≤ |y - x| := by
  rw [← code_range_iff hs] at hx
  simp only [packCell, pack_int16 h] at hy
  rw [show rne ((x - o) / s) = code s o x from rfl, unpack_int16 h] at hy
  split at hy
  · cases hy
  · rename_i hk
    injection hy with hy
    obtain ⟨m, hm⟩ := signed_mod (code s o x)
    have hr := signed_range (code s o x)
    have hm0 : m ≠ 0 := by
      rintro rfl
      apply hx
      omega
    have hn := code_near (s := s) (o := o) (x := x) hs
    have e : y - x = ((code s o x : ℚ) * s + o - x) + 65536 * m * s := by
      rw [← hy, hm]; push_cast; ring
    have hm1 : (1 : ℚ) ≤ |(m : ℚ)| := by
      rw [← Int.cast_abs]; exact_mod_cast Int.one_le_abs hm0
    have h2 : 65536 * s ≤ |65536 * (m : ℚ) * s| := by
      rw [abs_mul, abs_mul, abs_of_pos hs, abs_of_pos (by norm_num : (0 : ℚ) < 65536)]
      nlinarith
    rw [e]
    have h3 := abs_sub_abs_le_abs_sub (65536 * (m : ℚ) * s) (-((code s o x : ℚ) * s + o - x))
    rw [abs_neg, sub_neg_eq_add, add_comm (65536 * (m : ℚ) * s)] at h3
    linarith

/-- Missing values are read back as missing. -/
theorem cell_missing (t : DType) (fill : Option ℚ) (attrs : String → Option AttrValue) :
    unpackCell t fill attrs (packCell t fill attrs none) = none := by
  simp [unpackCell, packCell]

/-- A code which was read is written as the same code. -/
theorem cell_again {attrs : String → Option AttrValue} {s o : ℚ} (h : Packs attrs s o) (hs : 0 < s) {k : ℤ}
    (h1 : -32768 ≤ k) (h2 : k ≤ 32767) :
    packCell .int16 (some (-32768)) attrs (unpackCell .int16 (some (-32768)) attrs k) = k := by
  rw [unpack_int16 h]
  split
  · rename_i e; subst e; norm_num [packCell, fillOf]
  · have e : ((k : ℚ) * s + o - o) / s = k := by field_simp; ring
    simp only [packCell, pack_int16 h, e, rne_int, signed_id h1 h2]

theorem rne_mono {a b : ℚ} (h : a ≤ b) : rne a ≤ rne b := by
  by_contra hc
  have hc : rne b + 1 ≤ rne a := by omega
  have ha := abs_le.1 (rne_near a)
  have hb := abs_le.1 (rne_near b)
  have hc' : ((rne b : ℚ)) + 1 ≤ rne a := by exact_mod_cast hc
  have e : a = b := by linarith
  subst e
  omega

/-- Values in range keep their order. -/
theorem cell_mono {attrs : String → Option AttrValue} {s o : ℚ} (h : Packs attrs s o) (hs : 0 < s) {x x' y y' : ℚ}
    (hx : |x - o| < 65535 / 2 * s) (hx' : |x' - o| < 65535 / 2 * s) (hle : x ≤ x')
    (hy : unpackCell .int16 (some (-32768)) attrs (packCell .int16 (some (-32768)) attrs (some x)) = some y)
    (hy' : unpackCell .int16 (some (-32768)) attrs (packCell .int16 (some (-32768)) attrs (some x')) = some y') :
    y ≤ y' := by
  obtain ⟨h1, h2⟩ := code_range hs hx
  obtain ⟨h3, h4⟩ := code_range hs hx'
  simp only [packCell, pack_int16 h] at hy hy'
  rw [show rne ((x - o) / s) = code s o x from rfl, signed_id (by omega) h2, unpack_int16 h, if_neg (by omega)] at hy
  rw [show rne ((x' - o) / s) = code s o x' from rfl, signed_id (by omega) h4, unpack_int16 h, if_neg (by omega)] at hy'
  injection hy with hy
  injection hy' with hy'
  have : code s o x ≤ code s o x' := rne_mono (by gcongr)
  have : (code s o x : ℚ) ≤ code s o x' := by exact_mod_cast this
  rw [← hy, ← hy']
  nlinarith

end Verif.Eustace.Format
