import Verif.Eustace.Submit.Once

/-! C131: suites of the workflow engine run every operation once. -/
namespace Verif.Eustace.Submit
open Verif Verif.Eumopps.Run Spec

theorem cycles (chunk n : ℕ) : ((List.range n).flatMap fun c : ℕ => (List.range chunk).map fun t : ℕ => c * chunk + t) = List.range (n * chunk) := by
  induction n with
  | zero => simp
  | succ n ih =>
    rw [List.range_succ, List.flatMap_append, ih, List.flatMap_singleton, Nat.succ_mul, List.range_add]

theorem roundup_bounds (count : ℕ) {chunk : ℕ} (hc : 0 < chunk) :
    (count : ℤ) ≤ roundup count chunk * chunk ∧ roundup count chunk * chunk < count + chunk ∧ 0 ≤ roundup count chunk := by
  have h0 : (0 : ℚ) < chunk := by exact_mod_cast hc
  have h1 : ((count : ℚ) / chunk) ≤ (roundup count chunk : ℚ) := Int.le_ceil _
  have h2 : (roundup count chunk : ℚ) < (count : ℚ) / chunk + 1 := Int.ceil_lt_add_one _
  refine ⟨?_, ?_, ?_⟩
  · rw [div_le_iff₀ h0] at h1
    exact_mod_cast h1
  · have h3 : (roundup count chunk : ℚ) * chunk < ((count : ℚ) / chunk + 1) * chunk := mul_lt_mul_of_pos_right h2 h0
    rw [add_mul, div_mul_cancel₀ _ (ne_of_gt h0), one_mul] at h3
    exact_mod_cast h3
  · have : (0 : ℚ) ≤ (roundup count chunk : ℚ) := le_trans (by positivity) h1
    exact_mod_cast this

/-- **C131.** The tasks of the suite for the surface air temperature run every operation of a module exactly once, in order. -/
theorem c131_suite_once (count : ℕ) {chunk : ℕ} (hc : 0 < chunk) : suiteCommands count chunk = List.range count := by
  unfold suiteCommands
  rw [← List.filter_flatMap, cycles]
  obtain ⟨h1, -, h3⟩ := roundup_bounds count hc
  have h4 : count ≤ ((roundup count chunk).toNat + 1) * chunk := by
    obtain ⟨n, hn⟩ := Int.eq_ofNat_of_zero_le h3
    rw [hn] at h1 ⊢
    rw [Int.toNat_natCast, Nat.succ_mul]
    have : count ≤ n * chunk := by exact_mod_cast h1
    omega
  obtain ⟨d, hd⟩ := Nat.exists_eq_add_of_le h4
  rw [hd, List.range_add, List.filter_append, List.filter_eq_self.2 (by simp), List.filter_eq_nil_iff.2 (by simp), List.append_nil]

example : suiteCommands 12 5 = List.range 12 := by decide +kernel

/-- **C131.** The last cycle point of the suite is late enough for every operation of every module, and not later than the number of
chunks of the largest module. -/
theorem c131_suite_final {counts : List ℕ} {chunk : ℕ} (hc : 0 < chunk) :
    (∀ count ∈ counts, ∀ k < count, ((k / chunk : ℕ) : ℤ) < suiteFinal counts chunk) ∧
    ∀ B : ℕ, (∀ count ∈ counts, count ≤ B) → suiteFinal counts chunk * chunk < B + chunk := by
  have hmax : ∀ (l : List ℕ) (a : ℕ), a ≤ l.foldl max a ∧ ∀ x ∈ l, x ≤ l.foldl max a := by
    intro l
    induction l with
    | nil => intro a; simp
    | cons b l ih =>
      intro a
      obtain ⟨h1, h2⟩ := ih (max a b)
      rw [List.foldl_cons]
      refine ⟨by omega, ?_⟩
      intro x hx
      rcases List.mem_cons.1 hx with rfl | hx
      · omega
      · exact h2 x hx
  unfold suiteFinal
  obtain ⟨h2, h3, h4⟩ := roundup_bounds (counts.foldl max 0) hc
  constructor
  swap
  · intro B hB
    have hle : ∀ (l : List ℕ) (a : ℕ), a ≤ B → (∀ x ∈ l, x ≤ B) → l.foldl max a ≤ B := by
      intro l
      induction l with
      | nil => intro a ha _; exact ha
      | cons b l ih =>
        intro a ha hl
        exact ih _ (max_le ha (hl b (by simp))) fun x hx => hl x (by simp [hx])
    have := hle counts 0 (by omega) hB
    have h7 : ((counts.foldl max 0 : ℕ) : ℤ) ≤ B := by exact_mod_cast this
    linarith
  intro count hm k hk
  have h1 := (hmax counts 0).2 count hm
  obtain ⟨n, hn⟩ := Int.eq_ofNat_of_zero_le h4
  rw [hn] at h2 ⊢
  have h5 : counts.foldl max 0 ≤ n * chunk := by exact_mod_cast h2
  have h6 : k / chunk < n := by
    rw [Nat.div_lt_iff_lt_mul hc]
    omega
  exact_mod_cast h6

example : (12 : ℕ) ∈ [12, 3] ∧ suiteFinal [12, 3] 5 = 3 := ⟨by simp, by
  unfold suiteFinal roundup
  rw [Int.ceil_eq_iff]
  norm_num⟩

/-- **C131, violated.** The scheduling of a module and the last cycle point cannot be found by the functions meant for suites: for
every catalogue and all modules AttributeError is raised. -/
theorem c131_scheduling_violated (ops : List StoredOp) (m : String) (size : ℕ) (specs : List (String × ℕ)) (hs : specs ≠ []) :
    scheduling ops m size = .error .attributeError ∧ finalCyclePoint ops specs = .error .attributeError := by
  refine ⟨rfl, ?_⟩
  cases specs with
  | nil => exact absurd rfl hs
  | cons a l => rfl

end Verif.Eustace.Submit
