import Verif.Eustace.Flags.Model
import Mathlib.Tactic.Tauto

/-! Properties of the quality flags: C50-C54, C58, C72. -/
namespace Verif.Eustace.Flags
open Verif Verif.Calendar

variable {Cell : Type}

/-! ### Bits of words -/

theorem bit_getLsbD (k n : Nat) : (bit k).getLsbD n = (decide (n < 16) && decide (n = k)) := by
  unfold bit
  rw [BitVec.getLsbD_shiftLeft, BitVec.getLsbD_one]
  by_cases h : n < 16 <;> by_cases h2 : n = k <;> by_cases h3 : n < k <;>
    simp [h, h2, h3] <;> omega

theorem word_ext {a b : Word} : a = b ↔ ∀ n, n < 16 → a.getLsbD n = b.getLsbD n :=
  ⟨fun h n _ => by rw [h], fun h => BitVec.eq_of_getLsbD_eq h⟩

/-- `w & f == f` for a cell: every bit of `f` is set in `w`. -/
theorem has_iff (w f : Word) : has w f = true ↔ ∀ n, f.getLsbD n = true → w.getLsbD n = true := by
  unfold has
  rw [beq_iff_eq, word_ext]
  constructor
  · intro h n hn
    have hlt : n < 16 := BitVec.lt_of_getLsbD hn
    have := h n hlt
    rw [BitVec.getLsbD_and, hn] at this
    simpa using this
  · intro h n _
    rw [BitVec.getLsbD_and]
    cases hf : f.getLsbD n
    · simp
    · simp [h n hf]

theorem has_bit (w : Word) {k : Nat} (hk : k < 16) : has w (bit k) = true ↔ w.getLsbD k = true := by
  rw [has_iff]
  constructor
  · intro h; exact h k (by rw [bit_getLsbD]; simp [hk])
  · intro h n hn
    rw [bit_getLsbD] at hn
    simp at hn
    rw [hn.2]; exact h

theorem setFlag_bit (k : Nat) (hk : k < 16) (wh : Cell → Bool) (values : Field Cell) (c : Cell) (n : Nat) :
    (setFlag (bit k) wh values c).getLsbD n = true ↔ (values c).getLsbD n = true ∨ (n = k ∧ wh c = true) := by
  unfold setFlag
  cases h : wh c
  · simp
  · simp only [if_true, BitVec.getLsbD_or, bit_getLsbD, Bool.or_eq_true, Bool.and_eq_true, decide_eq_true_eq, and_true]
    constructor
    · rintro (h | h)
      · exact Or.inl h
      · exact Or.inr h.2
    · rintro (h | h)
      · exact Or.inl h
      · exact Or.inr ⟨by omega, h⟩

/-! ### C50: the mask -/

/-- C50: a cell is masked exactly when some rule has all of its first flags set and all of its other flags clear. -/
theorem c50_rules (rules : List (Word × Word)) (qc : Field Cell) (c : Cell) :
    computeMask rules qc c = true ↔ ∃ r ∈ rules,
      (∀ n, r.1.getLsbD n = true → (qc c).getLsbD n = true) ∧
      (∀ n, r.2.getLsbD n = true → r.1.getLsbD n = false → (qc c).getLsbD n = false) := by
  unfold computeMask
  rw [List.any_eq_true]
  refine exists_congr fun r => and_congr_right fun _ => ?_
  rw [beq_iff_eq, word_ext]
  simp only [BitVec.getLsbD_and, BitVec.getLsbD_or]
  constructor
  · intro h
    constructor
    · intro n hn
      have := h n (BitVec.lt_of_getLsbD hn)
      rw [hn] at this; simpa using this
    · intro n hn h1
      have := h n (BitVec.lt_of_getLsbD hn)
      rw [hn, h1] at this; simpa using this
  · rintro ⟨h1, h2⟩ n _
    cases ha : r.1.getLsbD n
    · cases hb : r.2.getLsbD n
      · simp
      · simp [h2 n hb ha]
    · simp [h1 n ha]

/-- The flags of a cell combined from one or two files. -/
def combinedBit (qc1 : Field Cell) (qc2 : Option (Field Cell)) (c : Cell) (n : Nat) : Prop :=
  (qc1 c).getLsbD n = true ∨ ∃ q, qc2 = some q ∧ (q c).getLsbD n = true

theorem resetMarine_bit (marine : Cell → Bool) (qc : Field Cell) (c : Cell) {n : Nat} (hn : n < 16) :
    (resetMarine marine qc c).getLsbD n = if n = 12 then marine c else (qc c).getLsbD n := by
  unfold resetMarine
  simp only
  by_cases h : n = 12
  · subst h
    cases hm : marine c <;> simp [-BitVec.getLsbD_eq_getElem, MISSING_MARINE, bit_getLsbD]
  · cases hm : marine c <;> simp [-BitVec.getLsbD_eq_getElem, MISSING_MARINE, bit_getLsbD, h, hn]

theorem single_rule (w : Word) {k : Nat} (hk : k < 16) :
    (w &&& (bit k ||| NULL) == bit k) = w.getLsbD k := by
  have h : (bit k ||| NULL) = bit k := by unfold NULL; simp
  rw [h]
  have := has_bit w hk
  unfold has at this
  cases hw : w.getLsbD k
  · rw [hw] at this; simpa using this
  · exact this.2 hw

theorem marine_rule (w : Word) : (w &&& (MISSING_FLAG ||| MISSING_MARINE) == MISSING_FLAG) = (w.getLsbD 15 && !w.getLsbD 12) := by
  rw [Bool.eq_iff_iff, beq_iff_eq, word_ext]
  constructor
  · intro h
    have h15 := h 15 (by omega)
    have h12 := h 12 (by omega)
    simp [-BitVec.getLsbD_eq_getElem, MISSING_FLAG, MISSING_MARINE, bit_getLsbD] at h15 h12
    rw [h15, h12]; rfl
  · intro h n hn
    simp only [Bool.and_eq_true, Bool.not_eq_true'] at h
    simp only [MISSING_FLAG, MISSING_MARINE, BitVec.getLsbD_and, BitVec.getLsbD_or, bit_getLsbD, hn, decide_true, Bool.true_and]
    by_cases h1 : n = 15
    · subst h1; simp [h.1]
    · by_cases h2 : n = 12
      · subst h2; rw [h.2]; rfl
      · simp [h1, h2]

/-- C50, the rules in use: a cell is masked exactly when its calendar day lacks constraint and it is not marine, or one of the
uncertainty (5, 6), outlier (7-10) or location (13, 14) flags is set in either file, or it is marine after 2012. -/
theorem c50_masked (marine : Cell → Bool) (year : Nat) (qc1 : Field Cell) (qc2 : Option (Field Cell)) (c : Cell) :
    combinedMask marine (rulesForYear year) qc1 qc2 c = true ↔
      (combinedBit qc1 qc2 c 15 ∧ marine c = false) ∨
      (∃ n ∈ [5, 6, 7, 8, 9, 10, 13, 14], combinedBit qc1 qc2 c n) ∨
      (2012 < year ∧ marine c = true) := by
  have key : ∀ qc : Field Cell, computeMask (rulesForYear year) (resetMarine marine qc) c = true ↔
      ((qc c).getLsbD 15 = true ∧ marine c = false) ∨
      (∃ n ∈ [5, 6, 7, 8, 9, 10, 13, 14], (qc c).getLsbD n = true) ∨ (2012 < year ∧ marine c = true) := by
    intro qc
    have hb : ∀ n, n < 16 → n ≠ 12 → (resetMarine marine qc c).getLsbD n = (qc c).getLsbD n := by
      intro n hn h; rw [resetMarine_bit _ _ _ hn, if_neg h]
    have hm : (resetMarine marine qc c).getLsbD 12 = marine c := by rw [resetMarine_bit _ _ _ (by omega), if_pos rfl]
    unfold computeMask rulesForYear
    have base : FLAGS_TO_MASK.any (fun r => resetMarine marine qc c &&& (r.1 ||| r.2) == r.1) = true ↔
        ((qc c).getLsbD 15 = true ∧ marine c = false) ∨ (∃ n ∈ [5, 6, 7, 8, 9, 10, 13, 14], (qc c).getLsbD n = true) := by
      simp only [FLAGS_TO_MASK, List.any_cons, List.any_nil, Bool.or_false, marine_rule, LARGE_SCALE_UNC, CLIMATOLOGY_UNC,
        AREAL_LOW, AREAL_HIGH, EXTREME_LOW, EXTREME_HIGH, LOCATION_LOW, LOCATION_HIGH]
      rw [single_rule _ (by omega), single_rule _ (by omega), single_rule _ (by omega), single_rule _ (by omega),
        single_rule _ (by omega), single_rule _ (by omega), single_rule _ (by omega), single_rule _ (by omega)]
      rw [hb 15 (by omega) (by omega), hb 5 (by omega) (by omega), hb 6 (by omega) (by omega), hb 7 (by omega) (by omega),
        hb 8 (by omega) (by omega), hb 9 (by omega) (by omega), hb 10 (by omega) (by omega), hb 13 (by omega) (by omega),
        hb 14 (by omega) (by omega), hm]
      simp only [Bool.or_eq_true, Bool.and_eq_true, Bool.not_eq_true', List.mem_cons, List.not_mem_nil, or_false,
        exists_eq_or_imp, exists_eq_left]
      tauto
    split
    · rename_i hy
      rw [List.any_append, Bool.or_eq_true, base]
      simp only [List.any_cons, List.any_nil, Bool.or_false, MISSING_MARINE]
      rw [single_rule _ (by omega), hm]
      simp [hy, or_assoc]
    · rename_i hy
      rw [base]
      simp [hy]
  unfold combinedMask combinedBit
  cases qc2 with
  | none => simp only [key]; simp
  | some q =>
    simp only [key, BitVec.getLsbD_or, Bool.or_eq_true, Option.some.injEq, exists_eq_left']

/-- C50: the mask does not depend on the persistent outlier flag, on the window and calendar flags, nor on the marine flag
stored in the files. -/
theorem c50_ignored (marine : Cell → Bool) (year : Nat) (qc1 qc1' : Field Cell) (c : Cell)
    (h : ∀ n ∈ [5, 6, 7, 8, 9, 10, 13, 14, 15], (qc1 c).getLsbD n = (qc1' c).getLsbD n) :
    combinedMask marine (rulesForYear year) qc1 none c = combinedMask marine (rulesForYear year) qc1' none c := by
  rw [Bool.eq_iff_iff, c50_masked, c50_masked]
  have hc : ∀ n ∈ [5, 6, 7, 8, 9, 10, 13, 14, 15], (combinedBit qc1 none c n ↔ combinedBit qc1' none c n) := by
    intro n hn; unfold combinedBit; rw [h n hn]
  rw [hc 15 (by simp)]
  refine or_congr Iff.rfl (or_congr (exists_congr fun n => and_congr_right fun hn => hc n ?_) Iff.rfl)
  simp only [List.mem_cons, List.not_mem_nil, or_false] at hn ⊢
  omega

example : combinedMask (Cell := Unit) (fun _ => false) (rulesForYear 2000) (fun _ => MISSING_FLAG) none () = true ∧
    combinedMask (Cell := Unit) (fun _ => true) (rulesForYear 2000) (fun _ => MISSING_FLAG) none () = false ∧
    combinedMask (Cell := Unit) (fun _ => true) (rulesForYear 2013) (fun _ => MISSING_FLAG) none () = true ∧
    combinedMask (Cell := Unit) (fun _ => false) (rulesForYear 2000) (fun _ => PERSISTANT_OUTLIER) none () = false := by decide

/-! ### C54: merging -/

/-- C54: the merged word has every flag of the first file, and of the second file every flag but the areal low flag, which
becomes the marine flag. -/
theorem c54_merged (flags1 flags2 : Field Cell) (c : Cell) (n : Nat) :
    (merged flags1 flags2 c).getLsbD n = true ↔
      (flags1 c).getLsbD n = true ∨ ((flags2 c).getLsbD n = true ∧ n ≠ 7) ∨ (n = 12 ∧ (flags2 c).getLsbD 7 = true) := by
  have hdef : merged flags1 flags2 c =
      flags1 c ||| ((if has (flags2 c) (bit 7) then flags2 c ||| bit 12 else flags2 c) &&& ~~~(bit 7)) := rfl
  rw [hdef]
  simp only [BitVec.getLsbD_or, BitVec.getLsbD_and, BitVec.getLsbD_not, bit_getLsbD]
  have h7 := has_bit (flags2 c) (k := 7) (by omega)
  by_cases hn : n < 16
  · by_cases hh : (flags2 c).getLsbD 7 = true
    · rw [if_pos (h7.2 hh)]
      by_cases e7 : n = 7
      · subst e7; simp
      · by_cases e12 : n = 12
        · subst e12; simp [-BitVec.getLsbD_eq_getElem, hh, bit_getLsbD]
        · simp [-BitVec.getLsbD_eq_getElem, hn, e7, e12, bit_getLsbD]
    · rw [if_neg (fun h => hh (h7.1 h))]
      by_cases e7 : n = 7
      · subst e7; simp
      · simp [-BitVec.getLsbD_eq_getElem, hn, hh, e7]
  · have : ∀ w : Word, w.getLsbD n = false := fun w => BitVec.getLsbD_of_ge w n (by omega)
    simp [this, hn]; omega

/-- C54: merging loses a low areal outlier that only the second file reports, and reports a marine cell instead. -/
theorem c54_areal_lost : ∃ f1 f2 : Field Unit, (f2 ()).getLsbD 7 = true ∧ (merged f1 f2 ()).getLsbD 7 = false ∧
    (merged f1 f2 ()).getLsbD 12 = true ∧ (f1 ()).getLsbD 12 = false ∧ (f2 ()).getLsbD 12 = false :=
  ⟨fun _ => NULL, fun _ => AREAL_LOW, by decide⟩

/-! ### C58: flag meanings -/

/-- C58: positions in `FLAG_MEANINGS` name the bit of the same index exactly for the first eleven flags. -/
theorem c58_first_partial (k : Nat) (hk : k < 11) :
    ∃ name, FLAG_MEANINGS[k]? = some name ∧ definedFlags[k]? = some (bit k, name) ∧ flagMasks[k]? = some (bit k) := by
  have : k = 0 ∨ k = 1 ∨ k = 2 ∨ k = 3 ∨ k = 4 ∨ k = 5 ∨ k = 6 ∨ k = 7 ∨ k = 8 ∨ k = 9 ∨ k = 10 := by omega
  rcases this with h | h | h | h | h | h | h | h | h | h | h <;> subst h <;> exact ⟨_, rfl, rfl, rfl⟩

/-- C58: the meaning at position 11 belongs to bit 12, and each later one is one bit off too, so a reader that pairs masks and
meanings by position takes a persistent outlier for a marine cell and a marine cell for a low location outlier. -/
theorem c58_later_violated :
    (∀ k, 11 ≤ k → k < 15 → ∃ name, FLAG_MEANINGS[k]? = some name ∧ (bit (k + 1), name) ∈ definedFlags ∧ (bit k, name) ∉ definedFlags) ∧
    flagMasks[11]? = some PERSISTANT_OUTLIER ∧ FLAG_MEANINGS[11]? = some "marine_location_flag" ∧
    flagMasks[12]? = some MISSING_MARINE ∧ FLAG_MEANINGS[12]? = some "location_low_value_qc" ∧
    flagMasks.length = 13 ∧ FLAG_MEANINGS.length = 15 := by
  refine ⟨?_, by decide, by decide, by decide, by decide, by decide, by decide⟩
  intro k h1 h2
  have : k = 11 ∨ k = 12 ∨ k = 13 ∨ k = 14 := by omega
  rcases this with h | h | h | h <;> subst h <;> exact ⟨_, rfl, by decide, by decide⟩

/-! ### Counting loops -/

/-- A date is constrained at a cell when its file can be read and some flag of the target is clear there. -/
def ConstrainedOn (files : Files Cell) (target : Word) (c : Cell) (d : Date) : Prop :=
  ∃ values, files d = some values ∧ ∃ n, target.getLsbD n = true ∧ (values c).getLsbD n = false

theorem isConstrained_iff (target : Word) (values : Field Cell) (c : Cell) :
    isConstrained target values c = true ↔ ∃ n, target.getLsbD n = true ∧ (values c).getLsbD n = false := by
  unfold isConstrained
  rw [Bool.not_eq_true', ← Bool.not_eq_true, has_iff]
  constructor
  · intro h
    rcases Classical.em (∃ n, target.getLsbD n = true ∧ (values c).getLsbD n = false) with h' | h'
    · exact h'
    · exact absurd (fun n hn => by
        cases hv : (values c).getLsbD n
        · exact absurd ⟨n, hn, hv⟩ h'
        · rfl) h
  · rintro ⟨n, h1, h2⟩ h
    rw [h n h1] at h2; cases h2

theorem constrainedOn_none {files : Files Cell} {target : Word} {c : Cell} {d : Date} (h : files d = none) :
    ¬ ConstrainedOn files target c d := by rintro ⟨v, hv, _⟩; rw [h] at hv; cases hv

theorem constrainedOn_some {files : Files Cell} {target : Word} {c : Cell} {d : Date} {values : Field Cell}
    (h : files d = some values) : ConstrainedOn files target c d ↔ isConstrained target values c = true := by
  rw [isConstrained_iff]
  unfold ConstrainedOn
  constructor
  · rintro ⟨v, hv, hx⟩; rw [h] at hv; cases hv; exact hx
  · intro hx; exact ⟨values, h, hx⟩

/-- The number of members of a list with a property. -/
noncomputable def howMany {α : Type} (l : List α) (P : α → Prop) : Nat := by
  classical exact l.countP fun a => decide (P a)

theorem howMany_nil {α : Type} (P : α → Prop) : howMany [] P = 0 := by unfold howMany; simp

theorem howMany_cons_pos {α : Type} {a : α} {l : List α} {P : α → Prop} (h : P a) : howMany (a :: l) P = howMany l P + 1 := by
  unfold howMany; rw [List.countP_cons]; simp [h]

theorem howMany_cons_neg {α : Type} {a : α} {l : List α} {P : α → Prop} (h : ¬ P a) : howMany (a :: l) P = howMany l P := by
  unfold howMany; rw [List.countP_cons]; simp [h]

theorem howMany_map {α β : Type} (f : α → β) (l : List α) (P : β → Prop) : howMany (l.map f) P = howMany l fun a => P (f a) := by
  unfold howMany; rw [List.countP_map]; rfl

theorem howMany_congr {α : Type} {l : List α} {P Q : α → Prop} (h : ∀ a ∈ l, P a ↔ Q a) : howMany l P = howMany l Q := by
  unfold howMany; exact List.countP_congr fun a ha => by simp [h a ha]

theorem below_iff {count : Option (Cell → Nat)} {threshold : Nat} (h : 0 < threshold) (c : Cell) :
    below count threshold c = true ↔ zeroed count c < threshold := by
  unfold below zeroed
  cases count with
  | none => simp [h]
  | some n => simp

theorem bump_eq (count : Cell → Nat) (wh : Cell → Bool) (c : Cell) : bump count wh c = count c + (if wh c then 1 else 0) := by
  unfold bump; split <;> simp

/-- One step of a counting loop. -/
theorem bump_tally {P : Int → Prop} {k : Int} {l : List Int} {wh : Cell → Bool} {c : Cell} {cond : Prop} [Decidable cond]
    (n : Cell → Nat) (h : P k ↔ cond ∧ wh c = true) :
    zeroed (some (if cond then bump n wh else n)) c + howMany l P = n c + howMany (k :: l) P := by
  unfold zeroed
  simp only [Option.getD_some]
  by_cases hp : P k
  · obtain ⟨h1, h2⟩ := h.1 hp
    rw [howMany_cons_pos hp, if_pos h1, bump_eq, h2]; simp; omega
  · rw [howMany_cons_neg hp]
    by_cases h1 : cond
    · have : wh c = false := by
        cases hw : wh c
        · rfl
        · exact absurd (h.2 ⟨h1, hw⟩) hp
      rw [if_pos h1, bump_eq, this]; simp
    · rw [if_neg h1]

/-- The centre day after the loop of the window check. -/
theorem windowFold_centre (files : Files Cell) (reference : Date) (target : Word) (l : List Int) (s : Counts Cell) :
    (l.foldl (windowStep files reference target) s).centre =
      if 0 ∈ l ∧ (files (addDays reference 0)).isSome then files (addDays reference 0) else s.centre := by
  induction l generalizing s with
  | nil => simp
  | cons k l ih =>
    rw [List.foldl_cons, ih]
    by_cases hk : k = 0
    · subst hk
      cases hf : files (addDays reference 0) with
      | none => simp [windowStep, hf]
      | some values => simp [windowStep, hf]
    · have hs : (windowStep files reference target s k).centre = s.centre := by
        unfold windowStep; split
        · rfl
        · simp [hk]
      have : (0 : Int) ∈ k :: l ↔ 0 ∈ l := by simp [Ne.symm hk]
      simp only [this, hs]

/-- The counts after the loop of the window check, from any state. -/
theorem windowFold (files : Files Cell) (reference : Date) (target : Word) (c : Cell) (l : List Int) (s : Counts Cell) :
    zeroed (l.foldl (windowStep files reference target) s).prior c =
      zeroed s.prior c + howMany l (fun k => k < 0 ∧ ConstrainedOn files target c (addDays reference k)) ∧
    zeroed (l.foldl (windowStep files reference target) s).post c =
      zeroed s.post c + howMany l (fun k => 0 < k ∧ ConstrainedOn files target c (addDays reference k)) := by
  induction l generalizing s with
  | nil => simp [howMany_nil]
  | cons k l ih =>
    obtain ⟨h1, h2⟩ := ih (windowStep files reference target s k)
    rw [List.foldl_cons, h1, h2]
    cases hf : files (addDays reference k) with
    | none =>
      have hs : windowStep files reference target s k = s := by unfold windowStep; rw [hf]
      have hn := constrainedOn_none (target := target) (c := c) hf
      rw [hs, howMany_cons_neg (fun h => hn h.2), howMany_cons_neg (fun h => hn h.2)]
      exact ⟨rfl, rfl⟩
    | some values =>
      have hc := constrainedOn_some (target := target) (c := c) hf
      by_cases hk : k = 0
      · have hs : windowStep files reference target s k = { s with centre := some values } := by
          unfold windowStep; rw [hf]; simp [hk]
        rw [hs, howMany_cons_neg (fun h => by omega), howMany_cons_neg (fun h => by omega)]
        exact ⟨rfl, rfl⟩
      · have hs : windowStep files reference target s k = { s with
            prior := some (if k < 0 then bump (zeroed s.prior) (isConstrained target values) else zeroed s.prior)
            post := some (if 0 < k then bump (zeroed s.post) (isConstrained target values) else zeroed s.post) } := by
          unfold windowStep; rw [hf]; simp [hk]
        rw [hs]
        refine ⟨?_, ?_⟩
        · exact bump_tally (P := fun k => k < 0 ∧ ConstrainedOn files target c (addDays reference k)) _ (and_congr Iff.rfl hc)
        · exact bump_tally (P := fun k => 0 < k ∧ ConstrainedOn files target c (addDays reference k)) _ (and_congr Iff.rfl hc)

theorem mem_rangeInt {a b k : Int} : k ∈ rangeInt a b ↔ a ≤ k ∧ k < b := by
  unfold rangeInt
  rw [List.mem_map]
  constructor
  · rintro ⟨i, hi, rfl⟩
    rw [List.mem_range] at hi; omega
  · intro h
    exact ⟨(k - a).toNat, by rw [List.mem_range]; omega, by omega⟩

/-- The window of shifts, seen as day numbers. -/
theorem howMany_window {reference : Date} {w : Nat} (hw : w ≤ reference.number) (P : Int → Prop) (Q : Nat → Prop)
    (h : ∀ k : Int, -w ≤ k → k ≤ w → (P k ↔ Q ((reference.number : Int) + k).toNat)) :
    howMany (rangeInt (-w) (w + 1)) P = howMany (List.range' (reference.number - w) (2 * w + 1)) Q := by
  have : List.range' (reference.number - w) (2 * w + 1) = (rangeInt (-w) (w + 1)).map fun k => ((reference.number : Int) + k).toNat := by
    unfold rangeInt
    rw [List.map_map, List.range'_eq_map_range]
    have : ((w : Int) + 1 - -w).toNat = 2 * w + 1 := by omega
    rw [this]
    refine List.map_congr_left fun i _ => ?_
    simp only [Function.comp]; omega
  rw [this, howMany_map]
  exact howMany_congr fun k hk => by
    rw [mem_rangeInt] at hk
    exact h k hk.1 (by omega)

/-- The number of days with day numbers in a range that are constrained at a cell. -/
noncomputable def constrainedDays (files : Files Cell) (target : Word) (c : Cell) (first count : Nat) : Nat :=
  howMany (List.range' first count) fun D => ConstrainedOn files target c (Date.ofNumber D)

theorem howMany_append {α : Type} (l l' : List α) (P : α → Prop) : howMany (l ++ l') P = howMany l P + howMany l' P := by
  unfold howMany; exact List.countP_append

theorem howMany_zero {α : Type} {l : List α} {P : α → Prop} (h : ∀ a ∈ l, ¬ P a) : howMany l P = 0 := by
  unfold howMany; rw [List.countP_eq_zero]; simpa using h

theorem prior_days (files : Files Cell) (target : Word) (c : Cell) {N w : Nat} (hw : w ≤ N) :
    howMany (List.range' (N - w) (2 * w + 1)) (fun D => D < N ∧ ConstrainedOn files target c (Date.ofNumber D)) =
      constrainedDays files target c (N - w) w := by
  have : 2 * w + 1 = w + (w + 1) := by omega
  rw [this, ← List.range'_append_1, howMany_append]
  rw [howMany_zero (l := List.range' (N - w + w) (w + 1)) (fun a ha => by rw [List.mem_range'_1] at ha; omega)]
  exact howMany_congr fun a ha => by rw [List.mem_range'_1] at ha; simp; omega

theorem post_days (files : Files Cell) (target : Word) (c : Cell) {N w : Nat} (hw : w ≤ N) :
    howMany (List.range' (N - w) (2 * w + 1)) (fun D => N < D ∧ ConstrainedOn files target c (Date.ofNumber D)) =
      constrainedDays files target c (N + 1) w := by
  have : 2 * w + 1 = (w + 1) + w := by omega
  rw [this, ← List.range'_append_1, howMany_append]
  rw [howMany_zero (l := List.range' (N - w) (w + 1)) (fun a ha => by rw [List.mem_range'_1] at ha; omega)]
  have : N - w + (w + 1) = N + 1 := by omega
  rw [this, Nat.zero_add]
  exact howMany_congr fun a ha => by rw [List.mem_range'_1] at ha; simp; omega

theorem addDays_zero {d : Date} (hd : d.Valid) : addDays d 0 = d := by
  unfold addDays; simp only [Int.add_zero, Int.toNat_natCast]; exact ofNumber_number hd

/-! ### C51: window check -/

/-- C51: the window check keeps every flag of the day and adds the prior (later) window flag exactly where fewer than the
threshold of the preceding (following) days of the window are constrained; days without a file do not count. -/
theorem c51_window (files : Files Cell) {reference : Date} (hr : reference.Valid) {w : Nat} (hw : w ≤ reference.number)
    {threshold : Nat} (ht : 0 < threshold) (target : Word) {centre : Field Cell} (hc : files reference = some centre) :
    ∃ out, windowCheck files reference w threshold target = .ok out ∧ ∀ c n,
      ((out c).getLsbD n = true ↔ (centre c).getLsbD n = true ∨
        (n = 1 ∧ constrainedDays files target c (reference.number - w) w < threshold) ∨
        (n = 2 ∧ constrainedDays files target c (reference.number + 1) w < threshold)) := by
  have h0 : (0 : Int) ∈ rangeInt (-(w : Int)) (w + 1) := by rw [mem_rangeInt]; omega
  have hz := addDays_zero hr
  unfold windowCheck
  simp only
  have hcentre := windowFold_centre files reference target (rangeInt (-(w : Int)) (w + 1)) Counts.init
  rw [if_pos ⟨h0, by rw [hz, hc]; rfl⟩, hz, hc] at hcentre
  rw [hcentre]
  refine ⟨_, rfl, fun c n => ?_⟩
  obtain ⟨h1, h2⟩ := windowFold files reference target c (rangeInt (-(w : Int)) (w + 1)) Counts.init
  rw [show POST_WINDOW = bit 2 from rfl, show PRIOR_WINDOW = bit 1 from rfl, setFlag_bit 2 (by omega), setFlag_bit 1 (by omega),
    below_iff ht, below_iff ht, h1, h2]
  have e0 : zeroed (Counts.init (Cell := Cell)).prior c = 0 := rfl
  have e1 : zeroed (Counts.init (Cell := Cell)).post c = 0 := rfl
  rw [e0, e1, Nat.zero_add, Nat.zero_add]
  rw [howMany_window hw _ (fun D => D < reference.number ∧ ConstrainedOn files target c (Date.ofNumber D))
    (fun k hk1 hk2 => and_congr (by omega) (by unfold addDays; exact Iff.rfl)), prior_days _ _ _ hw]
  rw [howMany_window hw _ (fun D => reference.number < D ∧ ConstrainedOn files target c (Date.ofNumber D))
    (fun k hk1 hk2 => and_congr (by omega) (by unfold addDays; exact Iff.rfl)), post_days _ _ _ hw]
  rw [or_assoc]

/-- C51: a day whose own file cannot be read raises an error. -/
theorem c51_missing_centre (files : Files Cell) {reference : Date} (hr : reference.Valid) (w threshold : Nat) (target : Word)
    (hc : files reference = none) : windowCheck files reference w threshold target = .error .nameError := by
  have hcentre := windowFold_centre files reference target (rangeInt (-(w : Int)) (w + 1)) Counts.init
  rw [if_neg (by rw [addDays_zero hr, hc]; simp)] at hcentre
  unfold windowCheck
  simp only
  rw [hcentre]; rfl

/-- C51: with a threshold of zero the flags should never be set, but both are set everywhere when no other day can be read. -/
theorem c51_zero_threshold_violated :
    (windowCheck (Cell := Unit) (fun d => if d = ⟨3, 3, 1⟩ then some fun _ => NULL else none) ⟨3, 3, 1⟩ 2 0 DAY).map
      (fun out => out ()) = .ok (PRIOR_WINDOW ||| POST_WINDOW) := by rfl

/-- Two flagged days around an unflagged one: the flags of the centre day with threshold 1 and with threshold 2, when the
day before is observed and the day after is not. -/
example :
    let files : Files Unit := fun d => if d = ⟨3, 3, 2⟩ then some fun _ => DAY else if d = ⟨3, 3, 1⟩ then some fun _ => NULL else
      if d = ⟨3, 2, 28⟩ then some fun _ => LARGE_SCALE_UNC else none
    (windowCheck files ⟨3, 3, 1⟩ 1 1 DAY).map (fun out => out ()) = .ok POST_WINDOW ∧
    (windowCheck files ⟨3, 3, 1⟩ 1 2 DAY).map (fun out => out ()) = .ok (PRIOR_WINDOW ||| POST_WINDOW) ∧
    (⟨3, 3, 1⟩ : Date).Valid ∧ 1 ≤ (⟨3, 3, 1⟩ : Date).number := ⟨rfl, rfl, by decide, by decide⟩

/-! ### C52: calendar check -/

/-- The same calendar day in another year; 29 February becomes 28 February in a common year. -/
def sameDay (d : Date) (year : Nat) : Date := ⟨year, d.month, min d.day (daysInMonth year d.month)⟩

theorem addYears_sameDay (d : Date) {k : Int} (h : 0 ≤ (d.year : Int) + k) :
    addYears d k = sameDay d ((d.year : Int) + k).toNat := by
  unfold addYears sameDay; rw [Nat.min_comm]

theorem sameDay_self {d : Date} (hd : d.Valid) : sameDay d d.year = d := by
  obtain ⟨_, _, _, h⟩ := hd
  unfold sameDay; rw [Nat.min_eq_left h]

theorem calendarFold_centre (files : Files Cell) (reference : Date) (target : Word) (l : List Int) (s : Counts Cell)
    (hl : ∀ k ∈ l, 0 ≤ (reference.year : Int) + k) :
    (l.foldl (calendarStep files reference target) s).centre =
      if 0 ∈ l ∧ (files (addYears reference 0)).isSome then files (addYears reference 0) else s.centre := by
  induction l generalizing s with
  | nil => simp
  | cons k l ih =>
    rw [List.foldl_cons, ih _ (fun k hk => hl k (List.mem_cons_of_mem _ hk))]
    by_cases hk : k = 0
    · subst hk
      cases hf : files (addYears reference 0) with
      | none => simp [calendarStep, hf]
      | some values =>
        have hy : (addYears reference 0).year = reference.year := by unfold addYears; simp
        simp [calendarStep, hf, hy]
    · have h0 := hl k List.mem_cons_self
      have hy : (addYears reference k).year ≠ reference.year := by unfold addYears; simp only; omega
      have hs : (calendarStep files reference target s k).centre = s.centre := by
        unfold calendarStep
        cases hf : files (addYears reference k) with
        | none => simp only [hf]
        | some v => simp only [hf, if_neg hy]
      have : (0 : Int) ∈ k :: l ↔ 0 ∈ l := by simp [Ne.symm hk]
      simp only [this, hs]

theorem calendarFold (files : Files Cell) (reference : Date) (target : Word) (c : Cell) (l : List Int) (s : Counts Cell) :
    zeroed (l.foldl (calendarStep files reference target) s).prior c = zeroed s.prior c +
      howMany l (fun k => (addYears reference k).year < reference.year ∧ ConstrainedOn files target c (addYears reference k)) ∧
    zeroed (l.foldl (calendarStep files reference target) s).post c = zeroed s.post c +
      howMany l (fun k => reference.year < (addYears reference k).year ∧ ConstrainedOn files target c (addYears reference k)) ∧
    zeroed (l.foldl (calendarStep files reference target) s).total c = zeroed s.total c +
      howMany l (fun k => ConstrainedOn files target c (addYears reference k)) := by
  induction l generalizing s with
  | nil => simp [howMany_nil]
  | cons k l ih =>
    obtain ⟨h1, h2, h3⟩ := ih (calendarStep files reference target s k)
    rw [List.foldl_cons, h1, h2, h3]
    cases hf : files (addYears reference k) with
    | none =>
      have hs : calendarStep files reference target s k = s := by unfold calendarStep; simp only [hf]
      have hn := constrainedOn_none (target := target) (c := c) hf
      rw [hs, howMany_cons_neg (fun h => hn h.2), howMany_cons_neg (fun h => hn h.2), 
        howMany_cons_neg (P := fun k => ConstrainedOn files target c (addYears reference k)) hn]
      exact ⟨rfl, rfl, rfl⟩
    | some values =>
      have hc := constrainedOn_some (target := target) (c := c) hf
      have ht : ∀ n : Cell → Nat, zeroed (some (bump n (isConstrained target values))) c +
          howMany l (fun k => ConstrainedOn files target c (addYears reference k)) =
          n c + howMany (k :: l) (fun k => ConstrainedOn files target c (addYears reference k)) := fun n => by
        have := bump_tally (P := fun k => ConstrainedOn files target c (addYears reference k)) (k := k) (l := l) (c := c)
          (wh := isConstrained target values) (cond := True) n (by simpa using hc)
        simpa using this
      by_cases hk : (addYears reference k).year = reference.year
      · have hs : calendarStep files reference target s k =
            { s with total := some (bump (zeroed s.total) (isConstrained target values)), centre := some values } := by
          unfold calendarStep; simp only [hf, if_pos hk]
        rw [hs, howMany_cons_neg (fun h => by omega), howMany_cons_neg (fun h => by omega)]
        exact ⟨rfl, rfl, ht _⟩
      · have hs : calendarStep files reference target s k = { s with
            total := some (bump (zeroed s.total) (isConstrained target values))
            prior := some (if (addYears reference k).year < reference.year
              then bump (zeroed s.prior) (isConstrained target values) else zeroed s.prior)
            post := some (if reference.year < (addYears reference k).year
              then bump (zeroed s.post) (isConstrained target values) else zeroed s.post) } := by
          unfold calendarStep; simp only [hf, if_neg hk]
        rw [hs]
        refine ⟨?_, ?_, ht _⟩
        · exact bump_tally (P := fun k => (addYears reference k).year < reference.year ∧
            ConstrainedOn files target c (addYears reference k)) _ (and_congr Iff.rfl hc)
        · exact bump_tally (P := fun k => reference.year < (addYears reference k).year ∧
            ConstrainedOn files target c (addYears reference k)) _ (and_congr Iff.rfl hc)

/-- The number of years in a range in which a calendar day is constrained at a cell. -/
noncomputable def constrainedYears (files : Files Cell) (target : Word) (c : Cell) (d : Date) (first count : Nat) : Nat :=
  howMany (List.range' first count) fun y => ConstrainedOn files target c (sameDay d y)

theorem howMany_years (reference : Date) {a b : Nat} (hab : a ≤ b) (P : Int → Prop) (Q : Nat → Prop)
    (h : ∀ y : Nat, a ≤ y → y ≤ b → (P ((y : Int) - reference.year) ↔ Q y)) :
    howMany (rangeInt ((a : Int) - reference.year) ((b : Int) - reference.year + 1)) P = howMany (List.range' a (b + 1 - a)) Q := by
  have : rangeInt ((a : Int) - reference.year) ((b : Int) - reference.year + 1) =
      (List.range' a (b + 1 - a)).map fun y : Nat => (y : Int) - reference.year := by
    unfold rangeInt
    rw [List.range'_eq_map_range, List.map_map]
    have : ((b : Int) - reference.year + 1 - ((a : Int) - reference.year)).toNat = b + 1 - a := by omega
    rw [this]
    refine List.map_congr_left fun i _ => ?_
    simp only [Function.comp]; omega
  rw [this, howMany_map]
  exact howMany_congr fun y hy => by
    rw [List.mem_range'_1] at hy
    exact h y hy.1 (by omega)

/-- C52: the calendar check keeps every flag of the day; it adds the prior (later) calendar flag exactly where no earlier
(later) year of the period constrains the calendar day, and the missing flag exactly where fewer than three years of the
period, its own included, do. Years without a file do not count. -/
theorem c52_calendar (files : Files Cell) {reference : Date} (hr : reference.Valid) {startYear endYear : Nat}
    (hs : startYear ≤ reference.year) (he : reference.year ≤ endYear) (target : Word) {centre : Field Cell}
    (hc : files reference = some centre) :
    ∃ out, calendarCheck files reference startYear endYear target = .ok out ∧ ∀ c n,
      ((out c).getLsbD n = true ↔ (centre c).getLsbD n = true ∨
        (n = 3 ∧ constrainedYears files target c reference startYear (reference.year - startYear) = 0) ∨
        (n = 4 ∧ constrainedYears files target c reference (reference.year + 1) (endYear - reference.year) = 0) ∨
        (n = 15 ∧ constrainedYears files target c reference startYear (endYear + 1 - startYear) < 3)) := by
  have h0 : (0 : Int) ∈ rangeInt ((startYear : Int) - reference.year) ((endYear : Int) - reference.year + 1) := by
    rw [mem_rangeInt]; omega
  have hz : addYears reference 0 = reference := by
    rw [addYears_sameDay _ (by omega)]; simpa using sameDay_self hr
  have hcentre := calendarFold_centre files reference target
    (rangeInt ((startYear : Int) - reference.year) ((endYear : Int) - reference.year + 1)) Counts.init
    (fun k hk => by rw [mem_rangeInt] at hk; omega)
  rw [if_pos ⟨h0, by rw [hz, hc]; rfl⟩, hz, hc] at hcentre
  unfold calendarCheck
  simp only
  rw [hcentre]
  refine ⟨_, rfl, fun c n => ?_⟩
  obtain ⟨h1, h2, h3⟩ := calendarFold files reference target c
    (rangeInt ((startYear : Int) - reference.year) ((endYear : Int) - reference.year + 1)) Counts.init
  rw [show MISSING_FLAG = bit 15 from rfl, show POST_CALENDAR = bit 4 from rfl, show PRIOR_CALENDAR = bit 3 from rfl,
    setFlag_bit 15 (by omega), setFlag_bit 4 (by omega), setFlag_bit 3 (by omega), below_iff (by decide), below_iff (by decide),
    below_iff (by decide), h1, h2, h3]
  have e0 : zeroed (Counts.init (Cell := Cell)).prior c = 0 := rfl
  have e1 : zeroed (Counts.init (Cell := Cell)).post c = 0 := rfl
  have e2 : zeroed (Counts.init (Cell := Cell)).total c = 0 := rfl
  rw [e0, e1, e2, Nat.zero_add, Nat.zero_add, Nat.zero_add]
  have hyear : ∀ y : Nat, addYears reference ((y : Int) - reference.year) = sameDay reference y := by
    intro y
    rw [addYears_sameDay _ (by omega)]
    congr 1; omega
  rw [howMany_years reference (by omega) _ (fun y => y < reference.year ∧ ConstrainedOn files target c (sameDay reference y))
      (fun y _ _ => by rw [hyear]; exact Iff.rfl),
    howMany_years reference (by omega) _ (fun y => reference.year < y ∧ ConstrainedOn files target c (sameDay reference y))
      (fun y _ _ => by rw [hyear]; exact Iff.rfl),
    howMany_years reference (by omega) _ (fun y => ConstrainedOn files target c (sameDay reference y))
      (fun y _ _ => by rw [hyear])]
  have hp : howMany (List.range' startYear (endYear + 1 - startYear))
      (fun y => y < reference.year ∧ ConstrainedOn files target c (sameDay reference y)) =
      constrainedYears files target c reference startYear (reference.year - startYear) := by
    have : endYear + 1 - startYear = (reference.year - startYear) + (endYear + 1 - reference.year) := by omega
    rw [this, ← List.range'_append_1, howMany_append,
      howMany_zero (l := List.range' (startYear + (reference.year - startYear)) _)
        (fun a ha => by rw [List.mem_range'_1] at ha; omega)]
    exact howMany_congr fun a ha => by rw [List.mem_range'_1] at ha; simp; omega
  have hq : howMany (List.range' startYear (endYear + 1 - startYear))
      (fun y => reference.year < y ∧ ConstrainedOn files target c (sameDay reference y)) =
      constrainedYears files target c reference (reference.year + 1) (endYear - reference.year) := by
    have : endYear + 1 - startYear = (reference.year + 1 - startYear) + (endYear - reference.year) := by omega
    rw [this, ← List.range'_append_1, howMany_append,
      howMany_zero (l := List.range' startYear _) (fun a ha => by rw [List.mem_range'_1] at ha; omega), Nat.zero_add]
    have : startYear + (reference.year + 1 - startYear) = reference.year + 1 := by omega
    rw [this]
    exact howMany_congr fun a ha => by rw [List.mem_range'_1] at ha; simp; omega
  rw [hp, hq]
  unfold constrainedYears COUNT_THRESHOLD TOTAL_COUNT_THRESHOLD
  simp only [Nat.lt_one_iff, or_assoc]

/-- C52: a day outside the period, or whose own file cannot be read, raises an error. -/
theorem c52_missing_centre (files : Files Cell) {reference : Date} (hr : reference.Valid) (startYear endYear : Nat) (target : Word)
    (hc : files reference = none ∨ reference.year < startYear ∨ endYear < reference.year) :
    calendarCheck files reference startYear endYear target = .error .nameError := by
  have hz : addYears reference 0 = reference := by
    rw [addYears_sameDay _ (by omega)]; simpa using sameDay_self hr
  have hcentre := calendarFold_centre files reference target
    (rangeInt ((startYear : Int) - reference.year) ((endYear : Int) - reference.year + 1)) Counts.init
    (fun k hk => by rw [mem_rangeInt] at hk; omega)
  rw [if_neg (by
    rw [hz, mem_rangeInt]
    rintro ⟨h1, h2⟩
    rcases hc with h | h | h
    · rw [h] at h2; cases h2
    · omega
    · omega)] at hcentre
  unfold calendarCheck
  simp only
  rw [hcentre]; rfl

/-- 29 February of year 4, observed on 28 February of years 3 and 5: three years constrain it, so no flag is added; without year
5 the later flag and the missing flag are. -/
example :
    let files : List Date → Files Unit := fun l d => if d ∈ l then some fun _ => DAY else none
    (calendarCheck (files [⟨3, 2, 28⟩, ⟨4, 2, 29⟩, ⟨5, 2, 28⟩]) ⟨4, 2, 29⟩ 1 6 CALENDAR_DAY).map (fun out => out ()) = .ok DAY ∧
    (calendarCheck (files [⟨3, 2, 28⟩, ⟨4, 2, 29⟩]) ⟨4, 2, 29⟩ 1 6 CALENDAR_DAY).map (fun out => out ()) =
      .ok (DAY ||| POST_CALENDAR ||| MISSING_FLAG) ∧ (⟨4, 2, 29⟩ : Date).Valid := ⟨rfl, rfl, by decide⟩

/-! ### C53: persistent outliers -/

/-- A date is flagged as an outlier at a cell when its file can be read and one of the four outlier flags (bits 7-10) is set. -/
def OutlierOn (files : Files Cell) (c : Cell) (d : Date) : Prop :=
  ∃ values, files d = some values ∧ ∃ n, 7 ≤ n ∧ n ≤ 10 ∧ (values c).getLsbD n = true

theorem flaggedOutlier_iff (values : Field Cell) (c : Cell) :
    flaggedOutlier values c = true ↔ ∃ n, 7 ≤ n ∧ n ≤ 10 ∧ (values c).getLsbD n = true := by
  unfold flaggedOutlier OUTLIER_FLAGS AREAL_LOW AREAL_HIGH EXTREME_LOW EXTREME_HIGH
  simp only [List.any_cons, List.any_nil, Bool.or_false, Bool.or_eq_true]
  rw [has_bit _ (by omega), has_bit _ (by omega), has_bit _ (by omega), has_bit _ (by omega)]
  constructor
  · rintro (h | h | h | h)
    · exact ⟨7, by omega, by omega, h⟩
    · exact ⟨8, by omega, by omega, h⟩
    · exact ⟨9, by omega, by omega, h⟩
    · exact ⟨10, by omega, by omega, h⟩
  · rintro ⟨n, h1, h2, h⟩
    have : n = 7 ∨ n = 8 ∨ n = 9 ∨ n = 10 := by omega
    rcases this with e | e | e | e <;> subst e <;> simp only [h, true_or, or_true]

theorem outlierFold_centre (files : Files Cell) (reference : Date) (l : List Int) (s : Counts Cell) :
    (l.foldl (outlierStep files reference) s).centre =
      if 0 ∈ l ∧ (files (addDays reference 0)).isSome then files (addDays reference 0) else s.centre := by
  induction l generalizing s with
  | nil => simp
  | cons k l ih =>
    rw [List.foldl_cons, ih]
    by_cases hk : k = 0
    · subst hk
      cases hf : files (addDays reference 0) with
      | none => simp [outlierStep, hf]
      | some values => simp [outlierStep, hf]
    · have hs : (outlierStep files reference s k).centre = s.centre := by
        unfold outlierStep; split
        · rfl
        · simp [hk]
      have : (0 : Int) ∈ k :: l ↔ 0 ∈ l := by simp [Ne.symm hk]
      simp only [this, hs]

theorem outlierFold (files : Files Cell) (reference : Date) (c : Cell) (l : List Int) (s : Counts Cell) :
    zeroed (l.foldl (outlierStep files reference) s).total c =
      zeroed s.total c + howMany l (fun k => OutlierOn files c (addDays reference k)) ∧
    ((s.total.isSome ∨ ∃ k ∈ l, (files (addDays reference k)).isSome) →
      (l.foldl (outlierStep files reference) s).total.isSome) := by
  induction l generalizing s with
  | nil => simp [howMany_nil]
  | cons k l ih =>
    obtain ⟨h1, h2⟩ := ih (outlierStep files reference s k)
    rw [List.foldl_cons, h1]
    cases hf : files (addDays reference k) with
    | none =>
      have hs : outlierStep files reference s k = s := by unfold outlierStep; rw [hf]
      rw [hs] at h2 ⊢
      rw [howMany_cons_neg (by rintro ⟨v, hv, _⟩; rw [hf] at hv; cases hv)]
      refine ⟨rfl, fun h => h2 ?_⟩
      rcases h with h | ⟨k', hk', h⟩
      · exact Or.inl h
      · rcases List.mem_cons.1 hk' with e | e
        · subst e; rw [hf] at h; cases h
        · exact Or.inr ⟨k', e, h⟩
    | some values =>
      have hs : (outlierStep files reference s k).total = some (bump (zeroed s.total) (flaggedOutlier values)) := by
        unfold outlierStep; rw [hf]; simp only; split <;> rfl
      rw [hs] at h2 ⊢
      refine ⟨?_, fun _ => h2 (Or.inl rfl)⟩
      have := bump_tally (P := fun k => OutlierOn files c (addDays reference k)) (k := k) (l := l) (c := c)
          (wh := flaggedOutlier values) (cond := True) (zeroed s.total) (by
        simp only [true_and]
        rw [flaggedOutlier_iff]
        unfold OutlierOn
        constructor
        · rintro ⟨v, hv, hx⟩; rw [hf] at hv; cases hv; exact hx
        · intro hx; exact ⟨values, hf, hx⟩)
      simpa using this

/-- C53: the persistent outlier flag is added exactly where at least the threshold of the days of the window, the day itself
included, carry an outlier flag; every other flag is kept. -/
theorem c53_outliers (files : Files Cell) {reference : Date} (hr : reference.Valid) {w : Nat} (hw : w ≤ reference.number)
    (threshold : Nat) {centre : Field Cell} (hc : files reference = some centre) :
    ∃ out, outlierCheck files reference w threshold = .ok out ∧ ∀ c n,
      ((out c).getLsbD n = true ↔ (centre c).getLsbD n = true ∨
        (n = 11 ∧ threshold ≤ howMany (List.range' (reference.number - w) (2 * w + 1)) fun D => OutlierOn files c (Date.ofNumber D))) := by
  have h0 : (0 : Int) ∈ rangeInt (-(w : Int)) (w + 1) := by rw [mem_rangeInt]; omega
  have hz := addDays_zero hr
  have hcentre := outlierFold_centre files reference (rangeInt (-(w : Int)) (w + 1)) Counts.init
  rw [if_pos ⟨h0, by rw [hz, hc]; rfl⟩, hz, hc] at hcentre
  unfold outlierCheck
  simp only
  rw [hcentre]
  refine ⟨_, rfl, fun c n => ?_⟩
  obtain ⟨h1, h2⟩ := outlierFold files reference c (rangeInt (-(w : Int)) (w + 1)) Counts.init
  have hsome := h2 (Or.inr ⟨0, h0, by rw [hz, hc]; rfl⟩)
  obtain ⟨t, ht⟩ := Option.isSome_iff_exists.1 hsome
  rw [show PERSISTANT_OUTLIER = bit 11 from rfl, setFlag_bit 11 (by omega)]
  rw [ht] at h1 ⊢
  have e0 : zeroed (Counts.init (Cell := Cell)).total c = 0 := rfl
  rw [e0, Nat.zero_add, howMany_window hw _ (fun D => OutlierOn files c (Date.ofNumber D))
    (fun k _ _ => by unfold addDays; exact Iff.rfl)] at h1
  rw [← h1]
  simp [atLeast, zeroed]

/-- C53: a day whose own file cannot be read raises an error. -/
theorem c53_missing_centre (files : Files Cell) {reference : Date} (hr : reference.Valid) (w threshold : Nat)
    (hc : files reference = none) : outlierCheck files reference w threshold = .error .nameError := by
  have hcentre := outlierFold_centre files reference (rangeInt (-(w : Int)) (w + 1)) Counts.init
  rw [if_neg (by rw [addDays_zero hr, hc]; simp)] at hcentre
  unfold outlierCheck
  simp only
  rw [hcentre]; rfl

example :
    let files : Files Unit := fun d => if d = ⟨3, 3, 2⟩ then some fun _ => AREAL_LOW else if d = ⟨3, 3, 1⟩ then
      some fun _ => EXTREME_HIGH else none
    (outlierCheck files ⟨3, 3, 1⟩ 1 2).map (fun out => out ()) = .ok (EXTREME_HIGH ||| PERSISTANT_OUTLIER) ∧
    (outlierCheck files ⟨3, 3, 1⟩ 1 3).map (fun out => out ()) = .ok EXTREME_HIGH := ⟨rfl, rfl⟩

/-! ### C72: running the checks in place -/

/-- Two sets of files that hold files for the same dates, with the same value of every flag for which `m` holds. -/
def Agree (m : Nat → Prop) (files files' : Files Cell) : Prop :=
  ∀ d, (files d = none ↔ files' d = none) ∧
    ∀ v v', files d = some v → files' d = some v' → ∀ c n, m n → (v c).getLsbD n = (v' c).getLsbD n

theorem Agree.refl (m : Nat → Prop) (files : Files Cell) : Agree m files files :=
  fun d => ⟨Iff.rfl, fun v v' h h' c n _ => by rw [h] at h'; cases h'; rfl⟩

/-- A check whose result for a date depends on that date's own flags, and on the flags `m` of the other dates, and which does
not alter the flags `m`, gives the same results in place as from unaltered input. -/
theorem runInPlace_spec (m : Nat → Prop) (V : Date → Prop) (check : Files Cell → Date → Except PyErr (Field Cell))
    (h1 : ∀ files files' d, V d → Agree m files files' → files d = files' d → check files d = check files' d)
    (h2 : ∀ files d v, V d → check files d = .ok v → ∃ v0, files d = some v0 ∧ ∀ c n, m n → (v c).getLsbD n = (v0 c).getLsbD n)
    (files0 : Files Cell) (ds : List Date) (hnd : ds.Nodup) (hV : ∀ d ∈ ds, V d) (files : Files Cell) (ha : Agree m files0 files)
    (hd : ∀ d ∈ ds, files0 d = files d) :
    (∀ files', runInPlace check ds files = .ok files' → ∀ d,
      (d ∈ ds → ∃ v, check files0 d = .ok v ∧ files' d = some v) ∧ (d ∉ ds → files' d = files d)) ∧
    ((∀ d ∈ ds, ∃ v, check files0 d = .ok v) → ∃ files', runInPlace check ds files = .ok files') := by
  induction ds generalizing files with
  | nil =>
    refine ⟨fun files' h d => ?_, fun _ => ⟨files, rfl⟩⟩
    simp only [runInPlace, Except.ok.injEq] at h
    subst h
    exact ⟨fun h => absurd h (by simp), fun _ => rfl⟩
  | cons d0 ds ih =>
    obtain ⟨hn0, hnd⟩ := List.nodup_cons.1 hnd
    have hcheck : check files d0 = check files0 d0 := (h1 files0 files d0 (hV d0 (by simp)) ha (hd d0 (by simp))).symm
    cases hc : check files0 d0 with
    | error e =>
      rw [hc] at hcheck
      refine ⟨fun files' h => ?_, fun h => ?_⟩
      · rw [runInPlace, hcheck] at h; cases h
      · obtain ⟨v, hv⟩ := h d0 (by simp); rw [hc] at hv; cases hv
    | ok v =>
      rw [hc] at hcheck
      have hrun : runInPlace check (d0 :: ds) files =
          runInPlace check ds fun d' => if d' = d0 then some v else files d' := by rw [runInPlace, hcheck]
      obtain ⟨v0, hv0, hkeep⟩ := h2 _ _ _ (hV d0 (by simp)) hcheck
      have ha' : Agree m files0 fun d' => if d' = d0 then some v else files d' := by
        intro d
        by_cases hdd : d = d0
        · subst hdd
          have := hd d (by simp)
          refine ⟨by simp [this, hv0], fun w w' hw hw' c n hm => ?_⟩
          simp only [if_true, Option.some.injEq] at hw'
          rw [this, hv0] at hw
          cases hw
          rw [← hw', hkeep c n hm]
        · simp only [if_neg hdd]; exact ha d
      obtain ⟨i1, i2⟩ := ih hnd (fun d hd => hV d (List.mem_cons_of_mem _ hd)) _ ha' (fun d hdm => by
        have : d ≠ d0 := fun e => hn0 (e ▸ hdm)
        simp only [if_neg this]; exact hd d (List.mem_cons_of_mem _ hdm))
      refine ⟨fun files' h d => ?_, fun h => ?_⟩
      · rw [hrun] at h
        obtain ⟨j1, j2⟩ := i1 files' h d
        refine ⟨fun hm => ?_, fun hm => ?_⟩
        · rcases List.mem_cons.1 hm with e | e
          · subst e
            exact ⟨v, hc, by rw [j2 hn0]; simp⟩
          · exact j1 e
        · rw [j2 (fun h => hm (List.mem_cons_of_mem _ h))]
          have : d ≠ d0 := fun e => hm (by simp [e])
          simp [this]
      · rw [hrun]; exact i2 fun d hm => h d (List.mem_cons_of_mem _ hm)

theorem constrainedOn_agree {m : Nat → Prop} {files files' : Files Cell} (ha : Agree m files files') {target : Word}
    (ht : ∀ n, target.getLsbD n = true → m n) (c : Cell) (d : Date) :
    ConstrainedOn files target c d ↔ ConstrainedOn files' target c d := by
  obtain ⟨hn, hv⟩ := ha d
  unfold ConstrainedOn
  cases h : files d with
  | none => rw [hn.1 h]
  | some v =>
    cases h' : files' d with
    | none => rw [hn.2 h'] at h; cases h
    | some v' =>
      simp only [Option.some.injEq, exists_eq_left']
      exact exists_congr fun n => and_congr_right fun hn => by rw [hv v v' h h' c n (ht n hn)]

theorem field_ext {f g : Field Cell} (h : ∀ c n, (f c).getLsbD n = true ↔ (g c).getLsbD n = true) : f = g :=
  funext fun c => BitVec.eq_of_getLsbD_eq fun n _ => Bool.eq_iff_iff.2 (h c n)

/-- The form in which the three checks meet `runInPlace_spec`. -/
theorem in_place_of (m : Nat → Prop) (V : Date → Prop) (check : Files Cell → Date → Except PyErr (Field Cell)) (e : PyErr)
    (spec : Files Cell → Date → Cell → Nat → Prop) (hm : ∀ files d c n, m n → ¬ spec files d c n)
    (hspec : ∀ files files' d, Agree m files files' → ∀ c n, spec files d c n ↔ spec files' d c n)
    (hnone : ∀ files d, V d → files d = none → check files d = .error e)
    (hsome : ∀ files d v, V d → files d = some v → ∃ out, check files d = .ok out ∧
      ∀ c n, (out c).getLsbD n = true ↔ (v c).getLsbD n = true ∨ spec files d c n)
    {ds : List Date} (hnd : ds.Nodup) (hV : ∀ d ∈ ds, V d) (files : Files Cell) (hf : ∀ d ∈ ds, (files d).isSome) :
    ∃ files', runInPlace check ds files = .ok files' ∧ ∀ d,
      (d ∈ ds → ∃ v, check files d = .ok v ∧ files' d = some v) ∧ (d ∉ ds → files' d = files d) := by
  have h1 : ∀ f f' d, V d → Agree m f f' → f d = f' d → check f d = check f' d := by
    intro f f' d hv ha hd
    cases hfd : f d with
    | none => rw [hnone f d hv hfd, hnone f' d hv (hd ▸ hfd)]
    | some v =>
      obtain ⟨o, ho, hob⟩ := hsome f d v hv hfd
      obtain ⟨o', ho', hob'⟩ := hsome f' d v hv (hd ▸ hfd)
      have : o = o' := field_ext fun c n => by rw [hob, hob', hspec f f' d ha c n]
      rw [ho, ho', this]
  have h2 : ∀ f d v, V d → check f d = .ok v → ∃ v0, f d = some v0 ∧ ∀ c n, m n → (v c).getLsbD n = (v0 c).getLsbD n := by
    intro f d v hv h
    cases hfd : f d with
    | none => rw [hnone f d hv hfd] at h; cases h
    | some v0 =>
      obtain ⟨o, ho, hob⟩ := hsome f d v0 hv hfd
      rw [ho] at h; cases h
      refine ⟨v0, rfl, fun c n hn => Bool.eq_iff_iff.2 ?_⟩
      rw [hob c n]; simp [hm f d c n hn]
  obtain ⟨r1, r2⟩ := runInPlace_spec m V check h1 h2 files ds hnd hV files (Agree.refl _ _) (fun _ _ => rfl)
  obtain ⟨files', hf'⟩ := r2 fun d hd => by
    obtain ⟨v, hv'⟩ := Option.isSome_iff_exists.1 (hf d hd)
    obtain ⟨o, ho, _⟩ := hsome files d v (hV d hd) hv'
    exact ⟨o, ho⟩
  exact ⟨files', hf', r1 files' hf'⟩

/-- C72: the window check may be run with its output directory the same as its input directory, over any set of days and in any
order: every processed day ends with the flags computed from the original files. -/
theorem c72_window_in_place {w threshold : Nat} (ht : 0 < threshold) {ds : List Date} (hnd : ds.Nodup)
    (hv : ∀ d ∈ ds, d.Valid ∧ w ≤ d.number) (files : Files Cell) (hf : ∀ d ∈ ds, (files d).isSome) :
    ∃ files', runInPlace (fun f d => windowCheck f d w threshold DAY) ds files = .ok files' ∧ ∀ d,
      (d ∈ ds → ∃ v, windowCheck files d w threshold DAY = .ok v ∧ files' d = some v) ∧ (d ∉ ds → files' d = files d) := by
  have hday : ∀ n, (DAY).getLsbD n = true → n = 0 := fun n h => by
    rw [show DAY = bit 0 from rfl, bit_getLsbD] at h; simp at h; exact h.2
  refine in_place_of (fun n => n = 0) (fun d => d.Valid ∧ w ≤ d.number) _ .nameError
    (fun f d c n => (n = 1 ∧ constrainedDays f DAY c (d.number - w) w < threshold) ∨
        (n = 2 ∧ constrainedDays f DAY c (d.number + 1) w < threshold)) ?_ ?_ ?_ ?_ hnd hv files hf
  · intro f d c n hn; subst hn; simp
  · intro f f' d ha c n
    have : ∀ a b, constrainedDays f DAY c a b = constrainedDays f' DAY c a b := fun a b =>
      howMany_congr fun D _ => constrainedOn_agree ha hday c _
    rw [this, this]
  · intro f d hv h; exact c51_missing_centre f hv.1 w threshold DAY h
  · intro f d v hv h; exact c51_window f hv.1 hv.2 ht DAY h

/-- C72 for the calendar check. -/
theorem c72_calendar_in_place {startYear endYear : Nat} {ds : List Date} (hnd : ds.Nodup)
    (hv : ∀ d ∈ ds, d.Valid ∧ startYear ≤ d.year ∧ d.year ≤ endYear) (files : Files Cell) (hf : ∀ d ∈ ds, (files d).isSome) :
    ∃ files', runInPlace (fun f d => calendarCheck f d startYear endYear CALENDAR_DAY) ds files = .ok files' ∧ ∀ d,
      (d ∈ ds → ∃ v, calendarCheck files d startYear endYear CALENDAR_DAY = .ok v ∧ files' d = some v) ∧
      (d ∉ ds → files' d = files d) := by
  have hday : ∀ n, (CALENDAR_DAY).getLsbD n = true → n < 3 := fun n h => by
    unfold CALENDAR_DAY DAY PRIOR_WINDOW POST_WINDOW at h
    simp only [BitVec.getLsbD_or, bit_getLsbD, Bool.or_eq_true, Bool.and_eq_true, decide_eq_true_eq] at h
    omega
  refine in_place_of (fun n => n < 3) (fun d => d.Valid ∧ startYear ≤ d.year ∧ d.year ≤ endYear) _ .nameError
    (fun f d c n => (n = 3 ∧ constrainedYears f CALENDAR_DAY c d startYear (d.year - startYear) = 0) ∨
        (n = 4 ∧ constrainedYears f CALENDAR_DAY c d (d.year + 1) (endYear - d.year) = 0) ∨
        (n = 15 ∧ constrainedYears f CALENDAR_DAY c d startYear (endYear + 1 - startYear) < 3)) ?_ ?_ ?_ ?_ hnd hv files hf
  · intro f d c n hn
    rintro (h | h | h) <;> omega
  · intro f f' d ha c n
    have : ∀ a b, constrainedYears f CALENDAR_DAY c d a b = constrainedYears f' CALENDAR_DAY c d a b := fun a b =>
      howMany_congr fun D _ => constrainedOn_agree ha hday c _
    rw [this, this, this]
  · intro f d hv h; exact c52_missing_centre f hv.1 startYear endYear CALENDAR_DAY (Or.inl h)
  · intro f d v hv h; exact c52_calendar f hv.1 hv.2.1 hv.2.2 CALENDAR_DAY h

/-- C72 for the persistent outlier check. -/
theorem c72_outlier_in_place {w threshold : Nat} {ds : List Date} (hnd : ds.Nodup)
    (hv : ∀ d ∈ ds, d.Valid ∧ w ≤ d.number) (files : Files Cell) (hf : ∀ d ∈ ds, (files d).isSome) :
    ∃ files', runInPlace (fun f d => outlierCheck f d w threshold) ds files = .ok files' ∧ ∀ d,
      (d ∈ ds → ∃ v, outlierCheck files d w threshold = .ok v ∧ files' d = some v) ∧ (d ∉ ds → files' d = files d) := by
  refine in_place_of (fun n => n ≤ 10) (fun d => d.Valid ∧ w ≤ d.number) _ .nameError
    (fun f d c n => n = 11 ∧ threshold ≤ howMany (List.range' (d.number - w) (2 * w + 1)) fun D => OutlierOn f c (Date.ofNumber D))
    ?_ ?_ ?_ ?_ hnd hv files hf
  · intro f d c n hn h; omega
  · intro f f' d ha c n
    refine and_congr_right fun _ => ?_
    rw [howMany_congr fun D _ => ?_]
    obtain ⟨hn, hv⟩ := ha (Date.ofNumber D)
    unfold OutlierOn
    cases h : f (Date.ofNumber D) with
    | none => rw [hn.1 h]
    | some v =>
      cases h' : f' (Date.ofNumber D) with
      | none => rw [hn.2 h'] at h; cases h
      | some v' =>
        simp only [Option.some.injEq, exists_eq_left']
        exact exists_congr fun n => and_congr_right fun _ => and_congr_right fun hn => by rw [hv v v' h h' c n hn]
  · intro f d hv h; exact c53_missing_centre f hv.1 w threshold h
  · intro f d v hv h; exact c53_outliers f hv.1 hv.2 threshold h

/-- C72: a check whose target holds a flag it sets itself would not have this property: with the prior window flag in the target,
the second of two days depends on whether the first was processed before it. -/
theorem c72_target_matters :
    let files : Files Unit := fun d =>
      if d = ⟨3, 3, 1⟩ then some fun _ => NULL else if d = ⟨3, 3, 2⟩ then some fun _ => NULL else none
    let check := fun (f : Files Unit) d => windowCheck f d 1 1 PRIOR_WINDOW
    ((check files ⟨3, 3, 2⟩).map fun out => (out ()).getLsbD 1) = .ok false ∧
    (match runInPlace check [⟨3, 3, 1⟩, ⟨3, 3, 2⟩] files with
      | .error _ => none
      | .ok files' => (files' ⟨3, 3, 2⟩).map fun out => (out ()).getLsbD 1) = some true := by
  exact ⟨rfl, rfl⟩

end Verif.Eustace.Flags
