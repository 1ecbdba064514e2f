import Verif.Eustace.Masking.Pipeline
import Verif.Eustace.Insitu.OceanProps

/-! What is published: C139 and C141. -/
namespace Verif.Eustace.Masking
open Verif Verif.Calendar Verif.Eustace.Flags Finset

/-! ### Names of members -/

theorem toList_memberVariable (k : ℕ) : (Spec.memberVariable k).toList = "tasensemble_".toList ++ Nat.toDigits 10 k := by
  unfold Spec.memberVariable
  rw [String.toList_append]
  congr 1
  exact Nat.toList_repr

theorem memberName_eq (k : ℕ) : memberName k = Spec.memberVariable k := by
  rw [← String.ofList_toList (s := Spec.memberVariable k), toList_memberVariable]
  unfold memberName
  exact Eq.refl _

theorem intOf_toDigits (k : ℕ) : Insitu.Ocean.intOf (Nat.toDigits 10 k) = some (k : ℤ) := by
  have hd := Insitu.Ocean.toDigits_digit k
  have hsp : ∀ c ∈ Nat.toDigits 10 k, c.isWhitespace = false := by
    exact fun c hc => Insitu.Ocean.digit_not_space (hd c hc)
  have hstrip := Insitu.Ocean.strip_of 0 0 _ (Nat.toDigits_ne_nil (b := 10) (n := k)) hsp
  simp only [List.replicate_zero, List.nil_append, List.append_nil] at hstrip
  rw [Insitu.Ocean.intOf, hstrip, Insitu.Ocean.signed.eq_def]
  split
  · rename_i ds he
    have := hd '-' (by rw [he]; exact List.mem_cons_self)
    exact absurd this (by decide)
  · rename_i ds he
    have := hd '+' (by rw [he]; exact List.mem_cons_self)
    exact absurd this (by decide)
  · rw [Insitu.Ocean.digitsOf_toDigits]
    rfl

theorem memberIndex_eq (k : ℕ) : memberIndex (Spec.memberVariable k) = some (k : ℤ) := by
  have hd := Insitu.Ocean.toDigits_digit k
  unfold memberIndex
  rw [toList_memberVariable, List.reverse_append, List.takeWhile_append_of_pos]
  · rw [show ("tasensemble_".toList).reverse = '_' :: ("tasensemble".toList).reverse from rfl, List.takeWhile_cons_of_neg (by simp),
      List.append_nil, List.reverse_reverse, intOf_toDigits]
  · intro c hc
    rw [List.mem_reverse] at hc
    have := hd c hc
    simp only [ne_eq, decide_not, Bool.not_eq_true', decide_eq_false_iff_not]
    rintro rfl
    exact absurd this (by decide)

theorem sortedMembers_perm {order l : List ℕ} (hl : l.Pairwise (· ≤ ·)) (h : List.Perm order l) (name : String) (members : ℕ → Grid) :
    sortedMembers (order.map fun k => ⟨name, Spec.memberVariable k, members k⟩) =
      some (l.map fun k => ⟨name, Spec.memberVariable k, members k⟩) := by
  have hi : ∀ l : List ℕ, memberIndices (l.map fun k => ⟨name, Spec.memberVariable k, members k⟩) =
      some (l.map fun k : ℕ => ((k : ℤ), ⟨name, Spec.memberVariable k, members k⟩)) := by
    intro l
    induction l with
    | nil => rfl
    | cons a l ih =>
      rw [List.map_cons, memberIndices, ih, memberIndex_eq]
      rfl
  unfold sortedMembers
  rw [hi, Option.map_some]
  congr 1
  rw [← List.map_insertionSort (r := (· ≤ ·)) (s := fun a b => a.1 ≤ b.1) (f := fun k : ℕ => ((k : ℤ), (⟨name, Spec.memberVariable k, members k⟩ : Cube)))
    order (by intro a _ b _; simp), List.map_map]
  have : order.insertionSort (· ≤ ·) = l :=
    List.Perm.eq_of_pairwise (le := (· ≤ ·)) (fun a b _ _ h h' => le_antisymm h h') (List.pairwise_insertionSort _ _) hl
      ((List.perm_insertionSort _ order).trans h)
  rw [this]
  rfl

theorem sortedMembers_eq {order : List ℕ} {n : ℕ} (h : List.Perm order (List.range n)) (name : String) (members : ℕ → Grid) :
    sortedMembers (order.map fun k => ⟨name, Spec.memberVariable k, members k⟩) =
      some ((List.range n).map fun k => ⟨name, Spec.memberVariable k, members k⟩) :=
  sortedMembers_perm List.pairwise_le_range h name members

/-! ### One day -/

/-- What a field in a file should be. -/
def Shows (mask : ℕ → ℕ → Prop) (o : MaskedField) (e : String × Grid) : Prop :=
  o.name = e.1 ∧ ∀ i j : ℕ, i < 720 → j < 1440 → (mask i j → o.values i j = none) ∧ (¬ mask i j → o.values i j = some (e.2 i j))

theorem shows_masked {mask : Cell → Bool} {m : ℕ → ℕ → Prop} (h : ∀ i j : ℕ, i < 720 → j < 1440 → (mask (i, j) = true ↔ m i j))
    (name : String) (g : Grid) : Shows m ⟨name, maskedWhere mask g⟩ (name, g) := by
  refine ⟨rfl, fun i j hi hj => ⟨fun hm => ?_, fun hm => ?_⟩⟩
  · show (if mask (i, j) then none else some (g i j)) = none
    rw [if_pos ((h i j hi hj).2 hm)]
  · show (if mask (i, j) then none else some (g i j)) = some (g i j)
    rw [if_neg (fun hc => hm ((h i j hi hj).1 hc))]

theorem memberFields_eq (mask : Cell → Bool) (n : ℕ) (c : ℕ → Cube) :
    memberFields mask ((List.range n).map c) = (List.range n).map fun k => ⟨Spec.memberVariable k, maskedWhere mask (c k).data⟩ := by
  unfold memberFields
  rw [List.length_map, List.length_range, List.zipWith_map_right]
  refine List.ext_getElem (by simp) fun i h1 h2 => ?_
  simp [memberName_eq]

theorem applyMask_eq {iteration : ℕ} (hiter : iteration = 4 ∨ iteration = 9) {f : DayFiles} {t : Spec.Day} (hf : Spec.Complete f t)
    {mask : Cell → Bool} {m : ℕ → ℕ → Prop} (h : ∀ i j : ℕ, i < 720 → j < 1440 → (mask (i, j) = true ↔ m i j)) :
    ∃ a c l k, applyMask iteration f mask = ([(.analysis, a), (.climatology, c), (.largeScale, l), (.localScale, k)], none) ∧
      List.Forall₂ (Shows m) a (Spec.expected t .analysis) ∧ List.Forall₂ (Shows m) c (Spec.expected t .climatology) ∧
      List.Forall₂ (Shows m) l (Spec.expected t .largeScale) ∧ List.Forall₂ (Shows m) k (Spec.expected t .localScale) := by
  obtain ⟨cubes, hc, hla⟩ := loadAnalysis_eq hf.analysis
  obtain ⟨cubes', order, hc', hperm, hens⟩ := hf.members
  rw [hc] at hc'
  cases hc'
  unfold applyMask
  rw [hla]
  simp only
  rw [if_pos hiter, hens, sortedMembers_eq hperm]
  simp only
  rw [loadComponent_eq hf.climatology, loadComponent_eq hf.largeScale, loadComponent_eq hf.localScale]
  refine ⟨_, _, _, _, rfl, ?_, ?_, ?_, ?_⟩
  · unfold Spec.expected
    rw [memberFields_eq]
    refine List.rel_append ?_ ?_
    · exact .cons (shows_masked h _ _) (.cons (shows_masked h _ _) (.cons (shows_masked h _ _) .nil))
    · rw [List.forall₂_map_left_iff, List.forall₂_map_right_iff]
      exact List.forall₂_same.2 fun k _ => shows_masked h _ _
  all_goals exact .cons (shows_masked h _ _) (.cons (shows_masked h _ _) (.cons (shows_masked h _ _) .nil))

/-! ### All days -/

theorem maskMonth_eq (step : Date → List (Kind × List MaskedField) × Option PyErr) (l : List Date) (h : ∀ d ∈ l, (step d).2 = none) :
    maskMonth step l = l.flatMap fun d => (step d).1.map fun o => (d, o.1, o.2) := by
  induction l with
  | nil => rfl
  | cons d l ih =>
    unfold maskMonth
    rw [h d (by simp), ih fun d hd => h d (by simp [hd]), List.flatMap_cons]

theorem flatMap_flatten {α β : Type} (l : List (List α)) (g : α → List β) : l.flatten.flatMap g = l.flatMap fun a => a.flatMap g := by
  induction l with
  | nil => rfl
  | cons a l ih => rw [List.flatten_cons, List.flatMap_append, ih, List.flatMap_cons]

theorem flatMap_single {α β : Type} {l : List α} (hn : l.Nodup) {d : α} (hd : d ∈ l) (g : α → List β) (h : ∀ a ∈ l, a ≠ d → g a = []) :
    l.flatMap g = g d := by
  induction l with
  | nil => exact absurd hd (by simp)
  | cons a l ih =>
    rw [List.nodup_cons] at hn
    rw [List.flatMap_cons]
    by_cases ha : a = d
    · subst ha
      have : l.flatMap g = [] := by
        rw [List.flatMap_eq_nil_iff]
        intro b hb
        exact h b (by simp [hb]) (by rintro rfl; exact hn.1 hb)
      rw [this, List.append_nil]
    · rw [h a (by simp) ha, List.nil_append]
      refine ih hn.2 ?_ fun b hb => h b (by simp [hb])
      rw [List.mem_cons] at hd
      exact hd.resolve_left fun h => ha h.symm

theorem jobs_nodup {a b : ℕ} (h : a ≤ b + 1) : (jobs a b).flatten.Nodup := by
  unfold jobs
  rw [← List.flatMap_def, Dates.c55_years h]
  refine List.Nodup.map_on ?_ (List.nodup_range' _ (by omega))
  intro m _ n _ he
  have := congrArg Date.number he
  rwa [(ofNumber_spec m).2, (ofNumber_spec n).2] at this

theorem filter_kind (d : Date) (a c l k : List MaskedField) (kind : Kind) :
    (([(Kind.analysis, a), (.climatology, c), (.largeScale, l), (.localScale, k)].map fun o => (d, o.1, o.2)).filter
      fun e => decide (e.1 = d ∧ e.2.1 = kind)).map (·.2.2) =
      [match kind with | .analysis => a | .climatology => c | .largeScale => l | .localScale => k] := by
  cases kind <;> simp [List.filter_cons]

/-- C139: the masked files of a day have all fields of the files which quality control was given, under the same names and in
order; a value is missing exactly if the rules say so, otherwise it is the value in the analysis. The rules are stated in
`Spec.Masked` in terms of what is in the files of all days, and nothing else is published. -/
theorem c139_published {x : Inputs} {s : Settings} {t : Date → Spec.Day} (hs : Spec.Consistent s)
    (hx : ∀ d, Spec.InYears s.startYear s.endYear d → Spec.Complete (x.files d) (t d)) {iteration : ℕ}
    (hiter : iteration = 4 ∨ iteration = 9) :
    (∀ d, Spec.InYears s.startYear s.endYear d → ∀ kind, ∃ fields,
      ((published x s iteration).filter fun e => decide (e.1 = d ∧ e.2.1 = kind)).map (·.2.2) = [fields] ∧
      List.Forall₂ (fun o e => o.name = e.1 ∧ ∀ i j : ℕ, i < 720 → j < 1440 →
        (Spec.Masked s t x.altitude x.coast d i j → o.values i j = none) ∧
        (¬ Spec.Masked s t x.altitude x.coast d i j → o.values i j = some (e.2 i j))) fields (Spec.expected (t d) kind)) ∧
    (∀ e ∈ published x s iteration, Spec.InYears s.startYear s.endYear e.1) := by
  have hyears : s.startYear ≤ s.endYear + 1 := by have := hs.years; omega
  have hday : ∀ d, Spec.InYears s.startYear s.endYear d → ∃ a c l k,
      maskDay x iteration (mergedFiles x s) (locationFiles x s) d =
        ([(.analysis, a), (.climatology, c), (.largeScale, l), (.localScale, k)], none) ∧
      List.Forall₂ (Shows (Spec.Masked s t x.altitude x.coast d)) a (Spec.expected (t d) .analysis) ∧
      List.Forall₂ (Shows (Spec.Masked s t x.altitude x.coast d)) c (Spec.expected (t d) .climatology) ∧
      List.Forall₂ (Shows (Spec.Masked s t x.altitude x.coast d)) l (Spec.expected (t d) .largeScale) ∧
      List.Forall₂ (Shows (Spec.Masked s t x.altitude x.coast d)) k (Spec.expected (t d) .localScale) := by
    intro d hd
    obtain ⟨v, hv, hb⟩ := (merged_files hs hx d).1 hd
    obtain ⟨w, hw, hc⟩ := (location_files hs hx d).1 hd
    unfold maskDay
    rw [hv, hw]
    exact applyMask_eq hiter (hx d hd) fun i j hi hj => mask_iff hb hc hi hj
  have hpub : published x s iteration = (jobs s.startYear s.endYear).flatten.flatMap fun d =>
      (maskDay x iteration (mergedFiles x s) (locationFiles x s) d).1.map fun o => (d, o.1, o.2) := by
    unfold published
    rw [flatMap_flatten]
    refine List.flatMap_congr fun l hl => maskMonth_eq _ l fun d hd => ?_
    obtain ⟨a, c, l', k, h, _⟩ := hday d ((mem_jobs hyears d).1 (List.mem_flatten.2 ⟨l, hl, hd⟩))
    rw [h]
  rw [hpub]
  constructor
  · intro d hd kind
    obtain ⟨a, c, l, k, h, h1, h2, h3, h4⟩ := hday d hd
    rw [List.filter_flatMap, flatMap_single (jobs_nodup hyears) ((mem_jobs hyears d).2 hd)]
    · rw [h, filter_kind]
      refine ⟨_, rfl, ?_⟩
      cases kind
      · exact h1
      · exact h2
      · exact h3
      · exact h4
    · intro b _ hb
      rw [List.filter_eq_nil_iff]
      intro e he
      rw [List.mem_map] at he
      obtain ⟨o, _, rfl⟩ := he
      simp [hb]
  · intro e he
    rw [List.mem_flatMap] at he
    obtain ⟨d, hd, he⟩ := he
    rw [List.mem_map] at he
    obtain ⟨o, _, rfl⟩ := he
    exact (mem_jobs hyears d).1 hd

theorem ne_fill {w : BitVec 16} {n : ℕ} (hn : n < 16) (h : w.getLsbD n = false) : w ≠ 65535 := by
  rintro rfl
  have : (65535 : BitVec 16) = BitVec.allOnes 16 := by decide
  rw [this, BitVec.getLsbD_allOnes] at h
  simp [hn] at h

/-- C139: a word of flags is never the value which means missing in a file of 16-bit words, so that reading a file gives what
was written. -/
theorem c139_words {x : Inputs} {s : Settings} {t : Date → Spec.Day} (hs : Spec.Consistent s)
    (hx : ∀ d, Spec.InYears s.startYear s.endYear d → Spec.Complete (x.files d) (t d)) {d : Date}
    {v : FlagField} {i j : ℕ} (hi : i < 720) (hj : j < 1440)
    (hv : thresholdFiles x s d = some v ∨ windowFiles x s d = some v ∨ calendarFiles x s d = some v ∨ outlierFiles x s d = some v ∨
      persistentFiles x s d = some v ∨ mergedFiles x s d = some v ∨ locationFiles x s d = some v) : v (i, j) ≠ 65535 := by
  have hd : ∀ (files : Files Cell) (P : Date → FlagField → Prop),
      ((Within s d → ∃ v, files d = some v ∧ P d v) ∧ (¬ Within s d → files d = none)) → files d = some v → P d v := by
    intro files P h hv
    by_cases hd : Within s d
    · obtain ⟨w, hw, hp⟩ := h.1 hd
      rw [hv] at hw
      cases hw
      exact hp
    · rw [h.2 hd] at hv
      exact absurd hv (by simp)
  rcases hv with hv | hv | hv | hv | hv | hv | hv
  · have h := hd _ _ (threshold_files hs hx d) hv i j hi hj
    refine ne_fill (n := 13) (by omega) ?_
    rw [← Bool.not_eq_true, h]; simp
  · have h := hd _ _ (window_files hs hx d) hv i j hi hj
    refine ne_fill (n := 13) (by omega) ?_
    rw [← Bool.not_eq_true, h]; simp
  · have h := hd _ _ (calendar_files hs hx d) hv i j hi hj
    refine ne_fill (n := 13) (by omega) ?_
    rw [← Bool.not_eq_true, h 13 (by omega) (by omega)]; simp
  · have h := hd _ _ (outlier_files hs hx d) hv i j hi hj
    refine ne_fill (n := 13) (by omega) ?_
    rw [← Bool.not_eq_true, h 13 (by omega)]; simp
  · have h := hd _ _ (persistent_files hs hx d) hv i j hi hj
    refine ne_fill (n := 13) (by omega) ?_
    rw [← Bool.not_eq_true, h 13 (by omega)]; simp
  · have h := hd _ _ (merged_files hs hx d) hv i j hi hj
    refine ne_fill (n := 13) (by omega) ?_
    rw [← Bool.not_eq_true, h 13 (by omega) (by omega) (by omega)]; simp
  · have h := hd _ _ (location_files hs hx d) hv i j
    refine ne_fill (n := 0) (by omega) ?_
    rw [← Bool.not_eq_true, h]; simp

end Verif.Eustace.Masking
