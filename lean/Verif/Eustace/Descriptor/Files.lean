import Verif.Eustace.Descriptor.Names
import Verif.Eustace.Descriptor.Fresh
import Verif.Eumopps.Names.Props

/-! C146: names of files of the data sets of a descriptor. -/

namespace Verif.Eustace.Descriptor
open Verif Verif.Eumopps.Names

/-- No fields for times and no directories. -/
def Spec.Plain (s : String) : Prop := ∀ x ∈ s.toList, x ≠ '%' ∧ x ≠ '/'

/-- The name of a file which there is once. -/
def Spec.fileOnce (n : String) : List Char := n.toList ++ ['/'] ++ n.toList ++ ".pickle".toList

/-- The name of a file for a month. -/
def Spec.fileMonth (n : String) (t : DateTime) : List Char :=
  n.toList ++ ['/'] ++ pad 4 t.date.year ++ ['/'] ++ n.toList ++ ['_'] ++ pad 4 t.date.year ++ pad 2 t.date.month ++ ".pickle".toList

/-- The name of a file for a day. -/
def Spec.fileDay (n ext : String) (t : DateTime) : List Char :=
  n.toList ++ ['/'] ++ pad 4 t.date.year ++ ['/'] ++ n.toList ++ ['_'] ++ pad 4 t.date.year ++ pad 2 t.date.month ++ pad 2 t.date.day ++
    '.' :: ext.toList

/-- `create_output_entry(patterns, ...).name` for an output at time `t` by class of the step (eumopps/catalogue/step.py 48-51, 105-118;
examples/step.py 124-139).  StepMonthly also makes the names of daily outputs, each with the time of its day. -/
def Spec.fileName (cls : String) (patterns : List String) (t : DateTime) : Except PyErr (List Char) :=
  if cls = "eumopps.catalogue.step.StepOnce" then joinAll (patterns.map String.toList) else filename (patterns.map String.toList) t

/-- The name which a file should have. -/
def Spec.expectedName (cls : String) (gridded : Prop) [Decidable gridded] (n : String) (t : DateTime) : List Char :=
  if cls = "eumopps.catalogue.step.StepOnce" then fileOnce n
  else if gridded then fileDay n "nc" t
  else if cls = "eumopps.catalogue.step.StepDaily" then fileDay n "pickle" t
  else fileMonth n t

theorem expand_fields (t : DateTime) {s r : List Char} (h : Expands (fields t) s r) : buildFromPattern s t = r :=
  expands_unique (c16_substitution s t) h

theorem directory_name {n : String} (hn : Spec.Plain n) (t : DateTime) :
    buildFromPattern (n ++ "/%Y/").toList t = n.toList ++ ['/'] ++ pad 4 t.date.year ++ ['/'] := by
  apply expand_fields
  have h : (n ++ "/%Y/").toList = n.toList ++ ['/', '%', 'Y', '/'] := by rw [String.toList_append]; rfl
  rw [h, List.append_assoc, List.append_assoc]
  refine Expands.clean (fun x hx => (hn x hx).1) ?_
  have h2 : Expands (fields t) ['/', '%', 'Y', '/'] ('/' :: (pad 4 t.date.year ++ ['/'])) :=
    .copy (by simp) (.field rfl (.copy (by simp) .nil))
  simpa using h2

theorem day_name {n ext : String} (hn : Spec.Plain n) (he : Spec.Plain ext) (t : DateTime) :
    buildFromPattern (n ++ "_%Y%m%d." ++ ext).toList t =
      n.toList ++ ('_' :: (pad 4 t.date.year ++ (pad 2 t.date.month ++ (pad 2 t.date.day ++ '.' :: ext.toList)))) := by
  apply expand_fields
  have h : (n ++ "_%Y%m%d." ++ ext).toList = n.toList ++ ('_' :: '%' :: 'Y' :: '%' :: 'm' :: '%' :: 'd' :: '.' :: ext.toList) := by
    rw [String.toList_append, String.toList_append, List.append_assoc]; rfl
  rw [h]
  refine Expands.clean (fun x hx => (hn x hx).1) ?_
  refine .copy (by simp) (.field rfl (.field rfl (.field rfl (.copy (by simp) ?_))))
  have := Expands.clean (f := fields t) (v := ext.toList) (fun x hx => (he x hx).1) .nil
  rwa [List.append_nil] at this

theorem month_name {n : String} (hn : Spec.Plain n) (t : DateTime) :
    buildFromPattern (n ++ "_%Y%m." ++ "pickle").toList t =
      n.toList ++ ('_' :: (pad 4 t.date.year ++ (pad 2 t.date.month ++ ".pickle".toList))) := by
  apply expand_fields
  have h : (n ++ "_%Y%m." ++ "pickle").toList = n.toList ++ ('_' :: '%' :: 'Y' :: '%' :: 'm' :: ".pickle".toList) := by
    rw [String.toList_append, String.toList_append, List.append_assoc]; rfl
  rw [h]
  refine Expands.clean (fun x hx => (hn x hx).1) ?_
  refine .copy (by simp) (.field rfl (.field rfl ?_))
  have := Expands.clean (f := fields t) (v := ".pickle".toList) (by decide) .nil
  rwa [List.append_nil] at this

theorem join_directory {a n r : List Char} {x : Char} (hx : x ≠ '/') (hn : ∀ y ∈ n, y ≠ '/') :
    join2 (a ++ ['/']) (n ++ x :: r) = a ++ ['/'] ++ n ++ x :: r := by
  unfold join2
  rw [if_neg, if_pos (.inr (by simp))]
  · simp
  · cases n with
    | nil => simpa using hx
    | cons y n => simpa using hn y (by simp)

theorem daily_file {n ext : String} (hn : Spec.Plain n) (he : Spec.Plain ext) (t : DateTime) :
    filename ((daily n ext).2.map String.toList) t = .ok (Spec.fileDay n ext t) := by
  have h : filename ((daily n ext).2.map String.toList) t =
      .ok (join2 (buildFromPattern (n ++ "/%Y/").toList t) (buildFromPattern (n ++ "_%Y%m%d." ++ ext).toList t)) := rfl
  rw [h, directory_name hn, day_name hn he, join_directory (by decide) (fun y hy => (hn y hy).2), Spec.fileDay]
  simp

theorem monthly_file {n : String} (hn : Spec.Plain n) (t : DateTime) :
    filename ((monthly n).2.map String.toList) t = .ok (Spec.fileMonth n t) := by
  have h : filename ((monthly n).2.map String.toList) t =
      .ok (join2 (buildFromPattern (n ++ "/%Y/").toList t) (buildFromPattern (n ++ "_%Y%m." ++ "pickle").toList t)) := rfl
  rw [h, directory_name hn, month_name hn, join_directory (by decide) (fun y hy => (hn y hy).2), Spec.fileMonth]
  simp

theorem once_file {n : String} (hn : Spec.Plain n) : joinAll ((once n).2.map String.toList) = .ok (Spec.fileOnce n) := by
  have h : joinAll ((once n).2.map String.toList) = .ok (join2 (n ++ "/").toList (n ++ "." ++ "pickle").toList) := rfl
  have h1 : (n ++ "/").toList = n.toList ++ ['/'] := by rw [String.toList_append]; rfl
  have h2 : (n ++ "." ++ "pickle").toList = n.toList ++ '.' :: "pickle".toList := by
    rw [String.toList_append, String.toList_append, List.append_assoc]; rfl
  rw [h, h1, h2, join_directory (by decide) (fun y hy => (hn y hy).2), Spec.fileOnce]
  simp

/-- The patterns of an operation. -/
def Patterned (i : ℤ) (ss : List String) (x : Facts) : Prop :=
  ∃ cls l, x.step = some cls ∧ x.patterns = some l ∧ ∀ e ∈ l, (∃ s ∈ ss, e.1 = numbered s i) ∧
    ((cls = "eumopps.catalogue.step.StepOnce" ∧ x.function ≠ some (fullName "output_grid_batch") ∧ e = once e.1) ∨
     (cls = "eumopps.catalogue.step.StepDaily" ∧ x.function ≠ some (fullName "output_grid_batch") ∧ e = daily e.1 "pickle") ∨
     (cls = "eustace.analysis.advanced_standard.examples.step.StepMonthly" ∧ x.function ≠ some (fullName "output_grid_batch") ∧ e = monthly e.1) ∨
     (cls = "eustace.analysis.advanced_standard.examples.step.StepMonthly" ∧ x.function = some (fullName "output_grid_batch") ∧
       e = daily e.1 "nc"))

theorem some_ne {a b : String} (h : a ≠ b) : some a ≠ some b := fun e => h (Option.some.inj e)

theorem measurement0_patterned (c : Config) (i : ℤ) {ss : List String} (h : c.measurementClimatologyName ∈ ss) :
    Patterned i ss (measurement0Facts c i) := by
  by_cases hi : i = 0
  · subst hi
    rw [measurement0Facts, if_pos rfl]
    refine ⟨_, _, rfl, rfl, ?_⟩
    intro e he
    rw [List.mem_singleton.1 he]
    exact ⟨⟨_, h, rfl⟩, .inr (.inr (.inl ⟨rfl, some_ne functions_ne.2.2.1, rfl⟩))⟩
  · rw [measurement0Facts, if_neg hi]
    refine ⟨_, _, rfl, rfl, ?_⟩
    intro e he
    rw [List.mem_singleton.1 he]
    exact ⟨⟨_, h, rfl⟩, .inr (.inr (.inl ⟨rfl, some_ne functions_ne.2.2.1, rfl⟩))⟩

theorem measurement1_patterned (c : Config) (i : ℤ) {ss : List String} (h : c.measurementLargeScaleName ∈ ss) :
    Patterned i ss (measurement1Facts c i) := by
  by_cases hi : i = 0
  · subst hi
    rw [measurement1Facts, if_pos rfl]
    refine ⟨_, _, rfl, rfl, ?_⟩
    intro e he
    rw [List.mem_singleton.1 he]
    exact ⟨⟨_, h, rfl⟩, .inr (.inr (.inl ⟨rfl, some_ne functions_ne.2.2.1, rfl⟩))⟩
  · rw [measurement1Facts, if_neg hi]
    refine ⟨_, _, rfl, rfl, ?_⟩
    intro e he
    rw [List.mem_singleton.1 he]
    exact ⟨⟨_, h, rfl⟩, .inr (.inr (.inl ⟨rfl, some_ne functions_ne.2.2.1, rfl⟩))⟩

/-- A pattern for something which there is once. -/
theorem patterned_once {x : Facts} {i : ℤ} {ss : List String} {ns : List String} (hs : x.step = some "eumopps.catalogue.step.StepOnce")
    (hf : x.function = some (fullName "solve")) (hp : x.patterns = some (ns.map once)) (hn : ∀ n ∈ ns, ∃ s ∈ ss, n = numbered s i) :
    Patterned i ss x := by
  refine ⟨_, _, hs, hp, ?_⟩
  intro e he
  obtain ⟨n, h, rfl⟩ := List.mem_map.1 he
  exact ⟨hn n h, .inl ⟨rfl, by rw [hf]; exact some_ne functions_ne.2.2.2.2.2, rfl⟩⟩

theorem patterned_local {x : Facts} {i : ℤ} {ss : List String} {ns : List String} (hs : x.step = some "eumopps.catalogue.step.StepDaily")
    (hf : x.function = some (fullName "process_inputs")) (hp : x.patterns = some (ns.map fun n => daily n "pickle"))
    (hn : ∀ n ∈ ns, ∃ s ∈ ss, n = numbered s i) : Patterned i ss x := by
  refine ⟨_, _, hs, hp, ?_⟩
  intro e he
  obtain ⟨n, h, rfl⟩ := List.mem_map.1 he
  exact ⟨hn n h, .inr (.inl ⟨rfl, by rw [hf]; exact some_ne functions_ne.2.2.2.2.1, rfl⟩)⟩

theorem patterned_grid {x : Facts} {i : ℤ} {ss : List String} {ns : List String}
    (hs : x.step = some "eustace.analysis.advanced_standard.examples.step.StepMonthly")
    (hf : x.function = some (fullName "output_grid_batch")) (hp : x.patterns = some (ns.map fun n => daily n "nc"))
    (hn : ∀ n ∈ ns, ∃ s ∈ ss, n = numbered s i) : Patterned i ss x := by
  refine ⟨_, _, hs, hp, ?_⟩
  intro e he
  obtain ⟨n, h, rfl⟩ := List.mem_map.1 he
  exact ⟨hn n h, .inr (.inr (.inr ⟨rfl, hf, rfl⟩))⟩

theorem iteration_patterned (c : Config) (i : ℤ) : ∀ x ∈ iterationFacts c i, Patterned i (stems c) x := by
  by_cases hg : c.gridNow i
  · have hs : stems c = griddedStems c := by rw [stems, if_pos hg.2]
    rw [iterationFacts, if_pos hg, hs]
    intro x hx
    simp only [griddedFacts, List.mem_cons, List.not_mem_nil, or_false] at hx
    rcases hx with rfl | rfl | rfl | rfl | rfl | rfl | rfl | rfl
    · exact measurement0_patterned c i (by simp [griddedStems])
    · exact patterned_once (ns := [numbered c.solutionClimatologyName i, numberedSample c.solutionClimatologyName i]) rfl rfl rfl
        (by simp only [List.mem_cons, List.not_mem_nil, or_false]
            rintro n (rfl | rfl)
            · exact ⟨_, by simp [griddedStems], rfl⟩
            · exact ⟨c.solutionClimatologyName ++ "_sample", by simp [griddedStems], by rw [sample_numbered]⟩)
    · exact patterned_once (ns := [numberedPrior c.solutionClimatologyName i]) rfl rfl rfl
        (by simp only [List.mem_cons, List.not_mem_nil, or_false]
            rintro n rfl
            exact ⟨c.solutionClimatologyName ++ "_prior_sample", by simp [griddedStems], by rw [prior_numbered]⟩)
    · exact measurement1_patterned c i (by simp [griddedStems])
    · exact patterned_once (ns := [numbered c.solutionLargeScaleName i, numberedSample c.solutionLargeScaleName i]) rfl rfl rfl
        (by simp only [List.mem_cons, List.not_mem_nil, or_false]
            rintro n (rfl | rfl)
            · exact ⟨_, by simp [griddedStems], rfl⟩
            · exact ⟨c.solutionLargeScaleName ++ "_sample", by simp [griddedStems], by rw [sample_numbered]⟩)
    · exact patterned_once (ns := [numberedPrior c.solutionLargeScaleName i]) rfl rfl rfl
        (by simp only [List.mem_cons, List.not_mem_nil, or_false]
            rintro n rfl
            exact ⟨c.solutionLargeScaleName ++ "_prior_sample", by simp [griddedStems], by rw [prior_numbered]⟩)
    · exact patterned_local (ns := [numbered c.solutionLocalScaleName i, numberedSample c.solutionLocalScaleName i,
          numberedPrior c.solutionLocalScaleName i]) rfl rfl rfl
        (by simp only [List.mem_cons, List.not_mem_nil, or_false]
            rintro n (rfl | rfl | rfl)
            · exact ⟨_, by simp [griddedStems], rfl⟩
            · exact ⟨c.solutionLocalScaleName ++ "_sample", by simp [griddedStems], by rw [sample_numbered]⟩
            · exact ⟨c.solutionLocalScaleName ++ "_prior_sample", by simp [griddedStems], by rw [prior_numbered]⟩)
    · exact patterned_grid (ns := [numbered c.outputGridName i, numbered c.outputClimatologyName i, numbered c.outputLargeScaleName i,
          numbered c.outputLocalName i]) rfl rfl rfl
        (by simp only [List.mem_cons, List.not_mem_nil, or_false]
            rintro n (rfl | rfl | rfl | rfl)
            all_goals exact ⟨_, by simp [griddedStems], rfl⟩)
  · have hs := plain_sublist c
    have hm : ∀ s ∈ plainStems c, s ∈ stems c := fun s h => hs.subset h
    rw [iterationFacts, if_neg hg]
    intro x hx
    simp only [plainFacts, List.mem_cons, List.not_mem_nil, or_false] at hx
    rcases hx with rfl | rfl | rfl | rfl | rfl
    · exact measurement0_patterned c i (hm _ (by simp [plainStems]))
    · exact patterned_once (ns := [numbered c.solutionClimatologyName i]) rfl rfl rfl
        (fun n hn => ⟨_, hm _ (by simp [plainStems]), List.mem_singleton.1 hn⟩)
    · exact measurement1_patterned c i (hm _ (by simp [plainStems]))
    · exact patterned_once (ns := [numbered c.solutionLargeScaleName i]) rfl rfl rfl
        (fun n hn => ⟨_, hm _ (by simp [plainStems]), List.mem_singleton.1 hn⟩)
    · exact patterned_local (ns := [numbered c.solutionLocalScaleName i]) rfl rfl rfl
        (fun n hn => ⟨_, hm _ (by simp [plainStems]), List.mem_singleton.1 hn⟩)

theorem nat_plain (m : ℕ) : Spec.Plain (toString m) := by
  intro x hx
  have hm : (toString m).toList = Nat.toDigits 10 m := by simp
  rw [hm] at hx
  have h := Nat.isDigit_of_mem_toDigits (b := 10) (by decide) (by decide) hx
  constructor
  · rintro rfl; exact absurd h (by decide)
  · rintro rfl; exact absurd h (by decide)

theorem numbered_plain {s : String} (hs : Spec.Plain s) (i : ℤ) : Spec.Plain (numbered s i) := by
  intro x hx
  unfold numbered at hx
  rw [String.toList_append, String.toList_append] at hx
  rcases List.mem_append.1 hx with hx | hx
  · rcases List.mem_append.1 hx with hx | hx
    · exact hs x hx
    · have : x = '_' := by simpa using hx
      subst this
      decide
  · cases i with
    | ofNat m => exact nat_plain m x hx
    | negSucc m =>
      have : toString (Int.negSucc m) = "-" ++ toString (m + 1) := rfl
      rw [this, String.toList_append] at hx
      rcases List.mem_append.1 hx with hx | hx
      · have : x = '-' := by simpa using hx
        subst this
        decide
      · exact nat_plain (m + 1) x hx

/-- **C146.** If the names of data sets contain neither '/' nor '%', then the files of every data set which an operation adds have the
names which are expected: one file for solutions, one for each month of measurement updates, one for each day of local solutions and of
the analysis. -/
theorem c146_files {c : Config} (h0 : 0 ≤ c.first) (hn : (stems c).Nodup) (hp : ∀ s ∈ stems c, Spec.Plain s) {d : Json}
    (hd : createBatchDescriptor c false = .ok d) {op : Json} (ho : op ∈ Spec.operations d) :
    ∃ cls l, Spec.stepClass op = some cls ∧ Spec.createsPatterns op = some l ∧ ∀ n p, (n, p) ∈ l → Spec.Plain n ∧ ∀ t,
      Spec.fileName cls p t = .ok (Spec.expectedName cls
        (Spec.function op = some "eustace.analysis.advanced_standard.examples.moving_climatology.output_grid_batch") n t) := by
  have h := descriptor_all (Q := fun x => ∃ i, Patterned i (stems c) x) h0 hn hd (fun i _ x hx => ⟨i, iteration_patterned c i x hx⟩) ho
  obtain ⟨i, cls, l, h1, h2, h3⟩ := h
  refine ⟨cls, l, h1, h2, ?_⟩
  intro n p he
  obtain ⟨⟨s, hs, hne⟩, h4⟩ := h3 (n, p) he
  have hpl : Spec.Plain n := by
    have := numbered_plain (hp s hs) i
    rw [← hne] at this
    exact this
  refine ⟨hpl, fun t => ?_⟩
  have hnc : Spec.Plain "nc" := by unfold Spec.Plain; decide
  have hpi : Spec.Plain "pickle" := by unfold Spec.Plain; decide
  have d1 : ("eumopps.catalogue.step.StepDaily" : String) ≠ "eumopps.catalogue.step.StepOnce" := by decide +kernel
  have d2 : ("eustace.analysis.advanced_standard.examples.step.StepMonthly" : String) ≠ "eumopps.catalogue.step.StepOnce" := by decide +kernel
  have d3 : ("eustace.analysis.advanced_standard.examples.step.StepMonthly" : String) ≠ "eumopps.catalogue.step.StepDaily" := by decide +kernel
  unfold Spec.fileName Spec.expectedName
  have hfun : (facts op).function = Spec.function op := rfl
  have hfull : fullName "output_grid_batch" = "eustace.analysis.advanced_standard.examples.moving_climatology.output_grid_batch" := rfl
  rw [hfun, hfull] at h4
  rcases h4 with ⟨rfl, hf, h5⟩ | ⟨rfl, hf, h5⟩ | ⟨rfl, hf, h5⟩ | ⟨rfl, hf, h5⟩
  · have hp : p = (once n).2 := congrArg Prod.snd h5
    rw [if_pos rfl, if_pos rfl, hp, once_file hpl]
  · have hp : p = (daily n "pickle").2 := congrArg Prod.snd h5
    rw [if_neg d1, if_neg d1, if_neg hf, if_pos rfl, hp, daily_file hpl hpi]
  · have hp : p = (monthly n).2 := congrArg Prod.snd h5
    rw [if_neg d2, if_neg d2, if_neg hf, if_neg d3, hp, monthly_file hpl]
  · have hp : p = (daily n "nc").2 := congrArg Prod.snd h5
    rw [if_neg d2, if_neg d2, if_pos hf, hp, daily_file hpl hnc]

theorem plain_prefix {n n' : String} (hn : Spec.Plain n) (hn' : Spec.Plain n') {r r' : List Char}
    (h : n.toList ++ '/' :: r = n'.toList ++ '/' :: r') : n = n' ∧ r = r' := by
  have key : ∀ (a b : List Char), (∀ x ∈ a, x ≠ '/') → (∀ x ∈ b, x ≠ '/') → ∀ r r', a ++ '/' :: r = b ++ '/' :: r' → a = b ∧ r = r' := by
    intro a
    induction a with
    | nil =>
      intro b _ hb r r' h
      cases b with
      | nil => exact ⟨rfl, by simpa using h⟩
      | cons y b => simp only [List.nil_append, List.cons_append, List.cons.injEq] at h; exact absurd h.1.symm (hb y (by simp))
    | cons x a ih =>
      intro b ha hb r r' h
      cases b with
      | nil => simp only [List.nil_append, List.cons_append, List.cons.injEq] at h; exact absurd h.1 (ha x (by simp))
      | cons y b =>
        simp only [List.cons_append, List.cons.injEq] at h
        obtain ⟨h1, h2⟩ := ih b (fun z hz => ha z (by simp [hz])) (fun z hz => hb z (by simp [hz])) r r' h.2
        exact ⟨by rw [h.1, h1], h2⟩
  obtain ⟨h1, h2⟩ := key _ _ (fun x hx => (hn x hx).2) (fun x hx => (hn' x hx).2) _ _ h
  exact ⟨String.toList_inj.1 h1, h2⟩

theorem expected_prefix (cls : String) (gridded : Prop) [Decidable gridded] (n : String) (t : DateTime) :
    ∃ r, Spec.expectedName cls gridded n t = n.toList ++ '/' :: r := by
  unfold Spec.expectedName
  split
  · exact ⟨n.toList ++ ".pickle".toList, by simp [Spec.fileOnce]⟩
  · split
    · exact ⟨pad 4 t.date.year ++ '/' :: n.toList ++ '_' :: pad 4 t.date.year ++ pad 2 t.date.month ++ pad 2 t.date.day ++ '.' :: "nc".toList,
        by simp [Spec.fileDay]⟩
    · split
      · exact ⟨pad 4 t.date.year ++ '/' :: n.toList ++ '_' :: pad 4 t.date.year ++ pad 2 t.date.month ++ pad 2 t.date.day ++ '.' :: "pickle".toList,
          by simp [Spec.fileDay]⟩
      · exact ⟨pad 4 t.date.year ++ '/' :: n.toList ++ '_' :: pad 4 t.date.year ++ pad 2 t.date.month ++ ".pickle".toList, by simp [Spec.fileMonth]⟩

/-- **C146.** Files of different data sets of a descriptor never have the same name, whatever the operations and times. -/
theorem c146_disjoint {c : Config} (h0 : 0 ≤ c.first) (hn : (stems c).Nodup) (hp : ∀ s ∈ stems c, Spec.Plain s) {d : Json}
    (hd : createBatchDescriptor c false = .ok d) {op op' : Json} (ho : op ∈ Spec.operations d) (ho' : op' ∈ Spec.operations d)
    {cls cls' : String} (hc : Spec.stepClass op = some cls) (hc' : Spec.stepClass op' = some cls') {l l' : List (String × List String)}
    (hl : Spec.createsPatterns op = some l) (hl' : Spec.createsPatterns op' = some l') {n n' : String} {p p' : List String}
    (hm : (n, p) ∈ l) (hm' : (n', p') ∈ l') {t t' : DateTime} (h : Spec.fileName cls p t = Spec.fileName cls' p' t') : n = n' := by
  obtain ⟨_, _, h1, h2, h3⟩ := c146_files h0 hn hp hd ho
  obtain ⟨_, _, h1', h2', h3'⟩ := c146_files h0 hn hp hd ho'
  rw [hc, Option.some.injEq] at h1
  rw [hc', Option.some.injEq] at h1'
  rw [hl, Option.some.injEq] at h2
  rw [hl', Option.some.injEq] at h2'
  subst h1 h1' h2 h2'
  obtain ⟨hpl, h4⟩ := h3 n p hm
  obtain ⟨hpl', h4'⟩ := h3' n' p' hm'
  rw [h4 t, h4' t', Except.ok.injEq] at h
  obtain ⟨r, hr⟩ := expected_prefix cls (Spec.function op = some "eustace.analysis.advanced_standard.examples.moving_climatology.output_grid_batch") n t
  obtain ⟨r', hr'⟩ := expected_prefix cls' (Spec.function op' = some "eustace.analysis.advanced_standard.examples.moving_climatology.output_grid_batch") n' t'
  rw [hr, hr'] at h
  exact (plain_prefix hpl hpl' h).1

theorem month_day_small {d : Calendar.Date} (hv : d.Valid) : d.month < 10 ^ 2 ∧ d.day < 10 ^ 2 := by
  have h1 := hv.2.1
  have h2 := hv.2.2.2
  have h3 : Calendar.daysInMonth d.year d.month ≤ 31 := by unfold Calendar.daysInMonth; split <;> split <;> omega
  omega

theorem split_pad {k a b : ℕ} {r r' : List Char} (h : pad k a ++ r = pad k b ++ r') : pad k a = pad k b ∧ r = r' :=
  List.append_inj h (by rw [pad_length, pad_length])

/-- **C146.** Files of a data set for different days have different names if there is one for each day, and files for different months if
there is one for each month. -/
theorem c146_times (n ext : String) {t t' : DateTime} (hv : t.date.Valid) (hv' : t'.date.Valid) (hy : t.date.year < 10000)
    (hy' : t'.date.year < 10000) :
    (Spec.fileDay n ext t = Spec.fileDay n ext t' → t.date = t'.date) ∧
    (Spec.fileMonth n t = Spec.fileMonth n t' → t.date.year = t'.date.year ∧ t.date.month = t'.date.month) := by
  constructor
  · intro h
    simp only [Spec.fileDay, List.append_assoc, List.append_cancel_left_eq] at h
    obtain ⟨h1, h⟩ := split_pad h
    simp only [List.append_cancel_left_eq] at h
    obtain ⟨-, h⟩ := split_pad h
    obtain ⟨h2, h⟩ := split_pad h
    obtain ⟨h3, -⟩ := split_pad h
    have e1 := pad_inj 4 (by omega) (by omega) h1
    have e2 := pad_inj 2 (month_day_small hv).1 (month_day_small hv').1 h2
    have e3 := pad_inj 2 (month_day_small hv).2 (month_day_small hv').2 h3
    cases h : t.date; cases h' : t'.date
    rw [h, h'] at e1 e2 e3
    simp_all
  · intro h
    simp only [Spec.fileMonth, List.append_assoc, List.append_cancel_left_eq] at h
    obtain ⟨h1, h⟩ := split_pad h
    simp only [List.append_cancel_left_eq] at h
    obtain ⟨-, h⟩ := split_pad h
    obtain ⟨h2, -⟩ := split_pad h
    exact ⟨pad_inj 4 (by omega) (by omega) h1, pad_inj 2 (month_day_small hv).1 (month_day_small hv').1 h2⟩

end Verif.Eustace.Descriptor
